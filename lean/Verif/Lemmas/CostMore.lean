import Verif.Lemmas.CostBound
import Verif.Model.CostMore
/-! Running times of the other kernels: without the counter they are the kernels of the model. -/
namespace Sparse
open MT

theorem MT.outcome_resizeT (l : List α) (n : Nat) (x : α) : (l.resizeT n x).outcome = pure (l.resize n x) := rfl
theorem MT.outcome_sliceT (l : List α) (a b : Nat) : (l.sliceT a b).outcome = l.slice a b := rfl

theorem bindEq {m m' : M α} {f g : α → M β} (h : m = m') (h2 : ∀ a, f a = g a) : (m >>= f) = (m' >>= g) := by
  rw [h, funext h2]
theorem forInEq {l : List α} {s : σ} {f g : α → σ → M (ForInStep σ)} (h : ∀ a s, f a s = g a s) : forIn l s f = forIn l s g := by
  rw [show f = g from funext fun a => funext fun s => h a s]

/-- equality of two programs that differ only in how they treat the counter under a `match` -/
macro "eqm" : tactic => `(tactic| repeat' (first
  | (with_reducible rfl)
  | (refine bindEq ?_ fun _ => ?_)
  | (refine forInEq fun _ _ => ?_)
  | (split)
  | (erase [])
  | rfl))

section
variable {T T2 : Type}

theorem csr_scale_rowsT_outcome [Mul T] (n_row : Nat) (a_p : List Int) (a_x0 x_x : List T) :
    (csr_scale_rowsT n_row a_p a_x0 x_x).outcome = csr_scale_rows n_row a_p a_x0 x_x := by
  unfold csr_scale_rowsT csr_scale_rows
  erase [MT.outcome_resizeT, MT.outcome_sliceT]

theorem csr_scale_columnsT_outcome [Mul T] (n_row : Nat) (a_p a_j : List Int) (a_x0 x_x : List T) :
    (csr_scale_columnsT n_row a_p a_j a_x0 x_x).outcome = csr_scale_columns n_row a_p a_j a_x0 x_x := by
  unfold csr_scale_columnsT csr_scale_columns
  erase [MT.outcome_resizeT, MT.outcome_sliceT]

theorem csr_todenseT_outcome [Add T] (n_row : Nat) (a_p a_j : List Int) (a_x : List T) (b_x0 : List (List T)) :
    (csr_todenseT n_row a_p a_j a_x b_x0).outcome = csr_todense n_row a_p a_j a_x b_x0 := by
  unfold csr_todenseT csr_todense
  erase [MT.outcome_resizeT, MT.outcome_sliceT]

theorem csr_has_sorted_indicesT_outcome (t : IdxTy) (n_row : Nat) (a_p a_j : List Int) :
    (csr_has_sorted_indicesT t n_row a_p a_j).outcome = csr_has_sorted_indices t n_row a_p a_j := by
  unfold csr_has_sorted_indicesT csr_has_sorted_indices
  erase [MT.outcome_resizeT, MT.outcome_sliceT]
  eqm

theorem csr_has_canonical_formatT_outcome (t : IdxTy) (n_row : Nat) (a_p a_j : List Int) :
    (csr_has_canonical_formatT t n_row a_p a_j).outcome = csr_has_canonical_format t n_row a_p a_j := by
  unfold csr_has_canonical_formatT csr_has_canonical_format
  erase [MT.outcome_resizeT, MT.outcome_sliceT]
  eqm

theorem binop_accumT_outcome [Add T] (t : IdxTy) (i_start i_end : Nat) (a_j : List Int) (a_x : List T) (next0 : List Int) (row0 : List T) (head0 length0 : Int) :
    (binop_accumT t i_start i_end a_j a_x next0 row0 head0 length0).outcome = binop_accum t i_start i_end a_j a_x next0 row0 head0 length0 := by
  unfold binop_accumT binop_accum
  erase [MT.outcome_resizeT, MT.outcome_sliceT]

theorem binop_flushT_outcome [Zero T] (t : IdxTy) (op : T → T → T2) (nz : T2 → Bool) (length head0 : Int) (next0 : List Int) (a_row0 b_row0 : List T) (nnz0 : Int) (c_j0 : List Int) (c_x0 : List T2) :
    (binop_flushT t op nz length head0 next0 a_row0 b_row0 nnz0 c_j0 c_x0).outcome = binop_flush t op nz length head0 next0 a_row0 b_row0 nnz0 c_j0 c_x0 := by
  unfold binop_flushT binop_flush
  erase [MT.outcome_resizeT, MT.outcome_sliceT]

theorem csr_binop_csr_generalT_outcome [Zero T] [Add T] (t : IdxTy) (n_row n_col : Nat) (a_p a_j : List Int) (a_x : List T) (b_p b_j : List Int) (b_x : List T) (c_p0 c_j0 : List Int) (c_x0 : List T2) (op : T → T → T2) (nz : T2 → Bool) :
    (csr_binop_csr_generalT t n_row n_col a_p a_j a_x b_p b_j b_x c_p0 c_j0 c_x0 op nz).outcome = csr_binop_csr_general t n_row n_col a_p a_j a_x b_p b_j b_x c_p0 c_j0 c_x0 op nz := by
  unfold csr_binop_csr_generalT csr_binop_csr_general
  erase [MT.outcome_resizeT, MT.outcome_sliceT, binop_accumT_outcome, binop_flushT_outcome]

theorem binop_emitT_outcome (nz : T2 → Bool) (j : Int) (result : T2) (nnz : Nat) (c_j : List Int) (c_x : List T2) :
    (binop_emitT nz j result nnz c_j c_x).outcome = binop_emit nz j result nnz c_j c_x := by
  unfold binop_emitT binop_emit
  erase [MT.outcome_resizeT, MT.outcome_sliceT]

theorem canonical_mergeT_outcome [Zero T] (a_j : List Int) (a_x : List T) (b_j : List Int) (b_x : List T) (op : T → T → T2) (nz : T2 → Bool) (a_end b_end : Nat) (s : Nat × Nat × Nat × List Int × List T2) :
    (canonical_mergeT a_j a_x b_j b_x op nz a_end b_end s).outcome = canonical_merge a_j a_x b_j b_x op nz a_end b_end s := by
  unfold canonical_mergeT canonical_merge
  erase [MT.outcome_resizeT, MT.outcome_sliceT, binop_emitT_outcome]

theorem tail_emitT_outcome (nz : T2 → Bool) (a_j : List Int) (a_pos : Nat) (result : T2) (nnz : Nat) (c_j : List Int) (c_x : List T2) :
    (tail_emitT nz a_j a_pos result nnz c_j c_x).outcome = tail_emit nz a_j a_pos result nnz c_j c_x := by
  unfold tail_emitT tail_emit
  erase [MT.outcome_resizeT, MT.outcome_sliceT]

theorem canonical_tailT_outcome (a_j : List Int) (a_x : List T) (f : T → T2) (nz : T2 → Bool) (a_end : Nat) (s : Nat × Nat × List Int × List T2) :
    (canonical_tailT a_j a_x f nz a_end s).outcome = canonical_tail a_j a_x f nz a_end s := by
  unfold canonical_tailT canonical_tail
  erase [MT.outcome_resizeT, MT.outcome_sliceT, tail_emitT_outcome]

theorem csr_binop_csr_canonicalT_outcome [Zero T] (t : IdxTy) (n_row : Nat) (a_p a_j : List Int) (a_x : List T) (b_p b_j : List Int) (b_x : List T) (c_p0 c_j0 : List Int) (c_x0 : List T2) (op : T → T → T2) (nz : T2 → Bool) :
    (csr_binop_csr_canonicalT t n_row a_p a_j a_x b_p b_j b_x c_p0 c_j0 c_x0 op nz).outcome = csr_binop_csr_canonical t n_row a_p a_j a_x b_p b_j b_x c_p0 c_j0 c_x0 op nz := by
  unfold csr_binop_csr_canonicalT csr_binop_csr_canonical
  erase [MT.outcome_resizeT, MT.outcome_sliceT, canonical_mergeT_outcome, canonical_tailT_outcome]

theorem csr_binop_csrT_outcome [Zero T] [Add T] (t : IdxTy) (n_row n_col : Nat) (a_p a_j : List Int) (a_x : List T) (b_p b_j : List Int) (b_x : List T) (c_p c_j : List Int) (c_x : List T2) (op : T → T → T2) (nz : T2 → Bool) :
    (csr_binop_csrT t n_row n_col a_p a_j a_x b_p b_j b_x c_p c_j c_x op nz).outcome = csr_binop_csr t n_row n_col a_p a_j a_x b_p b_j b_x c_p c_j c_x op nz := by
  unfold csr_binop_csrT csr_binop_csr
  erase [MT.outcome_resizeT, MT.outcome_sliceT, csr_has_canonical_formatT_outcome, csr_binop_csr_generalT_outcome, csr_binop_csr_canonicalT_outcome]

theorem sum_runT_outcome [Add T] (row_end : Nat) (j : Int) (a_j : List Int) (a_x : List T) (s : Nat × T) :
    (sum_runT row_end j a_j a_x s).outcome = sum_run row_end j a_j a_x s := by
  unfold sum_runT sum_run
  erase [MT.outcome_resizeT, MT.outcome_sliceT]

theorem sum_rowT_outcome [Add T] (row_end : Nat) (s : Nat × Nat × List Int × List T) :
    (sum_rowT row_end s).outcome = sum_row row_end s := by
  unfold sum_rowT sum_row
  erase [MT.outcome_resizeT, MT.outcome_sliceT, sum_runT_outcome]

theorem csr_sum_duplicatesT_outcome [Add T] (t : IdxTy) (n_row : Nat) (a_p0 a_j0 : List Int) (a_x0 : List T) :
    (csr_sum_duplicatesT t n_row a_p0 a_j0 a_x0).outcome = csr_sum_duplicates t n_row a_p0 a_j0 a_x0 := by
  unfold csr_sum_duplicatesT csr_sum_duplicates
  erase [MT.outcome_resizeT, MT.outcome_sliceT, sum_rowT_outcome]

theorem elim_rowT_outcome [Zero T] [BEq T] (row_end : Nat) (s : Nat × Nat × List Int × List T) :
    (elim_rowT row_end s).outcome = elim_row row_end s := by
  unfold elim_rowT elim_row
  erase [MT.outcome_resizeT, MT.outcome_sliceT]

theorem csr_eliminate_zerosT_outcome [Zero T] [BEq T] (t : IdxTy) (n_row : Nat) (a_p0 a_j0 : List Int) (a_x0 : List T) :
    (csr_eliminate_zerosT t n_row a_p0 a_j0 a_x0).outcome = csr_eliminate_zeros t n_row a_p0 a_j0 a_x0 := by
  unfold csr_eliminate_zerosT csr_eliminate_zeros
  erase [MT.outcome_resizeT, MT.outcome_sliceT, elim_rowT_outcome]

theorem axpyT_outcome [Add T] [Mul T] (n : Nat) (a : T) (x : List T) (xo : Nat) (y0 : List T) (yo : Nat) :
    (axpyT n a x xo y0 yo).outcome = axpy n a x xo y0 yo := by
  unfold axpyT axpy
  erase [MT.outcome_resizeT, MT.outcome_sliceT]

theorem csr_matvecsT_outcome [Add T] [Mul T] (n_row n_vecs : Nat) (a_p a_j : List Int) (a_x x_x y_x0 : List T) :
    (csr_matvecsT n_row n_vecs a_p a_j a_x x_x y_x0).outcome = csr_matvecs n_row n_vecs a_p a_j a_x x_x y_x0 := by
  unfold csr_matvecsT csr_matvecs
  erase [MT.outcome_resizeT, MT.outcome_sliceT, axpyT_outcome]

theorem csc_matvecsT_outcome [Add T] [Mul T] (n_col n_vecs : Nat) (a_p a_i : List Int) (a_x x_x y_x0 : List T) :
    (csc_matvecsT n_col n_vecs a_p a_i a_x x_x y_x0).outcome = csc_matvecs n_col n_vecs a_p a_i a_x x_x y_x0 := by
  unfold csc_matvecsT csc_matvecs
  erase [MT.outcome_resizeT, MT.outcome_sliceT, axpyT_outcome]

theorem select_countT_outcome (a_p a_j : List Int) (rowidx colidx : List Int) :
    (select_countT a_p a_j rowidx colidx).outcome = select_count a_p a_j rowidx colidx := by
  unfold select_countT select_count
  erase [MT.outcome_resizeT, MT.outcome_sliceT]

theorem csr_selectT_outcome [Zero T] (t : IdxTy) (a_p a_j : List Int) (a_x : List T) (rowidx colidx : List Int) (b_p0 b_j0 : List Int) (b_x0 : List T) :
    (csr_selectT t a_p a_j a_x rowidx colidx b_p0 b_j0 b_x0).outcome = csr_select t a_p a_j a_x rowidx colidx b_p0 b_j0 b_x0 := by
  unfold csr_selectT csr_select
  erase [MT.outcome_resizeT, MT.outcome_sliceT, select_countT_outcome]
  eqm
  all_goals simp_all

theorem submatrix_countT_outcome (new_n_row uir0 : Nat) (a_p a_j : List Int) (ic0 ic1 : Int) :
    (submatrix_countT new_n_row uir0 a_p a_j ic0 ic1).outcome = submatrix_count new_n_row uir0 a_p a_j ic0 ic1 := by
  unfold submatrix_countT submatrix_count
  erase [MT.outcome_resizeT, MT.outcome_sliceT]

theorem get_csr_submatrixT_outcome [Zero T] (t : IdxTy) (a_p a_j : List Int) (a_x : List T) (ir0 ir1 ic0 ic1 : Int) (b_p0 b_j0 : List Int) (b_x0 : List T) :
    (get_csr_submatrixT t a_p a_j a_x ir0 ir1 ic0 ic1 b_p0 b_j0 b_x0).outcome = get_csr_submatrix t a_p a_j a_x ir0 ir1 ic0 ic1 b_p0 b_j0 b_x0 := by
  unfold get_csr_submatrixT get_csr_submatrix
  erase [MT.outcome_resizeT, MT.outcome_sliceT, submatrix_countT_outcome]

theorem csr_row_indexT_outcome (n_row_idx : Nat) (rows : List Nat) (a_p a_j : List Int) (a_x : List T) (b_j0 : List Int) (b_x0 : List T) :
    (csr_row_indexT n_row_idx rows a_p a_j a_x b_j0 b_x0).outcome = csr_row_index n_row_idx rows a_p a_j a_x b_j0 b_x0 := by
  unfold csr_row_indexT csr_row_index
  erase [MT.outcome_resizeT, MT.outcome_sliceT]

theorem csr_column_index1T_outcome (t : IdxTy) (n_idx : Nat) (col_idxs : List Nat) (n_row n_col : Nat) (a_p a_j : List Int) (col_offsets0 b_p0 : List Int) :
    (csr_column_index1T t n_idx col_idxs n_row n_col a_p a_j col_offsets0 b_p0).outcome = csr_column_index1 t n_idx col_idxs n_row n_col a_p a_j col_offsets0 b_p0 := by
  unfold csr_column_index1T csr_column_index1
  erase [MT.outcome_resizeT, MT.outcome_sliceT]

theorem csr_column_index2T_outcome (col_order col_offsets : List Int) (nnz : Nat) (a_j : List Int) (a_x : List T) (b_j0 : List Int) (b_x0 : List T) :
    (csr_column_index2T col_order col_offsets nnz a_j a_x b_j0 b_x0).outcome = csr_column_index2 col_order col_offsets nnz a_j a_x b_j0 b_x0 := by
  unfold csr_column_index2T csr_column_index2
  erase [MT.outcome_resizeT, MT.outcome_sliceT]

theorem csr_tocooT_outcome (t : IdxTy) (n_row : Nat) (a_p a_j : List Int) (a_x : List T) (a_i0 b_j0 : List Int) (b_x0 : List T) :
    (csr_tocooT t n_row a_p a_j a_x a_i0 b_j0 b_x0).outcome = csr_tocoo t n_row a_p a_j a_x a_i0 b_j0 b_x0 := by
  unfold csr_tocooT csr_tocoo
  erase [MT.outcome_resizeT, MT.outcome_sliceT]

theorem coo_todenseT_outcome [Add T] (n_row n_col nnz : Nat) (a_i a_j : List Int) (a_x : List T) (b_x0 : List T) (fortran : Bool) :
    (coo_todenseT n_row n_col nnz a_i a_j a_x b_x0 fortran).outcome = coo_todense n_row n_col nnz a_i a_j a_x b_x0 fortran := by
  unfold coo_todenseT coo_todense
  erase [MT.outcome_resizeT, MT.outcome_sliceT]
end
end Sparse

import Verif.SpecScalar
/-!
Every function with scalar operations that may panic is related to the same function with exact operations (C75).
-/
namespace Sparse

theorem SameOrArith.refl (m : M α) : SameOrArith m m := .inl rfl

theorem SameOrArith.left {m : M α} {a : α} {f : α → M β} {m' : M β} (h : SameOrArith m (.ok a)) (hf : SameOrArith (f a) m') :
    SameOrArith (m >>= f) m' := by
  rcases h with rfl | rfl
  · exact hf
  · exact .inr rfl

theorem SameOrArith.bind {m m' : M α} {f f' : α → M β} (h : SameOrArith m m') (hf : ∀ a, SameOrArith (f a) (f' a)) :
    SameOrArith (m >>= f) (m' >>= f') := by
  rcases h with rfl | rfl
  · cases m with
    | ok a => exact hf a
    | error e => exact .inl rfl
  · exact .inr rfl

theorem SameOrArith.map {m m' : M α} {f : α → β} (h : SameOrArith m m') : SameOrArith (f <$> m) (f <$> m') := by
  rcases h with rfl | rfl
  · exact .inl rfl
  · exact .inr rfl

theorem SameOrArith.ite {c : Prop} [Decidable c] {a b a' b' : M α} (h1 : SameOrArith a a') (h2 : SameOrArith b b') :
    SameOrArith (if c then a else b) (if c then a' else b') := by
  split <;> assumption

theorem SameOrArith.forIn {l : List α} {s : σ} {f f' : α → σ → M (ForInStep σ)} (h : ∀ a s, SameOrArith (f a s) (f' a s)) :
    SameOrArith (forIn l s f) (forIn l s f') := by
  induction l generalizing s with
  | nil => exact .inl rfl
  | cons a l ih =>
    rw [List.forIn_cons, List.forIn_cons]
    refine (h a s).bind fun r => ?_
    cases r with
    | done b => exact .inl rfl
    | yield b => exact ih

theorem SameOrArith.whileM {fuel : Nat} {s : σ} {f f' : σ → M (ForInStep σ)} (h : ∀ s, SameOrArith (f s) (f' s)) :
    SameOrArith (whileM fuel s f) (whileM fuel s f') := by
  induction fuel generalizing s with
  | zero => exact .inl rfl
  | succ n ih =>
    refine (h s).bind fun r => ?_
    cases r with
    | done b => exact .inl rfl
    | yield b => exact ih

theorem SameOrArith.unwrapR {m m' : M α} (h : SameOrArith m m') : SameOrArith (unwrapR m) (unwrapR m') := by
  rcases h with rfl | rfl
  · exact .inl rfl
  · exact .inr rfl

theorem SameOrArith.mapM_map {g : α → M β} {g' : α → β} (h : ∀ a, SameOrArith (g a) (.ok (g' a))) (l : List α) :
    SameOrArith (l.mapM g) (.ok (l.map g')) := by
  induction l with
  | nil => exact .inl rfl
  | cons a l ih =>
    rw [List.mapM_cons, List.map_cons]
    exact .left (h a) (.left ih (.inl rfl))

/-- go through the code of two functions that differ in the scalar operations -/
syntax "scal" " [" term,* "]" (" with " term)? : tactic
macro_rules
  | `(tactic| scal [$ts,*]) => `(tactic| scal [$ts,*] with trivial)
  | `(tactic| scal [$ts,*] with $h) => do
    let alts ← ts.getElems.mapM fun x => `(tactic| (with_reducible apply $x <;> assumption))
    `(tactic| repeat' first
      | with_reducible exact SameOrArith.refl _
      | intro _
      | with_reducible refine SameOrArith.left (Ops.Exact.add (by assumption) _ _) ?_
      | with_reducible refine SameOrArith.left (Ops.Exact.sub (by assumption) _ _) ?_
      | with_reducible refine SameOrArith.left (Ops.Exact.mul (by assumption) _ _) ?_
      | with_reducible refine SameOrArith.left (SameOrArith.mapM_map (Ops.Exact.neg (by assumption)) _) ?_
      | with_reducible refine SameOrArith.left (SameOrArith.mapM_map (fun v => Ops.Exact.mul (by assumption) _ _) _) ?_
      | with_reducible refine SameOrArith.left ($h _ _) ?_
      | with_reducible refine SameOrArith.left ($h _) ?_
      $[| $alts:tactic]*
      | with_reducible assumption
      | with_reducible apply SameOrArith.bind
      | with_reducible apply SameOrArith.ite
      | with_reducible apply SameOrArith.forIn
      | with_reducible apply SameOrArith.map
      | with_reducible apply SameOrArith.whileM
      | with_reducible apply SameOrArith.unwrapR
      | split
      | dsimp only)

section
variable {T T2 : Type} [Zero T] [Add T] [Sub T] [Mul T] [Neg T] [BEq T] {o : Ops T}

theorem coo_todense_sc (ho : o.Exact) (n_row n_col nnz : Nat) (a_i a_j : List Int) (a_x : List T) (b_x0 : List T) (fortran : Bool) :
    SameOrArith (coo_todenseS o n_row n_col nnz a_i a_j a_x b_x0 fortran) (coo_todense n_row n_col nnz a_i a_j a_x b_x0 fortran) := by
  unfold coo_todenseS coo_todense; scal []

theorem coo_matvec_sc (ho : o.Exact) (nnz : Nat) (a_i a_j : List Int) (a_x x_x y_x0 : List T) :
    SameOrArith (coo_matvecS o nnz a_i a_j a_x x_x y_x0) (coo_matvec nnz a_i a_j a_x x_x y_x0) := by
  unfold coo_matvecS coo_matvec; scal []

theorem csr_diagonal_sc (ho : o.Exact) (k : Int) (n_row n_col : Nat) (a_p a_j : List Int) (a_x : List T) (y_x0 : List T) :
    SameOrArith (csr_diagonalS o k n_row n_col a_p a_j a_x y_x0) (csr_diagonal k n_row n_col a_p a_j a_x y_x0) := by
  unfold csr_diagonalS csr_diagonal; scal []

theorem csr_scale_rows_sc (ho : o.Exact) (n_row : Nat) (a_p : List Int) (a_x0 x_x : List T) :
    SameOrArith (csr_scale_rowsS o n_row a_p a_x0 x_x) (csr_scale_rows n_row a_p a_x0 x_x) := by
  unfold csr_scale_rowsS csr_scale_rows; scal []

theorem csr_scale_columns_sc (ho : o.Exact) (n_row : Nat) (a_p a_j : List Int) (a_x0 x_x : List T) :
    SameOrArith (csr_scale_columnsS o n_row a_p a_j a_x0 x_x) (csr_scale_columns n_row a_p a_j a_x0 x_x) := by
  unfold csr_scale_columnsS csr_scale_columns; scal []

theorem csr_todense_sc (ho : o.Exact) (n_row : Nat) (a_p a_j : List Int) (a_x : List T) (b_x0 : List (List T)) :
    SameOrArith (csr_todenseS o n_row a_p a_j a_x b_x0) (csr_todense n_row a_p a_j a_x b_x0) := by
  unfold csr_todenseS csr_todense; scal []

theorem matmat_accum_sc (ho : o.Exact) (t : IdxTy) (kk_start kk_end : Nat) (v : T) (b_j : List Int) (b_x : List T) (next0 : List Int) (sums0 : List T) (head0 length0 : Int) :
    SameOrArith (matmat_accumS o t kk_start kk_end v b_j b_x next0 sums0 head0 length0) (matmat_accum t kk_start kk_end v b_j b_x next0 sums0 head0 length0) := by
  unfold matmat_accumS matmat_accum; scal []

theorem csr_matmat_sc (ho : o.Exact) (t : IdxTy) (n_row n_col : Nat) (a_p a_j : List Int) (a_x : List T) (b_p b_j : List Int) (b_x : List T) (c_p0 c_j0 : List Int) (c_x0 : List T) :
    SameOrArith (csr_matmatS o t n_row n_col a_p a_j a_x b_p b_j b_x c_p0 c_j0 c_x0) (csr_matmat t n_row n_col a_p a_j a_x b_p b_j b_x c_p0 c_j0 c_x0) := by
  unfold csr_matmatS csr_matmat; scal [matmat_accum_sc]

theorem binop_accum_sc (ho : o.Exact) (t : IdxTy) (i_start i_end : Nat) (a_j : List Int) (a_x : List T) (next0 : List Int) (row0 : List T) (head0 length0 : Int) :
    SameOrArith (binop_accumS o t i_start i_end a_j a_x next0 row0 head0 length0) (binop_accum t i_start i_end a_j a_x next0 row0 head0 length0) := by
  unfold binop_accumS binop_accum; scal []

theorem binop_flush_sc  (t : IdxTy) (op : T → T → M T2) {op' : T → T → T2} (hop : ∀ a b, SameOrArith (op a b) (.ok (op' a b))) (nz : T2 → Bool) (length head0 : Int) (next0 : List Int) (a_row0 b_row0 : List T) (nnz0 : Int) (c_j0 : List Int) (c_x0 : List T2) :
    SameOrArith (binop_flushS t op nz length head0 next0 a_row0 b_row0 nnz0 c_j0 c_x0) (binop_flush t op' nz length head0 next0 a_row0 b_row0 nnz0 c_j0 c_x0) := by
  unfold binop_flushS binop_flush; scal [] with hop

theorem csr_binop_csr_general_sc (ho : o.Exact) (t : IdxTy) (n_row n_col : Nat) (a_p a_j : List Int) (a_x : List T) (b_p b_j : List Int) (b_x : List T) (c_p0 c_j0 : List Int) (c_x0 : List T2) (op : T → T → M T2) {op' : T → T → T2} (hop : ∀ a b, SameOrArith (op a b) (.ok (op' a b))) (nz : T2 → Bool) :
    SameOrArith (csr_binop_csr_generalS o t n_row n_col a_p a_j a_x b_p b_j b_x c_p0 c_j0 c_x0 op nz) (csr_binop_csr_general t n_row n_col a_p a_j a_x b_p b_j b_x c_p0 c_j0 c_x0 op' nz) := by
  unfold csr_binop_csr_generalS csr_binop_csr_general; scal [binop_accum_sc, binop_flush_sc] with hop

theorem canonical_merge_sc  (a_j : List Int) (a_x : List T) (b_j : List Int) (b_x : List T) (op : T → T → M T2) {op' : T → T → T2} (hop : ∀ a b, SameOrArith (op a b) (.ok (op' a b))) (nz : T2 → Bool) (a_end b_end : Nat) (s : Nat × Nat × Nat × List Int × List T2) :
    SameOrArith (canonical_mergeS a_j a_x b_j b_x op nz a_end b_end s) (canonical_merge a_j a_x b_j b_x op' nz a_end b_end s) := by
  unfold canonical_mergeS canonical_merge; scal [] with hop

theorem canonical_tail_sc  (a_j : List Int) (a_x : List T) (f : T → M T2) {f' : T → T2} (hf : ∀ a, SameOrArith (f a) (.ok (f' a))) (nz : T2 → Bool) (a_end : Nat) (s : Nat × Nat × List Int × List T2) :
    SameOrArith (canonical_tailS a_j a_x f nz a_end s) (canonical_tail a_j a_x f' nz a_end s) := by
  unfold canonical_tailS canonical_tail; scal [] with hf

theorem csr_binop_csr_canonical_sc  (t : IdxTy) (n_row : Nat) (a_p a_j : List Int) (a_x : List T) (b_p b_j : List Int) (b_x : List T) (c_p0 c_j0 : List Int) (c_x0 : List T2) (op : T → T → M T2) {op' : T → T → T2} (hop : ∀ a b, SameOrArith (op a b) (.ok (op' a b))) (nz : T2 → Bool) :
    SameOrArith (csr_binop_csr_canonicalS t n_row a_p a_j a_x b_p b_j b_x c_p0 c_j0 c_x0 op nz) (csr_binop_csr_canonical t n_row a_p a_j a_x b_p b_j b_x c_p0 c_j0 c_x0 op' nz) := by
  unfold csr_binop_csr_canonicalS csr_binop_csr_canonical; scal [canonical_merge_sc _ _ _ _ _ hop, canonical_tail_sc _ _ _ (fun a => hop a 0), canonical_tail_sc _ _ _ (fun a => hop 0 a)]

theorem csr_binop_csr_sc (ho : o.Exact) (t : IdxTy) (n_row n_col : Nat) (a_p a_j : List Int) (a_x : List T) (b_p b_j : List Int) (b_x : List T) (c_p c_j : List Int) (c_x : List T2) (op : T → T → M T2) {op' : T → T → T2} (hop : ∀ a b, SameOrArith (op a b) (.ok (op' a b))) (nz : T2 → Bool) :
    SameOrArith (csr_binop_csrS o t n_row n_col a_p a_j a_x b_p b_j b_x c_p c_j c_x op nz) (csr_binop_csr t n_row n_col a_p a_j a_x b_p b_j b_x c_p c_j c_x op' nz) := by
  unfold csr_binop_csrS csr_binop_csr; scal [csr_binop_csr_general_sc, csr_binop_csr_canonical_sc] with hop

theorem csr_mul_csr_sc (ho : o.Exact) (t : IdxTy) (n_row n_col : Nat) (a_p a_j : List Int) (a_x : List T) (b_p b_j : List Int) (b_x : List T) (c_p c_j : List Int) (c_x : List T) :
    SameOrArith (csr_mul_csrS o t n_row n_col a_p a_j a_x b_p b_j b_x c_p c_j c_x) (csr_mul_csr t n_row n_col a_p a_j a_x b_p b_j b_x c_p c_j c_x) :=
  csr_binop_csr_sc ho _ _ _ _ _ _ _ _ _ _ _ _ _ ho.mul _

theorem csr_add_csr_sc (ho : o.Exact) (t : IdxTy) (n_row n_col : Nat) (a_p a_j : List Int) (a_x : List T) (b_p b_j : List Int) (b_x : List T) (c_p c_j : List Int) (c_x : List T) :
    SameOrArith (csr_add_csrS o t n_row n_col a_p a_j a_x b_p b_j b_x c_p c_j c_x) (csr_add_csr t n_row n_col a_p a_j a_x b_p b_j b_x c_p c_j c_x) :=
  csr_binop_csr_sc ho _ _ _ _ _ _ _ _ _ _ _ _ _ ho.add _

theorem csr_sub_csr_sc (ho : o.Exact) (t : IdxTy) (n_row n_col : Nat) (a_p a_j : List Int) (a_x : List T) (b_p b_j : List Int) (b_x : List T) (c_p c_j : List Int) (c_x : List T) :
    SameOrArith (csr_sub_csrS o t n_row n_col a_p a_j a_x b_p b_j b_x c_p c_j c_x) (csr_sub_csr t n_row n_col a_p a_j a_x b_p b_j b_x c_p c_j c_x) :=
  csr_binop_csr_sc ho _ _ _ _ _ _ _ _ _ _ _ _ _ ho.sub _

theorem sum_run_sc (ho : o.Exact) (row_end : Nat) (j : Int) (a_j : List Int) (a_x : List T) (s : Nat × T) :
    SameOrArith (sum_runS o row_end j a_j a_x s) (sum_run row_end j a_j a_x s) := by
  unfold sum_runS sum_run; scal []

theorem sum_row_sc (ho : o.Exact) (row_end : Nat) (s : Nat × Nat × List Int × List T) :
    SameOrArith (sum_rowS o row_end s) (sum_row row_end s) := by
  unfold sum_rowS sum_row; scal [sum_run_sc]

theorem csr_sum_duplicates_sc (ho : o.Exact) (t : IdxTy) (n_row : Nat) (a_p0 a_j0 : List Int) (a_x0 : List T) :
    SameOrArith (csr_sum_duplicatesS o t n_row a_p0 a_j0 a_x0) (csr_sum_duplicates t n_row a_p0 a_j0 a_x0) := by
  unfold csr_sum_duplicatesS csr_sum_duplicates; scal [sum_row_sc]

theorem csr_matvec_sc (ho : o.Exact) (n_row : Nat) (a_p a_j : List Int) (a_x x_x y_x0 : List T) :
    SameOrArith (csr_matvecS o n_row a_p a_j a_x x_x y_x0) (csr_matvec n_row a_p a_j a_x x_x y_x0) := by
  unfold csr_matvecS csr_matvec; scal []

theorem axpy_sc (ho : o.Exact) (n : Nat) (a : T) (x : List T) (xo : Nat) (y0 : List T) (yo : Nat) :
    SameOrArith (axpyS o n a x xo y0 yo) (axpy n a x xo y0 yo) := by
  unfold axpyS axpy; scal []

theorem csr_matvecs_sc (ho : o.Exact) (n_row n_vecs : Nat) (a_p a_j : List Int) (a_x x_x y_x0 : List T) :
    SameOrArith (csr_matvecsS o n_row n_vecs a_p a_j a_x x_x y_x0) (csr_matvecs n_row n_vecs a_p a_j a_x x_x y_x0) := by
  unfold csr_matvecsS csr_matvecs; scal [axpy_sc]

theorem csc_matvec_sc (ho : o.Exact) (n_col : Nat) (a_p a_i : List Int) (a_x x_x y_x0 : List T) :
    SameOrArith (csc_matvecS o n_col a_p a_i a_x x_x y_x0) (csc_matvec n_col a_p a_i a_x x_x y_x0) := by
  unfold csc_matvecS csc_matvec; scal []

theorem csc_matvecs_sc (ho : o.Exact) (n_col n_vecs : Nat) (a_p a_i : List Int) (a_x x_x y_x0 : List T) :
    SameOrArith (csc_matvecsS o n_col n_vecs a_p a_i a_x x_x y_x0) (csc_matvecs n_col n_vecs a_p a_i a_x x_x y_x0) := by
  unfold csc_matvecsS csc_matvecs; scal [axpy_sc]

theorem csc_diagonal_sc (ho : o.Exact) (k : Int) (n_row n_col : Nat) (a_p a_j : List Int) (a_x y_x : List T) :
    SameOrArith (csc_diagonalS o k n_row n_col a_p a_j a_x y_x) (csc_diagonal k n_row n_col a_p a_j a_x y_x) := by
  unfold csc_diagonalS csc_diagonal; scal [csr_diagonal_sc]

theorem csc_matmat_sc (ho : o.Exact) (t : IdxTy) (n_row n_col : Nat) (a_p a_i : List Int) (a_x : List T) (b_p b_i : List Int) (b_x : List T) (c_p c_i : List Int) (c_x : List T) :
    SameOrArith (csc_matmatS o t n_row n_col a_p a_i a_x b_p b_i b_x c_p c_i c_x) (csc_matmat t n_row n_col a_p a_i a_x b_p b_i b_x c_p c_i c_x) := by
  unfold csc_matmatS csc_matmat; scal [csr_matmat_sc]

theorem CSR_sum_duplicates_sc (ho : o.Exact) (t : IdxTy) (a : CSR T) :
    SameOrArith (CSR.sum_duplicatesS o t a) (CSR.sum_duplicates t a) := by
  unfold CSR.sum_duplicatesS CSR.sum_duplicates; scal [csr_sum_duplicates_sc]

theorem CSR_mat_vec_sc (ho : o.Exact) (a : CSR T) (x : List T) :
    SameOrArith (CSR.mat_vecS o a x) (CSR.mat_vec a x) := by
  unfold CSR.mat_vecS CSR.mat_vec; scal [csr_matvec_sc]

theorem CSR_mat_mat_sc (ho : o.Exact) (t : IdxTy) (a x : CSR T) :
    SameOrArith (CSR.mat_matS o t a x) (CSR.mat_mat t a x) := by
  unfold CSR.mat_matS CSR.mat_mat; scal [csr_matmat_sc]

theorem CSR_to_dense_sc (ho : o.Exact) (a : CSR T) :
    SameOrArith (CSR.to_denseS o a) (CSR.to_dense a) := by
  unfold CSR.to_denseS CSR.to_dense; scal [csr_todense_sc]

theorem CSR_diagonal_sc (ho : o.Exact) (a : CSR T) :
    SameOrArith (CSR.diagonalS o a) (CSR.diagonal a) := by
  unfold CSR.diagonalS CSR.diagonal; scal [csr_diagonal_sc]

theorem CSC_sum_duplicates_sc (ho : o.Exact) (t : IdxTy) (a : CSC T) :
    SameOrArith (CSC.sum_duplicatesS o t a) (CSC.sum_duplicates t a) := by
  unfold CSC.sum_duplicatesS CSC.sum_duplicates; scal [csr_sum_duplicates_sc]

theorem CSC_mat_vec_sc (ho : o.Exact) (a : CSC T) (x : List T) :
    SameOrArith (CSC.mat_vecS o a x) (CSC.mat_vec a x) := by
  unfold CSC.mat_vecS CSC.mat_vec; scal [csc_matvec_sc]

theorem CSC_mat_mat_sc (ho : o.Exact) (t : IdxTy) (a x : CSC T) :
    SameOrArith (CSC.mat_matS o t a x) (CSC.mat_mat t a x) := by
  unfold CSC.mat_matS CSC.mat_mat; scal [csc_matmat_sc]

theorem CSC_add_sc (ho : o.Exact) (t : IdxTy) (a x : CSC T) :
    SameOrArith (CSC.addS o t a x) (CSC.add t a x) := by
  unfold CSC.addS CSC.add; scal [csr_add_csr_sc]

theorem CSC_subtract_sc (ho : o.Exact) (t : IdxTy) (a x : CSC T) :
    SameOrArith (CSC.subtractS o t a x) (CSC.subtract t a x) := by
  unfold CSC.subtractS CSC.subtract; scal [csr_sub_csr_sc]

theorem CSC_to_dense_sc (ho : o.Exact) (t : IdxTy) (a : CSC T) :
    SameOrArith (CSC.to_denseS o t a) (CSC.to_dense t a) := by
  unfold CSC.to_denseS CSC.to_dense; scal [CSR_to_dense_sc, CSC_to_dense_sc, Coo_to_dense_sc]

theorem CSC_diagonal_sc (ho : o.Exact) (a : CSC T) :
    SameOrArith (CSC.diagonalS o a) (CSC.diagonal a) := by
  unfold CSC.diagonalS CSC.diagonal; scal [csr_diagonal_sc]

theorem Coo_to_csc_sc (ho : o.Exact) (t : IdxTy) (a : Coo T) :
    SameOrArith (Coo.to_cscS o t a) (Coo.to_csc t a) := by
  unfold Coo.to_cscS Coo.to_csc; scal [CSR_sum_duplicates_sc, CSC_sum_duplicates_sc]

theorem Coo_to_csr_sc (ho : o.Exact) (t : IdxTy) (a : Coo T) :
    SameOrArith (Coo.to_csrS o t a) (Coo.to_csr t a) := by
  unfold Coo.to_csrS Coo.to_csr; scal [CSR_sum_duplicates_sc, CSC_sum_duplicates_sc]

theorem Coo_to_dense_sc (ho : o.Exact) (a : Coo T) :
    SameOrArith (Coo.to_denseS o a) (Coo.to_dense a) := by
  unfold Coo.to_denseS Coo.to_dense; scal []

theorem Coo_diagonal_sc (ho : o.Exact) (a : Coo T) :
    SameOrArith (Coo.diagonalS o a) (Coo.diagonal a) := by
  unfold Coo.diagonalS Coo.diagonal; scal []

theorem CSR_h_stack_sc (ho : o.Exact) (t : IdxTy) (a b : CSR T) :
    SameOrArith (CSR.h_stackS o t a b) (CSR.h_stack t a b) := by
  unfold CSR.h_stackS CSR.h_stack; scal [Coo_to_csr_sc, DoK_to_csr_sc]

theorem CSC_compose_sc (ho : o.Exact) (t : IdxTy) (j11 j12 j21 j22 : CSC T) :
    SameOrArith (CSC.composeS o t j11 j12 j21 j22) (CSC.compose t j11 j12 j21 j22) := by
  unfold CSC.composeS CSC.compose; scal [Coo_to_csc_sc, DoK_to_csc_sc]

theorem CSR_neg_sc (ho : o.Exact) (a : CSR T) :
    SameOrArith (CSR.negS o a) (CSR.neg a) := by
  unfold CSR.negS CSR.neg; scal []

theorem CSR_add_sc (ho : o.Exact) (t : IdxTy) (a b : CSR T) :
    SameOrArith (CSR.addS o t a b) (CSR.add t a b) := by
  unfold CSR.addS CSR.add; scal [csr_add_csr_sc]

theorem CSR_sub_sc (ho : o.Exact) (t : IdxTy) (a b : CSR T) :
    SameOrArith (CSR.subS o t a b) (CSR.sub t a b) := by
  unfold CSR.subS CSR.sub; scal [csr_sub_csr_sc]

theorem CSR_mul_sc (ho : o.Exact) (t : IdxTy) (a b : CSR T) :
    SameOrArith (CSR.mulS o t a b) (CSR.mul t a b) := by
  unfold CSR.mulS CSR.mul; scal [CSR_mat_mat_sc, CSC_mat_mat_sc]

theorem CSR_mul_scalar_sc (ho : o.Exact) (a : CSR T) (s : T) :
    SameOrArith (CSR.mul_scalarS o a s) (CSR.mul_scalar a s) := by
  unfold CSR.mul_scalarS CSR.mul_scalar; scal []

theorem CSR_scalar_mul_sc (ho : o.Exact) (s : T) (a : CSR T) :
    SameOrArith (CSR.scalar_mulS o s a) (CSR.scalar_mul s a) := by
  unfold CSR.scalar_mulS CSR.scalar_mul; scal []

theorem CSR_mul_vec_sc (ho : o.Exact) (a : CSR T) (x : List T) :
    SameOrArith (CSR.mul_vecS o a x) (CSR.mul_vec a x) := by
  unfold CSR.mul_vecS CSR.mul_vec; scal [CSR_mat_vec_sc, CSC_mat_vec_sc]

theorem CSC_neg_sc (ho : o.Exact) (a : CSC T) :
    SameOrArith (CSC.negS o a) (CSC.neg a) := by
  unfold CSC.negS CSC.neg; scal []

theorem CSC_add_op_sc (ho : o.Exact) (t : IdxTy) (a b : CSC T) :
    SameOrArith (CSC.add_opS o t a b) (CSC.add_op t a b) := by
  unfold CSC.add_opS CSC.add_op; scal [csr_add_csr_sc]

theorem CSC_sub_op_sc (ho : o.Exact) (t : IdxTy) (a b : CSC T) :
    SameOrArith (CSC.sub_opS o t a b) (CSC.sub_op t a b) := by
  unfold CSC.sub_opS CSC.sub_op; scal [csr_sub_csr_sc]

theorem CSC_mul_sc (ho : o.Exact) (t : IdxTy) (a b : CSC T) :
    SameOrArith (CSC.mulS o t a b) (CSC.mul t a b) := by
  unfold CSC.mulS CSC.mul; scal [CSR_mat_mat_sc, CSC_mat_mat_sc]

theorem CSC_mul_csr_sc (ho : o.Exact) (t : IdxTy) (a : CSC T) (b : CSR T) :
    SameOrArith (CSC.mul_csrS o t a b) (CSC.mul_csr t a b) := by
  unfold CSC.mul_csrS CSC.mul_csr; scal [CSR_mat_mat_sc, CSC_mat_mat_sc]

theorem CSC_mul_scalar_sc (ho : o.Exact) (a : CSC T) (s : T) :
    SameOrArith (CSC.mul_scalarS o a s) (CSC.mul_scalar a s) := by
  unfold CSC.mul_scalarS CSC.mul_scalar; scal []

theorem CSC_scalar_mul_sc (ho : o.Exact) (s : T) (a : CSC T) :
    SameOrArith (CSC.scalar_mulS o s a) (CSC.scalar_mul s a) := by
  unfold CSC.scalar_mulS CSC.scalar_mul; scal []

theorem CSC_mul_vec_sc (ho : o.Exact) (a : CSC T) (x : List T) :
    SameOrArith (CSC.mul_vecS o a x) (CSC.mul_vec a x) := by
  unfold CSC.mul_vecS CSC.mul_vec; scal [CSR_mat_vec_sc, CSC_mat_vec_sc]

theorem Coo_add_sc (ho : o.Exact) (t : IdxTy) (a b : Coo T) :
    SameOrArith (Coo.addS o t a b) (Coo.add t a b) := by
  unfold Coo.addS Coo.add; scal [Coo_to_csr_sc, DoK_to_csr_sc]

theorem Coo_neg_sc (ho : o.Exact) (a : Coo T) :
    SameOrArith (Coo.negS o a) (Coo.neg a) := by
  unfold Coo.negS Coo.neg; scal []

theorem DoK_add_sc (ho : o.Exact) (t : IdxTy) (d : DoK T) (i j : Int) (v : T) :
    SameOrArith (DoK.addS o t d i j v) (DoK.add t d i j v) := by
  unfold DoK.addS DoK.add; scal []

theorem DoK_sub_sc (ho : o.Exact) (t : IdxTy) (d : DoK T) (i j : Int) (v : T) :
    SameOrArith (DoK.subS o t d i j v) (DoK.sub t d i j v) := by
  unfold DoK.subS DoK.sub; scal []

theorem DoK_to_csc_sc (ho : o.Exact) (t : IdxTy) (d : DoK T) (es : KMap T) :
    SameOrArith (DoK.to_cscS o t d es) (DoK.to_csc t d es) := by
  unfold DoK.to_cscS DoK.to_csc; scal [Coo_to_csc_sc, DoK_to_csc_sc]

theorem DoK_to_csr_sc (ho : o.Exact) (t : IdxTy) (d : DoK T) (es : KMap T) :
    SameOrArith (DoK.to_csrS o t d es) (DoK.to_csr t d es) := by
  unfold DoK.to_csrS DoK.to_csr; scal [Coo_to_csr_sc, DoK_to_csr_sc]

end
end Sparse

import Verif.SpecWiden
import Verif.Model.Graph
import Verif.Model.Dok
/-!
Widening the index type (C69). Every function of the model that depends on the index type is related to itself at a wider type.
-/
namespace Sparse

theorem SameOrOverflow.refl (m : M α) : SameOrOverflow m m := .inl rfl

theorem SameOrOverflow.bind {m m' : M α} {f f' : α → M β} (h : SameOrOverflow m m') (hf : ∀ a, SameOrOverflow (f a) (f' a)) : SameOrOverflow (m >>= f) (m' >>= f') := by
  rcases h with rfl | rfl | rfl
  · cases m with
    | ok a => exact hf a
    | error e => exact .inl rfl
  · exact .inr (.inl rfl)
  · exact .inr (.inr rfl)

theorem SameOrOverflow.map {m m' : M α} {f : α → β} (h : SameOrOverflow m m') : SameOrOverflow (f <$> m) (f <$> m') := by
  rcases h with rfl | rfl | rfl
  · exact .inl rfl
  · exact .inr (.inl rfl)
  · exact .inr (.inr rfl)

theorem SameOrOverflow.ite {c : Prop} [Decidable c] {a b a' b' : M α} (h1 : SameOrOverflow a a') (h2 : SameOrOverflow b b') :
    SameOrOverflow (if c then a else b) (if c then a' else b') := by
  split <;> assumption

theorem SameOrOverflow.forIn {l : List α} {s : σ} {f f' : α → σ → M (ForInStep σ)} (h : ∀ a s, SameOrOverflow (f a s) (f' a s)) :
    SameOrOverflow (forIn l s f) (forIn l s f') := by
  induction l generalizing s with
  | nil => exact .inl rfl
  | cons a l ih =>
    rw [List.forIn_cons, List.forIn_cons]
    refine (h a s).bind fun r => ?_
    cases r with
    | done b => exact .inl rfl
    | yield b => exact ih

theorem SameOrOverflow.mapM {l : List α} {f f' : α → M β} (h : ∀ a, SameOrOverflow (f a) (f' a)) : SameOrOverflow (l.mapM f) (l.mapM f') := by
  induction l with
  | nil => exact .inl rfl
  | cons a l ih =>
    rw [List.mapM_cons, List.mapM_cons]
    exact (h a).bind fun b => ih.bind fun bs => .inl rfl

theorem SameOrOverflow.whileM {fuel : Nat} {s : σ} {f f' : σ → M (ForInStep σ)} (h : ∀ s, SameOrOverflow (f s) (f' s)) :
    SameOrOverflow (whileM fuel s f) (whileM fuel s f') := by
  induction fuel generalizing s with
  | zero => exact .inl rfl
  | succ n ih =>
    refine (h s).bind fun r => ?_
    cases r with
    | done b => exact .inl rfl
    | yield b => exact ih

theorem SameOrOverflow.unwrapR {m m' : M α} (h : SameOrOverflow m m') : SameOrOverflow (unwrapR m) (unwrapR m') := by
  rcases h with rfl | rfl | rfl
  · exact .inl rfl
  · exact .inr (.inl rfl)
  · exact .inr (.inr rfl)

theorem SameOrOverflow.of_check {c c' : Prop} [Decidable c] [Decidable c'] {a : M α} {p q : Panic}
    (h : c → c') (hp : p = .unwrap ∨ p = .arith) :
    SameOrOverflow (if c then a else throw (.panic p)) (if c' then a else throw (.panic q)) := by
  by_cases hc : c
  · rw [if_pos hc, if_pos (h hc)]; exact .inl rfl
  · rw [if_neg hc]; rcases hp with rfl | rfl
    · exact .inr (.inl rfl)
    · exact .inr (.inr rfl)

/-- `t` is a type in a build with overflow checks, its values are values of `t'` -/
def IdxTy.Sub (t t' : IdxTy) : Prop := t.wraps = false ∧ t.toIntTy.Sub t'.toIntTy

variable {t t' ft ft' : IdxTy}

theorem SameOrOverflow.ofInt (h : t.Sub t') (z : Int) : SameOrOverflow (t.ofInt z) (t'.ofInt z) :=
  .of_check (fun hc => by unfold IdxTy.Sub IntTy.Sub at h; omega) (by simp)
theorem SameOrOverflow.ofUsize (h : t.Sub t') (n : Nat) : SameOrOverflow (t.ofUsize n) (t'.ofUsize n) :=
  .of_check (fun hc => by unfold IdxTy.Sub IntTy.Sub at h; omega) (by simp)
theorem SameOrOverflow.arith (h : t.Sub t') (z : Int) : SameOrOverflow (t.arith z) (t'.arith z) := by
  unfold IdxTy.arith
  by_cases hc : t.lo ≤ z ∧ z ≤ t.hi
  · rw [if_pos hc, if_pos (by unfold IdxTy.Sub IntTy.Sub at h; omega)]; exact .refl _
  · rw [if_neg hc, if_neg (by simp [h.1])]; exact .inr (.inr rfl)
theorem SameOrOverflow.add (h : t.Sub t') (a b : Int) : SameOrOverflow (t.add a b) (t'.add a b) := .arith h _
theorem SameOrOverflow.sub (h : t.Sub t') (a b : Int) : SameOrOverflow (t.sub a b) (t'.sub a b) := .arith h _

theorem IntTy.Sub.idx {t : IntTy} {t' : IdxTy} (h : t.Sub t'.toIntTy) : IdxTy.Sub t t' := ⟨rfl, h⟩

/-- go through the code of a function -/
syntax "widen" (" [" term,* "]")? : tactic
macro_rules
  | `(tactic| widen) => `(tactic| widen [])
  | `(tactic| widen [$ts,*]) => do
    let alts ← ts.getElems.mapM fun x => `(tactic| (with_reducible apply $x; assumption))
    `(tactic| repeat' first
      | with_reducible exact SameOrOverflow.refl _
      | intro _
      | with_reducible exact SameOrOverflow.ofInt (by assumption) _
      | with_reducible exact SameOrOverflow.ofUsize (by assumption) _
      | with_reducible exact SameOrOverflow.add (by assumption) _ _
      | with_reducible exact SameOrOverflow.sub (by assumption) _ _
      $[| $alts:tactic]*
      | with_reducible assumption
      | with_reducible apply SameOrOverflow.bind
      | with_reducible apply SameOrOverflow.ite
      | with_reducible apply SameOrOverflow.forIn
      | with_reducible apply SameOrOverflow.map
      | with_reducible apply SameOrOverflow.mapM
      | with_reducible apply SameOrOverflow.whileM
      | with_reducible apply SameOrOverflow.unwrapR
      | split)

section
variable {T T2 : Type}

theorem count_loop_wd (h : t.Sub t') (nnz : Nat) (key : List Int) (b_p0 : List Int) :
    SameOrOverflow (count_loop t nnz key b_p0) (count_loop t' nnz key b_p0) := by
  unfold count_loop; widen

theorem cumsum_loop_wd (h : t.Sub t') (n_row : Nat) (b_p0 : List Int) :
    SameOrOverflow (cumsum_loop t n_row b_p0) (cumsum_loop t' n_row b_p0) := by
  unfold cumsum_loop; widen

theorem coo_scatter_wd (h : t.Sub t') (nnz : Nat) (a_i a_j : List Int) (a_x : List T) (b_p0 b_j0 : List Int) (b_x0 : List T) :
    SameOrOverflow (coo_scatter t nnz a_i a_j a_x b_p0 b_j0 b_x0) (coo_scatter t' nnz a_i a_j a_x b_p0 b_j0 b_x0) := by
  unfold coo_scatter; widen

theorem coo_tocsr_wd (h : t.Sub t') (n_row : Nat) (nnz : Nat) (a_i a_j : List Int) (a_x : List T) (b_p b_j : List Int) (b_x : List T) :
    SameOrOverflow (coo_tocsr t n_row nnz a_i a_j a_x b_p b_j b_x) (coo_tocsr t' n_row nnz a_i a_j a_x b_p b_j b_x) := by
  unfold coo_tocsr; widen [count_loop_wd, cumsum_loop_wd, coo_scatter_wd]

theorem expandptr_wd (h : t.Sub t') (n_row : Nat) (a_p b_i0 : List Int) :
    SameOrOverflow (expandptr t n_row a_p b_i0) (expandptr t' n_row a_p b_i0) := by
  unfold expandptr; widen

theorem csr_has_sorted_indices_wd (h : t.Sub t') (n_row : Nat) (a_p a_j : List Int) :
    SameOrOverflow (csr_has_sorted_indices t n_row a_p a_j) (csr_has_sorted_indices t' n_row a_p a_j) := by
  unfold csr_has_sorted_indices; widen

theorem csr_has_canonical_format_wd (h : t.Sub t') (n_row : Nat) (a_p a_j : List Int) :
    SameOrOverflow (csr_has_canonical_format t n_row a_p a_j) (csr_has_canonical_format t' n_row a_p a_j) := by
  unfold csr_has_canonical_format; widen

theorem csr_scatter_wd (h : t.Sub t') (n_row : Nat) (a_p a_j : List Int) (a_x : List T) (b_p0 b_i0 : List Int) (b_x0 : List T) :
    SameOrOverflow (csr_scatter t n_row a_p a_j a_x b_p0 b_i0 b_x0) (csr_scatter t' n_row a_p a_j a_x b_p0 b_i0 b_x0) := by
  unfold csr_scatter; widen

theorem csr_tocsc_wd (h : t.Sub t') (n_row n_col : Nat) (a_p a_j : List Int) (a_x : List T) (b_p b_i : List Int) (b_x : List T) :
    SameOrOverflow (csr_tocsc t n_row n_col a_p a_j a_x b_p b_i b_x) (csr_tocsc t' n_row n_col a_p a_j a_x b_p b_i b_x) := by
  unfold csr_tocsc; widen [count_loop_wd, cumsum_loop_wd, csr_scatter_wd]

theorem matmat_accum_wd [Add T] [Mul T] (h : t.Sub t') (kk_start kk_end : Nat) (v : T) (b_j : List Int) (b_x : List T) (next0 : List Int) (sums0 : List T) (head0 length0 : Int) :
    SameOrOverflow (matmat_accum t kk_start kk_end v b_j b_x next0 sums0 head0 length0) (matmat_accum t' kk_start kk_end v b_j b_x next0 sums0 head0 length0) := by
  unfold matmat_accum; widen

theorem matmat_flush_wd [Zero T] [BEq T] (h : t.Sub t') (length head0 : Int) (next0 : List Int) (sums0 : List T) (nnz0 : Int) (c_j0 : List Int) (c_x0 : List T) :
    SameOrOverflow (matmat_flush t length head0 next0 sums0 nnz0 c_j0 c_x0) (matmat_flush t' length head0 next0 sums0 nnz0 c_j0 c_x0) := by
  unfold matmat_flush; widen

theorem csr_matmat_wd [Zero T] [Add T] [Mul T] [BEq T] (h : t.Sub t') (n_row n_col : Nat) (a_p a_j : List Int) (a_x : List T) (b_p b_j : List Int) (b_x : List T) (c_p0 c_j0 : List Int) (c_x0 : List T) :
    SameOrOverflow (csr_matmat t n_row n_col a_p a_j a_x b_p b_j b_x c_p0 c_j0 c_x0) (csr_matmat t' n_row n_col a_p a_j a_x b_p b_j b_x c_p0 c_j0 c_x0) := by
  unfold csr_matmat; widen [matmat_accum_wd, matmat_flush_wd]

theorem binop_accum_wd [Add T] (h : t.Sub t') (i_start i_end : Nat) (a_j : List Int) (a_x : List T) (next0 : List Int) (row0 : List T) (head0 length0 : Int) :
    SameOrOverflow (binop_accum t i_start i_end a_j a_x next0 row0 head0 length0) (binop_accum t' i_start i_end a_j a_x next0 row0 head0 length0) := by
  unfold binop_accum; widen

theorem binop_flush_wd [Zero T] (h : t.Sub t') (op : T → T → T2) (nz : T2 → Bool) (length head0 : Int) (next0 : List Int) (a_row0 b_row0 : List T) (nnz0 : Int) (c_j0 : List Int) (c_x0 : List T2) :
    SameOrOverflow (binop_flush t op nz length head0 next0 a_row0 b_row0 nnz0 c_j0 c_x0) (binop_flush t' op nz length head0 next0 a_row0 b_row0 nnz0 c_j0 c_x0) := by
  unfold binop_flush; widen

theorem csr_binop_csr_general_wd [Zero T] [Add T] (h : t.Sub t') (n_row n_col : Nat) (a_p a_j : List Int) (a_x : List T) (b_p b_j : List Int) (b_x : List T) (c_p0 c_j0 : List Int) (c_x0 : List T2) (op : T → T → T2) (nz : T2 → Bool) :
    SameOrOverflow (csr_binop_csr_general t n_row n_col a_p a_j a_x b_p b_j b_x c_p0 c_j0 c_x0 op nz) (csr_binop_csr_general t' n_row n_col a_p a_j a_x b_p b_j b_x c_p0 c_j0 c_x0 op nz) := by
  unfold csr_binop_csr_general; widen [binop_accum_wd, binop_flush_wd]

theorem csr_binop_csr_canonical_wd [Zero T] (h : t.Sub t') (n_row : Nat) (a_p a_j : List Int) (a_x : List T) (b_p b_j : List Int) (b_x : List T) (c_p0 c_j0 : List Int) (c_x0 : List T2) (op : T → T → T2) (nz : T2 → Bool) :
    SameOrOverflow (csr_binop_csr_canonical t n_row a_p a_j a_x b_p b_j b_x c_p0 c_j0 c_x0 op nz) (csr_binop_csr_canonical t' n_row a_p a_j a_x b_p b_j b_x c_p0 c_j0 c_x0 op nz) := by
  unfold csr_binop_csr_canonical; widen

theorem csr_binop_csr_wd [Zero T] [Add T] (h : t.Sub t') (n_row n_col : Nat) (a_p a_j : List Int) (a_x : List T) (b_p b_j : List Int) (b_x : List T) (c_p c_j : List Int) (c_x : List T2) (op : T → T → T2) (nz : T2 → Bool) :
    SameOrOverflow (csr_binop_csr t n_row n_col a_p a_j a_x b_p b_j b_x c_p c_j c_x op nz) (csr_binop_csr t' n_row n_col a_p a_j a_x b_p b_j b_x c_p c_j c_x op nz) := by
  unfold csr_binop_csr; widen [csr_has_canonical_format_wd, csr_binop_csr_general_wd, csr_binop_csr_canonical_wd]

theorem csr_ne_csr_wd [Zero T] [Add T] [BEq T] (h : t.Sub t') (n_row n_col : Nat) (a_p a_j : List Int) (a_x : List T)
    (b_p b_j : List Int) (b_x : List T) (c_p c_j : List Int) (c_x : List Bool) :
    SameOrOverflow (csr_ne_csr t n_row n_col a_p a_j a_x b_p b_j b_x c_p c_j c_x)
      (csr_ne_csr t' n_row n_col a_p a_j a_x b_p b_j b_x c_p c_j c_x) := csr_binop_csr_wd h ..

theorem csr_eq_csr_wd [Zero T] [Add T] [BEq T] (h : t.Sub t') (n_row n_col : Nat) (a_p a_j : List Int) (a_x : List T)
    (b_p b_j : List Int) (b_x : List T) (c_p c_j : List Int) (c_x : List Bool) :
    SameOrOverflow (csr_eq_csr t n_row n_col a_p a_j a_x b_p b_j b_x c_p c_j c_x)
      (csr_eq_csr t' n_row n_col a_p a_j a_x b_p b_j b_x c_p c_j c_x) := csr_binop_csr_wd h ..

theorem csr_lt_csr_wd [Zero T] [Add T] [BEq T] [LT T] [DecidableRel (α := T) (· < ·)] (h : t.Sub t') (n_row n_col : Nat) (a_p a_j : List Int) (a_x : List T)
    (b_p b_j : List Int) (b_x : List T) (c_p c_j : List Int) (c_x : List Bool) :
    SameOrOverflow (csr_lt_csr t n_row n_col a_p a_j a_x b_p b_j b_x c_p c_j c_x)
      (csr_lt_csr t' n_row n_col a_p a_j a_x b_p b_j b_x c_p c_j c_x) := csr_binop_csr_wd h ..

theorem csr_le_csr_wd [Zero T] [Add T] [BEq T] [LE T] [DecidableRel (α := T) (· ≤ ·)] (h : t.Sub t') (n_row n_col : Nat) (a_p a_j : List Int) (a_x : List T)
    (b_p b_j : List Int) (b_x : List T) (c_p c_j : List Int) (c_x : List Bool) :
    SameOrOverflow (csr_le_csr t n_row n_col a_p a_j a_x b_p b_j b_x c_p c_j c_x)
      (csr_le_csr t' n_row n_col a_p a_j a_x b_p b_j b_x c_p c_j c_x) := csr_binop_csr_wd h ..

theorem csr_gt_csr_wd [Zero T] [Add T] [BEq T] [LT T] [DecidableRel (α := T) (· < ·)] (h : t.Sub t') (n_row n_col : Nat) (a_p a_j : List Int) (a_x : List T)
    (b_p b_j : List Int) (b_x : List T) (c_p c_j : List Int) (c_x : List Bool) :
    SameOrOverflow (csr_gt_csr t n_row n_col a_p a_j a_x b_p b_j b_x c_p c_j c_x)
      (csr_gt_csr t' n_row n_col a_p a_j a_x b_p b_j b_x c_p c_j c_x) := csr_binop_csr_wd h ..

theorem csr_ge_csr_wd [Zero T] [Add T] [BEq T] [LE T] [DecidableRel (α := T) (· ≤ ·)] (h : t.Sub t') (n_row n_col : Nat) (a_p a_j : List Int) (a_x : List T)
    (b_p b_j : List Int) (b_x : List T) (c_p c_j : List Int) (c_x : List Bool) :
    SameOrOverflow (csr_ge_csr t n_row n_col a_p a_j a_x b_p b_j b_x c_p c_j c_x)
      (csr_ge_csr t' n_row n_col a_p a_j a_x b_p b_j b_x c_p c_j c_x) := csr_binop_csr_wd h ..

theorem csr_mul_csr_wd [Zero T] [Add T] [BEq T] [Mul T] (h : t.Sub t') (n_row n_col : Nat) (a_p a_j : List Int) (a_x : List T)
    (b_p b_j : List Int) (b_x : List T) (c_p c_j : List Int) (c_x : List T) :
    SameOrOverflow (csr_mul_csr t n_row n_col a_p a_j a_x b_p b_j b_x c_p c_j c_x)
      (csr_mul_csr t' n_row n_col a_p a_j a_x b_p b_j b_x c_p c_j c_x) := csr_binop_csr_wd h ..

theorem csr_div_csr_wd [Zero T] [Add T] [BEq T] [Div T] (h : t.Sub t') (n_row n_col : Nat) (a_p a_j : List Int) (a_x : List T)
    (b_p b_j : List Int) (b_x : List T) (c_p c_j : List Int) (c_x : List T) :
    SameOrOverflow (csr_div_csr t n_row n_col a_p a_j a_x b_p b_j b_x c_p c_j c_x)
      (csr_div_csr t' n_row n_col a_p a_j a_x b_p b_j b_x c_p c_j c_x) := csr_binop_csr_wd h ..

theorem csr_add_csr_wd [Zero T] [Add T] [BEq T] (h : t.Sub t') (n_row n_col : Nat) (a_p a_j : List Int) (a_x : List T)
    (b_p b_j : List Int) (b_x : List T) (c_p c_j : List Int) (c_x : List T) :
    SameOrOverflow (csr_add_csr t n_row n_col a_p a_j a_x b_p b_j b_x c_p c_j c_x)
      (csr_add_csr t' n_row n_col a_p a_j a_x b_p b_j b_x c_p c_j c_x) := csr_binop_csr_wd h ..

theorem csr_sub_csr_wd [Zero T] [Add T] [BEq T] [Sub T] (h : t.Sub t') (n_row n_col : Nat) (a_p a_j : List Int) (a_x : List T)
    (b_p b_j : List Int) (b_x : List T) (c_p c_j : List Int) (c_x : List T) :
    SameOrOverflow (csr_sub_csr t n_row n_col a_p a_j a_x b_p b_j b_x c_p c_j c_x)
      (csr_sub_csr t' n_row n_col a_p a_j a_x b_p b_j b_x c_p c_j c_x) := csr_binop_csr_wd h ..

theorem csr_max_csr_wd [Zero T] [Add T] [BEq T] [LT T] [DecidableRel (α := T) (· < ·)] (h : t.Sub t') (n_row n_col : Nat) (a_p a_j : List Int) (a_x : List T)
    (b_p b_j : List Int) (b_x : List T) (c_p c_j : List Int) (c_x : List T) :
    SameOrOverflow (csr_max_csr t n_row n_col a_p a_j a_x b_p b_j b_x c_p c_j c_x)
      (csr_max_csr t' n_row n_col a_p a_j a_x b_p b_j b_x c_p c_j c_x) := csr_binop_csr_wd h ..

theorem csr_min_csr_wd [Zero T] [Add T] [BEq T] [LT T] [DecidableRel (α := T) (· < ·)] (h : t.Sub t') (n_row n_col : Nat) (a_p a_j : List Int) (a_x : List T)
    (b_p b_j : List Int) (b_x : List T) (c_p c_j : List Int) (c_x : List T) :
    SameOrOverflow (csr_min_csr t n_row n_col a_p a_j a_x b_p b_j b_x c_p c_j c_x)
      (csr_min_csr t' n_row n_col a_p a_j a_x b_p b_j b_x c_p c_j c_x) := csr_binop_csr_wd h ..

theorem csr_sum_duplicates_wd [Add T] (h : t.Sub t') (n_row : Nat) (a_p0 a_j0 : List Int) (a_x0 : List T) :
    SameOrOverflow (csr_sum_duplicates t n_row a_p0 a_j0 a_x0) (csr_sum_duplicates t' n_row a_p0 a_j0 a_x0) := by
  unfold csr_sum_duplicates; widen

theorem csr_eliminate_zeros_wd [Zero T] [BEq T] (h : t.Sub t') (n_row : Nat) (a_p0 a_j0 : List Int) (a_x0 : List T) :
    SameOrOverflow (csr_eliminate_zeros t n_row a_p0 a_j0 a_x0) (csr_eliminate_zeros t' n_row a_p0 a_j0 a_x0) := by
  unfold csr_eliminate_zeros; widen

theorem csr_select_wd [Zero T] (h : t.Sub t') (a_p a_j : List Int) (a_x : List T) (rowidx colidx : List Int) (b_p0 b_j0 : List Int) (b_x0 : List T) :
    SameOrOverflow (csr_select t a_p a_j a_x rowidx colidx b_p0 b_j0 b_x0) (csr_select t' a_p a_j a_x rowidx colidx b_p0 b_j0 b_x0) := by
  unfold csr_select; widen

theorem get_csr_submatrix_wd [Zero T] (h : t.Sub t') (a_p a_j : List Int) (a_x : List T) (ir0 ir1 ic0 ic1 : Int) (b_p0 b_j0 : List Int) (b_x0 : List T) :
    SameOrOverflow (get_csr_submatrix t a_p a_j a_x ir0 ir1 ic0 ic1 b_p0 b_j0 b_x0) (get_csr_submatrix t' a_p a_j a_x ir0 ir1 ic0 ic1 b_p0 b_j0 b_x0) := by
  unfold get_csr_submatrix; widen

theorem csr_column_index1_wd (h : t.Sub t') (n_idx : Nat) (col_idxs : List Nat) (n_row n_col : Nat) (a_p a_j : List Int) (col_offsets0 b_p0 : List Int) :
    SameOrOverflow (csr_column_index1 t n_idx col_idxs n_row n_col a_p a_j col_offsets0 b_p0) (csr_column_index1 t' n_idx col_idxs n_row n_col a_p a_j col_offsets0 b_p0) := by
  unfold csr_column_index1; widen

theorem csr_tocoo_wd (h : t.Sub t') (n_row : Nat) (a_p a_j : List Int) (a_x : List T) (a_i0 b_j0 : List Int) (b_x0 : List T) :
    SameOrOverflow (csr_tocoo t n_row a_p a_j a_x a_i0 b_j0 b_x0) (csr_tocoo t' n_row a_p a_j a_x a_i0 b_j0 b_x0) := by
  unfold csr_tocoo; widen

theorem csc_tocsr_wd (h : t.Sub t') (n_row n_col : Nat) (a_p a_i : List Int) (a_x : List T) (b_p b_j : List Int) (b_x : List T) :
    SameOrOverflow (csc_tocsr t n_row n_col a_p a_i a_x b_p b_j b_x) (csc_tocsr t' n_row n_col a_p a_i a_x b_p b_j b_x) := by
  unfold csc_tocsr; widen [csr_tocsc_wd]

theorem csc_matmat_wd [Zero T] [Add T] [Mul T] [BEq T] (h : t.Sub t') (n_row n_col : Nat) (a_p a_i : List Int) (a_x : List T) (b_p b_i : List Int) (b_x : List T) (c_p c_i : List Int) (c_x : List T) :
    SameOrOverflow (csc_matmat t n_row n_col a_p a_i a_x b_p b_i b_x c_p c_i c_x) (csc_matmat t' n_row n_col a_p a_i a_x b_p b_i b_x c_p c_i c_x) := by
  unfold csc_matmat; widen [csr_matmat_wd]

theorem iotaM_wd (h : t.Sub t') (n : Nat) :
    SameOrOverflow (iotaM t n) (iotaM t' n) := by
  unfold iotaM; widen

theorem CSR_from_dense_wd [Zero T] [BEq T] (h : t.Sub t') (a : List (List T)) :
    SameOrOverflow (CSR.from_dense t a) (CSR.from_dense t' a) := by
  unfold CSR.from_dense; widen

theorem CSR_with_diagonal_wd (h : t.Sub t') (values : List T) :
    SameOrOverflow (CSR.with_diagonal t values) (CSR.with_diagonal t' values) := by
  unfold CSR.with_diagonal; widen [iotaM_wd]

theorem CSR_has_canonical_format_wd (h : t.Sub t') (a : CSR T) :
    SameOrOverflow (CSR.has_canonical_format t a) (CSR.has_canonical_format t' a) := by
  unfold CSR.has_canonical_format; widen [csr_has_canonical_format_wd]

theorem CSR_has_sorted_indexes_wd (h : t.Sub t') (a : CSR T) :
    SameOrOverflow (CSR.has_sorted_indexes t a) (CSR.has_sorted_indexes t' a) := by
  unfold CSR.has_sorted_indexes; widen [csr_has_sorted_indices_wd]

theorem CSR_sum_duplicates_wd [Zero T] [Add T] (h : t.Sub t') (a : CSR T) :
    SameOrOverflow (CSR.sum_duplicates t a) (CSR.sum_duplicates t' a) := by
  unfold CSR.sum_duplicates; widen [csr_sum_duplicates_wd, CSR_has_canonical_format_wd]

theorem CSR_mat_mat_wd [Zero T] [Add T] [Mul T] [BEq T] (h : t.Sub t') (a x : CSR T) :
    SameOrOverflow (CSR.mat_mat t a x) (CSR.mat_mat t' a x) := by
  unfold CSR.mat_mat; widen [csr_matmat_wd]

theorem select_idx_wd (h : t.Sub t') (n : Nat) (idx : Option (List Int)) :
    SameOrOverflow (select_idx t n idx) (select_idx t' n idx) := by
  unfold select_idx; widen [iotaM_wd]

theorem CSR_select_wd [Zero T] (h : t.Sub t') (a : CSR T) (rowidx colidx : Option (List Int)) :
    SameOrOverflow (CSR.select t a rowidx colidx) (CSR.select t' a rowidx colidx) := by
  unfold CSR.select; widen [csr_select_wd, CSR_has_canonical_format_wd, select_idx_wd]

theorem CSC_from_dense_wd [Zero T] [BEq T] (h : t.Sub t') (a : List (List T)) :
    SameOrOverflow (CSC.from_dense t a) (CSC.from_dense t' a) := by
  unfold CSC.from_dense; widen

theorem CSC_with_diagonal_wd (h : t.Sub t') (values : List T) :
    SameOrOverflow (CSC.with_diagonal t values) (CSC.with_diagonal t' values) := by
  unfold CSC.with_diagonal; widen [iotaM_wd]

theorem CSC_has_canonical_format_wd (h : t.Sub t') (a : CSC T) :
    SameOrOverflow (CSC.has_canonical_format t a) (CSC.has_canonical_format t' a) := by
  unfold CSC.has_canonical_format; widen [csr_has_canonical_format_wd]

theorem CSC_has_sorted_indexes_wd (h : t.Sub t') (a : CSC T) :
    SameOrOverflow (CSC.has_sorted_indexes t a) (CSC.has_sorted_indexes t' a) := by
  unfold CSC.has_sorted_indexes; widen [csr_has_sorted_indices_wd]

theorem CSC_sum_duplicates_wd [Zero T] [Add T] (h : t.Sub t') (a : CSC T) :
    SameOrOverflow (CSC.sum_duplicates t a) (CSC.sum_duplicates t' a) := by
  unfold CSC.sum_duplicates; widen [csr_sum_duplicates_wd, CSR_has_canonical_format_wd, CSC_has_canonical_format_wd]

theorem CSC_mat_mat_wd [Zero T] [Add T] [Mul T] [BEq T] (h : t.Sub t') (a x : CSC T) :
    SameOrOverflow (CSC.mat_mat t a x) (CSC.mat_mat t' a x) := by
  unfold CSC.mat_mat; widen [csc_matmat_wd]

theorem CSC_select_wd [Zero T] (h : t.Sub t') (a : CSC T) (rowidx colidx : Option (List Int)) :
    SameOrOverflow (CSC.select t a rowidx colidx) (CSC.select t' a rowidx colidx) := by
  unfold CSC.select; widen [csr_select_wd, CSR_has_canonical_format_wd, select_idx_wd, CSC_has_canonical_format_wd]

theorem CSC_add_wd [Zero T] [Add T] [BEq T] (h : t.Sub t') (a x : CSC T) :
    SameOrOverflow (CSC.add t a x) (CSC.add t' a x) := by
  unfold CSC.add; widen [csr_add_csr_wd]

theorem CSC_subtract_wd [Zero T] [Add T] [Sub T] [BEq T] (h : t.Sub t') (a x : CSC T) :
    SameOrOverflow (CSC.subtract t a x) (CSC.subtract t' a x) := by
  unfold CSC.subtract; widen [csr_sub_csr_wd]

theorem CSC_to_csr_wd [Zero T] (h : t.Sub t') (a : CSC T) :
    SameOrOverflow (CSC.to_csr t a) (CSC.to_csr t' a) := by
  unfold CSC.to_csr; widen [csr_tocsc_wd]

theorem CSR_to_csc_wd [Zero T] (h : t.Sub t') (a : CSR T) :
    SameOrOverflow (CSR.to_csc t a) (CSR.to_csc t' a) := by
  unfold CSR.to_csc; widen [csr_tocsc_wd]

theorem CSC_to_dense_wd [Zero T] [Add T] (h : t.Sub t') (a : CSC T) :
    SameOrOverflow (CSC.to_dense t a) (CSC.to_dense t' a) := by
  unfold CSC.to_dense; widen [CSC_to_csr_wd]

theorem Coo_from_dense_wd [Zero T] [BEq T] (h : t.Sub t') (a : List (List T)) :
    SameOrOverflow (Coo.from_dense t a) (Coo.from_dense t' a) := by
  unfold Coo.from_dense; widen

theorem Coo_with_diagonal_wd [Zero T] (h : t.Sub t') (diag : List T) :
    SameOrOverflow (Coo.with_diagonal t diag) (Coo.with_diagonal t' diag) := by
  unfold Coo.with_diagonal; widen

theorem Coo_identity_wd [Zero T] [One T] (h : t.Sub t') (n : Nat) :
    SameOrOverflow (Coo.identity (T := T) t n) (Coo.identity t' n) := by
  unfold Coo.identity; widen

theorem Coo_to_csc_wd [Zero T] [Add T] (h : t.Sub t') (a : Coo T) :
    SameOrOverflow (Coo.to_csc t a) (Coo.to_csc t' a) := by
  unfold Coo.to_csc; widen [coo_tocsr_wd, CSR_sum_duplicates_wd, CSC_sum_duplicates_wd]

theorem Coo_to_csr_wd [Zero T] [Add T] (h : t.Sub t') (a : Coo T) :
    SameOrOverflow (Coo.to_csr t a) (Coo.to_csr t' a) := by
  unfold Coo.to_csr; widen [coo_tocsr_wd, CSR_sum_duplicates_wd, CSC_sum_duplicates_wd]

theorem Coo_upper_wd (h : t.Sub t') (a : Coo T) (k : Int) :
    SameOrOverflow (Coo.upper t a k) (Coo.upper t' a k) := by
  unfold Coo.upper; widen [CSC_add_wd]

theorem shiftM_wd (h : t.Sub t') (off : Nat) (idx : List Int) :
    SameOrOverflow (shiftM t off idx) (shiftM t' off idx) := by
  unfold shiftM; widen [CSC_add_wd]

theorem Coo_v_stack_wd (h : t.Sub t') (a b : Coo T) :
    SameOrOverflow (Coo.v_stack t a b) (Coo.v_stack t' a b) := by
  unfold Coo.v_stack; widen [shiftM_wd]

theorem Coo_v_stack3_wd (h : t.Sub t') (a b c : Coo T) :
    SameOrOverflow (Coo.v_stack3 t a b c) (Coo.v_stack3 t' a b c) := by
  unfold Coo.v_stack3; widen [Coo_v_stack_wd]

theorem Coo_h_stack_wd (h : t.Sub t') (a b : Coo T) :
    SameOrOverflow (Coo.h_stack t a b) (Coo.h_stack t' a b) := by
  unfold Coo.h_stack; widen [shiftM_wd]

theorem Coo_h_stack3_wd (h : t.Sub t') (a b c : Coo T) :
    SameOrOverflow (Coo.h_stack3 t a b c) (Coo.h_stack3 t' a b c) := by
  unfold Coo.h_stack3; widen [Coo_h_stack_wd]

theorem Coo_compose_wd (h : t.Sub t') (j11 j12 j21 j22 : Coo T) :
    SameOrOverflow (Coo.compose t j11 j12 j21 j22) (Coo.compose t' j11 j12 j21 j22) := by
  unfold Coo.compose; widen [Coo_v_stack_wd, Coo_h_stack_wd]

theorem Coo_compose3_wd (h : t.Sub t') (j11 j12 j13 j21 j22 j23 j31 j32 j33 : Coo T) :
    SameOrOverflow (Coo.compose3 t j11 j12 j13 j21 j22 j23 j31 j32 j33) (Coo.compose3 t' j11 j12 j13 j21 j22 j23 j31 j32 j33) := by
  unfold Coo.compose3; widen [Coo_v_stack3_wd, Coo_h_stack3_wd]

theorem CSR_to_coo_wd (h : t.Sub t') (a : CSR T) :
    SameOrOverflow (CSR.to_coo t a) (CSR.to_coo t' a) := by
  unfold CSR.to_coo; widen [expandptr_wd]

theorem CSC_to_coo_wd [Zero T] (h : t.Sub t') (a : CSC T) :
    SameOrOverflow (CSC.to_coo t a) (CSC.to_coo t' a) := by
  unfold CSC.to_coo; widen [csr_tocoo_wd]

theorem CSR_h_stack_wd [Zero T] [Add T] (h : t.Sub t') (a b : CSR T) :
    SameOrOverflow (CSR.h_stack t a b) (CSR.h_stack t' a b) := by
  unfold CSR.h_stack; widen [CSC_to_csr_wd, Coo_to_csr_wd, Coo_h_stack_wd, CSR_to_coo_wd, CSC_to_coo_wd]

theorem CSC_compose_wd [Zero T] [Add T] (h : t.Sub t') (j11 j12 j21 j22 : CSC T) :
    SameOrOverflow (CSC.compose t j11 j12 j21 j22) (CSC.compose t' j11 j12 j21 j22) := by
  unfold CSC.compose; widen [CSR_to_csc_wd, Coo_to_csc_wd, Coo_v_stack_wd, Coo_h_stack_wd, CSR_to_coo_wd, CSC_to_coo_wd, CSR_h_stack_wd]

theorem CSR_add_wd [Zero T] [Add T] [BEq T] (h : t.Sub t') (a b : CSR T) :
    SameOrOverflow (CSR.add t a b) (CSR.add t' a b) := by
  unfold CSR.add; widen [csr_add_csr_wd]

theorem CSR_sub_wd [Zero T] [Add T] [Sub T] [BEq T] (h : t.Sub t') (a b : CSR T) :
    SameOrOverflow (CSR.sub t a b) (CSR.sub t' a b) := by
  unfold CSR.sub; widen [csr_sub_csr_wd]

theorem CSR_mul_wd [Zero T] [Add T] [Mul T] [BEq T] (h : t.Sub t') (a b : CSR T) :
    SameOrOverflow (CSR.mul t a b) (CSR.mul t' a b) := by
  unfold CSR.mul; widen [CSR_mat_mat_wd, CSC_mat_mat_wd]

theorem CSC_add_op_wd [Zero T] [Add T] [BEq T] (h : t.Sub t') (a b : CSC T) :
    SameOrOverflow (CSC.add_op t a b) (CSC.add_op t' a b) := by
  unfold CSC.add_op; widen [csr_add_csr_wd]

theorem CSC_sub_op_wd [Zero T] [Add T] [Sub T] [BEq T] (h : t.Sub t') (a b : CSC T) :
    SameOrOverflow (CSC.sub_op t a b) (CSC.sub_op t' a b) := by
  unfold CSC.sub_op; widen [csr_sub_csr_wd]

theorem CSC_mul_wd [Zero T] [Add T] [Mul T] [BEq T] (h : t.Sub t') (a b : CSC T) :
    SameOrOverflow (CSC.mul t a b) (CSC.mul t' a b) := by
  unfold CSC.mul; widen [CSR_mat_mat_wd, CSC_mat_mat_wd]

theorem CSC_mul_csr_wd [Zero T] [Add T] [Mul T] [BEq T] (h : t.Sub t') (a : CSC T) (b : CSR T) :
    SameOrOverflow (CSC.mul_csr t a b) (CSC.mul_csr t' a b) := by
  unfold CSC.mul_csr; widen [CSR_mat_mat_wd, CSC_mat_mat_wd, CSR_to_csc_wd, Coo_to_csc_wd]

theorem Coo_add_wd [Zero T] [Add T] (h : t.Sub t') (a b : Coo T) :
    SameOrOverflow (Coo.add t a b) (Coo.add t' a b) := by
  unfold Coo.add; widen [CSC_to_csr_wd, Coo_to_csr_wd]

theorem DoK_set_wd [Zero T] [BEq T] (h : t.Sub t') (d : DoK T) (i j : Int) (v : T) :
    SameOrOverflow (DoK.set t d i j v) (DoK.set t' d i j v) := by
  unfold DoK.set; widen

theorem DoK_add_wd [Zero T] [Add T] [BEq T] (h : t.Sub t') (d : DoK T) (i j : Int) (v : T) :
    SameOrOverflow (DoK.add t d i j v) (DoK.add t' d i j v) := by
  unfold DoK.add; widen [DoK_set_wd]

theorem DoK_sub_wd [Zero T] [Sub T] [BEq T] (h : t.Sub t') (d : DoK T) (i j : Int) (v : T) :
    SameOrOverflow (DoK.sub t d i j v) (DoK.sub t' d i j v) := by
  unfold DoK.sub; widen [DoK_set_wd]

theorem DoK_from_dense_wd [Zero T] [BEq T] (h : t.Sub t') (a : List (List T)) :
    SameOrOverflow (DoK.from_dense t a) (DoK.from_dense t' a) := by
  unfold DoK.from_dense; widen [DoK_set_wd]

theorem DoK_to_csc_wd [Zero T] [Add T] (h : t.Sub t') (d : DoK T) (es : KMap T) :
    SameOrOverflow (DoK.to_csc t d es) (DoK.to_csc t' d es) := by
  unfold DoK.to_csc; widen [CSR_to_csc_wd, Coo_to_csc_wd, CSR_to_coo_wd, CSC_to_coo_wd]

theorem DoK_to_csr_wd [Zero T] [Add T] (h : t.Sub t') (d : DoK T) (es : KMap T) :
    SameOrOverflow (DoK.to_csr t d es) (DoK.to_csr t' d es) := by
  unfold DoK.to_csr; widen [CSC_to_csr_wd, Coo_to_csr_wd, CSR_to_coo_wd, CSC_to_coo_wd]

theorem connected_components_wd [Zero T] (h : t.Sub t') (fuel : Nat) (g : CSR T) (directed0 : Bool) (connection : Connection) :
    SameOrOverflow (connected_components t fuel g directed0 connection) (connected_components t' fuel g directed0 connection) := by
  unfold connected_components; widen [CSC_to_csr_wd, Coo_to_csr_wd, DoK_to_csr_wd]

theorem csg_seed_wd (hft : ft.Sub ft') (fuel n_nod : Nat) (flag : List Int) :
    SameOrOverflow (csg_seed fuel n_nod ft flag) (csg_seed fuel n_nod ft' flag) := by
  unfold csg_seed; widen

theorem csg_round_wd (hft : ft.Sub ft') (icomp : Nat) (a_p a_j : List Int) (n_pos0 n_pos : Nat) (flag0 pos0 : List Int) (n_pos_new0 : Nat) :
    SameOrOverflow (csg_round ft icomp a_p a_j n_pos0 n_pos flag0 pos0 n_pos_new0) (csg_round ft' icomp a_p a_j n_pos0 n_pos flag0 pos0 n_pos_new0) := by
  unfold csg_round; widen

theorem csg_search_wd (hft : ft.Sub ft') (n_nod icomp : Nat) (a_p a_j : List Int) (flag0 pos0 : List Int) :
    SameOrOverflow (csg_search ft n_nod icomp a_p a_j flag0 pos0) (csg_search ft' n_nod icomp a_p a_j flag0 pos0) := by
  unfold csg_search; widen [csg_round_wd]

theorem cs_graph_components_wd (h : t.Sub t') (hft : ft.Sub ft') (fuel n_nod : Nat) (a_p a_j : List Int) (flag0 : List Int) :
    SameOrOverflow (cs_graph_components t ft fuel n_nod a_p a_j flag0) (cs_graph_components t' ft' fuel n_nod a_p a_j flag0) := by
  unfold cs_graph_components; widen [csg_seed_wd, csg_search_wd]

theorem CSR_connected_components_wd (h : t.Sub t') (hft : ft.Sub ft') (fuel : Nat) (a : CSR T) :
    SameOrOverflow (CSR.connected_components t ft fuel a) (CSR.connected_components t' ft' fuel a) := by
  unfold CSR.connected_components; widen [cs_graph_components_wd]

theorem depth_first_order_wd [Zero T] (h : t.Sub t') (fuel : Nat) (g : CSR T) (i_start : Nat) (directed : Bool) :
    SameOrOverflow (depth_first_order t fuel g i_start directed) (depth_first_order t' fuel g i_start directed) := by
  unfold depth_first_order; widen [CSC_to_csr_wd, Coo_to_csr_wd, DoK_to_csr_wd]


end
end Sparse

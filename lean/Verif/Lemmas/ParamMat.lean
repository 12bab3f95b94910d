import Verif.Lemmas.ParamKernels
import Verif.SpecExpr
/-! The operations on matrices run in the same way on related scalars. -/
namespace Sparse

instance [SRel T T'] : PRel (Coo T) (Coo T') where
  rel a b := a.rows = b.rows ∧ a.cols = b.cols ∧ a.rowidx = b.rowidx ∧ a.colidx = b.colidx ∧ LR rel a.values b.values
  all P := ∀ m n i j x x', LR rel x x' → P ⟨m, n, i, j, x⟩ ⟨m, n, i, j, x'⟩
  elim h a b hab := by
    obtain ⟨m, n, i, j, x⟩ := a
    obtain ⟨m', n', i', j', x'⟩ := b
    obtain ⟨rfl, rfl, rfl, rfl, hx⟩ := hab
    exact h _ _ _ _ _ _ hx
instance [SRel T T'] : PRel (CSR T) (CSR T') where
  rel a b := a.rows = b.rows ∧ a.cols = b.cols ∧ a.rowptr = b.rowptr ∧ a.colidx = b.colidx ∧ LR rel a.values b.values
  all P := ∀ m n i j x x', LR rel x x' → P ⟨m, n, i, j, x⟩ ⟨m, n, i, j, x'⟩
  elim h a b hab := by
    obtain ⟨m, n, i, j, x⟩ := a
    obtain ⟨m', n', i', j', x'⟩ := b
    obtain ⟨rfl, rfl, rfl, rfl, hx⟩ := hab
    exact h _ _ _ _ _ _ hx
instance [SRel T T'] : PRel (CSC T) (CSC T') where
  rel a b := a.rows = b.rows ∧ a.cols = b.cols ∧ a.rowidx = b.rowidx ∧ a.colptr = b.colptr ∧ LR rel a.values b.values
  all P := ∀ m n i j x x', LR rel x x' → P ⟨m, n, i, j, x⟩ ⟨m, n, i, j, x'⟩
  elim h a b hab := by
    obtain ⟨m, n, i, j, x⟩ := a
    obtain ⟨m', n', i', j', x'⟩ := b
    obtain ⟨rfl, rfl, rfl, rfl, hx⟩ := hab
    exact h _ _ _ _ _ _ hx

/-- an optional scalar -/
def optR (r : α → β → Prop) : Option α → Option β → Prop
  | none, none => True
  | some a, some b => r a b
  | _, _ => False
instance [SRel T T'] : PRel (Option T) (Option T') where
  rel := optR SRel.r
  all P := P none none ∧ ∀ x x', SRel.r x x' → P (some x) (some x')
  elim h a b hab := by
    match a, b, hab with
    | none, none, _ => exact h.1
    | some x, some y, hxy => exact h.2 _ _ hxy

section
variable {T T' : Type} [SRel T T']
theorem all_opt_i {P : Option T → Option T' → Prop} (h : P none none ∧ ∀ x x', SRel.r x x' → P (some x) (some x')) : PRel.all P := h
theorem rel_none : rel (none : Option T) (none : Option T') := True.intro
theorem rel_some {x : T} {x' : T'} (h : SRel.r x x') : rel (some x) (some x') := h
macro_rules | `(tactic| prel1) => `(tactic| first | with_reducible exact rel_none | fail)
macro_rules | `(tactic| prel1) => `(tactic| first | with_reducible refine rel_some ?_ | fail)
theorem all_coo_i {P : Coo T → Coo T' → Prop} (h : ∀ m n i j x x', LR rel x x' → P ⟨m, n, i, j, x⟩ ⟨m, n, i, j, x'⟩) : PRel.all P := h
theorem all_csr_i {P : CSR T → CSR T' → Prop} (h : ∀ m n i j x x', LR rel x x' → P ⟨m, n, i, j, x⟩ ⟨m, n, i, j, x'⟩) : PRel.all P := h
theorem all_csc_i {P : CSC T → CSC T' → Prop} (h : ∀ m n i j x x', LR rel x x' → P ⟨m, n, i, j, x⟩ ⟨m, n, i, j, x'⟩) : PRel.all P := h
theorem rel_coo (a : Coo T) (b : Coo T') :
    rel a b = (a.rows = b.rows ∧ a.cols = b.cols ∧ a.rowidx = b.rowidx ∧ a.colidx = b.colidx ∧ LR rel a.values b.values) := rfl
theorem rel_csr (a : CSR T) (b : CSR T') :
    rel a b = (a.rows = b.rows ∧ a.cols = b.cols ∧ a.rowptr = b.rowptr ∧ a.colidx = b.colidx ∧ LR rel a.values b.values) := rfl
theorem rel_csc (a : CSC T) (b : CSC T') :
    rel a b = (a.rows = b.rows ∧ a.cols = b.cols ∧ a.rowidx = b.rowidx ∧ a.colptr = b.colptr ∧ LR rel a.values b.values) := rfl
theorem Par.eqNat (m : M Nat) : Par rel m m := Par.eq m
theorem Par.eqInt (m : M Int) : Par rel m m := Par.eq m
theorem Par.eqBool (m : M Bool) : Par rel m m := Par.eq m
theorem Par.eqUnit (m : M Unit) : Par rel m m := Par.eq m
theorem Par.eqInts (m : M (List Int)) : Par rel m m := Par.eq m
macro_rules | `(tactic| parc) => `(tactic| first | (with_reducible refine all_coo_i fun _ _ _ _ _ _ _ => ?_; try dsimp only) | fail)
macro_rules | `(tactic| parc) => `(tactic| first | (with_reducible refine all_csr_i fun _ _ _ _ _ _ _ => ?_; try dsimp only) | fail)
macro_rules | `(tactic| parc) => `(tactic| first | (with_reducible refine all_csc_i fun _ _ _ _ _ _ _ => ?_; try dsimp only) | fail)
macro_rules | `(tactic| parc) => `(tactic| first | with_reducible exact Par.eqNat _ | fail)
macro_rules | `(tactic| parc) => `(tactic| first | with_reducible exact Par.eqInt _ | fail)
macro_rules | `(tactic| parc) => `(tactic| first | with_reducible exact Par.eqBool _ | fail)
macro_rules | `(tactic| parc) => `(tactic| first | with_reducible exact Par.eqUnit _ | fail)
macro_rules | `(tactic| parc) => `(tactic| first | with_reducible exact Par.eqInts _ | fail)
macro_rules | `(tactic| prel1) => `(tactic| first | simp only [rel_coo, rel_csr, rel_csc] | fail)

open Lean Elab Tactic Meta in
/-- rewrites the lengths of related lists -/
elab "lrlen" : tactic => withMainContext do
  let mut ok := false
  for d in (← getLCtx) do
    if d.isImplementationDetail then continue
    if (← instantiateMVars d.type).isAppOf ``LR then
      let s ← Term.exprToSyntax d.toExpr
      try
        evalTactic (← `(tactic| rw [LR.length $s]))
        ok := true
      catch _ => pure ()
      if (← getGoals).isEmpty then return
  unless ok do throwError "no length to rewrite"
macro_rules | `(tactic| prel1) => `(tactic| first | lrlen | fail)
macro_rules | `(tactic| parc) => `(tactic| first | lrlen | fail)

theorem CSR_new_par   (m : Nat) (n : Nat) (p : List Int) (j : List Int) {x : List T} {x' : List T'} (hx : rel x x') :
    Par rel (CSR.new m n p j x) (CSR.new m n p j x') := by
  simp only [rel_list] at hx
  unfold CSR.new
  try dsimp only
  par
macro_rules | `(tactic| parc) => `(tactic| first | with_reducible refine CSR_new_par _ _ _ _ ?_ | fail)

theorem CSC_new_par   (m : Nat) (n : Nat) (p : List Int) (j : List Int) {x : List T} {x' : List T'} (hx : rel x x') :
    Par rel (CSC.new m n p j x) (CSC.new m n p j x') := by
  simp only [rel_list] at hx
  unfold CSC.new
  try dsimp only
  par
macro_rules | `(tactic| parc) => `(tactic| first | with_reducible refine CSC_new_par _ _ _ _ ?_ | fail)

theorem Coo_new_par   (m : Nat) (n : Nat) (p : List Int) (j : List Int) {x : List T} {x' : List T'} (hx : rel x x') :
    Par rel (Coo.new m n p j x) (Coo.new m n p j x') := by
  simp only [rel_list] at hx
  unfold Coo.new
  try dsimp only
  par
macro_rules | `(tactic| parc) => `(tactic| first | with_reducible refine Coo_new_par _ _ _ _ ?_ | fail)

theorem CSR_nnz_par   {a : CSR T} {a' : CSR T'} (ha : rel a a') :
    Par rel (CSR.nnz a) (CSR.nnz a') := by
  obtain ⟨a_m, a_n, a_i, a_j, ax⟩ := a
  obtain ⟨_, _, _, _, ax'⟩ := a'
  obtain ⟨rfl, rfl, rfl, rfl, hax⟩ := ha
  dsimp only at hax
  unfold CSR.nnz
  try dsimp only
  par
macro_rules | `(tactic| parc) => `(tactic| first | with_reducible refine CSR_nnz_par ?_ | fail)

theorem CSC_nnz_par   {a : CSC T} {a' : CSC T'} (ha : rel a a') :
    Par rel (CSC.nnz a) (CSC.nnz a') := by
  obtain ⟨a_m, a_n, a_i, a_j, ax⟩ := a
  obtain ⟨_, _, _, _, ax'⟩ := a'
  obtain ⟨rfl, rfl, rfl, rfl, hax⟩ := ha
  dsimp only at hax
  unfold CSC.nnz
  try dsimp only
  par
macro_rules | `(tactic| parc) => `(tactic| first | with_reducible refine CSC_nnz_par ?_ | fail)

theorem CSR_prune_par [Zero T] [Zero T'] [SZero T T'] {a : CSR T} {a' : CSR T'} (ha : rel a a') :
    Par rel (CSR.prune a) (CSR.prune a') := by
  obtain ⟨a_m, a_n, a_i, a_j, ax⟩ := a
  obtain ⟨_, _, _, _, ax'⟩ := a'
  obtain ⟨rfl, rfl, rfl, rfl, hax⟩ := ha
  dsimp only at hax
  unfold CSR.prune
  try dsimp only
  par
macro_rules | `(tactic| parc) => `(tactic| first | with_reducible refine CSR_prune_par ?_ | fail)

theorem CSC_prune_par   {a : CSC T} {a' : CSC T'} (ha : rel a a') :
    Par rel (CSC.prune a) (CSC.prune a') := by
  obtain ⟨a_m, a_n, a_i, a_j, ax⟩ := a
  obtain ⟨_, _, _, _, ax'⟩ := a'
  obtain ⟨rfl, rfl, rfl, rfl, hax⟩ := ha
  dsimp only at hax
  unfold CSC.prune
  try dsimp only
  par
macro_rules | `(tactic| parc) => `(tactic| first | with_reducible refine CSC_prune_par ?_ | fail)

theorem CSR_from_dense_par [Zero T] [Zero T'] [BEq T] [BEq T'] [SZero T T'] [SNz T T'] (t : IdxTy) {A : List (List T)} {A' : List (List T')} (hA : rel A A') :
    Par rel (CSR.from_dense t A) (CSR.from_dense t A') := by
  simp only [rel_list] at hA
  unfold CSR.from_dense
  try dsimp only
  par
macro_rules | `(tactic| parc) => `(tactic| first | with_reducible refine CSR_from_dense_par _ ?_ | fail)

theorem CSC_from_dense_par [Zero T] [Zero T'] [BEq T] [BEq T'] [SZero T T'] [SNz T T'] (t : IdxTy) {A : List (List T)} {A' : List (List T')} (hA : rel A A') :
    Par rel (CSC.from_dense t A) (CSC.from_dense t A') := by
  simp only [rel_list] at hA
  unfold CSC.from_dense
  try dsimp only
  par
macro_rules | `(tactic| parc) => `(tactic| first | with_reducible refine CSC_from_dense_par _ ?_ | fail)

theorem Coo_from_dense_par [Zero T] [Zero T'] [BEq T] [BEq T'] [SZero T T'] [SNz T T'] (t : IdxTy) {A : List (List T)} {A' : List (List T')} (hA : rel A A') :
    Par rel (Coo.from_dense t A) (Coo.from_dense t A') := by
  simp only [rel_list] at hA
  unfold Coo.from_dense
  try dsimp only
  par
macro_rules | `(tactic| parc) => `(tactic| first | with_reducible refine Coo_from_dense_par _ ?_ | fail)

theorem CSR_with_diagonal_par   (t : IdxTy) {d : List T} {d' : List T'} (hd : rel d d') :
    Par rel (CSR.with_diagonal t d) (CSR.with_diagonal t d') := by
  simp only [rel_list] at hd
  unfold CSR.with_diagonal
  try dsimp only
  par
macro_rules | `(tactic| parc) => `(tactic| first | with_reducible refine CSR_with_diagonal_par _ ?_ | fail)

theorem CSC_with_diagonal_par   (t : IdxTy) {d : List T} {d' : List T'} (hd : rel d d') :
    Par rel (CSC.with_diagonal t d) (CSC.with_diagonal t d') := by
  simp only [rel_list] at hd
  unfold CSC.with_diagonal
  try dsimp only
  par
macro_rules | `(tactic| parc) => `(tactic| first | with_reducible refine CSC_with_diagonal_par _ ?_ | fail)

theorem Coo_with_diagonal_par [Zero T] [Zero T'] [SZero T T'] (t : IdxTy) {d : List T} {d' : List T'} (hd : rel d d') :
    Par rel (Coo.with_diagonal t d) (Coo.with_diagonal t d') := by
  simp only [rel_list] at hd
  unfold Coo.with_diagonal
  try dsimp only
  par
macro_rules | `(tactic| parc) => `(tactic| first | with_reducible refine Coo_with_diagonal_par _ ?_ | fail)

theorem Coo_identity_par [Zero T] [Zero T'] [One T] [One T'] [SZero T T'] [SOne T T'] (t : IdxTy) (n : Nat) :
    Par rel (Coo.identity (T := T) t n) (Coo.identity (T := T') t n) := by
  unfold Coo.identity
  try dsimp only
  par
macro_rules | `(tactic| parc) => `(tactic| first | with_reducible refine Coo_identity_par _ _ | fail)

theorem CSR_has_canonical_format_par   (t : IdxTy) {a : CSR T} {a' : CSR T'} (ha : rel a a') :
    Par rel (CSR.has_canonical_format t a) (CSR.has_canonical_format t a') := by
  obtain ⟨a_m, a_n, a_i, a_j, ax⟩ := a
  obtain ⟨_, _, _, _, ax'⟩ := a'
  obtain ⟨rfl, rfl, rfl, rfl, hax⟩ := ha
  dsimp only at hax
  unfold CSR.has_canonical_format
  try dsimp only
  par
macro_rules | `(tactic| parc) => `(tactic| first | with_reducible refine CSR_has_canonical_format_par _ ?_ | fail)

theorem CSC_has_canonical_format_par   (t : IdxTy) {a : CSC T} {a' : CSC T'} (ha : rel a a') :
    Par rel (CSC.has_canonical_format t a) (CSC.has_canonical_format t a') := by
  obtain ⟨a_m, a_n, a_i, a_j, ax⟩ := a
  obtain ⟨_, _, _, _, ax'⟩ := a'
  obtain ⟨rfl, rfl, rfl, rfl, hax⟩ := ha
  dsimp only at hax
  unfold CSC.has_canonical_format
  try dsimp only
  par
macro_rules | `(tactic| parc) => `(tactic| first | with_reducible refine CSC_has_canonical_format_par _ ?_ | fail)

theorem CSR_has_sorted_indexes_par   (t : IdxTy) {a : CSR T} {a' : CSR T'} (ha : rel a a') :
    Par rel (CSR.has_sorted_indexes t a) (CSR.has_sorted_indexes t a') := by
  obtain ⟨a_m, a_n, a_i, a_j, ax⟩ := a
  obtain ⟨_, _, _, _, ax'⟩ := a'
  obtain ⟨rfl, rfl, rfl, rfl, hax⟩ := ha
  dsimp only at hax
  unfold CSR.has_sorted_indexes
  try dsimp only
  par
macro_rules | `(tactic| parc) => `(tactic| first | with_reducible refine CSR_has_sorted_indexes_par _ ?_ | fail)

theorem CSC_has_sorted_indexes_par   (t : IdxTy) {a : CSC T} {a' : CSC T'} (ha : rel a a') :
    Par rel (CSC.has_sorted_indexes t a) (CSC.has_sorted_indexes t a') := by
  obtain ⟨a_m, a_n, a_i, a_j, ax⟩ := a
  obtain ⟨_, _, _, _, ax'⟩ := a'
  obtain ⟨rfl, rfl, rfl, rfl, hax⟩ := ha
  dsimp only at hax
  unfold CSC.has_sorted_indexes
  try dsimp only
  par
macro_rules | `(tactic| parc) => `(tactic| first | with_reducible refine CSC_has_sorted_indexes_par _ ?_ | fail)

theorem CSR_sort_indexes_par [Zero T] [Zero T'] [SZero T T'] {a : CSR T} {a' : CSR T'} (ha : rel a a') :
    Par rel (CSR.sort_indexes a) (CSR.sort_indexes a') := by
  obtain ⟨a_m, a_n, a_i, a_j, ax⟩ := a
  obtain ⟨_, _, _, _, ax'⟩ := a'
  obtain ⟨rfl, rfl, rfl, rfl, hax⟩ := ha
  dsimp only at hax
  unfold CSR.sort_indexes
  try dsimp only
  par
macro_rules | `(tactic| parc) => `(tactic| first | with_reducible refine CSR_sort_indexes_par ?_ | fail)

theorem CSC_sort_indexes_par [Zero T] [Zero T'] [SZero T T'] {a : CSC T} {a' : CSC T'} (ha : rel a a') :
    Par rel (CSC.sort_indexes a) (CSC.sort_indexes a') := by
  obtain ⟨a_m, a_n, a_i, a_j, ax⟩ := a
  obtain ⟨_, _, _, _, ax'⟩ := a'
  obtain ⟨rfl, rfl, rfl, rfl, hax⟩ := ha
  dsimp only at hax
  unfold CSC.sort_indexes
  try dsimp only
  par
macro_rules | `(tactic| parc) => `(tactic| first | with_reducible refine CSC_sort_indexes_par ?_ | fail)

theorem CSR_sum_duplicates_par [Zero T] [Zero T'] [Add T] [Add T'] [SZero T T'] [SAdd T T'] (t : IdxTy) {a : CSR T} {a' : CSR T'} (ha : rel a a') :
    Par rel (CSR.sum_duplicates t a) (CSR.sum_duplicates t a') := by
  obtain ⟨a_m, a_n, a_i, a_j, ax⟩ := a
  obtain ⟨_, _, _, _, ax'⟩ := a'
  obtain ⟨rfl, rfl, rfl, rfl, hax⟩ := ha
  dsimp only at hax
  unfold CSR.sum_duplicates
  try dsimp only
  par
macro_rules | `(tactic| parc) => `(tactic| first | with_reducible refine CSR_sum_duplicates_par _ ?_ | fail)

theorem CSC_sum_duplicates_par [Zero T] [Zero T'] [Add T] [Add T'] [SZero T T'] [SAdd T T'] (t : IdxTy) {a : CSC T} {a' : CSC T'} (ha : rel a a') :
    Par rel (CSC.sum_duplicates t a) (CSC.sum_duplicates t a') := by
  obtain ⟨a_m, a_n, a_i, a_j, ax⟩ := a
  obtain ⟨_, _, _, _, ax'⟩ := a'
  obtain ⟨rfl, rfl, rfl, rfl, hax⟩ := ha
  dsimp only at hax
  unfold CSC.sum_duplicates
  try dsimp only
  par
macro_rules | `(tactic| parc) => `(tactic| first | with_reducible refine CSC_sum_duplicates_par _ ?_ | fail)

theorem CSR_mat_vec_par [Zero T] [Zero T'] [Add T] [Add T'] [Mul T] [Mul T'] [SZero T T'] [SAdd T T'] [SMul T T'] {a : CSR T} {a' : CSR T'} (ha : rel a a') {y : List T} {y' : List T'} (hy : rel y y') :
    Par rel (CSR.mat_vec a y) (CSR.mat_vec a' y') := by
  obtain ⟨a_m, a_n, a_i, a_j, ax⟩ := a
  obtain ⟨_, _, _, _, ax'⟩ := a'
  obtain ⟨rfl, rfl, rfl, rfl, hax⟩ := ha
  dsimp only at hax
  simp only [rel_list] at hy
  unfold CSR.mat_vec
  try dsimp only
  par
macro_rules | `(tactic| parc) => `(tactic| first | with_reducible refine CSR_mat_vec_par ?_ ?_ | fail)

theorem CSC_mat_vec_par [Zero T] [Zero T'] [Add T] [Add T'] [Mul T] [Mul T'] [SZero T T'] [SAdd T T'] [SMul T T'] {a : CSC T} {a' : CSC T'} (ha : rel a a') {y : List T} {y' : List T'} (hy : rel y y') :
    Par rel (CSC.mat_vec a y) (CSC.mat_vec a' y') := by
  obtain ⟨a_m, a_n, a_i, a_j, ax⟩ := a
  obtain ⟨_, _, _, _, ax'⟩ := a'
  obtain ⟨rfl, rfl, rfl, rfl, hax⟩ := ha
  dsimp only at hax
  simp only [rel_list] at hy
  unfold CSC.mat_vec
  try dsimp only
  par
macro_rules | `(tactic| parc) => `(tactic| first | with_reducible refine CSC_mat_vec_par ?_ ?_ | fail)

theorem CSR_mat_mat_par [Zero T] [Zero T'] [Add T] [Add T'] [Mul T] [Mul T'] [BEq T] [BEq T'] [SZero T T'] [SAdd T T'] [SMul T T'] [SNz T T'] (t : IdxTy) {a : CSR T} {a' : CSR T'} (ha : rel a a') {b : CSR T} {b' : CSR T'} (hb : rel b b') :
    Par rel (CSR.mat_mat t a b) (CSR.mat_mat t a' b') := by
  obtain ⟨a_m, a_n, a_i, a_j, ax⟩ := a
  obtain ⟨_, _, _, _, ax'⟩ := a'
  obtain ⟨rfl, rfl, rfl, rfl, hax⟩ := ha
  dsimp only at hax
  obtain ⟨b_m, b_n, b_i, b_j, bx⟩ := b
  obtain ⟨_, _, _, _, bx'⟩ := b'
  obtain ⟨rfl, rfl, rfl, rfl, hbx⟩ := hb
  dsimp only at hbx
  unfold CSR.mat_mat
  try dsimp only
  par
macro_rules | `(tactic| parc) => `(tactic| first | with_reducible refine CSR_mat_mat_par _ ?_ ?_ | fail)

theorem CSC_mat_mat_par [Zero T] [Zero T'] [Add T] [Add T'] [Mul T] [Mul T'] [BEq T] [BEq T'] [SZero T T'] [SAdd T T'] [SMul T T'] [SNz T T'] (t : IdxTy) {a : CSC T} {a' : CSC T'} (ha : rel a a') {b : CSC T} {b' : CSC T'} (hb : rel b b') :
    Par rel (CSC.mat_mat t a b) (CSC.mat_mat t a' b') := by
  obtain ⟨a_m, a_n, a_i, a_j, ax⟩ := a
  obtain ⟨_, _, _, _, ax'⟩ := a'
  obtain ⟨rfl, rfl, rfl, rfl, hax⟩ := ha
  dsimp only at hax
  obtain ⟨b_m, b_n, b_i, b_j, bx⟩ := b
  obtain ⟨_, _, _, _, bx'⟩ := b'
  obtain ⟨rfl, rfl, rfl, rfl, hbx⟩ := hb
  dsimp only at hbx
  unfold CSC.mat_mat
  try dsimp only
  par
macro_rules | `(tactic| parc) => `(tactic| first | with_reducible refine CSC_mat_mat_par _ ?_ ?_ | fail)

theorem CSR_select_par [Zero T] [Zero T'] [SZero T T'] (t : IdxTy) {a : CSR T} {a' : CSR T'} (ha : rel a a') (ri : Option (List Int)) (ci : Option (List Int)) :
    Par rel (CSR.select t a ri ci) (CSR.select t a' ri ci) := by
  obtain ⟨a_m, a_n, a_i, a_j, ax⟩ := a
  obtain ⟨_, _, _, _, ax'⟩ := a'
  obtain ⟨rfl, rfl, rfl, rfl, hax⟩ := ha
  dsimp only at hax
  unfold CSR.select
  try dsimp only
  par
macro_rules | `(tactic| parc) => `(tactic| first | with_reducible refine CSR_select_par _ ?_ _ _ | fail)

theorem CSC_select_par [Zero T] [Zero T'] [SZero T T'] (t : IdxTy) {a : CSC T} {a' : CSC T'} (ha : rel a a') (ri : Option (List Int)) (ci : Option (List Int)) :
    Par rel (CSC.select t a ri ci) (CSC.select t a' ri ci) := by
  obtain ⟨a_m, a_n, a_i, a_j, ax⟩ := a
  obtain ⟨_, _, _, _, ax'⟩ := a'
  obtain ⟨rfl, rfl, rfl, rfl, hax⟩ := ha
  dsimp only at hax
  unfold CSC.select
  try dsimp only
  par
macro_rules | `(tactic| parc) => `(tactic| first | with_reducible refine CSC_select_par _ ?_ _ _ | fail)

theorem CSR_to_dense_par [Zero T] [Zero T'] [Add T] [Add T'] [SZero T T'] [SAdd T T'] {a : CSR T} {a' : CSR T'} (ha : rel a a') :
    Par rel (CSR.to_dense a) (CSR.to_dense a') := by
  obtain ⟨a_m, a_n, a_i, a_j, ax⟩ := a
  obtain ⟨_, _, _, _, ax'⟩ := a'
  obtain ⟨rfl, rfl, rfl, rfl, hax⟩ := ha
  dsimp only at hax
  unfold CSR.to_dense
  try dsimp only
  par
macro_rules | `(tactic| parc) => `(tactic| first | with_reducible refine CSR_to_dense_par ?_ | fail)

theorem CSR_diagonal_par [Zero T] [Zero T'] [Add T] [Add T'] [SZero T T'] [SAdd T T'] {a : CSR T} {a' : CSR T'} (ha : rel a a') :
    Par rel (CSR.diagonal a) (CSR.diagonal a') := by
  obtain ⟨a_m, a_n, a_i, a_j, ax⟩ := a
  obtain ⟨_, _, _, _, ax'⟩ := a'
  obtain ⟨rfl, rfl, rfl, rfl, hax⟩ := ha
  dsimp only at hax
  unfold CSR.diagonal
  try dsimp only
  par
macro_rules | `(tactic| parc) => `(tactic| first | with_reducible refine CSR_diagonal_par ?_ | fail)

theorem CSC_diagonal_par [Zero T] [Zero T'] [Add T] [Add T'] [SZero T T'] [SAdd T T'] {a : CSC T} {a' : CSC T'} (ha : rel a a') :
    Par rel (CSC.diagonal a) (CSC.diagonal a') := by
  obtain ⟨a_m, a_n, a_i, a_j, ax⟩ := a
  obtain ⟨_, _, _, _, ax'⟩ := a'
  obtain ⟨rfl, rfl, rfl, rfl, hax⟩ := ha
  dsimp only at hax
  unfold CSC.diagonal
  try dsimp only
  par
macro_rules | `(tactic| parc) => `(tactic| first | with_reducible refine CSC_diagonal_par ?_ | fail)

theorem CSR_get_par [Zero T] [Zero T'] [SZero T T'] {a : CSR T} {a' : CSR T'} (ha : rel a a') (i : Int) (k : Int) :
    Par rel (CSR.get a i k) (CSR.get a' i k) := by
  obtain ⟨a_m, a_n, a_i, a_j, ax⟩ := a
  obtain ⟨_, _, _, _, ax'⟩ := a'
  obtain ⟨rfl, rfl, rfl, rfl, hax⟩ := ha
  dsimp only at hax
  unfold CSR.get
  try dsimp only
  par
  all_goals refine all_opt_i ⟨?_, fun x x' h => ?_⟩
  all_goals par
macro_rules | `(tactic| parc) => `(tactic| first | with_reducible refine CSR_get_par ?_ _ _ | fail)

theorem CSR_transpose_par   {a : CSR T} {a' : CSR T'} (ha : rel a a') :
    Par rel (CSR.transpose a) (CSR.transpose a') := by
  obtain ⟨a_m, a_n, a_i, a_j, ax⟩ := a
  obtain ⟨_, _, _, _, ax'⟩ := a'
  obtain ⟨rfl, rfl, rfl, rfl, hax⟩ := ha
  dsimp only at hax
  unfold CSR.transpose
  try dsimp only
  par
macro_rules | `(tactic| parc) => `(tactic| first | with_reducible refine CSR_transpose_par ?_ | fail)

theorem CSC_transpose_par   {a : CSC T} {a' : CSC T'} (ha : rel a a') :
    Par rel (CSC.transpose a) (CSC.transpose a') := by
  obtain ⟨a_m, a_n, a_i, a_j, ax⟩ := a
  obtain ⟨_, _, _, _, ax'⟩ := a'
  obtain ⟨rfl, rfl, rfl, rfl, hax⟩ := ha
  dsimp only at hax
  unfold CSC.transpose
  try dsimp only
  par
macro_rules | `(tactic| parc) => `(tactic| first | with_reducible refine CSC_transpose_par ?_ | fail)

theorem CSC_add_par [Zero T] [Zero T'] [Add T] [Add T'] [BEq T] [BEq T'] [SZero T T'] [SAdd T T'] [SNz T T'] (t : IdxTy) {a : CSC T} {a' : CSC T'} (ha : rel a a') {b : CSC T} {b' : CSC T'} (hb : rel b b') :
    Par rel (CSC.add t a b) (CSC.add t a' b') := by
  obtain ⟨a_m, a_n, a_i, a_j, ax⟩ := a
  obtain ⟨_, _, _, _, ax'⟩ := a'
  obtain ⟨rfl, rfl, rfl, rfl, hax⟩ := ha
  dsimp only at hax
  obtain ⟨b_m, b_n, b_i, b_j, bx⟩ := b
  obtain ⟨_, _, _, _, bx'⟩ := b'
  obtain ⟨rfl, rfl, rfl, rfl, hbx⟩ := hb
  dsimp only at hbx
  unfold CSC.add
  try dsimp only
  par
macro_rules | `(tactic| parc) => `(tactic| first | with_reducible refine CSC_add_par _ ?_ ?_ | fail)

theorem CSC_subtract_par [Zero T] [Zero T'] [Add T] [Add T'] [Sub T] [Sub T'] [BEq T] [BEq T'] [SZero T T'] [SAdd T T'] [SSub T T'] [SNz T T'] (t : IdxTy) {a : CSC T} {a' : CSC T'} (ha : rel a a') {b : CSC T} {b' : CSC T'} (hb : rel b b') :
    Par rel (CSC.subtract t a b) (CSC.subtract t a' b') := by
  obtain ⟨a_m, a_n, a_i, a_j, ax⟩ := a
  obtain ⟨_, _, _, _, ax'⟩ := a'
  obtain ⟨rfl, rfl, rfl, rfl, hax⟩ := ha
  dsimp only at hax
  obtain ⟨b_m, b_n, b_i, b_j, bx⟩ := b
  obtain ⟨_, _, _, _, bx'⟩ := b'
  obtain ⟨rfl, rfl, rfl, rfl, hbx⟩ := hb
  dsimp only at hbx
  unfold CSC.subtract
  try dsimp only
  par
macro_rules | `(tactic| parc) => `(tactic| first | with_reducible refine CSC_subtract_par _ ?_ ?_ | fail)

theorem CSC_to_csr_par [Zero T] [Zero T'] [SZero T T'] (t : IdxTy) {a : CSC T} {a' : CSC T'} (ha : rel a a') :
    Par rel (CSC.to_csr t a) (CSC.to_csr t a') := by
  obtain ⟨a_m, a_n, a_i, a_j, ax⟩ := a
  obtain ⟨_, _, _, _, ax'⟩ := a'
  obtain ⟨rfl, rfl, rfl, rfl, hax⟩ := ha
  dsimp only at hax
  unfold CSC.to_csr
  try dsimp only
  par
macro_rules | `(tactic| parc) => `(tactic| first | with_reducible refine CSC_to_csr_par _ ?_ | fail)

theorem CSR_to_csc_par [Zero T] [Zero T'] [SZero T T'] (t : IdxTy) {a : CSR T} {a' : CSR T'} (ha : rel a a') :
    Par rel (CSR.to_csc t a) (CSR.to_csc t a') := by
  obtain ⟨a_m, a_n, a_i, a_j, ax⟩ := a
  obtain ⟨_, _, _, _, ax'⟩ := a'
  obtain ⟨rfl, rfl, rfl, rfl, hax⟩ := ha
  dsimp only at hax
  unfold CSR.to_csc
  try dsimp only
  par
macro_rules | `(tactic| parc) => `(tactic| first | with_reducible refine CSR_to_csc_par _ ?_ | fail)

theorem CSC_to_dense_par [Zero T] [Zero T'] [Add T] [Add T'] [SZero T T'] [SAdd T T'] (t : IdxTy) {a : CSC T} {a' : CSC T'} (ha : rel a a') :
    Par rel (CSC.to_dense t a) (CSC.to_dense t a') := by
  obtain ⟨a_m, a_n, a_i, a_j, ax⟩ := a
  obtain ⟨_, _, _, _, ax'⟩ := a'
  obtain ⟨rfl, rfl, rfl, rfl, hax⟩ := ha
  dsimp only at hax
  unfold CSC.to_dense
  try dsimp only
  par
macro_rules | `(tactic| parc) => `(tactic| first | with_reducible refine CSC_to_dense_par _ ?_ | fail)

theorem Coo_to_csc_par [Zero T] [Zero T'] [Add T] [Add T'] [SZero T T'] [SAdd T T'] (t : IdxTy) {a : Coo T} {a' : Coo T'} (ha : rel a a') :
    Par rel (Coo.to_csc t a) (Coo.to_csc t a') := by
  obtain ⟨a_m, a_n, a_i, a_j, ax⟩ := a
  obtain ⟨_, _, _, _, ax'⟩ := a'
  obtain ⟨rfl, rfl, rfl, rfl, hax⟩ := ha
  dsimp only at hax
  unfold Coo.to_csc
  try dsimp only
  unfold Coo.nnz; dsimp only
  par
macro_rules | `(tactic| parc) => `(tactic| first | with_reducible refine Coo_to_csc_par _ ?_ | fail)

theorem Coo_to_csr_par [Zero T] [Zero T'] [Add T] [Add T'] [SZero T T'] [SAdd T T'] (t : IdxTy) {a : Coo T} {a' : Coo T'} (ha : rel a a') :
    Par rel (Coo.to_csr t a) (Coo.to_csr t a') := by
  obtain ⟨a_m, a_n, a_i, a_j, ax⟩ := a
  obtain ⟨_, _, _, _, ax'⟩ := a'
  obtain ⟨rfl, rfl, rfl, rfl, hax⟩ := ha
  dsimp only at hax
  unfold Coo.to_csr
  try dsimp only
  unfold Coo.nnz; dsimp only
  par
macro_rules | `(tactic| parc) => `(tactic| first | with_reducible refine Coo_to_csr_par _ ?_ | fail)

theorem Coo_to_dense_par [Zero T] [Zero T'] [Add T] [Add T'] [SZero T T'] [SAdd T T'] {a : Coo T} {a' : Coo T'} (ha : rel a a') :
    Par rel (Coo.to_dense a) (Coo.to_dense a') := by
  obtain ⟨a_m, a_n, a_i, a_j, ax⟩ := a
  obtain ⟨_, _, _, _, ax'⟩ := a'
  obtain ⟨rfl, rfl, rfl, rfl, hax⟩ := ha
  dsimp only at hax
  unfold Coo.to_dense
  try dsimp only
  unfold Coo.nnz; dsimp only
  par
macro_rules | `(tactic| parc) => `(tactic| first | with_reducible refine Coo_to_dense_par ?_ | fail)

theorem Coo_upper_par   (t : IdxTy) {a : Coo T} {a' : Coo T'} (ha : rel a a') (k : Int) :
    Par rel (Coo.upper t a k) (Coo.upper t a' k) := by
  obtain ⟨a_m, a_n, a_i, a_j, ax⟩ := a
  obtain ⟨_, _, _, _, ax'⟩ := a'
  obtain ⟨rfl, rfl, rfl, rfl, hax⟩ := ha
  dsimp only at hax
  unfold Coo.upper
  try dsimp only
  unfold Coo.nnz; dsimp only
  par
macro_rules | `(tactic| parc) => `(tactic| first | with_reducible refine Coo_upper_par _ ?_ _ | fail)

theorem Coo_diagonal_par [Zero T] [Zero T'] [Add T] [Add T'] [SZero T T'] [SAdd T T'] {a : Coo T} {a' : Coo T'} (ha : rel a a') :
    Par rel (Coo.diagonal a) (Coo.diagonal a') := by
  obtain ⟨a_m, a_n, a_i, a_j, ax⟩ := a
  obtain ⟨_, _, _, _, ax'⟩ := a'
  obtain ⟨rfl, rfl, rfl, rfl, hax⟩ := ha
  dsimp only at hax
  unfold Coo.diagonal
  try dsimp only
  par
macro_rules | `(tactic| parc) => `(tactic| first | with_reducible refine Coo_diagonal_par ?_ | fail)

theorem Coo_v_stack_par   (t : IdxTy) {a : Coo T} {a' : Coo T'} (ha : rel a a') {b : Coo T} {b' : Coo T'} (hb : rel b b') :
    Par rel (Coo.v_stack t a b) (Coo.v_stack t a' b') := by
  obtain ⟨a_m, a_n, a_i, a_j, ax⟩ := a
  obtain ⟨_, _, _, _, ax'⟩ := a'
  obtain ⟨rfl, rfl, rfl, rfl, hax⟩ := ha
  dsimp only at hax
  obtain ⟨b_m, b_n, b_i, b_j, bx⟩ := b
  obtain ⟨_, _, _, _, bx'⟩ := b'
  obtain ⟨rfl, rfl, rfl, rfl, hbx⟩ := hb
  dsimp only at hbx
  unfold Coo.v_stack
  try dsimp only
  par
macro_rules | `(tactic| parc) => `(tactic| first | with_reducible refine Coo_v_stack_par _ ?_ ?_ | fail)

theorem Coo_v_stack3_par   (t : IdxTy) {a : Coo T} {a' : Coo T'} (ha : rel a a') {b : Coo T} {b' : Coo T'} (hb : rel b b') {c : Coo T} {c' : Coo T'} (hc : rel c c') :
    Par rel (Coo.v_stack3 t a b c) (Coo.v_stack3 t a' b' c') := by
  obtain ⟨a_m, a_n, a_i, a_j, ax⟩ := a
  obtain ⟨_, _, _, _, ax'⟩ := a'
  obtain ⟨rfl, rfl, rfl, rfl, hax⟩ := ha
  dsimp only at hax
  obtain ⟨b_m, b_n, b_i, b_j, bx⟩ := b
  obtain ⟨_, _, _, _, bx'⟩ := b'
  obtain ⟨rfl, rfl, rfl, rfl, hbx⟩ := hb
  dsimp only at hbx
  obtain ⟨c_m, c_n, c_i, c_j, cx⟩ := c
  obtain ⟨_, _, _, _, cx'⟩ := c'
  obtain ⟨rfl, rfl, rfl, rfl, hcx⟩ := hc
  dsimp only at hcx
  unfold Coo.v_stack3
  try dsimp only
  par
macro_rules | `(tactic| parc) => `(tactic| first | with_reducible refine Coo_v_stack3_par _ ?_ ?_ ?_ | fail)

theorem Coo_h_stack_par   (t : IdxTy) {a : Coo T} {a' : Coo T'} (ha : rel a a') {b : Coo T} {b' : Coo T'} (hb : rel b b') :
    Par rel (Coo.h_stack t a b) (Coo.h_stack t a' b') := by
  obtain ⟨a_m, a_n, a_i, a_j, ax⟩ := a
  obtain ⟨_, _, _, _, ax'⟩ := a'
  obtain ⟨rfl, rfl, rfl, rfl, hax⟩ := ha
  dsimp only at hax
  obtain ⟨b_m, b_n, b_i, b_j, bx⟩ := b
  obtain ⟨_, _, _, _, bx'⟩ := b'
  obtain ⟨rfl, rfl, rfl, rfl, hbx⟩ := hb
  dsimp only at hbx
  unfold Coo.h_stack
  try dsimp only
  par
macro_rules | `(tactic| parc) => `(tactic| first | with_reducible refine Coo_h_stack_par _ ?_ ?_ | fail)

theorem Coo_h_stack3_par   (t : IdxTy) {a : Coo T} {a' : Coo T'} (ha : rel a a') {b : Coo T} {b' : Coo T'} (hb : rel b b') {c : Coo T} {c' : Coo T'} (hc : rel c c') :
    Par rel (Coo.h_stack3 t a b c) (Coo.h_stack3 t a' b' c') := by
  obtain ⟨a_m, a_n, a_i, a_j, ax⟩ := a
  obtain ⟨_, _, _, _, ax'⟩ := a'
  obtain ⟨rfl, rfl, rfl, rfl, hax⟩ := ha
  dsimp only at hax
  obtain ⟨b_m, b_n, b_i, b_j, bx⟩ := b
  obtain ⟨_, _, _, _, bx'⟩ := b'
  obtain ⟨rfl, rfl, rfl, rfl, hbx⟩ := hb
  dsimp only at hbx
  obtain ⟨c_m, c_n, c_i, c_j, cx⟩ := c
  obtain ⟨_, _, _, _, cx'⟩ := c'
  obtain ⟨rfl, rfl, rfl, rfl, hcx⟩ := hc
  dsimp only at hcx
  unfold Coo.h_stack3
  try dsimp only
  par
macro_rules | `(tactic| parc) => `(tactic| first | with_reducible refine Coo_h_stack3_par _ ?_ ?_ ?_ | fail)

theorem Coo_compose_par   (t : IdxTy) {a : Coo T} {a' : Coo T'} (ha : rel a a') {b : Coo T} {b' : Coo T'} (hb : rel b b') {c : Coo T} {c' : Coo T'} (hc : rel c c') {d : Coo T} {d' : Coo T'} (hd : rel d d') :
    Par rel (Coo.compose t a b c d) (Coo.compose t a' b' c' d') := by
  obtain ⟨a_m, a_n, a_i, a_j, ax⟩ := a
  obtain ⟨_, _, _, _, ax'⟩ := a'
  obtain ⟨rfl, rfl, rfl, rfl, hax⟩ := ha
  dsimp only at hax
  obtain ⟨b_m, b_n, b_i, b_j, bx⟩ := b
  obtain ⟨_, _, _, _, bx'⟩ := b'
  obtain ⟨rfl, rfl, rfl, rfl, hbx⟩ := hb
  dsimp only at hbx
  obtain ⟨c_m, c_n, c_i, c_j, cx⟩ := c
  obtain ⟨_, _, _, _, cx'⟩ := c'
  obtain ⟨rfl, rfl, rfl, rfl, hcx⟩ := hc
  dsimp only at hcx
  obtain ⟨d_m, d_n, d_i, d_j, dx⟩ := d
  obtain ⟨_, _, _, _, dx'⟩ := d'
  obtain ⟨rfl, rfl, rfl, rfl, hdx⟩ := hd
  dsimp only at hdx
  unfold Coo.compose
  try dsimp only
  par
macro_rules | `(tactic| parc) => `(tactic| first | with_reducible refine Coo_compose_par _ ?_ ?_ ?_ ?_ | fail)

theorem Coo_compose3_par   (t : IdxTy) {a : Coo T} {a' : Coo T'} (ha : rel a a') {b : Coo T} {b' : Coo T'} (hb : rel b b') {c : Coo T} {c' : Coo T'} (hc : rel c c') {d : Coo T} {d' : Coo T'} (hd : rel d d') {e : Coo T} {e' : Coo T'} (he : rel e e') {f : Coo T} {f' : Coo T'} (hf : rel f f') {g : Coo T} {g' : Coo T'} (hg : rel g g') {h : Coo T} {h' : Coo T'} (hh : rel h h') {i : Coo T} {i' : Coo T'} (hi : rel i i') :
    Par rel (Coo.compose3 t a b c d e f g h i) (Coo.compose3 t a' b' c' d' e' f' g' h' i') := by
  obtain ⟨a_m, a_n, a_i, a_j, ax⟩ := a
  obtain ⟨_, _, _, _, ax'⟩ := a'
  obtain ⟨rfl, rfl, rfl, rfl, hax⟩ := ha
  dsimp only at hax
  obtain ⟨b_m, b_n, b_i, b_j, bx⟩ := b
  obtain ⟨_, _, _, _, bx'⟩ := b'
  obtain ⟨rfl, rfl, rfl, rfl, hbx⟩ := hb
  dsimp only at hbx
  obtain ⟨c_m, c_n, c_i, c_j, cx⟩ := c
  obtain ⟨_, _, _, _, cx'⟩ := c'
  obtain ⟨rfl, rfl, rfl, rfl, hcx⟩ := hc
  dsimp only at hcx
  obtain ⟨d_m, d_n, d_i, d_j, dx⟩ := d
  obtain ⟨_, _, _, _, dx'⟩ := d'
  obtain ⟨rfl, rfl, rfl, rfl, hdx⟩ := hd
  dsimp only at hdx
  obtain ⟨e_m, e_n, e_i, e_j, ex⟩ := e
  obtain ⟨_, _, _, _, ex'⟩ := e'
  obtain ⟨rfl, rfl, rfl, rfl, hex⟩ := he
  dsimp only at hex
  obtain ⟨f_m, f_n, f_i, f_j, fx⟩ := f
  obtain ⟨_, _, _, _, fx'⟩ := f'
  obtain ⟨rfl, rfl, rfl, rfl, hfx⟩ := hf
  dsimp only at hfx
  obtain ⟨g_m, g_n, g_i, g_j, gx⟩ := g
  obtain ⟨_, _, _, _, gx'⟩ := g'
  obtain ⟨rfl, rfl, rfl, rfl, hgx⟩ := hg
  dsimp only at hgx
  obtain ⟨h_m, h_n, h_i, h_j, hx⟩ := h
  obtain ⟨_, _, _, _, hx'⟩ := h'
  obtain ⟨rfl, rfl, rfl, rfl, hhx⟩ := hh
  dsimp only at hhx
  obtain ⟨i_m, i_n, i_i, i_j, ix⟩ := i
  obtain ⟨_, _, _, _, ix'⟩ := i'
  obtain ⟨rfl, rfl, rfl, rfl, hix⟩ := hi
  dsimp only at hix
  unfold Coo.compose3
  try dsimp only
  par
macro_rules | `(tactic| parc) => `(tactic| first | with_reducible refine Coo_compose3_par _ ?_ ?_ ?_ ?_ ?_ ?_ ?_ ?_ ?_ | fail)

theorem CSR_to_coo_par   (t : IdxTy) {a : CSR T} {a' : CSR T'} (ha : rel a a') :
    Par rel (CSR.to_coo t a) (CSR.to_coo t a') := by
  obtain ⟨a_m, a_n, a_i, a_j, ax⟩ := a
  obtain ⟨_, _, _, _, ax'⟩ := a'
  obtain ⟨rfl, rfl, rfl, rfl, hax⟩ := ha
  dsimp only at hax
  unfold CSR.to_coo
  try dsimp only
  par
macro_rules | `(tactic| parc) => `(tactic| first | with_reducible refine CSR_to_coo_par _ ?_ | fail)

theorem CSC_to_coo_par [Zero T] [Zero T'] [SZero T T'] (t : IdxTy) {a : CSC T} {a' : CSC T'} (ha : rel a a') :
    Par rel (CSC.to_coo t a) (CSC.to_coo t a') := by
  obtain ⟨a_m, a_n, a_i, a_j, ax⟩ := a
  obtain ⟨_, _, _, _, ax'⟩ := a'
  obtain ⟨rfl, rfl, rfl, rfl, hax⟩ := ha
  dsimp only at hax
  unfold CSC.to_coo
  try dsimp only
  par
macro_rules | `(tactic| parc) => `(tactic| first | with_reducible refine CSC_to_coo_par _ ?_ | fail)

theorem CSR_h_stack_par [Zero T] [Zero T'] [Add T] [Add T'] [SZero T T'] [SAdd T T'] (t : IdxTy) {a : CSR T} {a' : CSR T'} (ha : rel a a') {b : CSR T} {b' : CSR T'} (hb : rel b b') :
    Par rel (CSR.h_stack t a b) (CSR.h_stack t a' b') := by
  obtain ⟨a_m, a_n, a_i, a_j, ax⟩ := a
  obtain ⟨_, _, _, _, ax'⟩ := a'
  obtain ⟨rfl, rfl, rfl, rfl, hax⟩ := ha
  dsimp only at hax
  obtain ⟨b_m, b_n, b_i, b_j, bx⟩ := b
  obtain ⟨_, _, _, _, bx'⟩ := b'
  obtain ⟨rfl, rfl, rfl, rfl, hbx⟩ := hb
  dsimp only at hbx
  unfold CSR.h_stack
  try dsimp only
  par
macro_rules | `(tactic| parc) => `(tactic| first | with_reducible refine CSR_h_stack_par _ ?_ ?_ | fail)

theorem CSC_compose_par [Zero T] [Zero T'] [Add T] [Add T'] [SZero T T'] [SAdd T T'] (t : IdxTy) {a : CSC T} {a' : CSC T'} (ha : rel a a') {b : CSC T} {b' : CSC T'} (hb : rel b b') {c : CSC T} {c' : CSC T'} (hc : rel c c') {d : CSC T} {d' : CSC T'} (hd : rel d d') :
    Par rel (CSC.compose t a b c d) (CSC.compose t a' b' c' d') := by
  obtain ⟨a_m, a_n, a_i, a_j, ax⟩ := a
  obtain ⟨_, _, _, _, ax'⟩ := a'
  obtain ⟨rfl, rfl, rfl, rfl, hax⟩ := ha
  dsimp only at hax
  obtain ⟨b_m, b_n, b_i, b_j, bx⟩ := b
  obtain ⟨_, _, _, _, bx'⟩ := b'
  obtain ⟨rfl, rfl, rfl, rfl, hbx⟩ := hb
  dsimp only at hbx
  obtain ⟨c_m, c_n, c_i, c_j, cx⟩ := c
  obtain ⟨_, _, _, _, cx'⟩ := c'
  obtain ⟨rfl, rfl, rfl, rfl, hcx⟩ := hc
  dsimp only at hcx
  obtain ⟨d_m, d_n, d_i, d_j, dx⟩ := d
  obtain ⟨_, _, _, _, dx'⟩ := d'
  obtain ⟨rfl, rfl, rfl, rfl, hdx⟩ := hd
  dsimp only at hdx
  unfold CSC.compose
  try dsimp only
  par
macro_rules | `(tactic| parc) => `(tactic| first | with_reducible refine CSC_compose_par _ ?_ ?_ ?_ ?_ | fail)

theorem CSR_neg_par [Neg T] [Neg T'] [SNeg T T'] {a : CSR T} {a' : CSR T'} (ha : rel a a') :
    Par rel (CSR.neg a) (CSR.neg a') := by
  obtain ⟨a_m, a_n, a_i, a_j, ax⟩ := a
  obtain ⟨_, _, _, _, ax'⟩ := a'
  obtain ⟨rfl, rfl, rfl, rfl, hax⟩ := ha
  dsimp only at hax
  unfold CSR.neg
  try dsimp only
  par
  exact LR.map hax fun _ _ h => SNeg.h h
macro_rules | `(tactic| parc) => `(tactic| first | with_reducible refine CSR_neg_par ?_ | fail)

theorem CSC_neg_par [Neg T] [Neg T'] [SNeg T T'] {a : CSC T} {a' : CSC T'} (ha : rel a a') :
    Par rel (CSC.neg a) (CSC.neg a') := by
  obtain ⟨a_m, a_n, a_i, a_j, ax⟩ := a
  obtain ⟨_, _, _, _, ax'⟩ := a'
  obtain ⟨rfl, rfl, rfl, rfl, hax⟩ := ha
  dsimp only at hax
  unfold CSC.neg
  try dsimp only
  par
  exact LR.map hax fun _ _ h => SNeg.h h
macro_rules | `(tactic| parc) => `(tactic| first | with_reducible refine CSC_neg_par ?_ | fail)

theorem Coo_neg_par [Neg T] [Neg T'] [SNeg T T'] {a : Coo T} {a' : Coo T'} (ha : rel a a') :
    Par rel (Coo.neg a) (Coo.neg a') := by
  obtain ⟨a_m, a_n, a_i, a_j, ax⟩ := a
  obtain ⟨_, _, _, _, ax'⟩ := a'
  obtain ⟨rfl, rfl, rfl, rfl, hax⟩ := ha
  dsimp only at hax
  unfold Coo.neg
  try dsimp only
  par
  exact LR.map hax fun _ _ h => SNeg.h h
macro_rules | `(tactic| parc) => `(tactic| first | with_reducible refine Coo_neg_par ?_ | fail)

theorem CSR_add_par [Zero T] [Zero T'] [Add T] [Add T'] [BEq T] [BEq T'] [SZero T T'] [SAdd T T'] [SNz T T'] (t : IdxTy) {a : CSR T} {a' : CSR T'} (ha : rel a a') {b : CSR T} {b' : CSR T'} (hb : rel b b') :
    Par rel (CSR.add t a b) (CSR.add t a' b') := by
  obtain ⟨a_m, a_n, a_i, a_j, ax⟩ := a
  obtain ⟨_, _, _, _, ax'⟩ := a'
  obtain ⟨rfl, rfl, rfl, rfl, hax⟩ := ha
  dsimp only at hax
  obtain ⟨b_m, b_n, b_i, b_j, bx⟩ := b
  obtain ⟨_, _, _, _, bx'⟩ := b'
  obtain ⟨rfl, rfl, rfl, rfl, hbx⟩ := hb
  dsimp only at hbx
  unfold CSR.add
  try dsimp only
  par
macro_rules | `(tactic| parc) => `(tactic| first | with_reducible refine CSR_add_par _ ?_ ?_ | fail)

theorem CSR_sub_par [Zero T] [Zero T'] [Add T] [Add T'] [Sub T] [Sub T'] [BEq T] [BEq T'] [SZero T T'] [SAdd T T'] [SSub T T'] [SNz T T'] (t : IdxTy) {a : CSR T} {a' : CSR T'} (ha : rel a a') {b : CSR T} {b' : CSR T'} (hb : rel b b') :
    Par rel (CSR.sub t a b) (CSR.sub t a' b') := by
  obtain ⟨a_m, a_n, a_i, a_j, ax⟩ := a
  obtain ⟨_, _, _, _, ax'⟩ := a'
  obtain ⟨rfl, rfl, rfl, rfl, hax⟩ := ha
  dsimp only at hax
  obtain ⟨b_m, b_n, b_i, b_j, bx⟩ := b
  obtain ⟨_, _, _, _, bx'⟩ := b'
  obtain ⟨rfl, rfl, rfl, rfl, hbx⟩ := hb
  dsimp only at hbx
  unfold CSR.sub
  try dsimp only
  par
macro_rules | `(tactic| parc) => `(tactic| first | with_reducible refine CSR_sub_par _ ?_ ?_ | fail)

theorem CSR_mul_par [Zero T] [Zero T'] [Add T] [Add T'] [Mul T] [Mul T'] [BEq T] [BEq T'] [SZero T T'] [SAdd T T'] [SMul T T'] [SNz T T'] (t : IdxTy) {a : CSR T} {a' : CSR T'} (ha : rel a a') {b : CSR T} {b' : CSR T'} (hb : rel b b') :
    Par rel (CSR.mul t a b) (CSR.mul t a' b') := by
  obtain ⟨a_m, a_n, a_i, a_j, ax⟩ := a
  obtain ⟨_, _, _, _, ax'⟩ := a'
  obtain ⟨rfl, rfl, rfl, rfl, hax⟩ := ha
  dsimp only at hax
  obtain ⟨b_m, b_n, b_i, b_j, bx⟩ := b
  obtain ⟨_, _, _, _, bx'⟩ := b'
  obtain ⟨rfl, rfl, rfl, rfl, hbx⟩ := hb
  dsimp only at hbx
  unfold CSR.mul
  try dsimp only
  par
macro_rules | `(tactic| parc) => `(tactic| first | with_reducible refine CSR_mul_par _ ?_ ?_ | fail)

theorem CSR_mul_scalar_par [Mul T] [Mul T'] [SMul T T'] {a : CSR T} {a' : CSR T'} (ha : rel a a') {s : T} {s' : T'} (hs : rel s s') :
    Par rel (CSR.mul_scalar a s) (CSR.mul_scalar a' s') := by
  obtain ⟨a_m, a_n, a_i, a_j, ax⟩ := a
  obtain ⟨_, _, _, _, ax'⟩ := a'
  obtain ⟨rfl, rfl, rfl, rfl, hax⟩ := ha
  dsimp only at hax
  simp only [rel_scalar] at hs
  unfold CSR.mul_scalar
  try dsimp only
  par
  exact LR.map hax fun _ _ h => SMul.h h hs
macro_rules | `(tactic| parc) => `(tactic| first | with_reducible refine CSR_mul_scalar_par ?_ ?_ | fail)

theorem CSR_scalar_mul_par [Mul T] [Mul T'] [SMul T T'] {s : T} {s' : T'} (hs : rel s s') {a : CSR T} {a' : CSR T'} (ha : rel a a') :
    Par rel (CSR.scalar_mul s a) (CSR.scalar_mul s' a') := by
  obtain ⟨a_m, a_n, a_i, a_j, ax⟩ := a
  obtain ⟨_, _, _, _, ax'⟩ := a'
  obtain ⟨rfl, rfl, rfl, rfl, hax⟩ := ha
  dsimp only at hax
  simp only [rel_scalar] at hs
  unfold CSR.scalar_mul
  try dsimp only
  par
  exact LR.map hax fun _ _ h => SMul.h hs h
macro_rules | `(tactic| parc) => `(tactic| first | with_reducible refine CSR_scalar_mul_par ?_ ?_ | fail)

theorem CSR_mul_vec_par [Zero T] [Zero T'] [Add T] [Add T'] [Mul T] [Mul T'] [SZero T T'] [SAdd T T'] [SMul T T'] {a : CSR T} {a' : CSR T'} (ha : rel a a') {y : List T} {y' : List T'} (hy : rel y y') :
    Par rel (CSR.mul_vec a y) (CSR.mul_vec a' y') := by
  obtain ⟨a_m, a_n, a_i, a_j, ax⟩ := a
  obtain ⟨_, _, _, _, ax'⟩ := a'
  obtain ⟨rfl, rfl, rfl, rfl, hax⟩ := ha
  dsimp only at hax
  simp only [rel_list] at hy
  unfold CSR.mul_vec
  try dsimp only
  par
macro_rules | `(tactic| parc) => `(tactic| first | with_reducible refine CSR_mul_vec_par ?_ ?_ | fail)

theorem CSC_add_op_par [Zero T] [Zero T'] [Add T] [Add T'] [BEq T] [BEq T'] [SZero T T'] [SAdd T T'] [SNz T T'] (t : IdxTy) {a : CSC T} {a' : CSC T'} (ha : rel a a') {b : CSC T} {b' : CSC T'} (hb : rel b b') :
    Par rel (CSC.add_op t a b) (CSC.add_op t a' b') := by
  obtain ⟨a_m, a_n, a_i, a_j, ax⟩ := a
  obtain ⟨_, _, _, _, ax'⟩ := a'
  obtain ⟨rfl, rfl, rfl, rfl, hax⟩ := ha
  dsimp only at hax
  obtain ⟨b_m, b_n, b_i, b_j, bx⟩ := b
  obtain ⟨_, _, _, _, bx'⟩ := b'
  obtain ⟨rfl, rfl, rfl, rfl, hbx⟩ := hb
  dsimp only at hbx
  unfold CSC.add_op
  try dsimp only
  par
macro_rules | `(tactic| parc) => `(tactic| first | with_reducible refine CSC_add_op_par _ ?_ ?_ | fail)

theorem CSC_sub_op_par [Zero T] [Zero T'] [Add T] [Add T'] [Sub T] [Sub T'] [BEq T] [BEq T'] [SZero T T'] [SAdd T T'] [SSub T T'] [SNz T T'] (t : IdxTy) {a : CSC T} {a' : CSC T'} (ha : rel a a') {b : CSC T} {b' : CSC T'} (hb : rel b b') :
    Par rel (CSC.sub_op t a b) (CSC.sub_op t a' b') := by
  obtain ⟨a_m, a_n, a_i, a_j, ax⟩ := a
  obtain ⟨_, _, _, _, ax'⟩ := a'
  obtain ⟨rfl, rfl, rfl, rfl, hax⟩ := ha
  dsimp only at hax
  obtain ⟨b_m, b_n, b_i, b_j, bx⟩ := b
  obtain ⟨_, _, _, _, bx'⟩ := b'
  obtain ⟨rfl, rfl, rfl, rfl, hbx⟩ := hb
  dsimp only at hbx
  unfold CSC.sub_op
  try dsimp only
  par
macro_rules | `(tactic| parc) => `(tactic| first | with_reducible refine CSC_sub_op_par _ ?_ ?_ | fail)

theorem CSC_mul_par [Zero T] [Zero T'] [Add T] [Add T'] [Mul T] [Mul T'] [BEq T] [BEq T'] [SZero T T'] [SAdd T T'] [SMul T T'] [SNz T T'] (t : IdxTy) {a : CSC T} {a' : CSC T'} (ha : rel a a') {b : CSC T} {b' : CSC T'} (hb : rel b b') :
    Par rel (CSC.mul t a b) (CSC.mul t a' b') := by
  obtain ⟨a_m, a_n, a_i, a_j, ax⟩ := a
  obtain ⟨_, _, _, _, ax'⟩ := a'
  obtain ⟨rfl, rfl, rfl, rfl, hax⟩ := ha
  dsimp only at hax
  obtain ⟨b_m, b_n, b_i, b_j, bx⟩ := b
  obtain ⟨_, _, _, _, bx'⟩ := b'
  obtain ⟨rfl, rfl, rfl, rfl, hbx⟩ := hb
  dsimp only at hbx
  unfold CSC.mul
  try dsimp only
  par
macro_rules | `(tactic| parc) => `(tactic| first | with_reducible refine CSC_mul_par _ ?_ ?_ | fail)

theorem CSC_mul_csr_par [Zero T] [Zero T'] [Add T] [Add T'] [Mul T] [Mul T'] [BEq T] [BEq T'] [SZero T T'] [SAdd T T'] [SMul T T'] [SNz T T'] (t : IdxTy) {a : CSC T} {a' : CSC T'} (ha : rel a a') {b : CSR T} {b' : CSR T'} (hb : rel b b') :
    Par rel (CSC.mul_csr t a b) (CSC.mul_csr t a' b') := by
  obtain ⟨a_m, a_n, a_i, a_j, ax⟩ := a
  obtain ⟨_, _, _, _, ax'⟩ := a'
  obtain ⟨rfl, rfl, rfl, rfl, hax⟩ := ha
  dsimp only at hax
  obtain ⟨b_m, b_n, b_i, b_j, bx⟩ := b
  obtain ⟨_, _, _, _, bx'⟩ := b'
  obtain ⟨rfl, rfl, rfl, rfl, hbx⟩ := hb
  dsimp only at hbx
  unfold CSC.mul_csr
  try dsimp only
  par
macro_rules | `(tactic| parc) => `(tactic| first | with_reducible refine CSC_mul_csr_par _ ?_ ?_ | fail)

theorem CSC_mul_scalar_par [Mul T] [Mul T'] [SMul T T'] {a : CSC T} {a' : CSC T'} (ha : rel a a') {s : T} {s' : T'} (hs : rel s s') :
    Par rel (CSC.mul_scalar a s) (CSC.mul_scalar a' s') := by
  obtain ⟨a_m, a_n, a_i, a_j, ax⟩ := a
  obtain ⟨_, _, _, _, ax'⟩ := a'
  obtain ⟨rfl, rfl, rfl, rfl, hax⟩ := ha
  dsimp only at hax
  simp only [rel_scalar] at hs
  unfold CSC.mul_scalar
  try dsimp only
  par
  exact LR.map hax fun _ _ h => SMul.h h hs
macro_rules | `(tactic| parc) => `(tactic| first | with_reducible refine CSC_mul_scalar_par ?_ ?_ | fail)

theorem CSC_scalar_mul_par [Mul T] [Mul T'] [SMul T T'] {s : T} {s' : T'} (hs : rel s s') {a : CSC T} {a' : CSC T'} (ha : rel a a') :
    Par rel (CSC.scalar_mul s a) (CSC.scalar_mul s' a') := by
  obtain ⟨a_m, a_n, a_i, a_j, ax⟩ := a
  obtain ⟨_, _, _, _, ax'⟩ := a'
  obtain ⟨rfl, rfl, rfl, rfl, hax⟩ := ha
  dsimp only at hax
  simp only [rel_scalar] at hs
  unfold CSC.scalar_mul
  try dsimp only
  par
  exact LR.map hax fun _ _ h => SMul.h hs h
macro_rules | `(tactic| parc) => `(tactic| first | with_reducible refine CSC_scalar_mul_par ?_ ?_ | fail)

theorem CSC_mul_vec_par [Zero T] [Zero T'] [Add T] [Add T'] [Mul T] [Mul T'] [SZero T T'] [SAdd T T'] [SMul T T'] {a : CSC T} {a' : CSC T'} (ha : rel a a') {y : List T} {y' : List T'} (hy : rel y y') :
    Par rel (CSC.mul_vec a y) (CSC.mul_vec a' y') := by
  obtain ⟨a_m, a_n, a_i, a_j, ax⟩ := a
  obtain ⟨_, _, _, _, ax'⟩ := a'
  obtain ⟨rfl, rfl, rfl, rfl, hax⟩ := ha
  dsimp only at hax
  simp only [rel_list] at hy
  unfold CSC.mul_vec
  try dsimp only
  par
macro_rules | `(tactic| parc) => `(tactic| first | with_reducible refine CSC_mul_vec_par ?_ ?_ | fail)

theorem Coo_add_par [Zero T] [Zero T'] [Add T] [Add T'] [SZero T T'] [SAdd T T'] (t : IdxTy) {a : Coo T} {a' : Coo T'} (ha : rel a a') {b : Coo T} {b' : Coo T'} (hb : rel b b') :
    Par rel (Coo.add t a b) (Coo.add t a' b') := by
  obtain ⟨a_m, a_n, a_i, a_j, ax⟩ := a
  obtain ⟨_, _, _, _, ax'⟩ := a'
  obtain ⟨rfl, rfl, rfl, rfl, hax⟩ := ha
  dsimp only at hax
  obtain ⟨b_m, b_n, b_i, b_j, bx⟩ := b
  obtain ⟨_, _, _, _, bx'⟩ := b'
  obtain ⟨rfl, rfl, rfl, rfl, hbx⟩ := hb
  dsimp only at hbx
  unfold Coo.add
  try dsimp only
  par
macro_rules | `(tactic| parc) => `(tactic| first | with_reducible refine Coo_add_par _ ?_ ?_ | fail)

end
end Sparse

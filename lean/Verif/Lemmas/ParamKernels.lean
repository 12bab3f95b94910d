import Verif.Lemmas.Param
/-! The kernels run in the same way on related scalars. -/
namespace Sparse
set_option linter.unusedSimpArgs false
section
variable {T T' : Type} [SRel T T']

theorem rowsort_par {l : List (Int × T)} {l' : List (Int × T')} (h : LR rel l l') :
    LR rel (l.mergeSort fun a b => decide (a.1 ≤ b.1)) (l'.mergeSort fun a b => decide (a.1 ≤ b.1)) :=
  LR.mergeSort h fun a b hab c d hcd => by
    have h1 : a.1 = b.1 := hab.1
    have h2 : c.1 = d.1 := hcd.1
    rw [h1, h2]
macro_rules | `(tactic| prel1) => `(tactic| first | with_reducible refine rowsort_par ?_ | fail)

theorem csr_scale_rows_par [Mul T] [Mul T'] [SMul T T'] (n : Nat) (p : List Int) {x : List T} {x' : List T'} (hx : rel x x') {y : List T} {y' : List T'} (hy : rel y y') :
    Par rel (csr_scale_rows n p x y) (csr_scale_rows n p x' y') := by
  simp only [rel_prod, rel_list, rel_scalar, rel_nat, rel_int, rel_ints] at hx hy
  unfold csr_scale_rows
  try dsimp only
  par
macro_rules | `(tactic| parc) => `(tactic| first | with_reducible refine csr_scale_rows_par _ _ ?_ ?_ | fail)

theorem csr_scale_columns_par [Mul T] [Mul T'] [SMul T T'] (n : Nat) (p : List Int) (j : List Int) {x : List T} {x' : List T'} (hx : rel x x') {y : List T} {y' : List T'} (hy : rel y y') :
    Par rel (csr_scale_columns n p j x y) (csr_scale_columns n p j x' y') := by
  simp only [rel_prod, rel_list, rel_scalar, rel_nat, rel_int, rel_ints] at hx hy
  unfold csr_scale_columns
  try dsimp only
  par
macro_rules | `(tactic| parc) => `(tactic| first | with_reducible refine csr_scale_columns_par _ _ _ ?_ ?_ | fail)

theorem csr_todense_par [Add T] [Add T'] [SAdd T T'] (n : Nat) (p : List Int) (j : List Int) {x : List T} {x' : List T'} (hx : rel x x') {b : List (List T)} {b' : List (List T')} (hb : rel b b') :
    Par rel (csr_todense n p j x b) (csr_todense n p j x' b') := by
  simp only [rel_prod, rel_list, rel_scalar, rel_nat, rel_int, rel_ints] at hx hb
  unfold csr_todense
  try dsimp only
  par
macro_rules | `(tactic| parc) => `(tactic| first | with_reducible refine csr_todense_par _ _ _ ?_ ?_ | fail)

theorem csr_diagonal_par [Zero T] [Zero T'] [Add T] [Add T'] [SZero T T'] [SAdd T T'] (k : Int) (n : Nat) (m : Nat) (p : List Int) (j : List Int) {x : List T} {x' : List T'} (hx : rel x x') {y : List T} {y' : List T'} (hy : rel y y') :
    Par rel (csr_diagonal k n m p j x y) (csr_diagonal k n m p j x' y') := by
  simp only [rel_prod, rel_list, rel_scalar, rel_nat, rel_int, rel_ints] at hx hy
  unfold csr_diagonal
  try dsimp only
  par
macro_rules | `(tactic| parc) => `(tactic| first | with_reducible refine csr_diagonal_par _ _ _ _ _ ?_ ?_ | fail)

theorem csr_scatter_par   (t : IdxTy) (n : Nat) (p : List Int) (j : List Int) {x : List T} {x' : List T'} (hx : rel x x') (bp : List Int) (bi : List Int) {bx : List T} {bx' : List T'} (hbx : rel bx bx') :
    Par rel (csr_scatter t n p j x bp bi bx) (csr_scatter t n p j x' bp bi bx') := by
  simp only [rel_prod, rel_list, rel_scalar, rel_nat, rel_int, rel_ints] at hx hbx
  unfold csr_scatter
  try dsimp only
  par
macro_rules | `(tactic| parc) => `(tactic| first | with_reducible refine csr_scatter_par _ _ _ _ ?_ _ _ ?_ | fail)

theorem csr_tocsc_par   (t : IdxTy) (n : Nat) (m : Nat) (p : List Int) (j : List Int) {x : List T} {x' : List T'} (hx : rel x x') (bp : List Int) (bi : List Int) {bx : List T} {bx' : List T'} (hbx : rel bx bx') :
    Par rel (csr_tocsc t n m p j x bp bi bx) (csr_tocsc t n m p j x' bp bi bx') := by
  simp only [rel_prod, rel_list, rel_scalar, rel_nat, rel_int, rel_ints] at hx hbx
  unfold csr_tocsc
  try dsimp only
  par
macro_rules | `(tactic| parc) => `(tactic| first | with_reducible refine csr_tocsc_par _ _ _ _ _ ?_ _ _ ?_ | fail)

theorem matmat_accum_par [Add T] [Add T'] [Mul T] [Mul T'] [SAdd T T'] [SMul T T'] (t : IdxTy) (s : Nat) (e : Nat) {v : T} {v' : T'} (hv : rel v v') (bj : List Int) {bx : List T} {bx' : List T'} (hbx : rel bx bx') (next : List Int) {sums : List T} {sums' : List T'} (hsums : rel sums sums') (head : Int) (length : Int) :
    Par rel (matmat_accum t s e v bj bx next sums head length) (matmat_accum t s e v' bj bx' next sums' head length) := by
  simp only [rel_prod, rel_list, rel_scalar, rel_nat, rel_int, rel_ints] at hv hbx hsums
  unfold matmat_accum
  try dsimp only
  par
macro_rules | `(tactic| parc) => `(tactic| first | with_reducible refine matmat_accum_par _ _ _ ?_ _ ?_ _ ?_ _ _ | fail)

theorem matmat_flush_par [Zero T] [Zero T'] [BEq T] [BEq T'] [SZero T T'] [SNz T T'] (t : IdxTy) (length : Int) (head : Int) (next : List Int) {sums : List T} {sums' : List T'} (hsums : rel sums sums') (nnz : Int) (cj : List Int) {cx : List T} {cx' : List T'} (hcx : rel cx cx') :
    Par rel (matmat_flush t length head next sums nnz cj cx) (matmat_flush t length head next sums' nnz cj cx') := by
  simp only [rel_prod, rel_list, rel_scalar, rel_nat, rel_int, rel_ints] at hsums hcx
  unfold matmat_flush
  try dsimp only
  par
macro_rules | `(tactic| parc) => `(tactic| first | with_reducible refine matmat_flush_par _ _ _ _ ?_ _ _ ?_ | fail)

theorem csr_matmat_par [Zero T] [Zero T'] [Add T] [Add T'] [Mul T] [Mul T'] [BEq T] [BEq T'] [SZero T T'] [SAdd T T'] [SMul T T'] [SNz T T'] (t : IdxTy) (n : Nat) (m : Nat) (ap : List Int) (aj : List Int) {ax : List T} {ax' : List T'} (hax : rel ax ax') (bp : List Int) (bj : List Int) {bx : List T} {bx' : List T'} (hbx : rel bx bx') (cp : List Int) (cj : List Int) {cx : List T} {cx' : List T'} (hcx : rel cx cx') :
    Par rel (csr_matmat t n m ap aj ax bp bj bx cp cj cx) (csr_matmat t n m ap aj ax' bp bj bx' cp cj cx') := by
  simp only [rel_prod, rel_list, rel_scalar, rel_nat, rel_int, rel_ints] at hax hbx hcx
  unfold csr_matmat
  try dsimp only
  par
macro_rules | `(tactic| parc) => `(tactic| first | with_reducible refine csr_matmat_par _ _ _ _ _ ?_ _ _ ?_ _ _ ?_ | fail)

theorem binop_accum_par [Add T] [Add T'] [SAdd T T'] (t : IdxTy) (s : Nat) (e : Nat) (aj : List Int) {ax : List T} {ax' : List T'} (hax : rel ax ax') (next : List Int) {row : List T} {row' : List T'} (hrow : rel row row') (head : Int) (length : Int) :
    Par rel (binop_accum t s e aj ax next row head length) (binop_accum t s e aj ax' next row' head length) := by
  simp only [rel_prod, rel_list, rel_scalar, rel_nat, rel_int, rel_ints] at hax hrow
  unfold binop_accum
  try dsimp only
  par
macro_rules | `(tactic| parc) => `(tactic| first | with_reducible refine binop_accum_par _ _ _ _ ?_ _ ?_ _ _ | fail)

theorem csr_sort_indices_par [Zero T] [Zero T'] [SZero T T'] (n : Nat) (p : List Int) (j : List Int) {x : List T} {x' : List T'} (hx : rel x x') :
    Par rel (csr_sort_indices n p j x) (csr_sort_indices n p j x') := by
  simp only [rel_list] at hx
  unfold csr_sort_indices
  dsimp only
  refine Par.bindA ?_ ?_
  · refine Par.forInA ⟨rfl, hx, LR.nil⟩ fun i => ?_
    par
  · par
macro_rules | `(tactic| parc) => `(tactic| first | with_reducible refine csr_sort_indices_par _ _ _ ?_ | fail)

theorem sum_run_par [Add T] [Add T'] [SAdd T T'] (e : Nat) (j : Int) (aj : List Int) {ax : List T} {ax' : List T'} (hax : rel ax ax')
    {s : Nat × T} {s' : Nat × T'} (hs : rel s s') : Par rel (sum_run e j aj ax s) (sum_run e j aj ax' s') := by
  obtain ⟨s1, s2⟩ := s
  obtain ⟨s1', s2'⟩ := s'
  simp only [rel_prod, rel_list, rel_scalar, rel_nat] at hax hs
  obtain ⟨rfl, hs⟩ := hs
  unfold sum_run
  dsimp only
  par
macro_rules | `(tactic| parc) => `(tactic| first | with_reducible refine sum_run_par _ _ _ ?_ ?_ | fail)

theorem sum_row_par [Add T] [Add T'] [SAdd T T'] (e : Nat) {s : Nat × Nat × List Int × List T} {s' : Nat × Nat × List Int × List T'}
    (hs : rel s s') : Par rel (sum_row e s) (sum_row e s') := by
  obtain ⟨s1, s2, s3, s4⟩ := s
  obtain ⟨s1', s2', s3', s4'⟩ := s'
  simp only [rel_prod, rel_list, rel_ints, rel_nat] at hs
  obtain ⟨rfl, rfl, rfl, hs⟩ := hs
  unfold sum_row
  dsimp only
  par
macro_rules | `(tactic| parc) => `(tactic| first | with_reducible refine sum_row_par _ ?_ | fail)

theorem csr_sum_duplicates_par [Add T] [Add T'] [SAdd T T'] (t : IdxTy) (n : Nat) (p : List Int) (j : List Int) {x : List T} {x' : List T'} (hx : rel x x') :
    Par rel (csr_sum_duplicates t n p j x) (csr_sum_duplicates t n p j x') := by
  simp only [rel_prod, rel_list, rel_scalar, rel_nat, rel_int, rel_ints] at hx
  unfold csr_sum_duplicates
  try dsimp only
  par
macro_rules | `(tactic| parc) => `(tactic| first | with_reducible refine csr_sum_duplicates_par _ _ _ _ ?_ | fail)

theorem elim_row_par [Zero T] [Zero T'] [BEq T] [BEq T'] [SZero T T'] [SNz T T'] (e : Nat) {s : Nat × Nat × List Int × List T}
    {s' : Nat × Nat × List Int × List T'} (hs : rel s s') : Par rel (elim_row e s) (elim_row e s') := by
  obtain ⟨s1, s2, s3, s4⟩ := s
  obtain ⟨s1', s2', s3', s4'⟩ := s'
  simp only [rel_prod, rel_list, rel_ints, rel_nat] at hs
  obtain ⟨rfl, rfl, rfl, hs⟩ := hs
  unfold elim_row
  dsimp only
  par
macro_rules | `(tactic| parc) => `(tactic| first | with_reducible refine elim_row_par _ ?_ | fail)

theorem csr_eliminate_zeros_par [Zero T] [Zero T'] [BEq T] [BEq T'] [SZero T T'] [SNz T T'] (t : IdxTy) (n : Nat) (p : List Int) (j : List Int) {x : List T} {x' : List T'} (hx : rel x x') :
    Par rel (csr_eliminate_zeros t n p j x) (csr_eliminate_zeros t n p j x') := by
  simp only [rel_prod, rel_list, rel_scalar, rel_nat, rel_int, rel_ints] at hx
  unfold csr_eliminate_zeros
  try dsimp only
  par
macro_rules | `(tactic| parc) => `(tactic| first | with_reducible refine csr_eliminate_zeros_par _ _ _ _ ?_ | fail)

theorem csr_matvec_par [Add T] [Add T'] [Mul T] [Mul T'] [SAdd T T'] [SMul T T'] (n : Nat) (p : List Int) (j : List Int) {x : List T} {x' : List T'} (hx : rel x x') {y : List T} {y' : List T'} (hy : rel y y') {z : List T} {z' : List T'} (hz : rel z z') :
    Par rel (csr_matvec n p j x y z) (csr_matvec n p j x' y' z') := by
  simp only [rel_prod, rel_list, rel_scalar, rel_nat, rel_int, rel_ints] at hx hy hz
  unfold csr_matvec
  try dsimp only
  par
macro_rules | `(tactic| parc) => `(tactic| first | with_reducible refine csr_matvec_par _ _ _ ?_ ?_ ?_ | fail)

theorem axpy_par [Add T] [Add T'] [Mul T] [Mul T'] [SAdd T T'] [SMul T T'] (n : Nat) {a : T} {a' : T'} (ha : rel a a') {x : List T} {x' : List T'} (hx : rel x x') (xo : Nat) {y : List T} {y' : List T'} (hy : rel y y') (yo : Nat) :
    Par rel (axpy n a x xo y yo) (axpy n a' x' xo y' yo) := by
  simp only [rel_prod, rel_list, rel_scalar, rel_nat, rel_int, rel_ints] at ha hx hy
  unfold axpy
  rw [LR.length hx, LR.length hy]
  try dsimp only
  par
macro_rules | `(tactic| parc) => `(tactic| first | with_reducible refine axpy_par _ ?_ ?_ _ ?_ _ | fail)

theorem csr_matvecs_par [Add T] [Add T'] [Mul T] [Mul T'] [SAdd T T'] [SMul T T'] (n : Nat) (m : Nat) (p : List Int) (j : List Int) {x : List T} {x' : List T'} (hx : rel x x') {y : List T} {y' : List T'} (hy : rel y y') {z : List T} {z' : List T'} (hz : rel z z') :
    Par rel (csr_matvecs n m p j x y z) (csr_matvecs n m p j x' y' z') := by
  simp only [rel_prod, rel_list, rel_scalar, rel_nat, rel_int, rel_ints] at hx hy hz
  unfold csr_matvecs
  try dsimp only
  refine Par.bindA ?_ ?_
  · refine Par.forInA hz fun i => ?_
    refine all_list_i fun y y' h => ?_
    rw [LR.length h]
    par
  · par
macro_rules | `(tactic| parc) => `(tactic| first | with_reducible refine csr_matvecs_par _ _ _ _ ?_ ?_ ?_ | fail)

theorem csr_select_par [Zero T] [Zero T'] [SZero T T'] (t : IdxTy) (p : List Int) (j : List Int) {x : List T} {x' : List T'} (hx : rel x x') (ri : List Int) (ci : List Int) (bp : List Int) (bj : List Int) {bx : List T} {bx' : List T'} (hbx : rel bx bx') :
    Par rel (csr_select t p j x ri ci bp bj bx) (csr_select t p j x' ri ci bp bj bx') := by
  simp only [rel_prod, rel_list, rel_scalar, rel_nat, rel_int, rel_ints] at hx hbx
  unfold csr_select
  try dsimp only
  par
  all_goals split <;> par
macro_rules | `(tactic| parc) => `(tactic| first | with_reducible refine csr_select_par _ _ _ ?_ _ _ _ _ ?_ | fail)

theorem get_csr_submatrix_par [Zero T] [Zero T'] [SZero T T'] (t : IdxTy) (p : List Int) (j : List Int) {x : List T} {x' : List T'} (hx : rel x x') (a : Int) (b : Int) (c : Int) (d : Int) (bp : List Int) (bj : List Int) {bx : List T} {bx' : List T'} (hbx : rel bx bx') :
    Par rel (get_csr_submatrix t p j x a b c d bp bj bx) (get_csr_submatrix t p j x' a b c d bp bj bx') := by
  simp only [rel_prod, rel_list, rel_scalar, rel_nat, rel_int, rel_ints] at hx hbx
  unfold get_csr_submatrix
  try dsimp only
  par
macro_rules | `(tactic| parc) => `(tactic| first | with_reducible refine get_csr_submatrix_par _ _ _ ?_ _ _ _ _ _ _ ?_ | fail)

theorem csr_row_index_par   (n : Nat) (rows : List Nat) (p : List Int) (j : List Int) {x : List T} {x' : List T'} (hx : rel x x') (bj : List Int) {bx : List T} {bx' : List T'} (hbx : rel bx bx') :
    Par rel (csr_row_index n rows p j x bj bx) (csr_row_index n rows p j x' bj bx') := by
  simp only [rel_prod, rel_list, rel_scalar, rel_nat, rel_int, rel_ints] at hx hbx
  unfold csr_row_index
  try dsimp only
  par
macro_rules | `(tactic| parc) => `(tactic| first | with_reducible refine csr_row_index_par _ _ _ _ ?_ _ ?_ | fail)

theorem csr_row_slice_par   (fuel : Nat) (a : Nat) (b : Nat) (c : Nat) (p : List Int) (j : List Int) {x : List T} {x' : List T'} (hx : rel x x') (bj : List Int) {bx : List T} {bx' : List T'} (hbx : rel bx bx') :
    Par rel (csr_row_slice fuel a b c p j x bj bx) (csr_row_slice fuel a b c p j x' bj bx') := by
  simp only [rel_prod, rel_list, rel_scalar, rel_nat, rel_int, rel_ints] at hx hbx
  unfold csr_row_slice
  try dsimp only
  par
macro_rules | `(tactic| parc) => `(tactic| first | with_reducible refine csr_row_slice_par _ _ _ _ _ _ ?_ _ ?_ | fail)

theorem csr_column_index2_par   (co : List Int) (cf : List Int) (n : Nat) (j : List Int) {x : List T} {x' : List T'} (hx : rel x x') (bj : List Int) {bx : List T} {bx' : List T'} (hbx : rel bx bx') :
    Par rel (csr_column_index2 co cf n j x bj bx) (csr_column_index2 co cf n j x' bj bx') := by
  simp only [rel_prod, rel_list, rel_scalar, rel_nat, rel_int, rel_ints] at hx hbx
  unfold csr_column_index2
  try dsimp only
  par
macro_rules | `(tactic| parc) => `(tactic| first | with_reducible refine csr_column_index2_par _ _ _ _ ?_ _ ?_ | fail)

theorem csr_tocoo_par   (t : IdxTy) (n : Nat) (p : List Int) (j : List Int) {x : List T} {x' : List T'} (hx : rel x x') (ai : List Int) (bj : List Int) {bx : List T} {bx' : List T'} (hbx : rel bx bx') :
    Par rel (csr_tocoo t n p j x ai bj bx) (csr_tocoo t n p j x' ai bj bx') := by
  simp only [rel_prod, rel_list, rel_scalar, rel_nat, rel_int, rel_ints] at hx hbx
  unfold csr_tocoo
  try dsimp only
  par
macro_rules | `(tactic| parc) => `(tactic| first | with_reducible refine csr_tocoo_par _ _ _ _ ?_ _ _ ?_ | fail)

theorem csc_matvec_par [Add T] [Add T'] [Mul T] [Mul T'] [SAdd T T'] [SMul T T'] (n : Nat) (p : List Int) (j : List Int) {x : List T} {x' : List T'} (hx : rel x x') {y : List T} {y' : List T'} (hy : rel y y') {z : List T} {z' : List T'} (hz : rel z z') :
    Par rel (csc_matvec n p j x y z) (csc_matvec n p j x' y' z') := by
  simp only [rel_prod, rel_list, rel_scalar, rel_nat, rel_int, rel_ints] at hx hy hz
  unfold csc_matvec
  try dsimp only
  par
macro_rules | `(tactic| parc) => `(tactic| first | with_reducible refine csc_matvec_par _ _ _ ?_ ?_ ?_ | fail)

theorem csc_matvecs_par [Add T] [Add T'] [Mul T] [Mul T'] [SAdd T T'] [SMul T T'] (n : Nat) (m : Nat) (p : List Int) (j : List Int) {x : List T} {x' : List T'} (hx : rel x x') {y : List T} {y' : List T'} (hy : rel y y') {z : List T} {z' : List T'} (hz : rel z z') :
    Par rel (csc_matvecs n m p j x y z) (csc_matvecs n m p j x' y' z') := by
  simp only [rel_prod, rel_list, rel_scalar, rel_nat, rel_int, rel_ints] at hx hy hz
  unfold csc_matvecs
  try dsimp only
  par
macro_rules | `(tactic| parc) => `(tactic| first | with_reducible refine csc_matvecs_par _ _ _ _ ?_ ?_ ?_ | fail)

theorem csc_matmat_par [Zero T] [Zero T'] [Add T] [Add T'] [Mul T] [Mul T'] [BEq T] [BEq T'] [SZero T T'] [SAdd T T'] [SMul T T'] [SNz T T'] (t : IdxTy) (n : Nat) (m : Nat) (ap : List Int) (aj : List Int) {ax : List T} {ax' : List T'} (hax : rel ax ax') (bp : List Int) (bj : List Int) {bx : List T} {bx' : List T'} (hbx : rel bx bx') (cp : List Int) (cj : List Int) {cx : List T} {cx' : List T'} (hcx : rel cx cx') :
    Par rel (csc_matmat t n m ap aj ax bp bj bx cp cj cx) (csc_matmat t n m ap aj ax' bp bj bx' cp cj cx') := by
  simp only [rel_prod, rel_list, rel_scalar, rel_nat, rel_int, rel_ints] at hax hbx hcx
  unfold csc_matmat
  try dsimp only
  par
macro_rules | `(tactic| parc) => `(tactic| first | with_reducible refine csc_matmat_par _ _ _ _ _ ?_ _ _ ?_ _ _ ?_ | fail)

theorem coo_scatter_par   (t : IdxTy) (n : Nat) (i : List Int) (j : List Int) {x : List T} {x' : List T'} (hx : rel x x') (bp : List Int) (bj : List Int) {bx : List T} {bx' : List T'} (hbx : rel bx bx') :
    Par rel (coo_scatter t n i j x bp bj bx) (coo_scatter t n i j x' bp bj bx') := by
  simp only [rel_prod, rel_list, rel_scalar, rel_nat, rel_int, rel_ints] at hx hbx
  unfold coo_scatter
  try dsimp only
  par
macro_rules | `(tactic| parc) => `(tactic| first | with_reducible refine coo_scatter_par _ _ _ _ ?_ _ _ ?_ | fail)

theorem coo_tocsr_par   (t : IdxTy) (n : Nat) (nnz : Nat) (i : List Int) (j : List Int) {x : List T} {x' : List T'} (hx : rel x x') (bp : List Int) (bj : List Int) {bx : List T} {bx' : List T'} (hbx : rel bx bx') :
    Par rel (coo_tocsr t n nnz i j x bp bj bx) (coo_tocsr t n nnz i j x' bp bj bx') := by
  simp only [rel_prod, rel_list, rel_scalar, rel_nat, rel_int, rel_ints] at hx hbx
  unfold coo_tocsr
  try dsimp only
  par
macro_rules | `(tactic| parc) => `(tactic| first | with_reducible refine coo_tocsr_par _ _ _ _ _ ?_ _ _ ?_ | fail)

theorem coo_todense_par [Add T] [Add T'] [SAdd T T'] (n : Nat) (m : Nat) (nnz : Nat) (i : List Int) (j : List Int) {x : List T} {x' : List T'} (hx : rel x x') {b : List T} {b' : List T'} (hb : rel b b') (fortran : Bool) :
    Par rel (coo_todense n m nnz i j x b fortran) (coo_todense n m nnz i j x' b' fortran) := by
  simp only [rel_prod, rel_list, rel_scalar, rel_nat, rel_int, rel_ints] at hx hb
  unfold coo_todense
  try dsimp only
  par
macro_rules | `(tactic| parc) => `(tactic| first | with_reducible refine coo_todense_par _ _ _ _ _ ?_ ?_ _ | fail)

theorem coo_matvec_par [Add T] [Add T'] [Mul T] [Mul T'] [SAdd T T'] [SMul T T'] (nnz : Nat) (i : List Int) (j : List Int) {x : List T} {x' : List T'} (hx : rel x x') {y : List T} {y' : List T'} (hy : rel y y') {z : List T} {z' : List T'} (hz : rel z z') :
    Par rel (coo_matvec nnz i j x y z) (coo_matvec nnz i j x' y' z') := by
  simp only [rel_prod, rel_list, rel_scalar, rel_nat, rel_int, rel_ints] at hx hy hz
  unfold coo_matvec
  try dsimp only
  par
macro_rules | `(tactic| parc) => `(tactic| first | with_reducible refine coo_matvec_par _ _ _ ?_ ?_ ?_ | fail)

/-! ### element-wise operations -/

/-- the operation of the two runs -/
class SOp {U U' : Type} [PRel U U'] (op : T → T → U) (op' : T' → T' → U') : Prop where
  h : ∀ {x y x' y'}, SRel.r x x' → SRel.r y y' → rel (op x y) (op' x' y')
class SFun {U U' : Type} [PRel U U'] (f : T → U) (f' : T' → U') : Prop where
  h : ∀ {x x'}, SRel.r x x' → rel (f x) (f' x')
/-- the test of the result -/
class STest {U U' : Type} [PRel U U'] (nz : U → Bool) (nz' : U' → Bool) : Prop where
  h : ∀ {x x'}, rel x x' → nz x = nz' x'
macro_rules | `(tactic| prel1) => `(tactic| first
  | with_reducible refine SOp.h ?_ ?_
  | with_reducible refine SFun.h ?_
  | with_reducible refine STest.h ?_
  | fail)

section
variable {U U' : Type} [PRel U U'] {op : T → T → U} {op' : T' → T' → U'} {nz : U → Bool} {nz' : U' → Bool}

theorem binop_flush_par [Zero T] [Zero T'] [SZero T T'] [SOp op op'] [STest nz nz'] (t : IdxTy) (length head : Int) (next : List Int)
    {a b : List T} {a' b' : List T'} (ha : rel a a') (hb : rel b b') (nnz : Int) (cj : List Int) {cx : List U} {cx' : List U'} (hc : rel cx cx') :
    Par rel (binop_flush t op nz length head next a b nnz cj cx) (binop_flush t op' nz' length head next a' b' nnz cj cx') := by
  simp only [rel_list] at ha hb hc
  unfold binop_flush
  dsimp only
  par
macro_rules | `(tactic| parc) => `(tactic| first | with_reducible refine binop_flush_par _ _ _ _ ?_ ?_ _ _ ?_ | fail)

theorem csr_binop_csr_general_par [Zero T] [Zero T'] [Add T] [Add T'] [SZero T T'] [SAdd T T'] [SOp op op'] [STest nz nz'] (t : IdxTy) (n m : Nat)
    (ap aj : List Int) {ax : List T} {ax' : List T'} (ha : rel ax ax') (bp bj : List Int) {bx : List T} {bx' : List T'} (hb : rel bx bx')
    (cp cj : List Int) {cx : List U} {cx' : List U'} (hc : rel cx cx') :
    Par rel (csr_binop_csr_general t n m ap aj ax bp bj bx cp cj cx op nz) (csr_binop_csr_general t n m ap aj ax' bp bj bx' cp cj cx' op' nz') := by
  simp only [rel_list] at ha hb hc
  unfold csr_binop_csr_general
  dsimp only
  par
macro_rules | `(tactic| parc) => `(tactic| first | with_reducible refine csr_binop_csr_general_par _ _ _ _ _ ?_ _ _ ?_ _ _ ?_ | fail)

theorem binop_emit_par [STest nz nz'] (j : Int) {x : U} {x' : U'} (hx : rel x x') (nnz : Nat) (cj : List Int) {cx : List U} {cx' : List U'}
    (hc : rel cx cx') : Par rel (binop_emit nz j x nnz cj cx) (binop_emit nz' j x' nnz cj cx') := by
  simp only [rel_list] at hc
  unfold binop_emit
  par
macro_rules | `(tactic| parc) => `(tactic| first | with_reducible refine binop_emit_par _ ?_ _ _ ?_ | fail)

theorem tail_emit_par [STest nz nz'] (aj : List Int) (pos : Nat) {x : U} {x' : U'} (hx : rel x x') (nnz : Nat) (cj : List Int)
    {cx : List U} {cx' : List U'} (hc : rel cx cx') : Par rel (tail_emit nz aj pos x nnz cj cx) (tail_emit nz' aj pos x' nnz cj cx') := by
  simp only [rel_list] at hc
  unfold tail_emit
  par
macro_rules | `(tactic| parc) => `(tactic| first | with_reducible refine tail_emit_par _ _ ?_ _ _ ?_ | fail)

theorem canonical_merge_par [Zero T] [Zero T'] [SZero T T'] [SOp op op'] [STest nz nz'] (aj : List Int) {ax : List T} {ax' : List T'} (ha : rel ax ax')
    (bj : List Int) {bx : List T} {bx' : List T'} (hb : rel bx bx') (e f : Nat) {s : Nat × Nat × Nat × List Int × List U}
    {s' : Nat × Nat × Nat × List Int × List U'} (hs : rel s s') :
    Par rel (canonical_merge aj ax bj bx op nz e f s) (canonical_merge aj ax' bj bx' op' nz' e f s') := by
  obtain ⟨s1, s2, s3, s4, s5⟩ := s
  obtain ⟨s1', s2', s3', s4', s5'⟩ := s'
  simp only [rel_prod, rel_list, rel_ints, rel_nat] at ha hb hs
  obtain ⟨rfl, rfl, rfl, rfl, hs⟩ := hs
  unfold canonical_merge
  dsimp only
  par
macro_rules | `(tactic| parc) => `(tactic| first | with_reducible refine canonical_merge_par _ ?_ _ ?_ _ _ ?_ | fail)

theorem canonical_tail_par {f : T → U} {f' : T' → U'} [SFun f f'] [STest nz nz'] (aj : List Int) {ax : List T} {ax' : List T'} (ha : rel ax ax')
    (e : Nat) {s : Nat × Nat × List Int × List U} {s' : Nat × Nat × List Int × List U'} (hs : rel s s') :
    Par rel (canonical_tail aj ax f nz e s) (canonical_tail aj ax' f' nz' e s') := by
  obtain ⟨s1, s2, s3, s4⟩ := s
  obtain ⟨s1', s2', s3', s4'⟩ := s'
  simp only [rel_prod, rel_list, rel_ints, rel_nat] at ha hs
  obtain ⟨rfl, rfl, rfl, hs⟩ := hs
  unfold canonical_tail
  dsimp only
  par
macro_rules | `(tactic| parc) => `(tactic| first | with_reducible refine canonical_tail_par _ ?_ _ ?_ | fail)

instance [Zero T] [Zero T'] [SZero T T'] [h : SOp op op'] : SFun (fun x => op x 0) (fun x => op' x 0) := ⟨fun hx => h.h hx SZero.h⟩
instance [Zero T] [Zero T'] [SZero T T'] [h : SOp op op'] : SFun (fun x => op 0 x) (fun x => op' 0 x) := ⟨fun hx => h.h SZero.h hx⟩

theorem csr_binop_csr_canonical_par [Zero T] [Zero T'] [SZero T T'] [SOp op op'] [STest nz nz'] (t : IdxTy) (n : Nat)
    (ap aj : List Int) {ax : List T} {ax' : List T'} (ha : rel ax ax') (bp bj : List Int) {bx : List T} {bx' : List T'} (hb : rel bx bx')
    (cp cj : List Int) {cx : List U} {cx' : List U'} (hc : rel cx cx') :
    Par rel (csr_binop_csr_canonical t n ap aj ax bp bj bx cp cj cx op nz) (csr_binop_csr_canonical t n ap aj ax' bp bj bx' cp cj cx' op' nz') := by
  simp only [rel_list] at ha hb hc
  unfold csr_binop_csr_canonical
  dsimp only
  par
macro_rules | `(tactic| parc) => `(tactic| first | with_reducible refine csr_binop_csr_canonical_par _ _ _ _ ?_ _ _ ?_ _ _ ?_ | fail)

theorem csr_binop_csr_par [Zero T] [Zero T'] [Add T] [Add T'] [SZero T T'] [SAdd T T'] [SOp op op'] [STest nz nz'] (t : IdxTy) (n m : Nat)
    (ap aj : List Int) {ax : List T} {ax' : List T'} (ha : rel ax ax') (bp bj : List Int) {bx : List T} {bx' : List T'} (hb : rel bx bx')
    (cp cj : List Int) {cx : List U} {cx' : List U'} (hc : rel cx cx') :
    Par rel (csr_binop_csr t n m ap aj ax bp bj bx cp cj cx op nz) (csr_binop_csr t n m ap aj ax' bp bj bx' cp cj cx' op' nz') := by
  simp only [rel_list] at ha hb hc
  unfold csr_binop_csr
  par
macro_rules | `(tactic| parc) => `(tactic| first | with_reducible refine csr_binop_csr_par _ _ _ _ _ ?_ _ _ ?_ _ _ ?_ | fail)
end

section
variable [Zero T] [Zero T'] [Add T] [Add T'] [BEq T] [BEq T'] [SZero T T'] [SAdd T T'] [SNz T T'] (t : IdxTy) (n m : Nat)
    (ap aj : List Int) {ax : List T} {ax' : List T'} (ha : rel ax ax') (bp bj : List Int) {bx : List T} {bx' : List T'} (hb : rel bx bx')
    (cp cj : List Int) {cx : List T} {cx' : List T'} (hc : rel cx cx')
include ha hb hc
instance : STest (nzT : T → Bool) (nzT : T' → Bool) := ⟨fun h => SNz.h h⟩

theorem csr_add_csr_par : Par rel (csr_add_csr t n m ap aj ax bp bj bx cp cj cx) (csr_add_csr t n m ap aj ax' bp bj bx' cp cj cx') :=
  have : SOp (T := T) (T' := T') (fun a b => a + b) (fun a b => a + b) := ⟨fun h1 h2 => SAdd.h h1 h2⟩
  csr_binop_csr_par _ _ _ _ _ ha _ _ hb _ _ hc
theorem csr_sub_csr_par [Sub T] [Sub T'] [SSub T T'] :
    Par rel (csr_sub_csr t n m ap aj ax bp bj bx cp cj cx) (csr_sub_csr t n m ap aj ax' bp bj bx' cp cj cx') :=
  have : SOp (T := T) (T' := T') (fun a b => a - b) (fun a b => a - b) := ⟨fun h1 h2 => SSub.h h1 h2⟩
  csr_binop_csr_par _ _ _ _ _ ha _ _ hb _ _ hc
theorem csr_mul_csr_par [Mul T] [Mul T'] [SMul T T'] :
    Par rel (csr_mul_csr t n m ap aj ax bp bj bx cp cj cx) (csr_mul_csr t n m ap aj ax' bp bj bx' cp cj cx') :=
  have : SOp (T := T) (T' := T') (fun a b => a * b) (fun a b => a * b) := ⟨fun h1 h2 => SMul.h h1 h2⟩
  csr_binop_csr_par _ _ _ _ _ ha _ _ hb _ _ hc
end
end
macro_rules | `(tactic| parc) => `(tactic| first | with_reducible refine csr_add_csr_par _ _ _ _ _ ?_ _ _ ?_ _ _ ?_ | fail)
macro_rules | `(tactic| parc) => `(tactic| first | with_reducible refine csr_sub_csr_par _ _ _ _ _ ?_ _ _ ?_ _ _ ?_ | fail)

end Sparse

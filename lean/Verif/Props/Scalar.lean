import Verif.Lemmas.Scalar
import Verif.Lemmas.Fail
import Verif.Props.Widen
import Verif.Props.Product
import Verif.Props.Elementwise
/-!
Integer scalars in a build with overflow checks (C75, C76): a call gives the result over the integers, or panics.
`s` is the scalar type, `t` the index type.
-/
namespace Sparse
variable {s t : IntTy}

theorem IntTy.arith_same (s : IntTy) (z : Int) : SameOrArith ((s : IdxTy).arith z) (.ok z) := by
  unfold IdxTy.arith
  split
  · exact .inl rfl
  · exact .inr rfl

/-- the operations of an integer type are exact or panic -/
theorem IntTy.ops_exact (s : IntTy) : s.ops.Exact where
  add a b := s.arith_same _
  sub a b := s.arith_same _
  mul a b := s.arith_same _
  neg a := s.arith_same _

theorem SameOrArith.orOverflows {m m' : M α} {P : α → Prop} (h : SameOrArith m m') (hm : ∃ r, m' = .ok r ∧ P r) : OrOverflows m P := by
  obtain ⟨r, h1, h2⟩ := hm
  rcases h with h | h
  · exact .inl ⟨r, h.trans h1, h2⟩
  · exact .inr h

namespace Expr

theorem evalS_sc [CommRing T] [DecidableEq T] {o : Ops T} (ho : o.Exact) (t : IdxTy) : {f : Fmt} → (e : Expr T f) →
    SameOrArith (e.evalS o t) (e.eval t)
  | _, coo a => by unfold evalS eval; scal []
  | _, csr a => by unfold evalS eval; scal []
  | _, csc a => by unfold evalS eval; scal []
  | _, cooDiag d => by unfold evalS eval; scal []
  | _, csrDiag d => by unfold evalS eval; scal []
  | _, cscDiag d => by unfold evalS eval; scal []
  | _, cooEye n => by unfold evalS eval; scal []
  | _, cooZero m n => by unfold evalS eval; scal []
  | _, csrZero m n => by unfold evalS eval; scal []
  | _, cooDense A => by unfold evalS eval; scal []
  | _, csrDense A => by unfold evalS eval; scal []
  | _, cscDense A => by unfold evalS eval; scal []
  | _, cooToCsr e => by have := e.evalS_sc ho t; unfold evalS eval; scal [Coo_to_csr_sc]
  | _, cooToCsc e => by have := e.evalS_sc ho t; unfold evalS eval; scal [Coo_to_csc_sc]
  | _, csrToCoo e => by have := e.evalS_sc ho t; unfold evalS eval; scal []
  | _, csrToCsc e => by have := e.evalS_sc ho t; unfold evalS eval; scal []
  | _, cscToCoo e => by have := e.evalS_sc ho t; unfold evalS eval; scal []
  | _, cscToCsr e => by have := e.evalS_sc ho t; unfold evalS eval; scal []
  | _, cooT e => by have := e.evalS_sc ho t; unfold evalS eval; scal []
  | _, csrT e => by have := e.evalS_sc ho t; unfold evalS eval; scal []
  | _, cscT e => by have := e.evalS_sc ho t; unfold evalS eval; scal []
  | _, cooNeg e => by have := e.evalS_sc ho t; unfold evalS eval; scal [Coo_neg_sc]
  | _, csrNeg e => by have := e.evalS_sc ho t; unfold evalS eval; scal [CSR_neg_sc]
  | _, cscNeg e => by have := e.evalS_sc ho t; unfold evalS eval; scal [CSC_neg_sc]
  | _, cooAdd e f => by have := e.evalS_sc ho t; have := f.evalS_sc ho t; unfold evalS eval; scal [Coo_add_sc]
  | _, csrAdd e f => by have := e.evalS_sc ho t; have := f.evalS_sc ho t; unfold evalS eval; scal [CSR_add_sc]
  | _, csrSub e f => by have := e.evalS_sc ho t; have := f.evalS_sc ho t; unfold evalS eval; scal [CSR_sub_sc]
  | _, cscAdd e f => by have := e.evalS_sc ho t; have := f.evalS_sc ho t; unfold evalS eval; scal [CSC_add_op_sc]
  | _, cscSub e f => by have := e.evalS_sc ho t; have := f.evalS_sc ho t; unfold evalS eval; scal [CSC_sub_op_sc]
  | _, cscAddMethod e f => by have := e.evalS_sc ho t; have := f.evalS_sc ho t; unfold evalS eval; scal [CSC_add_sc]
  | _, cscSubMethod e f => by have := e.evalS_sc ho t; have := f.evalS_sc ho t; unfold evalS eval; scal [CSC_subtract_sc]
  | _, csrMul e f => by have := e.evalS_sc ho t; have := f.evalS_sc ho t; unfold evalS eval; scal [CSR_mul_sc]
  | _, cscMul e f => by have := e.evalS_sc ho t; have := f.evalS_sc ho t; unfold evalS eval; scal [CSC_mul_sc]
  | _, cscMulCsr e f => by have := e.evalS_sc ho t; have := f.evalS_sc ho t; unfold evalS eval; scal [CSC_mul_csr_sc]
  | _, csrScale e s => by have := e.evalS_sc ho t; unfold evalS eval; scal [CSR_mul_scalar_sc]
  | _, csrScaleL s e => by have := e.evalS_sc ho t; unfold evalS eval; scal [CSR_scalar_mul_sc]
  | _, cscScale e s => by have := e.evalS_sc ho t; unfold evalS eval; scal [CSC_mul_scalar_sc]
  | _, cscScaleL s e => by have := e.evalS_sc ho t; unfold evalS eval; scal [CSC_scalar_mul_sc]
  | _, csrSort e => by have := e.evalS_sc ho t; unfold evalS eval; scal []
  | _, cscSort e => by have := e.evalS_sc ho t; unfold evalS eval; scal []
  | _, csrSum e => by have := e.evalS_sc ho t; unfold evalS eval; scal [CSR_sum_duplicates_sc]
  | _, cscSum e => by have := e.evalS_sc ho t; unfold evalS eval; scal [CSC_sum_duplicates_sc]
  | _, cooUpper e k => by have := e.evalS_sc ho t; unfold evalS eval; scal []
  | _, cooV e f => by have := e.evalS_sc ho t; have := f.evalS_sc ho t; unfold evalS eval; scal []
  | _, cooV3 e f g => by
    have := e.evalS_sc ho t; have := f.evalS_sc ho t; have := g.evalS_sc ho t; unfold evalS eval; scal []
  | _, cooH e f => by have := e.evalS_sc ho t; have := f.evalS_sc ho t; unfold evalS eval; scal []
  | _, cooH3 e f g => by
    have := e.evalS_sc ho t; have := f.evalS_sc ho t; have := g.evalS_sc ho t; unfold evalS eval; scal []
  | _, csrH e f => by have := e.evalS_sc ho t; have := f.evalS_sc ho t; unfold evalS eval; scal [CSR_h_stack_sc]
  | _, cooBlock e f g k => by
    have := e.evalS_sc ho t; have := f.evalS_sc ho t; have := g.evalS_sc ho t; have := k.evalS_sc ho t; unfold evalS eval; scal []
  | _, cscBlock e f g k => by
    have := e.evalS_sc ho t; have := f.evalS_sc ho t; have := g.evalS_sc ho t; have := k.evalS_sc ho t; unfold evalS eval; scal [CSC_compose_sc]
  | _, csrSelect e ri ci => by have := e.evalS_sc ho t; unfold evalS eval; scal [CSR_sum_duplicates_sc]
  | _, cscSelect e ri ci => by have := e.evalS_sc ho t; unfold evalS eval; scal [CSC_sum_duplicates_sc]

end Expr

theorem SameOrArith.eqOrOverflows {m : M α} {r : α} (h : SameOrArith m (.ok r)) : OrOverflows m (· = r) :=
  h.orOverflows ⟨r, rfl, rfl⟩

/-! ### C75: the named operations -/

/-- **C75**: `mat_vec` of CSR and CSC -/
theorem C75_mat_vec (a : CSR Int) (b : CSC Int) (ha : a.WF t) (hb : b.WF t) (x : List Int) :
    (x.length = a.cols → OrOverflows (a.mat_vecS s.ops x) (· = (List.range a.rows).map fun i =>
      ∑ k ∈ Finset.range a.cols, a.entry i k * x.getD k 0)) ∧
    (x.length = b.cols → OrOverflows (b.mat_vecS s.ops x) (· = (List.range b.rows).map fun i =>
      ∑ k ∈ Finset.range b.cols, b.entry i k * x.getD k 0)) ∧
    (x.length ≠ a.cols → a.mat_vecS s.ops x = .error .err) ∧ (x.length ≠ b.cols → b.mat_vecS s.ops x = .error .err) := by
  refine ⟨fun h => ?_, fun h => ?_, fun h => ?_, fun h => ?_⟩
  · have := CSR_mat_vec_sc s.ops_exact a x
    rw [(C11_csr_mat_vec t a ha x).2 h] at this
    exact this.eqOrOverflows
  · have := CSC_mat_vec_sc s.ops_exact b x
    rw [(C12_csc_mat_vec t b hb x).2 h] at this
    exact this.eqOrOverflows
  · unfold CSR.mat_vecS; rw [if_pos h]; rfl
  · unfold CSC.mat_vecS; rw [if_pos h]; rfl

/-- **C75**: products of CSR matrices -/
theorem C75_csr_mat_mat (a b : CSR Int) (ha : a.WF t) (hb : b.WF t) (hd : a.cols = b.rows)
    (hfit : (a.productSlots b : Int) ≤ t.hi) :
    OrOverflows (a.mat_matS s.ops t b) fun r => r.WF t ∧ r.rows = a.rows ∧ r.cols = b.cols ∧ r.NoDup ∧
      ∀ i k, r.entry i k = ∑ j ∈ Finset.range a.cols, a.entry i j * b.entry j k := by
  obtain ⟨r, h1, -, h2, h3, h4, h5, h6, -⟩ := C13_csr_mat_mat t a b ha hb hd hfit
  exact (CSR_mat_mat_sc s.ops_exact t a b).orOverflows ⟨r, h1, h2, h3, h4, h6, h5⟩

/-- **C75**: products of CSC matrices -/
theorem C75_csc_mat_mat (a b : CSC Int) (ha : a.WF t) (hb : b.WF t) (hd : b.rows = a.cols)
    (hfit : (a.productSlots b : Int) ≤ t.hi) :
    OrOverflows (a.mat_matS s.ops t b) fun r => r.WF t ∧ r.rows = a.rows ∧ r.cols = b.cols ∧ r.NoDup ∧
      ∀ i k, r.entry i k = ∑ j ∈ Finset.range a.cols, a.entry i j * b.entry j k := by
  obtain ⟨r, h1, -, h2, h3, h4, h5, h6, -⟩ := C14_csc_mat_mat t a b ha hb hd hfit
  exact (CSC_mat_mat_sc s.ops_exact t a b).orOverflows ⟨r, h1, h2, h3, h4, h6, h5⟩

/-- **C75**: sums and differences of CSR matrices -/
theorem C75_csr_add_sub (a b : CSR Int) (ha : a.WF t) (hb : b.WF t) (hr : b.rows = a.rows) (hc : b.cols = a.cols)
    (hfit : ((a.stored + b.stored : Nat) : Int) < t.hi) :
    (OrOverflows (a.addS s.ops t b) fun r => r.WF t ∧ r.rows = a.rows ∧ r.cols = a.cols ∧ r.NoDup ∧
      ∀ i j, r.entry i j = a.entry i j + b.entry i j) ∧
    (OrOverflows (a.subS s.ops t b) fun r => r.WF t ∧ r.rows = a.rows ∧ r.cols = a.cols ∧ r.NoDup ∧
      ∀ i j, r.entry i j = a.entry i j - b.entry i j) := by
  obtain ⟨r, h1, h2, h3, h4, h5, h6, -⟩ := C15_csr_add t a b ha hb hr hc hfit
  obtain ⟨r', g1, g2, g3, g4, g5, g6, -⟩ := C15_csr_sub t a b ha hb hr hc hfit
  exact ⟨(CSR_add_sc s.ops_exact t a b).orOverflows ⟨r, h1, h2, h3, h4, h6, h5⟩,
    (CSR_sub_sc s.ops_exact t a b).orOverflows ⟨r', g1, g2, g3, g4, g6, g5⟩⟩

/-- **C75**: sums and differences of CSC matrices by the methods -/
theorem C75_csc_add_subtract (a b : CSC Int) (ha : a.WF t) (hb : b.WF t) (hr : b.rows = a.rows) (hc : b.cols = a.cols)
    (hfit : ((a.stored + b.stored : Nat) : Int) < t.hi) :
    (OrOverflows (a.addS s.ops t b) fun r => r.WF t ∧ r.rows = a.rows ∧ r.cols = a.cols ∧ r.NoDup ∧
      ∀ i j, r.entry i j = a.entry i j + b.entry i j) ∧
    (OrOverflows (a.subtractS s.ops t b) fun r => r.WF t ∧ r.rows = a.rows ∧ r.cols = a.cols ∧ r.NoDup ∧
      ∀ i j, r.entry i j = a.entry i j - b.entry i j) := by
  obtain ⟨r, h1, h2, h3, h4, h5, h6, -⟩ := C18_csc_add t a b ha hb hr hc hfit
  obtain ⟨r', g1, g2, g3, g4, g5, g6, -⟩ := C18_csc_subtract t a b ha hb hr hc hfit
  exact ⟨(CSC_add_sc s.ops_exact t a b).orOverflows ⟨r, h1, h2, h3, h4, h6, h5⟩,
    (CSC_subtract_sc s.ops_exact t a b).orOverflows ⟨r', g1, g2, g3, g4, g6, g5⟩⟩

/-- **C75**: conversions from triplets and `sum_duplicates` -/
theorem C75_conversions (a : Coo Int) (ha : a.WF t) (hn : (a.values.length : Int) < t.hi) (b : CSR Int) (hb : b.WF t)
    (hm : (b.stored : Int) < t.hi) :
    (OrOverflows (a.to_csrS s.ops t) fun r => r.WF t ∧ r.rows = a.rows ∧ r.cols = a.cols ∧ r.Canonical ∧
      ∀ i j, r.entry i j = a.entry i j) ∧
    (OrOverflows (a.to_cscS s.ops t) fun r => r.WF t ∧ r.rows = a.rows ∧ r.cols = a.cols ∧ r.Canonical ∧
      ∀ i j, r.entry i j = a.entry i j) ∧
    (OrOverflows (b.sum_duplicatesS s.ops t) fun r => r.WF t ∧ r.rows = b.rows ∧ r.cols = b.cols ∧ r.Canonical ∧
      ∀ i j, r.entry i j = b.entry i j) := by
  obtain ⟨r, h1, h2, h3, h4, h5, h6, -⟩ := C01_coo_to_csr t a ha hn
  obtain ⟨r', g1, g2, g3, g4, g5, g6, -⟩ := C02_coo_to_csc t a ha hn
  obtain ⟨q, q1, q2, q3, q4, q5, q6, -⟩ := C07_csr_sum_duplicates t b hb hm
  exact ⟨(Coo_to_csr_sc s.ops_exact t a).orOverflows ⟨r, h1, h2, h3, h4, h5, h6⟩,
    (Coo_to_csc_sc s.ops_exact t a).orOverflows ⟨r', g1, g2, g3, g4, g5, g6⟩,
    (CSR_sum_duplicates_sc s.ops_exact t b).orOverflows ⟨q, q1, q2, q3, q4, q5, q6⟩⟩

/-- **C75**: `to_dense` and `diagonal` of the three formats, where duplicates are added -/
theorem C75_dense_diagonal (a : Coo Int) (b : CSR Int) (c : CSC Int) (ha : a.WF t) (hb : b.WF t) (hc : c.WF t)
    (hcc : (c.cols : Int) ≤ t.hi + 1) :
    OrOverflows (a.to_denseS s.ops) (· = dense a.rows a.cols a.entry) ∧
    OrOverflows (b.to_denseS s.ops) (· = dense b.rows b.cols b.entry) ∧
    OrOverflows (c.to_denseS s.ops t) (· = dense c.rows c.cols c.entry) ∧
    OrOverflows (a.diagonalS s.ops) (· = (List.range (min a.rows a.cols)).map fun i => a.entry i i) ∧
    OrOverflows (b.diagonalS s.ops) (· = (List.range (min b.rows b.cols)).map fun i => b.entry i i) ∧
    OrOverflows (c.diagonalS s.ops) (· = (List.range (min c.rows c.cols)).map fun i => c.entry i i) := by
  have h1 := Coo_to_dense_sc s.ops_exact a
  have h2 := CSR_to_dense_sc s.ops_exact b
  have h3 := CSC_to_dense_sc s.ops_exact t c
  have h4 := Coo_diagonal_sc s.ops_exact a
  have h5 := CSR_diagonal_sc s.ops_exact b
  have h6 := CSC_diagonal_sc s.ops_exact c
  rw [C06_coo_to_dense t a ha] at h1
  rw [C06_csr_to_dense t b hb] at h2
  rw [C06_csc_to_dense t c hc hcc] at h3
  rw [C24_coo_diagonal t a ha] at h4
  rw [C24_csr_diagonal t b hb] at h5
  rw [C24_csc_diagonal t c hc] at h6
  exact ⟨h1.eqOrOverflows, h2.eqOrOverflows, h3.eqOrOverflows, h4.eqOrOverflows, h5.eqOrOverflows, h6.eqOrOverflows⟩

/-- **C75**: scaling and negation of CSR matrices -/
theorem C75_csr_scale_neg (a : CSR Int) (ha : a.WF t) (v : Int) :
    (OrOverflows (a.mul_scalarS s.ops v) fun r => r.WF t ∧ r.rows = a.rows ∧ r.cols = a.cols ∧
      ∀ i j, r.entry i j = a.entry i j * v) ∧
    (OrOverflows (CSR.scalar_mulS s.ops v a) fun r => r.WF t ∧ r.rows = a.rows ∧ r.cols = a.cols ∧
      ∀ i j, r.entry i j = v * a.entry i j) ∧
    (OrOverflows (a.negS s.ops) fun r => r.WF t ∧ r.rows = a.rows ∧ r.cols = a.cols ∧
      ∀ i j, r.entry i j = -a.entry i j) := by
  obtain ⟨r, h1, h2, h3, h4, -, -, h5⟩ := C20_csr_mul_scalar t a ha v
  obtain ⟨r', g1, g2, g3, g4, -, -, g5⟩ := C20_csr_scalar_mul t a ha v
  obtain ⟨q, q1, q2, q3, q4, -, -, q5, -⟩ := C21_csr_neg t a ha
  exact ⟨(CSR_mul_scalar_sc s.ops_exact a v).orOverflows ⟨r, h1, h2, h3, h4, h5⟩,
    (CSR_scalar_mul_sc s.ops_exact v a).orOverflows ⟨r', g1, g2, g3, g4, g5⟩,
    (CSR_neg_sc s.ops_exact a).orOverflows ⟨q, q1, q2, q3, q4, q5⟩⟩

/-- with `i8` values: a product that returns, one whose exact value 200 is not an `i8`, and one whose exact value 100 is,
but not its first partial sum -/
example :
    (⟨1, 2, [0, 2], [0, 1], [10, 7]⟩ : CSR Int).WF .u8 ∧
    (⟨1, 2, [0, 2], [0, 1], [10, 7]⟩ : CSR Int).mat_vecS IntTy.i8.ops [5, 6] = .ok [92] ∧
    (⟨1, 2, [0, 2], [0, 1], [10, 10]⟩ : CSR Int).mat_vecS IntTy.i8.ops [10, 10] = .error (.panic .arith) ∧
    (⟨1, 3, [0, 3], [0, 1, 2], [10, 10, 10]⟩ : CSR Int).mat_vecS IntTy.i8.ops [10, 10, -10] = .error (.panic .arith) ∧
    (⟨1, 2, [0, 1], [0], [100]⟩ : CSR Int).addS IntTy.i8.ops .u8 ⟨1, 2, [0, 1], [0], [28]⟩ = .error (.panic .arith) :=
  ⟨CSR.wf_of (by decide), by decide +kernel, by decide +kernel, by decide +kernel, by decide +kernel⟩

/-! ### C75: when `mat_vec` returns -/

/-- the terms of the `i`-th element of the product, in storage order -/
def CSR.terms (a : CSR Int) (x : List Int) (i : Nat) : List Int := (a.row i).map fun e => e.2 * x.getD e.1.toNat 0

/-- each term and each partial sum from the left is a value of the type -/
def IntTy.SumFits (s : IntTy) (l : List Int) : Prop :=
  ∀ k < l.length, (s.lo ≤ l.getD k 0 ∧ l.getD k 0 ≤ s.hi) ∧ s.lo ≤ (l.take (k + 1)).sum ∧ (l.take (k + 1)).sum ≤ s.hi

theorem IntTy.SumFits.snoc {s : IntTy} {l : List Int} {v : Int} (h : s.SumFits l) (h1 : s.lo ≤ v ∧ v ≤ s.hi)
    (h2 : s.lo ≤ l.sum + v ∧ l.sum + v ≤ s.hi) : s.SumFits (l ++ [v]) := by
  intro k hk
  rw [List.length_append, List.length_singleton] at hk
  by_cases hkl : k < l.length
  · have := h k hkl
    rw [List.take_append_of_le_length (by omega)]
    simpa [List.getD_eq_getElem?_getD, List.getElem?_append_left hkl] using this
  · have : k = l.length := by omega
    subst this
    rw [List.take_of_length_le (by simp), List.sum_append]
    simpa using ⟨h1, h2⟩

theorem not_sumFits {s : IntTy} {l r : List Int} {v : Int}
    (h : ¬ (s.lo ≤ v ∧ v ≤ s.hi) ∨ ¬ (s.lo ≤ l.sum + v ∧ l.sum + v ≤ s.hi)) : ¬ s.SumFits (l ++ v :: r) := by
  intro hf
  have := hf l.length (by simp)
  rw [show l ++ v :: r = (l ++ [v]) ++ r by simp, List.take_append_of_le_length (by simp),
    List.take_of_length_le (by simp), List.sum_append] at this
  simp at this
  omega

theorem csr_matvecS_wp {s : IntTy} {n m : Nat} {p j : List Int} {x : List Int} {R : Nat → List (Int × Int)} {v y : List Int}
    (hr : Rep p j x n R) (hm : ∀ i < n, ∀ e ∈ R i, 0 ≤ e.1 ∧ e.1 < m) (hv : v.length = m)
    (hy : y = List.replicate n 0) :
    WP (csr_matvecS s.ops n p j x v y) (fun _ => ∀ i < n, s.SumFits ((R i).map fun e => e.2 * v.getD e.1.toNat 0))
      (fun e => e = .panic .arith ∧ ∃ i < n, ¬ s.SumFits ((R i).map fun e => e.2 * v.getD e.1.toNat 0)) := by
  subst hy
  unfold csr_matvecS
  rw [WP_bind]
  refine WP_forRange (fun i z => z.length = n ∧ (∀ k, i ≤ k → k < n → z[k]? = some 0) ∧
    ∀ k < i, s.SumFits ((R k).map fun e => e.2 * v.getD e.1.toNat 0)) (fun _ => False) (by omega) ?_ ?_ (fun _ h => h.elim) ?_
  · refine ⟨by simp, fun k _ hk => by simp [hk], fun k hk => by omega⟩
  · rintro i z - hi ⟨h1, h2, h3⟩
    wpe
    refine ⟨fun a ha => ?_, fun hn => ?_⟩
    rotate_left
    · rw [h2 i (by omega) hi] at hn; cases hn
    rw [h2 i (by omega) hi] at ha
    obtain rfl := Option.some.inj ha
    rw [hr.ptr i (by omega), hr.ptr_succ hi]
    simp only [Option.some.injEq, forall_eq', reduceCtorEq, false_imp_iff, and_true]
    refine ⟨fun _ => ⟨fun _ => ?_, fun h => absurd (by omega) h⟩, fun h => absurd (by omega) h⟩
    simp only [Int.toNat_natCast]
    refine WP_forRange (fun q w => ∃ pre suf, R i = pre ++ suf ∧ q = (flat R i).length + pre.length ∧
      w = (pre.map fun e => e.2 * v.getD e.1.toNat 0).sum ∧ s.SumFits (pre.map fun e => e.2 * v.getD e.1.toNat 0))
      (fun _ => False) (by omega) ⟨[], R i, rfl, by simp, by simp, by intro k hk; simp at hk⟩ ?_ (fun _ h => h.elim) ?_
    · rintro q w hq1 hq2 ⟨pre, suf, e1, rfl, rfl, e4⟩
      cases suf with
      | nil => rw [List.append_nil] at e1; rw [e1] at hq2; omega
      | cons e suf =>
        have hg := hr.get (m := pre.length) (e := e) hi (by rw [e1]; simp)
        have he := hm i hi e (by rw [e1]; simp)
        have hx : v[e.1.toNat]? = some (v.getD e.1.toNat 0) := by
          rw [List.getD_eq_getElem?_getD, List.getElem?_eq_getElem (by omega)]; rfl
        wpe
        rw [hg.1, hg.2]
        simp only [Option.some.injEq, forall_eq', reduceCtorEq, false_imp_iff, and_true]
        refine ⟨fun _ => ?_, fun h => absurd he.1 h⟩
        rw [hx]
        simp only [Option.some.injEq, forall_eq', reduceCtorEq, false_imp_iff, and_true]
        have bad : ∀ (h : ¬ (s.lo ≤ e.2 * v.getD e.1.toNat 0 ∧ e.2 * v.getD e.1.toNat 0 ≤ s.hi) ∨
            ¬ (s.lo ≤ (pre.map fun e => e.2 * v.getD e.1.toNat 0).sum + e.2 * v.getD e.1.toNat 0 ∧
              (pre.map fun e => e.2 * v.getD e.1.toNat 0).sum + e.2 * v.getD e.1.toNat 0 ≤ s.hi)),
            ∃ i < n, ¬ s.SumFits ((R i).map fun e => e.2 * v.getD e.1.toNat 0) := by
          intro h
          refine ⟨i, hi, ?_⟩
          rw [e1, List.map_append, List.map_cons]
          exact not_sumFits h
        unfold IntTy.ops IdxTy.arith
        dsimp only
        rw [WP_ite, WP_pure]
        refine ⟨fun b1 => ?_, fun b1 => ?_⟩
        · rw [WP_add]
          refine ⟨fun b2 => ⟨pre ++ [e], suf, by simp [e1], by simp; omega, by simp, ?_⟩, fun b2 => ⟨rfl, bad (.inr b2)⟩⟩
          rw [List.map_append]
          exact e4.snoc b1 b2
        · exact ⟨rfl, bad (.inl b1)⟩
    · rintro w ⟨pre, suf, e1, e2, e3, e4⟩
      have hl : suf = [] := by
        have := congrArg List.length e1
        rw [List.length_append] at this
        exact List.eq_nil_of_length_eq_zero (by omega)
      subst hl
      rw [List.append_nil] at e1
      rw [← e1] at e4
      refine ⟨fun _ => ⟨by simp [h1], fun k hk hk' => ?_, fun k hk => ?_⟩, fun h => absurd (by omega) h⟩
      · rw [List.getElem?_set_ne (by omega)]; exact h2 k (by omega) hk'
      · rcases Nat.lt_succ_iff_lt_or_eq.1 hk with hk | rfl
        · exact h3 k hk
        · exact e4
  · rintro z ⟨-, -, h⟩
    exact h

/-- **C75**: `mat_vec` of a CSR matrix returns the exact product if and only if every term and every partial sum, in storage
order, is a value of the scalar type; otherwise it panics. -/
theorem C75_mat_vec_returns_iff (a : CSR Int) (ha : a.WF t) (x : List Int) (hx : x.length = a.cols) :
    ((∀ i < a.rows, s.SumFits (a.terms x i)) → a.mat_vecS s.ops x = .ok ((List.range a.rows).map fun i =>
      ∑ k ∈ Finset.range a.cols, a.entry i k * x.getD k 0)) ∧
    (¬ (∀ i < a.rows, s.SumFits (a.terms x i)) → a.mat_vecS s.ops x = .error (.panic .arith)) := by
  have h := csr_matvecS_wp (s := s) (v := x) ha.rep
    (fun i hi e he => ⟨(ha.mem hi he).1, (ha.mem hi he).2.1⟩) hx rfl
  have h' := CSR_mat_vec_sc s.ops_exact a x
  rw [(C11_csr_mat_vec t a ha x).2 hx] at h'
  have he : a.mat_vecS s.ops x = csr_matvecS s.ops a.rows a.rowptr a.colidx a.values x (List.replicate a.rows 0) := by
    unfold CSR.mat_vecS; rw [if_neg (by simpa using hx)]
  rw [← he] at h
  constructor
  · intro hf
    rcases h' with h1 | h1
    · exact h1
    · rw [h1, WP_error] at h
      obtain ⟨-, i, hi, hn⟩ := h
      exact absurd (hf i hi) hn
  · intro hf
    rcases h' with h1 | h1
    · rw [h1, WP_ok] at h
      exact absurd h hf
    · exact h1

theorem sum_abs_take {l : List Int} : ∀ k, |(l.take k).sum| ≤ (l.map abs).sum := by
  induction l with
  | nil => intro k; simp
  | cons a l ih =>
    intro k
    cases k with
    | zero =>
      have h0 := ih 0
      simp only [List.take_zero, List.sum_nil, abs_zero, List.map_cons, List.sum_cons] at h0 ⊢
      have := abs_nonneg a
      omega
    | succ k =>
      simp only [List.take_succ_cons, List.sum_cons, List.map_cons]
      have := ih k
      have := abs_add_le a (l.take k).sum
      omega

theorem abs_le_sum_abs {l : List Int} {v : Int} (h : v ∈ l) : |v| ≤ (l.map abs).sum := by
  induction l with
  | nil => cases h
  | cons a l ih =>
    simp only [List.map_cons, List.sum_cons]
    have h0 := sum_abs_take (l := l) 0
    simp only [List.take_zero, List.sum_nil, abs_zero] at h0
    have := abs_nonneg a
    rcases List.mem_cons.1 h with rfl | h
    · omega
    · have := ih h; omega

/-- **C75**: if in each row the absolute values of the terms have a representable sum, `mat_vec` returns the product -/
theorem C75_mat_vec_bounded (a : CSR Int) (ha : a.WF t) (x : List Int) (hx : x.length = a.cols)
    (hb : ∀ i < a.rows, s.lo ≤ -((a.terms x i).map abs).sum ∧ ((a.terms x i).map abs).sum ≤ s.hi) :
    a.mat_vecS s.ops x = .ok ((List.range a.rows).map fun i => ∑ k ∈ Finset.range a.cols, a.entry i k * x.getD k 0) := by
  refine (C75_mat_vec_returns_iff a ha x hx).1 fun i hi k hk => ?_
  have h1 := hb i hi
  have h2 := sum_abs_take (l := a.terms x i) (k + 1)
  have h3 : |(a.terms x i).getD k 0| ≤ ((a.terms x i).map abs).sum := by
    rw [List.getD_eq_getElem?_getD, List.getElem?_eq_getElem hk]
    exact abs_le_sum_abs (List.getElem_mem hk)
  have a1 := neg_abs_le (List.take (k + 1) (a.terms x i)).sum
  have a2 := le_abs_self (List.take (k + 1) (a.terms x i)).sum
  have a3 := neg_abs_le ((a.terms x i).getD k 0)
  have a4 := le_abs_self ((a.terms x i).getD k 0)
  omega

/-- both cases: the partial sums 100, 127 and 27 are `i8` values; 128 is not -/
example :
    (∀ i < 1, IntTy.i8.SumFits ((⟨1, 3, [0, 3], [0, 1, 2], [10, 9, -10]⟩ : CSR Int).terms [10, 3, 10] i)) ∧
    ¬ (∀ i < 1, IntTy.i8.SumFits ((⟨1, 3, [0, 3], [0, 1, 2], [10, 7, -10]⟩ : CSR Int).terms [10, 4, 10] i)) := by
  unfold IntTy.SumFits
  decide +kernel

/-! ### C75: kernels and hash matrices -/

/-- **C75**: the kernels have the outcome they have over the integers (C11, C12, C17, C24, C51), or panic -/
theorem C75_kernels (n m k : Nat) (d : Int) (ap aj : List Int) (ax : List Int) (bp bj : List Int) (bx : List Int) (cp cj : List Int)
    (cx x y : List Int) :
    SameOrArith (csr_matvecS s.ops n ap aj ax x y) (csr_matvec n ap aj ax x y) ∧
    SameOrArith (csr_matvecsS s.ops n k ap aj ax x y) (csr_matvecs n k ap aj ax x y) ∧
    SameOrArith (csc_matvecS s.ops n ap aj ax x y) (csc_matvec n ap aj ax x y) ∧
    SameOrArith (csc_matvecsS s.ops n k ap aj ax x y) (csc_matvecs n k ap aj ax x y) ∧
    SameOrArith (coo_matvecS s.ops n ap aj ax x y) (coo_matvec n ap aj ax x y) ∧
    SameOrArith (csr_scale_rowsS s.ops n ap ax x) (csr_scale_rows n ap ax x) ∧
    SameOrArith (csr_scale_columnsS s.ops n ap aj ax x) (csr_scale_columns n ap aj ax x) ∧
    SameOrArith (csr_diagonalS s.ops d n m ap aj ax y) (csr_diagonal d n m ap aj ax y) ∧
    SameOrArith (csc_diagonalS s.ops d n m ap aj ax y) (csc_diagonal d n m ap aj ax y) ∧
    SameOrArith (csr_mul_csrS s.ops t n m ap aj ax bp bj bx cp cj cx) (csr_mul_csr t n m ap aj ax bp bj bx cp cj cx) ∧
    SameOrArith (csr_add_csrS s.ops t n m ap aj ax bp bj bx cp cj cx) (csr_add_csr t n m ap aj ax bp bj bx cp cj cx) ∧
    SameOrArith (csr_sub_csrS s.ops t n m ap aj ax bp bj bx cp cj cx) (csr_sub_csr t n m ap aj ax bp bj bx cp cj cx) :=
  have ho := s.ops_exact
  ⟨csr_matvec_sc ho .., csr_matvecs_sc ho .., csc_matvec_sc ho .., csc_matvecs_sc ho .., coo_matvec_sc ho ..,
    csr_scale_rows_sc ho .., csr_scale_columns_sc ho .., csr_diagonal_sc ho .., csc_diagonal_sc ho .., csr_mul_csr_sc ho .., csr_add_csr_sc ho ..,
    csr_sub_csr_sc ho ..⟩

/-- **C75**: `*` with a vector, and the flat dense kernel in both storage orders -/
theorem C75_mul_vec_flat_dense (a : CSR Int) (b : CSC Int) (c : Coo Int) (ha : a.WF t) (hb : b.WF t) (hc : c.WF t) (x y : List Int)
    (hx : x.length = a.cols) (hy : y.length = b.cols) (z : List Int) (hz : c.rows * c.cols ≤ z.length) (fortran : Bool) :
    OrOverflows (a.mul_vecS s.ops x) (· = (List.range a.rows).map fun i => ∑ k ∈ Finset.range a.cols, a.entry i k * x.getD k 0) ∧
    OrOverflows (b.mul_vecS s.ops y) (· = (List.range b.rows).map fun i => ∑ k ∈ Finset.range b.cols, b.entry i k * y.getD k 0) ∧
    OrOverflows (coo_todenseS s.ops c.rows c.cols c.values.length c.rowidx c.colidx c.values z fortran) fun r => r.length = z.length ∧
      (∀ i < c.rows, ∀ j < c.cols, r[flatIdx c.rows c.cols fortran i j]? =
        z[flatIdx c.rows c.cols fortran i j]?.map (· + c.entry i j)) ∧
      ∀ k, c.rows * c.cols ≤ k → r[k]? = z[k]? := by
  have ho := s.ops_exact
  refine ⟨?_, ?_, (coo_todense_sc ho ..).orOverflows (C06_coo_todense_kernel t c hc z fortran hz)⟩
  · have := CSR_mul_vec_sc ho a x
    rw [(C11_csr_mul_vec t a ha x).2 hx] at this
    exact this.eqOrOverflows
  · have := CSC_mul_vec_sc ho b y
    rw [(C12_csc_mul_vec t b hb y).2 hy] at this
    exact this.eqOrOverflows

example : (coo_todenseS IntTy.i8.ops 2 3 2 [1, 1] [2, 2] [100, 27] [0, 0, 0, 0, 0, 0] true = .ok [0, 0, 0, 0, 0, 127]) ∧
    (coo_todenseS IntTy.i8.ops 2 3 2 [1, 1] [2, 2] [100, 28] [0, 0, 0, 0, 0, 0] true = .error (.panic .arith)) := by
  decide +kernel

/-- **C75**: updates and conversions of hash matrices have the outcome they have over the integers (C30–C33), or panic -/
theorem C75_dok (d : DoK Int) (i j v : Int) (es : KMap Int) :
    SameOrArith (d.addS s.ops t i j v) (d.add t i j v) ∧ SameOrArith (d.subS s.ops t i j v) (d.sub t i j v) ∧
    SameOrArith (d.to_csrS s.ops t es) (d.to_csr t es) ∧ SameOrArith (d.to_cscS s.ops t es) (d.to_csc t es) :=
  have ho := s.ops_exact
  ⟨DoK_add_sc ho .., DoK_sub_sc ho .., DoK_to_csr_sc ho .., DoK_to_csc_sc ho ..⟩

example : (⟨2, 2, [((0, 0), 100)]⟩ : DoK Int).addS IntTy.i8.ops .u8 0 0 27 = .ok (⟨2, 2, [((0, 0), 127)]⟩, true) ∧
    (⟨2, 2, [((0, 0), 100)]⟩ : DoK Int).addS IntTy.i8.ops .u8 0 0 28 = .error (.panic .arith) := by decide +kernel

/-! ### C75: division -/

theorem IntTy.div_same (s : IntTy) (d : Int) (a b : Int) :
    SameOrArith (s.ops.div a b) (.ok (if b = 0 then d else a.tdiv b)) := by
  unfold IntTy.ops
  dsimp only
  split
  · exact .inr rfl
  · exact s.arith_same _

theorem nodup_keys_unique {l : List (Int × Int)} (h : (l.map (·.1)).Nodup) {k v w : Int} (hv : (k, v) ∈ l) (hw : (k, w) ∈ l) : v = w := by
  induction l with
  | nil => cases hv
  | cons e l ih =>
    rw [List.map_cons, List.nodup_cons] at h
    rcases List.mem_cons.1 hv with rfl | hv'
    · rcases List.mem_cons.1 hw with hw | hw
      · cases hw; rfl
      · exact absurd (List.mem_map.2 ⟨_, hw, rfl⟩) h.1
    · rcases List.mem_cons.1 hw with rfl | hw
      · exact absurd (List.mem_map.2 ⟨_, hv', rfl⟩) h.1
      · exact ih h.2 hv' hw

/-- **C75**: element-wise division of integer matrices panics as soon as some position stored in either operand has no
non-zero divisor: in particular if the divisor stores nothing where the dividend does. -/
theorem C75_div_by_zero (a b : CSR Int) (cp cj : List Int) (cx : List Int) (h : BinIn t a b cp cj cx) {i k : Nat} (hi : i < a.rows)
    (hk : a.has i k ∨ b.has i k) (hz : b.entry i k = 0) :
    csr_div_csrS s.ops t a.rows a.cols a.rowptr a.colidx a.values b.rowptr b.colidx b.values cp cj cx = .error (.panic .arith) := by
  have key : ∀ d : Int, d ≠ 0 → ∀ p j x, csr_div_csrS s.ops t a.rows a.cols a.rowptr a.colidx a.values b.rowptr b.colidx b.values
      cp cj cx = .ok (p, j, x) → (⟨a.rows, a.cols, p, j, x⟩ : CSR Int).NoDup ∧
        ((k : Int), d) ∈ (⟨a.rows, a.cols, p, j, x⟩ : CSR Int).row i := by
    intro d hd p j x hrun
    obtain ⟨p', j', x', h1, -, -, -, ⟨h2, h3⟩, -⟩ := C17_binop t (fun u v : Int => if v = 0 then d else u.tdiv v) nzT a b h.ha h.hb h.hr h.hc
      h.fit cp cj cx h.cp h.cj h.cx
    have hs := csr_binop_csr_sc (o := s.ops) s.ops_exact t a.rows a.cols a.rowptr a.colidx a.values b.rowptr b.colidx b.values cp cj cx
      s.ops.div (s.div_same d) nzT
    rw [h1] at hs
    unfold csr_div_csrS at hrun
    rw [hrun] at hs
    rcases hs with hs | hs
    · cases hs
      exact ⟨h2, (h3 i hi k d).2 ⟨hk, by simp [hz], by simp [nzT, hd]⟩⟩
    · cases hs
  have hs := csr_binop_csr_sc (o := s.ops) s.ops_exact t a.rows a.cols a.rowptr a.colidx a.values b.rowptr b.colidx b.values cp cj cx
    s.ops.div (s.div_same 1) nzT
  rcases hs with hs | hs
  · obtain ⟨p, j, x, h1, -⟩ := C17_binop t (fun u v : Int => if v = 0 then 1 else u.tdiv v) nzT a b h.ha h.hb h.hr h.hc
      h.fit cp cj cx h.cp h.cj h.cx
    rw [h1] at hs
    obtain ⟨hnd, m1⟩ := key 1 (by decide) p j x hs
    obtain ⟨-, m2⟩ := key 2 (by decide) p j x hs
    have := nodup_keys_unique (hnd i hi) m1 m2
    cases this
  · exact hs

/-- `[6, 8] / [2, 0]`: the divisor stores nothing in the second column -/
example : BinIn .i8 (⟨1, 2, [0, 2], [0, 1], [6, 8]⟩ : CSR Int) ⟨1, 2, [0, 1], [0], [2]⟩ [0, 0] [0, 0, 0] ([0, 0, 0] : List Int) ∧
    (⟨1, 2, [0, 1], [0], [2]⟩ : CSR Int).entry 0 1 = 0 ∧
    csr_div_csrS IntTy.i8.ops .i8 1 2 [0, 2] [0, 1] [6, 8] [0, 1] [0] [2] [0, 0] [0, 0, 0] [0, 0, 0] = .error (.panic .arith) :=
  ⟨⟨CSR.wf_of (by decide), CSR.wf_of (by decide), rfl, rfl, by decide, rfl, by decide, by decide⟩, by decide, by decide +kernel⟩

/-- **C75**: with a non-zero divisor at every stored position, the quotients are rounded towards zero -/
theorem C75_div (a b : CSR Int) (cp cj : List Int) (cx : List Int) (h : BinIn t a b cp cj cx)
    (hz : ∀ i < a.rows, ∀ k, (a.has i k ∨ b.has i k) → b.entry i k ≠ 0) :
    OrOverflows (csr_div_csrS s.ops t a.rows a.cols a.rowptr a.colidx a.values b.rowptr b.colidx b.values cp cj cx) fun r =>
      (let c : CSR Int := ⟨a.rows, a.cols, r.1, r.2.1, r.2.2⟩
       c.WF t ∧ c.NoDup ∧ ∀ i < a.rows, ∀ (k : Nat) (v : Int), ((k : Int), v) ∈ c.row i ↔
         (a.has i k ∨ b.has i k) ∧ v = (a.entry i k).tdiv (b.entry i k) ∧ v ≠ 0) := by
  obtain ⟨p, j, x, h1, -, -, h4, ⟨h2, h3⟩, -⟩ := C17_binop t (fun u v : Int => if v = 0 then 1 else u.tdiv v) nzT a b h.ha h.hb h.hr h.hc
    h.fit cp cj cx h.cp h.cj h.cx
  refine (csr_binop_csr_sc (o := s.ops) s.ops_exact t a.rows a.cols a.rowptr a.colidx a.values b.rowptr b.colidx b.values cp cj cx
    s.ops.div (s.div_same 1) nzT).orOverflows ⟨_, h1, h4, h2, fun i hi k v => ?_⟩
  rw [h3 i hi k v]
  constructor
  · rintro ⟨g1, g2, g3⟩
    exact ⟨g1, by simp [g2, hz i hi k g1], by simpa [nzT] using g3⟩
  · rintro ⟨g1, g2, g3⟩
    exact ⟨g1, by simp [g2, hz i hi k g1], by simpa [nzT] using g3⟩

/-- `[7, -8] / [2, 3]` is `[3, -2]`; `[-128] / [-1]` is not an `i8` -/
example : csr_div_csrS IntTy.i8.ops .i8 1 2 [0, 2] [0, 1] [7, -8] [0, 2] [0, 1] [2, 3] [0, 0] [0, 0, 0, 0] [0, 0, 0, 0] =
      .ok ([0, 2], [0, 1, 0, 0], [3, -2, 0, 0]) ∧
    csr_div_csrS IntTy.i8.ops .i8 1 1 [0, 1] [0] [-128] [0, 1] [0] [-1] [0, 0] [0, 0] [0, 0] = .error (.panic .arith) := by
  decide +kernel

/-- **C75**: every expression has the outcome it has over the integers, or the program panics -/
theorem C75_expressions {f : Fmt} (e : Expr Int f) : SameOrArith (e.evalS s.ops t) (e.eval t) := e.evalS_sc s.ops_exact t

/-! ### C76: compositions -/

/-- **C76**, partial (C19, C20): a well-shaped expression of any size over integers is evaluated to the right matrix, or the
program panics because a number is not representable in the index type or in the scalar type. -/
theorem C76_compositions_partial {f : Fmt} (e : Expr Int f) (h : e.Shaped t) (hb : e.AvoidsCscSubScale) :
    (∃ r, e.evalS s.ops t = .ok r ∧ r.WF t ∧ r.rows = e.shape.1 ∧ r.cols = e.shape.2 ∧
      ∀ i j, r.entry i j = e.denote i j) ∨
    e.evalS s.ops t = .error (.panic .unwrap) ∨ e.evalS s.ops t = .error (.panic .arith) := by
  rcases e.evalS_sc s.ops_exact (t : IdxTy) with h' | h'
  · rw [h']; exact C70_right_or_overflow_partial e h hb
  · exact .inr (.inr h')

/-- **C76**, partial (C19, C20): if the sizes fit the index type, only the scalar type can overflow -/
theorem C76_fitting_compositions_partial {f : Fmt} (e : Expr Int f) (hf : e.Fits t) (hb : e.AvoidsCscSubScale) :
    OrOverflows (e.evalS s.ops t) fun r => r.WF t ∧ r.rows = e.shape.1 ∧ r.cols = e.shape.2 ∧
      ∀ i j, r.entry i j = e.denote i j :=
  (e.evalS_sc s.ops_exact (t : IdxTy)).orOverflows (C50_compositions_partial e hf hb)

/-- **C76**, partial (C19, C20): observed by `to_dense` -/
theorem C76_observed_partial {f : Fmt} (e : Expr Int f) (h : e.Shaped t) (hb : e.AvoidsCscSubScale) :
    let out := (e.evalS s.ops t) >>= fun r => r.to_denseS s.ops t
    out = .ok (dense e.shape.1 e.shape.2 e.denote) ∨ out = .error (.panic .unwrap) ∨ out = .error (.panic .arith) := by
  have hs : SameOrArith ((e.evalS s.ops t) >>= fun r => r.to_denseS s.ops t) ((e.eval t) >>= fun r => r.to_dense t) := by
    refine (e.evalS_sc s.ops_exact (t : IdxTy)).bind fun r => ?_
    cases f with
    | coo => exact Coo_to_dense_sc s.ops_exact r
    | csr => exact CSR_to_dense_sc s.ops_exact r
    | csc => exact CSC_to_dense_sc s.ops_exact t r
  rcases hs with h' | h'
  · dsimp only
    rw [h']
    exact C70_observed_partial e h hb
  · exact .inr (.inr h')

/-- negation of the full C76: a scalar multiple of a CSC matrix of `i8` values can be a wrong matrix without any overflow (C20) -/
theorem C76_csc_counterexample :
    let e : Expr Int .csc := .cscScale (.csc ⟨2, 1, [0, 1], [0, 2], [5, 7]⟩) 2
    e.Shaped .u8 ∧ ∃ r : CSC Int, e.evalS IntTy.i8.ops .u8 = .ok r ∧ r.entry 1 0 = 0 ∧ e.denote 1 0 = 14 :=
  ⟨⟨CSC.wf_of (by decide), by decide, by decide⟩, _, rfl, by decide, by decide⟩

/-- `(A + A) * A` for `A = diag(3, 8)`: the result `diag(18, 128)` does not fit `i8`; it fits `i16` -/
def exScalar : Expr Int .csr := .csrMul (.csrAdd (.csrDiag [3, 8]) (.csrDiag [3, 8])) (.csrDiag [3, 8])

example : exScalar.Shaped .u8 ∧ exScalar.AvoidsCscSubScale ∧ exScalar.evalS IntTy.i8.ops .u8 = .error (.panic .arith) ∧
    ((exScalar.evalS IntTy.i16.ops .u8).toOption.map fun (r : CSR Int) => (r.entry 0 0, r.entry 1 1)) = some (18, 128) := by
  refine ⟨?_, ?_, by decide +kernel, by decide +kernel⟩
  · simp [exScalar, Expr.Shaped, Expr.shape]
  · simp [exScalar, Expr.AvoidsCscSubScale]

end Sparse

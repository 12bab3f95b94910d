import Verif.Props.Mirror
import Verif.Props.Blocks
import Verif.Props.DiagLaws
import Verif.Props.Markov
import Verif.Lemmas.Usize
import Verif.Props.Ways
/-!
Laws of blocks, diagonals, powers and stochastic matrices (C98, C101, C102, C105, C109) for the column format. Most of them follow from those
of the row format because the two formats mirror each other (C108).
-/
open scoped BigOperators
namespace Sparse

section
variable {T : Type}

theorem Twins.right {m : M (CSR T)} {m' : M (CSC T)} {r : CSR T} (h : Twins m m') (hm : m = .ok r) : m' = .ok r.flip ∧ r.Checked := by
  obtain ⟨r', c, h1, h2, h3⟩ | ⟨e, e', h1, -⟩ := h
  · rw [hm] at h1
    cases h1
    obtain ⟨h4, rfl⟩ := CSR.transpose_iff.1 h3
    exact ⟨h2, h4⟩
  · rw [hm] at h1
    cases h1

theorem CSR.WF.checked {t : IntTy} {a : CSR T} (ha : a.WF t) : a.Checked := by
  refine ⟨ha.rep.len, _, ha.rep.ptr a.rows (le_refl _), ?_, ?_⟩
  · exact ha.rep.len_j
  · exact ha.rep.len_x

theorem CSR.flip_triples (a : CSR T) : a.flip.triples = a.triples.map fun e => (e.2.1, e.1, e.2.2) := by
  unfold CSC.triples CSR.triples
  rw [List.map_flatMap]
  simp only [List.map_map]
  rfl

theorem CSR.SameStored.flip [Zero T] [Add T] {t : IntTy} {r s : CSR T} (h : r.SameStored t s) (hr : r.Checked) (hs : s.Checked) :
    r.flip.SameStored t s.flip := by
  obtain ⟨h1, h2, r', s', h3, h4, h5, h6⟩ := h
  refine ⟨h2, h1, r'.flip, s'.flip, ((Twins.merge t r hr).right h3).1, ((Twins.merge t s hs).right h4).1, h5, ?_⟩
  rw [CSR.flip_triples, CSR.flip_triples, h6]

/-! ### C98 -/

/-- C98, column format: selecting rows and columns of a product. -/
theorem C98_csc_select_mul [NonUnitalNonAssocSemiring T] [DecidableEq T] (t : IntTy) (a b : CSC T) (ha : a.WF t) (hb : b.WF t)
    (hca : a.Canonical) (hcb : b.Canonical) (hd : b.rows = a.cols) (ri ci : List Int)
    (hri : ∀ i ∈ ri, 0 ≤ i ∧ i < (a.rows : Int)) (hci : ∀ j ∈ ci, 0 ≤ j ∧ j < (b.cols : Int))
    (hsa : (a.stored : Int) < t.hi) (hsb : (b.stored : Int) < t.hi)
    (d1 : (a.rows : Int) ≤ t.hi) (d2 : (a.cols : Int) ≤ t.hi) (d3 : (b.cols : Int) ≤ t.hi) (d4 : (ri.length : Int) ≤ t.hi + 1)
    (f1 : ((b.cols * a.rows : Nat) : Int) < t.hi) (f2 : ((ci.length * a.cols : Nat) : Int) ≤ t.hi)
    (f3 : ((a.cols * ri.length : Nat) : Int) ≤ t.hi) (f4 : ((ci.length * ri.length : Nat) : Int) < t.hi) :
    ∃ ab s q a' b' r, a.mul t b = .ok ab ∧ ab.sum_duplicates t = .ok s ∧ s.select t (some ri) (some ci) = .ok q ∧
      a.select t (some ri) none = .ok a' ∧ b.select t none (some ci) = .ok b' ∧ a'.mul t b' = .ok r ∧ r.SameStored t q := by
  obtain ⟨ab, s, q, b', a', r, h1, h2, h3, h4, h5, h6, h7⟩ := C98_select_mul t b.asCSR a.asCSR hb ha hcb hca hd ci ri hci hri hsb hsa
    d3 (by show ((b.rows : Nat) : Int) ≤ t.hi; omega) d1 d4 f1 (by show ((ci.length * b.rows : Nat) : Int) ≤ t.hi; rw [hd]; exact f2) f3 f4
  obtain ⟨g1, k1⟩ := (Twins.mul t b.asCSR a.asCSR).right h1
  obtain ⟨g2, k2⟩ := (Twins.merge t ab k1).right h2
  obtain ⟨g3, k3⟩ := (Twins.select t s _ _).right h3
  obtain ⟨g4, k4⟩ := (Twins.select t b.asCSR _ _).right h4
  obtain ⟨g5, k5⟩ := (Twins.select t a.asCSR _ _).right h5
  obtain ⟨g6, k6⟩ := (Twins.mul t b' a').right h6
  exact ⟨_, _, _, _, _, _, g1, g2, g3, g5, g4, g6, h7.flip k6 k3⟩

/-- C98, column format: selecting rows and columns of a sum. -/
theorem C98_csc_select_add [AddCommMonoid T] [DecidableEq T] (t : IntTy) (a b : CSC T) (ha : a.WF t) (hb : b.WF t)
    (hca : a.Canonical) (hcb : b.Canonical) (h1 : b.rows = a.rows) (h2 : b.cols = a.cols) (ri ci : List Int)
    (hri : ∀ i ∈ ri, 0 ≤ i ∧ i < (a.rows : Int)) (hci : ∀ j ∈ ci, 0 ≤ j ∧ j < (a.cols : Int))
    (d1 : (a.rows : Int) ≤ t.hi) (d2 : (a.cols : Int) ≤ t.hi) (d3 : (ri.length : Int) ≤ t.hi + 1)
    (f1 : ((a.stored + b.stored : Nat) : Int) < t.hi) (f2 : ((a.pickCount ri ci + b.pickCount ri ci : Nat) : Int) < t.hi) :
    ∃ ab q a' b' r, a.add_op t b = .ok ab ∧ ab.select t (some ri) (some ci) = .ok q ∧
      a.select t (some ri) (some ci) = .ok a' ∧ b.select t (some ri) (some ci) = .ok b' ∧ a'.add_op t b' = .ok r ∧ r.SameStored t q := by
  obtain ⟨ab, q, a', b', r, e1, e2, e3, e4, e5, e6⟩ := C98_select_add t a.asCSR b.asCSR ha hb hca hcb h2 h1 ci ri hci hri
    d2 d1 d3 f1 f2
  obtain ⟨g1, k1⟩ := (Twins.add t a.asCSR b.asCSR (CSR.WF.checked ha) (CSR.WF.checked hb)).right e1
  obtain ⟨g2, k2⟩ := (Twins.select t ab _ _).right e2
  obtain ⟨g3, k3⟩ := (Twins.select t a.asCSR _ _).right e3
  obtain ⟨g4, k4⟩ := (Twins.select t b.asCSR _ _).right e4
  obtain ⟨g5, k5⟩ := (Twins.add t a' b' k3 k4).right e5
  exact ⟨_, _, _, _, _, g1, g2, g3, g4, g5, e6.flip k5 k2⟩

/-- C98, column format: selecting from a selection. -/
theorem C98_csc_select_select [AddCommMonoid T] (t : IntTy) (a : CSC T) (ha : a.WF t) (hca : a.Canonical) (ri ci ri' ci' : List Int)
    (hri : ∀ i ∈ ri, 0 ≤ i ∧ i < (a.rows : Int)) (hci : ∀ j ∈ ci, 0 ≤ j ∧ j < (a.cols : Int))
    (hri' : ∀ i ∈ ri', 0 ≤ i ∧ i < (ri.length : Int)) (hci' : ∀ j ∈ ci', 0 ≤ j ∧ j < (ci.length : Int))
    (d1 : (a.rows : Int) ≤ t.hi) (d2 : (a.cols : Int) ≤ t.hi) (d3 : (ri.length : Int) ≤ t.hi) (d4 : (ci.length : Int) ≤ t.hi)
    (d5 : (ri'.length : Int) ≤ t.hi + 1) (f1 : (a.stored : Int) < t.hi) (f2 : ((ci.length * ri.length : Nat) : Int) < t.hi)
    (f3 : ((ci'.length * ri'.length : Nat) : Int) ≤ t.hi) :
    ∃ b c, a.select t (some ri) (some ci) = .ok b ∧ b.select t (some ri') (some ci') = .ok c ∧
      a.select t (some (ri'.map fun i => ri.getD i.toNat 0)) (some (ci'.map fun j => ci.getD j.toNat 0)) = .ok c := by
  obtain ⟨b, c, e1, e2, e3⟩ := C98_select_select t a.asCSR ha hca ci ri ci' ri' hci hri hci' hri' d2 d1 d4 d3 d5 f1 f2 f3
  exact ⟨_, _, ((Twins.select t a.asCSR _ _).right e1).1, ((Twins.select t b _ _).right e2).1, ((Twins.select t a.asCSR _ _).right e3).1⟩

theorem CSR.flip_diagonal [Zero T] [Add T] (a : CSR T) : a.flip.diagonal = a.diagonal := by
  unfold CSC.diagonal CSR.diagonal CSR.flip
  simp only
  rw [Nat.min_comm]

/-- C98, column format: diagonals of sums. -/
theorem C98_csc_diagonal [AddCommMonoid T] [DecidableEq T] (t : IntTy) (a b : CSC T) (ha : a.WF t) (hb : b.WF t)
    (h1 : b.rows = a.rows) (h2 : b.cols = a.cols) (f1 : ((a.stored + b.stored : Nat) : Int) < t.hi) :
    ∃ ab at' da db, a.add_op t b = .ok ab ∧ a.transpose = .ok at' ∧ a.diagonal = .ok da ∧ b.diagonal = .ok db ∧
      da.length = min a.rows a.cols ∧ db.length = min a.rows a.cols ∧
      ab.diagonal = .ok (da.zipWith (· + ·) db) ∧ at'.diagonal = .ok da := by
  obtain ⟨ab, at', da, db, e1, e2, e3, e4, e5, e6, e7, -⟩ := C98_diagonal t a.asCSR b.asCSR ha hb h2 h1 f1
  obtain ⟨g1, k1⟩ := (Twins.add t a.asCSR b.asCSR (CSR.WF.checked ha) (CSR.WF.checked hb)).right e1
  have hat : a.transpose = .ok a.asCSR := by
    unfold CSC.transpose
    exact congrArg unwrapR (CSR.WF.checked (a := a.asCSR) ha).new
  refine ⟨_, a.asCSR, da, db, g1, hat, (CSR.flip_diagonal a.asCSR).trans e3, (CSR.flip_diagonal b.asCSR).trans e4,
    e5.trans (Nat.min_comm _ _), e6.trans (Nat.min_comm _ _), (CSR.flip_diagonal ab).trans e7, e3⟩

/-! ### C101 -/

/-- C101, column format: the trace of a product does not depend on the order of the factors. -/
theorem C101_csc_trace [NonUnitalNonAssocCommSemiring T] [DecidableEq T] (t : IntTy) (a b : CSC T) (ha : a.WF t) (hb : b.WF t)
    (h1 : b.rows = a.cols) (h2 : b.cols = a.rows) (f1 : ((a.rows * a.rows : Nat) : Int) < t.hi)
    (f2 : ((a.cols * a.cols : Nat) : Int) < t.hi) :
    ∃ ab ba d e, a.mul t b = .ok ab ∧ b.mul t a = .ok ba ∧ ab.diagonal = .ok d ∧ ba.diagonal = .ok e ∧ d.sum = e.sum := by
  obtain ⟨ba, ab, d, e, e1, e2, e3, e4, e5⟩ := C101_trace t a.asCSR b.asCSR ha hb h2.symm h1 f2 f1
  exact ⟨_, _, e, d, ((Twins.mul t b.asCSR a.asCSR).right e2).1, ((Twins.mul t a.asCSR b.asCSR).right e1).1,
    (CSR.flip_diagonal ab).trans e4, (CSR.flip_diagonal ba).trans e3, e5.symm⟩

theorem CSC.with_diagonal_flip {t : IdxTy} {d : List T} {a : CSR T} (h : CSR.with_diagonal t d = .ok a) : CSC.with_diagonal t d = .ok a.flip := by
  unfold CSR.with_diagonal at h
  obtain ⟨p, hp, h⟩ := bind_okM h
  obtain ⟨j, hj, h⟩ := bind_okM h
  cases h
  unfold CSC.with_diagonal
  dsimp only
  rw [hj, hp]
  rfl

/-- C101, column format: products of diagonal matrices. -/
theorem C101_csc_diagonal_mul [NonUnitalNonAssocSemiring T] [DecidableEq T] (t : IntTy) (d e : List T) (hl : d.length = e.length)
    (hf : ((d.length * d.length : Nat) : Int) < t.hi) (h : (d.length : Int) ≤ t.hi) :
    ∃ a b p, CSC.with_diagonal t d = .ok a ∧ CSC.with_diagonal t e = .ok b ∧ b.mul t a = .ok p ∧
      (∀ i j, i ≠ j → p.entry i j = 0) ∧ p.diagonal = .ok (d.zipWith (· * ·) e) := by
  obtain ⟨a, b, p, h1, h2, h3, h4, h5⟩ := C101_diagonal_mul t d e hl hf h
  exact ⟨_, _, _, CSC.with_diagonal_flip h1, CSC.with_diagonal_flip h2, ((Twins.mul t a b).right h3).1, fun i j hij => h4 j i (Ne.symm hij),
    (CSR.flip_diagonal p).trans h5⟩

/-! ### C102 -/

/-- the program run with the operations of the column format: `with_diagonal` of ones, the matrix, `*` -/
def PowProg.runCsc [Zero T] [One T] [Add T] [Mul T] [DecidableEq T] (t : IntTy) (a : CSC T) : PowProg → M (CSC T)
  | .one => CSC.with_diagonal t (List.replicate a.rows 1)
  | .base => .ok a
  | .mul p q => do
    let x ← p.runCsc t a
    let y ← q.runCsc t a
    x.mul t y

/-- `A * (A * (… * x))`, with `k` calls of `mat_vec` -/
def CSC.applyTimes [Zero T] [Add T] [Mul T] (a : CSC T) : Nat → List T → M (List T)
  | 0, x => .ok x
  | k + 1, x => do
    let y ← a.applyTimes k x
    a.mat_vec y

/-- the matrix denoted by `a`, as an `n` by `n` matrix of Mathlib -/
def CSC.toMatrix [AddCommMonoid T] (a : CSC T) (n : Nat) : Matrix (Fin n) (Fin n) T := fun i j => a.entry i j

theorem CSC.mul_facts' [NonUnitalNonAssocCommSemiring T] [DecidableEq T] {t : IntTy} {a b : CSC T} (ha : a.WF t) (hb : b.WF t)
    (hd : b.rows = a.cols) (hf : ((a.rows * b.cols : Nat) : Int) ≤ t.hi) :
    ∃ r, a.mul t b = .ok r ∧ r.WF t ∧ r.rows = a.rows ∧ r.cols = b.cols ∧
      (∀ i k, r.entry i k = ∑ j ∈ Finset.range a.cols, a.entry i j * b.entry j k) ∧ r.NoDup ∧ ∀ k < b.cols, ∀ e ∈ r.col k, e.2 ≠ 0 := by
  have h1 : a.productSlots b ≤ a.rows * b.cols := by
    rw [CSC.productSlots_asCSR, Nat.mul_comm]
    exact C13_slots_le b.asCSR a.asCSR
  obtain ⟨r, -, r1, r2, r3, r4, r5, r6, r7, -⟩ := C14_csc_mat_mat t a b ha hb hd (by omega)
  exact ⟨r, r1, r2, r3, r4, r5, r6, r7⟩

/-- C102, column format: whatever the order in which the factors are multiplied, the result is the power. -/
theorem C102_csc_power [CommSemiring T] [DecidableEq T] (t : IntTy) (a : CSC T) (ha : a.WF t) (hsq : a.rows = a.cols)
    (hf : ((a.rows * a.rows : Nat) : Int) < t.hi) (p : PowProg) :
    ∃ r, p.runCsc t a = .ok r ∧ r.WF t ∧ r.rows = a.rows ∧ r.cols = a.rows ∧ r.toMatrix a.rows = a.toMatrix a.rows ^ p.exponent := by
  induction p with
  | one =>
    obtain ⟨r, h1, h2, -, h3, h4, h5, -⟩ := C47_csr_with_diagonal t (List.replicate a.rows (1 : T)) (by
      rw [List.length_replicate]
      have : a.rows ≤ a.rows * a.rows := Nat.le_mul_self _
      omega)
    refine ⟨r.flip, CSC.with_diagonal_flip h1, h2, h4.trans (List.length_replicate ..), h3.trans (List.length_replicate ..), ?_⟩
    have := CSR.toMatrix_one h5
    ext i j
    show r.entry j i = _
    rw [show r.entry j i = r.toMatrix a.rows j i from rfl, this, show PowProg.one.exponent = 0 from rfl, pow_zero, Matrix.one_apply, Matrix.one_apply]
    simp only [eq_comm]
  | base => exact ⟨a, rfl, ha, rfl, hsq.symm, (pow_one _).symm⟩
  | mul p q hp hq =>
    obtain ⟨x, x1, x2, x3, x4, x5⟩ := hp
    obtain ⟨y, y1, y2, y3, y4, y5⟩ := hq
    obtain ⟨r, r1, r2, r3, r4, r5, -⟩ := CSC.mul_facts' x2 y2 (by omega) (by rw [x3, y4]; omega)
    refine ⟨r, ?_, r2, by omega, by omega, ?_⟩
    · show (do let x ← p.runCsc t a; let y ← q.runCsc t a; x.mul t y) = _
      rw [x1, y1]
      exact r1
    · rw [x4] at r5
      rw [show (PowProg.mul p q).exponent = p.exponent + q.exponent from rfl, pow_add, ← x5, ← y5]
      ext i k
      rw [Matrix.mul_apply]
      show r.entry i k = _
      rw [r5, Finset.sum_range]
      rfl

/-- C102, column format: `k` matrix-vector products multiply by the `k`-th power. -/
theorem C102_csc_apply [CommSemiring T] [DecidableEq T] (t : IntTy) (a : CSC T) (ha : a.WF t) (hsq : a.rows = a.cols)
    (hf : ((a.rows * a.rows : Nat) : Int) < t.hi) (p : PowProg) (x : List T) (hx : x.length = a.rows) :
    ∃ r y, p.runCsc t a = .ok r ∧ r.mat_vec x = .ok y ∧ a.applyTimes p.exponent x = .ok y := by
  obtain ⟨r, r1, r2, r3, r4, r5⟩ := C102_csc_power t a ha hsq hf p
  have key : ∀ k, a.applyTimes k x = .ok ((List.range a.rows).map fun i =>
      if h : i < a.rows then ∑ m : Fin a.rows, (a.toMatrix a.rows ^ k) ⟨i, h⟩ m * x.getD m 0 else 0) := by
    intro k
    induction k with
    | zero =>
      show Except.ok x = _
      congr 1
      refine List.ext_getElem (by simp [hx]) fun i h1 h2 => ?_
      have hi : i < a.rows := by simpa using h2
      simp [hi, Matrix.one_apply, h1]
    | succ k ih =>
      show (do let y ← a.applyTimes k x; a.mat_vec y) = _
      rw [ih]
      refine ((C12_csc_mat_vec t a ha _).2 (by simp [hsq])).trans ?_
      congr 1
      refine List.map_congr_left fun i hi => ?_
      have hi : i < a.rows := by simpa using hi
      rw [dif_pos hi, ← hsq, Finset.sum_range]
      simp only [pow_succ', Matrix.mul_apply, Finset.sum_mul]
      rw [Finset.sum_comm]
      refine Finset.sum_congr rfl fun m _ => ?_
      rw [List.getD_eq_getElem _ _ (by simp [m.2])]
      simp only [List.getElem_map, List.getElem_range, m.2, dite_true, Finset.mul_sum, mul_assoc]
      rfl
  refine ⟨r, _, r1, (C12_csc_mat_vec t r r2 x).2 (by omega), (key _).trans ?_⟩
  congr 1
  rw [r3]
  refine List.map_congr_left fun i hi => ?_
  have hi : i < a.rows := by simpa using hi
  rw [dif_pos hi, r4, Finset.sum_range, ← r5]
  rfl

/-! ### C105 -/

/-- C105, column format: reading a matrix as a dense one, by products with unit vectors and by its diagonal, and through the row format. -/
theorem C105_csc_read [Semiring T] (t : IntTy) (a : CSC T) (ha : a.WF t) (hc : (a.cols : Int) ≤ t.hi + 1) :
    ∃ D r, a.to_dense t = .ok D ∧ D.length = a.rows ∧ (∀ r ∈ D, r.length = a.cols) ∧ a.to_csr t = .ok r ∧ r.to_dense = .ok D ∧
      (∀ j < a.cols, a.mat_vec (unitVec a.cols j) = .ok (D.map fun r => r.getD j 0)) ∧
      a.diagonal = .ok ((List.range (min a.rows a.cols)).map fun i => (D.getD i []).getD i 0) := by
  have hD : ∀ i j, i < a.rows → j < a.cols → ((dense a.rows a.cols a.entry).getD i []).getD j 0 = a.entry i j := by
    intro i j hi hj
    simp [dense, List.getD, hi, hj]
  obtain ⟨r, r1, r2, r3, r4, r5, -⟩ := C04_csc_to_csr t a ha hc
  have hd := C06_csc_to_dense t a ha hc
  refine ⟨_, r, hd, by simp [dense], by simp [dense], r1, ?_, ?_, ?_⟩
  · unfold CSC.to_dense at hd
    rw [r1] at hd
    exact hd
  · intro j hj
    rw [(C12_csc_mat_vec t a ha _).2 (by simp [unitVec])]
    congr 1
    refine List.ext_getElem (by simp [dense]) fun i h1 h2 => ?_
    simp only [List.length_map, List.length_range] at h1
    simp only [List.getElem_map, List.getElem_range, dense]
    rw [Finset.sum_eq_single_of_mem j (Finset.mem_range.2 hj)]
    · simp [unitVec, List.getD, hj]
    · intro k hk hkj
      simp [unitVec, List.getD, Finset.mem_range.1 hk, hkj]
  · rw [C24_csc_diagonal t a ha]
    congr 1
    refine List.map_congr_left fun i hi => ?_
    rw [List.mem_range] at hi
    exact (hD i i (by omega) (by omega)).symm

/-! ### C109 -/

/-- every entry is nonnegative and every column sums to 1 -/
def CSC.Stochastic [Semiring T] [LE T] (a : CSC T) : Prop :=
  (∀ i j, 0 ≤ a.entry i j) ∧ ∀ j < a.cols, ∑ i ∈ Finset.range a.rows, a.entry i j = 1

/-- C109, column format: products of matrices whose columns are distributions. -/
theorem C109_csc_product [CommSemiring T] [PartialOrder T] [IsOrderedRing T] [DecidableEq T] (t : IntTy) (a b : CSC T) (ha : a.WF t) (hb : b.WF t)
    (hd : b.rows = a.cols) (hf : ((b.cols * a.rows : Nat) : Int) ≤ t.hi) (sa : a.Stochastic) (sb : b.Stochastic) :
    ∃ r, a.mul t b = .ok r ∧ r.WF t ∧ r.Stochastic ∧ ∀ j < r.cols, ∀ e ∈ r.col j, 0 < e.2 := by
  obtain ⟨r, r1, r2, r3, r4⟩ := C109_product t b.asCSR a.asCSR hb ha hd hf ⟨fun i j => sb.1 j i, sb.2⟩ ⟨fun i j => sa.1 j i, sa.2⟩
  exact ⟨r.flip, ((Twins.mul t b.asCSR a.asCSR).right r1).1, r2, ⟨fun i j => r3.1 j i, r3.2⟩, r4⟩

/-- C109, column format: one step of the chain. `A * x` is a distribution if `x` is one. -/
theorem C109_csc_step [Semiring T] [PartialOrder T] [IsOrderedRing T] (t : IntTy) (a : CSC T) (ha : a.WF t) (sa : a.Stochastic) (x : List T)
    (hx : x.length = a.cols) (dx : IsDistribution x) : ∃ y, a.mat_vec x = .ok y ∧ y.length = a.rows ∧ IsDistribution y := by
  obtain ⟨b, y, h1, h2, h3, h4⟩ := C109_step t a.asCSR ha ⟨fun i j => sa.1 j i, sa.2⟩ x hx dx
  obtain ⟨-, rfl⟩ := CSR.transpose_iff.1 h1
  exact ⟨y, h2, h3, h4⟩

/-- C109, column format: any number of steps. The chain stays a distribution, and the steps are the power of the matrix. -/
theorem C109_csc_chain [CommSemiring T] [PartialOrder T] [IsOrderedRing T] [DecidableEq T] (t : IntTy) (a : CSC T) (ha : a.WF t) (hsq : a.rows = a.cols)
    (hf : ((a.rows * a.rows : Nat) : Int) < t.hi) (sa : a.Stochastic) (p : PowProg) (x : List T) (hx : x.length = a.rows)
    (dx : IsDistribution x) : ∃ r y, p.runCsc t a = .ok r ∧ r.mat_vec x = .ok y ∧ a.applyTimes p.exponent x = .ok y ∧ IsDistribution y := by
  obtain ⟨r, y, h1, h2, h3⟩ := C102_csc_apply t a ha hsq hf p x hx
  refine ⟨r, y, h1, h2, h3, ?_⟩
  have key : ∀ k, ∃ y, a.applyTimes k x = .ok y ∧ y.length = a.rows ∧ IsDistribution y := by
    intro k
    induction k with
    | zero => exact ⟨x, rfl, hx, dx⟩
    | succ k ih =>
      obtain ⟨y, y1, y2, y3⟩ := ih
      obtain ⟨z, z1, z2, z3⟩ := C109_csc_step t a ha sa y (by omega) y3
      refine ⟨z, ?_, z2, z3⟩
      show (do let y ← a.applyTimes k x; a.mat_vec y) = _
      rw [y1]
      exact z1
  obtain ⟨y', e1, -, e3⟩ := key p.exponent
  rw [h3] at e1
  cases e1
  exact e3

/-! ### Examples -/

/-- columns (1/2, 1/2) and (1/4, 3/4) -/
def exColumns : CSC ℚ := ⟨2, 2, [0, 1, 0, 1], [0, 2, 4], [1/2, 1/2, 1/4, 3/4]⟩

theorem exColumns_stochastic : exColumns.Stochastic := by
  have hw : exColumns.asCSR.WF .i8 := CSR.wf_of (by decide)
  refine ⟨fun i j => ?_, by decide +kernel⟩
  exact CSR.entry_nonneg (a := exColumns.asCSR) (by decide +kernel) (by decide) j i

example : exColumns.WF .i8 ∧ exColumns.Canonical ∧ exColumns.rows = exColumns.cols ∧ ((exColumns.rows * exColumns.rows : Nat) : Int) < IntTy.i8.hi ∧
    exColumns.Stochastic ∧ IsDistribution [(1 : ℚ), 0] ∧ exColumns.mat_vec [1, 0] = .ok [1/2, 1/2] ∧
    exColumns.applyTimes 2 [1, 0] = .ok [3/8, 5/8] ∧
    (do (← PowProg.runCsc .i8 exColumns (.mul .base (.mul .one .base))).mat_vec [1, 0]) = .ok [3/8, 5/8] :=
  ⟨CSC.wf_of (by decide), by unfold CSC.Canonical; decide, rfl, by decide, exColumns_stochastic, ⟨by decide +kernel, by decide +kernel⟩, by decide +kernel,
    by decide +kernel, by decide +kernel⟩

/-- a 2 by 3 matrix and a 3 by 2 matrix, and the hypotheses of C98 and C101 -/
def exColTall : CSC Int := ⟨2, 3, [0, 1, 0, 1], [0, 2, 3, 4], [1, 2, 3, 4]⟩
def exColWide : CSC Int := ⟨3, 2, [0, 2, 1], [0, 2, 3], [5, 6, 7]⟩

example : exColTall.WF .i8 ∧ exColWide.WF .i8 ∧ exColTall.Canonical ∧ exColWide.Canonical ∧ exColWide.rows = exColTall.cols ∧ exColWide.cols = exColTall.rows ∧
    (∀ i ∈ [(1 : Int), 0], 0 ≤ i ∧ i < (exColTall.rows : Int)) ∧ (∀ j ∈ [(1 : Int)], 0 ≤ j ∧ j < (exColWide.cols : Int)) ∧
    ((exColWide.cols * exColTall.rows : Nat) : Int) < IntTy.i8.hi ∧ ((exColTall.cols * exColTall.cols : Nat) : Int) < IntTy.i8.hi ∧
    ((exColTall.stored + exColTall.stored : Nat) : Int) < IntTy.i8.hi ∧
    (do (← (← exColTall.select .i8 (some [1, 0]) none).mul .i8 (← exColWide.select .i8 none (some [1]))).to_dense .i8) = .ok [[0], [21]] ∧
    (do (← exColTall.mul .i8 exColWide).diagonal) = .ok [5, 0] ∧ (do (← exColWide.mul .i8 exColTall).diagonal) = .ok [5, 0, 0] ∧
    (do (← exColTall.add_op .i8 exColTall).diagonal) = .ok [2, 0] ∧
    exColTall.to_dense .i8 = .ok [[1, 3, 0], [2, 0, 4]] ∧ exColTall.mat_vec (unitVec 3 1) = .ok [3, 0] :=
  ⟨CSC.wf_of (by decide), CSC.wf_of (by decide), by unfold CSC.Canonical; decide, by unfold CSC.Canonical; decide, rfl, rfl, by decide, by decide,
    by decide, by decide, by decide, by decide +kernel, by decide +kernel, by decide +kernel, by decide +kernel, by decide +kernel,
    by decide +kernel⟩

end
end Sparse

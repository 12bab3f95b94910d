import Verif.Props.GraphLaws
import Verif.Props.DiagLaws
import Mathlib.Data.Matrix.Mul
import Mathlib.LinearAlgebra.Matrix.Defs
import Mathlib.Algebra.BigOperators.Fin
import Mathlib.Algebra.Order.BigOperators.Group.Finset
/-!
C102: powers of a square matrix. Whatever the order of the multiplications, the product is the power; the powers of an
adjacency matrix count walks and agree with the graph searches.
-/
namespace Sparse

section
variable {T : Type}

/-- A program that multiplies copies of a matrix: the identity, the matrix, the product of two results. -/
inductive PowProg
  | one
  | base
  | mul (p q : PowProg)

/-- the number of factors -/
def PowProg.exponent : PowProg → Nat
  | .one => 0
  | .base => 1
  | .mul p q => p.exponent + q.exponent

/-- The program run with the operations of the crate: `with_diagonal` of ones, the matrix, `*`. -/
def PowProg.run [Zero T] [One T] [Add T] [Mul T] [DecidableEq T] (t : IntTy) (a : CSR T) : PowProg → M (CSR T)
  | .one => CSR.with_diagonal t (List.replicate a.rows 1)
  | .base => .ok a
  | .mul p q => do
    let x ← p.run t a
    let y ← q.run t a
    x.mul t y

/-- `A * (A * (… * x))`, with `k` calls of `mat_vec` -/
def CSR.applyTimes [Zero T] [Add T] [Mul T] (a : CSR T) : Nat → List T → M (List T)
  | 0, x => .ok x
  | k + 1, x => do
    let y ← a.applyTimes k x
    a.mat_vec y

/-- the matrix denoted by `a`, as an `n` by `n` matrix of Mathlib -/
def CSR.toMatrix [AddCommMonoid T] (a : CSR T) (n : Nat) : Matrix (Fin n) (Fin n) T := fun i j => a.entry i j

/-- `w` is a walk of `k` edges from `i` to `j`: `k + 1` nodes, each joined to the next by a stored position -/
def CSR.IsWalk (a : CSR T) (k i j : Nat) (w : List Nat) : Prop :=
  w.length = k + 1 ∧ w.head? = some i ∧ w.getLast? = some j ∧ w.IsChain a.has

theorem CSR.toMatrix_mul [NonUnitalNonAssocSemiring T] {a b r : CSR T} {n : Nat}
    (h : ∀ i k, r.entry i k = ∑ j ∈ Finset.range n, a.entry i j * b.entry j k) : r.toMatrix n = a.toMatrix n * b.toMatrix n := by
  ext i k
  rw [Matrix.mul_apply]
  show r.entry i k = _
  rw [h, Finset.sum_range]
  rfl

theorem CSR.toMatrix_one [NonAssocSemiring T] {a : CSR T} {n : Nat} (h : ∀ i j, a.entry i j = diagEntry (List.replicate n (1 : T)) i j) :
    a.toMatrix n = 1 := by
  ext i j
  show a.entry i j = _
  rw [h, Matrix.one_apply]
  by_cases hij : i = j
  · subst hij
    simp [diagEntry, i.2]
  · simp [diagEntry, hij, Fin.val_inj]

/-- C102: whatever the order in which the factors are multiplied, the result is the power. -/
theorem C102_power [Semiring T] [DecidableEq T] (t : IntTy) (a : CSR T) (ha : a.WF t) (hsq : a.rows = a.cols)
    (hf : ((a.rows * a.rows : Nat) : Int) < t.hi) (p : PowProg) :
    ∃ r, p.run t a = .ok r ∧ r.WF t ∧ r.rows = a.rows ∧ r.cols = a.rows ∧ r.toMatrix a.rows = a.toMatrix a.rows ^ p.exponent := by
  induction p with
  | one =>
    obtain ⟨r, h1, h2, -, h3, h4, h5, -⟩ := C47_csr_with_diagonal t (List.replicate a.rows (1 : T)) (by
      rw [List.length_replicate]
      have : a.rows ≤ a.rows * a.rows := Nat.le_mul_self _
      omega)
    refine ⟨r, h1, h2, by simpa using h3, by simpa using h4, ?_⟩
    rw [CSR.toMatrix_one h5]
    exact (pow_zero _).symm
  | base => exact ⟨a, rfl, ha, rfl, hsq.symm, (pow_one _).symm⟩
  | mul p q hp hq =>
    obtain ⟨x, x1, x2, x3, x4, x5⟩ := hp
    obtain ⟨y, y1, y2, y3, y4, y5⟩ := hq
    obtain ⟨r, r1, r2, r3, r4, r5, -⟩ := CSR.mul_facts x2 y2 (by omega) (by rw [x3, y4]; exact hf)
    refine ⟨r, ?_, r2, by omega, by omega, ?_⟩
    · show (do let x ← p.run t a; let y ← q.run t a; x.mul t y) = _
      rw [x1, y1]
      exact r1
    · rw [x4] at r5
      rw [CSR.toMatrix_mul r5, x5, y5]
      exact (pow_add _ _ _).symm

/-- C102: two ways of multiplying the same number of factors give the same matrix. -/
theorem C102_order [Semiring T] [DecidableEq T] (t : IntTy) (a : CSR T) (ha : a.WF t) (hsq : a.rows = a.cols)
    (hf : ((a.rows * a.rows : Nat) : Int) < t.hi) (p q : PowProg) (h : p.exponent = q.exponent) :
    ∃ r s, p.run t a = .ok r ∧ q.run t a = .ok s ∧ r.to_dense = s.to_dense := by
  obtain ⟨r, r1, r2, r3, r4, r5⟩ := C102_power t a ha hsq hf p
  obtain ⟨s, s1, s2, s3, s4, s5⟩ := C102_power t a ha hsq hf q
  refine ⟨r, s, r1, s1, ?_⟩
  rw [C06_csr_to_dense t r r2, C06_csr_to_dense t s s2, r3, r4, s3, s4]
  congr 1
  unfold dense
  refine List.map_congr_left fun i hi => List.map_congr_left fun j hj => ?_
  rw [List.mem_range] at hi hj
  have := congrFun (congrFun (r5.trans (h ▸ s5.symm)) ⟨i, hi⟩) ⟨j, hj⟩
  exact this

/-- C102: `k` matrix-vector products multiply by the `k`-th power. -/
theorem C102_apply [Semiring T] [DecidableEq T] (t : IntTy) (a : CSR T) (ha : a.WF t) (hsq : a.rows = a.cols)
    (hf : ((a.rows * a.rows : Nat) : Int) < t.hi) (p : PowProg) (x : List T) (hx : x.length = a.rows) :
    ∃ r y, p.run t a = .ok r ∧ r.mat_vec x = .ok y ∧ a.applyTimes p.exponent x = .ok y := by
  obtain ⟨r, r1, r2, r3, r4, r5⟩ := C102_power t a ha hsq hf p
  have hy := (C11_csr_mat_vec t r r2 x).2 (by omega)
  refine ⟨r, _, r1, hy, ?_⟩
  have key : ∀ k, a.applyTimes k x = .ok (List.ofFn ((a.toMatrix a.rows ^ k).mulVec fun i => x.getD i 0)) := by
    intro k
    induction k with
    | zero =>
      show Except.ok x = _
      congr 1
      apply List.ext_getElem
      · simp [hx]
      · intro i h1 h2
        simp only [pow_zero, Matrix.one_mulVec, List.getElem_ofFn]
        simp [h1]
    | succ k ih =>
      show (do let y ← a.applyTimes k x; a.mat_vec y) = _
      rw [ih]
      show a.mat_vec _ = _
      rw [(C11_csr_mat_vec t a ha _).2 (by simp [hsq]), pow_succ', ← Matrix.mulVec_mulVec]
      congr 1
      apply List.ext_getElem
      · simp
      · intro i h1 h2
        rw [List.getElem_map, List.getElem_range, List.getElem_ofFn, ← hsq, Finset.sum_range]
        unfold Matrix.mulVec dotProduct
        refine Finset.sum_congr rfl fun m _ => ?_
        rw [List.getD_eq_getElem?_getD, List.getElem?_ofFn]
        simp only [m.2, dif_pos]
        rfl
  rw [key]
  congr 1
  apply List.ext_getElem
  · simp [r3]
  · intro i h1 h2
    rw [List.getElem_map, List.getElem_range, List.getElem_ofFn, r4, Finset.sum_range]
    simp only [← r5]
    rfl

theorem CSR.WF.walk_lt {t : IntTy} {a : CSR T} (ha : a.WF t) (hsq : a.rows = a.cols) {w : List Nat} {i : Nat} (hi : i < a.rows)
    (hh : w.head? = some i) (hc : w.IsChain a.has) : ∀ v ∈ w, v < a.rows := by
  induction w generalizing i with
  | nil => simp
  | cons u w ih =>
    obtain rfl : u = i := by simpa using hh
    intro v hv
    rcases List.mem_cons.1 hv with rfl | hv
    · exact hi
    · cases w with
      | nil => cases hv
      | cons m w =>
        rw [List.isChain_cons_cons] at hc
        have := (ha.has_bounds hc.1).2
        exact ih (by omega : m < a.rows) rfl hc.2 v hv

theorem CSR.isWalk_zero {a : CSR T} {i j : Nat} {w : List Nat} : a.IsWalk 0 i j w ↔ i = j ∧ w = [i] := by
  constructor
  · rintro ⟨h1, h2, h3, -⟩
    obtain ⟨u, rfl⟩ := List.length_eq_one_iff.1 h1
    simp at h2 h3
    exact ⟨by omega, by rw [h2]⟩
  · rintro ⟨rfl, rfl⟩
    exact ⟨rfl, rfl, rfl, by simp⟩

theorem CSR.isWalk_succ {a : CSR T} {k i j : Nat} {w : List Nat} :
    a.IsWalk (k + 1) i j w ↔ ∃ m w', a.IsWalk k i m w' ∧ a.has m j ∧ w = w' ++ [j] := by
  constructor
  · rintro ⟨h1, h2, h3, h4⟩
    rcases List.eq_nil_or_concat w with rfl | ⟨w', u, rfl⟩
    · simp at h1
    rw [List.concat_eq_append] at *
    obtain rfl : u = j := by simpa using h3
    have hl : w'.length = k + 1 := by simpa using h1
    have hne : w' ≠ [] := by rintro rfl; simp at hl
    rw [List.isChain_append] at h4
    refine ⟨w'.getLast hne, w', ⟨hl, ?_, List.getLast?_eq_some_getLast hne, h4.1⟩, ?_, rfl⟩
    · rw [List.head?_append_of_ne_nil _ hne] at h2
      exact h2
    · exact h4.2.2 _ (by rw [List.getLast?_eq_some_getLast hne]; rfl) _ (by simp)
  · rintro ⟨m, w', ⟨h1, h2, h3, h4⟩, h5, rfl⟩
    have hne : w' ≠ [] := by rintro rfl; simp at h1
    refine ⟨by simp [h1], ?_, by simp, ?_⟩
    · rw [List.head?_append_of_ne_nil _ hne]
      exact h2
    · rw [List.isChain_append]
      refine ⟨h4, by simp, fun x hx y hy => ?_⟩
      rw [h3] at hx
      obtain rfl : m = x := by simpa using hx
      obtain rfl : j = y := by simpa using hy
      exact h5

theorem CSR.entry_of_not_has [AddCommMonoid T] {a : CSR T} {i j : Nat} (h : ¬ a.has i j) : a.entry i j = 0 := by
  unfold CSR.entry rowSum
  rw [List.filter_eq_nil_iff.2]
  · rfl
  · intro e he h2
    have h2 : e.1 = (j : Int) := by simpa using h2
    exact h ⟨e.2, by rw [← h2]; exact he⟩

/-- C102: if the stored values are ones and no position is stored twice, entry `(i, j)` of the `k`-th power is the number of walks
of `k` edges from `i` to `j`. -/
theorem C102_walks [Semiring T] [DecidableEq T] (t : IntTy) (a : CSR T) (ha : a.WF t) (hsq : a.rows = a.cols)
    (hf : ((a.rows * a.rows : Nat) : Int) < t.hi) (hd : a.NoDup) (h1 : ∀ i < a.rows, ∀ e ∈ a.row i, e.2 = 1) (p : PowProg) :
    ∃ r, p.run t a = .ok r ∧ ∀ i < a.rows, ∀ j < a.rows, ∃ W : Finset (List Nat),
      (∀ w, w ∈ W ↔ a.IsWalk p.exponent i j w) ∧ r.entry i j = (W.card : T) := by
  classical
  obtain ⟨r, r1, r2, r3, r4, r5⟩ := C102_power t a ha hsq hf p
  refine ⟨r, r1, fun i hi j hj => ?_⟩
  have hent : ∀ m < a.rows, ∀ j : Nat, a.entry m j = if a.has m j then 1 else 0 := by
    intro m hm j
    split
    · rename_i h
      obtain ⟨v, hv⟩ := h
      have h2 := CSR.entry_of_mem ha hd hm hv
      rw [h1 m hm _ hv] at h2
      exact h2
    · rename_i h
      exact CSR.entry_of_not_has h
  have key : ∀ k (i j : Fin a.rows), ∃ W : Finset (List Nat), (∀ w, w ∈ W ↔ a.IsWalk k i j w) ∧
      (a.toMatrix a.rows ^ k) i j = (W.card : T) := by
    intro k
    induction k with
    | zero =>
      intro i j
      rw [pow_zero, Matrix.one_apply]
      by_cases hij : i = j
      · exact ⟨{[i.1]}, fun w => by rw [CSR.isWalk_zero]; simp [hij], by simp [hij]⟩
      · exact ⟨∅, fun w => by rw [CSR.isWalk_zero]; simp [Fin.val_inj, hij], by simp [hij]⟩
    | succ k ih =>
      intro i j
      choose W hW hc using ih i
      refine ⟨(Finset.univ.filter fun m : Fin a.rows => a.has m j).biUnion fun m => (W m).image (· ++ [j.1]), fun w => ?_, ?_⟩
      · rw [CSR.isWalk_succ]
        simp only [Finset.mem_biUnion, Finset.mem_filter, Finset.mem_univ, true_and, Finset.mem_image, hW]
        constructor
        · rintro ⟨m, hm, w', hw, rfl⟩
          exact ⟨m, w', hw, hm, rfl⟩
        · rintro ⟨m, w', hw, hm, rfl⟩
          exact ⟨⟨m, (ha.has_bounds hm).1⟩, hm, w', hw, rfl⟩
      · rw [Finset.card_biUnion]
        · rw [pow_succ, Matrix.mul_apply, Nat.cast_sum, Finset.sum_filter]
          refine Finset.sum_congr rfl fun m _ => ?_
          rw [Finset.card_image_of_injective _ (List.append_left_injective _), hc]
          show _ * a.entry m j = _
          rw [hent m m.2]
          split <;> simp
        · intro m _ m' _ hmm
          show Disjoint _ _
          rw [Finset.disjoint_left]
          intro w hw hw'
          obtain ⟨u, hu, rfl⟩ := Finset.mem_image.1 hw
          obtain ⟨u', hu', he⟩ := Finset.mem_image.1 hw'
          have he := List.append_left_injective _ he
          subst he
          have e1 := ((hW _ _).1 hu).2.2.1
          have e2 := ((hW _ _).1 hu').2.2.1
          rw [e1] at e2
          exact hmm (Fin.val_inj.1 (Option.some.inj e2))
  obtain ⟨W, hW, hc⟩ := key p.exponent ⟨i, hi⟩ ⟨j, hj⟩
  refine ⟨W, hW, ?_⟩
  rw [← hc, ← r5]
  rfl

theorem CSR.entry_pos [AddCommMonoid T] [LinearOrder T] [IsOrderedCancelAddMonoid T] {t : IntTy} {a : CSR T} (ha : a.WF t)
    (hp : ∀ i < a.rows, ∀ e ∈ a.row i, 0 < e.2) (i j : Nat) : 0 ≤ a.entry i j ∧ (a.entry i j ≠ 0 ↔ a.has i j) := by
  by_cases h : a.has i j
  swap
  · rw [CSR.entry_of_not_has h]
    simp [h]
  have hi := ha.has_rows h
  have aux : ∀ l : List T, (∀ v ∈ l, 0 < v) → 0 ≤ l.sum ∧ (l ≠ [] → 0 < l.sum) := by
    intro l
    induction l with
    | nil => simp
    | cons v l ih =>
      intro hl
      have h1 := hl v (by simp)
      have h2 := (ih fun w hw => hl w (by simp [hw])).1
      have h3 : 0 < v + l.sum := add_pos_of_pos_of_nonneg h1 h2
      rw [List.sum_cons]
      exact ⟨h3.le, fun _ => h3⟩
  have h1 := aux (a.valuesAt i j) (by
    intro v hv
    obtain ⟨e, he, rfl⟩ := List.mem_map.1 hv
    exact hp i hi e (List.mem_of_mem_filter he))
  have h2 := h1.2 (CSR.has_iff_valuesAt.1 h)
  have h3 : 0 < a.entry i j := h2
  exact ⟨h3.le, fun _ => h, fun _ => h3.ne'⟩

/-- C102: if the stored values are positive (positions may be stored several times), entry `(i, j)` of the `k`-th power is not
zero exactly if there is a walk of `k` edges from `i` to `j`. -/
theorem C102_support [Semiring T] [LinearOrder T] [IsStrictOrderedRing T] (t : IntTy) (a : CSR T) (ha : a.WF t)
    (hsq : a.rows = a.cols) (hf : ((a.rows * a.rows : Nat) : Int) < t.hi) (hp : ∀ i < a.rows, ∀ e ∈ a.row i, 0 < e.2) (p : PowProg) :
    ∃ r, p.run t a = .ok r ∧ ∀ i < a.rows, ∀ j < a.rows, 0 ≤ r.entry i j ∧
      (r.entry i j ≠ 0 ↔ ∃ w, a.IsWalk p.exponent i j w) := by
  obtain ⟨r, r1, r2, r3, r4, r5⟩ := C102_power t a ha hsq hf p
  refine ⟨r, r1, fun i hi j hj => ?_⟩
  have key : ∀ k (i j : Fin a.rows), 0 ≤ (a.toMatrix a.rows ^ k) i j ∧
      ((a.toMatrix a.rows ^ k) i j ≠ 0 ↔ ∃ w, a.IsWalk k i j w) := by
    intro k
    induction k with
    | zero =>
      intro i j
      rw [pow_zero, Matrix.one_apply]
      simp only [CSR.isWalk_zero]
      by_cases hij : i = j
      · simp [hij]
      · simp [hij, Fin.val_inj]
    | succ k ih =>
      intro i j
      rw [pow_succ, Matrix.mul_apply]
      have hnn : ∀ m ∈ (Finset.univ : Finset (Fin a.rows)), 0 ≤ (a.toMatrix a.rows ^ k) i m * a.toMatrix a.rows m j :=
        fun m _ => mul_nonneg (ih i m).1 (CSR.entry_pos ha hp m j).1
      refine ⟨Finset.sum_nonneg hnn, ?_⟩
      rw [Ne, Finset.sum_eq_zero_iff_of_nonneg hnn]
      simp only [CSR.isWalk_succ]
      constructor
      · intro h
        obtain ⟨m, hm⟩ := not_forall.1 h
        have hm : (a.toMatrix a.rows ^ k) i m * a.toMatrix a.rows m j ≠ 0 := fun h0 => hm fun _ => h0
        obtain ⟨w, hw⟩ := (ih i m).2.1 (left_ne_zero_of_mul hm)
        exact ⟨w ++ [j.1], m, w, hw, (CSR.entry_pos ha hp m j).2.1 (right_ne_zero_of_mul hm), rfl⟩
      · rintro ⟨_, m, w, hw, hm, rfl⟩ h
        have hml := (ha.has_bounds hm).1
        have h0 := h ⟨m, hml⟩ (Finset.mem_univ _)
        have p1 := lt_of_le_of_ne (ih i ⟨m, hml⟩).1 (Ne.symm ((ih i ⟨m, hml⟩).2.2 ⟨w, hw⟩))
        have p2 := lt_of_le_of_ne (CSR.entry_pos ha hp m j).1 (Ne.symm ((CSR.entry_pos ha hp m j).2.2 hm))
        exact (mul_pos p1 p2).ne' h0
  have := key p.exponent ⟨i, hi⟩ ⟨j, hj⟩
  rw [← r5] at this
  exact this

theorem CSR.IsWalk.reach {a : CSR T} {k i j : Nat} {w : List Nat} (h : a.IsWalk k i j w) : a.Reach i j := by
  induction k generalizing j w with
  | zero =>
    obtain ⟨rfl, -⟩ := CSR.isWalk_zero.1 h
    exact .refl
  | succ k ih =>
    obtain ⟨m, w', h1, h2, -⟩ := CSR.isWalk_succ.1 h
    exact (ih h1).tail h2

/-- a node that can be reached can be reached by a walk with fewer edges than there are nodes -/
theorem CSR.Reach.walk {t : IntTy} {a : CSR T} (ha : a.WF t) (hsq : a.rows = a.cols) {i j : Nat} (hi : i < a.rows) (h : a.Reach i j) :
    ∃ k < a.rows, ∃ w, a.IsWalk k i j w := by
  have key : ∃ w : List Nat, w.Nodup ∧ w.head? = some i ∧ w.getLast? = some j ∧ w.IsChain a.has := by
    clear hi
    induction h using Relation.ReflTransGen.head_induction_on with
    | refl => exact ⟨[j], by simp, rfl, rfl, by simp⟩
    | head hs hr ih =>
      rename_i u m
      obtain ⟨w, w1, w2, w3, w4⟩ := ih
      by_cases hu : u ∈ w
      · obtain ⟨s, r, rfl⟩ := List.append_of_mem hu
        rw [List.isChain_append] at w4
        refine ⟨u :: r, (List.nodup_append.1 w1).2.1, rfl, ?_, w4.2.1⟩
        rw [List.getLast?_append_of_ne_nil _ (by simp)] at w3
        exact w3
      · cases w with
        | nil => cases w2
        | cons x w =>
          obtain rfl : x = m := by simpa using w2
          exact ⟨u :: x :: w, List.nodup_cons.2 ⟨hu, w1⟩, rfl, by simpa using w3, List.isChain_cons_cons.2 ⟨hs, w4⟩⟩
  obtain ⟨w, w1, w2, w3, w4⟩ := key
  have hl : w.length ≤ a.rows := by
    have hs : w ⊆ List.range a.rows := fun v hv => List.mem_range.2 (ha.walk_lt hsq hi w2 w4 v hv)
    have := (List.subperm_of_subset w1 hs).length_le
    simpa using this
  have h0 : w.length ≠ 0 := by
    intro h0
    rw [List.length_eq_zero_iff.1 h0] at w2
    cases w2
  exact ⟨w.length - 1, by omega, w, by omega, w2, w3, w4⟩

/-- C102: the directed search from `s` lists exactly the nodes `j` for which one of the first `n` powers (with any order of the
multiplications) has a non-zero entry `(s, j)`. -/
theorem C102_search [Semiring T] [LinearOrder T] [IsStrictOrderedRing T] (t : IntTy) (a : CSR T) (ha : a.WF t)
    (hsq : a.rows = a.cols) (hf : ((a.rows * a.rows : Nat) : Int) < t.hi) (hp : ∀ i < a.rows, ∀ e ∈ a.row i, 0 < e.2)
    (prog : Nat → PowProg) (hprog : ∀ k, (prog k).exponent = k) (s : Nat) (hs : s < a.rows) (fuel : Nat) (hfuel : 2 * a.rows ≤ fuel) :
    ∃ nodes preds, depth_first_order t fuel a s true = .ok (nodes, preds) ∧
      ∀ j < a.rows, j ∈ nodes ↔ ∃ k < a.rows, ∃ r, (prog k).run t a = .ok r ∧ r.entry s j ≠ 0 := by
  have hn : (a.rows : Int) ≤ t.hi + 1 := by
    have : a.rows ≤ a.rows * a.rows := Nat.le_mul_self _
    omega
  obtain ⟨nodes, preds, h1, -, -, h4⟩ := C37_depth_first_nodes t a ha hsq hn s hs true fuel hfuel
  refine ⟨nodes, preds, h1, fun j hj => ?_⟩
  rw [h4, if_pos rfl]
  constructor
  · intro h
    obtain ⟨k, hk, hw⟩ := h.walk ha hsq hs
    obtain ⟨r, r1, r2⟩ := C102_support t a ha hsq hf hp (prog k)
    exact ⟨k, hk, r, r1, (r2 s hs j hj).2.2 (by rw [hprog]; exact hw)⟩
  · rintro ⟨k, hk, r, r1, r2⟩
    obtain ⟨r', r1', r2'⟩ := C102_support t a ha hsq hf hp (prog k)
    obtain rfl := Except.ok.inj (r1.symm.trans r1')
    obtain ⟨w, hw⟩ := (r2' s hs j hj).2.1 r2
    exact hw.reach

/-- C102: `connected_components` gives two nodes the same strong label exactly if some power has a non-zero entry in one direction
and some power one in the other. -/
theorem C102_strong [Semiring T] [LinearOrder T] [IsStrictOrderedRing T] (t : IntTy) (a : CSR T) (ha : a.WF t)
    (hsq : a.rows = a.cols) (hf : ((a.rows * a.rows : Nat) : Int) < t.hi) (hp : ∀ i < a.rows, ∀ e ∈ a.row i, 0 < e.2)
    (hn : 0 < a.rows) (hd : a.NoDup) (prog : Nat → PowProg) (hprog : ∀ k, (prog k).exponent = k) (fuel : Nat) (hfuel : 2 * a.rows < fuel) :
    ∃ c labels, connected_components t fuel a true .strong = .ok (c, labels) ∧
      ∀ u < a.rows, ∀ v < a.rows, labels[u]? = labels[v]? ↔
        (∃ k < a.rows, ∃ r, (prog k).run t a = .ok r ∧ r.entry u v ≠ 0) ∧
        ∃ k < a.rows, ∃ r, (prog k).run t a = .ok r ∧ r.entry v u ≠ 0 := by
  obtain ⟨c, labels, h1, -, h3, -⟩ := C35_strong_components_partial t a ha hsq hn (fun u hu => (hd u hu).filter _) fuel hfuel
  refine ⟨c, labels, h1, fun u hu v hv => ?_⟩
  rw [h3 u v hu hv]
  have aux : ∀ u < a.rows, ∀ v < a.rows, a.Reach u v ↔ ∃ k < a.rows, ∃ r, (prog k).run t a = .ok r ∧ r.entry u v ≠ 0 := by
    intro u hu v hv
    have hn2 : (a.rows : Int) ≤ t.hi + 1 := by
      have : a.rows ≤ a.rows * a.rows := Nat.le_mul_self _
      omega
    obtain ⟨nodes, preds, g1, -, -, g4⟩ := C37_depth_first_nodes t a ha hsq hn2 u hu true fuel (by omega)
    obtain ⟨nodes', preds', g1', g2'⟩ := C102_search t a ha hsq hf hp prog hprog u hu fuel (by omega)
    cases g1.symm.trans g1'
    rw [← g2' v hv, g4, if_pos rfl]
  rw [aux u hu v hv, aux v hv u hu]

end

/-! The hypotheses of C102 are met: a graph with a cycle `0 → 1 → 2 → 0`, a loop at 2 and a node 3 that cannot be reached. -/

/-- the left-most order of the multiplications -/
def PowProg.chain : Nat → PowProg
  | 0 => .one
  | k + 1 => .mul (PowProg.chain k) .base

example : ∀ k, (PowProg.chain k).exponent = k := by
  intro k
  induction k with
  | zero => rfl
  | succ k ih => exact congrArg (· + 1) ih

example : (PowProg.mul (.mul .base .base) (.mul .base .base)).exponent = (PowProg.chain 4).exponent := rfl

def exPowers : CSR Nat := ⟨4, 4, [0, 1, 2, 4, 5], [1, 2, 0, 2, 0], [1, 1, 1, 1, 1]⟩

example : exPowers.WF .i8 ∧ exPowers.rows = exPowers.cols ∧ ((exPowers.rows * exPowers.rows : Nat) : Int) < IntTy.i8.hi ∧
    exPowers.NoDup ∧ (∀ i < exPowers.rows, ∀ e ∈ exPowers.row i, e.2 = 1) ∧ 0 < exPowers.rows :=
  ⟨CSR.wf_of (by decide), rfl, by decide, by unfold CSR.NoDup; decide, by decide, by decide⟩

example : ((PowProg.chain 5).run .i8 exPowers).map (fun r => r.to_dense) =
    ((PowProg.mul (.mul .base .base) (.mul .base (.mul .base .base))).run .i8 exPowers).map fun r => r.to_dense := by
  decide +kernel

example : ((PowProg.chain 5).run .i8 exPowers).map (fun r => r.entry 2 2) = .ok 4 ∧
    exPowers.applyTimes 5 [1, 0, 0, 1] = .ok [1, 2, 3, 1] := by decide +kernel

example : exPowers.IsWalk 5 2 2 [2, 2, 0, 1, 2, 2] :=
  ⟨rfl, rfl, rfl, by simp; exact ⟨⟨1, by decide⟩, ⟨1, by decide⟩, ⟨1, by decide⟩, ⟨1, by decide⟩, ⟨1, by decide⟩⟩⟩

example : ∃ a : CSR Int, a.WF .i8 ∧ a.rows = a.cols ∧ ((a.rows * a.rows : Nat) : Int) < IntTy.i8.hi ∧
    (∀ i < a.rows, ∀ e ∈ a.row i, 0 < e.2) ∧ ¬ a.NoDup :=
  ⟨⟨2, 2, [0, 2, 2], [1, 1], [3, 4]⟩, CSR.wf_of (by decide), rfl, by decide, by decide, by unfold CSR.NoDup; decide⟩

end Sparse

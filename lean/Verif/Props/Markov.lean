import Verif.Props.Powers
import Mathlib.Algebra.Order.Ring.Rat
/-!
C109: matrices with nonnegative entries whose rows sum to 1 (transition matrices of Markov chains), over any ordered semiring:
the rationals, for example.
-/
open scoped BigOperators
namespace Sparse

section
variable {T : Type}

/-- every entry is nonnegative and every row sums to 1 -/
def CSR.Stochastic [Semiring T] [LE T] (a : CSR T) : Prop :=
  (∀ i j, 0 ≤ a.entry i j) ∧ ∀ i < a.rows, ∑ j ∈ Finset.range a.cols, a.entry i j = 1

/-- nonnegative weights with sum 1 -/
def IsDistribution [Semiring T] [LE T] (x : List T) : Prop := (∀ v ∈ x, 0 ≤ v) ∧ x.sum = 1

variable [Semiring T] [PartialOrder T] [IsOrderedRing T]

theorem list_sum_eq_range {M : Type} [AddCommMonoid M] (x : List M) : x.sum = ∑ k ∈ Finset.range x.length, x.getD k 0 := by
  induction x with
  | nil => rfl
  | cons a x ih => rw [List.sum_cons, List.length_cons, Finset.sum_range_succ', ih, add_comm]; simp

theorem sum_map_range {M : Type} [AddCommMonoid M] (n : Nat) (f : Nat → M) : ((List.range n).map f).sum = ∑ i ∈ Finset.range n, f i := by
  rw [list_sum_eq_range, List.length_map, List.length_range]
  refine Finset.sum_congr rfl fun i hi => ?_
  simp [Finset.mem_range.1 hi]

theorem getD_nonneg {x : List T} (h : ∀ v ∈ x, 0 ≤ v) (k : Nat) : 0 ≤ x.getD k 0 := by
  by_cases hk : k < x.length
  · rw [List.getD_eq_getElem _ _ hk]; exact h _ (List.getElem_mem hk)
  · rw [List.getD_eq_default _ _ (by omega)]

omit [Semiring T] [PartialOrder T] [IsOrderedRing T] in
theorem stored_of_rowptr {t : IntTy} {a c : CSR T} (ha : a.WF t) (hc : c.WF t) (hr : c.rows = a.rows) (hp : c.rowptr = a.rowptr) :
    c.stored = a.stored := by
  have h1 := ha.rep.ptr a.rows (le_refl _)
  have h2 := hc.rep.ptr c.rows (le_refl _)
  rw [hr, hp, h1] at h2
  rw [hc.stored_eq, ha.stored_eq, hr]
  simpa using h2.symm

theorem CSR.entry_nonneg {a : CSR T} (h : ∀ i < a.rows, ∀ e ∈ a.row i, 0 ≤ e.2) (hlen : a.rowptr.length = a.rows + 1) (i j : Nat) :
    0 ≤ a.entry i j := by
  by_cases hi : i < a.rows
  · unfold CSR.entry rowSum
    refine List.sum_nonneg fun v hv => ?_
    obtain ⟨e, he, rfl⟩ := List.mem_map.1 hv
    exact h i hi e (List.mem_filter.1 he).1
  · rw [CSR.entry_of_not_has]
    rintro ⟨v, hv⟩
    rw [CSR.row, rowOf_out (by omega)] at hv
    simp at hv

/-- C109: sums, products and matrix-vector products of nonnegative matrices keep inequalities between the entries. -/
theorem C109_monotone [DecidableEq T] (t : IntTy) (a a' b b' : CSR T) (ha : a.WF t) (ha' : a'.WF t) (hb : b.WF t) (hb' : b'.WF t)
    (h1 : a'.rows = a.rows) (h2 : a'.cols = a.cols) (h3 : b'.rows = b.rows) (h4 : b'.cols = b.cols)
    (hle : ∀ i j, 0 ≤ a.entry i j ∧ a.entry i j ≤ a'.entry i j) (hle' : ∀ i j, 0 ≤ b.entry i j ∧ b.entry i j ≤ b'.entry i j) :
    (b.rows = a.rows → b.cols = a.cols → ((a.stored + b.stored : Nat) : Int) < t.hi → ((a'.stored + b'.stored : Nat) : Int) < t.hi →
      ∃ r r', a.add t b = .ok r ∧ a'.add t b' = .ok r' ∧ ∀ i j, 0 ≤ r.entry i j ∧ r.entry i j ≤ r'.entry i j) ∧
    (a.cols = b.rows → ((a.rows * b.cols : Nat) : Int) ≤ t.hi →
      ∃ r r', a.mul t b = .ok r ∧ a'.mul t b' = .ok r' ∧ ∀ i j, 0 ≤ r.entry i j ∧ r.entry i j ≤ r'.entry i j) ∧
    ∀ x x' : List T, x.length = a.cols → x'.length = a.cols → (∀ k, 0 ≤ x.getD k 0 ∧ x.getD k 0 ≤ x'.getD k 0) →
      ∃ y y', a.mat_vec x = .ok y ∧ a'.mat_vec x' = .ok y' ∧ y.length = a.rows ∧ y'.length = a.rows ∧
        ∀ i < a.rows, 0 ≤ y.getD i 0 ∧ y.getD i 0 ≤ y'.getD i 0 := by
  refine ⟨fun e1 e2 f1 f2 => ?_, fun e1 f1 => ?_, fun x x' hx hx' hxx => ?_⟩
  · obtain ⟨r, r1, -, -, -, r2, -⟩ := C15_csr_add t a b ha hb e1 e2 f1
    obtain ⟨s, s1, -, -, -, s2, -⟩ := C15_csr_add t a' b' ha' hb' (by omega) (by omega) f2
    refine ⟨r, s, r1, s1, fun i j => ?_⟩
    rw [r2, s2]
    exact ⟨add_nonneg (hle i j).1 (hle' i j).1, add_le_add (hle i j).2 (hle' i j).2⟩
  · have g1 := C13_slots_le a b
    have g2 := C13_slots_le a' b'
    rw [h1, h4] at g2
    obtain ⟨r, -, r1, -, -, -, r2, -⟩ := C13_csr_mat_mat t a b ha hb e1 (by omega)
    obtain ⟨s, -, s1, -, -, -, s2, -⟩ := C13_csr_mat_mat t a' b' ha' hb' (by omega) (by omega)
    refine ⟨r, s, r1, s1, fun i j => ?_⟩
    rw [r2, s2, h2]
    exact ⟨Finset.sum_nonneg fun k _ => mul_nonneg (hle i k).1 (hle' k j).1,
      Finset.sum_le_sum fun k _ => mul_le_mul (hle i k).2 (hle' k j).2 (hle' k j).1 ((hle i k).1.trans (hle i k).2)⟩
  · refine ⟨_, _, (C11_csr_mat_vec t a ha x).2 hx, (C11_csr_mat_vec t a' ha' x').2 (by omega), by simp, by simp [h1], fun i hi => ?_⟩
    have hi' : i < a'.rows := by omega
    rw [List.getD_eq_getElem _ _ (by simpa using hi), List.getD_eq_getElem _ _ (by simpa using hi')]
    simp only [List.getElem_map, List.getElem_range, h2]
    exact ⟨Finset.sum_nonneg fun k _ => mul_nonneg (hle i k).1 (hxx k).1,
      Finset.sum_le_sum fun k _ => mul_le_mul (hle i k).2 (hxx k).2 (hxx k).1 ((hle i k).1.trans (hle i k).2)⟩

/-- C109: the product of two stochastic matrices is one, and stores positive values only. -/
theorem C109_product [DecidableEq T] (t : IntTy) (a b : CSR T) (ha : a.WF t) (hb : b.WF t) (hd : a.cols = b.rows)
    (hf : ((a.rows * b.cols : Nat) : Int) ≤ t.hi) (sa : a.Stochastic) (sb : b.Stochastic) :
    ∃ r, a.mul t b = .ok r ∧ r.WF t ∧ r.Stochastic ∧ ∀ i < r.rows, ∀ e ∈ r.row i, 0 < e.2 := by
  have g1 := C13_slots_le a b
  obtain ⟨r, -, r1, r2, r3, r4, r5, r6, r7, -⟩ := C13_csr_mat_mat t a b ha hb hd (by omega)
  have hnn : ∀ i j, 0 ≤ r.entry i j := fun i j => by
    rw [r5]; exact Finset.sum_nonneg fun k _ => mul_nonneg (sa.1 i k) (sb.1 k j)
  refine ⟨r, r1, r2, ⟨hnn, fun i hi => ?_⟩, fun i hi e he => ?_⟩
  · simp only [r5]
    rw [Finset.sum_comm, r4, ← sa.2 i (by omega)]
    refine Finset.sum_congr rfl fun k hk => ?_
    rw [← Finset.mul_sum, sb.2 k (by have := Finset.mem_range.1 hk; omega), mul_one]
  · have h1 : r.entry i e.1.toNat = e.2 := CSR.entry_of_mem r2 r6 hi he
    have h2 := hnn i e.1.toNat
    rw [h1] at h2
    exact lt_of_le_of_ne h2 (Ne.symm (r7 i (by omega) e he))

/-- C109: one step of the chain. `transpose(A) * x` is a distribution if `x` is one. -/
theorem C109_step (t : IntTy) (a : CSR T) (ha : a.WF t) (sa : a.Stochastic) (x : List T)
    (hx : x.length = a.rows) (dx : IsDistribution x) :
    ∃ b y, a.transpose = .ok b ∧ b.mat_vec x = .ok y ∧ y.length = a.cols ∧ IsDistribution y := by
  obtain ⟨b, b1, b2, b3, b4, b5, -⟩ := C25_csr_transpose t a ha
  refine ⟨b, _, b1, (C12_csc_mat_vec t b b2 x).2 (by omega), by simp [b3], ?_, ?_⟩
  · intro v hv
    obtain ⟨i, -, rfl⟩ := List.mem_map.1 hv
    exact Finset.sum_nonneg fun k _ => mul_nonneg (by rw [b5]; exact sa.1 k i) (getD_nonneg dx.1 k)
  · rw [sum_map_range, Finset.sum_comm, ← dx.2, list_sum_eq_range, b4, hx]
    refine Finset.sum_congr rfl fun k hk => ?_
    have : ∑ i ∈ Finset.range b.rows, b.entry i k * x.getD k 0 = (∑ i ∈ Finset.range b.rows, a.entry k i) * x.getD k 0 := by
      rw [Finset.sum_mul]; exact Finset.sum_congr rfl fun i _ => by rw [b5]
    rw [this, b3, sa.2 k (Finset.mem_range.1 hk), one_mul]

/-- C109: averages. Every component of `A * x` lies between any two bounds of the components of `x`; a constant vector is kept. -/
theorem C109_average (t : IntTy) (a : CSR T) (ha : a.WF t) (sa : a.Stochastic) (x : List T) (hx : x.length = a.cols) (l u : T)
    (hl : ∀ v ∈ x, l ≤ v) (hu : ∀ v ∈ x, v ≤ u) :
    ∃ y, a.mat_vec x = .ok y ∧ y.length = a.rows ∧ ∀ v ∈ y, l ≤ v ∧ v ≤ u := by
  refine ⟨_, (C11_csr_mat_vec t a ha x).2 hx, by simp, fun v hv => ?_⟩
  obtain ⟨i, hi, rfl⟩ := List.mem_map.1 hv
  have hi : i < a.rows := by simpa using hi
  have hk : ∀ k ∈ Finset.range a.cols, l ≤ x.getD k 0 ∧ x.getD k 0 ≤ u := fun k hk => by
    have hk := Finset.mem_range.1 hk
    rw [List.getD_eq_getElem _ _ (by omega)]
    exact ⟨hl _ (List.getElem_mem _), hu _ (List.getElem_mem _)⟩
  constructor
  · calc l = ∑ k ∈ Finset.range a.cols, a.entry i k * l := by rw [← Finset.sum_mul, sa.2 i hi, one_mul]
      _ ≤ _ := Finset.sum_le_sum fun k h => mul_le_mul_of_nonneg_left (hk k h).1 (sa.1 i k)
  · calc _ ≤ ∑ k ∈ Finset.range a.cols, a.entry i k * u :=
          Finset.sum_le_sum fun k h => mul_le_mul_of_nonneg_left (hk k h).2 (sa.1 i k)
      _ = u := by rw [← Finset.sum_mul, sa.2 i hi, one_mul]

/-- C109: mixtures. `p * A + q * B` with `p + q = 1` is stochastic. -/
theorem C109_mixture [DecidableEq T] (t : IntTy) (a b : CSR T) (ha : a.WF t) (hb : b.WF t) (hr : b.rows = a.rows) (hc : b.cols = a.cols)
    (hf : ((a.stored + b.stored : Nat) : Int) < t.hi) (sa : a.Stochastic) (sb : b.Stochastic) (p q : T) (hp : 0 ≤ p) (hq : 0 ≤ q)
    (hpq : p + q = 1) :
    ∃ c d r, CSR.scalar_mul p a = .ok c ∧ CSR.scalar_mul q b = .ok d ∧ c.add t d = .ok r ∧ r.WF t ∧ r.Stochastic := by
  obtain ⟨c, c1, c2, c3, c4, c5, -, c7⟩ := C20_csr_scalar_mul t a ha p
  obtain ⟨d, d1, d2, d3, d4, d5, -, d7⟩ := C20_csr_scalar_mul t b hb q
  have hcs : c.stored = a.stored := stored_of_rowptr ha c2 c3 c5
  have hds : d.stored = b.stored := stored_of_rowptr hb d2 d3 d5
  obtain ⟨r, r1, r2, r3, r4, r5, -⟩ := C15_csr_add t c d c2 d2 (by omega) (by omega) (by rw [hcs, hds]; exact hf)
  refine ⟨c, d, r, c1, d1, r1, r2, fun i j => ?_, fun i hi => ?_⟩
  · rw [r5, c7, d7]
    exact add_nonneg (mul_nonneg hp (sa.1 i j)) (mul_nonneg hq (sb.1 i j))
  · simp only [r5, c7, d7]
    have h1 := sa.2 i (by omega)
    have h2 := sb.2 i (by omega)
    rw [Finset.sum_add_distrib, ← Finset.mul_sum, ← Finset.mul_sum, r4, c4, h1, ← hc, h2, mul_one, mul_one, hpq]

/-- C109: every power of a stochastic matrix, in whatever order it is multiplied out, is stochastic. -/
theorem C109_power [DecidableEq T] (t : IntTy) (a : CSR T) (ha : a.WF t) (hsq : a.rows = a.cols)
    (hf : ((a.rows * a.rows : Nat) : Int) < t.hi) (sa : a.Stochastic) (p : PowProg) :
    ∃ r, p.run t a = .ok r ∧ r.WF t ∧ r.rows = a.rows ∧ r.cols = a.rows ∧ r.Stochastic := by
  obtain ⟨r, r1, r2, r3, r4, r5⟩ := C102_power t a ha hsq hf p
  have key : ∀ k, (∀ i j, 0 ≤ (a.toMatrix a.rows ^ k) i j) ∧ ∀ i, ∑ j, (a.toMatrix a.rows ^ k) i j = 1 := by
    intro k
    induction k with
    | zero =>
      refine ⟨fun i j => ?_, fun i => ?_⟩
      · rw [pow_zero, Matrix.one_apply]; split <;> simp
      · rw [pow_zero]; simp [Matrix.one_apply]
    | succ k ih =>
      refine ⟨fun i j => ?_, fun i => ?_⟩
      · rw [pow_succ, Matrix.mul_apply]
        exact Finset.sum_nonneg fun m _ => mul_nonneg (ih.1 i m) (sa.1 m j)
      · simp only [pow_succ, Matrix.mul_apply]
        rw [Finset.sum_comm, ← ih.2 i]
        refine Finset.sum_congr rfl fun m _ => ?_
        rw [← Finset.mul_sum]
        have := sa.2 m m.2
        rw [← hsq, Finset.sum_range] at this
        rw [show ∑ j : Fin a.rows, a.toMatrix a.rows m j = 1 from this, mul_one]
  rw [← hsq] at *
  refine ⟨r, r1, r2, r3, r4, fun i j => ?_, fun i hi => ?_⟩
  · by_cases hij : i < a.rows ∧ j < a.rows
    · have := (key p.exponent).1 ⟨i, hij.1⟩ ⟨j, hij.2⟩
      rw [← r5] at this
      exact this
    · rw [CSR.entry_of_not_has]
      intro h
      have := r2.has_bounds h
      omega
  · have := (key p.exponent).2 ⟨i, by omega⟩
    rw [← r5] at this
    rw [r4, Finset.sum_range]
    exact this

/-- C109: whatever the number of steps, all the weight of a chain started in `s` stays on the nodes that `depth_first_order` finds
from `s`. -/
theorem C109_reached [DecidableEq T] (t : IntTy) (a : CSR T) (ha : a.WF t) (hsq : a.rows = a.cols)
    (hf : ((a.rows * a.rows : Nat) : Int) < t.hi) (sa : a.Stochastic) (p : PowProg) (s : Nat) (hs : s < a.rows) (fuel : Nat)
    (hfuel : 2 * a.rows ≤ fuel) :
    ∃ r nodes preds, p.run t a = .ok r ∧ depth_first_order t fuel a s true = .ok (nodes, preds) ∧
      (∀ j, j ∉ nodes → r.entry s j = 0) ∧ (nodes.map (r.entry s)).sum = 1 := by
  have hn : (a.rows : Int) ≤ t.hi + 1 := by
    have : a.rows ≤ a.rows * a.rows := Nat.le_mul_of_pos_left _ (by omega)
    omega
  obtain ⟨nodes, preds, n1, n2, -, n4⟩ := C37_depth_first_nodes t a ha hsq hn s hs true fuel hfuel
  obtain ⟨r, r1, r2, r3, r4, r5⟩ := C102_power t a ha hsq hf p
  obtain ⟨r', r1', -, -, -, rs⟩ := C109_power t a ha hsq hf sa p
  obtain rfl : r = r' := by rw [r1] at r1'; exact Except.ok.inj r1'
  have key : ∀ k (i j : Fin a.rows), (a.toMatrix a.rows ^ k) i j ≠ 0 → a.Reach i j := by
    intro k
    induction k with
    | zero =>
      intro i j h
      rw [pow_zero, Matrix.one_apply] at h
      by_cases hij : i = j
      · subst hij; exact .refl
      · exact absurd (if_neg hij) h
    | succ k ih =>
      intro i j h
      rw [pow_succ, Matrix.mul_apply] at h
      obtain ⟨m, -, hm⟩ := Finset.exists_ne_zero_of_sum_ne_zero h
      have h1 := ih i m (left_ne_zero_of_mul hm)
      have h2 : a.has m j := by
        by_contra hc
        exact right_ne_zero_of_mul hm (CSR.entry_of_not_has hc)
      exact h1.tail h2
  have hz : ∀ j, j ∉ nodes → r.entry s j = 0 := by
    intro j hj
    by_contra h
    by_cases hjl : j < a.rows
    · refine hj ((n4 j).2 ?_)
      rw [if_pos rfl]
      refine key p.exponent ⟨s, hs⟩ ⟨j, hjl⟩ ?_
      rw [← r5]
      exact h
    · refine h (CSR.entry_of_not_has fun hh => ?_)
      have := r2.has_bounds hh
      omega
  refine ⟨r, nodes, preds, r1, n1, hz, ?_⟩
  have hlt : ∀ j ∈ nodes, j < a.rows := by
    intro j hj
    have h := (n4 j).1 hj
    rw [if_pos rfl] at h
    rcases Relation.ReflTransGen.cases_tail h with h | ⟨m, -, h⟩
    · omega
    · have := ha.has_bounds h
      omega
  rw [← List.sum_toFinset _ n2]
  have h1 := rs.2 s (by omega)
  rw [← h1]
  refine Finset.sum_subset (fun j hj => ?_) (fun j _ hj => hz j fun h => hj (List.mem_toFinset.2 h))
  have := hlt j (List.mem_toFinset.1 hj)
  rw [Finset.mem_range, r4]
  exact this

/-- a chain with three states, the last absorbing; the entry at (0, 1) is stored in two parts -/
def exMarkov : CSR ℚ := ⟨3, 3, [0, 3, 5, 6], [1, 0, 1, 2, 0, 2], [1/4, 1/2, 1/4, 1/3, 2/3, 1]⟩

theorem exMarkov_stochastic : exMarkov.Stochastic := by
  refine ⟨CSR.entry_nonneg (by decide +kernel) rfl, by decide +kernel⟩

example : exMarkov.WF .i8 ∧ exMarkov.rows = exMarkov.cols ∧ ((exMarkov.rows * exMarkov.rows : Nat) : Int) < IntTy.i8.hi ∧
    exMarkov.Stochastic ∧ IsDistribution [1/2, 1/4, (1/4 : ℚ)] :=
  ⟨CSR.wf_of (by decide), rfl, by decide, exMarkov_stochastic, by decide +kernel, by decide +kernel⟩

example : (exMarkov.mul .i8 exMarkov >>= CSR.to_dense) = .ok [[7/12, 1/4, 1/6], [1/3, 1/3, 1/3], [0, 0, 1]] ∧
    (exMarkov.transpose >>= fun b => b.mat_vec [1/2, 1/4, 1/4]) = .ok [5/12, 1/4, 1/3] ∧
    exMarkov.mat_vec [0, 0, 1] = .ok [0, 1/3, 1] := by decide +kernel

end
end Sparse

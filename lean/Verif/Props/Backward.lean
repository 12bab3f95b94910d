import Verif.Props.Round
/-! C96: computed results are the exact results for slightly different matrices (backward stability). -/
namespace Sparse
variable {F K : Type} [Field K] [LinearOrder K] [IsStrictOrderedRing K]
variable [Zero F] [Add F] [Sub F] [Mul F] [BEq F] {val : F → K} {fin : F → Prop} {u η : K}

/-! ### Specification -/

/-- the number `p` differs from the element with the stored values `l` by at most the fraction `g` of its size. With one
stored value `v` this is `|p - v| ≤ g * |v|`, and with none `p = 0`. -/
def Near (val : F → K) (g : K) (l : List F) (p : K) : Prop := |p - exact val l| ≤ g * mag val l

/-- the relative change that `n` roundings can amount to -/
def gamma (u : K) (n : Nat) : K := (1 + u) ^ n - 1

/-- the absolute change that `n` underflows can amount to -/
def underflow (u η : K) (n : Nat) : K := n * (1 + u) ^ n * η

/-! ### Lemmas -/

theorem near_none {g : K} {p : K} (h : Near val g [] p) : p = 0 := by
  have : |p| ≤ 0 := by simpa [Near, exact, mag] using h
  exact abs_eq_zero.1 (le_antisymm this (abs_nonneg _))

theorem gamma_nonneg (hu : 0 ≤ u) (n : Nat) : 0 ≤ gamma u n := sub_nonneg.2 (one_le_pow_u hu n)

theorem underflow_nonneg (hu : 0 ≤ u) (he : 0 ≤ η) (n : Nat) : 0 ≤ underflow u η n := by
  have := one_le_pow_u hu n
  exact mul_nonneg (mul_nonneg (Nat.cast_nonneg n) (by linarith)) he

/-- an error within a componentwise bound can be spread over the components -/
theorem spread_err (s : Finset Nat) (m x : Nat → K) (hm : ∀ k, 0 ≤ m k) {g e r : K} (hg : 0 ≤ g) (he : 0 ≤ e)
    (h : |r| ≤ g * (∑ k ∈ s, m k * |x k|) + e) :
    ∃ (D : Nat → K) (δ : K), (∀ k, |D k| ≤ g * m k) ∧ |δ| ≤ e ∧ r = ∑ k ∈ s, D k * x k + δ := by
  have hS0 : 0 ≤ ∑ k ∈ s, m k * |x k| := Finset.sum_nonneg fun k _ => mul_nonneg (hm k) (abs_nonneg _)
  have hS : 0 ≤ g * (∑ k ∈ s, m k * |x k|) + e := add_nonneg (mul_nonneg hg hS0) he
  rcases eq_or_lt_of_le hS with h0 | h0
  · refine ⟨fun _ => 0, 0, fun k => by simpa using mul_nonneg hg (hm k), by simpa using he, ?_⟩
    rw [← h0] at h
    have := abs_eq_zero.1 (le_antisymm h (abs_nonneg _))
    simp [this]
  · set S := g * (∑ k ∈ s, m k * |x k|) + e
    have ht : |r / S| ≤ 1 := by
      rw [abs_div, abs_of_pos h0]
      exact (div_le_one h0).2 h
    refine ⟨fun k => r / S * (g * m k * if 0 ≤ x k then 1 else -1), r / S * e, fun k => ?_, ?_, ?_⟩
    · have h1 : |g * m k * if 0 ≤ x k then (1 : K) else -1| = g * m k := by
        have := mul_nonneg hg (hm k)
        split
        · rw [mul_one, abs_of_nonneg this]
        · rw [mul_neg_one, abs_neg, abs_of_nonneg this]
      rw [abs_mul, h1]
      exact mul_le_of_le_one_left (mul_nonneg hg (hm k)) ht
    · rw [abs_mul, abs_of_nonneg he]
      exact mul_le_of_le_one_left he ht
    · have h1 : ∀ k ∈ s, (r / S * (g * m k * if 0 ≤ x k then 1 else -1)) * x k = r / S * (g * (m k * |x k|)) := by
        intro k _
        split
        · rename_i hx
          rw [abs_of_nonneg hx]
          ring
        · rename_i hx
          rw [abs_of_neg (not_le.1 hx)]
          ring
      rw [Finset.sum_congr rfl h1, ← Finset.mul_sum, ← Finset.mul_sum, ← mul_add]
      exact (div_mul_cancel₀ r (ne_of_gt h0)).symm

/-- the same around an exact result -/
theorem spread_near (s : Finset Nat) (l : Nat → List F) (x : Nat → K) {g e v : K} (hg : 0 ≤ g) (he : 0 ≤ e)
    (h : |v - ∑ k ∈ s, exact val (l k) * x k| ≤ g * (∑ k ∈ s, mag val (l k) * |x k|) + e) :
    ∃ (P : Nat → K) (δ : K), (∀ k, Near val g (l k) (P k)) ∧ |δ| ≤ e ∧ v = ∑ k ∈ s, P k * x k + δ := by
  obtain ⟨D, δ, h1, h2, h3⟩ := spread_err s (fun k => mag val (l k)) x (fun k => mag_nonneg _) hg he h
  refine ⟨fun k => exact val (l k) + D k, δ, fun k => ?_, h2, ?_⟩
  · unfold Near
    rw [add_sub_cancel_left]
    exact h1 k
  · simp only [add_mul]
    rw [Finset.sum_add_distrib, add_assoc, ← h3]
    ring

theorem mag_single {l : List F} (h : l.length ≤ 1) : mag val l = |exact val l| := by
  match l with
  | [] => simp [mag, exact]
  | [v] => simp [mag, exact]
  | _ :: _ :: _ => simp at h

omit [Zero F] [Add F] [Sub F] [Mul F] [BEq F] in
theorem CSR.NoDup.one {t : IntTy} {a : CSR F} (ha : a.WF t) (h : a.NoDup) (i j : Nat) : (a.valuesAt i j).length ≤ 1 := by
  by_cases hi : i < a.rows
  · exact valuesIn_le_one (h i hi) _
  · unfold CSR.valuesAt CSR.row
    rw [rowOf_out (by rw [ha.rep.len]; omega)]
    simp

omit [Zero F] [Add F] [Sub F] [Mul F] [BEq F] in
theorem CSC.NoDup.one {t : IntTy} {a : CSC F} (ha : a.WF t) (h : a.NoDup) (i j : Nat) : (a.valuesAt i j).length ≤ 1 := by
  by_cases hj : j < a.cols
  · exact valuesIn_le_one (h j hj) _
  · unfold CSC.valuesAt CSC.col
    rw [rowOf_out (by rw [ha.rep.len]; omega)]
    simp

/-- an error within `g` times the sizes of two elements can be spread over the two -/
theorem spread_two (la lb : List F) (σ : K) (hσ : |σ| = 1) {g r : K} (hg : 0 ≤ g)
    (h : |r - (exact val la + σ * exact val lb)| ≤ g * (mag val la + mag val lb)) :
    ∃ p q, Near val g la p ∧ Near val g lb q ∧ r = p + σ * q := by
  have h' : |r - (exact val la + σ * exact val lb)| ≤
      g * (∑ k ∈ Finset.range 2, (fun k => if k = 0 then mag val la else mag val lb) k *
        |(fun k => if k = 0 then (1 : K) else σ) k|) + 0 := by
    simpa [Finset.sum_range_succ, hσ] using h
  obtain ⟨D, δ, h1, h2, h3⟩ := spread_err (Finset.range 2) _ _
    (fun k => by split <;> exact mag_nonneg _) hg (le_refl 0) h'
  have hd : δ = 0 := abs_eq_zero.1 (le_antisymm h2 (abs_nonneg _))
  refine ⟨exact val la + D 0, exact val lb + D 1, ?_, ?_, ?_⟩
  · unfold Near
    rw [add_sub_cancel_left]
    simpa using h1 0
  · unfold Near
    rw [add_sub_cancel_left]
    simpa using h1 1
  · rw [hd] at h3
    simp only [Finset.sum_range_succ, Finset.sum_range_zero, if_true, one_ne_zero, if_false, add_zero, zero_add] at h3
    rw [mul_one] at h3
    have h4 : r = exact val la + σ * exact val lb + (D 0 + D 1 * σ) := by rw [← h3]; ring
    rw [h4]
    ring

/-! ### C96 -/

theorem mat_vec_backward (hu : 0 ≤ u) (he : 0 ≤ η) (n : Nat) (l : Nat → Nat → List F) (x y : List F)
    (h : ∀ i v, y[i]? = some v → fin v →
      |val v - ∑ k ∈ Finset.range n, exact val (l i k) * val (x.getD k 0)| ≤
        errBound u η (∑ k ∈ Finset.range n, (l i k).length)
          (∑ k ∈ Finset.range n, mag val (l i k) * |val (x.getD k 0)|)) :
    ∃ (P : Nat → Nat → K) (δ : Nat → K),
      (∀ i k, Near val (gamma u (∑ k ∈ Finset.range n, (l i k).length)) (l i k) (P i k)) ∧
      (∀ i, |δ i| ≤ underflow u η (∑ k ∈ Finset.range n, (l i k).length)) ∧
      ∀ i v, y[i]? = some v → fin v → val v = ∑ k ∈ Finset.range n, P i k * val (x.getD k 0) + δ i := by
  have hex : ∀ i, ∃ (P : Nat → K) (δ : K),
      (∀ k, Near val (gamma u (∑ k ∈ Finset.range n, (l i k).length)) (l i k) (P k)) ∧
      |δ| ≤ underflow u η (∑ k ∈ Finset.range n, (l i k).length) ∧
      ∀ v, y[i]? = some v → fin v → val v = ∑ k ∈ Finset.range n, P k * val (x.getD k 0) + δ := by
    intro i
    by_cases hv : ∃ v, y[i]? = some v ∧ fin v
    · obtain ⟨v, hv, hf⟩ := hv
      obtain ⟨P, δ, h1, h2, h3⟩ := spread_near (val := val) (Finset.range n) (l i) (fun k => val (x.getD k 0))
        (gamma_nonneg hu _) (underflow_nonneg hu he _) (h i v hv hf)
      refine ⟨P, δ, h1, h2, fun w hw _ => ?_⟩
      rw [hv] at hw
      cases hw
      exact h3
    · refine ⟨fun k => exact val (l i k), 0, fun k => ?_, ?_, fun w hw hf => absurd ⟨w, hw, hf⟩ hv⟩
      · unfold Near
        rw [sub_self, abs_zero]
        exact mul_nonneg (gamma_nonneg hu _) (mag_nonneg _)
      · rw [abs_zero]
        exact underflow_nonneg hu he _
  choose P δ h1 h2 h3 using hex
  exact ⟨P, δ, h1, h2, h3⟩

/-- C96 (row format, matrix times vector): every finite element of the computed `A x` is the element of the exact product
with a matrix `P`, each of whose elements is within the fraction `(1 + u) ^ n - 1` of that of `A` (`n` the number of
entries of the row), up to underflow. `P` has no element where `A` stores none. -/
theorem C96_csr_mat_vec (h : FloatLaws val fin u η) (t : IntTy) (a : CSR F) (ha : a.WF t) (x : List F)
    (hx : x.length = a.cols) :
    ∃ (y : List F) (P : Nat → Nat → K) (δ : Nat → K), a.mat_vec x = .ok y ∧ y.length = a.rows ∧
      (∀ i k, Near val (gamma u (∑ k ∈ Finset.range a.cols, (a.valuesAt i k).length)) (a.valuesAt i k) (P i k)) ∧
      (∀ i, |δ i| ≤ underflow u η (∑ k ∈ Finset.range a.cols, (a.valuesAt i k).length)) ∧
      ∀ i v, y[i]? = some v → fin v → val v = ∑ k ∈ Finset.range a.cols, P i k * val (x.getD k 0) + δ i := by
  obtain ⟨y, hy, hl, he⟩ := C78_csr_mat_vec h t a ha x hx
  obtain ⟨P, δ, h1⟩ := mat_vec_backward h.u_nonneg h.eta_nonneg a.cols a.valuesAt x y he
  exact ⟨y, P, δ, hy, hl, h1⟩

/-- C96 (column format, matrix times vector). -/
theorem C96_csc_mat_vec (h : FloatLaws val fin u η) (t : IntTy) (a : CSC F) (ha : a.WF t) (x : List F)
    (hx : x.length = a.cols) :
    ∃ (y : List F) (P : Nat → Nat → K) (δ : Nat → K), a.mat_vec x = .ok y ∧ y.length = a.rows ∧
      (∀ i k, Near val (gamma u (∑ k ∈ Finset.range a.cols, (a.valuesAt i k).length)) (a.valuesAt i k) (P i k)) ∧
      (∀ i, |δ i| ≤ underflow u η (∑ k ∈ Finset.range a.cols, (a.valuesAt i k).length)) ∧
      ∀ i v, y[i]? = some v → fin v → val v = ∑ k ∈ Finset.range a.cols, P i k * val (x.getD k 0) + δ i := by
  obtain ⟨y, hy, hl, he⟩ := C78_csc_mat_vec h t a ha x hx
  obtain ⟨P, δ, h1⟩ := mat_vec_backward h.u_nonneg h.eta_nonneg a.cols a.valuesAt x y he
  exact ⟨y, P, δ, hy, hl, h1⟩

/-- the change of the left factor -/
theorem mat_mat_left (hu : 0 ≤ u) (he : 0 ≤ η) (n : Nat) (la lb : Nat → List F) {v : K} (hb : ∀ j, (lb j).length ≤ 1)
    (h : |v - ∑ j ∈ Finset.range n, exact val (la j) * exact val (lb j)| ≤
      errBound u η (∑ j ∈ Finset.range n, (la j).length * (lb j).length)
        (∑ j ∈ Finset.range n, mag val (la j) * mag val (lb j))) :
    ∃ (P : Nat → K) (δ : K), (∀ j, Near val (gamma u (∑ j ∈ Finset.range n, (la j).length * (lb j).length)) (la j) (P j)) ∧
      |δ| ≤ underflow u η (∑ j ∈ Finset.range n, (la j).length * (lb j).length) ∧
      v = ∑ j ∈ Finset.range n, P j * exact val (lb j) + δ := by
  refine spread_near (val := val) (Finset.range n) la (fun j => exact val (lb j))
    (gamma_nonneg hu _) (underflow_nonneg hu he _) ?_
  have : (∑ j ∈ Finset.range n, mag val (la j) * |exact val (lb j)|) =
      ∑ j ∈ Finset.range n, mag val (la j) * mag val (lb j) :=
    Finset.sum_congr rfl fun j _ => by rw [mag_single (hb j)]
  rw [this]
  exact h

/-- the change of the right factor -/
theorem mat_mat_right (hu : 0 ≤ u) (he : 0 ≤ η) (n : Nat) (la lb : Nat → List F) {v : K} (ha : ∀ j, (la j).length ≤ 1)
    (h : |v - ∑ j ∈ Finset.range n, exact val (la j) * exact val (lb j)| ≤
      errBound u η (∑ j ∈ Finset.range n, (la j).length * (lb j).length)
        (∑ j ∈ Finset.range n, mag val (la j) * mag val (lb j))) :
    ∃ (Q : Nat → K) (δ : K), (∀ j, Near val (gamma u (∑ j ∈ Finset.range n, (la j).length * (lb j).length)) (lb j) (Q j)) ∧
      |δ| ≤ underflow u η (∑ j ∈ Finset.range n, (la j).length * (lb j).length) ∧
      v = ∑ j ∈ Finset.range n, exact val (la j) * Q j + δ := by
  have h' : |v - ∑ j ∈ Finset.range n, exact val (lb j) * exact val (la j)| ≤
      errBound u η (∑ j ∈ Finset.range n, (lb j).length * (la j).length)
        (∑ j ∈ Finset.range n, mag val (lb j) * mag val (la j)) := by
    simpa only [mul_comm] using h
  obtain ⟨Q, δ, h1, h2, h3⟩ := mat_mat_left hu he n lb la ha h'
  have hl : (∑ j ∈ Finset.range n, (lb j).length * (la j).length) = ∑ j ∈ Finset.range n, (la j).length * (lb j).length :=
    Finset.sum_congr rfl fun j _ => Nat.mul_comm _ _
  rw [hl] at h1 h2
  refine ⟨Q, δ, h1, h2, ?_⟩
  rw [h3]
  congr 1
  exact Finset.sum_congr rfl fun j _ => mul_comm _ _

/-- C96 (row format, product): every finite element of the computed `A B` is the exact scalar product of a slightly changed
row of `A` with the column of `B`, and, the other way round, of the row of `A` with a slightly changed column of `B`, up to
underflow. The factor that is left unchanged stores no duplicates. -/
theorem C96_csr_mat_mat (h : FloatLaws val fin u η) (t : IntTy) (a b : CSR F) (ha : a.WF t) (hb : b.WF t)
    (hd : a.cols = b.rows) (hfit : (a.productSlots b : Int) ≤ t.hi) :
    ∃ r, a.mat_mat t b = .ok r ∧ a.mul t b = .ok r ∧ r.rows = a.rows ∧ r.cols = b.cols ∧ r.NoDup ∧
      ∀ i < a.rows, ∀ k < b.cols, (∀ v ∈ r.valuesAt i k, fin v) →
        (b.NoDup → ∃ (P : Nat → K) (δ : K),
          (∀ j, Near val (gamma u (∑ j ∈ Finset.range a.cols, (a.valuesAt i j).length * (b.valuesAt j k).length))
            (a.valuesAt i j) (P j)) ∧
          |δ| ≤ underflow u η (∑ j ∈ Finset.range a.cols, (a.valuesAt i j).length * (b.valuesAt j k).length) ∧
          exact val (r.valuesAt i k) = ∑ j ∈ Finset.range a.cols, P j * exact val (b.valuesAt j k) + δ) ∧
        (a.NoDup → ∃ (Q : Nat → K) (δ : K),
          (∀ j, Near val (gamma u (∑ j ∈ Finset.range a.cols, (a.valuesAt i j).length * (b.valuesAt j k).length))
            (b.valuesAt j k) (Q j)) ∧
          |δ| ≤ underflow u η (∑ j ∈ Finset.range a.cols, (a.valuesAt i j).length * (b.valuesAt j k).length) ∧
          exact val (r.valuesAt i k) = ∑ j ∈ Finset.range a.cols, exact val (a.valuesAt i j) * Q j + δ) := by
  obtain ⟨r, h1, h2, _, h4, h5, h6, h7⟩ := C78_csr_mat_mat h t a b ha hb hd hfit
  refine ⟨r, h1, h2, h4, h5, h6, fun i hi k hk hf => ⟨fun hn => ?_, fun hn => ?_⟩⟩
  · exact mat_mat_left h.u_nonneg h.eta_nonneg a.cols (fun j => a.valuesAt i j) (fun j => b.valuesAt j k)
      (fun j => CSR.NoDup.one hb hn j k) (h7 i hi k hk hf)
  · exact mat_mat_right h.u_nonneg h.eta_nonneg a.cols (fun j => a.valuesAt i j) (fun j => b.valuesAt j k)
      (fun j => CSR.NoDup.one ha hn i j) (h7 i hi k hk hf)

/-- C96 (column format, product). -/
theorem C96_csc_mat_mat (h : FloatLaws val fin u η) (t : IntTy) (a b : CSC F) (ha : a.WF t) (hb : b.WF t)
    (hd : b.rows = a.cols) (hfit : (a.productSlots b : Int) ≤ t.hi) :
    ∃ r, a.mat_mat t b = .ok r ∧ a.mul t b = .ok r ∧ r.rows = a.rows ∧ r.cols = b.cols ∧ r.NoDup ∧
      ∀ i < a.rows, ∀ k < b.cols, (∀ v ∈ r.valuesAt i k, fin v) →
        (b.NoDup → ∃ (P : Nat → K) (δ : K),
          (∀ j, Near val (gamma u (∑ j ∈ Finset.range a.cols, (a.valuesAt i j).length * (b.valuesAt j k).length))
            (a.valuesAt i j) (P j)) ∧
          |δ| ≤ underflow u η (∑ j ∈ Finset.range a.cols, (a.valuesAt i j).length * (b.valuesAt j k).length) ∧
          exact val (r.valuesAt i k) = ∑ j ∈ Finset.range a.cols, P j * exact val (b.valuesAt j k) + δ) ∧
        (a.NoDup → ∃ (Q : Nat → K) (δ : K),
          (∀ j, Near val (gamma u (∑ j ∈ Finset.range a.cols, (a.valuesAt i j).length * (b.valuesAt j k).length))
            (b.valuesAt j k) (Q j)) ∧
          |δ| ≤ underflow u η (∑ j ∈ Finset.range a.cols, (a.valuesAt i j).length * (b.valuesAt j k).length) ∧
          exact val (r.valuesAt i k) = ∑ j ∈ Finset.range a.cols, exact val (a.valuesAt i j) * Q j + δ) := by
  obtain ⟨r, h1, h2, _, h4, h5, h6, h7⟩ := C78_csc_mat_mat h t a b ha hb hd hfit
  refine ⟨r, h1, h2, h4, h5, h6, fun i hi k hk hf => ⟨fun hn => ?_, fun hn => ?_⟩⟩
  · exact mat_mat_left h.u_nonneg h.eta_nonneg a.cols (fun j => a.valuesAt i j) (fun j => b.valuesAt j k)
      (fun j => CSC.NoDup.one hb hn j k) (h7 i hi k hk hf)
  · exact mat_mat_right h.u_nonneg h.eta_nonneg a.cols (fun j => a.valuesAt i j) (fun j => b.valuesAt j k)
      (fun j => CSC.NoDup.one ha hn i j) (h7 i hi k hk hf)

/-- the relative change in an element-wise operation: one rounding if both operands are canonical, otherwise as many as the
larger number of values stored at the position -/
noncomputable def gammaElem (u : K) (canonical : Prop) (la lb : List F) : K :=
  open Classical in if canonical then u else gamma u (max la.length lb.length)

theorem elem_backward (hu : 0 ≤ u) (c : Prop) (la lb : List F) (σ : K) (hσ : |σ| = 1) {r e : K}
    (he : e = exact val la + σ * exact val lb) (h : |r - e| ≤ elementBound val u c e la lb) :
    ∃ p q, Near val (gammaElem u c la lb) la p ∧ Near val (gammaElem u c la lb) lb q ∧ r = p + σ * q := by
  subst he
  unfold elementBound at h
  unfold gammaElem
  split at h
  · rename_i hc
    simp only [hc, if_true]
    refine spread_two la lb σ hσ hu (h.trans ?_)
    refine mul_le_mul_of_nonneg_left ((abs_add_le _ _).trans ?_) hu
    rw [abs_mul, hσ, one_mul]
    exact add_le_add (abs_exact_le _) (abs_exact_le _)
  · rename_i hc
    simp only [hc, if_false]
    exact spread_two la lb σ hσ (gamma_nonneg hu _) h

/-- C96 (row format, sum and difference): every finite element is the exact sum or difference of two slightly changed
elements. -/
theorem C96_csr_add_sub (h : FloatLaws val fin u η) (t : IntTy) (a b : CSR F) (ha : a.WF t) (hb : b.WF t)
    (hr : b.rows = a.rows) (hc : b.cols = a.cols) (hfit : ((a.stored + b.stored : Nat) : Int) < t.hi) :
    (∃ r, a.add t b = .ok r ∧ ∀ i < a.rows, ∀ k < a.cols, (∀ v ∈ r.valuesAt i k, fin v) →
      ∃ p q, Near val (gammaElem u (a.Canonical ∧ b.Canonical) (a.valuesAt i k) (b.valuesAt i k)) (a.valuesAt i k) p ∧
        Near val (gammaElem u (a.Canonical ∧ b.Canonical) (a.valuesAt i k) (b.valuesAt i k)) (b.valuesAt i k) q ∧
        exact val (r.valuesAt i k) = p + q) ∧
    (∃ r, a.sub t b = .ok r ∧ ∀ i < a.rows, ∀ k < a.cols, (∀ v ∈ r.valuesAt i k, fin v) →
      ∃ p q, Near val (gammaElem u (a.Canonical ∧ b.Canonical) (a.valuesAt i k) (b.valuesAt i k)) (a.valuesAt i k) p ∧
        Near val (gammaElem u (a.Canonical ∧ b.Canonical) (a.valuesAt i k) (b.valuesAt i k)) (b.valuesAt i k) q ∧
        exact val (r.valuesAt i k) = p - q) := by
  obtain ⟨⟨r, h1, h2⟩, ⟨s, h3, h4⟩⟩ := C78_csr_add_sub h t a b ha hb hr hc hfit
  refine ⟨⟨r, h1, fun i hi k hk hf => ?_⟩, ⟨s, h3, fun i hi k hk hf => ?_⟩⟩
  · obtain ⟨p, q, g1, g2, g3⟩ := elem_backward h.u_nonneg _ _ _ 1 abs_one (by ring) (h2 i hi k hk hf)
    exact ⟨p, q, g1, g2, by rw [g3, one_mul]⟩
  · obtain ⟨p, q, g1, g2, g3⟩ := elem_backward h.u_nonneg _ _ _ (-1) (by rw [abs_neg, abs_one]) (by ring) (h4 i hi k hk hf)
    exact ⟨p, q, g1, g2, by rw [g3]; ring⟩

/-- C96 (column format, sum and difference). -/
theorem C96_csc_add_subtract (h : FloatLaws val fin u η) (t : IntTy) (a b : CSC F) (ha : a.WF t) (hb : b.WF t)
    (hr : b.rows = a.rows) (hc : b.cols = a.cols) (hfit : ((a.stored + b.stored : Nat) : Int) < t.hi) :
    (∃ r, a.add t b = .ok r ∧ ∀ i < a.rows, ∀ k < a.cols, (∀ v ∈ r.valuesAt i k, fin v) →
      ∃ p q, Near val (gammaElem u (a.Canonical ∧ b.Canonical) (a.valuesAt i k) (b.valuesAt i k)) (a.valuesAt i k) p ∧
        Near val (gammaElem u (a.Canonical ∧ b.Canonical) (a.valuesAt i k) (b.valuesAt i k)) (b.valuesAt i k) q ∧
        exact val (r.valuesAt i k) = p + q) ∧
    (∃ r, a.subtract t b = .ok r ∧ ∀ i < a.rows, ∀ k < a.cols, (∀ v ∈ r.valuesAt i k, fin v) →
      ∃ p q, Near val (gammaElem u (a.Canonical ∧ b.Canonical) (a.valuesAt i k) (b.valuesAt i k)) (a.valuesAt i k) p ∧
        Near val (gammaElem u (a.Canonical ∧ b.Canonical) (a.valuesAt i k) (b.valuesAt i k)) (b.valuesAt i k) q ∧
        exact val (r.valuesAt i k) = p - q) ∧
    (∃ r, a.add_op t b = .ok r ∧ ∀ i < a.rows, ∀ k < a.cols, (∀ v ∈ r.valuesAt i k, fin v) →
      ∃ p q, Near val (gammaElem u (a.Canonical ∧ b.Canonical) (a.valuesAt i k) (b.valuesAt i k)) (a.valuesAt i k) p ∧
        Near val (gammaElem u (a.Canonical ∧ b.Canonical) (a.valuesAt i k) (b.valuesAt i k)) (b.valuesAt i k) q ∧
        exact val (r.valuesAt i k) = p + q) := by
  obtain ⟨⟨r, h1, h2⟩, ⟨s, h3, h4⟩, ⟨r', h5, h6⟩⟩ := C78_csc_add_subtract h t a b ha hb hr hc hfit
  refine ⟨⟨r, h1, fun i hi k hk hf => ?_⟩, ⟨s, h3, fun i hi k hk hf => ?_⟩, ⟨r', h5, fun i hi k hk hf => ?_⟩⟩
  · obtain ⟨p, q, g1, g2, g3⟩ := elem_backward h.u_nonneg _ _ _ 1 abs_one (by ring) (h2 i hi k hk hf)
    exact ⟨p, q, g1, g2, by rw [g3, one_mul]⟩
  · obtain ⟨p, q, g1, g2, g3⟩ := elem_backward h.u_nonneg _ _ _ (-1) (by rw [abs_neg, abs_one]) (by ring) (h4 i hi k hk hf)
    exact ⟨p, q, g1, g2, by rw [g3]; ring⟩
  · obtain ⟨p, q, g1, g2, g3⟩ := elem_backward h.u_nonneg _ _ _ 1 abs_one (by ring) (h6 i hi k hk hf)
    exact ⟨p, q, g1, g2, by rw [g3, one_mul]⟩

/-- with two significant bits, `3 * 1 + 2 * 1` is rounded to 4: the exact product for the row `[12/5, 8/5]` -/
example : let a : CSR (Chopped 1 16) := ⟨1, 2, [0, 2], [0, 1], [.round 3, .round 2]⟩
    a.WF .u8 ∧ (a.mat_vec [.round 1, .round 1]).toOption.map (·.map Chopped.val) = some [4] ∧
    Near Chopped.val (gamma (2⁻¹ ^ 1) 2) (a.valuesAt 0 0) (12 / 5) ∧
    Near Chopped.val (gamma (2⁻¹ ^ 1) 2) (a.valuesAt 0 1) (8 / 5) ∧ (4 : ℚ) = 12 / 5 * 1 + 8 / 5 * 1 := by
  refine ⟨CSR.wf_of (by decide), by decide +kernel, ?_, ?_, by norm_num⟩
  · unfold Near gamma
    decide +kernel
  · unfold Near gamma
    decide +kernel

/-- an element stored without duplicates: `Near` is a relative change; and nothing is created where nothing is stored -/
example (val : F → K) (g p : K) (v : F) : (Near val g [v] p ↔ |p - val v| ≤ g * |val v|) ∧ (Near val g [] p → p = 0) :=
  ⟨by simp [Near, exact, mag], near_none⟩

end Sparse

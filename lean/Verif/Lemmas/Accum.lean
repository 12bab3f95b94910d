import Verif.Props.Convert
import Mathlib.Algebra.BigOperators.Ring.Finset
/-! Accumulating loops: `y[k] += v` over a list of updates; products with vectors; dense forms. -/
namespace Sparse

section
variable {T : Type}

/-- apply the updates `y[k] += v` in order -/
def accum [Add T] (y : List T) (L : List (Int × T)) : List T :=
  L.foldl (fun y e => y.modify e.1.toNat (· + e.2)) y

@[simp] theorem accum_nil [Add T] (y : List T) : accum y [] = y := rfl
theorem accum_append [Add T] (y : List T) (L M : List (Int × T)) : accum y (L ++ M) = accum (accum y L) M := by
  simp [accum]
theorem accum_one [Add T] (y : List T) (e : Int × T) : accum y [e] = y.modify e.1.toNat (· + e.2) := rfl

@[simp] theorem accum_length [Add T] (y : List T) (L : List (Int × T)) : (accum y L).length = y.length := by
  induction L generalizing y with
  | nil => rfl
  | cons e L ih => rw [accum, List.foldl_cons, ← accum, ih]; simp

theorem set_add_eq_modify [Add T] {y : List T} {k : Nat} {v w : T} (h : y[k]? = some v) :
    y.set k (v + w) = y.modify k (· + w) := by
  apply List.ext_getElem?
  intro i
  rw [List.getElem?_set, List.getElem?_modify]
  obtain ⟨hk, hv⟩ := List.getElem?_eq_some_iff.1 h
  split
  · rename_i e; subst e; simp [hk, hv]
  · simp

theorem accum_get [AddCommMonoid T] (y : List T) {L : List (Int × T)} (hL : ∀ e ∈ L, 0 ≤ e.1) (i : Nat) :
    (accum y L)[i]? = y[i]?.map (· + rowSum L i) := by
  induction L generalizing y with
  | nil => simp
  | cons e L ih =>
    rw [accum, List.foldl_cons, ← accum, ih _ (fun f hf => hL f (by simp [hf])), List.getElem?_modify]
    have := hL e (by simp)
    have h2 : (e.1.toNat = i) ↔ e.1 = (i : Int) := by omega
    by_cases hk : e.1 = (i : Int)
    · simp only [if_pos (h2.2 hk)]
      cases y[i]? <;> simp [rowSum_cons, hk, add_assoc]
    · simp only [if_neg (fun h => hk (h2.1 h))]
      cases y[i]? <;> simp [rowSum_cons, hk]

/-- without any law: element `i` is added to by the values listed for `i`, in order -/
theorem accum_get_fold [Add T] (y : List T) {L : List (Int × T)} (hL : ∀ e ∈ L, 0 ≤ e.1) (i : Nat) :
    (accum y L)[i]? = y[i]?.map (fun v => sumFrom v (valuesIn L i)) := by
  unfold sumFrom
  induction L generalizing y with
  | nil => simp [valuesIn]
  | cons e L ih =>
    rw [accum, List.foldl_cons, ← accum, ih _ (fun f hf => hL f (by simp [hf])), List.getElem?_modify]
    have := hL e (by simp)
    have h2 : (e.1.toNat = i) ↔ e.1 = (i : Int) := by omega
    unfold valuesIn
    by_cases hk : e.1 = (i : Int)
    · simp only [if_pos (h2.2 hk)]
      rw [List.filter_cons, if_pos (by simpa using hk)]
      cases y[i]? <;> simp
    · simp only [if_neg (fun h => hk (h2.1 h))]
      rw [List.filter_cons, if_neg (by simpa using hk)]
      cases y[i]? <;> simp

theorem sumFrom_eq_sum [AddCommMonoid T] (v : T) (l : List T) : sumFrom v l = v + l.sum := by
  unfold sumFrom
  induction l generalizing v with
  | nil => simp
  | cons a l ih => simp [ih, add_assoc]

theorem sumFrom_zero [AddCommMonoid T] (r : List (Int × T)) (k : Int) : sumFrom 0 (valuesIn r k) = rowSum r k := by
  rw [sumFrom_eq_sum, zero_add]; rfl

theorem sumFrom_append [Add T] (v : T) (l m : List T) : sumFrom v (l ++ m) = sumFrom (sumFrom v l) m := by
  simp [sumFrom]

/-- apply the updates `D[r][c] += v` in order -/
def accum2 [Add T] (D : List (List T)) (L : List (Int × Int × T)) : List (List T) :=
  L.foldl (fun D e => D.modify e.1.toNat fun r => r.modify e.2.1.toNat (· + e.2.2)) D

theorem accum2_append [Add T] (y : List (List T)) (L M : List (Int × Int × T)) :
    accum2 y (L ++ M) = accum2 (accum2 y L) M := by
  simp [accum2]

theorem accum2_get [Add T] (D : List (List T)) {L : List (Int × Int × T)} (hL : ∀ e ∈ L, 0 ≤ e.1) (i : Nat) :
    (accum2 D L)[i]? = D[i]?.map fun r => accum r ((L.filter fun e => decide (e.1 = (i : Int))).map (·.2)) := by
  induction L generalizing D with
  | nil => simp [accum2]
  | cons e L ih =>
    rw [accum2, List.foldl_cons, ← accum2, ih _ (fun f hf => hL f (by simp [hf])), List.getElem?_modify]
    have := hL e (by simp)
    have h2 : (e.1.toNat = i) ↔ e.1 = (i : Int) := by omega
    by_cases hk : e.1 = (i : Int)
    · simp only [if_pos (h2.2 hk)]
      cases D[i]? <;> simp [hk, accum]
    · simp only [if_neg (fun h => hk (h2.1 h))]
      cases D[i]? <;> simp [hk, accum]

theorem set_row_eq_modify [Add T] {D : List (List T)} {r : List T} {i j : Nat} {v w : T} (h : D[i]? = some r)
    (h2 : r[j]? = some v) : D.set i (r.set j (v + w)) = D.modify i fun r => r.modify j (· + w) := by
  apply List.ext_getElem?
  intro k
  rw [List.getElem?_set, List.getElem?_modify, set_add_eq_modify h2]
  obtain ⟨hk, hv⟩ := List.getElem?_eq_some_iff.1 h
  split
  · rename_i e; subst e; simp [hk, hv]
  · simp

/-! ### sums -/

theorem rowSum_flat [AddCommMonoid T] (R : Nat → List (Int × T)) (n : Nat) (k : Int) :
    rowSum (flat R n) k = ∑ i ∈ Finset.range n, rowSum (R i) k := by
  induction n with
  | zero => simp
  | succ n ih => rw [flat_succ, rowSum_append, ih, Finset.sum_range_succ]

theorem rowSum_map_mul [NonUnitalNonAssocSemiring T] (r : List (Int × T)) (s : T) (k : Int) :
    rowSum (r.map fun e => (e.1, e.2 * s)) k = rowSum r k * s := by
  induction r with
  | nil => simp
  | cons e r ih =>
    rw [List.map_cons, rowSum_cons, rowSum_cons, ih, add_mul]
    split <;> simp

/-- a row's products with a vector, summed: entry by entry -/
theorem rowDot [NonUnitalNonAssocSemiring T] {r : List (Int × T)} {m : Nat} (h : ∀ e ∈ r, 0 ≤ e.1 ∧ e.1 < m)
    (X : Nat → T) : (r.map fun e => e.2 * X e.1.toNat).sum = ∑ j ∈ Finset.range m, rowSum r j * X j := by
  induction r with
  | nil => simp
  | cons e r ih =>
    rw [List.map_cons, List.sum_cons, ih fun f hf => h f (by simp [hf])]
    have he := h e (by simp)
    simp only [rowSum_cons, add_mul, Finset.sum_add_distrib]
    congr 1
    rw [Finset.sum_eq_single e.1.toNat]
    · rw [if_pos (by omega)]
    · intro b _ hb
      rw [if_neg (by omega), zero_mul]
    · intro hn
      rw [Finset.mem_range] at hn
      omega

/-- sum of the values of triplets at a position -/
def tripSum [AddCommMonoid T] (E : List (Int × Int × T)) (i j : Nat) : T :=
  ((E.filter fun e => decide (e.1 = (i : Int) ∧ e.2.1 = (j : Int))).map (·.2.2)).sum

theorem tripSum_cons [AddCommMonoid T] (e : Int × Int × T) (E : List (Int × Int × T)) (i j : Nat) :
    tripSum (e :: E) i j = (if e.1 = (i : Int) ∧ e.2.1 = (j : Int) then e.2.2 else 0) + tripSum E i j := by
  unfold tripSum
  rw [List.filter_cons]
  by_cases h : e.1 = (i : Int) ∧ e.2.1 = (j : Int)
  · rw [if_pos h, if_pos (by simpa using h)]; simp
  · rw [if_neg h, if_neg (by simpa using h)]; simp

theorem tripSum_eq_rowSum [AddCommMonoid T] (E : List (Int × Int × T)) (i j : Nat) :
    tripSum E i j = rowSum ((E.filter fun e => decide (e.1 = (i : Int))).map (·.2)) j := by
  induction E with
  | nil => simp [tripSum]
  | cons e E ih =>
    rw [tripSum_cons, ih, List.filter_cons]
    by_cases h : e.1 = (i : Int)
    · simp [h, rowSum_cons]
    · simp [h]

/-- products of triplets with a vector -/
theorem tripDot [NonUnitalNonAssocSemiring T] {E : List (Int × Int × T)} {m : Nat}
    (h : ∀ e ∈ E, 0 ≤ e.2.1 ∧ e.2.1 < m) (X : Nat → T) (i : Nat) :
    rowSum (E.map fun e => (e.1, e.2.2 * X e.2.1.toNat)) i = ∑ j ∈ Finset.range m, tripSum E i j * X j := by
  induction E with
  | nil => simp [tripSum]
  | cons e E ih =>
    rw [List.map_cons, rowSum_cons, ih fun f hf => h f (by simp [hf])]
    have he := h e (by simp)
    simp only [tripSum_cons, add_mul, Finset.sum_add_distrib]
    congr 1
    by_cases hi : e.1 = (i : Int)
    · rw [if_pos hi, Finset.sum_eq_single e.2.1.toNat]
      · rw [if_pos ⟨hi, by omega⟩]
      · intro b _ hb
        rw [if_neg (by omega), zero_mul]
      · intro hn
        rw [Finset.mem_range] at hn
        omega
    · rw [if_neg hi]
      symm
      apply Finset.sum_eq_zero
      intro b _
      rw [if_neg (fun h => hi h.1), zero_mul]

theorem flat_filter {α : Type} (p : α → Bool) (R : Nat → List α) (n : Nat) :
    (flat R n).filter p = flat (fun i => (R i).filter p) n := by
  induction n with
  | zero => simp
  | succ n ih => rw [flat_succ, flat_succ, List.filter_append, ih]

/-! ### kernels -/

theorem csr_matvec_exact [Zero T] [Add T] [Mul T] {n m : Nat} {p j : List Int} {x : List T}
    {R : Nat → List (Int × T)} {v y : List T} (hr : Rep p j x n R)
    (hm : ∀ i < n, ∀ e ∈ R i, 0 ≤ e.1 ∧ e.1 < m) (hv : v.length = m) (hy : n ≤ y.length) :
    Ok (csr_matvec n p j x v y) fun r => r.length = y.length ∧
      (∀ i < n, r[i]? = y[i]?.map (sumFrom · ((R i).map fun e => e.2 * v.getD e.1.toNat 0))) ∧
      ∀ i, n ≤ i → r[i]? = y[i]? := by
  unfold csr_matvec
  wp
  refine Ok_forRange (fun i s => s.length = y.length ∧
      (∀ k < i, s[k]? = y[k]?.map (sumFrom · ((R k).map fun e => e.2 * v.getD e.1.toNat 0))) ∧
      ∀ k, i ≤ k → s[k]? = y[k]?) (by omega) (by simp) ?_ (by rintro s ⟨h1, h2, h3⟩; exact ⟨h1, h2, h3⟩)
  rintro i s - hi ⟨hl, h1, h2⟩
  wp
  obtain ⟨a, ha⟩ : ∃ a, y[i]? = some a := ⟨y[i]'(by omega), by simp⟩
  rds [h2 i (le_refl _), ha, hr.ptr i (by omega), hr.ptr_succ hi]
  refine Ok_forRow hr hi (fun pre s => s = sumFrom a (pre.map fun e => e.2 * v.getD e.1.toNat 0)) (by simp [sumFrom]) ?_ ?_
  · rintro pre e suf s' hE rfl hj hx
    wp
    rds [hj, hx]
    have he := hm i hi e (by rw [hE]; simp)
    refine ⟨he.1, v.getD e.1.toNat 0, ?_, _, rfl, ?_⟩
    · rw [List.getD_eq_getElem?_getD]
      have : e.1.toNat < v.length := by omega
      simp [this]
    · simp [sumFrom]
  · rintro s' rfl
    refine ⟨by omega, _, rfl, by simpa using hl, ?_, ?_⟩
    · intro k hk
      rw [List.getElem?_set]
      split
      · rename_i e; subst e
        rw [if_pos (by omega), ha]; rfl
      · exact h1 k (by omega)
    · intro k hk
      rw [List.getElem?_set, if_neg (by omega)]
      exact h2 k (by omega)

theorem csr_matvec_ok [NonUnitalNonAssocSemiring T] {n m : Nat} {p j : List Int} {x : List T}
    {R : Nat → List (Int × T)} {v y : List T} (hr : Rep p j x n R)
    (hm : ∀ i < n, ∀ e ∈ R i, 0 ≤ e.1 ∧ e.1 < m) (hv : v.length = m) (hy : n ≤ y.length) :
    Ok (csr_matvec n p j x v y) fun r => r.length = y.length ∧
      (∀ i < n, r[i]? = y[i]?.map (· + ∑ k ∈ Finset.range m, rowSum (R i) k * v.getD k 0)) ∧
      ∀ i, n ≤ i → r[i]? = y[i]? := by
  refine (csr_matvec_exact hr hm hv hy).mono ?_
  rintro r ⟨h1, h2, h3⟩
  refine ⟨h1, fun i hi => ?_, h3⟩
  rw [h2 i hi]
  congr 1
  funext a
  rw [sumFrom_eq_sum, rowDot (hm _ hi) fun k => v.getD k 0]

theorem csc_matvec_exact [Zero T] [Add T] [Mul T] {n m : Nat} {p j : List Int} {x : List T}
    {R : Nat → List (Int × T)} {v y : List T} (hr : Rep p j x n R)
    (hm : ∀ i < n, ∀ e ∈ R i, 0 ≤ e.1 ∧ e.1 < m) (hv : v.length = n) (hy : m ≤ y.length) :
    Ok (csc_matvec n p j x v y) fun r =>
      r = accum y (flat (fun k => (R k).map fun e => (e.1, e.2 * v.getD k 0)) n) := by
  unfold csc_matvec
  wp
  refine Ok_forRange (fun i s => s = accum y (flat (fun k => (R k).map fun e => (e.1, e.2 * v.getD k 0)) i))
    (by omega) (by simp) ?_ ?_
  · rintro i s - hi rfl
    wp
    rds [hr.ptr i (by omega), hr.ptr_succ hi]
    refine Ok_forRow hr hi (fun pre s => s = accum y (flat (fun k => (R k).map fun e => (e.1, e.2 * v.getD k 0)) i ++
      pre.map fun e => (e.1, e.2 * v.getD i 0))) (by simp) ?_ ?_
    · rintro pre e suf s' hE hs hj hx
      wp
      rds [hj, hx]
      have he := hm i hi e (by rw [hE]; simp)
      have hlen : s'.length = y.length := by rw [hs]; simp
      refine ⟨he.1, s'[e.1.toNat]'(by omega), by simp, v.getD i 0, ?_, by omega, _, rfl, ?_⟩
      · rw [List.getD_eq_getElem?_getD]
        have : i < v.length := by omega
        simp [this]
      · rw [set_add_eq_modify (by simp), List.map_append, ← List.append_assoc, accum_append, ← hs]
        rfl
    · rintro s' hs
      exact ⟨_, rfl, by rw [hs, flat_succ]⟩
  · rintro s rfl
    rfl

theorem csc_matvec_ok [NonUnitalNonAssocSemiring T] {n m : Nat} {p j : List Int} {x : List T}
    {R : Nat → List (Int × T)} {v y : List T} (hr : Rep p j x n R)
    (hm : ∀ i < n, ∀ e ∈ R i, 0 ≤ e.1 ∧ e.1 < m) (hv : v.length = n) (hy : m ≤ y.length) :
    Ok (csc_matvec n p j x v y) fun r => r.length = y.length ∧
      ∀ i : Nat, r[i]? = y[i]?.map (· + ∑ k ∈ Finset.range n, rowSum (R k) i * v.getD k 0) := by
  refine (csc_matvec_exact hr hm hv hy).mono ?_
  rintro s rfl
  refine ⟨by simp, fun i => ?_⟩
  rw [accum_get, rowSum_flat]
  · simp only [rowSum_map_mul]
  · intro e he
    obtain ⟨k, hk, he⟩ := mem_flat.1 he
    rw [List.mem_map] at he
    obtain ⟨f, hf, rfl⟩ := he
    exact (hm k hk f hf).1

theorem coo_matvec_exact [Zero T] [Add T] [Mul T] {E : List (Int × Int × T)} {n m : Nat} {ri ci : List Int}
    {x v y : List T} (hE : ∀ (k : Nat) e, E[k]? = some e → ri[k]? = some e.1 ∧ ci[k]? = some e.2.1 ∧ x[k]? = some e.2.2)
    (hn : ∀ e ∈ E, 0 ≤ e.1 ∧ e.1 < n) (hm : ∀ e ∈ E, 0 ≤ e.2.1 ∧ e.2.1 < m) (hv : v.length = m) (hy : n ≤ y.length) :
    Ok (coo_matvec E.length ri ci x v y) fun r =>
      r = accum y (E.map fun e => (e.1, e.2.2 * v.getD e.2.1.toNat 0)) := by
  unfold coo_matvec
  wp
  refine Ok_forOff (E := E) (by simp) (fun pre s => s = accum y (pre.map fun e => (e.1, e.2.2 * v.getD e.2.1.toNat 0)))
    (by simp) ?_ ?_
  · rintro pre e suf s hpre hs
    have hg := hE pre.length e (by rw [hpre]; simp)
    rw [Nat.zero_add]
    wp
    rds [hg.1, hg.2.1, hg.2.2]
    have h1 := hn e (by rw [hpre]; simp)
    have h2 := hm e (by rw [hpre]; simp)
    have hlen : s.length = y.length := by rw [hs]; simp
    refine ⟨h1.1, h2.1, s[e.1.toNat]'(by omega), by simp, v.getD e.2.1.toNat 0, ?_, by omega, _, rfl, ?_⟩
    · rw [List.getD_eq_getElem?_getD]
      have : e.2.1.toNat < v.length := by omega
      simp [this]
    · rw [set_add_eq_modify (by simp), List.map_append, accum_append, ← hs]
      rfl
  · rintro s rfl
    rfl

theorem coo_matvec_ok [NonUnitalNonAssocSemiring T] {E : List (Int × Int × T)} {n m : Nat} {ri ci : List Int}
    {x v y : List T} (hE : ∀ (k : Nat) e, E[k]? = some e → ri[k]? = some e.1 ∧ ci[k]? = some e.2.1 ∧ x[k]? = some e.2.2)
    (hn : ∀ e ∈ E, 0 ≤ e.1 ∧ e.1 < n) (hm : ∀ e ∈ E, 0 ≤ e.2.1 ∧ e.2.1 < m) (hv : v.length = m) (hy : n ≤ y.length) :
    Ok (coo_matvec E.length ri ci x v y) fun r => r.length = y.length ∧
      ∀ i, r[i]? = y[i]?.map (· + ∑ k ∈ Finset.range m, tripSum E i k * v.getD k 0) := by
  refine (coo_matvec_exact hE hn hm hv hy).mono ?_
  rintro s rfl
  refine ⟨by simp, fun i => ?_⟩
  rw [accum_get, tripDot hm fun k => v.getD k 0]
  intro e he
  rw [List.mem_map] at he
  obtain ⟨f, hf, rfl⟩ := he
  exact (hn f hf).1

theorem accum2_zero [AddCommMonoid T] {E : List (Int × Int × T)} {n m : Nat} (hn : ∀ e ∈ E, 0 ≤ e.1)
    (hm : ∀ e ∈ E, 0 ≤ e.2.1) :
    accum2 (List.replicate n (List.replicate m 0)) E = dense n m (tripSum E) := by
  apply List.ext_getElem?
  intro i
  rw [accum2_get _ hn]
  unfold dense
  rw [List.getElem?_map]
  by_cases hi : i < n
  · rw [List.getElem?_replicate, if_pos hi, List.getElem?_range hi]
    simp only [Option.map_some, Option.some.injEq]
    apply List.ext_getElem?
    intro j
    rw [accum_get, List.getElem?_map]
    · by_cases hj : j < m
      · rw [List.getElem?_replicate, if_pos hj, List.getElem?_range hj]
        simp [tripSum_eq_rowSum]
      · rw [List.getElem?_replicate, if_neg hj, List.getElem?_eq_none (by simp; omega)]
        simp
    · intro e he
      rw [List.mem_map] at he
      obtain ⟨f, hf, rfl⟩ := he
      exact hm f (List.mem_of_mem_filter hf)
  · rw [List.getElem?_replicate, if_neg hi, List.getElem?_eq_none (by simp; omega)]
    simp

theorem accum2_shape [Add T] {D : List (List T)} {m : Nat} (h : ∀ r ∈ D, r.length = m) (L : List (Int × Int × T)) :
    (accum2 D L).length = D.length ∧ ∀ r ∈ accum2 D L, r.length = m := by
  induction L generalizing D with
  | nil => exact ⟨rfl, h⟩
  | cons e L ih =>
    rw [accum2, List.foldl_cons, ← accum2]
    have := ih (D := D.modify e.1.toNat fun r => r.modify e.2.1.toNat (· + e.2.2)) (by
      intro r hr
      obtain ⟨k, hk⟩ := List.mem_iff_getElem?.1 hr
      rw [List.getElem?_modify] at hk
      cases hd : D[k]? with
      | none => rw [hd] at hk; simp at hk
      | some d =>
        rw [hd] at hk
        simp at hk
        have hdm := h d (List.mem_of_getElem? hd)
        split at hk <;> rw [← hk] <;> simp [hdm])
    simpa using this

/-- one update of a dense matrix -/
theorem accum2_step [Add T] {D0 s : List (List T)} {n m : Nat} {L : List (Int × Int × T)} {e : Int × Int × T}
    (hD : D0.length = n) (hr : ∀ r ∈ D0, r.length = m) (hs : s = accum2 D0 L)
    (h1 : 0 ≤ e.1 ∧ e.1 < n) (h2 : 0 ≤ e.2.1 ∧ e.2.1 < m) :
    ∃ r, s[e.1.toNat]? = some r ∧ ∃ v, r[e.2.1.toNat]? = some v ∧ e.2.1.toNat < r.length ∧ e.1.toNat < s.length ∧
      s.set e.1.toNat (r.set e.2.1.toNat (v + e.2.2)) = accum2 D0 (L ++ [e]) := by
  obtain ⟨g1, g2⟩ := accum2_shape hr L
  rw [← hs] at g1 g2
  have hlt : e.1.toNat < s.length := by omega
  have hr2 := g2 (s[e.1.toNat]) (List.getElem_mem hlt)
  refine ⟨s[e.1.toNat], by simp, (s[e.1.toNat])[e.2.1.toNat]'(by omega), by simp, by omega, hlt, ?_⟩
  rw [set_row_eq_modify (by simp) (by simp), accum2_append, ← hs]
  rfl

theorem csr_todense_ok [Add T] {n m : Nat} {p j : List Int} {x : List T} {R : Nat → List (Int × T)}
    {D : List (List T)} (hr : Rep p j x n R) (hm : ∀ i < n, ∀ e ∈ R i, 0 ≤ e.1 ∧ e.1 < m)
    (hD : D.length = n) (hDr : ∀ r ∈ D, r.length = m) :
    csr_todense n p j x D = .ok (accum2 D (flat (fun i => (R i).map fun e => ((i : Int), e.1, e.2)) n)) := by
  suffices h : Ok (csr_todense n p j x D) fun r => r = accum2 D (flat (fun i => (R i).map fun e => ((i : Int), e.1, e.2)) n) by
    obtain ⟨r, h1, h2⟩ := h; rw [h1, h2]
  unfold csr_todense
  wp
  refine Ok_forRange (fun i s => s = accum2 D (flat (fun i => (R i).map fun e => ((i : Int), e.1, e.2)) i))
    (by omega) (by simp [accum2]) ?_ (fun s hs => hs)
  rintro i s - hi rfl
  wp
  rds [hr.ptr i (by omega), hr.ptr_succ hi]
  refine Ok_forRow hr hi (fun pre s => s = accum2 D (flat (fun i => (R i).map fun e => ((i : Int), e.1, e.2)) i ++
      pre.map fun e => ((i : Int), e.1, e.2))) (by simp) ?_ ?_
  · rintro pre e suf s' hE hs hj hx
    wp
    rds [hj, hx]
    have he := hm i hi e (by rw [hE]; simp)
    obtain ⟨r, g1, v, g2, g3, g4, g5⟩ := accum2_step (e := ((i : Int), e.1, e.2)) hD hDr hs
      ⟨by simp, by simpa using hi⟩ he
    simp only [Int.toNat_natCast] at g1 g2 g3 g4 g5
    refine ⟨he.1, r, g1, v, g2, g3, g4, _, rfl, ?_⟩
    rw [g5]; simp
  · rintro s' hs
    exact ⟨_, rfl, by rw [hs, flat_succ]⟩

end
end Sparse

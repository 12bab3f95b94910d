import Verif.Lemmas.Slice
import Verif.Lemmas.Exact
import Verif.Props.Product
import Verif.Props.Basic
/-! Properties C22, C23, C41, C42 and C43: selecting rows and columns. -/
namespace Sparse

section
variable {T : Type}

/-! ### C22 -/

theorem mem_valuesIn {r : List (Int × T)} {k : Int} {v : T} : v ∈ valuesIn r k ↔ (k, v) ∈ r := by
  unfold valuesIn
  simp only [List.mem_map, List.mem_filter, decide_eq_true_eq]
  constructor
  · rintro ⟨e, ⟨h1, rfl⟩, rfl⟩
    exact h1
  · intro h
    exact ⟨_, ⟨h, rfl⟩, rfl⟩

theorem mem_selRow {r : List (Int × T)} {cols : List Int} {k : Int} {v : T} :
    (k, v) ∈ selRow r cols ↔ ∃ c j, k = ((c : Nat) : Int) ∧ cols[c]? = some j ∧ (j, v) ∈ r := by
  unfold selRow
  rw [List.mem_flatMap]
  constructor
  · rintro ⟨⟨j, c⟩, h1, h2⟩
    rw [List.mem_zipIdx_iff_getElem?] at h1
    simp only [selPart, List.mem_map, mem_valuesIn, Prod.mk.injEq] at h2
    obtain ⟨w, h3, rfl, rfl⟩ := h2
    exact ⟨c, j, rfl, h1, h3⟩
  · rintro ⟨c, j, rfl, h1, h2⟩
    refine ⟨(j, c), List.mem_zipIdx_iff_getElem?.2 h1, ?_⟩
    simp only [selPart, List.mem_map, mem_valuesIn]
    exact ⟨v, h2, rfl⟩

theorem selRow_sorted {r : List (Int × T)} (h : (r.map (·.1)).Nodup) (cols : List Int) : SRow (selRow r cols) := by
  induction cols using List.reverseRecOn with
  | nil => simp [selRow, SRow]
  | append_singleton cols k ih =>
    rw [selRow_snoc]
    refine List.pairwise_append.2 ⟨ih, ?_, ?_⟩
    · by_cases hk : ∃ e ∈ r, e.1 = k
      · obtain ⟨e, he, rfl⟩ := hk
        rw [selPart_some h he]
        simp
      · rw [selPart_none hk]
        simp
    · rintro ⟨k1, v1⟩ h1 ⟨k2, v2⟩ h2
      obtain ⟨c, j, rfl, h3, -⟩ := mem_selRow.1 h1
      have : c < cols.length := by
        by_contra h
        rw [List.getElem?_eq_none (by omega)] at h3
        simp at h3
      simp only [selPart, List.mem_map, Prod.mk.injEq] at h2
      obtain ⟨_, _, rfl, _⟩ := h2
      simp only
      omega

theorem valuesIn_selRow {r : List (Int × T)} {cols : List Int} {c : Nat} {j : Int} (h : cols[c]? = some j) :
    valuesIn (selRow r cols) c = valuesIn r j := by
  induction cols using List.reverseRecOn with
  | nil => simp at h
  | append_singleton cols k ih =>
    have happ : ∀ r s : List (Int × T), valuesIn (r ++ s) c = valuesIn r c ++ valuesIn s c := by
      intro r s
      simp [valuesIn]
    rw [selRow_snoc, happ]
    by_cases hc : c < cols.length
    · rw [List.getElem?_append_left hc] at h
      rw [ih h, valuesIn_of_none (k := c), List.append_nil]
      rintro ⟨e, he, h1⟩
      simp only [selPart, List.mem_map] at he
      obtain ⟨w, -, rfl⟩ := he
      simp only at h1
      omega
    · have hc' : c = cols.length := by
        have := (List.getElem?_eq_some_iff.1 h).1
        simp at this
        omega
      subst hc'
      simp at h
      subst h
      rw [valuesIn_of_none, List.nil_append]
      · unfold selPart valuesIn
        simp [List.filter_map, Function.comp_def]
      · rintro ⟨⟨k1, v⟩, he, h1⟩
        obtain ⟨c, j, rfl, h3, -⟩ := mem_selRow.1 he
        simp only at h1
        have := (List.getElem?_eq_some_iff.1 h3).1
        omega

open Classical in
theorem selRow_length {r : List (Int × T)} (h : (r.map (·.1)).Nodup) (cols : List Int) :
    (selRow r cols).length = cols.countP fun j => decide (∃ e ∈ r, e.1 = j) := by
  induction cols using List.reverseRecOn with
  | nil => simp [selRow]
  | append_singleton cols k ih =>
    rw [selRow_snoc, List.length_append, ih, List.countP_append]
    congr 1
    by_cases hk : ∃ e ∈ r, e.1 = k
    · obtain ⟨e, he, rfl⟩ := hk
      rw [selPart_some h he, List.countP_singleton, if_pos (by simpa using ⟨e.2, he⟩)]; rfl
    · rw [selPart_none hk, List.countP_singleton, if_neg (by simpa using hk)]; rfl

theorem pickCount_eq (a : CSR T) {rows cols : List Int} (hc : ∀ c ∈ cols, 0 ≤ c)
    (hnd : ∀ r ∈ rows, ((a.row r.toNat).map (·.1)).Nodup) :
    a.pickCount rows cols = (rows.map fun r => (selRow (a.row r.toNat) cols).length).sum := by
  classical
  unfold CSR.pickCount
  congr 1
  apply List.map_congr_left
  intro i hi
  rw [selRow_length (hnd i hi)]
  apply List.countP_congr
  intro j hj
  simp only [decide_eq_true_eq]
  unfold CSR.has
  rw [Int.toNat_of_nonneg (hc j hj)]
  constructor
  · rintro ⟨v, hv⟩; exact ⟨_, hv, rfl⟩
  · rintro ⟨⟨k, v⟩, hv, rfl⟩; exact ⟨v, hv⟩

theorem csr_select_wf [Zero T] {t : IntTy} {a : CSR T} (ha : a.WF t) (hcan : a.Canonical) {rows cols : List Int}
    (hr : ∀ r ∈ rows, 0 ≤ r ∧ r < a.rows) (hc : ∀ c ∈ cols, 0 ≤ c ∧ c < a.cols) (hcl : (cols.length : Int) ≤ t.hi + 1)
    (hfit : (a.pickCount rows cols : Int) ≤ t.hi) :
    ∃ p j x, csr_select t a.rowptr a.colidx a.values rows cols [] [] [] = .ok (p, j, x) ∧
      (let q : CSR T := ⟨rows.length, cols.length, p, j, x⟩
       q.WF t ∧ q.Canonical ∧
       (∀ (r c i k : Nat), rows[r]? = some (i : Int) → cols[c]? = some (k : Int) →
          valuesIn (q.row r) c = valuesIn (a.row i) k) ∧
       q.stored = a.pickCount rows cols ∧ j.length = a.pickCount rows cols ∧ x.length = a.pickCount rows cols) := by
  have hnd : ∀ i < a.rows, ((a.row i).map (·.1)).Nodup := fun i hi => SRow.nodup_keys (hcan i hi)
  have hpc := pickCount_eq a (rows := rows) (cols := cols) (fun c h => (hc c h).1)
    (fun r h => hnd _ (by have := hr r h; omega))
  obtain ⟨⟨p, j, x⟩, h1, h2, h3, h4⟩ := csr_select_ok (t := t) (bp0 := []) (bj0 := []) (bx0 := []) ha.rep
    (fun i hi e he => (ha.mem hi he).1) hnd hr (fun c h => (hc c h).1) hcl (by rw [← hpc]; exact hfit)
  simp only [← hpc] at h3 h4
  simp only at h2
  have hrow : ∀ i < rows.length, (⟨rows.length, cols.length, p, j, x⟩ : CSR T).row i = selRow (a.row (rows.getD i 0).toNat) cols :=
    fun i hi => CSR.row_of_rep (a := ⟨rows.length, cols.length, p, j, x⟩) h2 hi
  have hgl : ∀ i < rows.length, (rows.getD i 0).toNat < a.rows := by
    intro i hi
    rw [List.getD_eq_getElem?_getD, List.getElem?_eq_getElem hi]
    have := hr _ (List.getElem_mem hi)
    simp only [Option.getD_some]
    omega
  have hst : (⟨rows.length, cols.length, p, j, x⟩ : CSR T).stored = a.pickCount rows cols := by
    rw [CSR.stored_of_rep (a := ⟨rows.length, cols.length, p, j, x⟩) h2, hpc, flat_length_sum]
    congr 1
    apply List.ext_getElem?
    intro i
    simp only [List.getElem?_map]
    by_cases hi : i < rows.length
    · rw [List.getElem?_range hi, List.getElem?_eq_getElem hi]
      simp [hi]
    · simp [hi]
  refine ⟨p, j, x, h1, ?_, ?_, ?_, hst, h3, h4⟩
  · refine h2.wf ?_ ?_
    · rintro i hi ⟨k, v⟩ he
      obtain ⟨c, j, rfl, h5, -⟩ := mem_selRow.1 he
      have : c < cols.length := by
        by_contra h
        rw [List.getElem?_eq_none (by omega)] at h5
        simp at h5
      simp only
      omega
    · rw [← CSR.stored_of_rep (a := ⟨rows.length, cols.length, p, j, x⟩) h2, hst]
      exact hfit
  · intro i hi
    rw [hrow i hi]
    exact selRow_sorted (hnd _ (hgl i hi)) _
  · intro r c i k hri hck
    have hrl : r < rows.length := by
      by_contra h
      rw [List.getElem?_eq_none (by omega)] at hri
      simp at hri
    have hgd : (rows.getD r 0).toNat = i := by
      rw [List.getD_eq_getElem?_getD, hri]; simp
    rw [hrow r hrl, hgd, valuesIn_selRow hck]

/-- equal value lists: equal entries and both stored or both not -/
theorem CSR.entry_has_of_values [AddCommMonoid T] {a b : CSR T} {i j r c : Nat}
    (h : valuesIn (a.row r) c = valuesIn (b.row i) j) : a.entry r c = b.entry i j ∧ (a.has r c ↔ b.has i j) := by
  refine ⟨congrArg List.sum h, ?_⟩
  unfold CSR.has
  simp only [← mem_valuesIn, h]

theorem select_idx_ok {t : IntTy} {n : Nat} (hn : (n : Int) ≤ t.hi) {idx : Option (List Int)}
    (h : ∀ i ∈ chosen n idx, 0 ≤ i ∧ i < (n : Int)) : select_idx t n idx = .ok (chosen n idx) := by
  cases idx with
  | none => exact iotaM_ok t n (by omega)
  | some l =>
    suffices hh : Ok (select_idx t n (some l)) fun r => r = l by
      obtain ⟨r, h1, h2⟩ := hh; rw [h1, h2]; rfl
    unfold select_idx
    wp
    refine Ok_forList (fun _ (s : PUnit) => True) trivial ?_ (fun _ _ => trivial)
    rintro p i r s hE -
    have := h i (by simp only [chosen]; rw [hE]; simp)
    rw [Ok_ite]
    refine ⟨fun h' => absurd h' (by omega), fun _ => ?_⟩
    wp
    refine ⟨hn, ?_⟩
    rw [Ok_ite]
    refine ⟨fun h' => absurd h' (by omega), fun _ => ?_⟩
    wp
    exact ⟨⟨⟩, trivial, trivial⟩

theorem select_idx_err {t : IntTy} {n : Nat} (hn : (n : Int) ≤ t.hi) {idx : Option (List Int)}
    (h : ¬ ∀ i ∈ chosen n idx, 0 ≤ i ∧ i < (n : Int)) : select_idx t n idx = .error .err := by
  cases idx with
  | none =>
    exfalso
    apply h
    intro i hi
    simp only [chosen, List.mem_map, List.mem_range] at hi
    obtain ⟨q, hq, rfl⟩ := hi
    omega
  | some l =>
    simp only [chosen] at h
    suffices hw : WP (select_idx t n (some l)) (fun _ => False) (fun e => e = .err) from hw.fails_eq
    unfold select_idx
    wpe
    refine WP_forList (fun p _ => ∀ i ∈ p, 0 ≤ i ∧ i < (n : Int)) (fun _ => False) (by simp) ?_ (by simp) (fun _ h' => h h')
    rintro p i r s hE hP
    rw [WP_ite]
    refine ⟨fun _ => by wpe, fun h1 => ?_⟩
    wpe
    refine ⟨fun _ => ?_, fun h' => absurd hn h'⟩
    rw [WP_ite]
    refine ⟨fun _ => by wpe, fun h2 => ?_⟩
    wpe
    intro q hq
    simp only [List.mem_append, List.mem_singleton] at hq
    rcases hq with hq | rfl
    · exact hP q hq
    · omega

/-- C22 (CSR). For a valid canonical matrix (no row starting at position `I::MAX`, see C09) with representable
dimensions and any lists of indices in range (repeated, in any order, empty, or absent meaning all), `select`
returns a valid canonical matrix with one row per requested row and one column per requested column, whose
element `(r, c)` is that at the `r`-th requested row and `c`-th requested column, and which stores exactly the
selected stored positions, without unused storage. -/
theorem C22_csr_select [AddCommMonoid T] (t : IntTy) (a : CSR T) (ha : a.WF t) (hcan : a.Canonical)
    (hst : ∀ (i : Nat) (v : Int), i < a.rows → a.rowptr[i]? = some v → v < t.hi)
    (hr : (a.rows : Int) ≤ t.hi) (hc : (a.cols : Int) ≤ t.hi) (ri ci : Option (List Int))
    (hri : ∀ i ∈ chosen a.rows ri, 0 ≤ i ∧ i < (a.rows : Int)) (hci : ∀ j ∈ chosen a.cols ci, 0 ≤ j ∧ j < (a.cols : Int))
    (hlen : ((chosen a.cols ci).length : Int) ≤ t.hi + 1)
    (hfit : (a.pickCount (chosen a.rows ri) (chosen a.cols ci) : Int) ≤ t.hi) :
    ∃ q, a.select t ri ci = .ok q ∧ q.WF t ∧ q.Canonical ∧
      q.rows = (chosen a.rows ri).length ∧ q.cols = (chosen a.cols ci).length ∧
      (∀ (r c i j : Nat), (chosen a.rows ri)[r]? = some (i : Int) → (chosen a.cols ci)[c]? = some (j : Int) →
        q.entry r c = a.entry i j ∧ (q.has r c ↔ a.has i j)) ∧
      q.nnz = .ok (a.pickCount (chosen a.rows ri) (chosen a.cols ci)) ∧ q.colidx.length = q.stored ∧ q.values.length = q.stored := by
  obtain ⟨p, j, x, h1, h2, h3, h4, h5, h6, h7⟩ := csr_select_wf ha hcan hri hci hlen hfit
  refine ⟨⟨_, _, p, j, x⟩, ?_, h2, h3, rfl, rfl, fun r c i k e1 e2 => CSR.entry_has_of_values (h4 r c i k e1 e2), ?_,
    h6.trans h5.symm, h7.trans h5.symm⟩
  · obtain ⟨b, hb1, hb2⟩ := C09_csr_has_canonical_partial t a ha hst
    unfold CSR.select
    rw [hb1, hb2.2 hcan, select_idx_ok hr hri, select_idx_ok hc hci]
    simp only [bind, Except.bind, Bool.not_true]
    rw [h1]
    exact CSR.new_ok (CSR.WF.rep h2)
  · rw [CSR.nnz_ok (CSR.WF.rep h2), ← CSR.WF.stored_eq h2, h5]

/-- C22 (CSR, `Err`). With representable dimensions, `select` returns `Err` when the matrix is not canonical or a
requested index is out of range. -/
theorem C22_csr_select_err [AddCommMonoid T] (t : IntTy) (a : CSR T) (ha : a.WF t)
    (hst : ∀ (i : Nat) (v : Int), i < a.rows → a.rowptr[i]? = some v → v < t.hi)
    (hr : (a.rows : Int) ≤ t.hi) (hc : (a.cols : Int) ≤ t.hi) (ri ci : Option (List Int))
    (h : ¬ a.Canonical ∨ ¬ (∀ i ∈ chosen a.rows ri, 0 ≤ i ∧ i < (a.rows : Int)) ∨
      ¬ (∀ j ∈ chosen a.cols ci, 0 ≤ j ∧ j < (a.cols : Int))) :
    a.select t ri ci = .error .err := by
  obtain ⟨b, hb1, hb2⟩ := C09_csr_has_canonical_partial t a ha hst
  unfold CSR.select
  rw [hb1]
  by_cases hcan : a.Canonical
  · rw [hb2.2 hcan]
    simp only [bind, Except.bind, Bool.not_true]
    by_cases h1 : ∀ i ∈ chosen a.rows ri, 0 ≤ i ∧ i < (a.rows : Int)
    · rw [select_idx_ok hr h1]
      have h2 : ¬ (∀ j ∈ chosen a.cols ci, 0 ≤ j ∧ j < (a.cols : Int)) := by
        rcases h with h | h | h
        · exact absurd hcan h
        · exact absurd h1 h
        · exact h
      rw [select_idx_err hc h2]
      rfl
    · rw [select_idx_err hr h1]
      rfl
  · have : b = false := by
      by_contra hb
      exact hcan (hb2.1 (by simpa using hb))
    subst this
    rfl

/-- C22 (CSC). -/
theorem C22_csc_select [AddCommMonoid T] (t : IntTy) (a : CSC T) (ha : a.WF t) (hcan : a.Canonical)
    (hst : ∀ (i : Nat) (v : Int), i < a.cols → a.colptr[i]? = some v → v < t.hi)
    (hr : (a.rows : Int) ≤ t.hi) (hc : (a.cols : Int) ≤ t.hi) (ri ci : Option (List Int))
    (hri : ∀ i ∈ chosen a.rows ri, 0 ≤ i ∧ i < (a.rows : Int)) (hci : ∀ j ∈ chosen a.cols ci, 0 ≤ j ∧ j < (a.cols : Int))
    (hlen : ((chosen a.rows ri).length : Int) ≤ t.hi + 1)
    (hfit : (a.pickCount (chosen a.rows ri) (chosen a.cols ci) : Int) ≤ t.hi) :
    ∃ q, a.select t ri ci = .ok q ∧ q.WF t ∧ q.Canonical ∧
      q.rows = (chosen a.rows ri).length ∧ q.cols = (chosen a.cols ci).length ∧
      (∀ (r c i j : Nat), (chosen a.rows ri)[r]? = some (i : Int) → (chosen a.cols ci)[c]? = some (j : Int) →
        q.entry r c = a.entry i j ∧ (q.has r c ↔ a.has i j)) ∧
      q.nnz = .ok (a.pickCount (chosen a.rows ri) (chosen a.cols ci)) ∧ q.rowidx.length = q.stored ∧ q.values.length = q.stored := by
  obtain ⟨p, j, x, h1, h2, h3, h4, h5, h6, h7⟩ := csr_select_wf (a := a.asCSR) ha hcan hci hri hlen hfit
  have h2' : (⟨(chosen a.rows ri).length, (chosen a.cols ci).length, j, p, x⟩ : CSC T).WF t := h2
  refine ⟨⟨_, _, j, p, x⟩, ?_, h2', h3, rfl, rfl, fun r c i k e1 e2 => CSR.entry_has_of_values (b := a.asCSR) (h4 c r k i e2 e1), ?_,
    h6.trans h5.symm, h7.trans h5.symm⟩
  · obtain ⟨b, hb1, hb2⟩ := C09_csc_has_canonical_partial t a ha hst
    unfold CSC.select
    rw [hb1, hb2.2 hcan, select_idx_ok hr hri, select_idx_ok hc hci]
    simp only [bind, Except.bind, Bool.not_true]
    simp only [CSC.asCSR] at h1
    rw [h1]
    rfl
  · rw [CSC.nnz_ok (CSC.WF.rep h2'), ← CSC.WF.stored_eq h2']
    exact congrArg _ h5

/-- C22 (CSC, `Err`). -/
theorem C22_csc_select_err [AddCommMonoid T] (t : IntTy) (a : CSC T) (ha : a.WF t)
    (hst : ∀ (i : Nat) (v : Int), i < a.cols → a.colptr[i]? = some v → v < t.hi)
    (hr : (a.rows : Int) ≤ t.hi) (hc : (a.cols : Int) ≤ t.hi) (ri ci : Option (List Int))
    (h : ¬ a.Canonical ∨ ¬ (∀ i ∈ chosen a.rows ri, 0 ≤ i ∧ i < (a.rows : Int)) ∨
      ¬ (∀ j ∈ chosen a.cols ci, 0 ≤ j ∧ j < (a.cols : Int))) :
    a.select t ri ci = .error .err := by
  obtain ⟨b, hb1, hb2⟩ := C09_csc_has_canonical_partial t a ha hst
  unfold CSC.select
  rw [hb1]
  by_cases hcan : a.Canonical
  · rw [hb2.2 hcan]
    simp only [bind, Except.bind, Bool.not_true]
    by_cases h1 : ∀ i ∈ chosen a.rows ri, 0 ≤ i ∧ i < (a.rows : Int)
    · rw [select_idx_ok hr h1]
      have h2 : ¬ (∀ j ∈ chosen a.cols ci, 0 ≤ j ∧ j < (a.cols : Int)) := by
        rcases h with h | h | h
        · exact absurd hcan h
        · exact absurd h1 h
        · exact h
      rw [select_idx_err hc h2]
      rfl
    · rw [select_idx_err hr h1]
      rfl
  · have : b = false := by
      by_contra hb
      exact hcan (hb2.1 (by simpa using hb))
    subst this
    rfl

theorem select_idx_dim (t : IntTy) (n : Nat) (hn : t.hi < (n : Int)) (i : Int) (l : List Int) (hi : 0 ≤ i) :
    select_idx t n (some (i :: l)) = .error (.panic .unwrap) := by
  unfold select_idx
  simp only [List.forIn_cons, if_neg (show ¬ i < 0 by omega), IntTy.checked_ofUsize, if_neg (show ¬ (n : Int) ≤ t.hi by omega)]
  rfl

/-- C22 (boundary). When the number of rows is not representable in the index type, a list of row indices
starting with a valid one makes `select` panic instead of selecting. -/
theorem C22_select_dim_panics [AddCommMonoid T] (t : IntTy) (a : CSR T) (ha : a.WF t) (hcan : a.Canonical)
    (hst : ∀ (i : Nat) (v : Int), i < a.rows → a.rowptr[i]? = some v → v < t.hi)
    (hn : t.hi < (a.rows : Int)) (i : Int) (l : List Int) (hi : 0 ≤ i) (ci : Option (List Int)) :
    a.select t (some (i :: l)) ci = .error (.panic .unwrap) := by
  obtain ⟨b, hb1, hb2⟩ := C09_csr_has_canonical_partial t a ha hst
  unfold CSR.select
  rw [hb1, hb2.2 hcan, select_idx_dim t a.rows hn i l hi]
  rfl

theorem C22_pick_le (a : CSR T) (rows cols : List Int) : a.pickCount rows cols ≤ rows.length * cols.length := by
  classical
  unfold CSR.pickCount
  induction rows with
  | nil => simp
  | cons r rows ih =>
    rw [List.map_cons, List.sum_cons, List.length_cons, Nat.add_mul, Nat.one_mul, Nat.add_comm]
    exact Nat.add_le_add ih List.countP_le_length

example : ∃ a : CSR Int, a.WF .i8 ∧ a.Canonical ∧
    (∀ (i : Nat) (v : Int), i < a.rows → a.rowptr[i]? = some v → v < IntTy.i8.hi) ∧
    (a.rows : Int) ≤ IntTy.i8.hi ∧ (a.cols : Int) ≤ IntTy.i8.hi ∧
    (∀ i ∈ chosen a.rows (some [1, 0, 1]), 0 ≤ i ∧ i < (a.rows : Int)) ∧ (∀ j ∈ chosen a.cols none, 0 ≤ j ∧ j < (a.cols : Int)) ∧
    ((chosen a.cols none).length : Int) ≤ IntTy.i8.hi + 1 ∧
    (a.pickCount (chosen a.rows (some [1, 0, 1])) (chosen a.cols none) : Int) ≤ IntTy.i8.hi := by
  refine ⟨exCan, CSR.wf_of (by decide), by unfold CSR.Canonical; decide, ?_, by decide, by decide, by decide, by decide, by decide, ?_⟩
  · intro i v hi h
    have hi : i < 2 := hi
    have : i = 0 ∨ i = 1 := by omega
    rcases this with rfl | rfl <;> (simp [exCan] at h; subst h; decide)
  · have := C22_pick_le exCan (chosen exCan.rows (some [1, 0, 1])) (chosen exCan.cols none)
    have e1 : (chosen exCan.rows (some [1, 0, 1])).length = 3 := rfl
    have e2 : (chosen exCan.cols none).length = exCan.cols := by simp [chosen]
    rw [e1, e2] at this
    simp only [exCan, IntTy.i8] at this ⊢
    omega

/-! ### C23 -/

theorem valuesIn_cutRow {r : List (Int × T)} {c0 c1 k : Int} (h1 : 0 ≤ k) (h2 : c0 + k < c1) :
    valuesIn (cutRow r c0 c1) k = valuesIn r (c0 + k) := by
  unfold valuesIn cutRow
  rw [List.filter_map, List.filter_filter, List.map_map]
  rw [show (r.filter fun e => (decide (e.1 = c0 + k))) = r.filter fun a =>
      (((fun e : Int × T => decide (e.1 = k)) ∘ fun e => (e.1 - c0, e.2)) a && decide (c0 ≤ a.1 ∧ a.1 < c1)) from ?_]
  · rfl
  · apply List.filter_congr
    intro e _
    simp only [Function.comp]
    rw [← Bool.decide_and, decide_eq_decide]
    omega

theorem submatrix_wf [Zero T] {t : IntTy} {a : CSR T} (ha : a.WF t) {r0 r1 c0 c1 : Nat} (hr : r0 ≤ r1)
    (hr1 : r1 ≤ a.rows) (hr1t : (r1 : Int) ≤ t.hi) (hc : c0 ≤ c1) (hc1t : (c1 : Int) ≤ t.hi)
    (p0 j0 : List Int) (x0 : List T) :
    ∃ p j x, get_csr_submatrix t a.rowptr a.colidx a.values r0 r1 c0 c1 p0 j0 x0 = .ok (p, j, x) ∧
      (let q : CSR T := ⟨r1 - r0, c1 - c0, p, j, x⟩
       q.WF t ∧ (∀ i k, i < r1 - r0 → k < c1 - c0 → q.valuesAt i k = a.valuesAt (r0 + i) (c0 + k)) ∧
       (∀ i < r1 - r0, q.row i = ((a.row (r0 + i)).filter fun e => decide ((c0 : Int) ≤ e.1 ∧ e.1 < (c1 : Int))).map
          fun e => (e.1 - (c0 : Int), e.2)) ∧
       j.length = q.stored ∧ x.length = q.stored) := by
  obtain ⟨⟨p, j, x⟩, h1, h2, h3, h4, h5⟩ := get_csr_submatrix_ok (t := t) (c0 := (c0 : Int)) (c1 := (c1 : Int)) (bp0 := p0)
    (bj0 := j0) (bx0 := x0) ha.rep hr hr1 hr1t (by omega) hc1t ha.fits
  simp only at h2 h3 h4 h5
  have hrow : ∀ i < r1 - r0, (⟨r1 - r0, c1 - c0, p, j, x⟩ : CSR T).row i = cutRow (a.row (r0 + i)) c0 c1 :=
    fun i hi => CSR.row_of_rep (a := ⟨r1 - r0, c1 - c0, p, j, x⟩) h2 hi
  have hst := CSR.stored_of_rep (a := ⟨r1 - r0, c1 - c0, p, j, x⟩) h2
  refine ⟨p, j, x, h1, ?_, ?_, hrow, by rw [hst, h3], by rw [hst, h4]⟩
  · refine h2.wf ?_ ?_
    · rintro i hi ⟨k, v⟩ he
      unfold cutRow at he
      simp only [List.mem_map, List.mem_filter, decide_eq_true_eq, Prod.mk.injEq] at he
      obtain ⟨e, ⟨he, h5⟩, rfl, rfl⟩ := he
      have := ha.mem (show r0 + i < a.rows by omega) he
      simp only
      omega
    · exact h5
  · intro i k hi hk
    unfold CSR.valuesAt
    rw [hrow i hi, valuesIn_cutRow (by omega) (by omega)]
    rfl

/-- C23. For `0 ≤ r0 ≤ r1 ≤ rows` and `0 ≤ c0 ≤ c1 ≤ cols` (values of the index type), `get_csr_submatrix` returns,
whatever the output vectors held before, a valid CSR matrix for the block: its element `(i, j)` is that at
`(r0 + i, c0 + j)`, and each of its rows is the corresponding row cut to the columns of the block and shifted,
in the same order. -/
theorem C23_submatrix [AddCommMonoid T] (t : IntTy) (a : CSR T) (ha : a.WF t) (r0 r1 c0 c1 : Nat) (hr : r0 ≤ r1)
    (hr1 : r1 ≤ a.rows) (hr1t : (r1 : Int) ≤ t.hi) (hc : c0 ≤ c1) (hc1t : (c1 : Int) ≤ t.hi)
    (p0 j0 : List Int) (x0 : List T) :
    ∃ p j x, get_csr_submatrix t a.rowptr a.colidx a.values r0 r1 c0 c1 p0 j0 x0 = .ok (p, j, x) ∧
      (let q : CSR T := ⟨r1 - r0, c1 - c0, p, j, x⟩
       q.WF t ∧ (∀ i k, i < r1 - r0 → k < c1 - c0 → q.entry i k = a.entry (r0 + i) (c0 + k)) ∧
       (∀ i < r1 - r0, q.row i = ((a.row (r0 + i)).filter fun e => decide ((c0 : Int) ≤ e.1 ∧ e.1 < (c1 : Int))).map
          fun e => (e.1 - (c0 : Int), e.2)) ∧
       j.length = q.stored ∧ x.length = q.stored) := by
  obtain ⟨p, j, x, h1, h2, h3, h4⟩ := submatrix_wf ha hr hr1 hr1t hc hc1t p0 j0 x0
  exact ⟨p, j, x, h1, h2, fun i k hi hk => congrArg List.sum (h3 i k hi hk), h4⟩

example : exCan.WF .i8 ∧ exCan.stored = 3 ∧ (1 : Nat) ≤ 2 ∧ 2 ≤ exCan.rows ∧ ((2 : Nat) : Int) ≤ IntTy.i8.hi :=
  ⟨CSR.wf_of (by decide), by decide, by decide, by decide, by decide⟩

/-! ### C41 -/

/-- C41 (`csr_row_index`). The entries of the requested rows are appended, in order. -/
theorem C41_row_index (t : IntTy) (a : CSR T) (ha : a.WF t) (rows : List Nat) (hr : ∀ r ∈ rows, r < a.rows)
    (j0 : List Int) (x0 : List T) :
    csr_row_index rows.length rows a.rowptr a.colidx a.values j0 x0 =
      .ok (j0 ++ (rows.flatMap a.row).map (·.1), x0 ++ (rows.flatMap a.row).map (·.2)) :=
  csr_row_index_ok ha.rep hr

/-- C41 (`csr_row_slice`, the full statement fails for `step = 0`, see C41_row_slice_diverges). For a positive
step the entries of rows `start, start + step, … < stop` are appended in order; the loop ends after at most
`stop - start` rounds. For step 0 and `start ≤ stop` nothing is appended. -/
theorem C41_row_slice_partial (t : IntTy) (a : CSR T) (ha : a.WF t) (start stop step : Nat) (hn : stop ≤ a.rows)
    (j0 : List Int) (x0 : List T) (fuel : Nat) (hf : stop - start < fuel) :
    (0 < step → csr_row_slice fuel start stop step a.rowptr a.colidx a.values j0 x0 =
      (let rows := (List.range stop).filter fun r => decide (start ≤ r ∧ step ∣ r - start)
       .ok (j0 ++ (rows.flatMap a.row).map (·.1), x0 ++ (rows.flatMap a.row).map (·.2)))) ∧
    (start ≤ stop → csr_row_slice fuel start stop 0 a.rowptr a.colidx a.values j0 x0 = .ok (j0, x0)) := by
  refine ⟨fun hs => csr_row_slice_ok ha.rep hs hn hf, fun h => ?_⟩
  obtain ⟨f, rfl⟩ : ∃ f, fuel = f + 1 := ⟨fuel - 1, by omega⟩
  exact csr_row_slice_zero h

/-- C41 (the termination claim is false). With step 0 and `stop < start < rows` the loop never ends: no number of
rounds is enough. -/
theorem C41_row_slice_diverges (t : IntTy) (a : CSR T) (ha : a.WF t) (start stop : Nat) (hn : start < a.rows)
    (h : stop < start) (j0 : List Int) (x0 : List T) (fuel : Nat) :
    csr_row_slice fuel start stop 0 a.rowptr a.colidx a.values j0 x0 = .error (.panic .fuel) :=
  csr_row_slice_loop ha.rep hn h fuel

example : ∃ a : CSR Int, a.WF .i8 ∧ (0 : Nat) < 1 ∧ 1 < a.rows ∧ a.rows ≤ a.rows ∧ 0 < 2 ∧
    csr_row_slice 10 0 a.rows 2 a.rowptr a.colidx a.values [9] [9] = .ok ([9, 0, 1, 0], [9, 5, 7, 2]) :=
  ⟨⟨3, 2, [0, 2, 3, 4], [0, 1, 1, 0], [5, 7, -3, 2]⟩, CSR.wf_of (by decide), by decide, by decide, by decide, by decide, by decide +kernel⟩

/-! ### C42 -/

/-- `order` lists the positions of `idx`, ordered by the column they request (an argsort of `idx`) -/
def IsArgsort (idx : List Nat) (order : List Int) : Prop :=
  order.Perm ((List.range idx.length).map fun i : Nat => (i : Int)) ∧
  order.Pairwise fun c d => ∀ j k, idx[c.toNat]? = some j → idx[d.toNat]? = some k → j ≤ k

theorem valuesIn_spread {F : Nat → List Int} {r : List (Int × T)} {c : Int} {j : Nat}
    (hr : ∀ e ∈ r, 0 ≤ e.1) (hin : (F j).count c = 1) (hout : ∀ k, k ≠ j → c ∉ F k) :
    valuesIn (spread F r) c = valuesIn r j := by
  have one : ∀ (l : List Int) (v : T), valuesIn (l.map fun d => (d, v)) c = List.replicate (l.count c) v := by
    intro l v
    induction l with
    | nil => rfl
    | cons d l ih =>
      rw [List.map_cons, valuesIn_cons, ih, List.count_cons]
      by_cases h : d = c
      · simp [h, List.replicate_succ]
      · simp [h]
  induction r with
  | nil => rfl
  | cons e r ih =>
    rw [show e :: r = [e] ++ r from rfl, spread_append, valuesIn_append, valuesIn_append, ih fun f hf => hr f (by simp [hf]),
      spread_one, one]
    congr 1
    have he := hr e (by simp)
    rw [valuesIn_cons]
    by_cases h : e.1.toNat = j
    · rw [h, hin, if_pos (by omega)]; rfl
    · rw [List.count_eq_zero_of_not_mem (hout _ h), if_neg (by omega)]; rfl

theorem column_index_wf {t : IntTy} {a : CSR T} (ha : a.WF t) {idx : List Nat} (hidx : ∀ j ∈ idx, j < a.cols)
    {order : List Int} (hord : IsArgsort idx order) (hn : (idx.length : Int) ≤ t.hi)
    (hfit : (((a.triples.map fun e => idx.count e.2.1.toNat).sum : Nat) : Int) ≤ t.hi)
    (p0 : List Int) (hp0 : p0.length = a.rows + 1) :
    ∃ off p c, csr_column_index1 t idx.length idx a.rows a.cols a.rowptr a.colidx (List.replicate a.cols 0) p0 = .ok (off, p) ∧
      p[a.rows]? = some ((c : Nat) : Int) ∧ c = (a.triples.map fun e => idx.count e.2.1.toNat).sum ∧
      ∀ (j0 : List Int) (x0 : List T), c ≤ j0.length → c ≤ x0.length →
        ∃ j x, csr_column_index2 order off a.stored a.colidx a.values j0 x0 = .ok (j, x) ∧
          (let q : CSR T := ⟨a.rows, idx.length, p, j, x⟩
           q.WF t ∧ (∀ i k l, idx[k]? = some l → q.valuesAt i k = a.valuesAt i l) ∧ q.stored = c) := by
  obtain ⟨hperm, hsort⟩ := hord
  have hmem : ∀ c ∈ order, ∃ k : Nat, c = (k : Int) ∧ k < idx.length := by
    intro c hc
    have := hperm.mem_iff.1 hc
    simp only [List.mem_map, List.mem_range] at this
    obtain ⟨k, hk, rfl⟩ := this
    exact ⟨k, rfl, hk⟩
  have hkey : ∀ c ∈ order, ∃ j, idx[c.toNat]? = some j ∧ j ∈ idx := by
    intro c hc
    obtain ⟨k, rfl, hk⟩ := hmem c hc
    exact ⟨idx[k], by simp [hk], List.getElem_mem hk⟩
  obtain ⟨key, hkeydef⟩ : ∃ key : Int → Nat, key = fun c => (idx[c.toNat]?).getD 0 := ⟨_, rfl⟩
  have hkeyv : ∀ (c : Int) j, idx[c.toNat]? = some j → key c = j := fun c j h => by rw [hkeydef]; simp [h]
  have hsort' : order.Pairwise fun c d => key c ≤ key d := by
    refine hsort.imp_of_mem ?_
    intro c d hc hd h
    obtain ⟨j, hj, -⟩ := hkey c hc
    obtain ⟨k, hk, -⟩ := hkey d hd
    rw [hkeyv c j hj, hkeyv d k hk]
    exact h j k hj hk
  obtain ⟨F, hFdef⟩ : ∃ F : Nat → List Int, F = fun j => order.filter fun c => decide (key c = j) := ⟨_, rfl⟩
  have hflat : flat F a.cols = order := by
    rw [hFdef, ← sorted_groups hsort' a.cols, List.filter_eq_self]
    intro c hc
    obtain ⟨j, hj, hm⟩ := hkey c hc
    rw [hkeyv c j hj]
    simp [hidx j hm]
  have hlen : order.length = idx.length := by rw [hperm.length_eq]; simp
  have hmap : idx = (List.range idx.length).map fun i : Nat => key (i : Int) := by
    apply List.ext_getElem?
    intro i
    rw [hkeydef]
    by_cases hi : i < idx.length
    · simp [hi]
    · simp [hi]
  have hF : ∀ j, (F j).length = idx.count j := by
    intro j
    conv_rhs => rw [hmap]
    rw [hFdef, List.count_eq_countP, List.countP_map, ← List.countP_eq_length_filter, hperm.countP_eq, List.countP_map]
    apply List.countP_congr
    intro i _
    simp
  have hnd : order.Nodup := hperm.nodup_iff.2 (List.nodup_range.map (fun i j h => by simpa using h))
  have hR : ∀ i < a.rows, ∀ e ∈ a.row i, 0 ≤ e.1 ∧ e.1 < (a.cols : Int) := fun i hi e he => by
    have := ha.mem hi he
    omega
  have hsum : (flat (fun i => spread F (a.row i)) a.rows).length = (a.triples.map fun e => idx.count e.2.1.toNat).sum := by
    rw [flat_spread]
    unfold CSR.triples flat spread
    simp only [List.length_flatMap, List.map_flatMap, List.map_map, List.length_map, hF]
    rfl
  rw [← hsum] at hfit
  obtain ⟨⟨off, p⟩, h1, h2, h3, h4⟩ := csr_column_index1_ok (t := t) (bp0 := p0) ha.rep hR hidx (fun j _ => hF j)
    (by rw [hflat, hlen]) hp0 hn hfit
  simp only at h2 h3 h4
  refine ⟨off, p, _, h1, h4 _ (le_refl _), hsum, ?_⟩
  intro j0 x0 hj0 hx0
  obtain ⟨⟨j, x⟩, g1, g2, g3, g4⟩ := csr_column_index2_ok (nc := a.cols) (bj0 := j0) (bx0 := x0) ha.rep.pre
    (fun e he => by
      unfold flat at he
      obtain ⟨i, hi, he⟩ := List.mem_flatMap.1 he
      exact hR i (List.mem_range.1 hi) e he) h2 (by rw [hflat]) (by rw [← flat_spread]) hj0 hx0 rfl rfl
  rw [← ha.stored_eq] at g1
  simp only at g2 g3 g4
  have hrep : Rep p j x a.rows (fun i => spread F (a.row i)) := ⟨h3, h4, by rw [flat_spread]; exact g2⟩
  have hst := CSR.stored_of_rep (a := ⟨a.rows, idx.length, p, j, x⟩) hrep
  have hwf : (⟨a.rows, idx.length, p, j, x⟩ : CSR T).WF t := by
    refine hrep.wf ?_ hfit
    rintro i hi e he
    unfold spread at he
    simp only [List.mem_flatMap, List.mem_map] at he
    obtain ⟨f, hf, c, hc, rfl⟩ := he
    rw [hFdef] at hc
    obtain ⟨k, rfl, hk⟩ := hmem c (List.mem_filter.1 hc).1
    simp only
    omega
  refine ⟨j, x, g1, hwf, ?_, hst⟩
  · intro i k l hk
    unfold CSR.valuesAt
    by_cases hi : i < a.rows
    · rw [CSR.row_of_rep (a := ⟨a.rows, idx.length, p, j, x⟩) hrep hi]
      have hkl : k < idx.length := by
        by_contra h
        rw [List.getElem?_eq_none (by omega)] at hk
        cases hk
      have hkk : key (k : Int) = l := hkeyv _ _ (by simpa using hk)
      have hin : (k : Int) ∈ order := hperm.mem_iff.2 (List.mem_map.2 ⟨k, List.mem_range.2 hkl, rfl⟩)
      refine valuesIn_spread (fun e he => (hR i hi e he).1) ?_ ?_
      · rw [hFdef]
        exact List.count_eq_one_of_mem (hnd.filter _) (List.mem_filter.2 ⟨hin, by simp [hkk]⟩)
      · intro m hm hmem
        rw [hFdef] at hmem
        have := (List.mem_filter.1 hmem).2
        simp only [decide_eq_true_eq] at this
        omega
    · rw [CSR.WF.row_out hwf (by show a.rows ≤ i; omega), ha.row_out (by omega)]
      simp

/-- C42. For a valid matrix, any list of column indices in range and any argsort of it, the two passes return
normally and together produce a valid CSR matrix whose element `(i, c)` is that of the given matrix at row `i` and
the `c`-th requested column. -/
theorem C42_column_index [AddCommMonoid T] (t : IntTy) (a : CSR T) (ha : a.WF t) (idx : List Nat) (hidx : ∀ j ∈ idx, j < a.cols)
    (order : List Int) (hord : IsArgsort idx order) (hn : (idx.length : Int) ≤ t.hi)
    (hfit : (((a.triples.map fun e => idx.count e.2.1.toNat).sum : Nat) : Int) ≤ t.hi)
    (p0 : List Int) (hp0 : p0.length = a.rows + 1) :
    ∃ off p c, csr_column_index1 t idx.length idx a.rows a.cols a.rowptr a.colidx (List.replicate a.cols 0) p0 = .ok (off, p) ∧
      p[a.rows]? = some ((c : Nat) : Int) ∧ c = (a.triples.map fun e => idx.count e.2.1.toNat).sum ∧
      ∀ (j0 : List Int) (x0 : List T), c ≤ j0.length → c ≤ x0.length →
        ∃ j x, csr_column_index2 order off a.stored a.colidx a.values j0 x0 = .ok (j, x) ∧
          (let q : CSR T := ⟨a.rows, idx.length, p, j, x⟩
           q.WF t ∧ (∀ i k l, idx[k]? = some l → q.entry i k = a.entry i l) ∧ q.stored = c) := by
  obtain ⟨off, p, c, h1, h2, h3, h4⟩ := column_index_wf ha hidx hord hn hfit p0 hp0
  refine ⟨off, p, c, h1, h2, h3, fun j0 x0 hj hx => ?_⟩
  obtain ⟨j, x, g1, g2, g3, g4⟩ := h4 j0 x0 hj hx
  exact ⟨j, x, g1, g2, fun i k l h => congrArg List.sum (g3 i k l h), g4⟩

example : exCan.WF .i8 ∧ (∀ j ∈ [1, 0, 1], j < exCan.cols) ∧ IsArgsort [1, 0, 1] [1, 0, 2] ∧
    ((exCan.triples.map fun e => [1, 0, 1].count e.2.1.toNat).sum : Nat) = 5 ∧
    csr_column_index1 .i8 3 [1, 0, 1] 2 2 exCan.rowptr exCan.colidx [0, 0] [0, 0, 0] = .ok ([1, 3], [0, 3, 5]) ∧
    csr_column_index2 [1, 0, 2] [1, 3] 3 exCan.colidx exCan.values [0, 0, 0, 0, 0] [0, 0, 0, 0, 0] =
      .ok ([1, 0, 2, 0, 2], [5, 7, 7, -3, -3]) := by
  refine ⟨CSR.wf_of (by decide), by decide, ⟨by decide, ?_⟩, by decide, by decide +kernel, by decide +kernel⟩
  simp

/-! ### C43 -/

/-- C43 (the full statement is false, see C43_below_panics). For a valid matrix without stored entries below the
diagonal, the number of distinct `column - row` over the stored entries. -/
theorem C43_count_diagonals_partial (t : IntTy) (a : CSR T) (ha : a.WF t) (hup : ∀ e ∈ a.triples, e.1 ≤ e.2.1) :
    csr_count_diagonals a.rows a.rowptr a.colidx = .ok ((a.triples.map fun e => e.2.1 - e.1).toFinset.card) := by
  have hrow : ∀ i < a.rows, ∀ e ∈ a.row i, (i : Int) ≤ e.1 := by
    intro i hi e he
    exact hup ((i : Int), e.1, e.2) (List.mem_flatMap.2 ⟨i, List.mem_range.2 hi, List.mem_map.2 ⟨e, he, rfl⟩⟩)
  rw [csr_count_diagonals_ok ha.rep hrow]
  congr 3
  unfold CSR.triples flat
  rw [List.map_flatMap]
  simp only [List.map_map]
  rfl

/-- C43 (the statement is false). Any stored entry below the diagonal makes the function panic. -/
theorem C43_below_panics (t : IntTy) (a : CSR T) (ha : a.WF t) (e : Int × Int × T) (he : e ∈ a.triples) (hlt : e.2.1 < e.1) :
    csr_count_diagonals a.rows a.rowptr a.colidx = .error (.panic .arith) := by
  unfold CSR.triples at he
  simp only [List.mem_flatMap, List.mem_range, List.mem_map] at he
  obtain ⟨i, hi, f, hf, rfl⟩ := he
  exact csr_count_diagonals_below ha.rep (fun i hi e he => (ha.mem hi he).1) hi hf hlt

example : (∃ a : CSR Int, a.WF .i8 ∧ (∀ e ∈ a.triples, e.1 ≤ e.2.1) ∧ (a.triples.map fun e => e.2.1 - e.1).toFinset.card = 2 ∧
    a.stored = 3) ∧ (∃ a : CSR Int, a.WF .i8 ∧ ∃ e ∈ a.triples, e.2.1 < e.1) :=
  ⟨⟨exCan, CSR.wf_of (by decide), by decide, by decide, by decide⟩,
   ⟨⟨2, 2, [0, 1, 2], [0, 0], [5, 7]⟩, CSR.wf_of (by decide), (1, 0, 7), by decide, by decide⟩⟩

end
end Sparse

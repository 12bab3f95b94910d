import Verif.SpecExpr
import Verif.Props.Product
import Verif.Props.Assemble
import Verif.Props.Moves
/-! Invariant of the values of an expression (C50). -/
namespace Sparse
section
variable {T : Type}

theorem CSR.WF.stored_le {t : IntTy} {a : CSR T} (h : a.WF t) : a.stored ≤ a.values.length := by
  rw [h.stored_eq]; exact h.rep.len_x

theorem CSR.WF.pos_of_stored {t : IntTy} {a : CSR T} (h : a.WF t) (hs : 0 < a.stored) : 0 < a.rows ∧ 0 < a.cols := by
  rw [h.stored_eq, List.length_pos_iff_exists_mem] at hs
  obtain ⟨e, he⟩ := hs
  rw [mem_flat] at he
  obtain ⟨i, hi, he⟩ := he
  have := h.mem hi he
  omega

theorem CSR.zeroSlack_of_tight [Zero T] {a : CSR T} (h1 : a.colidx.length = a.stored) (h2 : a.values.length = a.stored) :
    a.ZeroSlack := by
  refine ⟨by omega, fun e he => ?_⟩
  rw [List.drop_eq_nil_of_le (by simp; omega)] at he
  simp at he

theorem CSR.WF.has_rows {t : IntTy} {a : CSR T} (h : a.WF t) {i j : Nat} (hh : a.has i j) : i < a.rows := by
  by_contra hc
  obtain ⟨v, hv⟩ := hh
  rw [h.row_out (by omega)] at hv
  simp at hv

theorem CSR.WF.has_triples {t : IntTy} {a : CSR T} (h : a.WF t) {i j : Nat} :
    a.has i j ↔ ∃ v, ((i : Int), (j : Int), v) ∈ a.triples := by
  constructor
  · intro hh
    obtain ⟨v, hv⟩ := hh
    exact ⟨v, CSR.mem_triples.2 ⟨h.has_rows ⟨v, hv⟩, hv⟩⟩
  · rintro ⟨v, hv⟩
    exact ⟨v, (CSR.mem_triples.1 hv).2⟩

theorem CSC.WF.has_triples {t : IntTy} {a : CSC T} (h : a.WF t) {i j : Nat} :
    a.has i j ↔ ∃ v, ((i : Int), (j : Int), v) ∈ a.triples := by
  constructor
  · intro hh
    obtain ⟨v, hv⟩ := hh
    exact ⟨v, CSC.mem_triples.2 ⟨CSR.WF.has_rows (a := a.asCSR) h ⟨v, hv⟩, hv⟩⟩
  · rintro ⟨v, hv⟩
    exact ⟨v, (CSC.mem_triples.1 hv).2⟩

theorem CSR.has_of_entry [AddCommMonoid T] {a : CSR T} {i j : Nat} (h : a.entry i j ≠ 0) : a.has i j := by
  by_contra hc
  apply h
  apply rowSum_eq_zero
  intro e he hj
  exact absurd (has_iff.2 ⟨e, he, hj⟩) hc

/-- a matrix without duplicates and zeros stores exactly its nonzero entries -/
theorem CSR.WF.has_entry [AddCommMonoid T] {t : IntTy} {a : CSR T} (h : a.WF t) (hd : a.NoDup)
    (hz : ∀ i < a.rows, ∀ e ∈ a.row i, e.2 ≠ 0) {i j : Nat} (hh : a.has i j) : a.entry i j ≠ 0 := by
  have hi := h.has_rows hh
  unfold CSR.entry
  rw [← find_rowSum (hd i hi)]
  obtain ⟨v, hv⟩ := hh
  cases hf : (a.row i).find? fun e => decide (e.1 = (j : Int)) with
  | none =>
    rw [List.find?_eq_none] at hf
    have := hf _ hv
    simp at this
  | some e => exact hz i hi e (List.mem_of_find?_eq_some hf)

/-- what is known of a CSR value: its shape, its entries, where it stores, how much storage it has -/
structure GoodR [AddCommMonoid T] (t : IntTy) (r : CSR T) (m n : Nat) (ent : Nat → Nat → T) (pos : Nat → Nat → Prop)
    (size : Nat) : Prop where
  wf : r.WF t
  rows : r.rows = m
  cols : r.cols = n
  ent : ∀ i j, r.entry i j = ent i j
  has : ∀ i j, r.has i j → pos i j
  len : r.values.length ≤ size
  slack : r.ZeroSlack
  ne : 0 < r.values.length → 0 < m ∧ 0 < n
  dims : Expr.Dims t m n
  fit : (size : Int) < t.hi

/-- the same of a CSC value -/
def GoodC [AddCommMonoid T] (t : IntTy) (r : CSC T) (m n : Nat) (ent : Nat → Nat → T) (pos : Nat → Nat → Prop)
    (size : Nat) : Prop := GoodR t r.asCSR n m (fun i j => ent j i) (fun i j => pos j i) size

/-- the same of a coordinate value -/
structure GoodO [AddCommMonoid T] (t : IntTy) (r : Coo T) (m n : Nat) (ent : Nat → Nat → T) (pos : Nat → Nat → Prop)
    (size : Nat) : Prop where
  wf : r.WF t
  rows : r.rows = m
  cols : r.cols = n
  ent : ∀ i j, r.entry i j = ent i j
  has : ∀ (i j : Nat) v, ((i : Int), (j : Int), v) ∈ r.triples → pos i j
  len : r.values.length ≤ size
  dims : Expr.Dims t m n
  fit : (size : Int) < t.hi

variable [AddCommMonoid T] {t : IntTy} {m n : Nat} {ent ent' : Nat → Nat → T} {pos pos' : Nat → Nat → Prop} {size size' : Nat}

theorem GoodR.swap {r : CSR T} (h : GoodR t r m n ent pos size) :
    GoodC t ⟨r.cols, r.rows, r.colidx, r.rowptr, r.values⟩ n m (fun i j => ent j i) (fun i j => pos j i) size := h

theorem GoodR.stored_fit {r : CSR T} (h : GoodR t r m n ent pos size) : (r.stored : Int) < t.hi := by
  have := h.wf.stored_le
  have := h.len
  have := h.fit
  omega

/-- results without unused storage -/
theorem GoodR.tight {r : CSR T} (hw : r.WF t) (h1 : r.rows = m) (h2 : r.cols = n) (h3 : ∀ i j, r.entry i j = ent i j)
    (h4 : ∀ i j, r.has i j → pos i j) (h5 : r.colidx.length = r.stored) (h6 : r.values.length = r.stored)
    (h7 : r.stored ≤ size) (h8 : Expr.Dims t m n) (h9 : (size : Int) < t.hi) : GoodR t r m n ent pos size :=
  ⟨hw, h1, h2, h3, h4, by omega, CSR.zeroSlack_of_tight h5 h6, fun h => h1 ▸ h2 ▸ hw.pos_of_stored (by omega), h8, h9⟩

omit [AddCommMonoid T] in
theorem CSR.mapV_has {a : CSR T} {f : T → T} {i j : Nat} (h : (a.mapV f).has i j) : a.has i j := by
  obtain ⟨v, hv⟩ := h
  have e : (a.mapV f).row i = (a.row i).map fun e => (e.1, f e.2) := rowOf_map f _ _ _ _
  rw [e, List.mem_map] at hv
  obtain ⟨⟨c, w⟩, h1, h2⟩ := hv
  simp only [Prod.mk.injEq] at h2
  exact ⟨w, by rw [← h2.1]; exact h1⟩

theorem GoodR.mapV {a : CSR T} (h : GoodR t a m n ent pos size) (f : T →+ T) :
    GoodR t (a.mapV f) m n (fun i j => f (ent i j)) pos size := by
  have hst : (a.mapV f).stored = a.stored := by
    unfold CSR.stored
    refine congrArg List.sum (List.map_congr_left fun i _ => ?_)
    have e : (a.mapV f).row i = (a.row i).map fun e => (e.1, f e.2) := rowOf_map f _ _ _ _
    rw [e, List.length_map]
  refine ⟨CSR.mapV_wf _ h.wf, h.rows, h.cols, fun i j => by rw [CSR.mapV_entry, h.ent], fun i j hh => h.has i j (CSR.mapV_has hh),
    by simpa [CSR.mapV] using h.len, ⟨by simpa [CSR.mapV] using h.slack.1, ?_⟩, by simpa [CSR.mapV] using h.ne, h.dims, h.fit⟩
  intro e he
  rw [hst] at he
  have : (a.mapV f).colidx.zip (a.mapV f).values = (a.colidx.zip a.values).map fun e => (e.1, f e.2) := by
    simp only [CSR.mapV, List.zip_map_right]
    rfl
  rw [this, ← List.map_drop, List.mem_map] at he
  obtain ⟨g, hg, rfl⟩ := he
  rw [h.slack.2 g hg]
  simp

omit [AddCommMonoid T] in
theorem Coo.mem_mapV {a : Coo T} {f : T → T} {i j : Nat} {v : T} (h : ((i : Int), (j : Int), v) ∈ (a.mapV f).triples) :
    ∃ w, ((i : Int), (j : Int), w) ∈ a.triples := by
  rw [Coo.mapV_triples, List.mem_map] at h
  obtain ⟨⟨p, q, w⟩, h1, h2⟩ := h
  simp only [Prod.mk.injEq] at h2
  obtain ⟨rfl, rfl, -⟩ := h2
  exact ⟨w, h1⟩

theorem GoodO.mapV {a : Coo T} (h : GoodO t a m n ent pos size) (f : T →+ T) :
    GoodO t (a.mapV f) m n (fun i j => f (ent i j)) pos size :=
  ⟨Coo.mapV_wf _ h.wf, h.rows, h.cols, fun i j => by rw [Coo.mapV_entry, h.ent],
    fun i j v hv => (Coo.mem_mapV hv).elim fun w hw => h.has i j w hw, by simpa [Coo.mapV] using h.len, h.dims, h.fit⟩

theorem GoodO.transpose {a : Coo T} (h : GoodO t a m n ent pos size) :
    GoodO t a.transpose n m (fun i j => ent j i) (fun i j => pos j i) size := by
  obtain ⟨h1, h2, h3, h4, -⟩ := C25_coo_transpose t a h.wf
  refine ⟨h1, h2.trans h.cols, h3.trans h.rows, fun i j => (h4 i j).trans (h.ent j i), ?_, h.len, ⟨h.dims.2, h.dims.1⟩, h.fit⟩
  intro i j v hv
  rw [Coo.transpose_triples h.wf, List.mem_map] at hv
  obtain ⟨⟨p, q, w⟩, g1, g2⟩ := hv
  simp only [Prod.mk.injEq] at g2
  obtain ⟨rfl, rfl, rfl⟩ := g2
  exact h.has j i w g1

theorem GoodO.to_csr {a : Coo T} (h : GoodO t a m n ent pos size) : ∃ r, a.to_csr t = .ok r ∧ GoodR t r m n ent pos size := by
  obtain ⟨r, h1, h2, h3, h4, -, h5, h6, -, h7, h8, h9⟩ := C01_coo_to_csr t a h.wf (by have := h.len; have := h.fit; omega)
  refine ⟨r, h1, .tight h2 (h3.trans h.rows) (h4.trans h.cols) (fun i j => (h5 i j).trans (h.ent i j)) (fun i j hh => ?_) h7 h8
    (h9.trans h.len) h.dims h.fit⟩
  obtain ⟨v, hv⟩ := (h6 _ _).1 (h2.has_triples.1 hh)
  exact h.has i j v hv

theorem GoodO.to_csc {a : Coo T} (h : GoodO t a m n ent pos size) : ∃ r, a.to_csc t = .ok r ∧ GoodC t r m n ent pos size := by
  obtain ⟨r, h1, h2, h3, h4, -, h5, h6, -, h7, h8, h9⟩ := C02_coo_to_csc t a h.wf (by have := h.len; have := h.fit; omega)
  refine ⟨r, h1, GoodR.tight (r := r.asCSR) h2 (h4.trans h.cols) (h3.trans h.rows) (fun i j => (h5 j i).trans (h.ent j i))
    (fun i j hh => ?_) h7 h8 (h9.trans h.len) ⟨h.dims.2, h.dims.1⟩ h.fit⟩
  obtain ⟨v, hv⟩ := (h6 _ _).1 ((CSC.WF.has_triples h2).1 hh)
  exact h.has j i v hv

theorem GoodR.to_csc {a : CSR T} (h : GoodR t a m n ent pos size) : ∃ r, a.to_csc t = .ok r ∧ GoodC t r m n ent pos size := by
  obtain ⟨r, h1, h2, h3, h4, h5, h6, -, -, h7, h8⟩ := C03_csr_to_csc t a h.wf (h.rows ▸ h.dims.1)
  have hs : r.stored = a.stored := by
    have := h6.length_eq
    rw [CSC.triples, CSR.triples, List.length_flatMap, List.length_flatMap] at this
    simpa [CSC.stored, CSR.stored] using this
  refine ⟨r, h1, GoodR.tight (r := r.asCSR) h2 (h4.trans h.cols) (h3.trans h.rows) (fun i j => (h5 j i).trans (h.ent j i))
    (fun i j hh => ?_) (h7.trans hs.symm) (h8.trans hs.symm) ?_ ⟨h.dims.2, h.dims.1⟩ h.fit⟩
  · obtain ⟨v, hv⟩ := (CSC.WF.has_triples h2).1 hh
    exact h.has j i (h.wf.has_triples.2 ⟨v, h6.mem_iff.1 hv⟩)
  · have := h.wf.stored_le
    have := h.len
    change r.stored ≤ _
    omega

theorem GoodC.to_csr {a : CSC T} (h : GoodC t a m n ent pos size) : ∃ r, a.to_csr t = .ok r ∧ GoodR t r m n ent pos size := by
  have hw : a.WF t := h.wf
  obtain ⟨r, h1, h2, h3, h4, h5, h6, -, -, h7, h8⟩ := C04_csc_to_csr t a hw (by have := h.dims.1; have : a.cols = n := h.rows; omega)
  have hs : r.stored = a.stored := by
    have := h6.length_eq
    rw [CSC.triples, CSR.triples, List.length_flatMap, List.length_flatMap] at this
    simpa [CSC.stored, CSR.stored] using this
  refine ⟨r, h1, GoodR.tight h2 (h3.trans h.cols) (h4.trans h.rows) (fun i j => (h5 i j).trans (h.ent j i))
    (fun i j hh => ?_) (h7.trans hs.symm) (h8.trans hs.symm) ?_ ⟨h.dims.2, h.dims.1⟩ h.fit⟩
  · obtain ⟨v, hv⟩ := h2.has_triples.1 hh
    exact h.has j i ((CSC.WF.has_triples hw).2 ⟨v, h6.mem_iff.1 hv⟩)
  · have : a.stored ≤ _ := h.wf.stored_le
    have := h.len
    omega

theorem GoodC.to_coo {a : CSC T} (h : GoodC t a m n ent pos size) : ∃ r, a.to_coo t = .ok r ∧ GoodO t r m n ent pos size := by
  have hw : a.WF t := h.wf
  obtain ⟨r, h1, h2, h3, h4, h5, h6, h7⟩ := C05_csc_to_coo t a hw (by have := h.dims.1; have : a.cols = n := h.rows; omega)
  refine ⟨r, h1, h2, h3.trans h.cols, h4.trans h.rows, fun i j => (h7 i j).trans (h.ent j i), ?_, ?_, ⟨h.dims.2, h.dims.1⟩, h.fit⟩
  · intro i j v hv
    rw [h5] at hv
    exact h.has j i ((CSC.WF.has_triples hw).2 ⟨v, hv⟩)
  · have : a.stored ≤ _ := h.wf.stored_le
    have := h.len
    omega

theorem GoodR.to_coo {a : CSR T} (h : GoodR t a m n ent pos size) :
    ∃ r, a.to_coo t = .ok r ∧ GoodO t r m n ent (fun i j => pos i j ∨ i = 0 ∧ j = 0) size := by
  obtain ⟨r, h1, h2, h3, h4, h5, h6, h7⟩ := C05_csr_to_coo_slack t a h.wf (h.rows ▸ h.dims.1) h.slack.1
  have hmem : ∀ e ∈ r.triples, e ∈ a.triples ∨ e = (0, 0, 0) ∧ 0 < m ∧ 0 < n := by
    intro e he
    rw [h4, List.mem_append, List.mem_map] at he
    rcases he with he | ⟨g, hg, rfl⟩
    · exact .inl he
    · rw [h.slack.2 g hg]
      refine .inr ⟨rfl, h.ne ?_⟩
      have := List.length_pos_of_mem (List.mem_of_mem_drop hg)
      rw [List.length_zip] at this
      omega
  have htri : ∀ e ∈ r.triples, (0 ≤ e.1 ∧ e.1 < r.rows ∧ e.1 ≤ t.hi) ∧ (0 ≤ e.2.1 ∧ e.2.1 < r.cols ∧ e.2.1 ≤ t.hi) := by
    intro e he
    have hhi := t.hi_ge
    rw [h2, h3]
    rcases hmem e he with h8 | ⟨rfl, h8, h9⟩
    · rw [CSR.triples, List.mem_flatMap] at h8
      obtain ⟨i, hi, h8⟩ := h8
      rw [List.mem_map] at h8
      obtain ⟨g, hg, rfl⟩ := h8
      have hi : i < a.rows := by simpa using hi
      have := h.wf.mem hi hg
      have hd := h.dims.1
      rw [← h.rows] at hd
      simp only
      omega
    · have := h.rows
      have := h.cols
      simp only
      omega
  have hl1 : r.rowidx.length = r.values.length := by rw [h6, h7]
  have hl2 : r.colidx.length = r.values.length := by rw [h5, h6, h.slack.1]
  have hwf : r.WF t := by
    refine ⟨hl1, hl2, ?_, ?_⟩
    · intro v hv
      obtain ⟨k, hk, rfl⟩ := List.mem_iff_getElem.1 hv
      have : (r.rowidx[k], r.colidx[k], r.values[k]) ∈ r.triples := by
        rw [List.mem_iff_getElem]
        refine ⟨k, by simp [Coo.triples]; omega, by simp [Coo.triples]⟩
      exact (htri _ this).1
    · intro v hv
      obtain ⟨k, hk, rfl⟩ := List.mem_iff_getElem.1 hv
      have : (r.rowidx[k], r.colidx[k], r.values[k]) ∈ r.triples := by
        rw [List.mem_iff_getElem]
        refine ⟨k, by simp [Coo.triples]; omega, by simp [Coo.triples]⟩
      exact (htri _ this).2
  refine ⟨r, h1, hwf, h2.trans h.rows, h3.trans h.cols, ?_, ?_, by rw [h6]; exact h.len, h.dims, h.fit⟩
  · intro i j
    rw [← h.ent, Coo.entry_eq_tripSum, h4, tripSum_append, ← CSR.entry_eq_tripSum h.wf]
    have : tripSum (((a.colidx.zip a.values).drop a.stored).map fun e => ((0 : Int), e.1, e.2)) i j = 0 := by
      unfold tripSum
      apply List.sum_eq_zero
      intro v hv
      rw [List.mem_map] at hv
      obtain ⟨e, he, rfl⟩ := hv
      have he := (List.mem_filter.1 he).1
      rw [List.mem_map] at he
      obtain ⟨g, hg, rfl⟩ := he
      rw [h.slack.2 g hg]
    rw [this, add_zero]
  · intro i j v hv
    rcases hmem _ hv with h8 | ⟨h8, -⟩
    · exact .inl (h.has i j (h.wf.has_triples.2 ⟨v, h8⟩))
    · simp only [Prod.mk.injEq] at h8
      exact .inr (by omega)

theorem GoodR.sort {a : CSR T} (h : GoodR t a m n ent pos size) : ∃ r, a.sort_indexes = .ok r ∧ GoodR t r m n ent pos size := by
  obtain ⟨r, h1, h2, h3, h4, -, h5, h6, h7, h8, h9⟩ := C08_csr_sort_indexes t a h.wf
  have hs : r.stored = a.stored := by
    unfold CSR.stored
    rw [h3]
    refine congrArg List.sum (List.map_congr_left fun i hi => (h5 i (by simpa using hi)).1.length_eq)
  refine ⟨r, h1, h2, h3.trans h.rows, h4.trans h.cols, fun i j => (h6 i j).trans (h.ent i j), ?_, by rw [h8]; exact h.len,
    ⟨by rw [h7, h8]; exact h.slack.1, by rw [hs, h9]; exact h.slack.2⟩, by rw [h8]; exact h.ne, h.dims, h.fit⟩
  intro i j hh
  have hi := h2.has_rows hh
  obtain ⟨v, hv⟩ := hh
  exact h.has i j ⟨v, (h5 i (by omega)).1.mem_iff.1 hv⟩

theorem GoodC.sort {a : CSC T} (h : GoodC t a m n ent pos size) : ∃ r, a.sort_indexes = .ok r ∧ GoodC t r m n ent pos size := by
  have hw : a.WF t := h.wf
  obtain ⟨r, h1, h2, h3, h4, -, h5, h6, h7, h8, h9⟩ := C08_csc_sort_indexes t a hw
  have hs : r.stored = a.stored := by
    unfold CSC.stored
    rw [h4]
    refine congrArg List.sum (List.map_congr_left fun i hi => (h5 i (by simpa using hi)).1.length_eq)
  refine ⟨r, h1, h2, h4.trans h.rows, h3.trans h.cols, fun i j => (h6 j i).trans (h.ent i j), ?_, h8.le.trans h.len,
    ⟨h7.trans (h.slack.1.trans h8.symm), ?_⟩, fun hp => h.ne (h8 ▸ hp), h.dims, h.fit⟩
  · intro i j hh
    have hi : i < r.cols := CSR.WF.has_rows (a := r.asCSR) h2 hh
    obtain ⟨v, hv⟩ := hh
    exact h.has i j ⟨v, (h5 i (by omega)).1.mem_iff.1 hv⟩
  · intro e he
    change e ∈ (r.rowidx.zip r.values).drop r.stored at he
    rw [hs, h9] at he
    exact h.slack.2 e he

theorem GoodR.sum {a : CSR T} (h : GoodR t a m n ent pos size) :
    ∃ r, a.sum_duplicates t = .ok r ∧ GoodR t r m n ent pos size := by
  obtain ⟨r, h1, h2, h3, h4, -, h5, h6, h7, h8, -, h9⟩ := C07_csr_sum_duplicates t a h.wf h.stored_fit
  refine ⟨r, h1, ?_⟩
  by_cases hc : a.Canonical
  · rw [h7 hc]; exact h
  obtain ⟨g1, g2⟩ := h8 hc
  refine .tight h2 (h3.trans h.rows) (h4.trans h.cols) (fun i j => (h5 i j).trans (h.ent i j)) (fun i j hh => ?_) g1 g2
    (h9.trans (h.wf.stored_le.trans h.len)) h.dims h.fit
  exact h.has i j (h.wf.has_triples.2 ((h6 _ _).1 (h2.has_triples.1 hh)))

theorem GoodC.sum {a : CSC T} (h : GoodC t a m n ent pos size) :
    ∃ r, a.sum_duplicates t = .ok r ∧ GoodC t r m n ent pos size := by
  have hw : a.WF t := h.wf
  obtain ⟨r, h1, h2, h3, h4, -, h5, h6, h7, h8, -, h9⟩ := C07_csc_sum_duplicates t a hw h.stored_fit
  refine ⟨r, h1, ?_⟩
  by_cases hc : a.Canonical
  · rw [h7 hc]; exact h
  obtain ⟨g1, g2⟩ := h8 hc
  refine GoodR.tight (r := r.asCSR) h2 (h4.trans h.rows) (h3.trans h.cols) (fun i j => (h5 j i).trans (h.ent i j))
    (fun i j hh => ?_) g1 g2 (h9.trans (h.wf.stored_le.trans h.len)) h.dims h.fit
  exact h.has i j ((CSC.WF.has_triples hw).2 ((h6 _ _).1 ((CSC.WF.has_triples h2).1 hh)))

/-- results of an elementwise operation -/
theorem GoodR.op {a b r : CSR T} (ha : GoodR t a m n ent pos size) (hb : GoodR t b m n ent' pos' size') (f : T → T → T)
    (f0 : f 0 0 = 0) (hfit : ((size + size' : Nat) : Int) < t.hi)
    (h1 : r.WF t) (h2 : r.rows = a.rows) (h3 : r.cols = a.cols) (h4 : ∀ i j, r.entry i j = f (a.entry i j) (b.entry i j))
    (h5 : r.NoDup) (h6 : ∀ i < a.rows, ∀ e ∈ r.row i, e.2 ≠ 0) (h7 : r.values.length ≤ a.stored + b.stored) (h8 : r.ZeroSlack) :
    GoodR t r m n (fun i j => f (ent i j) (ent' i j)) (fun i j => pos i j ∨ pos' i j) (size + size') := by
  have l1 := ha.wf.stored_le
  have l2 := hb.wf.stored_le
  have l3 := ha.len
  have l4 := hb.len
  refine ⟨h1, h2.trans ha.rows, h3.trans ha.cols, fun i j => by rw [h4, ha.ent, hb.ent], ?_, by omega, h8, ?_, ha.dims, hfit⟩
  · intro i j hh
    have hne := h1.has_entry h5 (by rw [h2]; exact h6) hh
    rw [h4] at hne
    by_cases h : a.entry i j = 0
    · refine .inr (hb.has i j (CSR.has_of_entry fun hc => hne ?_))
      rw [h, hc, f0]
    · exact .inl (ha.has i j (CSR.has_of_entry h))
  · intro hp
    rcases Nat.eq_zero_or_pos a.stored with h | h
    · have := hb.wf.pos_of_stored (by omega)
      rw [hb.rows, hb.cols] at this
      exact this
    · have := ha.wf.pos_of_stored h
      rw [ha.rows, ha.cols] at this
      exact this

theorem GoodO.add {a b : Coo T} (ha : GoodO t a m n ent pos size) (hb : GoodO t b m n ent' pos' size')
    (hfit : ((size + size' : Nat) : Int) < t.hi) : ∃ r, Coo.add t a b = .ok r ∧
      GoodR t r m n (fun i j => ent i j + ent' i j) (fun i j => pos i j ∨ pos' i j) (size + size') := by
  have l3 := ha.len
  have l4 := hb.len
  have e1 : a.nnz = a.values.length := rfl
  have e2 : b.nnz = b.values.length := rfl
  obtain ⟨r, h1, h2, -, h3, h4, h5, h6, h7, h8, h9⟩ := (C48_coo_add t a b ha.wf hb.wf).2 (by rw [ha.rows, hb.rows])
    (by rw [ha.cols, hb.cols]) (by omega)
  refine ⟨r, h1, .tight h2 (h3.trans ha.rows) (h4.trans ha.cols) (fun i j => by rw [h5, ha.ent, hb.ent]) (fun i j hh => ?_) h7 h8
    (by omega) ha.dims hfit⟩
  rcases (h6 _ _).1 (h2.has_triples.1 hh) with ⟨v, hv⟩ | ⟨v, hv⟩
  · exact .inl (ha.has i j v hv)
  · exact .inr (hb.has i j v hv)

open Classical in
theorem count_mono {p q : Nat → Nat → Prop} (m n : Nat) (h : ∀ i j, p i j → q i j) : Expr.count m n p ≤ Expr.count m n q := by
  unfold Expr.count
  refine Finset.sum_le_sum fun i _ => Finset.card_le_card fun j hj => ?_
  rw [Finset.mem_filter] at hj ⊢
  exact ⟨hj.1, h i j hj.2⟩

open Classical in
theorem count_swap (p : Nat → Nat → Prop) (m n : Nat) : Expr.count m n p = Expr.count n m fun i j => p j i := by
  unfold Expr.count
  simp only [Finset.card_filter]
  exact Finset.sum_comm

open Classical in
theorem count_pos {p : Nat → Nat → Prop} {m n : Nat} (h : 0 < Expr.count m n p) : 0 < m ∧ 0 < n := by
  unfold Expr.count at h
  constructor
  · rcases Nat.eq_zero_or_pos m with rfl | h'
    · simp at h
    · exact h'
  · rcases Nat.eq_zero_or_pos n with rfl | h'
    · simp at h
    · exact h'
end

section
variable {T : Type} [CommRing T] [DecidableEq T] {t : IntTy} {m n q : Nat} {ent ent' : Nat → Nat → T}
  {pos pos' : Nat → Nat → Prop} {size size' : Nat}

/-- results of a product -/
theorem GoodR.prod {a b r : CSR T} (ha : GoodR t a m q ent pos size) (hb : GoodR t b q n ent' pos' size')
    (hfit : (Expr.count m n (fun i k => ∃ j, pos i j ∧ pos' j k) : Int) < t.hi)
    (h1 : r.WF t) (h2 : r.rows = a.rows) (h3 : r.cols = b.cols)
    (h5 : ∀ i < a.rows, ∀ k, r.has i k → (∃ j, a.has i j ∧ b.has j k)) (h6 : r.values.length = a.productSlots b)
    (h7 : r.ZeroSlack) {ent'' : Nat → Nat → T} (h8 : ∀ i j, r.entry i j = ent'' i j) :
    GoodR t r m n ent'' (fun i k => ∃ j, pos i j ∧ pos' j k) (Expr.count m n fun i k => ∃ j, pos i j ∧ pos' j k) := by
  have hc : a.productSlots b = Expr.count m n fun i k => ∃ j, a.has i j ∧ b.has j k := by
    rw [← ha.rows, ← hb.cols]; rfl
  rw [hc] at h6
  refine ⟨h1, h2.trans ha.rows, h3.trans hb.cols, h8, ?_, ?_, h7, ?_, ⟨ha.dims.1, hb.dims.2⟩, hfit⟩
  · intro i k hh
    have hi := h1.has_rows hh
    obtain ⟨j, g1, g2⟩ := h5 i (by omega) k hh
    exact ⟨j, ha.has i j g1, hb.has j k g2⟩
  · rw [h6]
    exact count_mono m n fun i k ⟨j, g1, g2⟩ => ⟨j, ha.has i j g1, hb.has j k g2⟩
  · intro h
    rw [h6] at h
    exact count_pos h

theorem GoodR.slots_fit {a b : CSR T} (ha : GoodR t a m q ent pos size) (hb : GoodR t b q n ent' pos' size')
    (hfit : (Expr.count m n (fun i k => ∃ j, pos i j ∧ pos' j k) : Int) < t.hi) : (a.productSlots b : Int) ≤ t.hi := by
  have hc : a.productSlots b = Expr.count m n fun i k => ∃ j, a.has i j ∧ b.has j k := by
    rw [← ha.rows, ← hb.cols]; rfl
  have := count_mono m n fun i k (⟨j, g1, g2⟩ : ∃ j, a.has i j ∧ b.has j k) =>
    (⟨j, ha.has i j g1, hb.has j k g2⟩ : ∃ j, pos i j ∧ pos' j k)
  omega

theorem GoodR.mul {a b : CSR T} (ha : GoodR t a m q ent pos size) (hb : GoodR t b q n ent' pos' size')
    (hfit : (Expr.count m n (fun i k => ∃ j, pos i j ∧ pos' j k) : Int) < t.hi) : ∃ r, a.mul t b = .ok r ∧
      GoodR t r m n (fun i k => ∑ j ∈ Finset.range q, ent i j * ent' j k) (fun i k => ∃ j, pos i j ∧ pos' j k)
        (Expr.count m n fun i k => ∃ j, pos i j ∧ pos' j k) := by
  obtain ⟨r, -, h1, h2, h3, h4, h5, -, -, h6, h7, h8⟩ := C13_csr_mat_mat t a b ha.wf hb.wf (ha.cols.trans hb.rows.symm)
    (ha.slots_fit hb hfit)
  refine ⟨r, h1, ha.prod hb hfit h2 h3 h4 (fun i hi k hh => ((h6 i hi k).1 hh).1) h7 h8 fun i k => ?_⟩
  rw [h5, ha.cols]
  simp only [ha.ent, hb.ent]

theorem GoodC.mul {a b : CSC T} (ha : GoodC t a m q ent pos size) (hb : GoodC t b q n ent' pos' size')
    (hfit : (Expr.count m n (fun i k => ∃ j, pos i j ∧ pos' j k) : Int) < t.hi) : ∃ r, a.mul t b = .ok r ∧
      GoodC t r m n (fun i k => ∑ j ∈ Finset.range q, ent i j * ent' j k) (fun i k => ∃ j, pos i j ∧ pos' j k)
        (Expr.count m n fun i k => ∃ j, pos i j ∧ pos' j k) := by
  rw [count_swap] at hfit ⊢
  have hfun : (fun i j => ∃ k, pos j k ∧ pos' k i) = fun i k => ∃ j, pos' j i ∧ pos k j := by
    funext i j; simp only [and_comm]
  rw [hfun] at hfit ⊢
  have hs := CSC.productSlots_asCSR a b
  have hfit' := GoodR.slots_fit hb ha hfit
  obtain ⟨r, -, h1, h2, h3, h4, h5, -, -, h6, h7, h8⟩ := C14_csc_mat_mat t a b ha.wf hb.wf (hb.cols.trans ha.rows.symm)
    (by rw [hs]; exact hfit')
  refine ⟨r, h1, ?_⟩
  unfold GoodC
  rw [hfun]
  refine GoodR.prod (r := r.asCSR) hb ha hfit h2 h4 h3 (fun i hi k hh => ?_) (h7.trans hs) h8 fun i k => ?_
  · obtain ⟨j, g1, g2⟩ := ((h6 i hi k).1 hh).1
    exact ⟨j, g2, g1⟩
  · have e : a.cols = q := ha.rows
    refine (h5 k i).trans ?_
    rw [e]
    refine Finset.sum_congr rfl fun j _ => ?_
    have g1 : a.entry k j = ent k j := ha.ent j k
    have g2 : b.entry j i = ent' j i := hb.ent i j
    rw [g1, g2]

theorem GoodC.mul_csr {a : CSC T} {b : CSR T} (ha : GoodC t a m q ent pos size) (hb : GoodR t b q n ent' pos' size')
    (hfit : (Expr.count m n (fun i k => ∃ j, pos i j ∧ pos' j k) : Int) < t.hi) : ∃ r, a.mul_csr t b = .ok r ∧
      GoodC t r m n (fun i k => ∑ j ∈ Finset.range q, ent i j * ent' j k) (fun i k => ∃ j, pos i j ∧ pos' j k)
        (Expr.count m n fun i k => ∃ j, pos i j ∧ pos' j k) := by
  obtain ⟨c, h1, h2⟩ := hb.to_csc
  obtain ⟨r, h3, h4⟩ := ha.mul h2 hfit
  refine ⟨r, ?_, h4⟩
  unfold CSC.mul_csr
  rw [h1]
  exact h3
end

section
variable {T : Type} [AddCommMonoid T] {t : IntTy} {m n m' n' : Nat} {ent ent' : Nat → Nat → T}
  {pos pos' : Nat → Nat → Prop} {size size' : Nat}

theorem GoodO.v_stack {a b : Coo T} (ha : GoodO t a m n ent pos size) (hb : GoodO t b m' n ent' pos' size')
    (hd : ((m + m' : Nat) : Int) ≤ t.hi + 1) (hfit : ((size + size' : Nat) : Int) < t.hi) :
    ∃ r, Coo.v_stack t a b = .ok r ∧ GoodO t r (m + m') n (vcat m ent ent') (vcat m pos pos') (size + size') := by
  obtain ⟨r, h1, h2, h3, h4, h5, h6⟩ := (C26_v_stack t a b ha.wf hb.wf).2 (ha.cols.trans hb.cols.symm)
    (by rw [ha.rows, hb.rows]; exact hd)
  obtain ⟨r', g1, -, -, -, g2, -⟩ := C66_v_stack t a b ha.wf hb.wf (ha.cols.trans hb.cols.symm)
    (by rw [ha.rows, hb.rows]; exact hd)
  obtain rfl : r' = r := by rw [g1] at h1; exact Except.ok.inj h1
  have l1 := ha.len
  have l2 := hb.len
  have e1 : a.nnz = a.values.length := rfl
  have e2 : b.nnz = b.values.length := rfl
  have e3 : r'.nnz = r'.values.length := rfl
  refine ⟨r', h1, h2, by rw [h3, ha.rows, hb.rows], h4.trans ha.cols, ?_, ?_, by omega, ⟨hd, ha.dims.2⟩, hfit⟩
  · intro i j
    rw [h6, ha.rows]
    unfold vcat
    split
    · exact ha.ent _ _
    · exact hb.ent _ _
  · intro i j v hv
    rw [g2, List.mem_append, List.mem_map] at hv
    rcases hv with hv | ⟨⟨p, q, w⟩, hv, he⟩
    · have := (Coo.triples_mem ha.wf hv).1
      rw [ha.rows] at this
      unfold vcat
      rw [if_pos (by simp only at this; omega)]
      exact ha.has i j v hv
    · have := (Coo.triples_mem hb.wf hv).1
      simp only [Prod.mk.injEq] at he this
      rw [ha.rows] at he
      unfold vcat
      rw [if_neg (by omega)]
      refine hb.has (i - m) j w ?_
      have e : ((i - m : Nat) : Int) = p := by omega
      rw [e, ← he.2.1]
      exact hv

theorem GoodO.h_stack {a b : Coo T} (ha : GoodO t a m n ent pos size) (hb : GoodO t b m n' ent' pos' size')
    (hd : ((n + n' : Nat) : Int) ≤ t.hi + 1) (hfit : ((size + size' : Nat) : Int) < t.hi) :
    ∃ r, Coo.h_stack t a b = .ok r ∧ GoodO t r m (n + n') (hcat n ent ent') (hcat n pos pos') (size + size') := by
  obtain ⟨r, h1, h2, h3, h4, h5, h6⟩ := (C26_h_stack t a b ha.wf hb.wf).2 (ha.rows.trans hb.rows.symm)
    (by rw [ha.cols, hb.cols]; exact hd)
  obtain ⟨r', g1, -, -, -, g2, -⟩ := C66_h_stack t a b ha.wf hb.wf (ha.rows.trans hb.rows.symm)
    (by rw [ha.cols, hb.cols]; exact hd)
  obtain rfl : r' = r := by rw [g1] at h1; exact Except.ok.inj h1
  have l1 := ha.len
  have l2 := hb.len
  have e1 : a.nnz = a.values.length := rfl
  have e2 : b.nnz = b.values.length := rfl
  have e3 : r'.nnz = r'.values.length := rfl
  refine ⟨r', h1, h2, h3.trans ha.rows, by rw [h4, ha.cols, hb.cols], ?_, ?_, by omega, ⟨ha.dims.1, hd⟩, hfit⟩
  · intro i j
    rw [h6, ha.cols]
    unfold hcat
    split
    · exact ha.ent _ _
    · exact hb.ent _ _
  · intro i j v hv
    rw [g2, List.mem_append, List.mem_map] at hv
    rcases hv with hv | ⟨⟨p, q, w⟩, hv, he⟩
    · have := (Coo.triples_mem ha.wf hv).2
      rw [ha.cols] at this
      unfold hcat
      rw [if_pos (by simp only at this; omega)]
      exact ha.has i j v hv
    · have := (Coo.triples_mem hb.wf hv).2
      simp only [Prod.mk.injEq] at he this
      rw [ha.cols] at he
      unfold hcat
      rw [if_neg (by omega)]
      refine hb.has i (j - n) w ?_
      have e : ((j - n : Nat) : Int) = q := by omega
      rw [e, ← he.1]
      exact hv

theorem GoodO.upper {a : Coo T} (h : GoodO t a m n ent pos size) {k : Int} (h1 : t.lo ≤ k)
    (h2 : (m : Int) + k ≤ t.hi + 1) : ∃ r, a.upper t k = .ok r ∧
      GoodO t r m n (fun i j => if (i : Int) + k ≤ j then ent i j else 0) (fun i j => pos i j ∧ (i : Int) + k ≤ j) size := by
  obtain ⟨r, g1, g2, g3, g4, g5, g6⟩ := C28_upper t a h.wf k fun x hx => by
    have := h.wf.row x hx
    rw [h.rows] at this
    omega
  refine ⟨r, g1, g2, g3.trans h.rows, g4.trans h.cols, fun i j => by rw [g6, h.ent], ?_, ?_, h.dims, h.fit⟩
  · intro i j v hv
    rw [g5, List.mem_filter] at hv
    exact ⟨h.has i j v hv.1, by simpa using hv.2⟩
  · have e1 : r.values.length = r.triples.length := by
      simp [Coo.triples, g2.lenr, g2.lenc]
    have e2 : a.values.length = a.triples.length := by
      simp [Coo.triples, h.wf.lenr, h.wf.lenc]
    rw [e1, g5]
    refine (List.length_filter_le _ _).trans ?_
    rw [← e2]
    exact h.len

omit [AddCommMonoid T] in
theorem CSR.WF.has_bounds {a : CSR T} (h : a.WF t) {i j : Nat} (hh : a.has i j) : i < a.rows ∧ j < a.cols := by
  have hi := h.has_rows hh
  obtain ⟨v, hv⟩ := hh
  have := h.mem hi hv
  simp only at this
  omega

omit [AddCommMonoid T] in
theorem b_start {a : CSR T} (h : a.WF t) (hs : (a.stored : Int) < t.hi) {i : Nat} {v : Int} (hi : i < a.rows)
    (hv : a.rowptr[i]? = some v) : v < t.hi := by
  rw [h.rep.ptr i (by omega)] at hv
  have := flat_length_mono a.row (i := i) (n := a.rows) (by omega)
  rw [← h.stored_eq] at this
  have := Option.some.inj hv
  omega

theorem picks_mono {p q : Nat → Nat → Prop} (rows cols : List Int) (h : ∀ i j, p i j → q i j) :
    Expr.picks rows cols p ≤ Expr.picks rows cols q := by
  classical
  unfold Expr.picks
  induction rows with
  | nil => simp
  | cons r rows ih =>
    simp only [List.map_cons, List.sum_cons]
    refine Nat.add_le_add (List.countP_mono_left fun j _ hj => ?_) ih
    simp only [decide_eq_true_eq] at hj ⊢
    exact h _ _ hj

theorem picks_swap (p : Nat → Nat → Prop) (rows cols : List Int) :
    Expr.picks rows cols p = Expr.picks cols rows fun i j => p j i := by
  classical
  unfold Expr.picks
  induction rows with
  | nil => induction cols with
    | nil => rfl
    | cons c cols ih => simp at ih ⊢
  | cons r rows ih =>
    rw [List.map_cons, List.sum_cons, ih]
    clear ih
    induction cols with
    | nil => rfl
    | cons c cols ih =>
      simp only [List.map_cons, List.sum_cons, List.countP_cons] at ih ⊢
      omega

theorem GoodR.select {a : CSR T} (h : GoodR t a m n ent pos size) (ri ci : Option (List Int)) (hm : (m : Int) ≤ t.hi)
    (hn : (n : Int) ≤ t.hi) (hri : Expr.InRange m ri) (hci : Expr.InRange n ci)
    (hd : Expr.Dims t (chosen m ri).length (chosen n ci).length)
    (hfit : (Expr.picks (chosen m ri) (chosen n ci) pos : Int) < t.hi) :
    ∃ b r, a.sum_duplicates t = .ok b ∧ b.select t ri ci = .ok r ∧
      GoodR t r (chosen m ri).length (chosen n ci).length (Expr.pick 0 (chosen m ri) (chosen n ci) ent)
        (Expr.pick False (chosen m ri) (chosen n ci) pos) (Expr.picks (chosen m ri) (chosen n ci) pos) := by
  obtain ⟨b, h1, h2⟩ := h.sum
  have hcan : b.Canonical := by
    obtain ⟨r, g1, -, -, -, g2, -⟩ := C07_csr_sum_duplicates t a h.wf h.stored_fit
    rw [h1] at g1
    rwa [Except.ok.inj g1]
  have hpc : b.pickCount (chosen m ri) (chosen n ci) ≤ Expr.picks (chosen m ri) (chosen n ci) pos :=
    picks_mono _ _ h2.has
  have hri' : ∀ i ∈ chosen b.rows ri, 0 ≤ i ∧ i < (b.rows : Int) := by rw [h2.rows]; exact hri
  have hci' : ∀ i ∈ chosen b.cols ci, 0 ≤ i ∧ i < (b.cols : Int) := by rw [h2.cols]; exact hci
  obtain ⟨r, g1, g2, -, g3, g4, g5, g6, g7, g8⟩ := C22_csr_select t b h2.wf hcan (fun i v hi hv => b_start h2.wf h2.stored_fit hi hv)
    (h2.rows ▸ hm) (h2.cols ▸ hn) ri ci hri' hci' (by rw [h2.cols]; exact hd.2) (by rw [h2.rows, h2.cols]; omega)
  rw [h2.rows, h2.cols] at g5 g6
  rw [h2.rows] at g3
  rw [h2.cols] at g4
  have hst : r.stored = b.pickCount (chosen m ri) (chosen n ci) := by
    rw [CSR.nnz_ok (CSR.WF.rep g2), ← CSR.WF.stored_eq g2] at g6
    exact Except.ok.inj g6
  have hget : ∀ {k : Nat} {idx : Option (List Int)} {x : Nat}, Expr.InRange k idx → x < (chosen k idx).length →
      ∃ i : Nat, (chosen k idx)[x]? = some (i : Int) := by
    intro k idx x hr hx
    have := hr _ (List.getElem_mem hx)
    exact ⟨((chosen k idx)[x]).toNat, by rw [List.getElem?_eq_getElem hx, Int.toNat_of_nonneg this.1]⟩
  refine ⟨b, r, h1, g1, .tight g2 g3 g4 ?_ ?_ g7 g8 (hst.le.trans hpc) hd hfit⟩
  · intro i j
    by_cases hi : i < (chosen m ri).length
    · by_cases hj : j < (chosen n ci).length
      · obtain ⟨x, hx⟩ := hget hri hi
        obtain ⟨y, hy⟩ := hget hci hj
        rw [(g5 i j x y hx hy).1, h2.ent]
        simp [Expr.pick, hx, hy]
      · rw [CSR.entry_out (i := i) (j := j) g2 (by omega)]
        have e : (chosen n ci)[j]? = none := by simpa using hj
        simp [Expr.pick, e]
    · rw [CSR.entry_out (i := i) (j := j) g2 (by omega)]
      have e : (chosen m ri)[i]? = none := by simpa using hi
      simp [Expr.pick, e]
  · intro i j hh
    have hb := g2.has_bounds hh
    obtain ⟨x, hx⟩ := hget hri (x := i) (by omega)
    obtain ⟨y, hy⟩ := hget hci (x := j) (by omega)
    have := h2.has _ _ ((g5 i j x y hx hy).2.1 hh)
    simpa [Expr.pick, hx, hy] using this

theorem GoodC.select {a : CSC T} (h : GoodC t a m n ent pos size) (ri ci : Option (List Int)) (hm : (m : Int) ≤ t.hi)
    (hn : (n : Int) ≤ t.hi) (hri : Expr.InRange m ri) (hci : Expr.InRange n ci)
    (hd : Expr.Dims t (chosen m ri).length (chosen n ci).length)
    (hfit : (Expr.picks (chosen m ri) (chosen n ci) pos : Int) < t.hi) :
    ∃ b r, a.sum_duplicates t = .ok b ∧ b.select t ri ci = .ok r ∧
      GoodC t r (chosen m ri).length (chosen n ci).length (Expr.pick 0 (chosen m ri) (chosen n ci) ent)
        (Expr.pick False (chosen m ri) (chosen n ci) pos) (Expr.picks (chosen m ri) (chosen n ci) pos) := by
  obtain ⟨b, h1, h2⟩ := h.sum
  have hwa : a.WF t := h.wf
  have hw : b.WF t := h2.wf
  have er : b.rows = m := h2.cols
  have ec : b.cols = n := h2.rows
  have hcan : b.Canonical := by
    obtain ⟨r, g1, -, -, -, g2, -⟩ := C07_csc_sum_duplicates t a hwa h.stored_fit
    rw [h1] at g1
    rwa [Except.ok.inj g1]
  have hpc : b.pickCount (chosen m ri) (chosen n ci) ≤ Expr.picks (chosen m ri) (chosen n ci) pos := by
    rw [picks_swap]
    exact picks_mono (chosen n ci) (chosen m ri) h2.has
  have hri' : ∀ i ∈ chosen b.rows ri, 0 ≤ i ∧ i < (b.rows : Int) := by rw [er]; exact hri
  have hci' : ∀ i ∈ chosen b.cols ci, 0 ≤ i ∧ i < (b.cols : Int) := by rw [ec]; exact hci
  obtain ⟨r, g1, g2, -, g3, g4, g5, g6, g7, g8⟩ := C22_csc_select t b hw hcan
    (fun i v hi hv => b_start (a := b.asCSR) h2.wf h2.stored_fit hi hv)
    (er ▸ hm) (ec ▸ hn) ri ci hri' hci' (by rw [er]; exact hd.1) (by rw [er, ec]; omega)
  rw [er, ec] at g5 g6
  rw [er] at g3
  rw [ec] at g4
  have hst : r.stored = b.pickCount (chosen m ri) (chosen n ci) := by
    rw [CSC.nnz_ok (CSC.WF.rep g2), ← CSC.WF.stored_eq g2] at g6
    exact Except.ok.inj g6
  have hget : ∀ {k : Nat} {idx : Option (List Int)} {x : Nat}, Expr.InRange k idx → x < (chosen k idx).length →
      ∃ i : Nat, (chosen k idx)[x]? = some (i : Int) := by
    intro k idx x hr hx
    have := hr _ (List.getElem_mem hx)
    exact ⟨((chosen k idx)[x]).toNat, by rw [List.getElem?_eq_getElem hx, Int.toNat_of_nonneg this.1]⟩
  refine ⟨b, r, h1, g1, GoodR.tight (r := r.asCSR) g2 g4 g3 ?_ ?_ g7 g8 (hst.le.trans hpc) ⟨hd.2, hd.1⟩ hfit⟩
  · intro j i
    by_cases hi : i < (chosen m ri).length
    · by_cases hj : j < (chosen n ci).length
      · obtain ⟨x, hx⟩ := hget hri hi
        obtain ⟨y, hy⟩ := hget hci hj
        have e : b.entry x y = ent x y := h2.ent y x
        refine ((g5 i j x y hx hy).1.trans e).trans ?_
        simp [Expr.pick, hx, hy]
      · rw [CSR.entry_out (i := j) (j := i) (a := r.asCSR) g2 (by change ¬ (j < r.cols ∧ i < r.rows); omega)]
        have e : (chosen n ci)[j]? = none := by simpa using hj
        simp [Expr.pick, e]
    · rw [CSR.entry_out (i := j) (j := i) (a := r.asCSR) g2 (by change ¬ (j < r.cols ∧ i < r.rows); omega)]
      have e : (chosen m ri)[i]? = none := by simpa using hi
      simp [Expr.pick, e]
  · intro j i hh
    have hb := CSR.WF.has_bounds (a := r.asCSR) g2 hh
    have hb1 : j < r.cols := hb.1
    have hb2 : i < r.rows := hb.2
    obtain ⟨x, hx⟩ := hget hri (x := i) (by omega)
    obtain ⟨y, hy⟩ := hget hci (x := j) (by omega)
    have := h2.has _ _ ((g5 i j x y hx hy).2.1 hh)
    simpa [Expr.pick, hx, hy] using this

theorem GoodR.h_stack {a b : CSR T} (ha : GoodR t a m n ent pos size) (hb : GoodR t b m n' ent' pos' size')
    (hd : ((n + n' : Nat) : Int) ≤ t.hi + 1) (hfit : ((size + size' : Nat) : Int) < t.hi) :
    ∃ r, CSR.h_stack t a b = .ok r ∧ GoodR t r m (n + n') (hcat n ent ent')
      (hcat n (fun i j => pos i j ∨ i = 0 ∧ j = 0) fun i j => pos' i j ∨ i = 0 ∧ j = 0) (size + size') := by
  obtain ⟨c, h1, h2⟩ := ha.to_coo
  obtain ⟨d, h3, h4⟩ := hb.to_coo
  obtain ⟨e, h5, h6⟩ := h2.h_stack h4 hd hfit
  obtain ⟨r, h7, h8⟩ := h6.to_csr
  refine ⟨r, ?_, h8⟩
  unfold CSR.h_stack
  rw [h1, h3]
  simp only [bind, Except.bind]
  rw [h5]
  exact h7

theorem GoodO.compose {a b c d : Coo T} {ent₂ ent₃ : Nat → Nat → T} {pos₂ pos₃ : Nat → Nat → Prop} {size₂ size₃ : Nat}
    (ha : GoodO t a m n ent pos size) (hb : GoodO t b m n' ent' pos' size')
    (hc : GoodO t c m' n ent₂ pos₂ size₂) (hd : GoodO t d m' n' ent₃ pos₃ size₃) (hdim : Expr.Dims t (m + m') (n + n'))
    (hfit : ((size + size' + (size₂ + size₃) : Nat) : Int) < t.hi) :
    ∃ r, Coo.compose t a b c d = .ok r ∧ GoodO t r (m + m') (n + n') (Expr.block m n ent ent' ent₂ ent₃)
      (Expr.block m n pos pos' pos₂ pos₃) (size + size' + (size₂ + size₃)) := by
  obtain ⟨x, h1, h2⟩ := ha.h_stack hb hdim.2 (by omega)
  obtain ⟨y, h3, h4⟩ := hc.h_stack hd hdim.2 (by omega)
  obtain ⟨r, h5, h6⟩ := h2.v_stack h4 hdim.1 hfit
  refine ⟨r, ?_, h6⟩
  unfold Coo.compose
  rw [h1, h3]
  exact h5

theorem GoodC.compose {a b c d : CSC T} {ent₂ ent₃ : Nat → Nat → T} {pos₂ pos₃ : Nat → Nat → Prop} {size₂ size₃ : Nat}
    (ha : GoodC t a m n ent pos size) (hb : GoodC t b m n' ent' pos' size')
    (hc : GoodC t c m' n ent₂ pos₂ size₂) (hd : GoodC t d m' n' ent₃ pos₃ size₃) (hdim : Expr.Dims t (m + m') (n + n'))
    (hfit : ((size + size' + (size₂ + size₃) : Nat) : Int) < t.hi) :
    ∃ r, CSC.compose t a b c d = .ok r ∧ GoodC t r (m + m') (n + n') (Expr.block m n ent ent' ent₂ ent₃)
      (Expr.block m n pos pos' pos₂ pos₃) (size + size' + (size₂ + size₃)) := by
  obtain ⟨a', e1, f1⟩ := ha.to_coo
  obtain ⟨b', e2, f2⟩ := hb.to_coo
  obtain ⟨c', e3, f3⟩ := hc.to_coo
  obtain ⟨d', e4, f4⟩ := hd.to_coo
  obtain ⟨x, h1, h2⟩ := f1.h_stack f2 hdim.2 (by omega)
  obtain ⟨y, h3, h4⟩ := f3.h_stack f4 hdim.2 (by omega)
  obtain ⟨z, h5, h6⟩ := h2.v_stack h4 hdim.1 hfit
  obtain ⟨r, h7, h8⟩ := h6.to_csc
  refine ⟨r, ?_, h8⟩
  unfold CSC.compose
  rw [e1, e2, e3, e4]
  simp only [bind, Except.bind]
  rw [h1, h3]
  simp only
  rw [h5]
  exact h7

theorem GoodO.v_stack3 {a b c : Coo T} {m₂ : Nat} {ent₂ : Nat → Nat → T} {pos₂ : Nat → Nat → Prop} {size₂ : Nat}
    (ha : GoodO t a m n ent pos size) (hb : GoodO t b m' n ent' pos' size')
    (hc : GoodO t c m₂ n ent₂ pos₂ size₂) (hd : ((m + m' + m₂ : Nat) : Int) ≤ t.hi + 1)
    (hfit : ((size + size' + size₂ : Nat) : Int) < t.hi) :
    ∃ r, Coo.v_stack3 t a b c = .ok r ∧ GoodO t r (m + m' + m₂) n (vcat (m + m') (vcat m ent ent') ent₂)
      (vcat (m + m') (vcat m pos pos') pos₂) (size + size' + size₂) := by
  obtain ⟨x, h1, h2⟩ := ha.v_stack hb (by omega) (by omega)
  obtain ⟨r, h3, h4⟩ := h2.v_stack hc hd hfit
  refine ⟨r, ?_, h4⟩
  unfold Coo.v_stack3
  rw [if_neg (by rw [ha.cols, hb.cols]; simp), if_neg (by rw [ha.cols, hc.cols]; simp), h1]
  exact h3

theorem GoodO.h_stack3 {a b c : Coo T} {n₂ : Nat} {ent₂ : Nat → Nat → T} {pos₂ : Nat → Nat → Prop} {size₂ : Nat}
    (ha : GoodO t a m n ent pos size) (hb : GoodO t b m n' ent' pos' size')
    (hc : GoodO t c m n₂ ent₂ pos₂ size₂) (hd : ((n + n' + n₂ : Nat) : Int) ≤ t.hi + 1)
    (hfit : ((size + size' + size₂ : Nat) : Int) < t.hi) :
    ∃ r, Coo.h_stack3 t a b c = .ok r ∧ GoodO t r m (n + n' + n₂) (hcat (n + n') (hcat n ent ent') ent₂)
      (hcat (n + n') (hcat n pos pos') pos₂) (size + size' + size₂) := by
  obtain ⟨x, h1, h2⟩ := ha.h_stack hb (by omega) (by omega)
  obtain ⟨r, h3, h4⟩ := h2.h_stack hc hd hfit
  refine ⟨r, ?_, h4⟩
  unfold Coo.h_stack3
  rw [if_neg (by rw [ha.rows, hb.rows]; simp), if_neg (by rw [ha.rows, hc.rows]; simp), h1]
  exact h3

end
end Sparse

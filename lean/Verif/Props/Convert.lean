import Verif.Lemmas.HasSorted
import Verif.Lemmas.CanonEdge
/-! Properties C01–C04 and C07–C10: format conversions, canonicalisation, format tests. -/
namespace Sparse

section
variable {T : Type}

/-! ### concrete matrices used to show that hypotheses are satisfiable -/

/-- 2×3, unsorted, duplicate position (1,2), explicit zero -/
def exCoo : Coo Int := ⟨2, 3, [1, 0, 1, 1], [2, 0, 2, 0], [5, 7, -3, 0]⟩
/-- 3×3, unsorted first row, duplicate in last row, empty middle row, unused trailing storage -/
def exCsr : CSR Int := ⟨3, 3, [0, 2, 2, 4], [2, 0, 1, 1, 9, 9], [5, 7, -3, 4, 1]⟩
/-- 2×3 in column format -/
def exCsc : CSC Int := ⟨2, 3, [1, 0, 1, 1], [0, 2, 2, 4], [5, 7, -3, 4]⟩
/-- canonical 2×2 matrix with a full diagonal -/
def exCan : CSR Int := ⟨2, 2, [0, 2, 3], [0, 1, 1], [5, 7, -3]⟩

theorem exCoo_wf : exCoo.WF .u8 := Coo.wf_of (by decide)
theorem exCsr_wf : (⟨3, 3, [0, 2, 2, 4], [2, 0, 1, 1, 2, 2], [5, 7, -3, 4, 1]⟩ : CSR Int).WF .u8 :=
  CSR.wf_of (by decide)
theorem exCsc_wf : exCsc.WF .u8 := CSC.wf_of (by decide)
theorem exCan_wf : exCan.WF .i8 := CSR.wf_of (by decide)

/-! ### C01, C02 -/

theorem tag_mem {R : Nat → List (Int × T)} {n : Nat} {i j : Int} :
    (∃ v, (i, j, v) ∈ flat (fun i => (R i).map fun e => ((i : Int), e.1, e.2)) n) ↔
      ∃ k < n, i = (k : Int) ∧ ∃ e ∈ R k, e.1 = j := by
  simp only [mem_flat, List.mem_map, Prod.mk.injEq]
  constructor
  · rintro ⟨v, k, hk, e, he, h1, h2, h3⟩; exact ⟨k, hk, h1.symm, e, he, h2⟩
  · rintro ⟨k, hk, h1, e, he, h2⟩; exact ⟨e.2, k, hk, e, he, h1.symm, h2, rfl⟩

theorem tag_memT {R : Nat → List (Int × T)} {n : Nat} {i j : Int} :
    (∃ v, (i, j, v) ∈ flat (fun k => (R k).map fun e => (e.1, (k : Int), e.2)) n) ↔
      ∃ k < n, j = (k : Int) ∧ ∃ e ∈ R k, e.1 = i := by
  simp only [mem_flat, List.mem_map, Prod.mk.injEq]
  constructor
  · rintro ⟨v, k, hk, e, he, h1, h2, h3⟩; exact ⟨k, hk, h2.symm, e, he, h1⟩
  · rintro ⟨k, hk, h1, e, he, h2⟩; exact ⟨e.2, k, hk, e, he, h2, h1.symm, rfl⟩

/-- C01. `Coo::to_csr` on a valid matrix with fewer than `I::MAX` entries returns normally; the result is
a valid canonical CSR matrix of the same shape with the same entries, stores exactly the positions of the
input, and has no unused storage. -/
theorem C01_coo_to_csr [AddCommMonoid T] (t : IntTy) (a : Coo T) (ha : a.WF t)
    (hn : (a.values.length : Int) < t.hi) :
    ∃ r, a.to_csr t = .ok r ∧ r.WF t ∧ r.rows = a.rows ∧ r.cols = a.cols ∧ r.Canonical ∧
      (∀ i j, r.entry i j = a.entry i j) ∧
      (∀ i j, (∃ v, (i, j, v) ∈ r.triples) ↔ ∃ v, (i, j, v) ∈ a.triples) ∧
      r.rowptr.length = a.rows + 1 ∧ r.colidx.length = r.stored ∧ r.values.length = r.stored ∧
      r.stored ≤ a.values.length := by
  have hlen : a.items.length = a.values.length := by
    unfold Coo.items; rw [List.length_map, Coo.triples_length ha]
  have hall : ∀ e ∈ a.items, e.1 < a.rows := by
    intro e he
    unfold Coo.items at he
    rw [List.mem_map] at he
    obtain ⟨d, hd, rfl⟩ := he
    have := Coo.triples_mem ha hd
    simp only; omega
  have hcol : ∀ e ∈ a.items, 0 ≤ e.2.1 ∧ e.2.1 < (a.cols : Int) ∧ e.2.1 ≤ t.hi := by
    intro e he
    unfold Coo.items at he
    rw [List.mem_map] at he
    obtain ⟨d, hd, rfl⟩ := he
    exact (Coo.triples_mem ha hd).2
  have hget : ∀ (k : Nat) e, a.items[k]? = some e →
      a.rowidx[k]? = some (e.1 : Int) ∧ a.colidx[k]? = some e.2.1 ∧ a.values[k]? = some e.2.2 := by
    intro k e he
    unfold Coo.items at he
    rw [List.getElem?_map] at he
    cases hh : a.triples[k]? with
    | none => rw [hh] at he; simp at he
    | some d =>
      rw [hh] at he
      simp at he
      subst he
      have h1 := Coo.triples_get hh
      have h2 := Coo.triples_mem ha (List.mem_of_getElem? hh)
      refine ⟨?_, h1.2.1, h1.2.2⟩
      rw [h1.1]; simp only; congr 1; omega
  suffices h : Ok (a.to_csr t) fun r => r.WF t ∧ r.rows = a.rows ∧ r.cols = a.cols ∧ r.Canonical ∧
      (∀ i j, r.entry i j = a.entry i j) ∧
      (∀ i j, (∃ v, (i, j, v) ∈ r.triples) ↔ ∃ v, (i, j, v) ∈ a.triples) ∧
      r.rowptr.length = a.rows + 1 ∧ r.colidx.length = r.stored ∧ r.values.length = r.stored ∧
      r.stored ≤ a.values.length by
    exact h
  unfold Coo.to_csr
  wp
  rw [show a.nnz = a.items.length from hlen.symm]
  refine (coo_tocsr_ok hget hall (by omega) (by simp) (by simp) (by simp)).mono ?_
  rintro ⟨p, j, x⟩ ⟨hr, hlj, hlx⟩
  simp only at hr hlj hlx ⊢
  rw [CSR.new_ok hr]
  wp
  have hfl := flat_bucket_length_eq hall
  refine (CSR.sum_duplicates_ok (a := ⟨a.rows, a.cols, p, j, x⟩) (t := t) hr ?_).mono ?_
  · simp only; rw [hfl, hlen]; exact hn
  rintro r ⟨h1, h2, h3, h4⟩
  simp only at h1 h2 h3 h4
  have hle : (flat (fun i => canonRow (bucket a.items i)) a.rows).length ≤ (flat (bucket a.items) a.rows).length :=
    flat_length_le fun i _ => canonRow_length _
  have h3' : Rep r.rowptr r.colidx r.values r.rows (fun i => canonRow (bucket a.items i)) := by rw [h1]; exact h3
  have hst := CSR.stored_of_rep h3'
  rw [h1] at hst
  refine ⟨?_, h1, h2, ?_, ?_, ?_, h3.len, ?_⟩
  · rw [CSR.WF, h1, h2]
    refine h3.wf (fun i _ => canonRow_mem (P := fun c => 0 ≤ c ∧ c < (a.cols : Int) ∧ c ≤ t.hi) fun e he => hcol _ (mem_bucket.1 he)) ?_
    omega
  · intro i hi
    rw [CSR.row_of_rep h3' hi]
    exact canonRow_sorted _
  · intro i j
    rw [CSR.entry_of_rep h3]
    split
    · rw [rowSum_canonRow, Coo.rowSum_items ha]
    · rw [Coo.entry_out ha (by omega)]
  · intro i j
    rw [CSR.triples_of_rep h3', tag_mem, h1]
    constructor
    · rintro ⟨k, hk, rfl, hke⟩
      obtain ⟨e, he, rfl⟩ := (canonRow_key _ _).1 hke
      rw [mem_bucket] at he
      unfold Coo.items at he
      rw [List.mem_map] at he
      obtain ⟨d, hd, hde⟩ := he
      have := Coo.triples_mem ha hd
      simp only [Prod.mk.injEq] at hde
      refine ⟨d.2.2, ?_⟩
      have e1 : ((k : Int), e.1, d.2.2) = d := by
        rw [← hde.2, ← hde.1]
        ext <;> simp; omega
      rw [e1]; exact hd
    · rintro ⟨v, hv⟩
      have := Coo.triples_mem ha hv
      simp only at this
      refine ⟨i.toNat, by omega, by omega, (canonRow_key _ _).2 ⟨(j, v), ?_, rfl⟩⟩
      rw [mem_bucket]
      unfold Coo.items
      rw [List.mem_map]
      exact ⟨(i, j, v), hv, rfl⟩
  · have hsl : r.stored ≤ a.values.length := by rw [hst]; omega
    rw [← and_assoc]
    refine ⟨?_, hsl⟩
    rcases h4 with ⟨h4, hs⟩ | ⟨-, h4⟩
    · have e1 : (flat (fun i => canonRow (bucket a.items i)) a.rows).length = a.items.length := by
        rw [← hfl]
        exact flat_length_congr fun i hi => by rw [canonRow_of_sorted (hs i hi)]
      rw [hst, e1, h4]
      simp only
      rw [hlj, hlx]; simp
    · rw [hst]; exact h4

example : exCoo.WF .u8 ∧ (exCoo.values.length : Int) < IntTy.u8.hi := ⟨exCoo_wf, by decide⟩

/-- C02. `Coo::to_csc`, as C01 with rows and columns exchanged. -/
theorem C02_coo_to_csc [AddCommMonoid T] (t : IntTy) (a : Coo T) (ha : a.WF t)
    (hn : (a.values.length : Int) < t.hi) :
    ∃ r, a.to_csc t = .ok r ∧ r.WF t ∧ r.rows = a.rows ∧ r.cols = a.cols ∧ r.Canonical ∧
      (∀ i j, r.entry i j = a.entry i j) ∧
      (∀ i j, (∃ v, (i, j, v) ∈ r.triples) ↔ ∃ v, (i, j, v) ∈ a.triples) ∧
      r.colptr.length = a.cols + 1 ∧ r.rowidx.length = r.stored ∧ r.values.length = r.stored ∧
      r.stored ≤ a.values.length := by
  have hlen : a.itemsT.length = a.values.length := by
    unfold Coo.itemsT; rw [List.length_map, Coo.triples_length ha]
  have hall : ∀ e ∈ a.itemsT, e.1 < a.cols := by
    intro e he
    unfold Coo.itemsT at he
    rw [List.mem_map] at he
    obtain ⟨d, hd, rfl⟩ := he
    have := Coo.triples_mem ha hd
    simp only; omega
  have hcol : ∀ e ∈ a.itemsT, 0 ≤ e.2.1 ∧ e.2.1 < (a.rows : Int) ∧ e.2.1 ≤ t.hi := by
    intro e he
    unfold Coo.itemsT at he
    rw [List.mem_map] at he
    obtain ⟨d, hd, rfl⟩ := he
    exact (Coo.triples_mem ha hd).1
  have hget : ∀ (k : Nat) e, a.itemsT[k]? = some e →
      a.colidx[k]? = some (e.1 : Int) ∧ a.rowidx[k]? = some e.2.1 ∧ a.values[k]? = some e.2.2 := by
    intro k e he
    unfold Coo.itemsT at he
    rw [List.getElem?_map] at he
    cases hh : a.triples[k]? with
    | none => rw [hh] at he; simp at he
    | some d =>
      rw [hh] at he
      simp at he
      subst he
      have h1 := Coo.triples_get hh
      have h2 := Coo.triples_mem ha (List.mem_of_getElem? hh)
      refine ⟨?_, h1.1, h1.2.2⟩
      rw [h1.2.1]; simp only; congr 1; omega
  suffices h : Ok (a.to_csc t) fun r => r.WF t ∧ r.rows = a.rows ∧ r.cols = a.cols ∧ r.Canonical ∧
      (∀ i j, r.entry i j = a.entry i j) ∧
      (∀ i j, (∃ v, (i, j, v) ∈ r.triples) ↔ ∃ v, (i, j, v) ∈ a.triples) ∧
      r.colptr.length = a.cols + 1 ∧ r.rowidx.length = r.stored ∧ r.values.length = r.stored ∧
      r.stored ≤ a.values.length by
    exact h
  unfold Coo.to_csc
  wp
  rw [show a.nnz = a.itemsT.length from hlen.symm]
  refine (coo_tocsr_ok hget hall (by omega) (by simp) (by simp) (by simp)).mono ?_
  rintro ⟨p, j, x⟩ ⟨hr, hlj, hlx⟩
  simp only at hr hlj hlx ⊢
  rw [CSC.new_ok hr]
  wp
  have hfl := flat_bucket_length_eq hall
  refine (CSC.sum_duplicates_ok (a := ⟨a.rows, a.cols, j, p, x⟩) (t := t) hr ?_).mono ?_
  · simp only; rw [hfl, hlen]; exact hn
  rintro r ⟨h1, h2, h3, h4⟩
  simp only at h1 h2 h3 h4
  have hle : (flat (fun i => canonRow (bucket a.itemsT i)) a.cols).length ≤ (flat (bucket a.itemsT) a.cols).length :=
    flat_length_le fun i _ => canonRow_length _
  have h3' : Rep r.colptr r.rowidx r.values r.cols (fun i => canonRow (bucket a.itemsT i)) := by rw [h2]; exact h3
  have hst := CSC.stored_of_rep h3'
  rw [h2] at hst
  refine ⟨?_, h1, h2, ?_, ?_, ?_, h3.len, ?_⟩
  · rw [CSC.WF, h1, h2]
    refine h3.wf (fun i _ => canonRow_mem (P := fun c => 0 ≤ c ∧ c < (a.rows : Int) ∧ c ≤ t.hi) fun e he => hcol _ (mem_bucket.1 he)) ?_
    omega
  · intro i hi
    rw [CSC.col_of_rep h3' hi]
    exact canonRow_sorted _
  · intro i j
    rw [CSC.entry_of_rep h3]
    split
    · rw [rowSum_canonRow, Coo.rowSum_itemsT ha]
    · rw [Coo.entry_out ha (by omega)]
  · intro i j
    rw [CSC.triples_of_rep h3', tag_memT, h2]
    constructor
    · rintro ⟨k, hk, rfl, hke⟩
      obtain ⟨e, he, rfl⟩ := (canonRow_key _ _).1 hke
      rw [mem_bucket] at he
      unfold Coo.itemsT at he
      rw [List.mem_map] at he
      obtain ⟨d, hd, hde⟩ := he
      have := Coo.triples_mem ha hd
      simp only [Prod.mk.injEq] at hde
      refine ⟨d.2.2, ?_⟩
      have e1 : (e.1, (k : Int), d.2.2) = d := by
        rw [← hde.2, ← hde.1]
        ext <;> simp; omega
      rw [e1]; exact hd
    · rintro ⟨v, hv⟩
      have := Coo.triples_mem ha hv
      simp only at this
      refine ⟨j.toNat, by omega, by omega, (canonRow_key _ _).2 ⟨(i, v), ?_, rfl⟩⟩
      rw [mem_bucket]
      unfold Coo.itemsT
      rw [List.mem_map]
      exact ⟨(i, j, v), hv, rfl⟩
  · have hsl : r.stored ≤ a.values.length := by rw [hst]; omega
    rw [← and_assoc]
    refine ⟨?_, hsl⟩
    rcases h4 with ⟨h4, hs⟩ | ⟨-, h4⟩
    · have e1 : (flat (fun i => canonRow (bucket a.itemsT i)) a.cols).length = a.itemsT.length := by
        rw [← hfl]
        exact flat_length_congr fun i hi => by rw [canonRow_of_sorted (hs i hi)]
      rw [hst, e1, h4]
      simp only
      rw [hlj, hlx]; simp
    · rw [hst]; exact h4

example : exCoo.WF .u8 ∧ (exCoo.values.length : Int) < IntTy.u8.hi := ⟨exCoo_wf, by decide⟩

/-! ### C03, C04 -/

theorem CSR.WF.mem {t : IntTy} {a : CSR T} (h : a.WF t) {i : Nat} (hi : i < a.rows) {e : Int × T}
    (he : e ∈ a.row i) : 0 ≤ e.1 ∧ e.1 < a.cols ∧ e.1 ≤ t.hi := WFptr.mem h hi he
theorem CSC.WF.mem {t : IntTy} {a : CSC T} (h : a.WF t) {i : Nat} (hi : i < a.cols) {e : Int × T}
    (he : e ∈ a.col i) : 0 ≤ e.1 ∧ e.1 < a.rows ∧ e.1 ≤ t.hi := WFptr.mem h hi he

theorem colsOf_flat_length {R : Nat → List (Int × T)} {n m : Nat}
    (hm : ∀ i < n, ∀ e ∈ R i, 0 ≤ e.1 ∧ e.1 < m) : (flat (colsOf R n) m).length = (flat R n).length := by
  have h := (colsOf_triples_perm hm).length_eq
  have e1 : (flat (fun c => (colsOf R n c).map fun e => (e.1, (c : Int), e.2)) m).length = (flat (colsOf R n) m).length :=
    flat_length_congr fun i _ => by simp
  have e2 : (flat (fun i => (R i).map fun e => ((i : Int), e.1, e.2)) n).length = (flat R n).length :=
    flat_length_congr fun i _ => by simp
  omega

/-- what `CSR::to_csc` builds, in terms of the rows -/
theorem CSR.to_csc_ok [Zero T] {t : IntTy} {a : CSR T} (ha : a.WF t) (hr : (a.rows : Int) ≤ t.hi + 1) :
    Ok (a.to_csc t) fun r => r.rows = a.rows ∧ r.cols = a.cols ∧
      Rep r.colptr r.rowidx r.values a.cols (colsOf a.row a.rows) ∧
      r.rowidx.length = (flat a.row a.rows).length ∧ r.values.length = (flat a.row a.rows).length := by
  unfold CSR.to_csc
  rw [CSR.nnz_ok ha.rep]
  wp
  refine (csr_tocsc_ok (m := a.cols) ha.rep (fun i hi e he => ?_) ha.fits hr (by simp) (by simp) (by simp)).mono ?_
  · have := ha.mem hi he; exact ⟨this.1, this.2.1⟩
  rintro ⟨p, j, x⟩ ⟨h1, h2, h3⟩
  simp only at h1 h2 h3 ⊢
  rw [CSC.new_ok h1]
  wp
  refine ⟨trivial, trivial, h1, by simpa using h2, by simpa using h3⟩

theorem CSC.to_csr_ok [Zero T] {t : IntTy} {a : CSC T} (ha : a.WF t) (hr : (a.cols : Int) ≤ t.hi + 1) :
    Ok (a.to_csr t) fun r => r.rows = a.rows ∧ r.cols = a.cols ∧
      Rep r.rowptr r.colidx r.values a.rows (colsOf a.col a.cols) ∧
      r.colidx.length = (flat a.col a.cols).length ∧ r.values.length = (flat a.col a.cols).length := by
  unfold CSC.to_csr
  rw [CSC.nnz_ok ha.rep]
  wp
  refine (csr_tocsc_ok (m := a.rows) ha.rep (fun i hi e he => ?_) ha.fits hr (by simp) (by simp) (by simp)).mono ?_
  · have := ha.mem hi he; exact ⟨this.1, this.2.1⟩
  rintro ⟨p, j, x⟩ ⟨h1, h2, h3⟩
  simp only at h1 h2 h3 ⊢
  rw [CSR.new_ok h1]
  wp
  refine ⟨trivial, trivial, h1, by simpa using h2, by simpa using h3⟩

theorem CSR.entry_out [AddCommMonoid T] {t : IntTy} {a : CSR T} (ha : a.WF t) {i j : Nat}
    (h : ¬ (i < a.rows ∧ j < a.cols)) : a.entry i j = 0 := by
  rw [CSR.entry_of_rep ha.rep]
  split
  · apply rowSum_eq_zero
    intro e he hj
    have := ha.mem (by assumption) he
    omega
  · rfl

theorem CSC.entry_out [AddCommMonoid T] {t : IntTy} {a : CSC T} (ha : a.WF t) {i j : Nat}
    (h : ¬ (i < a.rows ∧ j < a.cols)) : a.entry i j = 0 := by
  rw [CSC.entry_of_rep ha.rep]
  split
  · apply rowSum_eq_zero
    intro e he hj
    have := ha.mem (by assumption) he
    omega
  · rfl

/-- C03. `CSR::to_csc` on a valid matrix whose row indices are representable: same shape, same entries,
same multiset of stored triplets, row indices of every column in order. -/
theorem C03_csr_to_csc [AddCommMonoid T] (t : IntTy) (a : CSR T) (ha : a.WF t)
    (hr : (a.rows : Int) ≤ t.hi + 1) :
    ∃ r, a.to_csc t = .ok r ∧ r.WF t ∧ r.rows = a.rows ∧ r.cols = a.cols ∧
      (∀ i j, r.entry i j = a.entry i j) ∧ r.triples.Perm a.triples ∧
      (∀ j < r.cols, (r.col j).Pairwise fun e f => e.1 ≤ f.1) ∧
      (a.Canonical → r.Canonical) ∧
      r.rowidx.length = a.stored ∧ r.values.length = a.stored := by
  have hm : ∀ i < a.rows, ∀ e ∈ a.row i, 0 ≤ e.1 ∧ e.1 < a.cols := fun i hi e he =>
    ⟨(ha.mem hi he).1, (ha.mem hi he).2.1⟩
  have hfits := ha.fits
  refine (CSR.to_csc_ok ha hr).mono ?_
  rintro r ⟨h1, h2, h3, h4, h5⟩
  have h3' : Rep r.colptr r.rowidx r.values r.cols (colsOf a.row a.rows) := by rw [h2]; exact h3
  refine ⟨?_, h1, h2, ?_, ?_, ?_, ?_, ?_, ?_⟩
  · rw [CSC.WF, h1, h2]
    refine h3.wf (fun i hi e he => ?_) (by rw [colsOf_flat_length hm]; exact hfits)
    have := colsOf_mem he; omega
  · intro i j
    rw [CSC.entry_of_rep h3]
    by_cases hij : i < a.rows ∧ j < a.cols
    · rw [if_pos hij.2, CSR.entry_of_rep ha.rep, if_pos hij.1,
        rowSum_colsOf (fun i hi e he => (hm i hi e he).1) hij.1]
    · rw [CSR.entry_out ha hij]
      split
      · apply rowSum_eq_zero
        intro e he hj
        have := colsOf_mem he
        omega
      · rfl
  · rw [CSC.triples_of_rep h3', CSR.triples_of_rep ha.rep, h2]
    exact colsOf_triples_perm hm
  · intro j hj
    rw [CSC.col_of_rep h3' hj]
    exact colsOf_sorted _ _ _
  · intro hc j hj
    rw [CSC.col_of_rep h3' hj]
    exact colsOf_ssorted (fun i hi => SRow.nodup_keys (hc i hi)) (fun i hi e he => (hm i hi e he).1) j
  · rw [ha.stored_eq]; exact h4
  · rw [ha.stored_eq]; exact h5

example : ∃ a : CSR Int, a.WF .u8 ∧ (a.rows : Int) ≤ IntTy.u8.hi + 1 ∧ a.stored = 4 :=
  ⟨_, exCsr_wf, by decide, by decide⟩

/-- C04. `CSC::to_csr` on a valid matrix whose column indices are representable. -/
theorem C04_csc_to_csr [AddCommMonoid T] (t : IntTy) (a : CSC T) (ha : a.WF t)
    (hr : (a.cols : Int) ≤ t.hi + 1) :
    ∃ r, a.to_csr t = .ok r ∧ r.WF t ∧ r.rows = a.rows ∧ r.cols = a.cols ∧
      (∀ i j, r.entry i j = a.entry i j) ∧ r.triples.Perm a.triples ∧
      (∀ i < r.rows, (r.row i).Pairwise fun e f => e.1 ≤ f.1) ∧
      (a.Canonical → r.Canonical) ∧
      r.colidx.length = a.stored ∧ r.values.length = a.stored := by
  have hm : ∀ i < a.cols, ∀ e ∈ a.col i, 0 ≤ e.1 ∧ e.1 < a.rows := fun i hi e he =>
    ⟨(ha.mem hi he).1, (ha.mem hi he).2.1⟩
  have hfits := ha.fits
  refine (CSC.to_csr_ok ha hr).mono ?_
  rintro r ⟨h1, h2, h3, h4, h5⟩
  have h3' : Rep r.rowptr r.colidx r.values r.rows (colsOf a.col a.cols) := by rw [h1]; exact h3
  refine ⟨?_, h1, h2, ?_, ?_, ?_, ?_, ?_, ?_⟩
  · rw [CSR.WF, h1, h2]
    refine h3.wf (fun i hi e he => ?_) (by rw [colsOf_flat_length hm]; exact hfits)
    have := colsOf_mem he; omega
  · intro i j
    rw [CSR.entry_of_rep h3]
    by_cases hij : i < a.rows ∧ j < a.cols
    · rw [if_pos hij.1, CSC.entry_of_rep ha.rep, if_pos hij.2,
        rowSum_colsOf (fun i hi e he => (hm i hi e he).1) hij.2]
    · rw [CSC.entry_out ha hij]
      split
      · apply rowSum_eq_zero
        intro e he hj
        have := colsOf_mem he
        omega
      · rfl
  · rw [CSR.triples_of_rep h3', CSC.triples_of_rep ha.rep, h1]
    have hp := (colsOf_triples_perm hm).map fun (e : Int × Int × T) => (e.2.1, e.1, e.2.2)
    rw [← flat_map, ← flat_map] at hp
    simpa [List.map_map, Function.comp_def] using hp
  · intro j hj
    rw [CSR.row_of_rep h3' hj]
    exact colsOf_sorted _ _ _
  · intro hc j hj
    rw [CSR.row_of_rep h3' hj]
    exact colsOf_ssorted (fun i hi => SRow.nodup_keys (hc i hi)) (fun i hi e he => (hm i hi e he).1) j
  · rw [ha.stored_eq]; exact h4
  · rw [ha.stored_eq]; exact h5

example : exCsc.WF .u8 ∧ (exCsc.cols : Int) ≤ IntTy.u8.hi + 1 := ⟨exCsc_wf, by decide⟩

/-- C04 (kernel). `csc_tocsr` writes the same matrix in compressed row format into the given arrays, whatever they hold; space
beyond the stored entries may be left. -/
theorem C04_csc_tocsr_kernel [AddCommMonoid T] (t : IntTy) (a : CSC T) (ha : a.WF t) (hr : (a.cols : Int) ≤ t.hi + 1)
    (bp bj : List Int) (bx : List T) (hp : bp.length = a.rows + 1) (hj : a.stored ≤ bj.length) (hx : a.stored ≤ bx.length) :
    ∃ p j x, csc_tocsr t a.rows a.cols a.colptr a.rowidx a.values bp bj bx = .ok (p, j, x) ∧
      CSR.WF t ⟨a.rows, a.cols, p, j, x⟩ ∧ (∀ i k, CSR.entry ⟨a.rows, a.cols, p, j, x⟩ i k = a.entry i k) ∧
      (CSR.triples ⟨a.rows, a.cols, p, j, x⟩).Perm a.triples ∧
      (∀ i < a.rows, (CSR.row ⟨a.rows, a.cols, p, j, x⟩ i).Pairwise fun e f => e.1 ≤ f.1) ∧
      j.length = bj.length ∧ x.length = bx.length := by
  have hm : ∀ i < a.cols, ∀ e ∈ a.col i, 0 ≤ e.1 ∧ e.1 < a.rows := fun i hi e he =>
    ⟨(ha.mem hi he).1, (ha.mem hi he).2.1⟩
  have hfits := ha.fits
  rw [ha.stored_eq] at hj hx
  obtain ⟨⟨p, j, x⟩, h0, h3, h4, h5⟩ := csr_tocsc_ok (t := t) ha.rep hm hfits hr hp hj hx
  have h3' : Rep p j x a.rows (colsOf a.col a.cols) := h3
  refine ⟨p, j, x, h0, ?_, ?_, ?_, ?_, h4, h5⟩
  · refine h3'.wf (fun i hi e he => ?_) (by rw [colsOf_flat_length hm]; exact hfits)
    have := colsOf_mem he
    show 0 ≤ e.1 ∧ e.1 < (a.cols : Int) ∧ e.1 ≤ t.hi
    omega
  · intro i k
    rw [CSR.entry_of_rep (a := ⟨a.rows, a.cols, p, j, x⟩) h3']
    by_cases hij : i < a.rows ∧ k < a.cols
    · rw [if_pos hij.1, CSC.entry_of_rep ha.rep, if_pos hij.2,
        rowSum_colsOf (fun i hi e he => (hm i hi e he).1) hij.2]
    · rw [CSC.entry_out ha hij]
      split
      · apply rowSum_eq_zero
        intro e he hj
        have := colsOf_mem he
        omega
      · rfl
  · rw [CSR.triples_of_rep (a := ⟨a.rows, a.cols, p, j, x⟩) h3', CSC.triples_of_rep ha.rep]
    have hp := (colsOf_triples_perm hm).map fun (e : Int × Int × T) => (e.2.1, e.1, e.2.2)
    rw [← flat_map, ← flat_map] at hp
    simpa [List.map_map, Function.comp_def] using hp
  · intro i hi
    rw [CSR.row_of_rep (a := ⟨a.rows, a.cols, p, j, x⟩) h3' hi]
    exact colsOf_sorted _ _ _

example : exCsc.WF .u8 ∧ (List.replicate (exCsc.rows + 1) (7 : Int)).length = exCsc.rows + 1 ∧
    exCsc.stored ≤ (List.replicate 20 (9 : Int)).length := ⟨exCsc_wf, by decide, by decide⟩

/-- C04 (round trip). A valid CSR matrix with sorted rows and no unused storage is returned unchanged by
`to_csc` followed by `to_csr`. -/
theorem C04_roundtrip [AddCommMonoid T] (t : IntTy) (a : CSR T) (ha : a.WF t)
    (hr : (a.rows : Int) ≤ t.hi + 1) (hc : (a.cols : Int) ≤ t.hi + 1)
    (hs : ∀ i < a.rows, (a.row i).Pairwise fun e f => e.1 ≤ f.1)
    (hlj : a.colidx.length = a.stored) (hlx : a.values.length = a.stored) :
    ∃ c, a.to_csc t = .ok c ∧ c.to_csr t = .ok a := by
  have hm : ∀ i < a.rows, ∀ e ∈ a.row i, 0 ≤ e.1 ∧ e.1 < a.cols := fun i hi e he =>
    ⟨(ha.mem hi he).1, (ha.mem hi he).2.1⟩
  obtain ⟨c, hc1, hwf, e1, e2, -⟩ := C03_csr_to_csc t a ha hr
  refine ⟨c, hc1, ?_⟩
  obtain ⟨c', hc', -, -, h3, h4, h5⟩ := CSR.to_csc_ok ha hr
  rw [hc1] at hc'
  cases hc'
  have hcol : ∀ j < a.cols, c.col j = colsOf a.row a.rows j := fun j hj => CSC.col_of_rep h3 hj
  obtain ⟨b, hb, b1, b2, b3, b4, b5⟩ := CSC.to_csr_ok hwf (by rw [e2]; exact hc)
  rw [hb, e1, e2] at *
  have hflat : (flat c.col a.cols).length = (flat a.row a.rows).length := by
    rw [flat_congr (S := colsOf a.row a.rows) hcol, colsOf_flat_length hm]
  have hrow : ∀ i < a.rows, colsOf c.col a.cols i = a.row i := by
    intro i hi
    rw [← colsOf_colsOf hm hs hi]
    unfold colsOf colItems
    congr 1
    apply flat_congr
    intro k hk
    rw [hcol k hk]; rfl
  have hrep := b3.congr hrow
  have hst := ha.stored_eq
  obtain ⟨p1, p2, p3⟩ := hrep.ext ha.rep (by omega) (by omega) (by omega) (by omega)
  obtain ⟨br, bc, bp, bj, bx⟩ := b
  simp only at b1 b2 p1 p2 p3
  subst b1 b2 p1 p2 p3
  rfl

example : exCan.WF .i8 ∧ (∀ i < exCan.rows, (exCan.row i).Pairwise fun e f => e.1 ≤ f.1) ∧
    exCan.colidx.length = exCan.stored ∧ exCan.values.length = exCan.stored :=
  ⟨exCan_wf, by decide, by decide, by decide⟩

/-! ### C07 -/

/-- C07. `CSR::sum_duplicates` on a valid matrix with fewer than `I::MAX` stored entries: returns
normally, valid and canonical result, same shape and entries, same stored positions; the arrays are
trimmed unless the matrix was canonical, in which case nothing changes; applying it again changes
nothing. -/
theorem C07_csr_sum_duplicates [AddCommMonoid T] (t : IntTy) (a : CSR T) (ha : a.WF t)
    (hn : (a.stored : Int) < t.hi) :
    ∃ r, a.sum_duplicates t = .ok r ∧ r.WF t ∧ r.rows = a.rows ∧ r.cols = a.cols ∧ r.Canonical ∧
      (∀ i j, r.entry i j = a.entry i j) ∧
      (∀ i j, (∃ v, (i, j, v) ∈ r.triples) ↔ ∃ v, (i, j, v) ∈ a.triples) ∧
      (a.Canonical → r = a) ∧
      (¬ a.Canonical → r.colidx.length = r.stored ∧ r.values.length = r.stored) ∧
      r.sum_duplicates t = .ok r ∧ r.stored ≤ a.stored := by
  rw [ha.stored_eq] at hn
  have main : ∀ (a : CSR T) (ha : a.WF t) (hn : ((flat a.row a.rows).length : Int) < t.hi),
      Ok (a.sum_duplicates t) fun r => r.WF t ∧ r.rows = a.rows ∧ r.cols = a.cols ∧ r.Canonical ∧
      (∀ i j, r.entry i j = a.entry i j) ∧
      (∀ i j, (∃ v, (i, j, v) ∈ r.triples) ↔ ∃ v, (i, j, v) ∈ a.triples) ∧
      (a.Canonical → r = a) ∧
      (¬ a.Canonical → r.colidx.length = r.stored ∧ r.values.length = r.stored) ∧
      (flat r.row r.rows).length ≤ (flat a.row a.rows).length := by
    intro a ha hn
    refine (CSR.sum_duplicates_ok ha.rep hn).mono ?_
    rintro r ⟨h1, h2, h3, h4⟩
    have h3' : Rep r.rowptr r.colidx r.values r.rows (fun i => canonRow (a.row i)) := by rw [h1]; exact h3
    have hle : (flat (fun i => canonRow (a.row i)) a.rows).length ≤ (flat a.row a.rows).length :=
      flat_length_le fun i _ => canonRow_length _
    have hst := CSR.stored_of_rep h3'
    rw [h1] at hst
    refine ⟨?_, h1, h2, ?_, ?_, ?_, ?_, ?_, ?_⟩
    · rw [CSR.WF, h1, h2]
      exact h3.wf (fun i hi => canonRow_mem (P := fun c => 0 ≤ c ∧ c < a.cols ∧ c ≤ t.hi)
        fun e he => ha.mem hi he) (by omega)
    · intro i hi
      rw [CSR.row_of_rep h3' hi]
      exact canonRow_sorted _
    · intro i j
      rw [CSR.entry_of_rep h3, CSR.entry_of_rep ha.rep, rowSum_canonRow]
    · intro i j
      rw [CSR.triples_of_rep h3', CSR.triples_of_rep ha.rep, tag_mem, tag_mem, h1]
      simp only [canonRow_key]
    · intro hc
      rcases h4 with ⟨h4, -⟩ | ⟨h4, -⟩
      · exact h4
      · exact absurd hc h4
    · intro hc
      rcases h4 with ⟨-, h4⟩ | ⟨-, h4⟩
      · exact absurd h4 hc
      · rw [hst]; exact h4
    · rw [h1, flat_congr (S := fun i => canonRow (a.row i)) fun i hi => CSR.row_of_rep h3 hi]
      exact hle
  obtain ⟨r, hr, h1, h2, h3, h4, h5, h6, h7, h8, h9⟩ := main a ha hn
  refine ⟨r, hr, h1, h2, h3, h4, h5, h6, h7, h8, ?_, by rw [h1.stored_eq, ha.stored_eq]; exact h9⟩
  obtain ⟨r', hr', -, -, -, -, -, -, h10, -⟩ := main r h1 (by omega)
  rw [hr', h10 h4]

example : ∃ a : CSR Int, a.WF .u8 ∧ (a.stored : Int) < IntTy.u8.hi ∧ ¬ a.Canonical :=
  ⟨_, exCsr_wf, by decide, fun h => by simpa [CSR.row, rowOf] using h 0 (by decide)⟩

/-- C07 (CSC). `CSC::sum_duplicates` on a valid matrix with fewer than `I::MAX` stored entries: returns
normally, valid and canonical result, same shape and entries, same stored positions; the arrays are
trimmed unless the matrix was canonical, in which case nothing changes; applying it again changes
nothing. -/
theorem C07_csc_sum_duplicates [AddCommMonoid T] (t : IntTy) (a : CSC T) (ha : a.WF t)
    (hn : (a.stored : Int) < t.hi) :
    ∃ r, a.sum_duplicates t = .ok r ∧ r.WF t ∧ r.rows = a.rows ∧ r.cols = a.cols ∧ r.Canonical ∧
      (∀ i j, r.entry i j = a.entry i j) ∧
      (∀ i j, (∃ v, (i, j, v) ∈ r.triples) ↔ ∃ v, (i, j, v) ∈ a.triples) ∧
      (a.Canonical → r = a) ∧
      (¬ a.Canonical → r.rowidx.length = r.stored ∧ r.values.length = r.stored) ∧
      r.sum_duplicates t = .ok r ∧ r.stored ≤ a.stored := by
  rw [ha.stored_eq] at hn
  have main : ∀ (a : CSC T) (ha : a.WF t) (hn : ((flat a.col a.cols).length : Int) < t.hi),
      Ok (a.sum_duplicates t) fun r => r.WF t ∧ r.rows = a.rows ∧ r.cols = a.cols ∧ r.Canonical ∧
      (∀ i j, r.entry i j = a.entry i j) ∧
      (∀ i j, (∃ v, (i, j, v) ∈ r.triples) ↔ ∃ v, (i, j, v) ∈ a.triples) ∧
      (a.Canonical → r = a) ∧
      (¬ a.Canonical → r.rowidx.length = r.stored ∧ r.values.length = r.stored) ∧
      (flat r.col r.cols).length ≤ (flat a.col a.cols).length := by
    intro a ha hn
    refine (CSC.sum_duplicates_ok ha.rep hn).mono ?_
    rintro r ⟨h1, h2, h3, h4⟩
    have h3' : Rep r.colptr r.rowidx r.values r.cols (fun i => canonRow (a.col i)) := by rw [h2]; exact h3
    have hle : (flat (fun i => canonRow (a.col i)) a.cols).length ≤ (flat a.col a.cols).length :=
      flat_length_le fun i _ => canonRow_length _
    have hst := CSC.stored_of_rep h3'
    rw [h2] at hst
    refine ⟨?_, h1, h2, ?_, ?_, ?_, ?_, ?_, ?_⟩
    · rw [CSC.WF, h1, h2]
      exact h3.wf (fun i hi => canonRow_mem (P := fun c => 0 ≤ c ∧ c < a.rows ∧ c ≤ t.hi)
        fun e he => ha.mem hi he) (by omega)
    · intro i hi
      rw [CSC.col_of_rep h3' hi]
      exact canonRow_sorted _
    · intro i j
      rw [CSC.entry_of_rep h3, CSC.entry_of_rep ha.rep, rowSum_canonRow]
    · intro i j
      rw [CSC.triples_of_rep h3', CSC.triples_of_rep ha.rep, tag_memT, tag_memT, h2]
      simp only [canonRow_key]
    · intro hc
      rcases h4 with ⟨h4, -⟩ | ⟨h4, -⟩
      · exact h4
      · exact absurd hc h4
    · intro hc
      rcases h4 with ⟨-, h4⟩ | ⟨-, h4⟩
      · exact absurd h4 hc
      · rw [hst]; exact h4
    · rw [h2, flat_congr (S := fun i => canonRow (a.col i)) fun i hi => CSC.col_of_rep h3 hi]
      exact hle
  obtain ⟨r, hr, h1, h2, h3, h4, h5, h6, h7, h8, h9⟩ := main a ha hn
  refine ⟨r, hr, h1, h2, h3, h4, h5, h6, h7, h8, ?_, by rw [h1.stored_eq, ha.stored_eq]; exact h9⟩
  obtain ⟨r', hr', -, -, -, -, -, -, h10, -⟩ := main r h1 (by omega)
  rw [hr', h10 h4]

example : exCsc.WF .u8 ∧ (exCsc.stored : Int) < IntTy.u8.hi := ⟨exCsc_wf, by decide⟩

/-! ### C08 -/

theorem sortRow_stable (r : List (Int × T)) (c : Int) :
    (sortRow r).filter (fun e => decide (e.1 = c)) = r.filter fun e => decide (e.1 = c) := by
  have hs : (r.filter fun e => decide (e.1 = c)).Sublist (sortRow r) := by
    apply List.sublist_mergeSort
    · intro a b c; simp; omega
    · intro a b; simp; omega
    · rw [List.pairwise_filter]
      apply List.pairwise_of_forall_mem_list
      intro a _ b _ ha hb
      simp at ha hb ⊢; omega
    · exact List.filter_sublist
  have h2 := hs.filter fun e => decide (e.1 = c)
  rw [List.filter_filter] at h2
  simp only [Bool.and_self] at h2
  exact (h2.eq_of_length ((sortRow_perm r).filter _).length_eq.symm).symm

/-- C08. `CSR::sort_indexes` on a valid matrix: shape and row pointers unchanged, every row is a
permutation of itself sorted by column, and equal columns keep their relative order. -/
theorem C08_csr_sort_indexes [AddCommMonoid T] (t : IntTy) (a : CSR T) (ha : a.WF t) :
    ∃ r, a.sort_indexes = .ok r ∧ r.WF t ∧ r.rows = a.rows ∧ r.cols = a.cols ∧ r.rowptr = a.rowptr ∧
      (∀ i < a.rows, (r.row i).Perm (a.row i) ∧ (r.row i).Pairwise (fun e f => e.1 ≤ f.1) ∧
        ∀ c : Int, (r.row i).filter (fun e => decide (e.1 = c)) = (a.row i).filter fun e => decide (e.1 = c)) ∧
      (∀ i j, r.entry i j = a.entry i j) ∧
      r.colidx.length = a.colidx.length ∧ r.values.length = a.values.length ∧
      (r.colidx.zip r.values).drop a.stored = (a.colidx.zip a.values).drop a.stored := by
  have h : Ok (a.sort_indexes) fun r => r.rows = a.rows ∧ r.cols = a.cols ∧ r.rowptr = a.rowptr ∧
      Rep r.rowptr r.colidx r.values a.rows (fun i => sortRow (a.row i)) ∧
      r.colidx.length = a.colidx.length ∧ r.values.length = a.values.length ∧
      (r.colidx.zip r.values).drop a.stored = (a.colidx.zip a.values).drop a.stored := by
    rw [ha.stored_eq]
    unfold CSR.sort_indexes
    have hl := ha.rep.len
    wp
    refine ⟨by omega, ?_⟩
    rw [show a.rowptr.length - 1 = a.rows by omega]
    refine (sort_indices_ok ha.rep).mono ?_
    rintro ⟨j1, x1⟩ ⟨h1, h2, h3, h4⟩
    exact ⟨trivial, trivial, trivial, h1, h2, h3, h4⟩
  obtain ⟨r, hr, h1, h2, h3, h4, h5, h6, h7⟩ := h
  have hfl : (flat (fun i => sortRow (a.row i)) a.rows).length = (flat a.row a.rows).length :=
    flat_length_congr fun i _ => sortRow_length _
  refine ⟨r, hr, ?_, h1, h2, h3, ?_, ?_, h5, h6, h7⟩
  · rw [CSR.WF, h1, h2]
    refine h4.wf (fun i hi e he => ?_) (by have := ha.fits; omega)
    exact ha.mem hi ((sortRow_perm _).mem_iff.1 he)
  · intro i hi
    rw [CSR.row_of_rep h4 hi]
    exact ⟨sortRow_perm _, sortRow_sorted _, sortRow_stable _⟩
  · intro i j
    rw [CSR.entry_of_rep h4, CSR.entry_of_rep ha.rep, rowSum_sortRow]

example : ∃ a : CSR Int, a.WF .u8 ∧ ¬ (a.row 0).Pairwise (fun e f => e.1 ≤ f.1) :=
  ⟨_, exCsr_wf, by decide⟩

/-- C08 (CSC). `CSC::sort_indexes`. -/
theorem C08_csc_sort_indexes [AddCommMonoid T] (t : IntTy) (a : CSC T) (ha : a.WF t) :
    ∃ r, a.sort_indexes = .ok r ∧ r.WF t ∧ r.rows = a.rows ∧ r.cols = a.cols ∧ r.colptr = a.colptr ∧
      (∀ i < a.cols, (r.col i).Perm (a.col i) ∧ (r.col i).Pairwise (fun e f => e.1 ≤ f.1) ∧
        ∀ c : Int, (r.col i).filter (fun e => decide (e.1 = c)) = (a.col i).filter fun e => decide (e.1 = c)) ∧
      (∀ i j, r.entry i j = a.entry i j) ∧
      r.rowidx.length = a.rowidx.length ∧ r.values.length = a.values.length ∧
      (r.rowidx.zip r.values).drop a.stored = (a.rowidx.zip a.values).drop a.stored := by
  have h : Ok (a.sort_indexes) fun r => r.rows = a.rows ∧ r.cols = a.cols ∧ r.colptr = a.colptr ∧
      Rep r.colptr r.rowidx r.values a.cols (fun i => sortRow (a.col i)) ∧
      r.rowidx.length = a.rowidx.length ∧ r.values.length = a.values.length ∧
      (r.rowidx.zip r.values).drop a.stored = (a.rowidx.zip a.values).drop a.stored := by
    rw [ha.stored_eq]
    unfold CSC.sort_indexes
    have hl := ha.rep.len
    wp
    refine ⟨by omega, ?_⟩
    rw [show a.colptr.length - 1 = a.cols by omega]
    refine (sort_indices_ok ha.rep).mono ?_
    rintro ⟨j1, x1⟩ ⟨h1, h2, h3, h4⟩
    exact ⟨trivial, trivial, trivial, h1, h2, h3, h4⟩
  obtain ⟨r, hr, h1, h2, h3, h4, h5, h6, h7⟩ := h
  have hfl : (flat (fun i => sortRow (a.col i)) a.cols).length = (flat a.col a.cols).length :=
    flat_length_congr fun i _ => sortRow_length _
  refine ⟨r, hr, ?_, h1, h2, h3, ?_, ?_, h5, h6, h7⟩
  · rw [CSC.WF, h1, h2]
    refine h4.wf (fun i hi e he => ?_) (by have := ha.fits; omega)
    exact ha.mem hi ((sortRow_perm _).mem_iff.1 he)
  · intro i hi
    rw [CSC.col_of_rep h4 hi]
    exact ⟨sortRow_perm _, sortRow_sorted _, sortRow_stable _⟩
  · intro i j
    rw [CSC.entry_of_rep h4, CSC.entry_of_rep ha.rep, rowSum_sortRow]

example : exCsc.WF .u8 := exCsc_wf

/-! ### C09

The full property ("for every valid matrix") fails at one boundary: when a row starts at position
`I::MAX` the code computes `I::MAX + 1`. The partial theorem excludes exactly those matrices. -/

/-- C09 (partial: no row starts at position `I::MAX`). `has_canonical_format` decides canonicity. -/
theorem C09_csr_has_canonical_partial (t : IntTy) (a : CSR T) (ha : a.WF t)
    (hst : ∀ (i : Nat) (v : Int), i < a.rows → a.rowptr[i]? = some v → v < t.hi) :
    ∃ b, a.has_canonical_format t = .ok b ∧ (b = true ↔ a.Canonical) := by
  have h : Ok (a.has_canonical_format t) fun b => (b = true ↔ ∀ i < a.rows, SRow (a.row i)) := by
    unfold CSR.has_canonical_format
    have hl := ha.rep.len
    wp
    refine ⟨by omega, ?_⟩
    rw [show a.rowptr.length - 1 = a.rows by omega]
    exact has_canonical_ok ha.rep fun i hi => hst i _ hi (ha.rep.ptr i (by omega))
  exact h

example : exCan.WF .i8 ∧ ∀ (i : Nat) (v : Int), i < exCan.rows → exCan.rowptr[i]? = some v → v < IntTy.i8.hi :=
  ⟨exCan_wf, by
    intro i v hi hv
    match i, hi with
    | 0, _ => simp [exCan] at hv; subst hv; decide
    | 1, _ => simp [exCan] at hv; subst hv; decide⟩

/-- C09 (CSC, partial as above). -/
theorem C09_csc_has_canonical_partial (t : IntTy) (a : CSC T) (ha : a.WF t)
    (hst : ∀ (i : Nat) (v : Int), i < a.cols → a.colptr[i]? = some v → v < t.hi) :
    ∃ b, a.has_canonical_format t = .ok b ∧ (b = true ↔ a.Canonical) := by
  have h : Ok (a.has_canonical_format t) fun b => (b = true ↔ ∀ i < a.cols, SRow (a.col i)) := by
    unfold CSC.has_canonical_format
    have hl := ha.rep.len
    wp
    refine ⟨by omega, ?_⟩
    rw [show a.colptr.length - 1 = a.cols by omega]
    exact has_canonical_ok ha.rep fun i hi => hst i _ hi (ha.rep.ptr i (by omega))
  exact h

/-- a valid 2×127 matrix over `i8` with 127 stored entries in the first row and an empty second row -/
def exFull : CSR Int :=
  ⟨2, 127, [0, 127, 127], (List.range 127).map Int.ofNat, List.replicate 127 1⟩

theorem exFull_wf : exFull.WF .i8 := CSR.wf_of (by decide +kernel)

/-- C09 (negation of the full statement): a valid, canonical matrix on which `has_canonical_format`
panics with arithmetic overflow. -/
theorem C09_has_canonical_overflow : exFull.WF .i8 ∧ exFull.Canonical ∧
    exFull.has_canonical_format .i8 = .error (.panic .arith) :=
  ⟨exFull_wf, by unfold CSR.Canonical; decide +kernel, by decide +kernel⟩

/-- C09 (behaviour on the remaining inputs). If a row starts at position `I::MAX`, the call panics with arithmetic
overflow when the matrix is canonical and answers `false` otherwise. -/
theorem C09_csr_has_canonical_boundary (t : IntTy) (a : CSR T) (ha : a.WF t)
    (h : ∃ i < a.rows, a.rowptr[i]? = some t.hi) :
    (a.Canonical → a.has_canonical_format t = .error (.panic .arith)) ∧
    (¬ a.Canonical → a.has_canonical_format t = .ok false) := by
  have hl := ha.rep.len
  rw [show a.has_canonical_format t = csr_has_canonical_format t a.rows a.rowptr a.colidx by
    unfold CSR.has_canonical_format
    rw [usub, if_pos (by omega), pure_bind, show a.rowptr.length - 1 = a.rows by omega]]
  exact has_canonical_edge ha.rep ha.fits h

/-- C09 (CSC, behaviour on the remaining inputs). -/
theorem C09_csc_has_canonical_boundary (t : IntTy) (a : CSC T) (ha : a.WF t)
    (h : ∃ i < a.cols, a.colptr[i]? = some t.hi) :
    (a.Canonical → a.has_canonical_format t = .error (.panic .arith)) ∧
    (¬ a.Canonical → a.has_canonical_format t = .ok false) := by
  have hl := ha.rep.len
  rw [show a.has_canonical_format t = csr_has_canonical_format t a.cols a.colptr a.rowidx by
    unfold CSC.has_canonical_format
    rw [usub, if_pos (by omega), pure_bind, show a.colptr.length - 1 = a.cols by omega]]
  exact has_canonical_edge ha.rep ha.fits h

example : exFull.WF .i8 ∧ (∃ i < exFull.rows, exFull.rowptr[i]? = some IntTy.i8.hi) ∧ exFull.Canonical :=
  ⟨exFull_wf, ⟨1, by decide +kernel, by decide +kernel⟩, by unfold CSR.Canonical; decide +kernel⟩

/-! ### C10

The full property fails: a leading empty row makes the code subtract 1 from 0. The two theorems below
characterise the behaviour on every valid matrix. -/

/-- C10 (partial: no rows, or the first row is not empty). -/
theorem C10_csr_has_sorted_partial (t : IntTy) (a : CSR T) (ha : a.WF t)
    (h0 : a.rows = 0 ∨ a.row 0 ≠ []) :
    ∃ b, a.has_sorted_indexes t = .ok b ∧
      (b = true ↔ ∀ i < a.rows, (a.row i).Pairwise fun e f => e.1 ≤ f.1) := by
  have h : Ok (a.has_sorted_indexes t) fun b => (b = true ↔ ∀ i < a.rows, WRow (a.row i)) := by
    unfold CSR.has_sorted_indexes
    have hl := ha.rep.len
    wp
    refine ⟨by omega, ?_⟩
    rw [show a.rowptr.length - 1 = a.rows by omega]
    exact has_sorted_ok ha.rep h0 ha.fits
  exact h

example : ∃ a : CSR Int, a.WF .u8 ∧ (a.rows = 0 ∨ a.row 0 ≠ []) := ⟨_, exCsr_wf, .inr (by decide)⟩

/-- C10 (negation on the remaining inputs): on *every* valid matrix whose first row is empty,
`has_sorted_indexes` panics. -/
theorem C10_csr_has_sorted_panics (t : IntTy) (a : CSR T) (ha : a.WF t) (hr : 0 < a.rows)
    (h0 : a.row 0 = []) : ∃ q, a.has_sorted_indexes t = .error (.panic q) := by
  unfold CSR.has_sorted_indexes
  have hl := ha.rep.len
  obtain ⟨q, hq⟩ := has_sorted_panic (t := t) ha.rep hr h0
  refine ⟨q, ?_⟩
  rw [usub, if_pos (by omega), pure_bind, show a.rowptr.length - 1 = a.rows by omega, hq]

example : ∃ a : CSR Int, a.WF .u8 ∧ 0 < a.rows ∧ a.row 0 = [] ∧ a.stored = 2 :=
  ⟨⟨2, 2, [0, 0, 2], [0, 1], [5, 6]⟩, CSR.wf_of (by decide), by decide, by decide, by decide⟩

/-- C10 (CSC, partial: no columns, or the first column is not empty). -/
theorem C10_csc_has_sorted_partial (t : IntTy) (a : CSC T) (ha : a.WF t)
    (h0 : a.cols = 0 ∨ a.col 0 ≠ []) :
    ∃ b, a.has_sorted_indexes t = .ok b ∧
      (b = true ↔ ∀ i < a.cols, (a.col i).Pairwise fun e f => e.1 ≤ f.1) := by
  have h : Ok (a.has_sorted_indexes t) fun b => (b = true ↔ ∀ i < a.cols, WRow (a.col i)) := by
    unfold CSC.has_sorted_indexes
    have hl := ha.rep.len
    wp
    refine ⟨by omega, ?_⟩
    rw [show a.colptr.length - 1 = a.cols by omega]
    exact has_sorted_ok ha.rep h0 ha.fits
  exact h

example : ∃ a : CSC Int, a.WF .u8 ∧ (a.cols = 0 ∨ a.col 0 ≠ []) := ⟨_, exCsc_wf, .inr (by decide)⟩

/-- C10 (CSC, negation on the remaining inputs). -/
theorem C10_csc_has_sorted_panics (t : IntTy) (a : CSC T) (ha : a.WF t) (hr : 0 < a.cols)
    (h0 : a.col 0 = []) : ∃ q, a.has_sorted_indexes t = .error (.panic q) := by
  unfold CSC.has_sorted_indexes
  have hl := ha.rep.len
  obtain ⟨q, hq⟩ := has_sorted_panic (t := t) ha.rep hr h0
  refine ⟨q, ?_⟩
  rw [usub, if_pos (by omega), pure_bind, show a.colptr.length - 1 = a.cols by omega, hq]

example : ∃ a : CSC Int, a.WF .u8 ∧ 0 < a.cols ∧ a.col 0 = [] :=
  ⟨⟨2, 2, [0, 1], [0, 0, 2], [5, 6]⟩, CSC.wf_of (by decide), by decide, by decide⟩

end
end Sparse

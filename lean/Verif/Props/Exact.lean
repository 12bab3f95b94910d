import Verif.Lemmas.Unique
import Verif.Props.Basic
import Verif.Props.Product
import Verif.Props.Dense
/-!
Properties C53–C58: what the operations compute when nothing is assumed about the scalars. `+`, `*`, `-` and
`==` are arbitrary functions and `0` an arbitrary constant, so the theorems hold for floating-point numbers:
they fix the order of every sum.
-/
namespace Sparse

section
variable {T T2 : Type}

/-- a scalar type without the usual laws, for the examples: integers clamped to −100 … 100 after every
operation -/
structure Sat where
  v : Int
deriving DecidableEq

def Sat.clamp (z : Int) : Sat := ⟨max (-100) (min 100 z)⟩
instance : Zero Sat := ⟨⟨0⟩⟩
instance : Add Sat := ⟨fun a b => Sat.clamp (a.v + b.v)⟩
instance : Sub Sat := ⟨fun a b => Sat.clamp (a.v - b.v)⟩
instance : Mul Sat := ⟨fun a b => Sat.clamp (a.v * b.v)⟩

example : ∃ a b c : Sat, (a + b) + c ≠ a + (b + c) := ⟨⟨90⟩, ⟨50⟩, ⟨-50⟩, by decide⟩

/-- 2×3 with three values at (1, 2), stored out of order -/
def exSatCoo : Coo Sat := ⟨2, 3, [1, 0, 1, 1, 1], [2, 0, 2, 0, 2], [⟨90⟩, ⟨7⟩, ⟨50⟩, ⟨0⟩, ⟨-50⟩]⟩
def exSatCsr : CSR Sat := ⟨2, 3, [0, 1, 5], [0, 2, 2, 0, 2], [⟨7⟩, ⟨90⟩, ⟨50⟩, ⟨0⟩, ⟨-50⟩]⟩
def exSatCsc : CSC Sat := ⟨3, 2, [0, 2, 2, 0, 2], [0, 1, 5], [⟨7⟩, ⟨90⟩, ⟨50⟩, ⟨0⟩, ⟨-50⟩]⟩

theorem exSatCoo_wf : exSatCoo.WF .u8 := Coo.wf_of (by decide)
theorem exSatCsr_wf : exSatCsr.WF .u8 := CSR.wf_of (by decide)
theorem exSatCsc_wf : exSatCsc.WF .u8 := CSC.wf_of (by decide)

/-! ### C53 -/

/-- C53. `CSR::to_csc` keeps, for every position, the stored values in their order. -/
theorem C53_csr_to_csc [Zero T] (t : IntTy) (a : CSR T) (ha : a.WF t) (hr : (a.rows : Int) ≤ t.hi + 1) :
    ∃ r, a.to_csc t = .ok r ∧ r.WF t ∧ r.rows = a.rows ∧ r.cols = a.cols ∧
      (∀ j < r.cols, (r.col j).Pairwise fun e f => e.1 ≤ f.1) ∧ r.rowidx.length = r.stored ∧ r.values.length = r.stored ∧
      ∀ i j, r.valuesAt i j = a.valuesAt i j := by
  obtain ⟨r, h1, h2, h3, h4, h5, h6⟩ := CSR.to_csc_ok ha hr
  have hfl := colsOf_flat_length (R := a.row) (n := a.rows) (m := a.cols) fun i hi e he => ⟨(ha.mem hi he).1, (ha.mem hi he).2.1⟩
  have hst : r.stored = (flat a.row a.rows).length := by
    rw [← hfl, ← h3]
    exact CSC.stored_of_rep (a := r) (by rw [h3]; exact h4)
  have hwf : r.WF t := by
    rw [CSC.WF, h2, h3]
    refine h4.wf (fun c hc e he => ?_) ?_
    · have := colsOf_mem he; omega
    · rw [hfl]
      exact ha.fits
  refine ⟨r, h1, hwf, h2, h3, fun j hj => ?_, by omega, by omega, fun i j => ?_⟩
  · rw [CSC.col_of_rep h4 (by omega)]
    exact colsOf_sorted _ _ _
  by_cases h : i < a.rows ∧ j < a.cols
  · rw [CSC.valuesAt_of_rep h4, if_pos h.2, valuesIn_colsOf (fun i hi e he => (ha.mem hi he).1) h.1]
    rfl
  · rw [CSR.valuesAt_out ha h, CSC.valuesAt_out hwf (by omega)]

/-- C53. `CSC::to_csr` keeps, for every position, the stored values in their order. -/
theorem C53_csc_to_csr [Zero T] (t : IntTy) (a : CSC T) (ha : a.WF t) (hc : (a.cols : Int) ≤ t.hi + 1) :
    ∃ r, a.to_csr t = .ok r ∧ r.WF t ∧ r.rows = a.rows ∧ r.cols = a.cols ∧
      (∀ i < r.rows, (r.row i).Pairwise fun e f => e.1 ≤ f.1) ∧ r.colidx.length = r.stored ∧ r.values.length = r.stored ∧
      ∀ i j, r.valuesAt i j = a.valuesAt i j := by
  obtain ⟨r, h1, h2, h3, h4, h5, h6⟩ := CSC.to_csr_ok ha hc
  have hfl := colsOf_flat_length (R := a.col) (n := a.cols) (m := a.rows) fun i hi e he => ⟨(ha.mem hi he).1, (ha.mem hi he).2.1⟩
  have hst : r.stored = (flat a.col a.cols).length := by
    rw [← hfl, ← h2]
    exact CSR.stored_of_rep (a := r) (by rw [h2]; exact h4)
  have hwf : r.WF t := by
    rw [CSR.WF, h2, h3]
    refine h4.wf (fun c hc e he => ?_) ?_
    · have := colsOf_mem he; omega
    · rw [hfl]
      exact ha.fits
  refine ⟨r, h1, hwf, h2, h3, fun j hj => ?_, by omega, by omega, fun i j => ?_⟩
  · rw [CSR.row_of_rep h4 (by omega)]
    exact colsOf_sorted _ _ _
  by_cases h : i < a.rows ∧ j < a.cols
  · rw [CSR.valuesAt_of_rep h4, if_pos h.1, valuesIn_colsOf (fun i hi e he => (ha.mem hi he).1) h.2]
    rfl
  · rw [CSC.valuesAt_out ha h, CSR.valuesAt_out hwf (by omega)]

example : exSatCsr.WF .u8 ∧ (exSatCsr.rows : Int) ≤ IntTy.u8.hi + 1 ∧
    exSatCsr.valuesAt 1 2 = [⟨90⟩, ⟨50⟩, ⟨-50⟩] ∧
    exSatCsc.WF .u8 ∧ (exSatCsc.cols : Int) ≤ IntTy.u8.hi + 1 ∧ exSatCsc.valuesAt 2 1 = [⟨90⟩, ⟨50⟩, ⟨-50⟩] :=
  ⟨exSatCsr_wf, by decide, by decide, exSatCsc_wf, by decide, by decide⟩

/-- C53. `CSC::to_coo` keeps, for every position, the stored values in their order. -/
theorem C53_csc_to_coo [Zero T] (t : IntTy) (a : CSC T) (ha : a.WF t) (hc : (a.cols : Int) ≤ t.hi + 1) :
    ∃ r, a.to_coo t = .ok r ∧ r.WF t ∧ r.rows = a.rows ∧ r.cols = a.cols ∧ r.values.length = a.stored ∧
      r.triples = a.triples ∧ ∀ i j, r.valuesAt i j = a.valuesAt i j := by
  have h : Ok (a.to_coo t) fun r => r = ⟨a.rows, a.cols, (flat a.col a.cols).map (·.1), rowNums a.col a.cols,
      (flat a.col a.cols).map (·.2)⟩ := by
    unfold CSC.to_coo
    rw [CSC.nnz_ok ha.rep]
    wp
    rw [csr_tocoo_ok ha.rep (fun i hi _ => by omega) (by simp) (by simp) (by simp)]
    wp
    unfold Coo.new
    rw [if_neg]
    · wp
      simp
    · simp [rowNums_length]
  obtain ⟨r, hr, rfl⟩ := h
  have htr : (⟨a.rows, a.cols, (flat a.col a.cols).map (·.1), rowNums a.col a.cols,
      (flat a.col a.cols).map (·.2)⟩ : Coo T).triples = a.triples := by
    rw [CSC.triples_of_rep ha.rep]
    exact zip3_cols _ _
  refine ⟨_, hr, Coo.wf_of_triples (by simp) (by simp [rowNums_length]) ?_, rfl, rfl, by rw [ha.stored_eq]; simp, htr, fun i j => ?_⟩
  · rw [htr, CSC.triples_of_rep ha.rep]
    intro e he
    obtain ⟨i, hi, he⟩ := mem_flat.1 he
    obtain ⟨f, hf, rfl⟩ := List.mem_map.1 he
    exact ⟨ha.mem hi hf, by simp only; omega⟩
  change valuesOf (Coo.triples _) i j = _
  rw [htr, CSC.triples_of_rep ha.rep, valuesOf_cols, CSC.valuesAt_of_rep ha.rep]

/-- C53. `CSR::to_coo` of a matrix without unused storage keeps, for every position, the stored values in their
order. -/
theorem C53_csr_to_coo (t : IntTy) (a : CSR T) (ha : a.WF t) (hr : (a.rows : Int) ≤ t.hi + 1)
    (hj : a.colidx.length = a.stored) (hx : a.values.length = a.stored) :
    ∃ r, a.to_coo t = .ok r ∧ r.WF t ∧ r.rows = a.rows ∧ r.cols = a.cols ∧ r.values.length = a.stored ∧
      r.triples = a.triples ∧ ∀ i j, r.valuesAt i j = a.valuesAt i j := by
  obtain ⟨r, h1, h2, h3, h4, h6, h7, h8⟩ := C05_csr_to_coo_slack t a ha hr (by omega)
  have h5 : r.triples = a.triples := by
    rw [h4, List.drop_of_length_le (by rw [List.length_zip]; omega)]
    simp
  refine ⟨r, h1, Coo.wf_of_triples (by rw [h8, h7]) (by rw [h6, h7]; omega) ?_, h2, h3, by rw [h7, hx], h5, fun i j => ?_⟩
  · rw [h5, h2, h3, CSR.triples_of_rep ha.rep]
    intro e he
    obtain ⟨i, hi, he⟩ := mem_flat.1 he
    obtain ⟨f, hf, rfl⟩ := List.mem_map.1 he
    exact ⟨by simp only; omega, ha.mem hi hf⟩
  change valuesOf r.triples i j = _
  rw [h5, CSR.triples_of_rep ha.rep, valuesOf_rows, CSR.valuesAt_of_rep ha.rep]

example : exSatCsr.colidx.length = exSatCsr.stored ∧ exSatCsr.values.length = exSatCsr.stored := by decide

/-- C53. `sort_indexes` (CSR) keeps, for every position, the stored values in their order. -/
theorem C53_csr_sort_indexes [Zero T] (t : IntTy) (a : CSR T) (ha : a.WF t) :
    ∃ r, a.sort_indexes = .ok r ∧ r.WF t ∧ r.rows = a.rows ∧ r.cols = a.cols ∧
      (∀ i < a.rows, (r.row i).Pairwise fun e f => e.1 ≤ f.1) ∧ r.stored = a.stored ∧
      r.colidx.length = a.colidx.length ∧ r.values.length = a.values.length ∧
      ∀ i j, r.valuesAt i j = a.valuesAt i j := by
  have h : Ok (a.sort_indexes) fun r => r.rows = a.rows ∧ r.cols = a.cols ∧
      Rep r.rowptr r.colidx r.values a.rows (fun i => sortRow (a.row i)) ∧
      r.colidx.length = a.colidx.length ∧ r.values.length = a.values.length := by
    unfold CSR.sort_indexes
    have hl := ha.rep.len
    wp
    refine ⟨by omega, ?_⟩
    rw [show a.rowptr.length - 1 = a.rows by omega]
    refine (sort_indices_ok ha.rep).mono ?_
    rintro ⟨j1, x1⟩ ⟨h1, h2, h3, -⟩
    exact ⟨trivial, trivial, h1, h2, h3⟩
  obtain ⟨r, hr, h1, h2, h3, h4, h5⟩ := h
  have hfl : (flat (fun i => sortRow (a.row i)) a.rows).length = (flat a.row a.rows).length :=
    flat_length_congr fun i _ => sortRow_length _
  have h3' : Rep r.rowptr r.colidx r.values r.rows (fun i => sortRow (a.row i)) := by
    first | (rw [h1]; exact h3) | (rw [h2]; exact h3)
  have hst := CSR.stored_of_rep h3'
  have hf := ha.fits
  refine ⟨r, hr, ?_, h1, h2, fun i hi => ?_, ?_, h4, h5, fun i j => ?_⟩
  · rw [CSR.WF, h1, h2]
    exact h3.wf (fun i hi e he => ha.mem hi (sortRow_perm _ |>.mem_iff.1 he)) (by omega)
  · rw [CSR.row_of_rep h3 hi]
    exact sortRow_sorted _
  · rw [hst, ha.stored_eq, ← hfl]
    first | rw [h1] | rw [h2]
  · rw [CSR.valuesAt_of_rep h3, CSR.valuesAt_of_rep ha.rep, valuesIn_sortRow]

/-- C53. `sort_indexes` (CSC) keeps, for every position, the stored values in their order. -/
theorem C53_csc_sort_indexes [Zero T] (t : IntTy) (a : CSC T) (ha : a.WF t) :
    ∃ r, a.sort_indexes = .ok r ∧ r.WF t ∧ r.rows = a.rows ∧ r.cols = a.cols ∧
      (∀ j < a.cols, (r.col j).Pairwise fun e f => e.1 ≤ f.1) ∧ r.stored = a.stored ∧
      r.rowidx.length = a.rowidx.length ∧ r.values.length = a.values.length ∧
      ∀ i j, r.valuesAt i j = a.valuesAt i j := by
  have h : Ok (a.sort_indexes) fun r => r.rows = a.rows ∧ r.cols = a.cols ∧
      Rep r.colptr r.rowidx r.values a.cols (fun i => sortRow (a.col i)) ∧
      r.rowidx.length = a.rowidx.length ∧ r.values.length = a.values.length := by
    unfold CSC.sort_indexes
    have hl := ha.rep.len
    wp
    refine ⟨by omega, ?_⟩
    rw [show a.colptr.length - 1 = a.cols by omega]
    refine (sort_indices_ok ha.rep).mono ?_
    rintro ⟨j1, x1⟩ ⟨h1, h2, h3, -⟩
    exact ⟨trivial, trivial, h1, h2, h3⟩
  obtain ⟨r, hr, h1, h2, h3, h4, h5⟩ := h
  have hfl : (flat (fun i => sortRow (a.col i)) a.cols).length = (flat a.col a.cols).length :=
    flat_length_congr fun i _ => sortRow_length _
  have h3' : Rep r.colptr r.rowidx r.values r.cols (fun i => sortRow (a.col i)) := by
    first | (rw [h1]; exact h3) | (rw [h2]; exact h3)
  have hst := CSC.stored_of_rep h3'
  have hf := ha.fits
  refine ⟨r, hr, ?_, h1, h2, fun i hi => ?_, ?_, h4, h5, fun i j => ?_⟩
  · rw [CSC.WF, h1, h2]
    exact h3.wf (fun i hi e he => ha.mem hi (sortRow_perm _ |>.mem_iff.1 he)) (by omega)
  · rw [CSC.col_of_rep h3 hi]
    exact sortRow_sorted _
  · rw [hst, ha.stored_eq, ← hfl]
    first | rw [h1] | rw [h2]
  · rw [CSC.valuesAt_of_rep h3, CSC.valuesAt_of_rep ha.rep, valuesIn_sortRow]

/-- C53. The transposes of all three formats keep the values of every position in their order. -/
theorem C53_transpose (t : IntTy) :
    (∀ a : CSR T, a.WF t → ∃ r, a.transpose = .ok r ∧ r.WF t ∧ r.rows = a.cols ∧ r.cols = a.rows ∧
      ∀ i j, r.valuesAt i j = a.valuesAt j i) ∧
    (∀ a : CSC T, a.WF t → ∃ r, a.transpose = .ok r ∧ r.WF t ∧ r.rows = a.cols ∧ r.cols = a.rows ∧
      ∀ i j, r.valuesAt i j = a.valuesAt j i) ∧
    (∀ a : Coo T, a.WF t → a.transpose.WF t ∧ a.transpose.rows = a.cols ∧ a.transpose.cols = a.rows ∧ ∀ i j, a.transpose.valuesAt i j = a.valuesAt j i) := by
  refine ⟨fun a ha => ?_, fun a ha => ?_, fun a ha => ⟨⟨ha.lenc, ha.lenr, ha.col, ha.row⟩, rfl, rfl, fun i j => ?_⟩⟩
  · refine ⟨⟨a.cols, a.rows, a.colidx, a.rowptr, a.values⟩, ?_, ha, rfl, rfl, fun i j => rfl⟩
    unfold CSR.transpose
    rw [CSC.new_ok ha.rep]
    rfl
  · refine ⟨⟨a.cols, a.rows, a.colptr, a.rowidx, a.values⟩, ?_, ha, rfl, rfl, fun i j => rfl⟩
    unfold CSC.transpose
    rw [CSR.new_ok ha.rep]
    rfl
  · unfold Coo.valuesAt
    rw [Coo.transpose_triples ha, List.filter_map, List.map_map]
    congr 1
    apply List.filter_congr
    intro e _
    simp only [Function.comp, decide_eq_decide]
    exact and_comm

/-- C53. `csr_eliminate_zeros` removes, for every position, exactly the values equal to zero (by the scalar's own
`==`) and keeps the others in their order. -/
theorem C53_eliminate_zeros [Zero T] [BEq T] (t : IntTy) (a : CSR T) (ha : a.WF t) :
    ∃ p j x, csr_eliminate_zeros t a.rows a.rowptr a.colidx a.values = .ok (p, j, x) ∧
      (let r : CSR T := ⟨a.rows, a.cols, p, j, x⟩
       r.WF t ∧ (∀ i, r.row i = (a.row i).filter fun e => e.2 != 0) ∧
         ∀ i k, r.valuesAt i k = (a.valuesAt i k).filter (· != 0)) := by
  obtain ⟨⟨p, j, x⟩, h1, h2, -, -⟩ := eliminate_zeros_ok (t := t) ha.rep ha.fits
  have hle : (flat (fun i => (a.row i).filter fun e => e.2 != 0) a.rows).length ≤ (flat a.row a.rows).length :=
    flat_length_le fun i _ => List.length_filter_le _ _
  have hwf : (⟨a.rows, a.cols, p, j, x⟩ : CSR T).WF t :=
    h2.wf (fun i hi e he => ha.mem hi (List.mem_of_mem_filter he)) (by have := ha.fits; omega)
  have hrow : ∀ i, (⟨a.rows, a.cols, p, j, x⟩ : CSR T).row i = (a.row i).filter fun e => e.2 != 0 := by
    intro i
    by_cases hi : i < a.rows
    · rw [CSR.row_of_rep (a := ⟨a.rows, a.cols, p, j, x⟩) h2 hi]
    · rw [ha.row_out (by omega), hwf.row_out (by simpa using hi)]
      rfl
  refine ⟨p, j, x, h1, hwf, hrow, fun i k => ?_⟩
  unfold CSR.valuesAt
  rw [hrow, valuesIn_filter (fun v => v != 0)]

example : exSatCsr.WF .u8 ∧ exSatCsr.valuesAt 1 0 = [0] := ⟨exSatCsr_wf, by decide⟩

/-! ### C54 -/

/-- C54. `Coo::to_csr`: the values of every position are added left to right in the order of the triplets, the
first one being the start; a position without a triplet is not stored. -/
theorem C54_coo_to_csr [Zero T] [Add T] (t : IntTy) (a : Coo T) (ha : a.WF t) (hn : (a.values.length : Int) < t.hi) :
    ∃ r, a.to_csr t = .ok r ∧ r.WF t ∧ r.rows = a.rows ∧ r.cols = a.cols ∧ r.Canonical ∧
      r.colidx.length = r.stored ∧ r.values.length = r.stored ∧
      ∀ i j, r.valuesAt i j = collapse (a.valuesAt i j) := by
  obtain ⟨r, h0, h1, h2, hw, h3, h4, h5⟩ := Coo.to_csr_rep ha hn
  refine ⟨r, h0, hw, h1, h2, fun i hi => ?_, h4, h5, fun i j => ?_⟩
  · rw [CSR.row_of_rep h3 (by omega)]
    exact canonRow_sorted _
  · rw [CSR.valuesAt_of_rep h3]
    split
    · rw [valuesIn_canonRow, Coo.valuesIn_items ha]
    · rw [Coo.valuesAt_out ha (by omega)]; rfl

/-- C54. `Coo::to_csc`, likewise. -/
theorem C54_coo_to_csc [Zero T] [Add T] (t : IntTy) (a : Coo T) (ha : a.WF t) (hn : (a.values.length : Int) < t.hi) :
    ∃ r, a.to_csc t = .ok r ∧ r.WF t ∧ r.rows = a.rows ∧ r.cols = a.cols ∧ r.Canonical ∧
      r.rowidx.length = r.stored ∧ r.values.length = r.stored ∧
      ∀ i j, r.valuesAt i j = collapse (a.valuesAt i j) := by
  obtain ⟨r, h0, h1, h2, hw, h3, h4, h5⟩ := Coo.to_csc_rep ha hn
  refine ⟨r, h0, hw, h1, h2, fun i hi => ?_, h4, h5, fun i j => ?_⟩
  · rw [CSC.col_of_rep h3 (by omega)]
    exact canonRow_sorted _
  · rw [CSC.valuesAt_of_rep h3]
    split
    · rw [valuesIn_canonRow, Coo.valuesIn_itemsT ha]
    · rw [Coo.valuesAt_out ha (by omega)]; rfl

example : exSatCoo.WF .u8 ∧ (exSatCoo.values.length : Int) < IntTy.u8.hi ∧
    collapse (exSatCoo.valuesAt 1 2) = [⟨50⟩] ∧ collapse (exSatCoo.valuesAt 1 0) = [0] ∧
    collapse (exSatCoo.valuesAt 0 1) = [] := ⟨exSatCoo_wf, by decide, by decide, by decide, by decide⟩

/-- C54. `sum_duplicates` (CSR): the values of every position are added left to right in storage order. -/
theorem C54_csr_sum_duplicates [Zero T] [Add T] (t : IntTy) (a : CSR T) (ha : a.WF t) (hn : (a.stored : Int) < t.hi) :
    ∃ r, a.sum_duplicates t = .ok r ∧ r.WF t ∧ r.rows = a.rows ∧ r.cols = a.cols ∧ r.Canonical ∧
      (a.colidx.length = a.stored → a.values.length = a.stored → r.colidx.length = r.stored ∧ r.values.length = r.stored) ∧
      ∀ i j, r.valuesAt i j = collapse (a.valuesAt i j) := by
  obtain ⟨r, h0, h1, h2, h3, h4⟩ := CSR.sum_duplicates_ok (t := t) ha.rep (by rw [← ha.stored_eq]; exact hn)
  have h3' : Rep r.rowptr r.colidx r.values r.rows (fun i => canonRow (a.row i)) := by
    first | (rw [h1]; exact h3) | (rw [h2]; exact h3)
  have hst := CSR.stored_of_rep h3'
  have hle : (flat (fun i => canonRow (a.row i)) a.rows).length ≤ (flat a.row a.rows).length :=
    flat_length_le fun i _ => canonRow_length _
  have hf := ha.fits
  refine ⟨r, h0, ?_, h1, h2, fun i hi => ?_, fun e1 e2 => ?_, fun i j => ?_⟩
  · rw [CSR.WF, h1, h2]
    exact h3.wf (fun i hi => canonRow_mem (P := fun c => 0 ≤ c ∧ c < (a.cols : Int) ∧ c ≤ t.hi) fun e he =>
      ha.mem hi he) (by omega)
  · rw [CSR.row_of_rep h3 (by omega)]
    exact canonRow_sorted _
  · rcases h4 with ⟨rfl, -⟩ | ⟨-, h5, h6⟩
    · exact ⟨e1, e2⟩
    · rw [hst]
      first | (rw [h1]; exact ⟨h5, h6⟩) | (rw [h2]; exact ⟨h5, h6⟩)
  · rw [CSR.valuesAt_of_rep h3, CSR.valuesAt_of_rep ha.rep]
    split
    · rw [valuesIn_canonRow]
    · rfl

/-- C54. `sum_duplicates` (CSC), likewise. -/
theorem C54_csc_sum_duplicates [Zero T] [Add T] (t : IntTy) (a : CSC T) (ha : a.WF t) (hn : (a.stored : Int) < t.hi) :
    ∃ r, a.sum_duplicates t = .ok r ∧ r.WF t ∧ r.rows = a.rows ∧ r.cols = a.cols ∧ r.Canonical ∧
      (a.rowidx.length = a.stored → a.values.length = a.stored → r.rowidx.length = r.stored ∧ r.values.length = r.stored) ∧
      ∀ i j, r.valuesAt i j = collapse (a.valuesAt i j) := by
  obtain ⟨r, h0, h1, h2, h3, h4⟩ := CSC.sum_duplicates_ok (t := t) ha.rep (by rw [← ha.stored_eq]; exact hn)
  have h3' : Rep r.colptr r.rowidx r.values r.cols (fun i => canonRow (a.col i)) := by
    first | (rw [h1]; exact h3) | (rw [h2]; exact h3)
  have hst := CSC.stored_of_rep h3'
  have hle : (flat (fun i => canonRow (a.col i)) a.cols).length ≤ (flat a.col a.cols).length :=
    flat_length_le fun i _ => canonRow_length _
  have hf := ha.fits
  refine ⟨r, h0, ?_, h1, h2, fun i hi => ?_, fun e1 e2 => ?_, fun i j => ?_⟩
  · rw [CSC.WF, h1, h2]
    exact h3.wf (fun i hi => canonRow_mem (P := fun c => 0 ≤ c ∧ c < (a.rows : Int) ∧ c ≤ t.hi) fun e he =>
      ha.mem hi he) (by omega)
  · rw [CSC.col_of_rep h3 (by omega)]
    exact canonRow_sorted _
  · rcases h4 with ⟨rfl, -⟩ | ⟨-, h5, h6⟩
    · exact ⟨e1, e2⟩
    · rw [hst]
      first | (rw [h1]; exact ⟨h5, h6⟩) | (rw [h2]; exact ⟨h5, h6⟩)
  · rw [CSC.valuesAt_of_rep h3, CSC.valuesAt_of_rep ha.rep]
    split
    · rw [valuesIn_canonRow]
    · rfl

example : exSatCsr.WF .u8 ∧ (exSatCsr.stored : Int) < IntTy.u8.hi ∧ collapse (exSatCsr.valuesAt 1 2) = [⟨50⟩] ∧
    exSatCsc.WF .u8 ∧ (exSatCsc.stored : Int) < IntTy.u8.hi ∧ collapse (exSatCsc.valuesAt 2 1) = [⟨50⟩] :=
  ⟨exSatCsr_wf, by decide, by decide, exSatCsc_wf, by decide, by decide⟩

/-! ### C55 -/

/-- C55. `to_dense` of all three formats: element `(i, j)` is `0 + v₁ + v₂ + …`, added left to right, over the
values stored for `(i, j)` in storage order. -/
theorem C55_to_dense [Zero T] [Add T] (t : IntTy) :
    (∀ a : Coo T, a.WF t → a.to_dense = .ok (dense a.rows a.cols fun i j => sumFrom 0 (a.valuesAt i j))) ∧
    (∀ a : CSR T, a.WF t → a.to_dense = .ok (dense a.rows a.cols fun i j => sumFrom 0 (a.valuesAt i j))) ∧
    (∀ a : CSC T, a.WF t → (a.cols : Int) ≤ t.hi + 1 →
      a.to_dense t = .ok (dense a.rows a.cols fun i j => sumFrom 0 (a.valuesAt i j))) := by
  have hcsr : ∀ a : CSR T, a.WF t → a.to_dense = .ok (dense a.rows a.cols fun i j => sumFrom 0 (a.valuesAt i j)) := by
    intro a ha
    unfold CSR.to_dense
    have hm : ∀ i < a.rows, ∀ e ∈ a.row i, 0 ≤ e.1 ∧ e.1 < a.cols := fun i hi e he =>
      ⟨(ha.mem hi he).1, (ha.mem hi he).2.1⟩
    rw [csr_todense_ok ha.rep hm (by simp) (by simp), dense_const, accum2_exact]
    · simp only [valuesOf_rows, CSR.valuesAt_of_rep ha.rep]
    · intro e he
      obtain ⟨i, hi, he⟩ := mem_flat.1 he
      rw [List.mem_map] at he
      obtain ⟨f, hf, rfl⟩ := he
      simp
    · intro e he
      obtain ⟨i, hi, he⟩ := mem_flat.1 he
      rw [List.mem_map] at he
      obtain ⟨f, hf, rfl⟩ := he
      exact (hm i hi f hf).1
  refine ⟨fun a ha => ?_, hcsr, fun a ha hc => ?_⟩
  · suffices h : Ok a.to_dense fun r => r = accum2 (List.replicate a.rows (List.replicate a.cols 0)) a.triples by
      obtain ⟨r, h1, h2⟩ := h
      rw [h1, h2, dense_const, accum2_exact (fun e he => (Coo.triples_mem ha he).1.1) (fun e he => (Coo.triples_mem ha he).2.1)]
      rfl
    unfold Coo.to_dense
    rw [show a.nnz = a.triples.length from (Coo.triples_length ha).symm]
    wp
    refine Ok_forOff (E := a.triples) (by simp) (fun pre s => s = accum2 (List.replicate a.rows (List.replicate a.cols 0)) pre)
      rfl ?_ (fun s hs => hs)
    rintro pre e suf s hE hs
    have hg := Coo.triples_get (a := a) (k := pre.length) (e := e) (by rw [hE]; simp)
    have he := Coo.triples_mem ha (show e ∈ a.triples by rw [hE]; simp)
    rw [Nat.zero_add]
    wp
    rds [hg.1, hg.2.1, hg.2.2]
    obtain ⟨r, g1, v, g2, g3, g4, g5⟩ := accum2_step (n := a.rows) (m := a.cols) (by simp) (by simp) hs
      ⟨he.1.1, he.1.2.1⟩ ⟨he.2.1, he.2.2.1⟩
    exact ⟨he.1.1, he.2.1, r, g1, v, g2, g3, g4, _, rfl, g5⟩
  · obtain ⟨r, h1, h2, h3, h4, -, -, -, h5⟩ := C53_csc_to_csr t a ha hc
    unfold CSC.to_dense
    rw [h1]
    change r.to_dense = _
    rw [hcsr r h2, h3, h4]
    simp only [h5]

example : exSatCsr.to_dense = .ok [[⟨7⟩, 0, 0], [0, 0, ⟨50⟩]] := by decide

/-! ### C56 -/

theorem valuesIn_flat (F : Nat → List (Int × T)) (n : Nat) (k : Int) :
    valuesIn (flat F n) k = (List.range n).flatMap fun c => valuesIn (F c) k := by
  change _ = flat (fun c => valuesIn (F c) k) n
  induction n with
  | zero => simp
  | succ n ih => rw [flat_succ, flat_succ, valuesIn_append, ih]

theorem valuesIn_map_snd {S : Type} (g : T → S) (r : List (Int × T)) (k : Int) :
    valuesIn (r.map fun e => (e.1, g e.2)) k = (valuesIn r k).map g := by
  unfold valuesIn
  rw [List.filter_map, List.map_map, List.map_map]
  rfl

/-- C56. `CSR::mat_vec`: element `i` is `0 + v₁*x[c₁] + v₂*x[c₂] + …`, added left to right, over the entries
`(c, v)` of row `i` in storage order. -/
theorem C56_csr_mat_vec [Zero T] [Add T] [Mul T] (t : IntTy) (a : CSR T) (ha : a.WF t) (x : List T)
    (hx : x.length = a.cols) :
    a.mat_vec x = .ok ((List.range a.rows).map fun i =>
      sumFrom 0 ((a.row i).map fun e => e.2 * x.getD e.1.toNat 0)) := by
  have hm : ∀ i < a.rows, ∀ e ∈ a.row i, 0 ≤ e.1 ∧ e.1 < a.cols := fun i hi e he =>
    ⟨(ha.mem hi he).1, (ha.mem hi he).2.1⟩
  unfold CSR.mat_vec
  rw [if_neg (by simpa using hx)]
  obtain ⟨r, h1, h2, h3, h4⟩ := csr_matvec_exact (y := List.replicate a.rows 0) ha.rep hm hx (by simp)
  simp only [h1]
  congr 1
  apply List.ext_getElem?
  intro i
  by_cases hi : i < a.rows
  · rw [h3 i hi, List.getElem?_map, List.getElem?_range hi, List.getElem?_replicate, if_pos hi]
    rfl
  · rw [List.getElem?_eq_none (by simp at h2; omega), List.getElem?_eq_none (by simp; omega)]

/-- C56. `CSC::mat_vec`: element `i` is the sum from zero, column after column, of the values stored for
`(i, k)` in storage order times `x[k]`. -/
theorem C56_csc_mat_vec [Zero T] [Add T] [Mul T] (t : IntTy) (a : CSC T) (ha : a.WF t) (x : List T)
    (hx : x.length = a.cols) :
    a.mat_vec x = .ok ((List.range a.rows).map fun i =>
      sumFrom 0 ((List.range a.cols).flatMap fun k => (a.valuesAt i k).map fun v => v * x.getD k 0)) := by
  have hm : ∀ i < a.cols, ∀ e ∈ a.col i, 0 ≤ e.1 ∧ e.1 < a.rows := fun i hi e he =>
    ⟨(ha.mem hi he).1, (ha.mem hi he).2.1⟩
  unfold CSC.mat_vec
  rw [if_neg (by simpa using hx)]
  obtain ⟨r, h1, h2⟩ := csc_matvec_exact (y := List.replicate a.rows 0) ha.rep hm hx (by simp)
  simp only [h1]
  congr 1
  apply List.ext_getElem?
  intro i
  rw [h2, accum_get_fold]
  · by_cases hi : i < a.rows
    · rw [List.getElem?_map, List.getElem?_range hi, List.getElem?_replicate, if_pos hi, valuesIn_flat]
      simp only [Option.map_some, Option.some.injEq]
      congr 2
      funext k
      rw [valuesIn_map_snd (fun v => v * x.getD k 0)]
      rfl
    · rw [List.getElem?_eq_none (by simp; omega), List.getElem?_eq_none (by simp; omega)]
      rfl
  · intro e he
    obtain ⟨k, hk, he⟩ := mem_flat.1 he
    rw [List.mem_map] at he
    obtain ⟨f, hf, rfl⟩ := he
    exact (hm k hk f hf).1

/-- C56. `coo_matvec`: element `i` of `y` receives the products of the triplets of row `i` in their order. -/
theorem C56_coo_matvec [Zero T] [Add T] [Mul T] (t : IntTy) (a : Coo T) (ha : a.WF t) (x y : List T)
    (hx : x.length = a.cols) (hy : y.length = a.rows) :
    coo_matvec a.values.length a.rowidx a.colidx a.values x y = .ok ((List.range a.rows).map fun i =>
      sumFrom (y.getD i 0) ((a.triples.filter fun e => decide (e.1 = (i : Int))).map fun e =>
        e.2.2 * x.getD e.2.1.toNat 0)) := by
  rw [← Coo.triples_length ha]
  obtain ⟨r, h1, h2⟩ := coo_matvec_exact (E := a.triples) (n := a.rows) (m := a.cols)
    (fun k e he => Coo.triples_get he)
    (fun e he => ⟨(Coo.triples_mem ha he).1.1, (Coo.triples_mem ha he).1.2.1⟩)
    (fun e he => ⟨(Coo.triples_mem ha he).2.1, (Coo.triples_mem ha he).2.2.1⟩) hx hy.ge
  rw [h1]
  congr 1
  apply List.ext_getElem?
  intro i
  rw [h2, accum_get_fold]
  · by_cases hi : i < a.rows
    · have hiy : i < y.length := by omega
      rw [List.getElem?_map, List.getElem?_range hi, List.getElem?_eq_getElem hiy]
      simp only [Option.map_some, Option.some.injEq]
      rw [List.getD_eq_getElem?_getD, List.getElem?_eq_getElem hiy, Option.getD_some]
      congr 1
      unfold valuesIn
      rw [List.filter_map, List.map_map]
      rfl
    · rw [List.getElem?_eq_none (by omega), List.getElem?_eq_none (by simp; omega)]
      rfl
  · intro e he
    rw [List.mem_map] at he
    obtain ⟨f, hf, rfl⟩ := he
    exact (Coo.triples_mem ha hf).1.1

example : exSatCsr.WF .u8 ∧ exSatCsr.mat_vec [⟨1⟩, ⟨1⟩, ⟨1⟩] = .ok [⟨7⟩, ⟨50⟩] ∧
    exSatCoo.WF .u8 ∧ exSatCsc.WF .u8 ∧ exSatCsc.mat_vec [⟨1⟩, ⟨1⟩] = .ok [⟨7⟩, 0, ⟨50⟩] :=
  ⟨exSatCsr_wf, by decide, exSatCoo_wf, exSatCsc_wf, by decide⟩

/-! ### C57 -/

/-- the products contributing to element `(i, k)` of `a * b`, in the order in which the code adds them: for every
entry `(j, v)` of row `i` of `a` in storage order, `v * w` for the values `w` stored at `(j, k)` in `b` in
storage order -/
def CSR.contributions [Mul T] (a b : CSR T) (i k : Nat) : List T :=
  (a.row i).flatMap fun e => (b.valuesAt e.1.toNat k).map fun w => e.2 * w

/-- the same for CSC, where the code multiplies the factors in the other order: for every entry `(j, w)` of
column `k` of `b`, `w * v` for the values `v` stored at `(i, j)` in `a` -/
def CSC.contributions [Mul T] (a b : CSC T) (i k : Nat) : List T :=
  (b.col k).flatMap fun e => (a.valuesAt i e.1.toNat).map fun v => e.2 * v

theorem valuesIn_prodItems [Mul T] (B : Nat → List (Int × T)) (A : List (Int × T)) (k : Int) :
    valuesIn (prodItems B A) k = A.flatMap fun e => (valuesIn (B e.1.toNat) k).map fun w => e.2 * w := by
  induction A with
  | nil => rfl
  | cons e A ih =>
    rw [show e :: A = [e] ++ A from rfl, prodItems_append, valuesIn_append, ih, prodItems_one,
      valuesIn_map_snd (fun w => e.2 * w)]
    simp

theorem valuesIn_ne_nil {r : List (Int × T)} {k : Int} : valuesIn r k ≠ [] ↔ ∃ e ∈ r, e.1 = k := by
  constructor
  · intro h
    by_contra hn
    exact h (valuesIn_eq_nil fun e he hk => hn ⟨e, he, hk⟩)
  · rintro ⟨e, he, hk⟩ h
    unfold valuesIn at h
    rw [List.map_eq_nil_iff, List.filter_eq_nil_iff] at h
    exact h e he (by simpa using hk)

theorem csr_matmat_exact_wf [Zero T] [Add T] [Mul T] [BEq T] {t : IntTy} {a b : CSR T} (ha : a.WF t) (hb : b.WF t)
    (hd : a.cols = b.rows) (hfit : (a.productSlots b : Int) ≤ t.hi) :
    csr_matmat_maxnnz a.rows b.cols a.rowptr a.colidx b.rowptr b.colidx = .ok (a.productSlots b) ∧
    ∃ p j x, csr_matmat t a.rows b.cols a.rowptr a.colidx a.values b.rowptr b.colidx b.values
        (List.replicate (a.rows + 1) 0) (List.replicate (a.productSlots b) 0) (List.replicate (a.productSlots b) 0) =
          .ok (p, j, x) ∧
      (let c : CSR T := ⟨a.rows, b.cols, p, j, x⟩
       c.WF t ∧ c.NoDup ∧
       ∀ i < a.rows, ∀ (k : Nat) (v : T), ((k : Int), v) ∈ c.row i ↔
         a.contributions b i k ≠ [] ∧ v = sumFrom 0 (a.contributions b i k) ∧ (v != 0) = true) := by
  have hma : ∀ i < a.rows, ∀ e ∈ a.row i, 0 ≤ e.1 ∧ e.1 < (b.rows : Nat) := by
    intro i hi e he
    have := ha.mem hi he
    omega
  have hs := CSR.productSlots_eq ha hb hd
  have h1 := maxnnz_ok (nc := b.cols) ha.rep hb.rep hma (fun i hi e he => by have := hb.mem hi he; omega)
  rw [← hs] at h1
  refine ⟨h1, ?_⟩
  obtain ⟨⟨p, j, x⟩, h2, h3, hlj, hlx, htl⟩ := csr_matmat_exact (t := t) (nc := b.cols)
    (cp := List.replicate (a.rows + 1) 0) (cj := List.replicate (a.productSlots b) 0)
    (cx := List.replicate (a.productSlots b) 0) ha.rep hb.rep hma
    (fun i hi e he => hb.mem hi he) (by simp) rfl rfl (by simp; omega) (by simp; omega) (by omega)
  simp only at h3
  have hmem : ∀ i, ∀ (k : Int) (v : T), (k, v) ∈ prodRowX b.row (a.row i) ↔
      ∃ q ∈ prodCols b.row (a.row i), k = (q : Int) ∧ v = sumFrom 0 (valuesIn (prodItems b.row (a.row i)) q) ∧
        (v != 0) = true := fun i k v => mem_emitRow
  have hcols : ∀ i < a.rows, ∀ q : Nat, q ∈ prodCols b.row (a.row i) ↔ ∃ g ∈ prodItems b.row (a.row i), g.1 = (q : Int) := by
    intro i hi q
    rw [prodCols, mem_pushAll]
    simp only [List.not_mem_nil, false_or]
    refine exists_congr fun g => and_congr_right fun hg => ?_
    have := prodItems_bound ha hb hd hi g hg
    omega
  have hle : (flat (fun i => prodRowX b.row (a.row i)) a.rows).length ≤ a.productSlots b := by
    rw [hs]
    exact flat_length_le fun i _ => emitRow_length_le _ _ _
  have hwf : (⟨a.rows, b.cols, p, j, x⟩ : CSR T).WF t := by
    refine h3.wf ?_ (by omega)
    rintro i hi ⟨k, v⟩ he
    obtain ⟨q, hq, rfl, -⟩ := (hmem i k v).1 he
    obtain ⟨g, hg, hgq⟩ := (hcols i hi q).1 hq
    have := prodItems_bound ha hb hd hi g hg
    rw [hgq] at this
    exact this
  have hrow : ∀ i < a.rows, (⟨a.rows, b.cols, p, j, x⟩ : CSR T).row i = prodRowX b.row (a.row i) :=
    fun i hi => CSR.row_of_rep (a := ⟨a.rows, b.cols, p, j, x⟩) h3 hi
  refine ⟨p, j, x, h2, hwf, ?_, ?_⟩
  · intro i hi
    simp only at hi
    rw [hrow i hi]
    exact emitRow_nodup (pushAll_nodup List.nodup_nil _)
  · intro i hi k v
    have hc : a.contributions b i k = valuesIn (prodItems b.row (a.row i)) k := by
      rw [valuesIn_prodItems]; rfl
    rw [hrow i hi, hmem, hc, valuesIn_ne_nil]
    constructor
    · rintro ⟨q, hq, hk, hv, hn⟩
      have : k = q := by omega
      subst this
      exact ⟨(hcols i hi k).1 hq, hv, hn⟩
    · rintro ⟨h, hv, hn⟩
      exact ⟨k, (hcols i hi k).2 h, rfl, hv, hn⟩

/-- C57. `CSR::mat_mat` (and `*`): row `i` of the product stores, once each, exactly the columns `k` with at least
one contribution whose sum from zero, in the stated order, is not equal to zero; the stored value is that sum. -/
theorem C57_csr_mat_mat [Zero T] [Add T] [Mul T] [BEq T] (t : IntTy) (a b : CSR T) (ha : a.WF t) (hb : b.WF t)
    (hd : a.cols = b.rows) (hfit : (a.productSlots b : Int) ≤ t.hi) :
    ∃ r, a.mat_mat t b = .ok r ∧ a.mul t b = .ok r ∧ r.WF t ∧ r.rows = a.rows ∧ r.cols = b.cols ∧ r.NoDup ∧
      ∀ i < a.rows, ∀ (k : Nat) (v : T), ((k : Int), v) ∈ r.row i ↔
        a.contributions b i k ≠ [] ∧ v = sumFrom 0 (a.contributions b i k) ∧ (v != 0) = true := by
  obtain ⟨h1, p, j, x, h2, h3, h4, h5⟩ := csr_matmat_exact_wf ha hb hd hfit
  have hok : a.mat_mat t b = .ok ⟨a.rows, b.cols, p, j, x⟩ := by
    unfold CSR.mat_mat
    rw [if_neg (not_not.2 hd)]
    simp only [bind, Except.bind]
    rw [h1]
    simp only
    rw [h2]
    exact CSR.new_ok (CSR.WF.rep h3)
  exact ⟨_, hok, by unfold CSR.mul; rw [hok]; rfl, h3, rfl, rfl, h4, h5⟩

/-- C57. `CSC::mat_mat` (and `*`), by columns. -/
theorem C57_csc_mat_mat [Zero T] [Add T] [Mul T] [BEq T] (t : IntTy) (a b : CSC T) (ha : a.WF t) (hb : b.WF t)
    (hd : b.rows = a.cols) (hfit : (a.productSlots b : Int) ≤ t.hi) :
    ∃ r, a.mat_mat t b = .ok r ∧ a.mul t b = .ok r ∧ r.WF t ∧ r.rows = a.rows ∧ r.cols = b.cols ∧ r.NoDup ∧
      ∀ k < b.cols, ∀ (i : Nat) (v : T), ((i : Int), v) ∈ r.col k ↔
        a.contributions b i k ≠ [] ∧ v = sumFrom 0 (a.contributions b i k) ∧ (v != 0) = true := by
  have ha' : a.asCSR.WF t := ha
  have hb' : b.asCSR.WF t := hb
  have hs := CSC.productSlots_asCSR a b
  obtain ⟨h1, p, j, x, h2, h3, h4, h5⟩ := csr_matmat_exact_wf hb' ha' hd (by rw [← hs]; exact hfit)
  rw [← hs] at h1 h2
  have h3' : (⟨a.rows, b.cols, j, p, x⟩ : CSC T).WF t := h3
  have hok : a.mat_mat t b = .ok ⟨a.rows, b.cols, j, p, x⟩ := by
    unfold CSC.mat_mat csc_matmat_maxnnz csc_matmat
    rw [if_neg (not_not.2 hd)]
    change (csr_matmat_maxnnz b.asCSR.rows a.asCSR.cols b.asCSR.rowptr b.asCSR.colidx a.asCSR.rowptr a.asCSR.colidx >>=
      fun nnz => _) = _
    rw [h1]
    simp only [bind, Except.bind]
    change ((csr_matmat t b.asCSR.rows a.asCSR.cols b.asCSR.rowptr b.asCSR.colidx b.asCSR.values a.asCSR.rowptr
      a.asCSR.colidx a.asCSR.values (List.replicate (b.asCSR.rows + 1) 0) (List.replicate (a.productSlots b) 0)
      (List.replicate (a.productSlots b) 0)) >>= fun r => _) = _
    rw [h2]
    exact CSC.new_ok (CSC.WF.rep h3')
  exact ⟨_, hok, by unfold CSC.mul; rw [hok]; rfl, h3', rfl, rfl, h4, h5⟩

example : ∃ a b : CSR Sat, a.WF .i8 ∧ b.WF .i8 ∧ a.cols = b.rows ∧ (a.productSlots b : Int) ≤ IntTy.i8.hi ∧
    a.contributions b 0 0 = [⟨90⟩, ⟨50⟩, ⟨-50⟩] ∧ sumFrom 0 (a.contributions b 0 0) = ⟨50⟩ := by
  refine ⟨⟨1, 2, [0, 2], [1, 0], [⟨9⟩, ⟨5⟩]⟩, ⟨2, 1, [0, 2, 3], [0, 0, 0], [⟨10⟩, ⟨-10⟩, ⟨10⟩]⟩,
    CSR.wf_of (by decide), CSR.wf_of (by decide), rfl, ?_, by decide, by decide⟩
  have := C13_slots_le (⟨1, 2, [0, 2], [1, 0], [⟨9⟩, ⟨5⟩]⟩ : CSR Sat) ⟨2, 1, [0, 2, 3], [0, 0, 0], [⟨10⟩, ⟨-10⟩, ⟨10⟩]⟩
  simp only at this
  simp only [IntTy.i8]
  omega

/-! ### C58 -/

open Classical in
/-- The result of an element-wise operation at a position, given the values stored there by the operands: if both
operands are canonical, `op` of the stored values with `0` for a missing one; otherwise `op` of the two sums
`0 + v₁ + v₂ + …`. -/
noncomputable def elementwise [Zero T] [Add T] (canonical : Prop) (op : T → T → T2) (va vb : List T) : T2 :=
  if canonical then op (va.headD 0) (vb.headD 0) else op (sumFrom 0 va) (sumFrom 0 vb)

/-- C58. `csr_binop_csr` for an arbitrary operation on arbitrary scalars: every row of the result stores, once each,
exactly the columns stored in an operand whose result is not zero. -/
theorem C58_binop [Zero T] [Add T] (t : IntTy) (op : T → T → T2) (nz : T2 → Bool) (a b : CSR T) (ha : a.WF t) (hb : b.WF t)
    (hr : b.rows = a.rows) (hc : b.cols = a.cols) (hfit : ((a.stored + b.stored : Nat) : Int) < t.hi)
    (cp cj : List Int) (cx : List T2) (hcp : cp.length = a.rows + 1) (hcj : a.stored + b.stored ≤ cj.length)
    (hcx : a.stored + b.stored ≤ cx.length) :
    ∃ p j x, csr_binop_csr t a.rows a.cols a.rowptr a.colidx a.values b.rowptr b.colidx b.values cp cj cx op nz
        = .ok (p, j, x) ∧
      (let c : CSR T2 := ⟨a.rows, a.cols, p, j, x⟩
       c.WF t ∧ c.NoDup ∧ ∀ i < a.rows, ∀ (k : Nat) (v : T2), ((k : Int), v) ∈ c.row i ↔
         (a.has i k ∨ b.has i k) ∧
           v = elementwise (a.Canonical ∧ b.Canonical) op (a.valuesAt i k) (b.valuesAt i k) ∧ nz v = true) := by
  have hrb := hb.rep
  rw [hr] at hrb
  have hsa := ha.stored_eq
  have hsb := hb.stored_eq
  rw [hr] at hsb
  obtain ⟨⟨p, j, x⟩, h1, R, h2, h3, h4, h5, h6, h7⟩ := binop_exact op nz ha.rep hrb (nc := a.cols)
    (fun i hi e he => ha.mem hi he) (fun i hi e he => by rw [← hc]; exact hb.mem (by omega) he)
    hcp rfl rfl (lj := cj) (lx := cx) (by omega) (by omega) (by omega)
  refine ⟨p, j, x, h1, ?_⟩
  have hrep : Rep p j x a.rows R := h2
  have hrow : ∀ i < a.rows, CSR.row ⟨a.rows, a.cols, p, j, x⟩ i = R i := fun i hi =>
    CSR.row_of_rep (a := ⟨a.rows, a.cols, p, j, x⟩) hrep hi
  have hflat : ∀ i ≤ a.rows, (flat R i).length ≤ (flat a.row i).length + (flat b.row i).length := by
    intro i
    induction i with
    | zero => simp
    | succ i ih =>
      intro hi
      have := (h5 i (by omega)).length_le
      have := ih (by omega)
      rw [flat_length_succ, flat_length_succ, flat_length_succ]
      omega
  have hfl := hflat a.rows (le_refl _)
  have hcan : ((∀ i < a.rows, SRow (a.row i)) ∧ ∀ i < a.rows, SRow (b.row i)) ↔ a.Canonical ∧ b.Canonical := by
    unfold CSR.Canonical
    rw [hr]
  refine ⟨hrep.wf ?_ (by omega), ?_, ?_⟩
  · rintro i hi ⟨k, v⟩ he
    rcases ((h5 i hi).mem k v).1 he |>.1 with ⟨e, h, rfl⟩ | ⟨e, h, rfl⟩
    · exact ha.mem hi h
    · have := hb.mem (by omega) h
      rw [hc] at this
      exact this
  · intro i hi
    simp only at hi
    rw [hrow i hi]
    exact (h5 i hi).nodup
  · intro i hi k v
    rw [hrow i hi, (h5 i hi).mem, has_iff, has_iff]
    unfold binVal elementwise
    by_cases hab : a.Canonical ∧ b.Canonical
    · rw [if_pos hab, if_pos (hcan.2 hab)]
      rfl
    · rw [if_neg hab, if_neg fun h => hab (hcan.1 h)]
      rfl

/-- C58. `a + b` and `a - b` (CSR) on arbitrary scalars. -/
theorem C58_csr_add_sub [Zero T] [Add T] [Sub T] [BEq T] (t : IntTy) (a b : CSR T) (ha : a.WF t) (hb : b.WF t)
    (hr : b.rows = a.rows) (hc : b.cols = a.cols) (hfit : ((a.stored + b.stored : Nat) : Int) < t.hi) :
    (∃ r, a.add t b = .ok r ∧ r.WF t ∧ r.rows = a.rows ∧ r.cols = a.cols ∧ r.NoDup ∧
      ∀ i < a.rows, ∀ (k : Nat) (v : T), ((k : Int), v) ∈ r.row i ↔ (a.has i k ∨ b.has i k) ∧
        v = elementwise (a.Canonical ∧ b.Canonical) (· + ·) (a.valuesAt i k) (b.valuesAt i k) ∧ (v != 0) = true) ∧
    (∃ r, a.sub t b = .ok r ∧ r.WF t ∧ r.rows = a.rows ∧ r.cols = a.cols ∧ r.NoDup ∧
      ∀ i < a.rows, ∀ (k : Nat) (v : T), ((k : Int), v) ∈ r.row i ↔ (a.has i k ∨ b.has i k) ∧
        v = elementwise (a.Canonical ∧ b.Canonical) (· - ·) (a.valuesAt i k) (b.valuesAt i k) ∧ (v != 0) = true) := by
  have e1 := CSR.nnz_ok ha.rep
  have e2 := CSR.nnz_ok hb.rep
  rw [← ha.stored_eq] at e1
  rw [← hb.stored_eq] at e2
  have key : ∀ op : T → T → T, ∃ r : CSR T, (do
      let nnz := (← a.nnz) + (← b.nnz)
      let (rowptr, colidx, values) ← csr_binop_csr t a.rows a.cols a.rowptr a.colidx a.values
        b.rowptr b.colidx b.values (List.replicate (a.rows + 1) 0) (List.replicate nnz 0)
        (List.replicate nnz 0) op nzT
      unwrapR (CSR.new a.rows a.cols rowptr colidx values)) = .ok r ∧ r.WF t ∧ r.rows = a.rows ∧ r.cols = a.cols ∧
      r.NoDup ∧ ∀ i < a.rows, ∀ (k : Nat) (v : T), ((k : Int), v) ∈ r.row i ↔ (a.has i k ∨ b.has i k) ∧
        v = elementwise (a.Canonical ∧ b.Canonical) op (a.valuesAt i k) (b.valuesAt i k) ∧ (v != 0) = true := by
    intro op
    obtain ⟨p, j, x, h1, h2, h3⟩ := C58_binop t op nzT a b ha hb hr hc hfit (List.replicate (a.rows + 1) 0)
      (List.replicate (a.stored + b.stored) 0) (List.replicate (a.stored + b.stored) 0) (by simp) (by simp) (by simp)
    refine ⟨⟨a.rows, a.cols, p, j, x⟩, ?_, h2, rfl, rfl, h3⟩
    rw [e1]
    simp only [bind, Except.bind]
    rw [e2]
    simp only
    rw [h1]
    simp only
    have hrep : Rep p j x a.rows (CSR.row ⟨a.rows, a.cols, p, j, x⟩) := h2.rep
    rw [CSR.new_ok hrep]
    rfl
  exact ⟨key (· + ·), key (· - ·)⟩

/-- C58. `CSC::add`, `CSC::subtract` and the operator `+` of CSC on arbitrary scalars. -/
theorem C58_csc_add_subtract [Zero T] [Add T] [Sub T] [BEq T] (t : IntTy) (a b : CSC T) (ha : a.WF t) (hb : b.WF t)
    (hr : b.rows = a.rows) (hc : b.cols = a.cols) (hfit : ((a.stored + b.stored : Nat) : Int) < t.hi) :
    (∃ r, a.add t b = .ok r ∧ r.WF t ∧ r.rows = a.rows ∧ r.cols = a.cols ∧ r.NoDup ∧
      ∀ k < a.cols, ∀ (i : Nat) (v : T), ((i : Int), v) ∈ r.col k ↔ (a.has i k ∨ b.has i k) ∧
        v = elementwise (a.Canonical ∧ b.Canonical) (· + ·) (a.valuesAt i k) (b.valuesAt i k) ∧ (v != 0) = true) ∧
    (∃ r, a.subtract t b = .ok r ∧ r.WF t ∧ r.rows = a.rows ∧ r.cols = a.cols ∧ r.NoDup ∧
      ∀ k < a.cols, ∀ (i : Nat) (v : T), ((i : Int), v) ∈ r.col k ↔ (a.has i k ∨ b.has i k) ∧
        v = elementwise (a.Canonical ∧ b.Canonical) (· - ·) (a.valuesAt i k) (b.valuesAt i k) ∧ (v != 0) = true) ∧
    (∃ r, a.add_op t b = .ok r ∧ r.WF t ∧ r.rows = a.rows ∧ r.cols = a.cols ∧ r.NoDup ∧
      ∀ k < a.cols, ∀ (i : Nat) (v : T), ((i : Int), v) ∈ r.col k ↔ (a.has i k ∨ b.has i k) ∧
        v = elementwise (a.Canonical ∧ b.Canonical) (· + ·) (a.valuesAt i k) (b.valuesAt i k) ∧ (v != 0) = true) := by
  have e1 := CSC.nnz_ok ha.rep
  have e2 := CSC.nnz_ok hb.rep
  rw [← ha.stored_eq] at e1
  rw [← hb.stored_eq] at e2
  have base : ∀ op : T → T → T, ∃ p j x,
      csr_binop_csr t a.cols a.rows a.colptr a.rowidx a.values b.colptr b.rowidx b.values (List.replicate (a.cols + 1) 0)
        (List.replicate (a.stored + b.stored) 0) (List.replicate (a.stored + b.stored) 0) op nzT = .ok (p, j, x) ∧
      (let c : CSC T := ⟨a.rows, a.cols, j, p, x⟩
       c.WF t ∧ c.NoDup ∧ ∀ k < a.cols, ∀ (i : Nat) (v : T), ((i : Int), v) ∈ c.col k ↔ (a.has i k ∨ b.has i k) ∧
        v = elementwise (a.Canonical ∧ b.Canonical) op (a.valuesAt i k) (b.valuesAt i k) ∧ (v != 0) = true) := by
    intro op
    have ha' : a.asCSR.WF t := ha
    have hb' : b.asCSR.WF t := hb
    exact C58_binop t op nzT a.asCSR b.asCSR ha' hb' hc hr hfit (List.replicate (a.cols + 1) 0)
      (List.replicate (a.stored + b.stored) 0) (List.replicate (a.stored + b.stored) 0) (by rw [List.length_replicate]; rfl)
      (by rw [List.length_replicate]; exact le_refl _) (by rw [List.length_replicate]; exact le_refl _)
  have key : ∀ op : T → T → T, ∃ r : CSC T, (show M (CSC T) from do
      if b.rows ≠ a.rows ∨ b.cols ≠ a.cols then
        throw .err
      let maxnnz := (← a.nnz) + (← b.nnz)
      let (colptr, rowidx, values) ← csr_binop_csr t a.cols a.rows a.colptr a.rowidx a.values
        b.colptr b.rowidx b.values (List.replicate a.colptr.length 0) (List.replicate maxnnz 0)
        (List.replicate maxnnz 0) op nzT
      let newnnz ← toUsize (← colptr.rd a.cols)
      let rowidx ← rowidx.slice 0 newnnz
      let values ← values.slice 0 newnnz
      CSC.new a.rows a.cols rowidx colptr values) = .ok r ∧ r.WF t ∧ r.rows = a.rows ∧ r.cols = a.cols ∧ r.NoDup ∧
      ∀ k < a.cols, ∀ (i : Nat) (v : T), ((i : Int), v) ∈ r.col k ↔ (a.has i k ∨ b.has i k) ∧
        v = elementwise (a.Canonical ∧ b.Canonical) op (a.valuesAt i k) (b.valuesAt i k) ∧ (v != 0) = true := by
    intro op
    obtain ⟨p, j, x, h1, h2, h3, h4⟩ := base op
    have hrep : Rep p j x a.cols (CSC.col ⟨a.rows, a.cols, j, p, x⟩) := h2.rep
    have htrim := hrep.trim
    set c : CSC T := ⟨a.rows, a.cols, j, p, x⟩ with hcdef
    have hlj := hrep.len_j
    have hlx := hrep.len_x
    set N := (flat c.col a.cols).length with hN
    have hwf : CSC.WF t (⟨a.rows, a.cols, j.take N, p, x.take N⟩ : CSC T) :=
      htrim.wf (m := a.rows) (fun i hi e he => h2.mem hi he) h2.fits
    have hcol : ∀ k < a.cols, CSC.col ⟨a.rows, a.cols, j.take N, p, x.take N⟩ k = c.col k := fun k hk =>
      CSC.col_of_rep (a := ⟨a.rows, a.cols, j.take N, p, x.take N⟩) htrim hk
    refine ⟨⟨a.rows, a.cols, j.take N, p, x.take N⟩, ?_, hwf, rfl, rfl, ?_, ?_⟩
    · rw [if_neg (by omega)]
      have hl := ha.len
      rw [hl, e1]
      simp only [bind, Except.bind]
      rw [e2]
      simp only
      rw [h1]
      simp only [List.rd, hrep.ptr a.cols (le_refl _), toUsize, List.slice, ← hN]
      simp only [Int.natCast_nonneg, if_true, pure, Except.pure, Int.toNat_natCast, Nat.zero_le, true_and, List.drop_zero, Nat.sub_zero]
      rw [if_pos (by omega)]
      simp only
      rw [if_pos (by omega)]
      simp only
      rw [CSC.new_ok htrim]
    · intro k hk
      rw [hcol k hk]
      exact h3 k hk
    · intro k hk i v
      rw [hcol k hk]
      exact h4 k hk i v
  refine ⟨key (· + ·), key (· - ·), ?_⟩
  obtain ⟨p, j, x, h1, h2, h3, h4⟩ := base (· + ·)
  refine ⟨⟨a.rows, a.cols, j, p, x⟩, ?_, h2, rfl, rfl, h3, h4⟩
  unfold CSC.add_op csr_add_csr
  rw [e1, e2]
  simp only [bind, Except.bind]
  rw [h1]
  simp only
  have hrep : Rep p j x a.cols (CSC.col ⟨a.rows, a.cols, j, p, x⟩) := h2.rep
  rw [CSC.new_ok hrep]
  rfl

example : ∃ b : CSR Sat, exSatCsr.WF .i8 ∧ b.WF .i8 ∧ b.rows = exSatCsr.rows ∧ b.cols = exSatCsr.cols ∧
    ((exSatCsr.stored + b.stored : Nat) : Int) < IntTy.i8.hi ∧ ¬ exSatCsr.Canonical ∧ b.Canonical ∧
    sumFrom 0 (exSatCsr.valuesAt 1 2) + sumFrom 0 (b.valuesAt 1 2) = ⟨53⟩ ∧ exSatCsr.add .i8 b = .ok ⟨2, 3, [0, 0, 1], [2, 0, 0, 0, 0, 0, 0], [⟨53⟩, 0, 0, 0, 0, 0, 0]⟩ :=
  ⟨⟨2, 3, [0, 1, 2], [0, 2], [⟨-7⟩, ⟨3⟩]⟩, CSR.wf_of (by decide), CSR.wf_of (by decide), rfl, rfl, by decide,
    by unfold CSR.Canonical; decide, by unfold CSR.Canonical; decide, by decide, by decide⟩

example : ∃ b : CSC Sat, exSatCsc.WF .i8 ∧ b.WF .i8 ∧ b.rows = exSatCsc.rows ∧ b.cols = exSatCsc.cols ∧
    ((exSatCsc.stored + b.stored : Nat) : Int) < IntTy.i8.hi ∧
    exSatCsc.add .i8 b = .ok ⟨3, 2, [2], [0, 0, 1], [⟨53⟩]⟩ :=
  ⟨⟨3, 2, [0, 2], [0, 1, 2], [⟨-7⟩, ⟨3⟩]⟩, CSC.wf_of (by decide), CSC.wf_of (by decide), rfl, rfl, by decide, by decide⟩

/-- The numbers `0`, `-0`, `1`, `∞`, `-∞` with floating-point addition and division on the cases used below: a
scalar with `0 + (-0) = 0`. -/
inductive Signed
  | zero | negZero | one | inf | negInf
deriving DecidableEq

instance : Zero Signed := ⟨.zero⟩
instance : Add Signed := ⟨fun a b => match a, b with
  | .zero, .negZero => .zero
  | .zero, b => b
  | .negZero, b => b
  | a, _ => a⟩

def Signed.div (a b : Signed) : Signed := match a, b with
  | .one, .zero => .inf
  | .one, .negZero => .negInf
  | a, _ => a

/-- C58. The canonical and the general case really differ on scalars without the usual laws: two matrices that store
the same values at the same positions, one of them with an unsorted row, divided by a third one that stores `-0`. -/
theorem C58_paths_differ : ∃ a a' b : CSR Signed, a.WF .i8 ∧ a'.WF .i8 ∧ b.WF .i8 ∧ a.Canonical ∧ b.Canonical ∧
    (∀ i j, a.valuesAt i j = a'.valuesAt i j) ∧
    csr_binop_csr .i8 1 2 a.rowptr a.colidx a.values b.rowptr b.colidx b.values [0, 0] [0, 0, 0] [0, 0, 0] Signed.div nzT =
      .ok ([0, 2], [0, 1, 0], [.negInf, .inf, .zero]) ∧
    csr_binop_csr .i8 1 2 a'.rowptr a'.colidx a'.values b.rowptr b.colidx b.values [0, 0] [0, 0, 0] [0, 0, 0] Signed.div nzT =
      .ok ([0, 2], [0, 1, 0], [.inf, .inf, .zero]) := by
  have hwa : (⟨1, 2, [0, 2], [0, 1], [.one, .one]⟩ : CSR Signed).WF .i8 := CSR.wf_of (by decide)
  have hwb : (⟨1, 2, [0, 2], [1, 0], [.one, .one]⟩ : CSR Signed).WF .i8 := CSR.wf_of (by decide)
  refine ⟨⟨1, 2, [0, 2], [0, 1], [.one, .one]⟩, ⟨1, 2, [0, 2], [1, 0], [.one, .one]⟩, ⟨1, 2, [0, 1], [0], [.negZero]⟩,
    hwa, hwb, CSR.wf_of (by decide), by unfold CSR.Canonical; decide, by unfold CSR.Canonical; decide, fun i j => ?_, by decide, by decide⟩
  by_cases h : i < 1 ∧ j < 2
  · obtain ⟨h1, h2⟩ := h
    obtain rfl : i = 0 := by omega
    obtain rfl | rfl : j = 0 ∨ j = 1 := by omega
    · decide
    · decide
  · rw [CSR.valuesAt_out hwa h, CSR.valuesAt_out hwb h]

end
end Sparse

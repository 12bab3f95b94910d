import Verif.Props.Assemble

/-! C05, C26: exactly what `CSR::to_coo` and `CSR::h_stack` make of unused storage. -/

open scoped BigOperators
namespace Sparse
variable {T : Type}

/-- the `(column, value)` pairs in the unused storage -/
def CSR.leftover (a : CSR T) : List (Int × T) := (a.colidx.zip a.values).drop a.stored

/-- the matrix entry at `(i, j)` if the pairs in the unused storage are taken for entries of row 0 -/
def CSR.entryWithLeftover [AddCommMonoid T] (a : CSR T) (i j : Nat) : T :=
  a.entry i j + if i = 0 then ((a.leftover.filter fun e => decide (e.1 = (j : Int))).map (·.2)).sum else 0

/-- C05 (CSR, matrices with unused storage). If the index array and the value array are equally long and the unused indices are
columns of the matrix, `to_coo` returns a valid matrix: the unused pairs are entries of row 0. -/
theorem C05_csr_to_coo_leftover [AddCommMonoid T] (t : IntTy) (a : CSR T) (ha : a.WF t) (hr : (a.rows : Int) ≤ t.hi + 1)
    (hjx : a.colidx.length = a.values.length)
    (hl : ∀ e ∈ a.leftover, 0 ≤ e.1 ∧ e.1 < (a.cols : Int) ∧ e.1 ≤ t.hi) (h0 : 0 < a.rows ∨ a.leftover = []) :
    ∃ r, a.to_coo t = .ok r ∧ r.WF t ∧ r.rows = a.rows ∧ r.cols = a.cols ∧ r.values.length = a.values.length ∧
      ∀ i j, r.entry i j = a.entryWithLeftover i j := by
  obtain ⟨r, h1, h2, h3, h4, h5, h6, h7⟩ := C05_csr_to_coo_slack t a ha hr hjx
  have hl1 : r.rowidx.length = r.values.length := by rw [h6, h7]
  have hl2 : r.colidx.length = r.values.length := by rw [h5, h6, hjx]
  have htri : ∀ e ∈ r.triples, (0 ≤ e.1 ∧ e.1 < r.rows ∧ e.1 ≤ t.hi) ∧ (0 ≤ e.2.1 ∧ e.2.1 < r.cols ∧ e.2.1 ≤ t.hi) := by
    intro e he
    have hhi := t.hi_ge
    rw [h2, h3]
    rw [h4, List.mem_append, List.mem_map] at he
    rcases he with h8 | ⟨g, hg, rfl⟩
    · rw [CSR.triples, List.mem_flatMap] at h8
      obtain ⟨i, hi, h8⟩ := h8
      rw [List.mem_map] at h8
      obtain ⟨g, hg, rfl⟩ := h8
      have hi : i < a.rows := by simpa using hi
      have := ha.mem hi hg
      simp only
      omega
    · have h9 := hl g hg
      have h10 : 0 < a.rows := h0.resolve_right (List.ne_nil_of_mem hg)
      simp only
      omega
  have hrow : r.triples.map (·.1) = r.rowidx := by
    unfold Coo.triples
    exact List.map_fst_zip (by rw [List.length_zip]; omega)
  have hcol : r.triples.map (·.2.1) = r.colidx := by
    unfold Coo.triples
    rw [show (fun e : Int × Int × T => e.2.1) = Prod.fst ∘ Prod.snd from rfl, ← List.map_map,
      List.map_snd_zip (by rw [List.length_zip]; omega), List.map_fst_zip (by omega)]
  refine ⟨r, h1, ⟨hl1, hl2, ?_, ?_⟩, h2, h3, by rw [h6], ?_⟩
  · intro v hv
    rw [← hrow, List.mem_map] at hv
    obtain ⟨e, he, rfl⟩ := hv
    exact (htri e he).1
  · intro v hv
    rw [← hcol, List.mem_map] at hv
    obtain ⟨e, he, rfl⟩ := hv
    exact (htri e he).2
  · intro i j
    unfold CSR.entryWithLeftover
    rw [CSR.entry_eq_tripSum ha, Coo.entry_eq_tripSum, h4]
    unfold tripSum
    rw [List.filter_append, List.map_append, List.sum_append]
    congr 1
    rw [List.filter_map, List.map_map]
    by_cases hi : i = 0
    · subst hi
      rw [if_pos rfl]
      congr 1
      rw [show a.leftover = (a.colidx.zip a.values).drop a.stored from rfl]
      congr 1
      refine List.filter_congr fun e _ => ?_
      simp
    · rw [if_neg hi, List.filter_eq_nil_iff.2]
      · rfl
      · intro e _
        simp only [Function.comp, decide_eq_true_eq, not_and]
        intro h
        omega

/-- C05 (CSR, unused storage of different lengths): if the index array and the value array of a valid matrix are not equally long,
`to_coo` panics. -/
theorem C05_csr_to_coo_uneven (t : IntTy) (a : CSR T) (ha : a.WF t) (hr : (a.rows : Int) ≤ t.hi + 1)
    (hjx : a.colidx.length ≠ a.values.length) : a.to_coo t = .error (.panic .unwrap) := by
  have hst := ha.stored_eq
  have hlj := ha.rep.len_j
  unfold CSR.to_coo
  rw [expandptr_ok ha.rep (fun i hi _ => by omega) (by simp; omega)]
  simp only [bind, Except.bind]
  unfold Coo.new
  rw [if_pos (.inr fun h => hjx h.symm)]
  rfl

/-- C26 (CSR::h_stack, operands with unused storage). The result is the horizontal stack of what `to_coo` makes of the operands,
that is with the unused pairs as entries of row 0. -/
theorem C26_csr_h_stack_leftover [AddCommMonoid T] (t : IntTy) (a b : CSR T) (ha : a.WF t) (hb : b.WF t)
    (hja : a.colidx.length = a.values.length) (hjb : b.colidx.length = b.values.length)
    (hla : ∀ e ∈ a.leftover, 0 ≤ e.1 ∧ e.1 < (a.cols : Int) ∧ e.1 ≤ t.hi)
    (hlb : ∀ e ∈ b.leftover, 0 ≤ e.1 ∧ e.1 < (b.cols : Int) ∧ e.1 ≤ t.hi)
    (h0 : 0 < a.rows ∨ a.leftover = [] ∧ b.leftover = []) (hr : a.rows = b.rows) (hra : (a.rows : Int) ≤ t.hi + 1)
    (hf : ((a.cols + b.cols : Nat) : Int) ≤ t.hi + 1) (hn : ((a.values.length + b.values.length : Nat) : Int) < t.hi) :
    ∃ r, CSR.h_stack t a b = .ok r ∧ r.WF t ∧ r.Canonical ∧ r.rows = a.rows ∧ r.cols = a.cols + b.cols ∧
      ∀ i j, r.entry i j = hcat a.cols a.entryWithLeftover b.entryWithLeftover i j := by
  obtain ⟨p, p1, p2, p3, p4, p5, p6⟩ := C05_csr_to_coo_leftover t a ha hra hja hla (h0.imp_right (·.1))
  obtain ⟨q, q1, q2, q3, q4, q5, q6⟩ := C05_csr_to_coo_leftover t b hb (by omega) hjb hlb (by rw [← hr]; exact h0.imp_right (·.2))
  unfold CSR.h_stack
  rw [p1, q1]
  simp only [bind, Except.bind]
  obtain ⟨r, g1, g2, g3, g4, g5, g6⟩ := (C26_h_stack t p q p2 q2).2 (by omega) (by omega)
  rw [g1]
  obtain ⟨s, k1, k2, k3, k4, k5, k7, -⟩ := C01_coo_to_csr t r g2 (by unfold Coo.nnz at g5; omega)
  refine ⟨s, k1, k2, k5, by omega, by omega, fun i j => ?_⟩
  rw [k7, g6, p4]
  unfold hcat
  simp only [p6, q6]

/-- C26 (CSR::h_stack): an operand whose arrays are not equally long makes it panic. -/
theorem C26_csr_h_stack_uneven [Zero T] [Add T] (t : IntTy) (a b : CSR T) (ha : a.WF t) (hb : b.WF t)
    (hra : (a.rows : Int) ≤ t.hi + 1) (hrb : (b.rows : Int) ≤ t.hi + 1)
    (h : a.colidx.length ≠ a.values.length ∨ b.colidx.length ≠ b.values.length) :
    CSR.h_stack t a b = .error (.panic .unwrap) := by
  unfold CSR.h_stack
  by_cases h1 : a.colidx.length ≠ a.values.length
  · rw [C05_csr_to_coo_uneven t a ha hra h1]; rfl
  · have h1 : a.colidx.length = a.values.length := by omega
    obtain ⟨r, h2, -⟩ := C05_csr_to_coo_slack t a ha hra h1
    rw [h2, C05_csr_to_coo_uneven t b hb hrb (h.resolve_left (fun h' => h' h1))]; rfl

/-- the unused pairs (1, 9) and (0, 4) become entries of row 0 -/
example : let a : CSR Int := ⟨2, 2, [0, 0, 1], [1, 1, 0], [5, 9, 4]⟩
    a.WF .u8 ∧ a.colidx.length = a.values.length ∧ (∀ e ∈ a.leftover, 0 ≤ e.1 ∧ e.1 < (a.cols : Int) ∧ e.1 ≤ IntTy.u8.hi) ∧
    (a.to_coo .u8 >>= Coo.to_dense) = .ok [[4, 9], [0, 5]] ∧ (a.to_dense) = .ok [[0, 0], [0, 5]] ∧
    ((a.cols + a.cols : Nat) : Int) ≤ IntTy.u8.hi + 1 ∧ ((a.values.length + a.values.length : Nat) : Int) < IntTy.u8.hi :=
  ⟨CSR.wf_of (by decide), by decide, by decide, by decide +kernel, by decide +kernel, by decide, by decide⟩

/-- an index without a value -/
example : let a : CSR Int := ⟨2, 2, [0, 0, 1], [1, 1], [5]⟩
    a.WF .u8 ∧ (a.rows : Int) ≤ IntTy.u8.hi + 1 ∧ a.colidx.length ≠ a.values.length :=
  ⟨CSR.wf_of (by decide), by decide, by decide⟩

end Sparse

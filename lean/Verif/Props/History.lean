import Verif.Lemmas.History
/-! Property C91: histories of in-place calls on compressed matrices. -/
namespace Sparse
section
variable {T : Type}

theorem CSR.call_ok [Zero T] [Add T] (t : IntTy) (a : CSR T) (ha : a.WF t) (hn : (a.stored : Int) < t.hi) (c : InPlace T) :
    match a.contents.call c with
    | some s => ∃ r, a.call t c = .ok r ∧ r.WF t ∧ r.rows = a.rows ∧ r.cols = a.cols ∧ r.contents = s ∧ r.stored ≤ a.stored
    | none => a.call t c = .error (.panic .oob) := by
  have hrep := ha.rep
  have hst := ha.stored_eq
  have hf := ha.fits
  cases c with
  | sort =>
    obtain ⟨r, hr, h1, h2, h3, -, h4, -, h5, h6⟩ := C53_csr_sort_indexes t a ha
    simp only [Contents.call]
    refine ⟨r, hr, h1, h2, h3, ?_, by omega⟩
    obtain ⟨r', hr', g1⟩ : Ok a.sort_indexes fun r => Rep r.rowptr r.colidx r.values a.rows (fun i => sortRow (a.row i)) := by
      unfold CSR.sort_indexes
      have hl := hrep.len
      wp
      refine ⟨by omega, ?_⟩
      rw [show a.rowptr.length - 1 = a.rows by omega]
      refine (sort_indices_ok hrep).mono ?_
      rintro ⟨j1, x1⟩ ⟨h1, h2, h3, -⟩
      exact h1
    obtain rfl : r = r' := by rw [hr] at hr'; exact Except.ok.inj hr'
    simp only [CSR.contents, h2, h4, h5, List.map_map]
    congr 1
    refine List.map_congr_left fun i hi => ?_
    rw [CSR.row_of_rep g1 (List.mem_range.1 hi)]
    exact (stableSort_eq _).symm
  | merge =>
    obtain ⟨r, h0, h1, h2, h3, h4⟩ := CSR.sum_duplicates_ok (t := t) hrep (by rw [← hst]; exact hn)
    obtain ⟨r', h0', hw, -⟩ := C54_csr_sum_duplicates t a ha hn
    obtain rfl : r = r' := by rw [h0] at h0'; exact Except.ok.inj h0'
    have h3' : Rep r.rowptr r.colidx r.values r.rows (fun i => canonRow (a.row i)) := by rw [h1]; exact h3
    have hsr := CSR.stored_of_rep h3'
    have hle : (flat (fun i => canonRow (a.row i)) a.rows).length ≤ (flat a.row a.rows).length :=
      flat_length_le fun i _ => canonRow_length _
    have hall : (∀ q ∈ a.contents.slices, StrictlyIncreasing q) ↔ ∀ i < a.rows, SRow (a.row i) := by
      simp only [CSR.contents, List.mem_map, List.mem_range]
      exact ⟨fun h i hi => h _ ⟨i, hi, rfl⟩, fun h q ⟨i, hi, e⟩ => e ▸ h i hi⟩
    simp only [Contents.call]
    rcases h4 with ⟨rfl, hs⟩ | ⟨hs, -, h6⟩
    · rw [if_pos (hall.2 hs)]
      exact ⟨r, h0, ha, rfl, rfl, rfl, le_refl _⟩
    · rw [if_neg fun h => hs (hall.1 h)]
      refine ⟨r, h0, hw, h1, h2, ?_, by rw [hsr, h1]; omega⟩
      simp only [CSR.contents, List.map_map]
      congr 1
      · rw [h1]
        refine List.map_congr_left fun i hi => ?_
        rw [CSR.row_of_rep h3 (List.mem_range.1 hi)]
        exact (addUp_eq _).symm
      · rw [h6, hsr, h1]
        omega
  | prune =>
    obtain ⟨r, hr, rfl⟩ := CSR.prune_ok hrep
    have g := hrep.trim
    simp only [Contents.call]
    have hx := hrep.len_x
    have hsr : CSR.stored { a with colidx := a.colidx.take (flat a.row a.rows).length,
                                   values := a.values.take (flat a.row a.rows).length } = (flat a.row a.rows).length :=
      CSR.stored_of_rep g
    refine ⟨_, hr, g.wf (fun i hi e he => ha.mem hi he) hf, rfl, rfl, ?_, by rw [hsr, hst]⟩
    simp only [CSR.contents]
    congr 1
    · refine List.map_congr_left fun i hi => ?_
      exact CSR.row_of_rep g (List.mem_range.1 hi)
    · rw [hsr]
      simp
  | write k v =>
    have hx := hrep.len_x
    have hlen : (a.contents.slices.map List.length).sum + a.contents.unused = a.values.length := by
      simp only [CSR.contents]
      rw [sum_lengths, hst]
      omega
    simp only [Contents.call, hlen, CSR.call]
    by_cases hk : k < a.values.length
    · rw [if_pos hk]
      obtain ⟨g1, g2, g3, g4, -⟩ := C60_csr_values_mut t a ha (a.values.set k v) (by simp)
      refine ⟨a.values_mut (a.values.set k v), ?_, g1, rfl, rfl, ?_, by omega⟩
      · simp [List.wr, hk]
        rfl
      · simp only [CSR.contents]
        congr 1
        · exact hrep.write_rows v hk
        · rw [g4]
          simp [CSR.values_mut]
    · rw [if_neg hk]
      simp [List.wr, hk]
      rfl

/-- C91 (CSR). Any number of in-place calls, in any order: the matrix stays valid, keeps its shape and stores exactly what the
specification of the history says; a call panics exactly when the specification says so. -/
theorem C91_csr_history [Zero T] [Add T] (t : IntTy) (a : CSR T) (ha : a.WF t) (hn : (a.stored : Int) < t.hi) (calls : List (InPlace T)) :
    match calls.foldlM Contents.call a.contents with
    | some s => ∃ r, calls.foldlM (CSR.call t) a = .ok r ∧ r.WF t ∧ r.rows = a.rows ∧ r.cols = a.cols ∧ r.contents = s
    | none => calls.foldlM (CSR.call t) a = .error (.panic .oob) := by
  induction calls generalizing a with
  | nil => exact ⟨a, rfl, ha, rfl, rfl, rfl⟩
  | cons c calls ih =>
    have h := CSR.call_ok t a ha hn c
    simp only [List.foldlM_cons]
    cases hc : a.contents.call c with
    | none =>
      rw [hc] at h
      simp only at h ⊢
      rw [h]
      rfl
    | some s =>
      rw [hc] at h
      obtain ⟨r, h1, h2, h3, h4, rfl, h6⟩ := h
      have h := ih r h2 (by omega)
      rw [h1]
      simp only [Option.bind_eq_bind, Option.bind_some]
      change match List.foldlM Contents.call r.contents calls with
        | some s => ∃ r', List.foldlM (CSR.call t) r calls = .ok r' ∧ r'.WF t ∧ r'.rows = a.rows ∧ r'.cols = a.cols ∧ r'.contents = s
        | none => List.foldlM (CSR.call t) r calls = .error (.panic .oob)
      rw [← h3, ← h4]
      exact h

theorem CSC.call_ok [Zero T] [Add T] (t : IntTy) (a : CSC T) (ha : a.WF t) (hn : (a.stored : Int) < t.hi) (c : InPlace T) :
    match a.contents.call c with
    | some s => ∃ r, a.call t c = .ok r ∧ r.WF t ∧ r.rows = a.rows ∧ r.cols = a.cols ∧ r.contents = s ∧ r.stored ≤ a.stored
    | none => a.call t c = .error (.panic .oob) := by
  have hrep := ha.rep
  have hst := ha.stored_eq
  have hf := ha.fits
  cases c with
  | sort =>
    obtain ⟨r, hr, h1, h3, h2, -, h4, -, h5, h6⟩ := C53_csc_sort_indexes t a ha
    simp only [Contents.call]
    refine ⟨r, hr, h1, h3, h2, ?_, by omega⟩
    obtain ⟨r', hr', g1⟩ : Ok a.sort_indexes fun r => Rep r.colptr r.rowidx r.values a.cols (fun i => sortRow (a.col i)) := by
      unfold CSC.sort_indexes
      have hl := hrep.len
      wp
      refine ⟨by omega, ?_⟩
      rw [show a.colptr.length - 1 = a.cols by omega]
      refine (sort_indices_ok hrep).mono ?_
      rintro ⟨j1, x1⟩ ⟨h1, h2, h3, -⟩
      exact h1
    obtain rfl : r = r' := by rw [hr] at hr'; exact Except.ok.inj hr'
    simp only [CSC.contents, h2, h4, h5, List.map_map]
    congr 1
    refine List.map_congr_left fun i hi => ?_
    rw [CSC.col_of_rep g1 (List.mem_range.1 hi)]
    exact (stableSort_eq _).symm
  | merge =>
    obtain ⟨r, h0, h2, h1, h3, h4⟩ := CSC.sum_duplicates_ok (t := t) hrep (by rw [← hst]; exact hn)
    obtain ⟨r', h0', hw, -⟩ := C54_csc_sum_duplicates t a ha hn
    obtain rfl : r = r' := by rw [h0] at h0'; exact Except.ok.inj h0'
    have h3' : Rep r.colptr r.rowidx r.values r.cols (fun i => canonRow (a.col i)) := by rw [h1]; exact h3
    have hsr := CSC.stored_of_rep h3'
    have hle : (flat (fun i => canonRow (a.col i)) a.cols).length ≤ (flat a.col a.cols).length :=
      flat_length_le fun i _ => canonRow_length _
    have hall : (∀ q ∈ a.contents.slices, StrictlyIncreasing q) ↔ ∀ i < a.cols, SRow (a.col i) := by
      simp only [CSC.contents, List.mem_map, List.mem_range]
      exact ⟨fun h i hi => h _ ⟨i, hi, rfl⟩, fun h q ⟨i, hi, e⟩ => e ▸ h i hi⟩
    simp only [Contents.call]
    rcases h4 with ⟨rfl, hs⟩ | ⟨hs, -, h6⟩
    · rw [if_pos (hall.2 hs)]
      exact ⟨r, h0, ha, rfl, rfl, rfl, le_refl _⟩
    · rw [if_neg fun h => hs (hall.1 h)]
      refine ⟨r, h0, hw, h2, h1, ?_, by rw [hsr, h1]; omega⟩
      simp only [CSC.contents, List.map_map]
      congr 1
      · rw [h1]
        refine List.map_congr_left fun i hi => ?_
        rw [CSC.col_of_rep h3 (List.mem_range.1 hi)]
        exact (addUp_eq _).symm
      · rw [h6, hsr, h1]
        omega
  | prune =>
    obtain ⟨r, hr, rfl⟩ := CSC.prune_ok hrep
    have g := hrep.trim
    simp only [Contents.call]
    have hx := hrep.len_x
    have hsr : CSC.stored { a with rowidx := a.rowidx.take (flat a.col a.cols).length,
                                   values := a.values.take (flat a.col a.cols).length } = (flat a.col a.cols).length :=
      CSC.stored_of_rep g
    refine ⟨_, hr, g.wf (fun i hi e he => ha.mem hi he) hf, rfl, rfl, ?_, by rw [hsr, hst]⟩
    simp only [CSC.contents]
    congr 1
    · refine List.map_congr_left fun i hi => ?_
      exact CSC.col_of_rep g (List.mem_range.1 hi)
    · rw [hsr]
      simp
  | write k v =>
    have hx := hrep.len_x
    have hlen : (a.contents.slices.map List.length).sum + a.contents.unused = a.values.length := by
      simp only [CSC.contents]
      rw [sum_lengths, hst]
      omega
    simp only [Contents.call, hlen, CSC.call]
    by_cases hk : k < a.values.length
    · rw [if_pos hk]
      obtain ⟨g1, g2, g3, g4, -⟩ := C60_csc_values_mut t a ha (a.values.set k v) (by simp)
      refine ⟨a.values_mut (a.values.set k v), ?_, g1, rfl, rfl, ?_, by omega⟩
      · simp [List.wr, hk]
        rfl
      · simp only [CSC.contents]
        congr 1
        · exact hrep.write_rows v hk
        · rw [g4]
          simp [CSC.values_mut]
    · rw [if_neg hk]
      simp [List.wr, hk]
      rfl

/-- C91 (CSC). Any number of in-place calls, in any order: the matrix stays valid, keeps its shape and stores exactly what the
specification of the history says; a call panics exactly when the specification says so. -/
theorem C91_csc_history [Zero T] [Add T] (t : IntTy) (a : CSC T) (ha : a.WF t) (hn : (a.stored : Int) < t.hi) (calls : List (InPlace T)) :
    match calls.foldlM Contents.call a.contents with
    | some s => ∃ r, calls.foldlM (CSC.call t) a = .ok r ∧ r.WF t ∧ r.rows = a.rows ∧ r.cols = a.cols ∧ r.contents = s
    | none => calls.foldlM (CSC.call t) a = .error (.panic .oob) := by
  induction calls generalizing a with
  | nil => exact ⟨a, rfl, ha, rfl, rfl, rfl⟩
  | cons c calls ih =>
    have h := CSC.call_ok t a ha hn c
    simp only [List.foldlM_cons]
    cases hc : a.contents.call c with
    | none =>
      rw [hc] at h
      simp only at h ⊢
      rw [h]
      rfl
    | some s =>
      rw [hc] at h
      obtain ⟨r, h1, h2, h3, h4, rfl, h6⟩ := h
      have h := ih r h2 (by omega)
      rw [h1]
      simp only [Option.bind_eq_bind, Option.bind_some]
      change match List.foldlM Contents.call r.contents calls with
        | some s => ∃ r', List.foldlM (CSC.call t) r calls = .ok r' ∧ r'.WF t ∧ r'.rows = a.rows ∧ r'.cols = a.cols ∧ r'.contents = s
        | none => List.foldlM (CSC.call t) r calls = .error (.panic .oob)
      rw [← h3, ← h4]
      exact h

/-- calls other than writes: every slice is kept, sorted or added up, and one of the last once duplicates were summed -/
theorem Contents.calls_no_writes [Add T] (calls : List (InPlace T)) (hw : ∀ c ∈ calls, ∀ k v, c ≠ .write k v) (s : Contents T) :
    ∃ s', calls.foldlM Contents.call s = some s' ∧ s'.slices.map addUp = s.slices.map addUp ∧
      ((InPlace.merge ∈ calls ∨ ∀ r ∈ s.slices, StrictlyIncreasing r) → s'.slices = s.slices.map addUp) := by
  have hid : ∀ s : Contents T, (∀ r ∈ s.slices, StrictlyIncreasing r) → s.slices.map addUp = s.slices := fun s hs => by
    conv_rhs => rw [← List.map_id s.slices]
    refine List.map_congr_left fun r hr => ?_
    rw [addUp_eq, canonRow_of_sorted (hs r hr), id]
  have hadd : ∀ s : Contents T, ∀ r ∈ s.slices.map addUp, StrictlyIncreasing r := fun s r hr => by
    obtain ⟨q, -, rfl⟩ := List.mem_map.1 hr
    rw [addUp_eq]
    exact canonRow_sorted q
  induction calls generalizing s with
  | nil =>
    refine ⟨s, rfl, rfl, fun h => ?_⟩
    rcases h with h | h
    · simp at h
    · exact (hid s h).symm
  | cons c calls ih =>
    have ih := ih fun c hc => hw c (by simp [hc])
    cases c with
    | sort =>
      obtain ⟨s', h1, h2, h3⟩ := ih { s with slices := s.slices.map stableSort }
      have he : (s.slices.map stableSort).map addUp = s.slices.map addUp := by
        rw [List.map_map]
        refine List.map_congr_left fun r _ => ?_
        simp only [Function.comp, addUp_eq, stableSort_eq]
        unfold canonRow
        rw [sortRow_of_sorted (sortRow_sorted r)]
      refine ⟨s', h1, h2.trans he, fun h => ?_⟩
      rw [h3, he]
      rcases h with h | h
      · exact Or.inl (by simpa using h)
      · refine Or.inr fun r hr => ?_
        obtain ⟨q, hq, rfl⟩ := List.mem_map.1 hr
        rw [stableSort_eq, sortRow_of_sorted (SRow.wrow (h q hq))]
        exact h q hq
    | merge =>
      by_cases hs : ∀ r ∈ s.slices, StrictlyIncreasing r
      · obtain ⟨s', h1, h2, h3⟩ := ih s
        refine ⟨s', ?_, h2, fun _ => h3 (Or.inr hs)⟩
        simp only [List.foldlM_cons, Contents.call, if_pos hs]
        exact h1
      · obtain ⟨s', h1, h2, h3⟩ := ih ⟨s.slices.map addUp, 0⟩
        have he := hid ⟨s.slices.map addUp, 0⟩ (hadd s)
        refine ⟨s', ?_, h2.trans he, fun _ => (h3 (Or.inr (hadd s))).trans he⟩
        simp only [List.foldlM_cons, Contents.call, if_neg hs]
        exact h1
    | prune =>
      obtain ⟨s', h1, h2, h3⟩ := ih { s with unused := 0 }
      refine ⟨s', h1, h2, fun h => h3 ?_⟩
      rcases h with h | h
      · exact Or.inl (by simpa using h)
      · exact Or.inr h
    | write k v => exact absurd rfl (hw _ (by simp) k v)

/-- C91 (CSR). Calls other than writes, in any order and number, never panic and never change an entry; if duplicates were summed at least
once, what is stored is what a single `sum_duplicates` on the original would have left, so all such histories agree. -/
theorem C91_csr_no_writes [AddCommMonoid T] (t : IntTy) (a : CSR T) (ha : a.WF t) (hn : (a.stored : Int) < t.hi) (calls : List (InPlace T))
    (hw : ∀ c ∈ calls, ∀ k v, c ≠ .write k v) :
    ∃ r, calls.foldlM (CSR.call t) a = .ok r ∧ r.WF t ∧ r.rows = a.rows ∧ r.cols = a.cols ∧ (∀ i j, r.entry i j = a.entry i j) ∧
      (InPlace.merge ∈ calls → r.Canonical ∧ ∃ q, a.sum_duplicates t = .ok q ∧ ∀ i < a.rows, r.row i = q.row i) := by
  obtain ⟨s, h1, h2, h3⟩ := Contents.calls_no_writes calls hw a.contents
  have h := C91_csr_history t a ha hn calls
  rw [h1] at h
  obtain ⟨r, g1, g2, g3, g4, rfl⟩ := h
  have hrow : ∀ i < a.rows, addUp (r.row i) = addUp (a.row i) := fun i hi => by
    have := congrArg (fun l => l[i]?) h2
    simp only [CSR.contents, g3, List.getElem?_map, List.getElem?_range hi, Option.map_some] at this
    exact Option.some.inj this
  refine ⟨r, g1, g2, g3, g4, fun i j => ?_, fun hm => ?_⟩
  · by_cases hi : i < a.rows
    · have := hrow i hi
      rw [addUp_eq, addUp_eq] at this
      unfold CSR.entry
      rw [← rowSum_canonRow, this, rowSum_canonRow]
    · unfold CSR.entry
      rw [CSR.row, CSR.row, rowOf_out (by have := g2.rep.len; omega), rowOf_out (by have := ha.rep.len; omega)]
  · have h4 := h3 (Or.inl hm)
    have hrow : ∀ i < a.rows, r.row i = canonRow (a.row i) := fun i hi => by
      have := congrArg (fun l => l[i]?) h4
      simp only [CSR.contents, g3, List.getElem?_map, List.getElem?_range hi, Option.map_some] at this
      rw [Option.some.inj this, addUp_eq]
    obtain ⟨q, q0, q1, q2, q3, -⟩ := CSR.sum_duplicates_ok (t := t) ha.rep (by rw [← ha.stored_eq]; exact hn)
    refine ⟨fun i hi => ?_, q, q0, fun i hi => ?_⟩
    · rw [hrow i (by omega)]
      exact canonRow_sorted _
    · rw [hrow i hi, CSR.row_of_rep q3 hi]

/-- C91 (CSC). Calls other than writes, in any order and number, never panic and never change an entry; if duplicates were summed at least
once, what is stored is what a single `sum_duplicates` on the original would have left, so all such histories agree. -/
theorem C91_csc_no_writes [AddCommMonoid T] (t : IntTy) (a : CSC T) (ha : a.WF t) (hn : (a.stored : Int) < t.hi) (calls : List (InPlace T))
    (hw : ∀ c ∈ calls, ∀ k v, c ≠ .write k v) :
    ∃ r, calls.foldlM (CSC.call t) a = .ok r ∧ r.WF t ∧ r.rows = a.rows ∧ r.cols = a.cols ∧ (∀ i j, r.entry i j = a.entry i j) ∧
      (InPlace.merge ∈ calls → r.Canonical ∧ ∃ q, a.sum_duplicates t = .ok q ∧ ∀ i < a.cols, r.col i = q.col i) := by
  obtain ⟨s, h1, h2, h3⟩ := Contents.calls_no_writes calls hw a.contents
  have h := C91_csc_history t a ha hn calls
  rw [h1] at h
  obtain ⟨r, g1, g2, g4, g3, rfl⟩ := h
  have hrow : ∀ i < a.cols, addUp (r.col i) = addUp (a.col i) := fun i hi => by
    have := congrArg (fun l => l[i]?) h2
    simp only [CSC.contents, g3, List.getElem?_map, List.getElem?_range hi, Option.map_some] at this
    exact Option.some.inj this
  refine ⟨r, g1, g2, g4, g3, fun j i => ?_, fun hm => ?_⟩
  · by_cases hi : i < a.cols
    · have := hrow i hi
      rw [addUp_eq, addUp_eq] at this
      unfold CSC.entry
      rw [← rowSum_canonRow, this, rowSum_canonRow]
    · unfold CSC.entry
      rw [CSC.col, CSC.col, rowOf_out (by have := g2.rep.len; omega), rowOf_out (by have := ha.rep.len; omega)]
  · have h4 := h3 (Or.inl hm)
    have hrow : ∀ i < a.cols, r.col i = canonRow (a.col i) := fun i hi => by
      have := congrArg (fun l => l[i]?) h4
      simp only [CSC.contents, g3, List.getElem?_map, List.getElem?_range hi, Option.map_some] at this
      rw [Option.some.inj this, addUp_eq]
    obtain ⟨q, q0, q2, q1, q3, -⟩ := CSC.sum_duplicates_ok (t := t) ha.rep (by rw [← ha.stored_eq]; exact hn)
    refine ⟨fun i hi => ?_, q, q0, fun i hi => ?_⟩
    · rw [hrow i (by omega)]
      exact canonRow_sorted _
    · rw [hrow i hi, CSC.col_of_rep q3 hi]

/-- sorting, a write to the second of two duplicates, adding up (unused storage is lost), a write, a write out of range -/
example : exSatCsr.WF .u8 ∧ (exSatCsr.stored : Int) < IntTy.u8.hi ∧
    exSatCsr.contents.slices = [[(0, ⟨7⟩)], [(2, ⟨90⟩), (2, ⟨50⟩), (0, ⟨0⟩), (2, ⟨-50⟩)]] ∧
    (List.foldlM Contents.call exSatCsr.contents [.sort, .write 3 ⟨1⟩]).map (·.slices) =
      some [[(0, ⟨7⟩)], [(0, ⟨0⟩), (2, ⟨90⟩), (2, ⟨1⟩), (2, ⟨-50⟩)]] ∧
    (List.foldlM Contents.call exSatCsr.contents [.sort, .write 3 ⟨1⟩, .merge, .write 0 ⟨5⟩, .prune]).map (fun s => (s.slices, s.unused)) =
      some ([[(0, ⟨5⟩)], [(0, ⟨0⟩), (2, ⟨41⟩)]], 0) ∧
    (List.foldlM Contents.call exSatCsr.contents [.merge, .write 3 ⟨5⟩]).isNone = true ∧
    (List.foldlM Contents.call exSatCsr.contents [.write 3 ⟨5⟩, .merge]).isNone = false :=
  ⟨exSatCsr_wf, by decide +kernel, by decide +kernel, by decide +kernel, by decide +kernel, by decide +kernel, by decide +kernel⟩

/-- a history without writes: calls of every kind -/
example : ∀ c ∈ ([.sort, .prune, .merge, .sort] : List (InPlace Int)), ∀ k v, c ≠ .write k v := by simp

end
end Sparse

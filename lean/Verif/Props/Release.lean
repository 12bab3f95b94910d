import Verif.Lemmas.Release
import Verif.Props.Graph
/-!
C71 for the operations that change the format of a matrix: in a build without overflow checks they are right or panic.
-/
namespace Sparse

section
variable {T : Type}

theorem right_or_panics {m m' w : M α} {Q : α → Prop} (h1 : SamePanics m m') (h2 : SameOrOverflow m w) (h3 : ∃ r, w = .ok r ∧ Q r) :
    (∃ r, m' = .ok r ∧ Q r) ∨ Panics m' := by
  obtain ⟨r, rfl, hq⟩ := h3
  rcases h2 with rfl | rfl | rfl
  · rcases h1 with rfl | h1
    · exact .inl ⟨r, rfl, hq⟩
    · exact .inr h1.2
  · rcases h1 with rfl | h1
    · exact .inr ⟨_, rfl⟩
    · exact .inr h1.2
  · rcases h1 with rfl | h1
    · exact .inr ⟨_, rfl⟩
    · exact .inr h1.2

theorem Coo.to_csr_release [AddCommMonoid T] {t : IntTy} {a : Coo T} (ha : a.WF t) :
    (∃ r, a.to_csr t.unchecked = .ok r ∧ r.WF t ∧ r.rows = a.rows ∧ r.cols = a.cols ∧ r.Canonical ∧
        (∀ i j, r.entry i j = a.entry i j) ∧ r.stored ≤ a.values.length) ∨ Panics (a.to_csr t.unchecked) := by
  by_cases hn : (a.values.length : Int) ≤ t.hi
  · have hs := t.sub_extend (a.values.length + 1)
    obtain ⟨r, h1, h2, h3, h4, h5, h6, h7, -, -, -, h8⟩ := C01_coo_to_csr (t.extend (a.values.length + 1)) a (ha.widen hs)
      (by unfold IntTy.extend; dsimp only; omega)
    refine right_or_panics (Coo.to_csr_unchecked ha) (Coo_to_csr_wd (t' := t.extend (a.values.length + 1)) hs.idx a)
      ⟨r, h1, ?_, h3, h4, h5, h6, h8⟩
    refine h2.rep.wf (fun i hi e he => ?_) (by rw [h2.stored_eq] at h8; omega)
    have hb := h2.mem hi he
    obtain ⟨v, hv⟩ := (h7 _ _).1 ⟨e.2, CSR.mem_triples_iff.2 ⟨i, hi, rfl, he⟩⟩
    exact ⟨hb.1, hb.2.1, (Coo.triples_mem ha hv).2.2.2⟩
  · refine .inr ?_
    unfold Coo.to_csr
    exact panics_bind (coo_tocsr_too_many _ _ _ _ _ _ _ _ _ (by
      change t.hi < (a.values.length : Int)
      omega))

theorem Coo.to_csc_release [AddCommMonoid T] {t : IntTy} {a : Coo T} (ha : a.WF t) :
    (∃ r, a.to_csc t.unchecked = .ok r ∧ r.WF t ∧ r.rows = a.rows ∧ r.cols = a.cols ∧ r.Canonical ∧
        (∀ i j, r.entry i j = a.entry i j) ∧ r.stored ≤ a.values.length) ∨ Panics (a.to_csc t.unchecked) := by
  by_cases hn : (a.values.length : Int) ≤ t.hi
  · have hs := t.sub_extend (a.values.length + 1)
    obtain ⟨r, h1, h2, h3, h4, h5, h6, h7, -, -, -, h8⟩ := C02_coo_to_csc (t.extend (a.values.length + 1)) a (ha.widen hs)
      (by unfold IntTy.extend; dsimp only; omega)
    refine right_or_panics (Coo.to_csc_unchecked ha) (Coo_to_csc_wd (t' := t.extend (a.values.length + 1)) hs.idx a)
      ⟨r, h1, ?_, h3, h4, h5, h6, h8⟩
    refine h2.rep.wf (fun i hi e he => ?_) (by rw [h2.stored_eq] at h8; omega)
    have hb := h2.mem hi he
    obtain ⟨v, hv⟩ := (h7 _ _).1 ⟨e.2, CSC.mem_triples_iff.2 ⟨i, hi, rfl, he⟩⟩
    exact ⟨hb.1, hb.2.1, (Coo.triples_mem ha hv).1.2.2⟩
  · refine .inr ?_
    unfold Coo.to_csc
    exact panics_bind (coo_tocsr_too_many _ _ _ _ _ _ _ _ _ (by
      change t.hi < (a.values.length : Int)
      omega))

theorem CSR.sum_duplicates_release [AddCommMonoid T] {t : IntTy} {a : CSR T} (ha : a.WF t) :
    (∃ r, a.sum_duplicates t.unchecked = .ok r ∧ r.WF t ∧ r.rows = a.rows ∧ r.cols = a.cols ∧ r.Canonical ∧
        ∀ i j, r.entry i j = a.entry i j) ∨ Panics (a.sum_duplicates t.unchecked) := by
  have hs := t.sub_extend (a.stored + 1)
  obtain ⟨r, h1, h2, h3, h4, h5, h6, h7, -, -, -, h8⟩ := C07_csr_sum_duplicates (t.extend (a.stored + 1)) a (WFptr.widen ha hs)
    (by unfold IntTy.extend; dsimp only; omega)
  refine right_or_panics (CSR.sum_duplicates_unchecked ha) (CSR_sum_duplicates_wd (t' := t.extend (a.stored + 1)) hs.idx a)
    ⟨r, h1, ?_, h3, h4, h5, h6⟩
  have hf := ha.fits
  rw [← ha.stored_eq] at hf
  refine h2.rep.wf (fun i hi e he => ?_) (by rw [h2.stored_eq] at h8; omega)
  have hb := h2.mem hi he
  obtain ⟨v, hv⟩ := (h7 _ _).1 ⟨e.2, CSR.mem_triples_iff.2 ⟨i, hi, rfl, he⟩⟩
  obtain ⟨k, hk, -, hm⟩ := CSR.mem_triples_iff.1 hv
  exact ⟨hb.1, hb.2.1, (ha.mem hk hm).2.2⟩

theorem CSC.sum_duplicates_release [AddCommMonoid T] {t : IntTy} {a : CSC T} (ha : a.WF t) :
    (∃ r, a.sum_duplicates t.unchecked = .ok r ∧ r.WF t ∧ r.rows = a.rows ∧ r.cols = a.cols ∧ r.Canonical ∧
        ∀ i j, r.entry i j = a.entry i j) ∨ Panics (a.sum_duplicates t.unchecked) := by
  have hs := t.sub_extend (a.stored + 1)
  obtain ⟨r, h1, h2, h3, h4, h5, h6, h7, -, -, -, h8⟩ := C07_csc_sum_duplicates (t.extend (a.stored + 1)) a (WFptr.widen ha hs)
    (by unfold IntTy.extend; dsimp only; omega)
  refine right_or_panics (CSC.sum_duplicates_unchecked ha) (CSC_sum_duplicates_wd (t' := t.extend (a.stored + 1)) hs.idx a)
    ⟨r, h1, ?_, h3, h4, h5, h6⟩
  have hf := ha.fits
  rw [← ha.stored_eq] at hf
  refine h2.rep.wf (fun i hi e he => ?_) (by rw [h2.stored_eq] at h8; omega)
  have hb := h2.mem hi he
  obtain ⟨v, hv⟩ := (h7 _ _).1 ⟨e.2, CSC.mem_triples_iff.2 ⟨i, hi, rfl, he⟩⟩
  obtain ⟨k, hk, -, hm⟩ := CSC.mem_triples_iff.1 hv
  exact ⟨hb.1, hb.2.1, (ha.mem hk hm).2.2⟩

/-- **C71**, partial: `Coo::to_csr` and `Coo::to_csc` in a build without overflow checks. Whatever the number of triplets, the
result is the valid canonical matrix with the same entries, or the call panics. -/
theorem C71_coo_conversions_partial [AddCommMonoid T] (t : IntTy) (a : Coo T) (ha : a.WF t) :
    ((∃ r, a.to_csr t.unchecked = .ok r ∧ r.WF t ∧ r.rows = a.rows ∧ r.cols = a.cols ∧ r.Canonical ∧
        (∀ i j, r.entry i j = a.entry i j) ∧ r.stored ≤ a.values.length) ∨ Panics (a.to_csr t.unchecked)) ∧
    ((∃ r, a.to_csc t.unchecked = .ok r ∧ r.WF t ∧ r.rows = a.rows ∧ r.cols = a.cols ∧ r.Canonical ∧
        (∀ i j, r.entry i j = a.entry i j) ∧ r.stored ≤ a.values.length) ∨ Panics (a.to_csc t.unchecked)) :=
  ⟨Coo.to_csr_release ha, Coo.to_csc_release ha⟩

/-- both outcomes: 300 triplets do not fit `u8` -/
example :
    (let a : Coo Int := ⟨2, 2, [1, 0, 1], [0, 1, 0], [4, 5, 6]⟩
     a.WF .u8 ∧ ∃ r, a.to_csr IntTy.u8.unchecked = .ok r) ∧
    (let a : Coo Int := ⟨1, 1, List.replicate 300 0, List.replicate 300 0, List.replicate 300 1⟩
     a.WF .u8 ∧ Panics (a.to_csr IntTy.u8.unchecked)) := by
  refine ⟨⟨⟨rfl, rfl, by decide, by decide⟩, ?_⟩, ⟨by decide +kernel, by decide +kernel, by decide +kernel, by decide +kernel⟩, .unwrap, by decide +kernel⟩
  obtain ⟨r, hr, -⟩ := C01_coo_to_csr .u8 (⟨2, 2, [1, 0, 1], [0, 1, 0], [4, 5, 6]⟩ : Coo Int) ⟨rfl, rfl, by decide, by decide⟩
    (by decide)
  rcases Coo_to_csr_wd (t' := IntTy.u8.unchecked) (IntTy.Sub.refl IntTy.u8).idx (⟨2, 2, [1, 0, 1], [0, 1, 0], [4, 5, 6]⟩ : Coo Int)
    with h | h | h
  · exact ⟨r, h ▸ hr⟩
  · rw [hr] at h; cases h
  · rw [hr] at h; cases h

/-- **C71**, partial: `sum_duplicates` in a build without overflow checks, up to the largest number of entries: the canonical
matrix with the same entries, or a panic. -/
theorem C71_sum_duplicates_partial [AddCommMonoid T] (t : IntTy) :
    (∀ a : CSR T, a.WF t → (∃ r, a.sum_duplicates t.unchecked = .ok r ∧ r.WF t ∧ r.rows = a.rows ∧ r.cols = a.cols ∧
      r.Canonical ∧ ∀ i j, r.entry i j = a.entry i j) ∨ Panics (a.sum_duplicates t.unchecked)) ∧
    (∀ a : CSC T, a.WF t → (∃ r, a.sum_duplicates t.unchecked = .ok r ∧ r.WF t ∧ r.rows = a.rows ∧ r.cols = a.cols ∧
      r.Canonical ∧ ∀ i j, r.entry i j = a.entry i j) ∨ Panics (a.sum_duplicates t.unchecked)) :=
  ⟨fun _ ha => CSR.sum_duplicates_release ha, fun _ ha => CSC.sum_duplicates_release ha⟩

/-- C71, negation for products: in a build without overflow checks the product of a column of 16 ones and a row of 17 ones has
272 entries, which `u8` pointers cannot count. With overflow checks the call panics; without them it returns a matrix
whose last row is lost. -/
theorem C71_mat_mat_counterexample :
    let a : CSR Int := ⟨16, 1, (List.range 17).map (fun (i : Nat) => (i : Int)), List.replicate 16 0, List.replicate 16 1⟩
    let b : CSR Int := ⟨1, 17, [0, 17], (List.range 17).map (fun (i : Nat) => (i : Int)), List.replicate 17 1⟩
    a.WF .u8 ∧ b.WF .u8 ∧ a.mat_mat .u8 b = .error (.panic .arith) ∧
    ∃ r : CSR Int, a.mat_mat IntTy.u8.unchecked b = .ok r ∧ r.entry 14 0 = 1 ∧ r.entry 15 0 = 0 ∧
      ∑ k ∈ Finset.range 1, a.entry 15 k * b.entry k 0 = 1 := by
  refine ⟨CSR.wf_of (by decide +kernel), CSR.wf_of (by decide +kernel), by decide +kernel, ?_⟩
  obtain ⟨r, h1, h2⟩ := ok_of_map (m := CSR.mat_mat IntTy.u8.unchecked
    (⟨16, 1, (List.range 17).map (fun (i : Nat) => (i : Int)), List.replicate 16 0, List.replicate 16 1⟩ : CSR Int)
    ⟨1, 17, [0, 17], (List.range 17).map (fun (i : Nat) => (i : Int)), List.replicate 17 1⟩)
    (g := fun r : CSR Int => (r.entry 14 0, r.entry 15 0)) (c := (1, 0)) (by decide +kernel)
  rw [Prod.mk.injEq] at h2
  exact ⟨r, h1, h2.1, h2.2, by decide +kernel⟩

/-- C71, negation for `has_sorted_indexes`: with an unsigned index type and an empty first row, `rowptr[1] - 1` wraps around, and
entries of different rows are compared: the answer is `false` for a matrix with sorted rows. With overflow checks the call
panics (C10). -/
theorem C71_has_sorted_counterexample :
    let a : CSR Int := ⟨3, 2, [0, 0, 1, 2], [1, 0], [5, 6]⟩
    a.WF .u8 ∧ (∀ i < 3, (a.row i).Pairwise fun e f => e.1 ≤ f.1) ∧
    a.has_sorted_indexes .u8 = .error (.panic .arith) ∧ a.has_sorted_indexes IntTy.u8.unchecked = .ok false :=
  ⟨CSR.wf_of (by decide), by decide, by decide +kernel, by decide +kernel⟩

end
end Sparse

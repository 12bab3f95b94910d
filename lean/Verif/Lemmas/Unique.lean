import Verif.Lemmas.Exact
import Verif.Props.Convert
/-!
Arrays without unused storage and with sorted rows are determined by the values stored for each position; row
descriptions of the conversions from coordinate format without any law for the scalars.
-/
namespace Sparse

section
variable {T : Type}

/-- a sorted row is determined by its values per column -/
theorem WRow.ext {r s : List (Int × T)} (hr : WRow r) (hs : WRow s) (h : ∀ k, valuesIn r k = valuesIn s k) : r = s := by
  induction r generalizing s with
  | nil =>
    cases s with
    | nil => rfl
    | cons b s =>
      have := h b.1
      rw [valuesIn_cons, if_pos rfl, valuesIn_nil] at this
      simp at this
  | cons a r ih =>
    cases s with
    | nil =>
      have := h a.1
      rw [valuesIn_cons, if_pos rfl, valuesIn_nil] at this
      simp at this
    | cons b s =>
      have hra := List.pairwise_cons.1 hr
      have hsb := List.pairwise_cons.1 hs
      have hab : a.1 = b.1 := by
        by_contra hne
        rcases lt_or_gt_of_ne hne with hlt | hlt
        · have := h a.1
          rw [valuesIn_cons, if_pos rfl, valuesIn_eq_nil (r := b :: s)] at this
          · simp at this
          · intro e he hk
            rcases List.mem_cons.1 he with rfl | he
            · omega
            · have := hsb.1 e he; omega
        · have := h b.1
          rw [valuesIn_cons (r := s), if_pos rfl, valuesIn_eq_nil (r := a :: r)] at this
          · simp at this
          · intro e he hk
            rcases List.mem_cons.1 he with rfl | he
            · omega
            · have := hra.1 e he; omega
      have hv := h a.1
      rw [valuesIn_cons, if_pos rfl, valuesIn_cons, if_pos hab.symm] at hv
      have h2 : a.2 = b.2 := (List.cons.inj hv).1
      have hh : a = b := Prod.ext hab h2
      subst hh
      rw [ih hra.2 hsb.2 fun k => ?_]
      have := h k
      rw [valuesIn_cons, valuesIn_cons] at this
      split at this
      · exact (List.cons.inj this).2
      · exact this

theorem Coo.to_csr_rep [Zero T] [Add T] {t : IntTy} {a : Coo T} (ha : a.WF t) (hn : (a.values.length : Int) < t.hi) :
    ∃ r, a.to_csr t = .ok r ∧ r.rows = a.rows ∧ r.cols = a.cols ∧ r.WF t ∧
      Rep r.rowptr r.colidx r.values a.rows (fun i => canonRow (bucket a.items i)) ∧
      r.colidx.length = r.stored ∧ r.values.length = r.stored := by
  have hlen : a.items.length = a.values.length := by
    unfold Coo.items; rw [List.length_map, Coo.triples_length ha]
  have hall : ∀ e ∈ a.items, e.1 < a.rows := by
    intro e he
    unfold Coo.items at he
    rw [List.mem_map] at he
    obtain ⟨d, hd, rfl⟩ := he
    have := Coo.triples_mem ha hd
    simp only; omega
  have hcol : ∀ e ∈ a.items, 0 ≤ e.2.1 ∧ e.2.1 < a.cols ∧ e.2.1 ≤ t.hi := by
    intro e he
    unfold Coo.items at he
    rw [List.mem_map] at he
    obtain ⟨d, hd, rfl⟩ := he
    exact (Coo.triples_mem ha hd).2
  have hget : ∀ (k : Nat) e, a.items[k]? = some e →
      a.rowidx[k]? = some (e.1 : Int) ∧ a.colidx[k]? = some e.2.1 ∧ a.values[k]? = some e.2.2 := by
    intro k e he
    unfold Coo.items at he
    rw [List.getElem?_map] at he
    cases hh : a.triples[k]? with
    | none => rw [hh] at he; simp at he
    | some d =>
      rw [hh] at he
      simp at he
      subst he
      have h1 := Coo.triples_get hh
      have h2 := Coo.triples_mem ha (List.mem_of_getElem? hh)
      refine ⟨?_, h1.2.1, h1.2.2⟩
      rw [h1.1]; simp only; congr 1; omega
  suffices h : Ok (a.to_csr t) fun r => r.rows = a.rows ∧ r.cols = a.cols ∧ r.WF t ∧
      Rep r.rowptr r.colidx r.values a.rows (fun i => canonRow (bucket a.items i)) ∧
      r.colidx.length = r.stored ∧ r.values.length = r.stored by exact h
  unfold Coo.to_csr
  wp
  rw [show a.nnz = a.items.length from hlen.symm]
  refine (coo_tocsr_ok hget hall (by omega) (by simp) (by simp) (by simp)).mono ?_
  rintro ⟨p, j, x⟩ ⟨hr, hlj, hlx⟩
  simp only at hr hlj hlx ⊢
  rw [CSR.new_ok hr]
  wp
  have hfl := flat_bucket_length_eq hall
  refine (CSR.sum_duplicates_ok (a := ⟨a.rows, a.cols, p, j, x⟩) (t := t) hr ?_).mono ?_
  · simp only; rw [hfl, hlen]; exact hn
  rintro r ⟨h1, h2, h3, h4⟩
  simp only at h1 h2 h3 h4
  have hle : (flat (fun i => canonRow (bucket a.items i)) a.rows).length ≤ (flat (bucket a.items) a.rows).length :=
    flat_length_le fun i _ => canonRow_length _
  have h3' : Rep r.rowptr r.colidx r.values r.rows (fun i => canonRow (bucket a.items i)) := by rw [h1]; exact h3
  have hst := CSR.stored_of_rep h3'
  rw [h1] at hst
  refine ⟨h1, h2, ?_, h3, ?_⟩
  · rw [CSR.WF, h1, h2]
    refine h3.wf (fun i _ => canonRow_mem (P := fun c => 0 ≤ c ∧ c < (a.cols : Int) ∧ c ≤ t.hi) fun e he => hcol _ (mem_bucket.1 he)) ?_
    omega
  · rcases h4 with ⟨h4, hs⟩ | ⟨-, h4⟩
    · have e1 : (flat (fun i => canonRow (bucket a.items i)) a.rows).length = a.items.length := by
        rw [← hfl]
        exact flat_length_congr fun i hi => by rw [canonRow_of_sorted (hs i hi)]
      rw [hst, e1, h4]
      simp only
      rw [hlj, hlx]; simp
    · rw [hst]; exact h4

theorem Coo.to_csc_rep [Zero T] [Add T] {t : IntTy} {a : Coo T} (ha : a.WF t) (hn : (a.values.length : Int) < t.hi) :
    ∃ r, a.to_csc t = .ok r ∧ r.rows = a.rows ∧ r.cols = a.cols ∧ r.WF t ∧
      Rep r.colptr r.rowidx r.values a.cols (fun i => canonRow (bucket a.itemsT i)) ∧
      r.rowidx.length = r.stored ∧ r.values.length = r.stored := by
  have hlen : a.itemsT.length = a.values.length := by
    unfold Coo.itemsT; rw [List.length_map, Coo.triples_length ha]
  have hall : ∀ e ∈ a.itemsT, e.1 < a.cols := by
    intro e he
    unfold Coo.itemsT at he
    rw [List.mem_map] at he
    obtain ⟨d, hd, rfl⟩ := he
    have := Coo.triples_mem ha hd
    simp only; omega
  have hcol : ∀ e ∈ a.itemsT, 0 ≤ e.2.1 ∧ e.2.1 < a.rows ∧ e.2.1 ≤ t.hi := by
    intro e he
    unfold Coo.itemsT at he
    rw [List.mem_map] at he
    obtain ⟨d, hd, rfl⟩ := he
    exact (Coo.triples_mem ha hd).1
  have hget : ∀ (k : Nat) e, a.itemsT[k]? = some e →
      a.colidx[k]? = some (e.1 : Int) ∧ a.rowidx[k]? = some e.2.1 ∧ a.values[k]? = some e.2.2 := by
    intro k e he
    unfold Coo.itemsT at he
    rw [List.getElem?_map] at he
    cases hh : a.triples[k]? with
    | none => rw [hh] at he; simp at he
    | some d =>
      rw [hh] at he
      simp at he
      subst he
      have h1 := Coo.triples_get hh
      have h2 := Coo.triples_mem ha (List.mem_of_getElem? hh)
      refine ⟨?_, h1.1, h1.2.2⟩
      rw [h1.2.1]; simp only; congr 1; omega
  suffices h : Ok (a.to_csc t) fun r => r.rows = a.rows ∧ r.cols = a.cols ∧ r.WF t ∧
      Rep r.colptr r.rowidx r.values a.cols (fun i => canonRow (bucket a.itemsT i)) ∧
      r.rowidx.length = r.stored ∧ r.values.length = r.stored by exact h
  unfold Coo.to_csc
  wp
  rw [show a.nnz = a.itemsT.length from hlen.symm]
  refine (coo_tocsr_ok hget hall (by omega) (by simp) (by simp) (by simp)).mono ?_
  rintro ⟨p, j, x⟩ ⟨hr, hlj, hlx⟩
  simp only at hr hlj hlx ⊢
  rw [CSC.new_ok hr]
  wp
  have hfl := flat_bucket_length_eq hall
  refine (CSC.sum_duplicates_ok (a := ⟨a.rows, a.cols, j, p, x⟩) (t := t) hr ?_).mono ?_
  · simp only; rw [hfl, hlen]; exact hn
  rintro r ⟨h1, h2, h3, h4⟩
  simp only at h1 h2 h3 h4
  have hle : (flat (fun i => canonRow (bucket a.itemsT i)) a.cols).length ≤ (flat (bucket a.itemsT) a.cols).length :=
    flat_length_le fun i _ => canonRow_length _
  have h3' : Rep r.colptr r.rowidx r.values r.cols (fun i => canonRow (bucket a.itemsT i)) := by rw [h2]; exact h3
  have hst := CSC.stored_of_rep h3'
  rw [h2] at hst
  refine ⟨h1, h2, ?_, h3, ?_⟩
  · rw [CSC.WF, h1, h2]
    refine h3.wf (fun i _ => canonRow_mem (P := fun c => 0 ≤ c ∧ c < (a.rows : Int) ∧ c ≤ t.hi) fun e he => hcol _ (mem_bucket.1 he)) ?_
    omega
  · rcases h4 with ⟨h4, hs⟩ | ⟨-, h4⟩
    · have e1 : (flat (fun i => canonRow (bucket a.itemsT i)) a.cols).length = a.itemsT.length := by
        rw [← hfl]
        exact flat_length_congr fun i hi => by rw [canonRow_of_sorted (hs i hi)]
      rw [hst, e1, h4]
      simp only
      rw [hlj, hlx]; simp
    · rw [hst]; exact h4

theorem Coo.transpose_wf {t : IntTy} {a : Coo T} (ha : a.WF t) : a.transpose.WF t :=
  ⟨ha.lenc, ha.lenr, ha.col, ha.row⟩

theorem CSR.ext_of {t : IntTy} {a b : CSR T} (ha : a.WF t) (hb : b.WF t) (hr : a.rows = b.rows) (hc : a.cols = b.cols)
    (hsa : ∀ i < a.rows, (a.row i).Pairwise fun e f => e.1 ≤ f.1) (hsb : ∀ i < b.rows, (b.row i).Pairwise fun e f => e.1 ≤ f.1)
    (ha1 : a.colidx.length = a.stored) (ha2 : a.values.length = a.stored) (hb1 : b.colidx.length = b.stored)
    (hb2 : b.values.length = b.stored) (h : ∀ i j, a.valuesAt i j = b.valuesAt i j) : a = b := by
  have hrow : ∀ i < a.rows, a.row i = b.row i := by
    intro i hi
    refine WRow.ext (hsa i hi) (hsb i (by omega)) fun k => ?_
    by_cases hk : 0 ≤ k
    · have := h i k.toNat
      unfold CSR.valuesAt at this
      rwa [Int.toNat_of_nonneg hk] at this
    · rw [valuesIn_eq_nil fun e he hh => ?_, valuesIn_eq_nil fun e he hh => ?_]
      · have := (hb.mem (by omega) he).1; omega
      · have := (ha.mem hi he).1; omega
  have hra := ha.rep
  have hrb : Rep b.rowptr b.colidx b.values a.rows a.row := by
    rw [hr]
    exact hb.rep.congr fun i hi => (hrow i (by omega)).symm
  have sa := ha.stored_eq
  have sb : b.stored = (flat a.row a.rows).length := by
    rw [hb.stored_eq, ← hr]
    exact flat_length_congr fun i hi => by rw [hrow i hi]
  obtain ⟨e1, e2, e3⟩ := hra.ext hrb (by omega) (by omega) (by omega) (by omega)
  cases a; cases b
  simp only at *
  subst_vars
  rfl

theorem CSC.ext_of {t : IntTy} {a b : CSC T} (ha : a.WF t) (hb : b.WF t) (hr : a.rows = b.rows) (hc : a.cols = b.cols)
    (hsa : ∀ i < a.cols, (a.col i).Pairwise fun e f => e.1 ≤ f.1) (hsb : ∀ i < b.cols, (b.col i).Pairwise fun e f => e.1 ≤ f.1)
    (ha1 : a.rowidx.length = a.stored) (ha2 : a.values.length = a.stored) (hb1 : b.rowidx.length = b.stored)
    (hb2 : b.values.length = b.stored) (h : ∀ i j, a.valuesAt i j = b.valuesAt i j) : a = b := by
  have hrow : ∀ i < a.cols, a.col i = b.col i := by
    intro i hi
    refine WRow.ext (hsa i hi) (hsb i (by omega)) fun k => ?_
    by_cases hk : 0 ≤ k
    · have := h k.toNat i
      unfold CSC.valuesAt at this
      rwa [Int.toNat_of_nonneg hk] at this
    · rw [valuesIn_eq_nil fun e he hh => ?_, valuesIn_eq_nil fun e he hh => ?_]
      · have := (hb.mem (by omega) he).1; omega
      · have := (ha.mem hi he).1; omega
  have hra := ha.rep
  have hrb : Rep b.colptr b.rowidx b.values a.cols a.col := by
    rw [hc]
    exact hb.rep.congr fun i hi => (hrow i (by omega)).symm
  have sa := ha.stored_eq
  have sb : b.stored = (flat a.col a.cols).length := by
    rw [hb.stored_eq, ← hc]
    exact flat_length_congr fun i hi => by rw [hrow i hi]
  obtain ⟨e1, e2, e3⟩ := hra.ext hrb (by omega) (by omega) (by omega) (by omega)
  cases a; cases b
  simp only at *
  subst_vars
  rfl

theorem Coo.wf_of_triples {t : IntTy} {a : Coo T} (h1 : a.rowidx.length = a.values.length)
    (h2 : a.colidx.length = a.values.length)
    (h : ∀ e ∈ a.triples, (0 ≤ e.1 ∧ e.1 < a.rows ∧ e.1 ≤ t.hi) ∧ (0 ≤ e.2.1 ∧ e.2.1 < a.cols ∧ e.2.1 ≤ t.hi)) : a.WF t := by
  have hg : ∀ k (hk : k < a.values.length), (a.rowidx[k]'(by omega), a.colidx[k]'(by omega), a.values[k]) ∈ a.triples := by
    intro k hk
    have : a.triples[k]? = some (a.rowidx[k]'(by omega), a.colidx[k]'(by omega), a.values[k]) := by
      unfold Coo.triples
      rw [List.getElem?_eq_getElem (by simp; omega)]
      simp
    exact List.mem_of_getElem? this
  refine ⟨h1, h2, fun r hr => ?_, fun c hc => ?_⟩
  · obtain ⟨k, hk, rfl⟩ := List.mem_iff_getElem.1 hr
    exact (h _ (hg k (by omega))).1
  · obtain ⟨k, hk, rfl⟩ := List.mem_iff_getElem.1 hc
    exact (h _ (hg k (by omega))).2

end
end Sparse

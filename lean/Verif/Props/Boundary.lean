import Verif.Props.Convert
import Verif.Lemmas.CanonEdge
/-!
C01, C02, C07 for every valid matrix: what happens when the number of entries is the largest index value, or exceeds it.
-/
namespace Sparse

section
variable {T : Type}

theorem WP.ok_of {m : M α} {Q : α → Prop} {E : Fault → Prop} (h : WP m Q E) (hE : ∀ e, ¬ E e) : Ok m Q := by
  cases hm : m with
  | error e => rw [hm, WP_error] at h; exact (hE e h).elim
  | ok a => rw [hm, WP_ok] at h; exact ⟨a, rfl, h⟩

theorem CSR.sum_duplicates_edge [Zero T] [Add T] {t : IntTy} {a : CSR T} {R : Nat → List (Int × T)}
    (h : Rep a.rowptr a.colidx a.values a.rows R) (hfit : ((flat R a.rows).length : Int) ≤ t.hi)
    (he : ¬ ((∀ i < a.rows, SRow (R i)) ∧ ∃ i < a.rows, ((flat R i).length : Int) = t.hi)) :
    Ok (a.sum_duplicates t) fun r => r.rows = a.rows ∧ r.cols = a.cols ∧
      Rep r.rowptr r.colidx r.values a.rows (fun i => canonRow (R i)) ∧
      (r = a ∧ (∀ i < a.rows, SRow (R i)) ∨
       ((¬ ∀ i < a.rows, SRow (R i)) ∧ r.colidx.length = (flat (fun i => canonRow (R i)) a.rows).length ∧
        r.values.length = (flat (fun i => canonRow (R i)) a.rows).length)) := by
  unfold CSR.sum_duplicates CSR.has_canonical_format CSR.sort_indexes
  have hl := h.len
  wp
  refine ⟨by omega, ?_⟩
  rw [show a.rowptr.length - 1 = a.rows by omega]
  refine ((has_canonical_wp h hfit).ok_of fun e h => he h.2).mono ?_
  rintro b ⟨hb, -⟩
  rw [Ok_ite]
  constructor
  · intro hb1
    have hs := hb.1 hb1
    wp
    exact ⟨trivial, trivial, h.congr fun i hi => (canonRow_of_sorted (hs i hi)).symm, Or.inl ⟨trivial, hs⟩⟩
  · intro hb0
    wp
    refine ⟨by omega, ?_⟩
    rw [show a.rowptr.length - 1 = a.rows by omega]
    refine (sort_indices_ok h).mono ?_
    rintro ⟨j1, x1⟩ ⟨h1, h2, h3, -⟩
    simp only at h1 h2 h3 ⊢
    have hfl : (flat (fun i => sortRow (R i)) a.rows).length = (flat R a.rows).length :=
      flat_length_congr fun i _ => sortRow_length _
    refine (Sparse.sum_duplicates_ok h1 (t := t) (by omega)).mono ?_
    rintro ⟨p2, j2, x2⟩ ⟨g1, g2, g3⟩
    simp only at g1 g2 g3 ⊢
    refine (CSR.prune_ok (a := ⟨a.rows, a.cols, p2, j2, x2⟩) g1).mono ?_
    rintro r rfl
    refine ⟨rfl, rfl, g1.trim, Or.inr ⟨fun hs => hb0 (hb.2 hs), ?_, ?_⟩⟩
    · have := g1.len_j; simp only [List.length_take]; exact Nat.min_eq_left this
    · have := g1.len_x; simp only [List.length_take]; exact Nat.min_eq_left this

theorem CSC.sum_duplicates_edge [Zero T] [Add T] {t : IntTy} {a : CSC T} {R : Nat → List (Int × T)}
    (h : Rep a.colptr a.rowidx a.values a.cols R) (hfit : ((flat R a.cols).length : Int) ≤ t.hi)
    (he : ¬ ((∀ i < a.cols, SRow (R i)) ∧ ∃ i < a.cols, ((flat R i).length : Int) = t.hi)) :
    Ok (a.sum_duplicates t) fun r => r.rows = a.rows ∧ r.cols = a.cols ∧
      Rep r.colptr r.rowidx r.values a.cols (fun i => canonRow (R i)) ∧
      (r = a ∧ (∀ i < a.cols, SRow (R i)) ∨
       ((¬ ∀ i < a.cols, SRow (R i)) ∧ r.rowidx.length = (flat (fun i => canonRow (R i)) a.cols).length ∧
        r.values.length = (flat (fun i => canonRow (R i)) a.cols).length)) := by
  unfold CSC.sum_duplicates CSC.has_canonical_format CSC.sort_indexes
  have hl := h.len
  wp
  refine ⟨by omega, ?_⟩
  rw [show a.colptr.length - 1 = a.cols by omega]
  refine ((has_canonical_wp h hfit).ok_of fun e h => he h.2).mono ?_
  rintro b ⟨hb, -⟩
  rw [Ok_ite]
  constructor
  · intro hb1
    have hs := hb.1 hb1
    wp
    exact ⟨trivial, trivial, h.congr fun i hi => (canonRow_of_sorted (hs i hi)).symm, Or.inl ⟨trivial, hs⟩⟩
  · intro hb0
    wp
    refine ⟨by omega, ?_⟩
    rw [show a.colptr.length - 1 = a.cols by omega]
    refine (sort_indices_ok h).mono ?_
    rintro ⟨j1, x1⟩ ⟨h1, h2, h3, -⟩
    simp only at h1 h2 h3 ⊢
    have hfl : (flat (fun i => sortRow (R i)) a.cols).length = (flat R a.cols).length :=
      flat_length_congr fun i _ => sortRow_length _
    refine (Sparse.sum_duplicates_ok h1 (t := t) (by omega)).mono ?_
    rintro ⟨p2, j2, x2⟩ ⟨g1, g2, g3⟩
    simp only at g1 g2 g3 ⊢
    refine (CSC.prune_ok (a := ⟨a.rows, a.cols, j2, p2, x2⟩) g1).mono ?_
    rintro r rfl
    refine ⟨rfl, rfl, g1.trim, Or.inr ⟨fun hs => hb0 (hb.2 hs), ?_, ?_⟩⟩
    · have := g1.len_j; simp only [List.length_take]; exact Nat.min_eq_left this
    · have := g1.len_x; simp only [List.length_take]; exact Nat.min_eq_left this

theorem Coo.to_csr_edge [AddCommMonoid T] (t : IntTy) (a : Coo T) (ha : a.WF t)
    (hn : (a.values.length : Int) ≤ t.hi)
    (he : ¬ ((∀ i < a.rows, SRow (bucket a.items i)) ∧ ∃ i < a.rows, ((flat (bucket a.items) i).length : Int) = t.hi)) :
    ∃ r, a.to_csr t = .ok r ∧ r.WF t ∧ r.rows = a.rows ∧ r.cols = a.cols ∧ r.Canonical ∧
      (∀ i j, r.entry i j = a.entry i j) ∧
      (∀ i j, (∃ v, (i, j, v) ∈ r.triples) ↔ ∃ v, (i, j, v) ∈ a.triples) ∧
      r.rowptr.length = a.rows + 1 ∧ r.colidx.length = r.stored ∧ r.values.length = r.stored ∧
      r.stored ≤ a.values.length := by
  have hlen : a.items.length = a.values.length := by
    unfold Coo.items; rw [List.length_map, Coo.triples_length ha]
  have hall : ∀ e ∈ a.items, e.1 < a.rows := by
    intro e he
    unfold Coo.items at he
    rw [List.mem_map] at he
    obtain ⟨d, hd, rfl⟩ := he
    have := Coo.triples_mem ha hd
    simp only; omega
  have hcol : ∀ e ∈ a.items, 0 ≤ e.2.1 ∧ e.2.1 < (a.cols : Int) ∧ e.2.1 ≤ t.hi := by
    intro e he
    unfold Coo.items at he
    rw [List.mem_map] at he
    obtain ⟨d, hd, rfl⟩ := he
    exact (Coo.triples_mem ha hd).2
  have hget : ∀ (k : Nat) e, a.items[k]? = some e →
      a.rowidx[k]? = some (e.1 : Int) ∧ a.colidx[k]? = some e.2.1 ∧ a.values[k]? = some e.2.2 := by
    intro k e he
    unfold Coo.items at he
    rw [List.getElem?_map] at he
    cases hh : a.triples[k]? with
    | none => rw [hh] at he; simp at he
    | some d =>
      rw [hh] at he
      simp at he
      subst he
      have h1 := Coo.triples_get hh
      have h2 := Coo.triples_mem ha (List.mem_of_getElem? hh)
      refine ⟨?_, h1.2.1, h1.2.2⟩
      rw [h1.1]; simp only; congr 1; omega
  suffices h : Ok (a.to_csr t) fun r => r.WF t ∧ r.rows = a.rows ∧ r.cols = a.cols ∧ r.Canonical ∧
      (∀ i j, r.entry i j = a.entry i j) ∧
      (∀ i j, (∃ v, (i, j, v) ∈ r.triples) ↔ ∃ v, (i, j, v) ∈ a.triples) ∧
      r.rowptr.length = a.rows + 1 ∧ r.colidx.length = r.stored ∧ r.values.length = r.stored ∧
      r.stored ≤ a.values.length by
    exact h
  unfold Coo.to_csr
  wp
  rw [show a.nnz = a.items.length from hlen.symm]
  refine (coo_tocsr_ok hget hall (by omega) (by simp) (by simp) (by simp)).mono ?_
  rintro ⟨p, j, x⟩ ⟨hr, hlj, hlx⟩
  simp only at hr hlj hlx ⊢
  rw [CSR.new_ok hr]
  wp
  have hfl := flat_bucket_length_eq hall
  refine (CSR.sum_duplicates_edge (a := ⟨a.rows, a.cols, p, j, x⟩) (t := t) hr ?_ he).mono ?_
  · simp only; rw [hfl, hlen]; exact hn
  rintro r ⟨h1, h2, h3, h4⟩
  simp only at h1 h2 h3 h4
  have hle : (flat (fun i => canonRow (bucket a.items i)) a.rows).length ≤ (flat (bucket a.items) a.rows).length :=
    flat_length_le fun i _ => canonRow_length _
  have h3' : Rep r.rowptr r.colidx r.values r.rows (fun i => canonRow (bucket a.items i)) := by rw [h1]; exact h3
  have hst := CSR.stored_of_rep h3'
  rw [h1] at hst
  refine ⟨?_, h1, h2, ?_, ?_, ?_, h3.len, ?_⟩
  · rw [CSR.WF, h1, h2]
    refine h3.wf (fun i _ => canonRow_mem (P := fun c => 0 ≤ c ∧ c < (a.cols : Int) ∧ c ≤ t.hi) fun e he => hcol _ (mem_bucket.1 he)) ?_
    omega
  · intro i hi
    rw [CSR.row_of_rep h3' hi]
    exact canonRow_sorted _
  · intro i j
    rw [CSR.entry_of_rep h3]
    split
    · rw [rowSum_canonRow, Coo.rowSum_items ha]
    · rw [Coo.entry_out ha (by omega)]
  · intro i j
    rw [CSR.triples_of_rep h3', tag_mem, h1]
    constructor
    · rintro ⟨k, hk, rfl, hke⟩
      obtain ⟨e, he, rfl⟩ := (canonRow_key _ _).1 hke
      rw [mem_bucket] at he
      unfold Coo.items at he
      rw [List.mem_map] at he
      obtain ⟨d, hd, hde⟩ := he
      have := Coo.triples_mem ha hd
      simp only [Prod.mk.injEq] at hde
      refine ⟨d.2.2, ?_⟩
      have e1 : ((k : Int), e.1, d.2.2) = d := by
        rw [← hde.2, ← hde.1]
        ext <;> simp; omega
      rw [e1]; exact hd
    · rintro ⟨v, hv⟩
      have := Coo.triples_mem ha hv
      simp only at this
      refine ⟨i.toNat, by omega, by omega, (canonRow_key _ _).2 ⟨(j, v), ?_, rfl⟩⟩
      rw [mem_bucket]
      unfold Coo.items
      rw [List.mem_map]
      exact ⟨(i, j, v), hv, rfl⟩
  · have hsl : r.stored ≤ a.values.length := by rw [hst]; omega
    rw [← and_assoc]
    refine ⟨?_, hsl⟩
    rcases h4 with ⟨h4, hs⟩ | ⟨-, h4⟩
    · have e1 : (flat (fun i => canonRow (bucket a.items i)) a.rows).length = a.items.length := by
        rw [← hfl]
        exact flat_length_congr fun i hi => by rw [canonRow_of_sorted (hs i hi)]
      rw [hst, e1, h4]
      simp only
      rw [hlj, hlx]; simp
    · rw [hst]; exact h4

theorem Coo.to_csc_edge [AddCommMonoid T] (t : IntTy) (a : Coo T) (ha : a.WF t)
    (hn : (a.values.length : Int) ≤ t.hi)
    (he : ¬ ((∀ i < a.cols, SRow (bucket a.itemsT i)) ∧ ∃ i < a.cols, ((flat (bucket a.itemsT) i).length : Int) = t.hi)) :
    ∃ r, a.to_csc t = .ok r ∧ r.WF t ∧ r.rows = a.rows ∧ r.cols = a.cols ∧ r.Canonical ∧
      (∀ i j, r.entry i j = a.entry i j) ∧
      (∀ i j, (∃ v, (i, j, v) ∈ r.triples) ↔ ∃ v, (i, j, v) ∈ a.triples) ∧
      r.colptr.length = a.cols + 1 ∧ r.rowidx.length = r.stored ∧ r.values.length = r.stored ∧
      r.stored ≤ a.values.length := by
  have hlen : a.itemsT.length = a.values.length := by
    unfold Coo.itemsT; rw [List.length_map, Coo.triples_length ha]
  have hall : ∀ e ∈ a.itemsT, e.1 < a.cols := by
    intro e he
    unfold Coo.itemsT at he
    rw [List.mem_map] at he
    obtain ⟨d, hd, rfl⟩ := he
    have := Coo.triples_mem ha hd
    simp only; omega
  have hcol : ∀ e ∈ a.itemsT, 0 ≤ e.2.1 ∧ e.2.1 < (a.rows : Int) ∧ e.2.1 ≤ t.hi := by
    intro e he
    unfold Coo.itemsT at he
    rw [List.mem_map] at he
    obtain ⟨d, hd, rfl⟩ := he
    exact (Coo.triples_mem ha hd).1
  have hget : ∀ (k : Nat) e, a.itemsT[k]? = some e →
      a.colidx[k]? = some (e.1 : Int) ∧ a.rowidx[k]? = some e.2.1 ∧ a.values[k]? = some e.2.2 := by
    intro k e he
    unfold Coo.itemsT at he
    rw [List.getElem?_map] at he
    cases hh : a.triples[k]? with
    | none => rw [hh] at he; simp at he
    | some d =>
      rw [hh] at he
      simp at he
      subst he
      have h1 := Coo.triples_get hh
      have h2 := Coo.triples_mem ha (List.mem_of_getElem? hh)
      refine ⟨?_, h1.1, h1.2.2⟩
      rw [h1.2.1]; simp only; congr 1; omega
  suffices h : Ok (a.to_csc t) fun r => r.WF t ∧ r.rows = a.rows ∧ r.cols = a.cols ∧ r.Canonical ∧
      (∀ i j, r.entry i j = a.entry i j) ∧
      (∀ i j, (∃ v, (i, j, v) ∈ r.triples) ↔ ∃ v, (i, j, v) ∈ a.triples) ∧
      r.colptr.length = a.cols + 1 ∧ r.rowidx.length = r.stored ∧ r.values.length = r.stored ∧
      r.stored ≤ a.values.length by
    exact h
  unfold Coo.to_csc
  wp
  rw [show a.nnz = a.itemsT.length from hlen.symm]
  refine (coo_tocsr_ok hget hall (by omega) (by simp) (by simp) (by simp)).mono ?_
  rintro ⟨p, j, x⟩ ⟨hr, hlj, hlx⟩
  simp only at hr hlj hlx ⊢
  rw [CSC.new_ok hr]
  wp
  have hfl := flat_bucket_length_eq hall
  refine (CSC.sum_duplicates_edge (a := ⟨a.rows, a.cols, j, p, x⟩) (t := t) hr ?_ he).mono ?_
  · simp only; rw [hfl, hlen]; exact hn
  rintro r ⟨h1, h2, h3, h4⟩
  simp only at h1 h2 h3 h4
  have hle : (flat (fun i => canonRow (bucket a.itemsT i)) a.cols).length ≤ (flat (bucket a.itemsT) a.cols).length :=
    flat_length_le fun i _ => canonRow_length _
  have h3' : Rep r.colptr r.rowidx r.values r.cols (fun i => canonRow (bucket a.itemsT i)) := by rw [h2]; exact h3
  have hst := CSC.stored_of_rep h3'
  rw [h2] at hst
  refine ⟨?_, h1, h2, ?_, ?_, ?_, h3.len, ?_⟩
  · rw [CSC.WF, h1, h2]
    refine h3.wf (fun i _ => canonRow_mem (P := fun c => 0 ≤ c ∧ c < (a.rows : Int) ∧ c ≤ t.hi) fun e he => hcol _ (mem_bucket.1 he)) ?_
    omega
  · intro i hi
    rw [CSC.col_of_rep h3' hi]
    exact canonRow_sorted _
  · intro i j
    rw [CSC.entry_of_rep h3]
    split
    · rw [rowSum_canonRow, Coo.rowSum_itemsT ha]
    · rw [Coo.entry_out ha (by omega)]
  · intro i j
    rw [CSC.triples_of_rep h3', tag_memT, h2]
    constructor
    · rintro ⟨k, hk, rfl, hke⟩
      obtain ⟨e, he, rfl⟩ := (canonRow_key _ _).1 hke
      rw [mem_bucket] at he
      unfold Coo.itemsT at he
      rw [List.mem_map] at he
      obtain ⟨d, hd, hde⟩ := he
      have := Coo.triples_mem ha hd
      simp only [Prod.mk.injEq] at hde
      refine ⟨d.2.2, ?_⟩
      have e1 : (e.1, (k : Int), d.2.2) = d := by
        rw [← hde.2, ← hde.1]
        ext <;> simp; omega
      rw [e1]; exact hd
    · rintro ⟨v, hv⟩
      have := Coo.triples_mem ha hv
      simp only at this
      refine ⟨j.toNat, by omega, by omega, (canonRow_key _ _).2 ⟨(i, v), ?_, rfl⟩⟩
      rw [mem_bucket]
      unfold Coo.itemsT
      rw [List.mem_map]
      exact ⟨(i, j, v), hv, rfl⟩
  · have hsl : r.stored ≤ a.values.length := by rw [hst]; omega
    rw [← and_assoc]
    refine ⟨?_, hsl⟩
    rcases h4 with ⟨h4, hs⟩ | ⟨-, h4⟩
    · have e1 : (flat (fun i => canonRow (bucket a.itemsT i)) a.cols).length = a.itemsT.length := by
        rw [← hfl]
        exact flat_length_congr fun i hi => by rw [canonRow_of_sorted (hs i hi)]
      rw [hst, e1, h4]
      simp only
      rw [hlj, hlx]; simp
    · rw [hst]; exact h4

theorem CSR.sum_duplicates_facts [AddCommMonoid T] (t : IntTy) (a : CSR T) (ha : a.WF t)
    (he : ¬ (a.Canonical ∧ ∃ i < a.rows, a.rowptr[i]? = some t.hi)) :
    ∃ r, a.sum_duplicates t = .ok r ∧ r.WF t ∧ r.rows = a.rows ∧ r.cols = a.cols ∧ r.Canonical ∧
      (∀ i j, r.entry i j = a.entry i j) ∧
      (∀ i j, (∃ v, (i, j, v) ∈ r.triples) ↔ ∃ v, (i, j, v) ∈ a.triples) ∧
      (a.Canonical → r = a) ∧
      (¬ a.Canonical → r.colidx.length = r.stored ∧ r.values.length = r.stored) ∧
      r.stored ≤ a.stored := by
  have main : ∀ (a : CSR T) (ha : a.WF t) (he : ¬ (a.Canonical ∧ ∃ i < a.rows, a.rowptr[i]? = some t.hi)),
      Ok (a.sum_duplicates t) fun r => r.WF t ∧ r.rows = a.rows ∧ r.cols = a.cols ∧ r.Canonical ∧
      (∀ i j, r.entry i j = a.entry i j) ∧
      (∀ i j, (∃ v, (i, j, v) ∈ r.triples) ↔ ∃ v, (i, j, v) ∈ a.triples) ∧
      (a.Canonical → r = a) ∧
      (¬ a.Canonical → r.colidx.length = r.stored ∧ r.values.length = r.stored) ∧
      (flat r.row r.rows).length ≤ (flat a.row a.rows).length := by
    intro a ha he
    have hn := CSR.WF.fits ha
    refine (CSR.sum_duplicates_edge ha.rep hn (by
      rintro ⟨h1, i, hi, h2⟩
      refine he ⟨h1, i, hi, ?_⟩
      rw [ha.rep.ptr i (by omega), h2])).mono ?_
    rintro r ⟨h1, h2, h3, h4⟩
    have h3' : Rep r.rowptr r.colidx r.values r.rows (fun i => canonRow (a.row i)) := by rw [h1]; exact h3
    have hle : (flat (fun i => canonRow (a.row i)) a.rows).length ≤ (flat a.row a.rows).length :=
      flat_length_le fun i _ => canonRow_length _
    have hst := CSR.stored_of_rep h3'
    rw [h1] at hst
    refine ⟨?_, h1, h2, ?_, ?_, ?_, ?_, ?_, ?_⟩
    · rw [CSR.WF, h1, h2]
      exact h3.wf (fun i hi => canonRow_mem (P := fun c => 0 ≤ c ∧ c < a.cols ∧ c ≤ t.hi)
        fun e he => ha.mem hi he) (by omega)
    · intro i hi
      rw [CSR.row_of_rep h3' hi]
      exact canonRow_sorted _
    · intro i j
      rw [CSR.entry_of_rep h3, CSR.entry_of_rep ha.rep, rowSum_canonRow]
    · intro i j
      rw [CSR.triples_of_rep h3', CSR.triples_of_rep ha.rep, tag_mem, tag_mem, h1]
      simp only [canonRow_key]
    · intro hc
      rcases h4 with ⟨h4, -⟩ | ⟨h4, -⟩
      · exact h4
      · exact absurd hc h4
    · intro hc
      rcases h4 with ⟨-, h4⟩ | ⟨-, h4⟩
      · exact absurd h4 hc
      · rw [hst]; exact h4
    · rw [h1, flat_congr (S := fun i => canonRow (a.row i)) fun i hi => CSR.row_of_rep h3 hi]
      exact hle
  obtain ⟨r, hr, h1, h2, h3, h4, h5, h6, h7, h8, h9⟩ := main a ha he
  exact ⟨r, hr, h1, h2, h3, h4, h5, h6, h7, h8, by rw [h1.stored_eq, ha.stored_eq]; exact h9⟩

theorem CSC.sum_duplicates_facts [AddCommMonoid T] (t : IntTy) (a : CSC T) (ha : a.WF t)
    (he : ¬ (a.Canonical ∧ ∃ i < a.cols, a.colptr[i]? = some t.hi)) :
    ∃ r, a.sum_duplicates t = .ok r ∧ r.WF t ∧ r.rows = a.rows ∧ r.cols = a.cols ∧ r.Canonical ∧
      (∀ i j, r.entry i j = a.entry i j) ∧
      (∀ i j, (∃ v, (i, j, v) ∈ r.triples) ↔ ∃ v, (i, j, v) ∈ a.triples) ∧
      (a.Canonical → r = a) ∧
      (¬ a.Canonical → r.rowidx.length = r.stored ∧ r.values.length = r.stored) ∧
      r.stored ≤ a.stored := by
  have main : ∀ (a : CSC T) (ha : a.WF t) (he : ¬ (a.Canonical ∧ ∃ i < a.cols, a.colptr[i]? = some t.hi)),
      Ok (a.sum_duplicates t) fun r => r.WF t ∧ r.rows = a.rows ∧ r.cols = a.cols ∧ r.Canonical ∧
      (∀ i j, r.entry i j = a.entry i j) ∧
      (∀ i j, (∃ v, (i, j, v) ∈ r.triples) ↔ ∃ v, (i, j, v) ∈ a.triples) ∧
      (a.Canonical → r = a) ∧
      (¬ a.Canonical → r.rowidx.length = r.stored ∧ r.values.length = r.stored) ∧
      (flat r.col r.cols).length ≤ (flat a.col a.cols).length := by
    intro a ha he
    have hn := CSC.WF.fits ha
    refine (CSC.sum_duplicates_edge ha.rep hn (by
      rintro ⟨h1, i, hi, h2⟩
      refine he ⟨h1, i, hi, ?_⟩
      rw [ha.rep.ptr i (by omega), h2])).mono ?_
    rintro r ⟨h1, h2, h3, h4⟩
    have h3' : Rep r.colptr r.rowidx r.values r.cols (fun i => canonRow (a.col i)) := by rw [h2]; exact h3
    have hle : (flat (fun i => canonRow (a.col i)) a.cols).length ≤ (flat a.col a.cols).length :=
      flat_length_le fun i _ => canonRow_length _
    have hst := CSC.stored_of_rep h3'
    rw [h2] at hst
    refine ⟨?_, h1, h2, ?_, ?_, ?_, ?_, ?_, ?_⟩
    · rw [CSC.WF, h1, h2]
      exact h3.wf (fun i hi => canonRow_mem (P := fun c => 0 ≤ c ∧ c < a.rows ∧ c ≤ t.hi)
        fun e he => ha.mem hi he) (by omega)
    · intro i hi
      rw [CSC.col_of_rep h3' hi]
      exact canonRow_sorted _
    · intro i j
      rw [CSC.entry_of_rep h3, CSC.entry_of_rep ha.rep, rowSum_canonRow]
    · intro i j
      rw [CSC.triples_of_rep h3', CSC.triples_of_rep ha.rep, tag_memT, tag_memT, h2]
      simp only [canonRow_key]
    · intro hc
      rcases h4 with ⟨h4, -⟩ | ⟨h4, -⟩
      · exact h4
      · exact absurd hc h4
    · intro hc
      rcases h4 with ⟨-, h4⟩ | ⟨-, h4⟩
      · exact absurd h4 hc
      · rw [hst]; exact h4
    · rw [h2, flat_congr (S := fun i => canonRow (a.col i)) fun i hi => CSC.col_of_rep h3 hi]
      exact hle
  obtain ⟨r, hr, h1, h2, h3, h4, h5, h6, h7, h8, h9⟩ := main a ha he
  exact ⟨r, hr, h1, h2, h3, h4, h5, h6, h7, h8, by rw [h1.stored_eq, ha.stored_eq]; exact h9⟩

/-- of two entries in the same row, the later one has the larger column -/
def Coo.RowsIncrease (a : Coo T) : Prop := a.triples.Pairwise fun e f => e.1 = f.1 → e.2.1 < f.2.1

/-- of two entries in the same column, the later one has the larger row -/
def Coo.ColsIncrease (a : Coo T) : Prop := a.triples.Pairwise fun e f => e.2.1 = f.2.1 → e.1 < f.1

theorem bucket_sorted {E : List (Nat × (Int × T))} {n : Nat} (h : ∀ e ∈ E, e.1 < n) :
    (∀ i < n, SRow (bucket E i)) ↔ E.Pairwise fun e f => e.1 = f.1 → e.2.1 < f.2.1 := by
  unfold SRow bucket
  simp only [List.pairwise_map, List.pairwise_filter, decide_eq_true_eq]
  constructor
  · intro hs
    rw [List.pairwise_iff_getElem]
    intro i j hi hj hij he
    have := List.pairwise_iff_getElem.1 (hs E[i].1 (h _ (List.getElem_mem hi))) i j hi hj hij
    exact this rfl he.symm
  · intro hs i hi
    refine hs.imp ?_
    intro e f h1 h2 h3
    exact h1 (h2.trans h3.symm)

theorem Coo.rowsIncrease_iff {t : IntTy} {a : Coo T} (ha : a.WF t) :
    (∀ i < a.rows, SRow (bucket a.items i)) ↔ a.RowsIncrease := by
  rw [bucket_sorted]
  · unfold Coo.items Coo.RowsIncrease
    rw [List.pairwise_map]
    constructor
    · intro h
      refine h.imp_of_mem ?_
      intro e f he hf h1 h2
      exact h1 (by rw [h2])
    · intro h
      refine h.imp_of_mem ?_
      intro e f he hf h1 h2
      have := Coo.triples_mem ha he
      have := Coo.triples_mem ha hf
      exact h1 (by omega)
  · intro e he
    obtain ⟨d, hd, rfl⟩ := List.mem_map.1 he
    have := Coo.triples_mem ha hd
    simp only; omega

theorem Coo.colsIncrease_iff {t : IntTy} {a : Coo T} (ha : a.WF t) :
    (∀ i < a.cols, SRow (bucket a.itemsT i)) ↔ a.ColsIncrease := by
  rw [bucket_sorted]
  · unfold Coo.itemsT Coo.ColsIncrease
    rw [List.pairwise_map]
    constructor
    · intro h
      refine h.imp_of_mem ?_
      intro e f he hf h1 h2
      exact h1 (by simp only; rw [h2])
    · intro h
      refine h.imp_of_mem ?_
      intro e f he hf h1 h2
      have := Coo.triples_mem ha he
      have := Coo.triples_mem ha hf
      simp only at h2
      exact h1 (by omega)
  · intro e he
    obtain ⟨d, hd, rfl⟩ := List.mem_map.1 he
    have := Coo.triples_mem ha hd
    simp only; omega

theorem flat_bucket_full {E : List (Nat × (Int × T))} {n : Nat} {c : Int} (hn : (E.length : Int) ≤ c) (hc : 0 < c) (h : ∀ e ∈ E, e.1 < n) :
    (∃ i < n, ((flat (bucket E) i).length : Int) = c) ↔ (E.length : Int) = c ∧ ∀ e ∈ E, e.1 + 1 < n := by
  constructor
  · rintro ⟨i, hi, he⟩
    have h1 := flat_bucket_length_le E i
    have h2 : (flat (bucket E) i).length = E.length := by omega
    rw [flat_bucket_length, List.countP_eq_length] at h2
    refine ⟨by omega, fun e he => ?_⟩
    have := h2 e he
    simp at this
    omega
  · rintro ⟨h1, h2⟩
    have hne : E ≠ [] := by rintro rfl; simp at h1; omega
    obtain ⟨e, he⟩ := List.exists_mem_of_ne_nil _ hne
    have := h2 e he
    refine ⟨n - 1, by omega, ?_⟩
    rw [flat_bucket_length_eq]
    · exact h1
    · intro e he
      have := h2 e he
      omega

/-- too many entries: `coo_tocsr` panics -/
theorem coo_tocsr_overfull {t : IntTy} {n nnz : Nat} {ai aj : List Int} {ax : List T} {bp bj : List Int} {bx : List T}
    (h : t.hi < (nnz : Int)) : ∃ q, coo_tocsr t n nnz ai aj ax bp bj bx = .error (.panic q) := by
  have hw : WP (coo_tocsr t n nnz ai aj ax bp bj bx) (fun _ => False) (fun e => ∃ q, e = .panic q) := by
    have h1 : ∀ b : List Int, WP (count_loop t nnz ai b) (fun _ => True) (fun e => ∃ q, e = .panic q) := by
      intro b
      unfold count_loop
      wpe
      refine WP_forRange (fun _ _ => True) (fun _ => True) (Nat.zero_le _) trivial ?_ (fun _ _ => trivial) (fun _ _ => trivial)
      intro i s _ _ _
      wpe
      simp
    have h2 : ∀ b : List Int, WP (cumsum_loop t n b) (fun _ => True) (fun e => ∃ q, e = .panic q) := by
      intro b
      unfold cumsum_loop
      wpe
      refine WP_forRange (fun _ _ => True) (fun _ => True) (Nat.zero_le _) trivial ?_ (fun _ _ => trivial) (fun _ _ => trivial)
      intro i s _ _ _
      wpe
      simp
    unfold coo_tocsr
    simp only [WP_bind]
    refine (h1 _).mono (fun b _ => ?_) (fun _ h => h)
    refine (h2 _).mono (fun b _ => ?_) (fun _ h => h)
    wpe
    refine ⟨fun h0 => ?_, fun _ => ⟨_, rfl⟩⟩
    omega
  obtain ⟨e, h1, q, rfl⟩ := hw.fails
  exact ⟨q, h1⟩

/-- C07: what `CSR::sum_duplicates` does with every valid matrix: it panics on matrices in canonical format that hold as many
entries as the largest index value and have a row without entries at the end, and canonicalises all others. -/
theorem C07_csr_exact [AddCommMonoid T] (t : IntTy) (a : CSR T) (ha : a.WF t) :
    (a.Canonical → (∃ i < a.rows, a.rowptr[i]? = some t.hi) → a.sum_duplicates t = .error (.panic .arith)) ∧
    (¬ (a.Canonical ∧ ∃ i < a.rows, a.rowptr[i]? = some t.hi) →
    ∃ r, a.sum_duplicates t = .ok r ∧ r.WF t ∧ r.rows = a.rows ∧ r.cols = a.cols ∧ r.Canonical ∧
      (∀ i j, r.entry i j = a.entry i j) ∧
      (∀ i j, (∃ v, (i, j, v) ∈ r.triples) ↔ ∃ v, (i, j, v) ∈ a.triples) ∧
      (a.Canonical → r = a) ∧
      (¬ a.Canonical → r.colidx.length = r.stored ∧ r.values.length = r.stored) ∧ r.stored ≤ a.stored) := by
  refine ⟨fun h1 h2 => ?_, CSR.sum_duplicates_facts t a ha⟩
  unfold CSR.sum_duplicates
  rw [(C09_csr_has_canonical_boundary t a ha h2).1 h1]
  rfl

/-- C07: as `C07_csr_exact`, for `CSC::sum_duplicates`. -/
theorem C07_csc_exact [AddCommMonoid T] (t : IntTy) (a : CSC T) (ha : a.WF t) :
    (a.Canonical → (∃ i < a.cols, a.colptr[i]? = some t.hi) → a.sum_duplicates t = .error (.panic .arith)) ∧
    (¬ (a.Canonical ∧ ∃ i < a.cols, a.colptr[i]? = some t.hi) →
    ∃ r, a.sum_duplicates t = .ok r ∧ r.WF t ∧ r.rows = a.rows ∧ r.cols = a.cols ∧ r.Canonical ∧
      (∀ i j, r.entry i j = a.entry i j) ∧
      (∀ i j, (∃ v, (i, j, v) ∈ r.triples) ↔ ∃ v, (i, j, v) ∈ a.triples) ∧
      (a.Canonical → r = a) ∧
      (¬ a.Canonical → r.rowidx.length = r.stored ∧ r.values.length = r.stored) ∧ r.stored ≤ a.stored) := by
  refine ⟨fun h1 h2 => ?_, CSC.sum_duplicates_facts t a ha⟩
  unfold CSC.sum_duplicates
  rw [(C09_csc_has_canonical_boundary t a ha h2).1 h1]
  rfl

/-- C01: what `to_csr` does with every valid coordinate matrix. With more entries than the largest index value it panics; with
exactly as many it panics if the entries are in order already and the last row is empty; in all other cases it converts. -/
theorem C01_coo_to_csr_exact [AddCommMonoid T] (t : IntTy) (a : Coo T) (ha : a.WF t) :
    (t.hi < (a.values.length : Int) → ∃ q, a.to_csr t = .error (.panic q)) ∧
    ((a.values.length : Int) = t.hi → a.RowsIncrease → (∀ e ∈ a.triples, e.1 + 1 < (a.rows : Int)) →
      a.to_csr t = .error (.panic .arith)) ∧
    ((a.values.length : Int) ≤ t.hi →
      ¬ ((a.values.length : Int) = t.hi ∧ a.RowsIncrease ∧ ∀ e ∈ a.triples, e.1 + 1 < (a.rows : Int)) →
    ∃ r, a.to_csr t = .ok r ∧ r.WF t ∧ r.rows = a.rows ∧ r.cols = a.cols ∧ r.Canonical ∧
      (∀ i j, r.entry i j = a.entry i j) ∧
      (∀ i j, (∃ v, (i, j, v) ∈ r.triples) ↔ ∃ v, (i, j, v) ∈ a.triples) ∧
      r.rowptr.length = a.rows + 1 ∧ r.colidx.length = r.stored ∧ r.values.length = r.stored ∧
      r.stored ≤ a.values.length) := by
  have hlen : a.items.length = a.values.length := by
    unfold Coo.items; rw [List.length_map, Coo.triples_length ha]
  have hall : ∀ e ∈ a.items, e.1 < a.rows := by
    intro e he
    unfold Coo.items at he
    rw [List.mem_map] at he
    obtain ⟨d, hd, rfl⟩ := he
    have := Coo.triples_mem ha hd
    simp only; omega
  have hlast : (∀ e ∈ a.items, e.1 + 1 < a.rows) ↔ ∀ e ∈ a.triples, e.1 + 1 < (a.rows : Int) := by
    unfold Coo.items
    simp only [List.forall_mem_map]
    refine forall_congr' fun d => forall_congr' fun hd => ?_
    have := Coo.triples_mem ha hd
    omega
  have hpos := t.hi_ge
  have hedge : (a.values.length : Int) ≤ t.hi →
      (((∀ i < a.rows, SRow (bucket a.items i)) ∧ ∃ i < a.rows, ((flat (bucket a.items) i).length : Int) = t.hi) ↔
      (a.values.length : Int) = t.hi ∧ a.RowsIncrease ∧ ∀ e ∈ a.triples, e.1 + 1 < (a.rows : Int)) := by
    intro hn
    rw [Coo.rowsIncrease_iff ha, flat_bucket_full (by omega) (by omega) hall, hlast, hlen]
    tauto
  refine ⟨fun h => ?_, fun h1 h2 h3 => ?_, fun h1 h2 => ?_⟩
  · obtain ⟨q, hq⟩ := coo_tocsr_overfull (t := t) (n := a.rows) (ai := a.rowidx) (aj := a.colidx) (ax := a.values)
      (bp := List.replicate (a.rows + 1) 0) (bj := List.replicate a.nnz 0) (bx := List.replicate a.nnz 0) (nnz := a.nnz) h
    refine ⟨q, ?_⟩
    unfold Coo.to_csr
    dsimp only
    rw [hq]
    rfl
  · have hget : ∀ (k : Nat) e, a.items[k]? = some e →
        a.rowidx[k]? = some (e.1 : Int) ∧ a.colidx[k]? = some e.2.1 ∧ a.values[k]? = some e.2.2 := by
      intro k e he
      unfold Coo.items at he
      rw [List.getElem?_map] at he
      cases hh : a.triples[k]? with
      | none => rw [hh] at he; simp at he
      | some d =>
        rw [hh] at he
        simp at he
        subst he
        have h1 := Coo.triples_get hh
        have h2 := Coo.triples_mem ha (List.mem_of_getElem? hh)
        simp only [Int.toNat_of_nonneg h2.1.1, Int.toNat_of_nonneg h2.2.1]
        simp_all
    obtain ⟨⟨p, j, x⟩, hq, hr, -, -⟩ := coo_tocsr_ok (t := t) (bp := List.replicate (a.rows + 1) 0)
      (bj := List.replicate a.items.length 0) (bx := List.replicate a.items.length (0 : T)) hget hall (by omega) (by simp) (by simp) (by simp)
    have hp := (hedge (by omega)).2 ⟨h1, h2, h3⟩
    obtain ⟨i, hi, hi2⟩ := hp.2
    have hc := (has_canonical_edge (t := t) hr (by rw [flat_bucket_length_eq hall]; omega) ⟨i, hi, by rw [hr.ptr i (by omega), hi2]⟩).1 hp.1
    have hs : CSR.sum_duplicates t ⟨a.rows, a.cols, p, j, x⟩ = .error (.panic .arith) := by
      unfold CSR.sum_duplicates CSR.has_canonical_format
      have hl : p.length = a.rows + 1 := hr.len
      have hu : usub p.length 1 = .ok a.rows := by rw [hl]; rfl
      dsimp only
      rw [hu]
      simp only [bind, Except.bind, hc]
    unfold Coo.to_csr
    rw [show a.nnz = a.items.length from hlen.symm]
    dsimp only
    rw [hq]
    show (do let m ← unwrapR (CSR.new a.rows a.cols p j x); unwrapR (CSR.sum_duplicates t m)) = _
    rw [CSR.new_ok hr]
    show unwrapR (CSR.sum_duplicates t ⟨a.rows, a.cols, p, j, x⟩) = _
    rw [hs] <;> rfl
  · exact Coo.to_csr_edge t a ha h1 fun h => h2 ((hedge h1).1 h)

/-- C02: what `to_csc` does with every valid coordinate matrix. With more entries than the largest index value it panics; with
exactly as many it panics if the entries are in order already and the last row is empty; in all other cases it converts. -/
theorem C02_coo_to_csc_exact [AddCommMonoid T] (t : IntTy) (a : Coo T) (ha : a.WF t) :
    (t.hi < (a.values.length : Int) → ∃ q, a.to_csc t = .error (.panic q)) ∧
    ((a.values.length : Int) = t.hi → a.ColsIncrease → (∀ e ∈ a.triples, e.2.1 + 1 < (a.cols : Int)) →
      a.to_csc t = .error (.panic .arith)) ∧
    ((a.values.length : Int) ≤ t.hi →
      ¬ ((a.values.length : Int) = t.hi ∧ a.ColsIncrease ∧ ∀ e ∈ a.triples, e.2.1 + 1 < (a.cols : Int)) →
    ∃ r, a.to_csc t = .ok r ∧ r.WF t ∧ r.rows = a.rows ∧ r.cols = a.cols ∧ r.Canonical ∧
      (∀ i j, r.entry i j = a.entry i j) ∧
      (∀ i j, (∃ v, (i, j, v) ∈ r.triples) ↔ ∃ v, (i, j, v) ∈ a.triples) ∧
      r.colptr.length = a.cols + 1 ∧ r.rowidx.length = r.stored ∧ r.values.length = r.stored ∧
      r.stored ≤ a.values.length) := by
  have hlen : a.itemsT.length = a.values.length := by
    unfold Coo.itemsT; rw [List.length_map, Coo.triples_length ha]
  have hall : ∀ e ∈ a.itemsT, e.1 < a.cols := by
    intro e he
    unfold Coo.itemsT at he
    rw [List.mem_map] at he
    obtain ⟨d, hd, rfl⟩ := he
    have := Coo.triples_mem ha hd
    simp only; omega
  have hlast : (∀ e ∈ a.itemsT, e.1 + 1 < a.cols) ↔ ∀ e ∈ a.triples, e.2.1 + 1 < (a.cols : Int) := by
    unfold Coo.itemsT
    simp only [List.forall_mem_map]
    refine forall_congr' fun d => forall_congr' fun hd => ?_
    have := Coo.triples_mem ha hd
    omega
  have hpos := t.hi_ge
  have hedge : (a.values.length : Int) ≤ t.hi →
      (((∀ i < a.cols, SRow (bucket a.itemsT i)) ∧ ∃ i < a.cols, ((flat (bucket a.itemsT) i).length : Int) = t.hi) ↔
      (a.values.length : Int) = t.hi ∧ a.ColsIncrease ∧ ∀ e ∈ a.triples, e.2.1 + 1 < (a.cols : Int)) := by
    intro hn
    rw [Coo.colsIncrease_iff ha, flat_bucket_full (by omega) (by omega) hall, hlast, hlen]
    tauto
  refine ⟨fun h => ?_, fun h1 h2 h3 => ?_, fun h1 h2 => ?_⟩
  · obtain ⟨q, hq⟩ := coo_tocsr_overfull (t := t) (n := a.cols) (ai := a.colidx) (aj := a.rowidx) (ax := a.values)
      (bp := List.replicate (a.cols + 1) 0) (bj := List.replicate a.nnz 0) (bx := List.replicate a.nnz 0) (nnz := a.nnz) h
    refine ⟨q, ?_⟩
    unfold Coo.to_csc
    dsimp only
    rw [hq]
    rfl
  · have hget : ∀ (k : Nat) e, a.itemsT[k]? = some e →
        a.colidx[k]? = some (e.1 : Int) ∧ a.rowidx[k]? = some e.2.1 ∧ a.values[k]? = some e.2.2 := by
      intro k e he
      unfold Coo.itemsT at he
      rw [List.getElem?_map] at he
      cases hh : a.triples[k]? with
      | none => rw [hh] at he; simp at he
      | some d =>
        rw [hh] at he
        simp at he
        subst he
        have h1 := Coo.triples_get hh
        have h2 := Coo.triples_mem ha (List.mem_of_getElem? hh)
        simp only [Int.toNat_of_nonneg h2.1.1, Int.toNat_of_nonneg h2.2.1]
        simp_all
    obtain ⟨⟨p, j, x⟩, hq, hr, -, -⟩ := coo_tocsr_ok (t := t) (bp := List.replicate (a.cols + 1) 0)
      (bj := List.replicate a.itemsT.length 0) (bx := List.replicate a.itemsT.length (0 : T)) hget hall (by omega) (by simp) (by simp) (by simp)
    have hp := (hedge (by omega)).2 ⟨h1, h2, h3⟩
    obtain ⟨i, hi, hi2⟩ := hp.2
    have hc := (has_canonical_edge (t := t) hr (by rw [flat_bucket_length_eq hall]; omega) ⟨i, hi, by rw [hr.ptr i (by omega), hi2]⟩).1 hp.1
    have hs : CSC.sum_duplicates t ⟨a.rows, a.cols, j, p, x⟩ = .error (.panic .arith) := by
      unfold CSC.sum_duplicates CSC.has_canonical_format
      have hl : p.length = a.cols + 1 := hr.len
      have hu : usub p.length 1 = .ok a.cols := by rw [hl]; rfl
      dsimp only
      rw [hu]
      simp only [bind, Except.bind, hc]
    unfold Coo.to_csc
    rw [show a.nnz = a.itemsT.length from hlen.symm]
    dsimp only
    rw [hq]
    show (do let m ← unwrapR (CSC.new a.rows a.cols j p x); (CSC.sum_duplicates t m)) = _
    rw [CSC.new_ok hr]
    show (CSC.sum_duplicates t ⟨a.rows, a.cols, j, p, x⟩) = _
    rw [hs] <;> rfl
  · exact Coo.to_csc_edge t a ha h1 fun h => h2 ((hedge h1).1 h)

end

/-! The cases of these theorems, with `i8` (largest value 127). -/

/-- 127 entries in the first of two rows, in order -/
def exFullCoo : Coo Int := ⟨2, 127, List.replicate 127 0, (List.range 127).map fun k : Nat => (k : Int), List.replicate 127 1⟩

/-- the same entries, last one first -/
def exFullRev : Coo Int := ⟨2, 127, List.replicate 127 0, ((List.range 127).map fun k : Nat => (k : Int)).reverse, List.replicate 127 1⟩

example : exFullCoo.WF .i8 ∧ (exFullCoo.values.length : Int) = IntTy.i8.hi ∧ exFullCoo.RowsIncrease ∧
    ∀ e ∈ exFullCoo.triples, e.1 + 1 < (exFullCoo.rows : Int) :=
  ⟨Coo.wf_of (by decide +kernel), by decide +kernel, by unfold Coo.RowsIncrease; decide +kernel, by decide +kernel⟩

example : exFullRev.WF .i8 ∧ (exFullRev.values.length : Int) ≤ IntTy.i8.hi ∧
    ¬ ((exFullRev.values.length : Int) = IntTy.i8.hi ∧ exFullRev.RowsIncrease ∧
      ∀ e ∈ exFullRev.triples, e.1 + 1 < (exFullRev.rows : Int)) :=
  ⟨Coo.wf_of (by decide +kernel), by decide +kernel, by unfold Coo.RowsIncrease; decide +kernel⟩

example : ∃ a : Coo Int, a.WF .i8 ∧ IntTy.i8.hi < (a.values.length : Int) :=
  ⟨⟨1, 1, List.replicate 128 0, List.replicate 128 0, List.replicate 128 1⟩, Coo.wf_of (by decide +kernel), by decide +kernel⟩

/-- 127 entries in the first of two rows of a CSR matrix, last column first -/
def exFullCsr : CSR Int := ⟨2, 127, [0, 127, 127], ((List.range 127).map fun k : Nat => (k : Int)).reverse, List.replicate 127 1⟩

/-- C07: at the boundary a second call is not harmless: here the first call sorts the entries, the second one panics. -/
theorem C07_second_call_panics : exFullCsr.WF .i8 ∧ ∃ r, exFullCsr.sum_duplicates .i8 = .ok r ∧
    r.sum_duplicates .i8 = .error (.panic .arith) := by
  have hw : exFullCsr.WF .i8 := CSR.wf_of (by decide +kernel)
  refine ⟨hw, ?_⟩
  obtain ⟨r, h1, h2, h3, h4, h5, -, h6, -, -, h7⟩ := (C07_csr_exact .i8 exFullCsr hw).2 (by
    rintro ⟨h, -⟩
    revert h
    unfold CSR.Canonical
    decide +kernel)
  refine ⟨r, h1, (C07_csr_exact .i8 r h2).1 h5 ⟨1, by rw [h3]; decide, ?_⟩⟩
  change r.rows = 2 at h3
  rw [h2.rep.ptr 1 (by omega)]
  have hle : r.stored ≤ 127 := h7.trans (by decide +kernel)
  have hge : 127 ≤ (r.row 0).length := by
    have hsub : ((List.range 127).map fun k : Nat => (k : Int)) ⊆ (r.row 0).map (·.1) := by
      intro c hc
      have hm : ∃ v, ((0 : Int), c, v) ∈ exFullCsr.triples := by
        have : ∀ c ∈ (List.range 127).map (fun k : Nat => (k : Int)), ((0 : Int), c, (1 : Int)) ∈ exFullCsr.triples := by decide +kernel
        exact ⟨1, this c hc⟩
      obtain ⟨v, hv⟩ := (h6 0 c).2 hm
      unfold CSR.triples at hv
      obtain ⟨i, -, hi⟩ := List.mem_flatMap.1 hv
      obtain ⟨e, he, hee⟩ := List.mem_map.1 hi
      simp only [Prod.mk.injEq] at hee
      obtain ⟨e1, e2, -⟩ := hee
      obtain rfl : i = 0 := by omega
      exact List.mem_map.2 ⟨e, he, e2⟩
    have := (List.subperm_of_subset (by decide +kernel) hsub).length_le
    simpa using this
  have hs : r.stored = (r.row 0).length + (r.row 1).length := by
    unfold CSR.stored
    rw [h3]
    simp [List.range_succ]
  have hf : (flat r.row 1).length = (r.row 0).length := by
    rw [flat_length_succ]
    simp
  rw [hf, show (r.row 0).length = 127 by omega]
  rfl


end Sparse

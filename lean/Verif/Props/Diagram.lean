import Verif.Props.Exact
/-!
Properties C61 (different conversion paths give identical arrays, whatever the scalars) and C62 (the result of
converting a coordinate matrix does not depend on the order of its triplets).
-/
namespace Sparse

section
variable {T : Type}

theorem CSR.Canonical.sorted {a : CSR T} (h : a.Canonical) : ∀ i < a.rows, (a.row i).Pairwise fun e f => e.1 ≤ f.1 :=
  fun i hi => (h i hi).imp fun h => le_of_lt h

theorem CSC.Canonical.sorted {a : CSC T} (h : a.Canonical) : ∀ i < a.cols, (a.col i).Pairwise fun e f => e.1 ≤ f.1 :=
  fun i hi => (h i hi).imp fun h => le_of_lt h

/-! ### C61 -/

/-- C61. Converting a coordinate matrix to CSR and then to CSC gives the same arrays as converting it to CSC. -/
theorem C61_coo_csr_csc [Zero T] [Add T] (t : IntTy) (a : Coo T) (ha : a.WF t) (hn : (a.values.length : Int) < t.hi)
    (hr : (a.rows : Int) ≤ t.hi + 1) :
    ∃ r s, a.to_csr t = .ok r ∧ r.to_csc t = .ok s ∧ a.to_csc t = .ok s := by
  obtain ⟨r, h1, h2, h3, h4, h5, h6, h7, h8⟩ := C54_coo_to_csr t a ha hn
  obtain ⟨s, g1, g2, g3, g4, g5, g6, g7, g8⟩ := C53_csr_to_csc t r h2 (by omega)
  obtain ⟨u, k1, k2, k3, k4, k5, k6, k7, k8⟩ := C54_coo_to_csc t a ha hn
  refine ⟨r, s, h1, g1, ?_⟩
  rw [k1, CSC.ext_of k2 g2 (by omega) (by omega) k5.sorted g5 k6 k7 g6 g7 fun i j => by rw [k8, g8, h8]]

/-- C61. Converting a coordinate matrix to CSC and then to CSR gives the same arrays as converting it to CSR. -/
theorem C61_coo_csc_csr [Zero T] [Add T] (t : IntTy) (a : Coo T) (ha : a.WF t) (hn : (a.values.length : Int) < t.hi)
    (hc : (a.cols : Int) ≤ t.hi + 1) :
    ∃ r s, a.to_csc t = .ok r ∧ r.to_csr t = .ok s ∧ a.to_csr t = .ok s := by
  obtain ⟨r, h1, h2, h3, h4, h5, h6, h7, h8⟩ := C54_coo_to_csc t a ha hn
  obtain ⟨s, g1, g2, g3, g4, g5, g6, g7, g8⟩ := C53_csc_to_csr t r h2 (by omega)
  obtain ⟨u, k1, k2, k3, k4, k5, k6, k7, k8⟩ := C54_coo_to_csr t a ha hn
  refine ⟨r, s, h1, g1, ?_⟩
  rw [k1, CSR.ext_of k2 g2 (by omega) (by omega) k5.sorted g5 k6 k7 g6 g7 fun i j => by rw [k8, g8, h8]]

/-- C61. Transposing before or after the conversion from coordinate format gives the same arrays. -/
theorem C61_coo_transpose [Zero T] [Add T] (t : IntTy) (a : Coo T) (ha : a.WF t) (hn : (a.values.length : Int) < t.hi) :
    (∃ r s, a.to_csr t = .ok r ∧ r.transpose = .ok s ∧ a.transpose.to_csc t = .ok s) ∧
    (∃ r s, a.to_csc t = .ok r ∧ r.transpose = .ok s ∧ a.transpose.to_csr t = .ok s) := by
  have hv : ∀ i j, a.transpose.valuesAt i j = a.valuesAt j i := fun i j => ((C53_transpose t).2.2 a ha).2.2.2 i j
  constructor
  · obtain ⟨r, h1, h2, h3, h4, h5, h6, h7, h8⟩ := C54_coo_to_csr t a ha hn
    obtain ⟨u, k1, k2, k3, k4, k5, k6, k7, k8⟩ := C54_coo_to_csc t a.transpose (Coo.transpose_wf ha) hn
    refine ⟨r, ⟨r.cols, r.rows, r.colidx, r.rowptr, r.values⟩, h1, ?_, ?_⟩
    · unfold CSR.transpose
      rw [CSC.new_ok h2.rep]
      rfl
    · rw [k1]
      congr 1
      refine CSC.ext_of k2 (t := t) (b := ⟨r.cols, r.rows, r.colidx, r.rowptr, r.values⟩) h2 (k3.trans h4.symm)
        (k4.trans h3.symm) k5.sorted h5.sorted k6 k7 h6 h7 fun i j => ?_
      rw [k8, hv, ← h8]
      rfl
  · obtain ⟨r, h1, h2, h3, h4, h5, h6, h7, h8⟩ := C54_coo_to_csc t a ha hn
    obtain ⟨u, k1, k2, k3, k4, k5, k6, k7, k8⟩ := C54_coo_to_csr t a.transpose (Coo.transpose_wf ha) hn
    refine ⟨r, ⟨r.cols, r.rows, r.colptr, r.rowidx, r.values⟩, h1, ?_, ?_⟩
    · unfold CSC.transpose
      rw [CSR.new_ok h2.rep]
      rfl
    · rw [k1]
      congr 1
      refine CSR.ext_of k2 (t := t) (b := ⟨r.cols, r.rows, r.colptr, r.rowidx, r.values⟩) h2 (k3.trans h4.symm)
        (k4.trans h3.symm) k5.sorted h5.sorted k6 k7 h6 h7 fun i j => ?_
      rw [k8, hv, ← h8]
      rfl

example : exSatCoo.WF .u8 ∧ (exSatCoo.values.length : Int) < IntTy.u8.hi ∧ (exSatCoo.rows : Int) ≤ IntTy.u8.hi + 1 ∧
    (exSatCoo.cols : Int) ≤ IntTy.u8.hi + 1 := ⟨exSatCoo_wf, by decide, by decide, by decide⟩

/-- C61. CSR → coordinate → CSR gives the same arrays as `sum_duplicates`, and the original arrays back if the matrix
is canonical; CSR → coordinate → CSC gives the same as CSR → CSC → `sum_duplicates` and as `sum_duplicates` → CSC. -/
theorem C61_csr_coo [Zero T] [Add T] (t : IntTy) (a : CSR T) (ha : a.WF t) (hr : (a.rows : Int) ≤ t.hi + 1)
    (hj : a.colidx.length = a.stored) (hx : a.values.length = a.stored) (hn : (a.stored : Int) < t.hi) :
    ∃ c r s u, a.to_coo t = .ok c ∧ c.to_csr t = .ok r ∧ a.sum_duplicates t = .ok r ∧ (a.Canonical → r = a) ∧
      c.to_csc t = .ok s ∧ a.to_csc t = .ok u ∧ u.sum_duplicates t = .ok s ∧ r.to_csc t = .ok s := by
  obtain ⟨c, c1, c2, c3, c4, c5, c6, c7⟩ := C53_csr_to_coo t a ha hr hj hx
  obtain ⟨r, h1, h2, h3, h4, h5, h6, h7, h8⟩ := C54_coo_to_csr t c c2 (by omega)
  obtain ⟨d, d1, d2, d3, d4, d5, d6, d8⟩ := C54_csr_sum_duplicates t a ha hn
  obtain ⟨d6, d7⟩ := d6 hj hx
  obtain ⟨s, s1, s2, s3, s4, s5, s6, s7, s8⟩ := C54_coo_to_csc t c c2 (by omega)
  obtain ⟨u, u1, u2, u3, u4, u5, u6, u7, u8⟩ := C53_csr_to_csc t a ha hr
  have hus : u.stored = a.stored := by
    obtain ⟨u', e1, -, -, -, e2, -⟩ := CSR.to_csc_ok ha hr
    rw [u1] at e1
    cases e1
    have := ha.stored_eq
    omega
  obtain ⟨v, v1, v2, v3, v4, v5, v6, v8⟩ := C54_csc_sum_duplicates t u u2 (by omega)
  obtain ⟨v6, v7⟩ := v6 u6 u7
  obtain ⟨w, w1, w2, w3, w4, w5, w6, w7, w8⟩ := C53_csr_to_csc t r h2 (by omega)
  have edr : d = r := CSR.ext_of d2 h2 (by omega) (by omega) d5.sorted h5.sorted d6 d7 h6 h7 fun i j => by rw [d8, h8, c7]
  refine ⟨c, r, s, u, c1, h1, by rw [d1, edr], fun hcan => ?_, s1, u1, ?_, ?_⟩
  · obtain ⟨q, q1, -, -, -, q2⟩ := CSR.sum_duplicates_ok (t := t) ha.rep (by rw [← ha.stored_eq]; exact hn)
    rw [d1] at q1
    cases q1
    rcases q2 with ⟨rfl, -⟩ | ⟨hf, -⟩
    · exact edr.symm
    · exact absurd hcan hf
  · rw [v1, CSC.ext_of v2 s2 (by omega) (by omega) v5.sorted s5.sorted v6 v7 s6 s7 fun i j => by rw [v8, s8, u8, c7]]
  · rw [w1, CSC.ext_of w2 s2 (by omega) (by omega) w5 s5.sorted w6 w7 s6 s7 fun i j => by rw [w8, s8, h8]]

/-- C61. The same for CSC. -/
theorem C61_csc_coo [Zero T] [Add T] (t : IntTy) (a : CSC T) (ha : a.WF t) (hc : (a.cols : Int) ≤ t.hi + 1)
    (hj : a.rowidx.length = a.stored) (hx : a.values.length = a.stored) (hn : (a.stored : Int) < t.hi) :
    ∃ c r s u, a.to_coo t = .ok c ∧ c.to_csc t = .ok r ∧ a.sum_duplicates t = .ok r ∧ (a.Canonical → r = a) ∧
      c.to_csr t = .ok s ∧ a.to_csr t = .ok u ∧ u.sum_duplicates t = .ok s ∧ r.to_csr t = .ok s := by
  obtain ⟨c, c1, c2, c3, c4, c5, c6, c7⟩ := C53_csc_to_coo t a ha hc
  obtain ⟨r, h1, h2, h3, h4, h5, h6, h7, h8⟩ := C54_coo_to_csc t c c2 (by omega)
  obtain ⟨d, d1, d2, d3, d4, d5, d6, d8⟩ := C54_csc_sum_duplicates t a ha hn
  obtain ⟨d6, d7⟩ := d6 hj hx
  obtain ⟨s, s1, s2, s3, s4, s5, s6, s7, s8⟩ := C54_coo_to_csr t c c2 (by omega)
  obtain ⟨u, u1, u2, u3, u4, u5, u6, u7, u8⟩ := C53_csc_to_csr t a ha hc
  have hus : u.stored = a.stored := by
    obtain ⟨u', e1, -, -, -, e2, -⟩ := CSC.to_csr_ok ha hc
    rw [u1] at e1
    cases e1
    have := ha.stored_eq
    omega
  obtain ⟨v, v1, v2, v3, v4, v5, v6, v8⟩ := C54_csr_sum_duplicates t u u2 (by omega)
  obtain ⟨v6, v7⟩ := v6 u6 u7
  obtain ⟨w, w1, w2, w3, w4, w5, w6, w7, w8⟩ := C53_csc_to_csr t r h2 (by omega)
  have edr : d = r := CSC.ext_of d2 h2 (by omega) (by omega) d5.sorted h5.sorted d6 d7 h6 h7 fun i j => by rw [d8, h8, c7]
  refine ⟨c, r, s, u, c1, h1, by rw [d1, edr], fun hcan => ?_, s1, u1, ?_, ?_⟩
  · obtain ⟨q, q1, -, -, -, q2⟩ := CSC.sum_duplicates_ok (t := t) ha.rep (by rw [← ha.stored_eq]; exact hn)
    rw [d1] at q1
    cases q1
    rcases q2 with ⟨rfl, -⟩ | ⟨hf, -⟩
    · exact edr.symm
    · exact absurd hcan hf
  · rw [v1, CSR.ext_of v2 s2 (by omega) (by omega) v5.sorted s5.sorted v6 v7 s6 s7 fun i j => by rw [v8, s8, u8, c7]]
  · rw [w1, CSR.ext_of w2 s2 (by omega) (by omega) w5 s5.sorted w6 w7 s6 s7 fun i j => by rw [w8, s8, h8]]

/-- C61. Converting to the other compressed format and back gives the same arrays as `sort_indexes`. -/
theorem C61_double_convert_sorts [Zero T] (t : IntTy) :
    (∀ a : CSR T, a.WF t → (a.rows : Int) ≤ t.hi + 1 → (a.cols : Int) ≤ t.hi + 1 → a.colidx.length = a.stored →
      a.values.length = a.stored → ∃ c r, a.to_csc t = .ok c ∧ c.to_csr t = .ok r ∧ a.sort_indexes = .ok r) ∧
    (∀ a : CSC T, a.WF t → (a.rows : Int) ≤ t.hi + 1 → (a.cols : Int) ≤ t.hi + 1 → a.rowidx.length = a.stored →
      a.values.length = a.stored → ∃ c r, a.to_csr t = .ok c ∧ c.to_csc t = .ok r ∧ a.sort_indexes = .ok r) := by
  constructor
  · intro a ha hr hc hj hx
    obtain ⟨c, c1, c2, c3, c4, c5, c6, c7, c8⟩ := C53_csr_to_csc t a ha hr
    obtain ⟨r, h1, h2, h3, h4, h5, h6, h7, h8⟩ := C53_csc_to_csr t c c2 (by omega)
    obtain ⟨s, s1, s2, s3, s4, s5, s6, s7, s8, s9⟩ := C53_csr_sort_indexes t a ha
    refine ⟨c, r, c1, h1, ?_⟩
    rw [s1, CSR.ext_of s2 h2 (by omega) (by omega) (fun i hi => s5 i (by omega)) h5 (by omega) (by omega) h6 h7
      fun i j => by rw [s9, h8, c8]]
  · intro a ha hr hc hj hx
    obtain ⟨c, c1, c2, c3, c4, c5, c6, c7, c8⟩ := C53_csc_to_csr t a ha hc
    obtain ⟨r, h1, h2, h3, h4, h5, h6, h7, h8⟩ := C53_csr_to_csc t c c2 (by omega)
    obtain ⟨s, s1, s2, s3, s4, s5, s6, s7, s8, s9⟩ := C53_csc_sort_indexes t a ha
    refine ⟨c, r, c1, h1, ?_⟩
    rw [s1, CSC.ext_of s2 h2 (by omega) (by omega) (fun i hi => s5 i (by omega)) h5 (by omega) (by omega) h6 h7
      fun i j => by rw [s9, h8, c8]]

example : exSatCsr.WF .u8 ∧ exSatCsr.colidx.length = exSatCsr.stored ∧ exSatCsr.values.length = exSatCsr.stored ∧
    (exSatCsr.stored : Int) < IntTy.u8.hi ∧ exSatCsc.WF .u8 ∧ exSatCsc.rowidx.length = exSatCsc.stored ∧
    exSatCsc.values.length = exSatCsc.stored ∧ (exSatCsc.stored : Int) < IntTy.u8.hi :=
  ⟨exSatCsr_wf, by decide, by decide, by decide, exSatCsc_wf, by decide, by decide, by decide⟩

/-! ### C62 -/

theorem collapse_perm [AddCommMonoid T] {u v : List T} (h : u.Perm v) : collapse u = collapse v := by
  have key : ∀ l : List T, collapse l = if l = [] then [] else [l.sum] := by
    intro l
    cases l with
    | nil => rfl
    | cons a l =>
      simp only [collapse, sumFrom_eq_sum]
      simp
  rw [key, key, h.sum_eq]
  by_cases hu : u = []
  · subst hu
    rw [h.nil_eq.symm]
  · rw [if_neg hu, if_neg fun hv => hu (by subst hv; exact h.eq_nil)]

/-- C62. Two coordinate matrices of the same shape with the same triplets in different orders are converted to
identical CSR and identical CSC arrays, when addition is commutative and associative. -/
theorem C62_coo_order [AddCommMonoid T] (t : IntTy) (a b : Coo T) (ha : a.WF t) (hb : b.WF t)
    (hn : (a.values.length : Int) < t.hi) (hr : b.rows = a.rows) (hc : b.cols = a.cols) (hp : b.triples.Perm a.triples) :
    (∃ r, a.to_csr t = .ok r ∧ b.to_csr t = .ok r) ∧ (∃ r, a.to_csc t = .ok r ∧ b.to_csc t = .ok r) := by
  have hn' : (b.values.length : Int) < t.hi := by
    rw [← Coo.triples_length hb, hp.length_eq, Coo.triples_length ha]; exact hn
  have hv : ∀ i j, (b.valuesAt i j).Perm (a.valuesAt i j) := fun i j => (hp.filter _).map _
  constructor
  · obtain ⟨r, h1, h2, h3, h4, h5, h6, h7, h8⟩ := C54_coo_to_csr t a ha hn
    obtain ⟨s, k1, k2, k3, k4, k5, k6, k7, k8⟩ := C54_coo_to_csr t b hb hn'
    refine ⟨r, h1, ?_⟩
    rw [k1, CSR.ext_of k2 h2 (by omega) (by omega) k5.sorted h5.sorted k6 k7 h6 h7 fun i j => by
      rw [k8, h8, collapse_perm (hv i j)]]
  · obtain ⟨r, h1, h2, h3, h4, h5, h6, h7, h8⟩ := C54_coo_to_csc t a ha hn
    obtain ⟨s, k1, k2, k3, k4, k5, k6, k7, k8⟩ := C54_coo_to_csc t b hb hn'
    refine ⟨r, h1, ?_⟩
    rw [k1, CSC.ext_of k2 h2 (by omega) (by omega) k5.sorted h5.sorted k6 k7 h6 h7 fun i j => by
      rw [k8, h8, collapse_perm (hv i j)]]

/-- C62. Without duplicates no law is needed. -/
theorem C62_coo_order_nodup [Zero T] [Add T] (t : IntTy) (a b : Coo T) (ha : a.WF t) (hb : b.WF t)
    (hn : (a.values.length : Int) < t.hi) (hr : b.rows = a.rows) (hc : b.cols = a.cols) (hp : b.triples.Perm a.triples)
    (hd : (a.triples.map fun e => (e.1, e.2.1)).Nodup) :
    (∃ r, a.to_csr t = .ok r ∧ b.to_csr t = .ok r) ∧ (∃ r, a.to_csc t = .ok r ∧ b.to_csc t = .ok r) := by
  have hn' : (b.values.length : Int) < t.hi := by
    rw [← Coo.triples_length hb, hp.length_eq, Coo.triples_length ha]; exact hn
  have hv : ∀ i j, b.valuesAt i j = a.valuesAt i j := by
    intro i j
    have h1 : (b.valuesAt i j).Perm (a.valuesAt i j) := (hp.filter _).map _
    have h2 : (a.valuesAt i j).length ≤ 1 := by
      unfold Coo.valuesAt
      rw [List.length_map]
      have hcnt := List.nodup_iff_count_le_one.1 hd ((i : Int), (j : Int))
      rw [List.count, List.countP_map, List.countP_eq_length_filter] at hcnt
      refine le_trans (le_of_eq ?_) hcnt
      congr 2
      funext e
      rw [Bool.eq_iff_iff]
      simp [Function.comp, Prod.ext_iff]
    match hA : a.valuesAt i j, h2 with
    | [], _ => rw [hA] at h1; exact h1.eq_nil
    | [v], _ => rw [hA] at h1; exact List.perm_singleton.1 h1
  constructor
  · obtain ⟨r, h1, h2, h3, h4, h5, h6, h7, h8⟩ := C54_coo_to_csr t a ha hn
    obtain ⟨s, k1, k2, k3, k4, k5, k6, k7, k8⟩ := C54_coo_to_csr t b hb hn'
    refine ⟨r, h1, ?_⟩
    rw [k1, CSR.ext_of k2 h2 (by omega) (by omega) k5.sorted h5.sorted k6 k7 h6 h7 fun i j => by rw [k8, h8, hv]]
  · obtain ⟨r, h1, h2, h3, h4, h5, h6, h7, h8⟩ := C54_coo_to_csc t a ha hn
    obtain ⟨s, k1, k2, k3, k4, k5, k6, k7, k8⟩ := C54_coo_to_csc t b hb hn'
    refine ⟨r, h1, ?_⟩
    rw [k1, CSC.ext_of k2 h2 (by omega) (by omega) k5.sorted h5.sorted k6 k7 h6 h7 fun i j => by rw [k8, h8, hv]]

example : ∃ a b : Coo Int, a.WF .i8 ∧ b.WF .i8 ∧ (a.values.length : Int) < IntTy.i8.hi ∧ b.rows = a.rows ∧ b.cols = a.cols ∧
    b.triples.Perm a.triples ∧ b.triples ≠ a.triples ∧ (a.triples.map fun e => (e.1, e.2.1)).Nodup :=
  ⟨⟨2, 2, [0, 1, 1], [1, 0, 1], [4, 5, 6]⟩, ⟨2, 2, [1, 1, 0], [1, 0, 1], [6, 5, 4]⟩, Coo.wf_of (by decide), Coo.wf_of (by decide),
    by decide, rfl, rfl, by decide, by decide, by decide⟩

/-! ### C63 -/

theorem SRow.mem_rowSum [AddCommMonoid T] {r : List (Int × T)} (h : SRow r) (hz : ∀ e ∈ r, e.2 ≠ 0) {k : Int} {v : T} :
    (k, v) ∈ r ↔ rowSum r k = v ∧ v ≠ 0 := by
  constructor
  · intro hm
    refine ⟨?_, hz _ hm⟩
    exact rowSum_nodup (List.pairwise_map.2 (h.imp fun h => ne_of_lt h)) hm
  · rintro ⟨hs, hv⟩
    by_cases hk : ∃ e ∈ r, e.1 = k
    · obtain ⟨⟨k', w⟩, hm, rfl⟩ := hk
      have := rowSum_nodup (List.pairwise_map.2 (h.imp fun h => ne_of_lt h)) hm
      simp only at hs ⊢
      rw [← hs, this]
      exact hm
    · exfalso
      apply hv
      rw [← hs]
      exact rowSum_eq_zero fun e he hh => absurd ⟨e, he, hh⟩ hk

/-- C63. A matrix has at most one canonical CSR representation without stored zeros: equal entries imply equal row
pointers and equal rows. -/
theorem C63_unique [AddCommMonoid T] (t : IntTy) (a b : CSR T) (ha : a.WF t) (hb : b.WF t) (hr : b.rows = a.rows)
    (hca : a.Canonical) (hcb : b.Canonical) (hza : ∀ i < a.rows, ∀ e ∈ a.row i, e.2 ≠ 0)
    (hzb : ∀ i < b.rows, ∀ e ∈ b.row i, e.2 ≠ 0) (h : ∀ i j, a.entry i j = b.entry i j) :
    a.rowptr = b.rowptr ∧ (∀ i, a.row i = b.row i) ∧ a.triples = b.triples := by
  have hrow : ∀ i < a.rows, a.row i = b.row i := by
    intro i hi
    have hna : (a.row i).Nodup := (hca i hi).imp fun h1 h2 => by subst h2; exact lt_irrefl _ h1
    have hnb : (b.row i).Nodup := (hcb i (by omega)).imp fun h1 h2 => by subst h2; exact lt_irrefl _ h1
    refine List.Perm.eq_of_pairwise (le := fun e f => e.1 < f.1) (fun x y _ _ h1 h2 => absurd h1 (by omega)) (hca i hi) (hcb i (by omega)) ?_
    rw [List.perm_ext_iff_of_nodup hna hnb]
    rintro ⟨k, v⟩
    rw [SRow.mem_rowSum (hca i hi) (hza i hi), SRow.mem_rowSum (hcb i (by omega)) (hzb i (by omega))]
    by_cases hk : 0 ≤ k
    · have := h i k.toNat
      unfold CSR.entry at this
      rw [Int.toNat_of_nonneg hk] at this
      rw [this]
    · have e1 : rowSum (a.row i) k = 0 := rowSum_eq_zero fun e he hh => by have := (ha.mem hi he).1; omega
      have e2 : rowSum (b.row i) k = 0 := rowSum_eq_zero fun e he hh => by have := (hb.mem (by omega) he).1; omega
      rw [e1, e2]
  have hall : ∀ i, a.row i = b.row i := by
    intro i
    by_cases hi : i < a.rows
    · exact hrow i hi
    · rw [ha.row_out (by omega), hb.row_out (by omega)]
  refine ⟨?_, hall, ?_⟩
  · have hra := ha.rep
    have hrb := hb.rep
    apply List.ext_getElem?
    intro i
    rcases Nat.lt_or_ge a.rows i with hi | hi
    · rw [List.getElem?_eq_none (by rw [hra.len]; omega), List.getElem?_eq_none (by rw [hrb.len]; omega)]
    · rw [hra.ptr i hi, hrb.ptr i (by omega), flat_congr fun j _ => hall j]
  · unfold CSR.triples
    rw [hr]
    simp only [hall]

theorem CSR.ext_zeroSlack [Zero T] {t : IntTy} {a b : CSR T} (ha : a.WF t) (hb : b.WF t) (hr : a.rows = b.rows)
    (hc : a.cols = b.cols) (hp : a.rowptr = b.rowptr) (hrow : ∀ i, a.row i = b.row i) (hza : a.ZeroSlack) (hzb : b.ZeroSlack)
    (hl : a.values.length = b.values.length) : a = b := by
  have hs : a.stored = b.stored := by
    unfold CSR.stored
    rw [hr]
    simp only [hrow]
  have split : ∀ c : CSR T, c.WF t → c.colidx.zip c.values = flat c.row c.rows ++ (c.colidx.zip c.values).drop c.stored := by
    intro c hc
    have h := List.prefix_iff_eq_take.1 hc.rep.pre
    conv_lhs => rw [← List.take_append_drop c.stored (c.colidx.zip c.values)]
    rw [hc.stored_eq, ← h]
  have hd : (a.colidx.zip a.values).drop a.stored = (b.colidx.zip b.values).drop b.stored := by
    rw [List.eq_replicate_of_mem hza.2, List.eq_replicate_of_mem hzb.2]
    congr 1
    have := hza.1
    have := hzb.1
    simp only [List.length_drop, List.length_zip]
    omega
  have hz : a.colidx.zip a.values = b.colidx.zip b.values := by
    rw [split a ha, split b hb, hd, hr, flat_congr fun i _ => hrow i]
  obtain ⟨h1, h2⟩ := zip_fst_snd hz hza.1 hzb.1
  cases a; cases b
  simp only at *
  subst_vars
  rfl

/-- C63. Addition of canonical matrices is commutative down to the arrays. -/
theorem C63_add_comm [AddCommMonoid T] [DecidableEq T] (t : IntTy) (a b : CSR T) (ha : a.WF t) (hb : b.WF t)
    (hr : b.rows = a.rows) (hc : b.cols = a.cols) (hfit : ((a.stored + b.stored : Nat) : Int) < t.hi)
    (hca : a.Canonical) (hcb : b.Canonical) : ∃ r, a.add t b = .ok r ∧ b.add t a = .ok r := by
  obtain ⟨r, h1, h2, h3, h4, h5, h6, h7, h8, h9, h10⟩ := C15_csr_add t a b ha hb hr hc hfit
  obtain ⟨s, k1, k2, k3, k4, k5, k6, k7, k8, k9, k10⟩ := C15_csr_add t b a hb ha hr.symm hc.symm (by omega)
  refine ⟨r, h1, ?_⟩
  obtain ⟨e1, e2, -⟩ := C63_unique t s r k2 h2 (by omega) (k8 hcb hca) (h8 hca hcb) (fun i hi => k7 i (by omega))
    (fun i hi => h7 i (by omega)) fun i j => by rw [k5, h5, add_comm]
  rw [k1, CSR.ext_zeroSlack k2 h2 (by omega) (by omega) e1 e2 k10 h10 (by omega)]

/-- C63. Addition of canonical matrices is associative: both ways of adding three matrices store the same triplets. -/
theorem C63_add_assoc [AddCommMonoid T] [DecidableEq T] (t : IntTy) (a b c : CSR T) (ha : a.WF t) (hb : b.WF t) (hc : c.WF t)
    (h1 : b.rows = a.rows) (h2 : b.cols = a.cols) (h3 : c.rows = a.rows) (h4 : c.cols = a.cols)
    (hfit : ((a.stored + b.stored + c.stored : Nat) : Int) < t.hi)
    (hca : a.Canonical) (hcb : b.Canonical) (hcc : c.Canonical) :
    ∃ ab bc r s, a.add t b = .ok ab ∧ ab.add t c = .ok r ∧ b.add t c = .ok bc ∧ a.add t bc = .ok s ∧
      r.rowptr = s.rowptr ∧ r.triples = s.triples := by
  obtain ⟨ab, g1, g2, g3, g4, g5, g6, g7, g8, g9, g10⟩ := C15_csr_add t a b ha hb h1 h2 (by omega)
  obtain ⟨bc, k1, k2, k3, k4, k5, k6, k7, k8, k9, k10⟩ := C15_csr_add t b c hb hc (by omega) (by omega) (by omega)
  have sab : ab.stored ≤ a.stored + b.stored := by
    have := g2.rep.len_x
    rw [g2.stored_eq]
    omega
  have sbc : bc.stored ≤ b.stored + c.stored := by
    have := k2.rep.len_x
    rw [k2.stored_eq]
    omega
  obtain ⟨r, r1, r2, r3, r4, r5, r6, r7, r8, r9, r10⟩ := C15_csr_add t ab c g2 hc (by omega) (by omega) (by omega)
  obtain ⟨s, s1, s2, s3, s4, s5, s6, s7, s8, s9, s10⟩ := C15_csr_add t a bc ha k2 (by omega) (by omega) (by omega)
  obtain ⟨e1, -, e2⟩ := C63_unique t r s r2 s2 (by omega) (r8 (g8 hca hcb) hcc) (s8 hca (k8 hcb hcc)) (fun i hi => r7 i (by omega))
    (fun i hi => s7 i (by omega)) fun i j => by rw [r5, g5, s5, k5, add_assoc]
  exact ⟨ab, bc, r, s, g1, r1, k1, s1, e1, e2⟩

example : ∃ a b c : CSR Int, a.WF .i8 ∧ b.WF .i8 ∧ c.WF .i8 ∧ a.Canonical ∧ b.Canonical ∧ c.Canonical ∧ b.rows = a.rows ∧ b.cols = a.cols ∧
    c.rows = a.rows ∧ c.cols = a.cols ∧
    ((a.stored + b.stored + c.stored : Nat) : Int) < IntTy.i8.hi ∧ a.triples ≠ b.triples ∧ a.entry 0 0 + b.entry 0 0 = 0 :=
  ⟨⟨2, 2, [0, 2, 3], [0, 1, 1], [4, 5, 6]⟩, ⟨2, 2, [0, 1, 2], [0, 0], [-4, 7]⟩, ⟨2, 2, [0, 1, 1], [0], [1]⟩, CSR.wf_of (by decide),
    CSR.wf_of (by decide), CSR.wf_of (by decide), by unfold CSR.Canonical; decide, by unfold CSR.Canonical; decide,
    by unfold CSR.Canonical; decide, rfl, rfl, rfl, rfl, by decide, by decide, by decide⟩

end
end Sparse

import Verif.Props.Blocks
/-!
C101: diagonal matrices, scaling, triangles and traces.
-/
namespace Sparse

section
variable {T : Type}

theorem sum_diag_left [NonUnitalNonAssocSemiring T] (d : List T) (f : Nat → T) (i : Nat) :
    (∑ j ∈ Finset.range d.length, diagEntry d i j * f j) = d.getD i 0 * f i := by
  by_cases hi : i < d.length
  · rw [Finset.sum_eq_single i]
    · simp [diagEntry]
    · intro j _ hj
      simp [diagEntry, Ne.symm hj]
    · intro h
      exact absurd (Finset.mem_range.2 hi) h
  · rw [Finset.sum_eq_zero]
    · simp [List.getD_eq_getElem?_getD, Nat.le_of_not_lt hi]
    · intro j hj
      have := Finset.mem_range.1 hj
      simp [diagEntry, show i ≠ j by omega]

theorem sum_diag_right [NonUnitalNonAssocSemiring T] (d : List T) (f : Nat → T) (j : Nat) :
    (∑ i ∈ Finset.range d.length, f i * diagEntry d i j) = f j * d.getD j 0 := by
  by_cases hj : j < d.length
  · rw [Finset.sum_eq_single j]
    · simp [diagEntry]
    · intro i _ hi
      simp [diagEntry, hi]
    · intro h
      exact absurd (Finset.mem_range.2 hj) h
  · rw [Finset.sum_eq_zero]
    · simp [List.getD_eq_getElem?_getD, Nat.le_of_not_lt hj]
    · intro i hi
      have := Finset.mem_range.1 hi
      simp [diagEntry, show i ≠ j by omega]

/-- C101: multiplying by a diagonal matrix from the left scales the rows, from the right the columns: the products are the
matrices that the in-place kernels leave. -/
theorem C101_scaling [NonUnitalNonAssocCommSemiring T] [DecidableEq T] (t : IntTy) (a : CSR T) (ha : a.WF t) (r c : List T)
    (hr : r.length = a.rows) (hc : c.length = a.cols) (fr : (a.rows : Int) ≤ t.hi) (fc : (a.cols : Int) ≤ t.hi)
    (hfit : ((a.rows * a.cols : Nat) : Int) < t.hi) :
    ∃ dr dc vr vc p q, CSR.with_diagonal t r = .ok dr ∧ CSR.with_diagonal t c = .ok dc ∧
      csr_scale_rows a.rows a.rowptr a.values r = .ok vr ∧ csr_scale_columns a.rows a.rowptr a.colidx a.values c = .ok vc ∧
      dr.mul t a = .ok p ∧ a.mul t dc = .ok q ∧
      p.to_dense = ({ a with values := vr } : CSR T).to_dense ∧ q.to_dense = ({ a with values := vc } : CSR T).to_dense := by
  obtain ⟨dr, a1, a2, -, a4, a5, a6, -⟩ := C47_csr_with_diagonal t r (by omega)
  obtain ⟨dc, b1, b2, -, b4, b5, b6, -⟩ := C47_csr_with_diagonal t c (by omega)
  obtain ⟨vr, c1, c2, c3, -, c5⟩ := C39_csr_scale_rows t a ha r (by omega)
  obtain ⟨vc, d1, d2, d3, -, d5⟩ := C39_csr_scale_columns t a ha c (by omega)
  obtain ⟨p, p1, p2, p3, p4, p5, -⟩ := CSR.mul_facts a2 ha (by omega) (by rw [a4, hr]; exact hfit)
  obtain ⟨q, q1, q2, q3, q4, q5, -⟩ := CSR.mul_facts ha b2 (by omega) (by rw [b5, hc]; exact hfit)
  refine ⟨dr, dc, vr, vc, p, q, a1, b1, c1, d1, p1, q1, ?_, ?_⟩
  · rw [C06_csr_to_dense t p p2, C06_csr_to_dense t _ c3]
    have e : ∀ i k, p.entry i k = a.entry i k * r.getD i 0 := fun i k => by
      rw [p5, a5]
      simp only [a6]
      rw [sum_diag_left, mul_comm]
    rw [show p.entry = _ from funext fun i => funext fun k => (e i k).trans (c5 i k).symm, p3, p4, a4, hr]
  · rw [C06_csr_to_dense t q q2, C06_csr_to_dense t _ d3]
    have e : ∀ i k, q.entry i k = a.entry i k * c.getD k 0 := fun i k => by
      rw [q5, ← hc]
      simp only [b6]
      rw [sum_diag_right]
    rw [show q.entry = _ from funext fun i => funext fun k => (e i k).trans (d5 i k).symm, q3, q4, b5, hc]

/-- C101: taking the diagonal of a diagonal matrix gives back its elements, in all three formats. -/
theorem C101_diagonal_roundtrip [AddCommMonoid T] (t : IntTy) (d : List T) (h : (d.length : Int) ≤ t.hi) :
    ∃ a b c, CSR.with_diagonal t d = .ok a ∧ CSC.with_diagonal t d = .ok b ∧ Coo.with_diagonal t d = .ok c ∧
      a.diagonal = .ok d ∧ b.diagonal = .ok d ∧ c.diagonal = .ok d := by
  obtain ⟨a, a1, a2, -, a4, a5, a6, -⟩ := C47_csr_with_diagonal t d h
  obtain ⟨b, b1, b2, -, b4, b5, b6, -⟩ := C47_csc_with_diagonal t d h
  obtain ⟨c, c1, c2, c4, c5, c6, -⟩ := C47_coo_with_diagonal t d (by omega)
  have e : (List.range d.length).map (fun i => diagEntry d i i) = d := by
    apply List.ext_getElem
    · simp
    · intro i h1 h2
      simp [diagEntry, h2]
  refine ⟨a, b, c, a1, b1, c1, ?_, ?_, ?_⟩
  · rw [C24_csr_diagonal t a a2, a4, a5, Nat.min_self]
    simp only [a6, e]
  · rw [C24_csc_diagonal t b b2, b4, b5, Nat.min_self]
    simp only [b6, e]
  · rw [C24_coo_diagonal t c c2, c4, c5, Nat.min_self]
    simp only [c6, e]

/-- C101: the product of two diagonal matrices has the products of the elements on its diagonal. -/
theorem C101_diagonal_mul [NonUnitalNonAssocSemiring T] [DecidableEq T] (t : IntTy) (d e : List T) (hl : d.length = e.length)
    (hf : ((d.length * d.length : Nat) : Int) < t.hi) (h : (d.length : Int) ≤ t.hi) :
    ∃ a b p, CSR.with_diagonal t d = .ok a ∧ CSR.with_diagonal t e = .ok b ∧ a.mul t b = .ok p ∧
      (∀ i j, i ≠ j → p.entry i j = 0) ∧ p.diagonal = .ok (d.zipWith (· * ·) e) := by
  obtain ⟨a, a1, a2, -, a4, a5, a6, -⟩ := C47_csr_with_diagonal t d h
  obtain ⟨b, b1, b2, -, b4, b5, b6, -⟩ := C47_csr_with_diagonal t e (by omega)
  obtain ⟨p, p1, p2, p3, p4, p5, -⟩ := CSR.mul_facts a2 b2 (by omega) (by rw [a4, b5, ← hl]; exact hf)
  have key : ∀ i j, p.entry i j = d.getD i 0 * diagEntry e i j := fun i j => by
    rw [p5, a5]
    simp only [a6, b6]
    rw [sum_diag_left]
  refine ⟨a, b, p, a1, b1, p1, fun i j hij => ?_, ?_⟩
  · rw [key]
    simp [diagEntry, hij]
  · rw [C24_csr_diagonal t p p2, p3, p4, a4, b5, ← hl, Nat.min_self]
    simp only [key]
    congr 1
    apply List.ext_getElem
    · simp [hl]
    · intro i h1 h2
      simp only [List.length_zipWith] at h2
      simp [diagEntry, show i < d.length by omega, show i < e.length by omega]

/-- C101: the diagonals of `A * B` and `B * A` have the same sum. -/
theorem C101_trace [NonUnitalNonAssocCommSemiring T] [DecidableEq T] (t : IntTy) (a b : CSR T) (ha : a.WF t) (hb : b.WF t)
    (h1 : a.cols = b.rows) (h2 : b.cols = a.rows) (f1 : ((a.rows * a.rows : Nat) : Int) < t.hi)
    (f2 : ((a.cols * a.cols : Nat) : Int) < t.hi) :
    ∃ ab ba d e, a.mul t b = .ok ab ∧ b.mul t a = .ok ba ∧ ab.diagonal = .ok d ∧ ba.diagonal = .ok e ∧ d.sum = e.sum := by
  obtain ⟨p, p1, p2, p3, p4, p5, -⟩ := CSR.mul_facts ha hb h1 (by rw [h2]; exact f1)
  obtain ⟨q, q1, q2, q3, q4, q5, -⟩ := CSR.mul_facts hb ha h2 (by rw [← h1]; exact f2)
  refine ⟨p, q, _, _, p1, q1, C24_csr_diagonal t p p2, C24_csr_diagonal t q q2, ?_⟩
  rw [p3, p4, q3, q4, h2, ← h1, Nat.min_self, Nat.min_self]
  have e : ∀ (n : Nat) (f : Nat → T), ((List.range n).map f).sum = ∑ i ∈ Finset.range n, f i := by
    intro n f
    induction n with
    | zero => simp
    | succ n ih => rw [List.range_succ, List.map_append, List.sum_append, ih, Finset.sum_range_succ]; simp
  rw [e, e]
  simp only [p5, q5, h2]
  rw [Finset.sum_comm]
  exact Finset.sum_congr rfl fun j _ => Finset.sum_congr rfl fun i _ => mul_comm _ _

/-- C101: `upper` after `upper` is `upper` with the larger offset, array by array. -/
theorem C101_upper_upper [AddCommMonoid T] (t : IntTy) (a : Coo T) (ha : a.WF t) (k l : Int)
    (hk : ∀ r ∈ a.rowidx, t.lo ≤ r + k ∧ r + k ≤ t.hi) (hl : ∀ r ∈ a.rowidx, t.lo ≤ r + l ∧ r + l ≤ t.hi) :
    ∃ u v w, a.upper t k = .ok u ∧ u.upper t l = .ok v ∧ a.upper t (max k l) = .ok w ∧ v.triples = w.triples ∧
      v.rows = w.rows ∧ v.cols = w.cols := by
  obtain ⟨u, u1, u2, u3, u4, u5, u6⟩ := C28_upper t a ha k hk
  have hsub : ∀ r ∈ u.rowidx, r ∈ a.rowidx := by
    intro r hr
    have e : ∀ {c : Coo T}, c.WF t → c.rowidx = c.triples.map (·.1) := by
      intro c hc
      unfold Coo.triples
      have h1 := hc.lenr
      have h2 := hc.lenc
      apply List.ext_getElem
      · simp; omega
      · intro i _ _
        simp
    rw [e u2, u5] at hr
    obtain ⟨x, hx, rfl⟩ := List.mem_map.1 hr
    rw [e ha]
    exact List.mem_map.2 ⟨x, List.mem_of_mem_filter hx, rfl⟩
  obtain ⟨v, v1, v2, v3, v4, v5, v6⟩ := C28_upper t u u2 l fun r hr => hl r (hsub r hr)
  obtain ⟨w, w1, w2, w3, w4, w5, w6⟩ := C28_upper t a ha (max k l) fun r hr => by
    have := hk r hr
    have := hl r hr
    omega
  refine ⟨u, v, w, u1, v1, w1, ?_, by omega, by omega⟩
  rw [v5, w5, u5, List.filter_filter]
  refine List.filter_congr fun x _ => ?_
  rw [← Bool.decide_and]
  refine decide_eq_decide.2 ?_
  omega

/-- C101: a matrix is the sum of its upper triangle and the transposed strict upper triangle of its transpose; a matrix and its
upper triangle have the same diagonal. -/
theorem C101_split [AddCommMonoid T] (t : IntTy) (a : Coo T) (ha : a.WF t) (hf : ∀ r ∈ a.colidx, r + 1 ≤ t.hi) :
    ∃ u s, a.upper t 0 = .ok u ∧ a.transpose.upper t 1 = .ok s ∧
      (∀ i j : Nat, a.entry i j = u.entry i j + s.transpose.entry i j) ∧ u.diagonal = a.diagonal := by
  have hat := C25_coo_transpose t a ha
  obtain ⟨u, u1, u2, u3, u4, u5, u6⟩ := C28_upper t a ha 0 fun r hr => by
    have := ha.row r hr
    have := t.lo_nonpos
    omega
  obtain ⟨s, s1, s2, s3, s4, s5, s6⟩ := C28_upper t a.transpose hat.1 1 fun r hr => by
    have h1 := hf r hr
    have := ha.col r hr
    have := t.lo_nonpos
    omega
  refine ⟨u, s, u1, s1, fun i j => ?_, ?_⟩
  · rw [(C25_coo_transpose t s s2).2.2.2.1, s6, u6, hat.2.2.2.1]
    by_cases h : i ≤ j
    · rw [if_pos (by omega), if_neg (by omega), add_zero]
    · rw [if_neg (by omega), if_pos (by omega), zero_add]
  · rw [C24_coo_diagonal t u u2, C24_coo_diagonal t a ha, u3, u4]
    simp only [u6]
    congr 1
    refine List.map_congr_left fun i _ => ?_
    rw [if_pos (by omega)]

/-- C101: choosing rows is multiplying by the chosen rows of the identity, choosing columns multiplying by its chosen columns:
the entries are the same. -/
theorem C101_select_product [NonAssocSemiring T] [DecidableEq T] (t : IntTy) (a : CSR T) (ha : a.WF t) (hca : a.Canonical)
    (ri ci : List Int) (hri : ∀ i ∈ ri, 0 ≤ i ∧ i < (a.rows : Int)) (hci : ∀ j ∈ ci, 0 ≤ j ∧ j < (a.cols : Int))
    (hs : (a.stored : Int) < t.hi) (d1 : (a.rows : Int) < t.hi) (d2 : (a.cols : Int) < t.hi) (d3 : (ci.length : Int) ≤ t.hi + 1)
    (f1 : ((ri.length * a.cols : Nat) : Int) < t.hi) (f2 : ((a.rows * ci.length : Nat) : Int) < t.hi)
    (f3 : ((ri.length * a.rows : Nat) : Int) ≤ t.hi) (f4 : ((a.cols * ci.length : Nat) : Int) ≤ t.hi) :
    ∃ ir ic sr sc p q ar ac, CSR.with_diagonal t (List.replicate a.rows (1 : T)) = .ok ir ∧
      CSR.with_diagonal t (List.replicate a.cols (1 : T)) = .ok ic ∧
      ir.select t (some ri) none = .ok sr ∧ ic.select t none (some ci) = .ok sc ∧ sr.mul t a = .ok p ∧ a.mul t sc = .ok q ∧
      a.select t (some ri) none = .ok ar ∧ a.select t none (some ci) = .ok ac ∧
      p.to_dense = ar.to_dense ∧ q.to_dense = ac.to_dense := by
  obtain ⟨ir, u1, u2, u3, u4, u5, u6, -, u7, u8⟩ := C47_csr_with_diagonal t (List.replicate a.rows (1 : T)) (by simp; omega)
  obtain ⟨ic, v1, v2, v3, v4, v5, v6, -, v7, v8⟩ := C47_csr_with_diagonal t (List.replicate a.cols (1 : T)) (by simp; omega)
  rw [List.length_replicate] at u4 u5 u7 v4 v5 v7
  have us : ir.stored ≤ a.rows := by simpa [u8] using u2.stored_le
  have vs : ic.stored ≤ a.cols := by simpa [v8] using v2.stored_le
  have pu := C22_pick_le ir ri (chosen ir.cols none)
  have pv := C22_pick_le ic (chosen ic.rows none) ci
  have pa := C22_pick_le a ri (chosen a.cols none)
  have pb := C22_pick_le a (chosen a.rows none) ci
  rw [chosen_none_length] at pu pv pa pb
  replace pu := pu.trans_eq (congrArg (ri.length * ·) u5)
  replace pv := pv.trans_eq (congrArg (· * ci.length) v4)
  obtain ⟨sr, a1, a2, a3, a4, a5, a6, -⟩ := C22_csr_select t ir u2 u3 (u2.start_lt (by omega)) (by omega) (by omega)
    (some ri) none (by rw [u4]; exact hri) chosen_none_mem (by rw [chosen_none_length]; omega)
    (by show ((ir.pickCount ri (chosen ir.cols none) : Nat) : Int) ≤ t.hi; omega)
  obtain ⟨sc, b1, b2, b3, b4, b5, b6, -⟩ := C22_csr_select t ic v2 v3 (v2.start_lt (by omega)) (by omega) (by omega)
    none (some ci) chosen_none_mem (by rw [v5]; exact hci) d3
    (by show ((ic.pickCount (chosen ic.rows none) ci : Nat) : Int) ≤ t.hi; omega)
  obtain ⟨ar, c1, c2, c3, c4, c5, c6, -⟩ := C22_csr_select t a ha hca (ha.start_lt hs) (by omega) (by omega)
    (some ri) none hri chosen_none_mem (by rw [chosen_none_length]; omega)
    (by show ((a.pickCount ri (chosen a.cols none) : Nat) : Int) ≤ t.hi; omega)
  obtain ⟨ac, e1, e2, e3, e4, e5, e6, -⟩ := C22_csr_select t a ha hca (ha.start_lt hs) (by omega) (by omega)
    none (some ci) chosen_none_mem hci d3
    (by show ((a.pickCount (chosen a.rows none) ci : Nat) : Int) ≤ t.hi; omega)
  change sr.rows = ri.length at a4
  change sc.cols = ci.length at b5
  change ar.rows = ri.length at c4
  change ac.cols = ci.length at e5
  rw [chosen_none_length] at a5 b4 c5 e4
  obtain ⟨p, p1, p2, p3, p4, p5, -⟩ := CSR.mul_facts (t := t) a2 ha (by omega) (by rw [a4]; exact f1)
  obtain ⟨q, q1, q2, q3, q4, q5, -⟩ := CSR.mul_facts (t := t) ha b2 (by omega) (by rw [b5]; exact f2)
  refine ⟨ir, ic, sr, sc, p, q, ar, ac, u1, v1, a1, b1, p1, q1, c1, e1, ?_, ?_⟩
  · rw [C06_csr_to_dense t p p2, C06_csr_to_dense t ar c2, p3, p4, a4, c4, c5]
    congr 1
    congr 1
    funext i k
    by_cases hi : i < ri.length
    swap
    · rw [CSR.entry_out p2 (by omega), CSR.entry_out c2 (by omega)]
    by_cases hk : k < a.cols
    swap
    · rw [CSR.entry_out p2 (by omega), CSR.entry_out c2 (by omega)]
    have hi2 := hri _ (List.getElem_mem hi)
    have ei : ri[i]? = some ((ri[i].toNat : Nat) : Int) := by rw [List.getElem?_eq_getElem hi]; congr 1; omega
    rw [(c6 i k _ k ei (chosen_none_get hk)).1, p5, a5, u5]
    have key : ∀ j ∈ Finset.range a.rows, sr.entry i j * a.entry j k =
        diagEntry (List.replicate a.rows (1 : T)) ri[i].toNat j * a.entry j k := fun j hj => by
      rw [Finset.mem_range] at hj
      rw [(a6 i j _ j ei (chosen_none_get (by omega))).1, u6]
    rw [Finset.sum_congr rfl key]
    have := sum_diag_left (List.replicate a.rows (1 : T)) (fun j => a.entry j k) ri[i].toNat
    rw [List.length_replicate] at this
    rw [this]
    have hlt : ri[i].toNat < a.rows := by omega
    simp [List.getD_eq_getElem?_getD, hlt]
  · rw [C06_csr_to_dense t q q2, C06_csr_to_dense t ac e2, q3, q4, b5, e4, e5]
    congr 1
    congr 1
    funext i k
    by_cases hi : i < a.rows
    swap
    · rw [CSR.entry_out q2 (by omega), CSR.entry_out e2 (by omega)]
    by_cases hk : k < ci.length
    swap
    · rw [CSR.entry_out q2 (by omega), CSR.entry_out e2 (by omega)]
    have hk2 := hci _ (List.getElem_mem hk)
    have ek : ci[k]? = some ((ci[k].toNat : Nat) : Int) := by rw [List.getElem?_eq_getElem hk]; congr 1; omega
    rw [(e6 i k i _ (chosen_none_get hi) ek).1, q5]
    have key : ∀ j ∈ Finset.range a.cols, a.entry i j * sc.entry j k =
        a.entry i j * diagEntry (List.replicate a.cols (1 : T)) j ci[k].toNat := fun j hj => by
      rw [Finset.mem_range] at hj
      rw [(b6 j k j _ (chosen_none_get (by omega)) ek).1, v6]
    rw [Finset.sum_congr rfl key]
    have := sum_diag_right (List.replicate a.cols (1 : T)) (fun j => a.entry i j) ci[k].toNat
    rw [List.length_replicate] at this
    rw [this]
    have hlt : ci[k].toNat < a.cols := by omega
    simp [List.getD_eq_getElem?_getD, hlt]

end

/-! The hypotheses of C101 are met. -/

-- scaling, selection: repeated and unsorted entries; a choice with a repetition
example : ∃ (a : CSR Int) (r c : List Int), a.WF .i8 ∧ r.length = a.rows ∧ c.length = a.cols ∧
    ((a.rows * a.cols : Nat) : Int) < IntTy.i8.hi ∧ ¬ a.NoDup ∧
    csr_scale_rows a.rows a.rowptr a.values r = .ok [10, 14, -9] ∧
    csr_scale_columns a.rows a.rowptr a.colidx a.values c = .ok [-5, -7, -12] :=
  ⟨⟨2, 3, [0, 2, 3], [1, 1, 0], [5, 7, -3]⟩, [2, 3], [4, -1, 6], CSR.wf_of (by decide), rfl, rfl, by decide,
    by unfold CSR.NoDup; decide, by decide, by decide⟩

example : CSR.with_diagonal .i8 [(4 : Int), 0, -2] = .ok ⟨3, 3, [0, 1, 2, 3], [0, 1, 2], [4, 0, -2]⟩ := by decide

example : ∃ a b p q : CSR Int, a.WF .i8 ∧ b.WF .i8 ∧ a.cols = b.rows ∧ b.cols = a.rows ∧ a.rows ≠ a.cols ∧
    a.mul .i8 b = .ok p ∧ b.mul .i8 a = .ok q ∧ p.diagonal = .ok [50] ∧ q.diagonal = .ok [10, 40] :=
  ⟨⟨1, 2, [0, 2], [1, 0], [5, 2]⟩, ⟨2, 1, [0, 1, 2], [0, 0], [5, 8]⟩, _, _, CSR.wf_of (by decide), CSR.wf_of (by decide), rfl, rfl,
    by decide, rfl, rfl, by decide, by decide⟩

example : ∃ a u v s : Coo Int, a.WF .i8 ∧ (∀ r ∈ a.rowidx, IntTy.i8.lo ≤ r + (-1) ∧ r + (-1) ≤ IntTy.i8.hi) ∧
    (∀ r ∈ a.colidx, r + 1 ≤ IntTy.i8.hi) ∧ a.upper .i8 (-1) = .ok u ∧ u.upper .i8 1 = .ok v ∧
    u.values = [3, 7, 1] ∧ v.values = [3] ∧ a.transpose.upper .i8 1 = .ok s ∧ s.values = [7, 9] :=
  ⟨⟨3, 3, [0, 1, 2, 2], [2, 0, 0, 2], [3, 7, 9, 1]⟩, _, _, _, Coo.wf_of (by decide), by decide, by decide, rfl, rfl, by decide,
    by decide, rfl, by decide⟩

example : ∃ (a : CSR Int) (ri ci : List Int), a.WF .i8 ∧ a.Canonical ∧ (∀ i ∈ ri, 0 ≤ i ∧ i < (a.rows : Int)) ∧
    (∀ j ∈ ci, 0 ≤ j ∧ j < (a.cols : Int)) ∧ ((ri.length * a.cols : Nat) : Int) < IntTy.i8.hi ∧
    ((a.rows * ci.length : Nat) : Int) < IntTy.i8.hi ∧ ((ri.length * a.rows : Nat) : Int) ≤ IntTy.i8.hi ∧
    ((a.cols * ci.length : Nat) : Int) ≤ IntTy.i8.hi ∧ a.entry 1 2 ≠ 0 ∧ ¬ ri.Nodup :=
  ⟨⟨2, 3, [0, 2, 3], [0, 1, 2], [5, 7, -3]⟩, [1, 0, 1], [2, 1], CSR.wf_of (by decide), by unfold CSR.Canonical; decide, by decide,
    by decide, by decide, by decide, by decide, by decide, by decide, by decide⟩

end Sparse

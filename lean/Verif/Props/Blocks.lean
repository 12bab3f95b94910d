import Verif.Props.Laws
import Verif.Props.Assemble
import Verif.Props.Moves
import Verif.Lemmas.History
import Mathlib.Data.List.GetD
/-!
C98: assembling and selecting go together with sums, products and transposes as block matrices do: `[A B] [C; D]` stores
what `A C + B D` stores, rows and columns selected from a product are the product of selected rows and selected columns,
selecting the columns of a block out of `[A B]` gives the block back, and so on.
-/
namespace Sparse

section
variable {T : Type}

theorem CSR.Canonical.noDup {a : CSR T} (h : a.Canonical) : a.NoDup :=
  fun i hi => List.pairwise_map.2 ((h i hi).imp fun h => ne_of_lt h)

theorem CSC.Canonical.noDup {a : CSC T} (h : a.Canonical) : a.NoDup :=
  fun i hi => List.pairwise_map.2 ((h i hi).imp fun h => ne_of_lt h)

theorem CSR.WF.start_lt {t : IntTy} {a : CSR T} (ha : a.WF t) (hs : (a.stored : Int) < t.hi) :
    ∀ (i : Nat) (v : Int), i < a.rows → a.rowptr[i]? = some v → v < t.hi := by
  intro i v hi hv
  have e := ha.rep.ptr i hi.le
  rw [hv] at e
  have := flat_length_mono a.row hi.le
  rw [ha.stored_eq] at hs
  have := Option.some.inj e
  omega

theorem CSR.nnz_stored {t : IntTy} {a : CSR T} (ha : a.WF t) : a.nnz = .ok a.stored := by
  rw [CSR.nnz_ok ha.rep, ha.stored_eq]

/-- an entry of a matrix without repeated positions is the stored value -/
theorem CSR.entry_of_mem [AddCommMonoid T] {t : IntTy} {a : CSR T} (ha : a.WF t) (hd : a.NoDup) {i : Nat} (hi : i < a.rows)
    {e : Int × T} (he : e ∈ a.row i) : a.entry i e.1.toNat = e.2 := by
  unfold CSR.entry
  rw [Int.toNat_of_nonneg (ha.mem hi he).1, rowSum_nodup (hd i hi) he]

/-- a matrix without repeated positions has no more entries than cells -/
theorem CSR.WF.stored_le_cells {t : IntTy} {a : CSR T} (ha : a.WF t) (hd : a.NoDup) : a.stored ≤ a.rows * a.cols := by
  unfold CSR.stored
  have : ∀ l : List Nat, (∀ i ∈ l, i < a.rows) → (l.map fun i => (a.row i).length).sum ≤ l.length * a.cols := by
    intro l
    induction l with
    | nil => intro _; simp
    | cons i l ih =>
      intro h
      rw [List.map_cons, List.sum_cons, List.length_cons, Nat.add_mul, Nat.one_mul]
      have h1 := ih fun j hj => h j (List.mem_cons_of_mem _ hj)
      have hi := h i List.mem_cons_self
      have h2 : (a.row i).length ≤ a.cols := by
        have := List.subperm_of_subset (l₂ := (List.range a.cols).map fun j : Nat => (j : Int)) (hd i hi) (by
          intro x hx
          rw [List.mem_map] at hx
          obtain ⟨e, he, rfl⟩ := hx
          have := ha.mem hi he
          exact List.mem_map.2 ⟨e.1.toNat, List.mem_range.2 (by omega), by omega⟩)
        simpa using this.length_le
      omega
  simpa using this (List.range a.rows) fun i hi => List.mem_range.1 hi

theorem CSC.WF.stored_le_cells {t : IntTy} {a : CSC T} (ha : a.WF t) (hd : a.NoDup) : a.stored ≤ a.rows * a.cols := by
  have := CSR.WF.stored_le_cells (a := a.asCSR) ha hd
  rw [Nat.mul_comm]
  exact this

theorem chosen_none_get {n k : Nat} (h : k < n) : (chosen n none)[k]? = some (k : Int) := by
  simp [chosen, h]

theorem chosen_none_mem {n : Nat} : ∀ i ∈ chosen n none, 0 ≤ i ∧ i < (n : Int) := by
  intro i hi
  simp only [chosen, List.mem_map, List.mem_range] at hi
  obtain ⟨k, hk, rfl⟩ := hi
  omega

theorem chosen_none_length {n : Nat} : (chosen n none).length = n := by simp [chosen]

/-- selecting from a matrix without repeated positions and stored zeros stores no zeros -/
theorem CSR.select_nonzero [AddCommMonoid T] {t : IntTy} {s q : CSR T} {ri ci : List Int} (s2 : s.WF t) (s5 : s.NoDup)
    (s7 : ∀ i < s.rows, ∀ e ∈ s.row i, e.2 ≠ 0) (q2 : q.WF t) (q3 : q.NoDup) (q4 : q.rows = ri.length) (q5 : q.cols = ci.length)
    (hri : ∀ i ∈ ri, 0 ≤ i ∧ i < (s.rows : Int)) (hci : ∀ j ∈ ci, 0 ≤ j ∧ j < (s.cols : Int))
    (q6 : ∀ (r c i j : Nat), ri[r]? = some (i : Int) → ci[c]? = some (j : Int) → q.entry r c = s.entry i j ∧ (q.has r c ↔ s.has i j)) :
    ∀ i < q.rows, ∀ e ∈ q.row i, e.2 ≠ 0 := by
  intro i hi e he
  have h0 := q2.mem hi he
  have hi' : i < ri.length := by omega
  have hj' : e.1.toNat < ci.length := by omega
  have hi2 := hri _ (List.getElem_mem hi')
  have hj2 := hci _ (List.getElem_mem hj')
  have k := q6 i e.1.toNat ri[i].toNat ci[e.1.toNat].toNat
    (by rw [List.getElem?_eq_getElem hi']; congr 1; omega) (by rw [List.getElem?_eq_getElem hj']; congr 1; omega)
  rw [CSR.entry_of_mem q2 q3 hi he] at k
  obtain ⟨v, hv⟩ := k.2.1 ⟨e.2, by rw [Int.toNat_of_nonneg h0.1]; exact he⟩
  have hi3 : ri[i].toNat < s.rows := by omega
  rw [k.1]
  have := CSR.entry_of_mem s2 s5 hi3 hv
  simp only [Int.toNat_natCast] at this
  rw [this]
  exact s7 _ hi3 _ hv

/-- C98. Rows and columns selected from a product are the product of the selected rows of the left factor and the
selected columns of the right factor. (`select` wants sorted rows without repeated positions, so the product goes
through `sum_duplicates` first.) -/
theorem C98_select_mul [NonUnitalNonAssocSemiring T] [DecidableEq T] (t : IntTy) (a b : CSR T) (ha : a.WF t) (hb : b.WF t)
    (hca : a.Canonical) (hcb : b.Canonical) (hd : a.cols = b.rows) (ri ci : List Int)
    (hri : ∀ i ∈ ri, 0 ≤ i ∧ i < (a.rows : Int)) (hci : ∀ j ∈ ci, 0 ≤ j ∧ j < (b.cols : Int))
    (hsa : (a.stored : Int) < t.hi) (hsb : (b.stored : Int) < t.hi)
    (d1 : (a.rows : Int) ≤ t.hi) (d2 : (a.cols : Int) ≤ t.hi) (d3 : (b.cols : Int) ≤ t.hi) (d4 : (ci.length : Int) ≤ t.hi + 1)
    (f1 : ((a.rows * b.cols : Nat) : Int) < t.hi) (f2 : ((ri.length * a.cols : Nat) : Int) ≤ t.hi)
    (f3 : ((b.rows * ci.length : Nat) : Int) ≤ t.hi) (f4 : ((ri.length * ci.length : Nat) : Int) < t.hi) :
    ∃ ab s q a' b' r, a.mul t b = .ok ab ∧ ab.sum_duplicates t = .ok s ∧ s.select t (some ri) (some ci) = .ok q ∧
      a.select t (some ri) none = .ok a' ∧ b.select t none (some ci) = .ok b' ∧ a'.mul t b' = .ok r ∧ r.SameStored t q := by
  obtain ⟨ab, g1, g2, g3, g4, g5, g6, g7, g8⟩ := CSR.mul_facts ha hb hd f1
  obtain ⟨s, s1, s2, s3, s4, s5, s6, s7⟩ := CSR.sum_duplicates_nonzero g2 (by omega) g6 g7
  obtain ⟨s', s1', -, -, -, -, -, -, -, -, -, s8⟩ := C07_csr_sum_duplicates t ab g2 (by omega)
  cases s1.symm.trans s1'
  have pq := C22_pick_le s ri ci
  obtain ⟨q, q1, q2, q3, q4, q5, q6, q7, -⟩ := C22_csr_select t s s2 s5 (s2.start_lt (by omega)) (by omega) (by omega)
    (some ri) (some ci) (by rw [s3, g3]; exact hri) (by rw [s4, g4]; exact hci) d4 (by show ((s.pickCount ri ci : Nat) : Int) ≤ t.hi; omega)
  have pa := C22_pick_le a ri (chosen a.cols none)
  rw [chosen_none_length] at pa
  obtain ⟨a', a1, a2, a3, a4, a5, a6, -⟩ := C22_csr_select t a ha hca (ha.start_lt hsa) d1 d2
    (some ri) none hri chosen_none_mem (by rw [chosen_none_length]; omega) (by show ((a.pickCount ri (chosen a.cols none) : Nat) : Int) ≤ t.hi; omega)
  have pb := C22_pick_le b (chosen b.rows none) ci
  rw [chosen_none_length] at pb
  obtain ⟨b', b1, b2, b3, b4, b5, b6, -⟩ := C22_csr_select t b hb hcb (hb.start_lt hsb) (by omega) d3
    none (some ci) chosen_none_mem hci d4 (by show ((b.pickCount (chosen b.rows none) ci : Nat) : Int) ≤ t.hi; omega)
  change q.rows = ri.length at q4
  change q.cols = ci.length at q5
  change a'.rows = ri.length at a4
  change b'.cols = ci.length at b5
  rw [chosen_none_length] at a5 b4
  obtain ⟨r, r1, r2, r3, r4, r5, r6, r7, r8⟩ := CSR.mul_facts (t := t) a2 b2 (by omega) (by rw [a4, b5]; exact f4)
  rw [a4, b5] at r8
  have hq : (q.stored : Int) < t.hi := by
    rw [CSR.nnz_stored q2] at q7
    have : q.stored = s.pickCount ri ci := Except.ok.inj q7
    omega
  refine ⟨ab, s, q, a', b', r, g1, s1, q1, a1, b1, r1, .of r2 q2 (by omega) (by omega) (by omega) hq r6 q3.noDup r7 ?_ ?_⟩
  · exact CSR.select_nonzero s2 s5.noDup s7 q2 q3.noDup q4 q5 (by rw [s3, g3]; exact hri) (by rw [s4, g4]; exact hci) q6
  · intro i j
    by_cases hi : i < ri.length
    swap
    · rw [CSR.entry_out r2 (by omega), CSR.entry_out q2 (by omega)]
    by_cases hj : j < ci.length
    swap
    · rw [CSR.entry_out r2 (by omega), CSR.entry_out q2 (by omega)]
    have hi2 := hri _ (List.getElem_mem hi)
    have hj2 := hci _ (List.getElem_mem hj)
    have ei : ri[i]? = some ((ri[i].toNat : Nat) : Int) := by rw [List.getElem?_eq_getElem hi]; congr 1; omega
    have ej : ci[j]? = some ((ci[j].toNat : Nat) : Int) := by rw [List.getElem?_eq_getElem hj]; congr 1; omega
    rw [(q6 i j _ _ ei ej).1, s6, g5, r5, a5]
    refine Finset.sum_congr rfl fun k hk => ?_
    rw [Finset.mem_range] at hk
    rw [(a6 i k _ k ei (chosen_none_get hk)).1, (b6 k j k _ (chosen_none_get (by omega)) ej).1]

/-- C98. `[A B] [C; D]` stores what `A C + B D` stores. -/
theorem C98_stack_mul [NonUnitalNonAssocSemiring T] [DecidableEq T] (t : IntTy) (a b c d : Coo T) (ha : a.WF t) (hb : b.WF t)
    (hc : c.WF t) (hd : d.WF t) (h1 : a.rows = b.rows) (h2 : c.cols = d.cols) (h3 : a.cols = c.rows) (h4 : b.cols = d.rows)
    (f1 : ((a.cols + b.cols : Nat) : Int) ≤ t.hi + 1) (f2 : ((a.nnz + b.nnz : Nat) : Int) < t.hi)
    (f3 : ((c.nnz + d.nnz : Nat) : Int) < t.hi) (f4 : ((a.rows * c.cols + a.rows * c.cols : Nat) : Int) < t.hi) :
    ∃ H V h v r a' b' c' d' ac bd s, Coo.h_stack t a b = .ok H ∧ Coo.v_stack t c d = .ok V ∧ H.to_csr t = .ok h ∧
      V.to_csr t = .ok v ∧ h.mul t v = .ok r ∧ a.to_csr t = .ok a' ∧ b.to_csr t = .ok b' ∧ c.to_csr t = .ok c' ∧
      d.to_csr t = .ok d' ∧ a'.mul t c' = .ok ac ∧ b'.mul t d' = .ok bd ∧ ac.add t bd = .ok s ∧ r.SameStored t s := by
  obtain ⟨H, H1, H2, H3, H4, H5, H6⟩ := (C26_h_stack t a b ha hb).2 h1 f1
  obtain ⟨V, V1, V2, V3, V4, V5, V6⟩ := (C26_v_stack t c d hc hd).2 h2 (by rw [← h3, ← h4]; exact f1)
  obtain ⟨h, g1, g2, g3, g4, -, g5, -⟩ := C01_coo_to_csr t H H2 (by change ((H.nnz : Nat) : Int) < t.hi; rw [H5]; exact f2)
  obtain ⟨v, k1, k2, k3, k4, -, k5, -⟩ := C01_coo_to_csr t V V2 (by change ((V.nnz : Nat) : Int) < t.hi; rw [V5]; exact f3)
  obtain ⟨a', a1, a2, a3, a4, -, a5, -⟩ := C01_coo_to_csr t a ha (by unfold Coo.nnz at f2; omega)
  obtain ⟨b', b1, b2, b3, b4, -, b5, -⟩ := C01_coo_to_csr t b hb (by unfold Coo.nnz at f2; omega)
  obtain ⟨c', c1, c2, c3, c4, -, c5, -⟩ := C01_coo_to_csr t c hc (by unfold Coo.nnz at f3; omega)
  obtain ⟨d', d1, d2, d3, d4, -, d5, -⟩ := C01_coo_to_csr t d hd (by unfold Coo.nnz at f3; omega)
  obtain ⟨r, r1, r2, r3, r4, r5, r6, r7, r8⟩ := CSR.mul_facts (t := t) g2 k2 (by omega) (by rw [g3, k4, H3, V4]; omega)
  obtain ⟨ac, m1, m2, m3, m4, m5, -, -, m8⟩ := CSR.mul_facts (t := t) a2 c2 (by omega) (by rw [a3, c4]; omega)
  obtain ⟨bd, n1, n2, n3, n4, n5, -, -, n8⟩ := CSR.mul_facts (t := t) b2 d2 (by omega) (by rw [b3, d4, ← h1, ← h2]; omega)
  rw [g3, k4, H3, V4] at r8
  rw [a3, c4] at m8
  rw [b3, d4, ← h1, ← h2] at n8
  obtain ⟨s, s1, s2, s3, s4, s5, s6, s7, s8⟩ := CSR.add_facts (t := t) m2 n2 (by omega) (by omega) (by omega)
  refine ⟨H, V, h, v, r, a', b', c', d', ac, bd, s, H1, V1, g1, k1, r1, a1, b1, c1, d1, m1, n1, s1,
    .of r2 s2 (by omega) (by omega) (by omega) (by omega) r6 s6 r7 s7 fun i j => ?_⟩
  rw [r5, s5, m5, n5, g4, H4, a4, b4, Finset.sum_range_add]
  congr 1
  · refine Finset.sum_congr rfl fun k hk => ?_
    rw [Finset.mem_range] at hk
    rw [g5, k5, a5, c5, H6, V6, hcat, vcat, if_pos hk, if_pos (by omega)]
  · refine Finset.sum_congr rfl fun k hk => ?_
    rw [g5, k5, b5, d5, H6, V6, hcat, vcat, if_neg (by omega), if_neg (by omega), h3, Nat.add_sub_cancel_left]

/-- C98. Multiplying a vector by `[A; B]` gives the products with `A` and with `B` one after the other; multiplying a
concatenated vector by `[A B]` adds the products of the parts. -/
theorem C98_stack_vec [NonUnitalNonAssocSemiring T] (t : IntTy) (a b : Coo T) (ha : a.WF t) (hb : b.WF t)
    (f : ((a.nnz + b.nnz : Nat) : Int) < t.hi) :
    (∀ x : List T, a.cols = b.cols → x.length = a.cols → ((a.rows + b.rows : Nat) : Int) ≤ t.hi + 1 →
      ∃ V v a' b' ax bx, Coo.v_stack t a b = .ok V ∧ V.to_csr t = .ok v ∧ a.to_csr t = .ok a' ∧ b.to_csr t = .ok b' ∧
        a'.mat_vec x = .ok ax ∧ b'.mat_vec x = .ok bx ∧ v.mat_vec x = .ok (ax ++ bx)) ∧
    ∀ x y : List T, a.rows = b.rows → x.length = a.cols → y.length = b.cols → ((a.cols + b.cols : Nat) : Int) ≤ t.hi + 1 →
      ∃ H h a' b' ax by', Coo.h_stack t a b = .ok H ∧ H.to_csr t = .ok h ∧ a.to_csr t = .ok a' ∧ b.to_csr t = .ok b' ∧
        a'.mat_vec x = .ok ax ∧ b'.mat_vec y = .ok by' ∧ ax.length = a.rows ∧ by'.length = a.rows ∧
        h.mat_vec (x ++ y) = .ok (ax.zipWith (· + ·) by') := by
  obtain ⟨a', a1, a2, a3, a4, -, a5, -⟩ := C01_coo_to_csr t a ha (by unfold Coo.nnz at f; omega)
  obtain ⟨b', b1, b2, b3, b4, -, b5, -⟩ := C01_coo_to_csr t b hb (by unfold Coo.nnz at f; omega)
  refine ⟨fun x h1 hx hf => ?_, fun x y h1 hx hy hf => ?_⟩
  · obtain ⟨V, V1, V2, V3, V4, V5, V6⟩ := (C26_v_stack t a b ha hb).2 h1 hf
    obtain ⟨v, k1, k2, k3, k4, -, k5, -⟩ := C01_coo_to_csr t V V2 (by change ((V.nnz : Nat) : Int) < t.hi; rw [V5]; exact f)
    refine ⟨V, v, a', b', _, _, V1, k1, a1, b1, (C11_csr_mat_vec t a' a2 x).2 (by omega),
      (C11_csr_mat_vec t b' b2 x).2 (by omega), ?_⟩
    rw [(C11_csr_mat_vec t v k2 x).2 (by omega), k3, V3, List.range_add, List.map_append, List.map_map, k4, V4, a3, a4, b3, b4]
    congr 2
    · refine List.map_congr_left fun i hi => Finset.sum_congr rfl fun k hk => ?_
      rw [List.mem_range] at hi
      rw [k5, a5, V6, vcat, if_pos hi]
    · refine List.map_congr_left fun i hi => ?_
      simp only [Function.comp]
      rw [← h1]
      refine Finset.sum_congr rfl fun k hk => ?_
      rw [k5, b5, V6, vcat, if_neg (by omega), Nat.add_sub_cancel_left]
  · obtain ⟨H, H1, H2, H3, H4, H5, H6⟩ := (C26_h_stack t a b ha hb).2 h1 hf
    obtain ⟨h, g1, g2, g3, g4, -, g5, -⟩ := C01_coo_to_csr t H H2 (by change ((H.nnz : Nat) : Int) < t.hi; rw [H5]; exact f)
    refine ⟨H, h, a', b', _, _, H1, g1, a1, b1, (C11_csr_mat_vec t a' a2 x).2 (by omega),
      (C11_csr_mat_vec t b' b2 y).2 (by omega), by simp [a3], by simp [b3, h1], ?_⟩
    rw [(C11_csr_mat_vec t h g2 _).2 (by simp; omega), g3, H3, a3, b3, ← h1, List.zipWith_map, List.zipWith_self]
    congr 1
    refine List.map_congr_left fun i hi => ?_
    rw [g4, H4, Finset.sum_range_add, a4, b4]
    congr 1
    · refine Finset.sum_congr rfl fun k hk => ?_
      rw [Finset.mem_range] at hk
      rw [g5, a5, H6, hcat, if_pos hk, List.getD_append _ _ _ _ (by omega)]
    · refine Finset.sum_congr rfl fun k hk => ?_
      rw [g5, b5, H6, hcat, if_neg (by omega), Nat.add_sub_cancel_left, List.getD_append_right _ _ _ _ (by omega), hx,
        Nat.add_sub_cancel_left]

/-- C98. The transpose of `[A B]` is `[Aᵀ; Bᵀ]` and the transpose of `[A; B]` is `[Aᵀ Bᵀ]`, array by array, whatever the
scalars; the calls also fail alike. -/
theorem C98_transpose_stack (t : IntTy) (a b : Coo T) (ha : a.WF t) (hb : b.WF t) :
    Coo.v_stack t a.transpose b.transpose = (Coo.h_stack t a b).map Coo.transpose ∧
    Coo.h_stack t a.transpose b.transpose = (Coo.v_stack t a b).map Coo.transpose := by
  obtain ⟨la1, la2, -⟩ := ha
  obtain ⟨lb1, lb2, -⟩ := hb
  have shl : ∀ n (l r : List Int), shiftM t n l = .ok r → r.length = l.length := by
    intro n l
    induction l with
    | nil => intro r h; cases h; rfl
    | cons x l ih =>
      intro r h
      unfold shiftM at h ih
      rw [List.mapM_cons] at h
      cases h1 : (do IdxTy.add t x (← IdxTy.ofUsize t n)) with
      | error e => rw [h1] at h; cases h
      | ok y =>
        rw [h1] at h
        cases h2 : (l.mapM fun r => do IdxTy.add t r (← IdxTy.ofUsize t n)) with
        | error e => simp only [bind, Except.bind] at h h2; rw [h2] at h; cases h
        | ok ys =>
          simp only [bind, Except.bind] at h h2
          rw [h2] at h
          cases h
          simp [ih ys (by simpa only [bind, Except.bind] using h2)]
  unfold Coo.v_stack Coo.h_stack Coo.transpose
  constructor
  · by_cases h : a.rows ≠ b.rows
    · simp only [if_pos h]; rfl
    · simp only [if_neg h]
      cases h1 : shiftM t a.cols b.colidx with
      | error e => rfl
      | ok r =>
        have := shl _ _ _ h1
        simp only [bind, Except.bind, pure, Except.pure]
        unfold Coo.new
        rw [if_neg (by simp; omega)]
        rfl
  · by_cases h : a.cols ≠ b.cols
    · simp only [if_pos h]; rfl
    · simp only [if_neg h]
      cases h1 : shiftM t a.rows b.rowidx with
      | error e => rfl
      | ok r =>
        have := shl _ _ _ h1
        simp only [bind, Except.bind, pure, Except.pure]
        unfold Coo.new
        rw [if_neg (by simp; omega)]
        rfl

theorem CSR.Canonical.collapse_valuesAt [Add T] {t : IntTy} {a : CSR T} (ha : a.WF t) (h : a.Canonical) (i j : Nat) :
    collapse (a.valuesAt i j) = a.valuesAt i j := by
  by_cases hi : i < a.rows
  · exact collapse_strict (h i hi) _
  · rw [CSR.valuesAt_out ha (by omega)]; rfl

theorem countP_has_le {t : IntTy} {a : CSR T} (ha : a.WF t) {i : Nat} {cols : List Int} (hc : ∀ j ∈ cols, 0 ≤ j)
    (hd : cols.Nodup) [DecidablePred fun j : Int => a.has i j.toNat] :
    (cols.countP fun j => decide (a.has i j.toNat)) ≤ (a.row i).length := by
  rw [List.countP_eq_length_filter, ← List.length_map (f := fun e : Int × T => e.1) (as := a.row i)]
  refine (List.subperm_of_subset (hd.filter _) fun j hj => ?_).length_le
  rw [List.mem_filter, decide_eq_true_eq] at hj
  obtain ⟨v, hv⟩ := hj.2
  rw [Int.toNat_of_nonneg (hc j hj.1)] at hv
  exact List.mem_map.2 ⟨_, hv, rfl⟩

/-- selecting different columns picks no more than what is stored -/
theorem CSR.pickCount_le_stored {t : IntTy} {a : CSR T} (ha : a.WF t) {cols : List Int} (hc : ∀ j ∈ cols, 0 ≤ j) (hd : cols.Nodup) :
    a.pickCount (chosen a.rows none) cols ≤ a.stored := by
  unfold CSR.pickCount CSR.stored chosen
  rw [List.map_map]
  refine List.sum_le_sum fun i _ => ?_
  simp only [Function.comp, Int.toNat_natCast]
  classical exact @countP_has_le T t a ha i cols hc hd (fun _ => Classical.propDecidable _)

/-- C98. Selecting the columns of a block out of `[A B]` gives the block back, array by array. -/
theorem C98_unstack [AddCommMonoid T] (t : IntTy) (a b : CSR T) (ha : a.WF t) (hb : b.WF t) (hca : a.Canonical) (hcb : b.Canonical)
    (ha1 : a.colidx.length = a.stored) (ha2 : a.values.length = a.stored)
    (hb1 : b.colidx.length = b.stored) (hb2 : b.values.length = b.stored) (h : a.rows = b.rows) (hr : (a.rows : Int) ≤ t.hi)
    (hc : ((a.cols + b.cols : Nat) : Int) ≤ t.hi) (hn : ((a.stored + b.stored : Nat) : Int) < t.hi) :
    ∃ r, CSR.h_stack t a b = .ok r ∧
      r.select t none (some ((List.range a.cols).map fun j : Nat => (j : Int))) = .ok a ∧
      r.select t none (some ((List.range b.cols).map fun j : Nat => (a.cols : Int) + (j : Int))) = .ok b := by
  obtain ⟨r, r1, r2, r3, r4, r5, r6⟩ := C66_csr_h_stack_partial t a b ha hb ha1 ha2 hb1 hb2 (by omega) h (by omega) hn
  have hs : r.stored ≤ a.stored + b.stored := by
    obtain ⟨p, p1, p2, p3, p4, p5, p6, -⟩ := C05_csr_to_coo_partial t a ha (by omega) ha1 ha2
    obtain ⟨q, q1, q2, q3, q4, q5, q6, -⟩ := C05_csr_to_coo_partial t b hb (by omega) hb1 hb2
    obtain ⟨m, m1, m2, m3, m4, m5, -⟩ := (C26_h_stack t p q p2 q2).2 (by omega) (by rw [p4, q4]; omega)
    unfold Coo.nnz at m5
    obtain ⟨s, s1, -, -, -, -, -, -, -, -, -, s2⟩ := C01_coo_to_csr t m m2 (by omega)
    have : CSR.h_stack t a b = .ok s := by
      unfold CSR.h_stack
      rw [p1, q1]
      simp only [bind, Except.bind]
      rw [m1]
      exact s1
    cases this.symm.trans r1
    omega
  have key : ∀ (m : CSR T) (o : Nat), m.WF t → m.Canonical → m.colidx.length = m.stored → m.values.length = m.stored →
      m.rows = r.rows → o + m.cols ≤ r.cols → (∀ i j, j < m.cols → r.valuesAt i (o + j) = m.valuesAt i j) →
      r.select t none (some ((List.range m.cols).map fun j : Nat => (o : Int) + (j : Int))) = .ok m := by
    intro m o hm hcm l1 l2 hmr hmo hv
    have hnd : ((List.range m.cols).map fun j : Nat => (o : Int) + (j : Int)).Nodup := by
      refine List.Nodup.map (fun x y h => ?_) List.nodup_range
      have : (o : Int) + (x : Int) = (o : Int) + (y : Int) := h
      omega
    have hpos : ∀ j ∈ (List.range m.cols).map fun j : Nat => (o : Int) + (j : Int), 0 ≤ j ∧ j < (r.cols : Int) := by
      intro j hj
      rw [List.mem_map] at hj
      obtain ⟨k, hk, rfl⟩ := hj
      rw [List.mem_range] at hk
      omega
    have hp := CSR.pickCount_le_stored r2 (fun j hj => (hpos j hj).1) hnd
    have A := C22_csr_select t r r2 r3 (r2.start_lt (by omega)) (by omega) (by omega) none
      (some ((List.range m.cols).map fun j : Nat => (o : Int) + (j : Int))) chosen_none_mem hpos (by simp [chosen]; omega)
      (by show ((r.pickCount (chosen r.rows none) _ : Nat) : Int) ≤ t.hi; exact (Int.ofNat_le.2 hp).trans (by omega))
    have B := C66_csr_select t r r2 r3 (r2.start_lt (by omega)) (by omega) (by omega) none
      (some ((List.range m.cols).map fun j : Nat => (o : Int) + (j : Int))) chosen_none_mem hpos (by simp [chosen]; omega)
      (by show ((r.pickCount (chosen r.rows none) _ : Nat) : Int) ≤ t.hi; exact (Int.ofNat_le.2 hp).trans (by omega))
    obtain ⟨q, q1, q2, q3, q4, q5, -, -, q6, q7⟩ := A
    obtain ⟨q', q1', -, -, -, -, q8⟩ := B
    cases q1.symm.trans q1'
    rw [chosen_none_length] at q4
    simp only [chosen, List.length_map, List.length_range] at q5
    rw [q1]
    congr 1
    refine CSR.ext_of q2 hm (by omega) q5 q3.sorted hcm.sorted q6 q7 l1 l2 fun i j => ?_
    by_cases hij : i < q.rows ∧ j < q.cols
    · rw [q8 i j i (o + j) (chosen_none_get (by omega)) (by simp [chosen, show j < m.cols by omega]), hv i j (by omega)]
    · rw [CSR.valuesAt_out q2 hij, CSR.valuesAt_out hm (by omega)]
  refine ⟨r, r1, ?_, ?_⟩
  · have := key a 0 ha hca ha1 ha2 (by omega) (by omega) fun i j hj => by
      rw [Nat.zero_add, r6, hcat, if_pos hj, hca.collapse_valuesAt ha]
    simpa using this
  · exact key b a.cols hb hcb hb1 hb2 (by omega) (by omega) fun i j hj => by
      rw [r6, hcat, if_neg (by omega), Nat.add_sub_cancel_left, hcb.collapse_valuesAt hb]

theorem CSC.entry_of_mem [AddCommMonoid T] {t : IntTy} {a : CSC T} (ha : a.WF t) (hd : a.NoDup) {j : Nat} (hj : j < a.cols)
    {e : Int × T} (he : e ∈ a.col j) : a.entry e.1.toNat j = e.2 := by
  unfold CSC.entry
  rw [Int.toNat_of_nonneg (CSR.WF.mem (a := a.asCSR) ha hj he).1, rowSum_nodup (hd j hj) he]

theorem valuesIn_singleton {r : List (Int × T)} (h : (r.map (·.1)).Nodup) {e : Int × T} (he : e ∈ r) : valuesIn r e.1 = [e.2] := by
  induction r with
  | nil => cases he
  | cons f r ih =>
    rw [List.map_cons, List.nodup_cons] at h
    rw [valuesIn_cons]
    rcases List.mem_cons.1 he with rfl | he
    · rw [if_pos rfl, valuesIn_eq_nil fun g hg hh => h.1 (List.mem_map.2 ⟨g, hg, hh⟩)]
      rfl
    · rw [if_neg fun hh => h.1 (List.mem_map.2 ⟨e, he, hh.symm⟩)]
      exact ih h.2 he

/-- every list of values of a position of such a matrix is empty or one value other than zero -/
theorem CSC.valuesAt_nonzero [Zero T] {t : IntTy} {a : CSC T} (ha : a.WF t) (hd : a.NoDup) (hz : ∀ j < a.cols, ∀ e ∈ a.col j, e.2 ≠ 0)
    (i j : Nat) : a.valuesAt i j = [] ∨ ∃ v, v ≠ 0 ∧ a.valuesAt i j = [v] := by
  by_cases hj : j < a.cols
  · by_cases h : ∃ e ∈ a.col j, e.1 = (i : Int)
    · obtain ⟨e, he, hi⟩ := h
      refine .inr ⟨e.2, hz j hj e he, ?_⟩
      unfold CSC.valuesAt
      rw [← hi]
      exact valuesIn_singleton (hd j hj) he
    · exact .inl (valuesIn_eq_nil fun e he hh => h ⟨e, he, hh⟩)
  · exact .inl (CSC.valuesAt_out ha (by omega))

/-- C98. The product of two matrices put together from four blocks each stores what the four blocks `A E + B G`, `A F + B H`,
`C E + D G`, `C F + D H` put together store. -/
theorem C98_compose_mul [NonUnitalNonAssocCommSemiring T] [DecidableEq T] (t : IntTy) (A B C D E F G H : CSC T)
    (hA : A.WF t) (hB : B.WF t) (hC : C.WF t) (hD : D.WF t) (hE : E.WF t) (hF : F.WF t) (hG : G.WF t) (hH : H.WF t)
    (p q m n u v : Nat) (sA : A.rows = p ∧ A.cols = m) (sB : B.rows = p ∧ B.cols = n) (sC : C.rows = q ∧ C.cols = m)
    (sD : D.rows = q ∧ D.cols = n) (sE : E.rows = m ∧ E.cols = u) (sF : F.rows = m ∧ F.cols = v)
    (sG : G.rows = n ∧ G.cols = u) (sH : H.rows = n ∧ H.cols = v)
    (f1 : ((p + q : Nat) : Int) ≤ t.hi + 1) (f2 : ((m + n : Nat) : Int) ≤ t.hi + 1) (f3 : ((u + v : Nat) : Int) ≤ t.hi + 1)
    (f4 : ((A.stored + B.stored + C.stored + D.stored : Nat) : Int) < t.hi)
    (f5 : ((E.stored + F.stored + G.stored + H.stored : Nat) : Int) < t.hi)
    (f6 : ((2 * ((p + q) * (u + v)) : Nat) : Int) < t.hi) :
    ∃ X Y r AE BG AF BH CE DG CF DH P Q R S s, CSC.compose t A B C D = .ok X ∧ CSC.compose t E F G H = .ok Y ∧ X.mul t Y = .ok r ∧
      A.mul t E = .ok AE ∧ B.mul t G = .ok BG ∧ A.mul t F = .ok AF ∧ B.mul t H = .ok BH ∧
      C.mul t E = .ok CE ∧ D.mul t G = .ok DG ∧ C.mul t F = .ok CF ∧ D.mul t H = .ok DH ∧
      AE.add_op t BG = .ok P ∧ AF.add_op t BH = .ok Q ∧ CE.add_op t DG = .ok R ∧ CF.add_op t DH = .ok S ∧
      CSC.compose t P Q R S = .ok s ∧ r.SameStored t s := by
  have ex : (p + q) * (u + v) = p * u + p * v + q * u + q * v := by
    rw [Nat.add_mul, Nat.mul_add, Nat.mul_add]; omega
  have w1 : ((2 * (p * u) : Nat) : Int) < t.hi := by omega
  have w2 : ((2 * (p * v) : Nat) : Int) < t.hi := by omega
  have w3 : ((2 * (q * u) : Nat) : Int) < t.hi := by omega
  have w4 : ((2 * (q * v) : Nat) : Int) < t.hi := by omega
  have w0 : (((p + q) * (u + v) : Nat) : Int) < t.hi := by omega
  have f7 : ((2 * (p * u) + 2 * (p * v) + 2 * (q * u) + 2 * (q * v) : Nat) : Int) < t.hi := by omega
  have mul : ∀ (M N : CSC T) (x y z : Nat), M.WF t → N.WF t → M.rows = x ∧ M.cols = y → N.rows = y ∧ N.cols = z →
      ((2 * (x * z) : Nat) : Int) < t.hi → ∃ R, M.mul t N = .ok R ∧ R.WF t ∧ (R.rows = x ∧ R.cols = z) ∧
        (∀ i k, R.entry i k = ∑ j ∈ Finset.range y, M.entry i j * N.entry j k) ∧ R.stored ≤ x * z := by
    rintro M N x y z hM hN ⟨rfl, rfl⟩ ⟨h1, rfl⟩ h2
    obtain ⟨R, g1, g2, g3, g4, g5, -, -, g8⟩ := CSC.mul_facts (t := t) hM hN h1.symm (by clear * - h2; omega)
    exact ⟨R, g1, g2, ⟨g3, g4⟩, g5, g8⟩
  have add : ∀ (M N : CSC T) (x z : Nat), M.WF t → N.WF t → (M.rows = x ∧ M.cols = z) → (N.rows = x ∧ N.cols = z) →
      M.stored ≤ x * z → N.stored ≤ x * z → ((2 * (x * z) : Nat) : Int) < t.hi →
      ∃ R, M.add_op t N = .ok R ∧ R.WF t ∧ (R.rows = x ∧ R.cols = z) ∧ (∀ i j, R.entry i j = M.entry i j + N.entry i j) ∧
        R.NoDup ∧ (∀ j < R.cols, ∀ e ∈ R.col j, e.2 ≠ 0) ∧ R.stored ≤ 2 * (x * z) := by
    rintro M N x z hM hN ⟨rfl, rfl⟩ ⟨h1, h2⟩ h3 h4 h5
    obtain ⟨R, g1, g2, g3, g4, g5, g6, g7, g8⟩ := CSC.add_facts (t := t) hM hN h1 h2 (by clear * - h3 h4 h5; omega)
    exact ⟨R, g1, g2, ⟨g3, g4⟩, g5, g6, g7, by clear * - h3 h4 g8; omega⟩
  have comp : ∀ (M N K L : CSC T) (x y z w : Nat), M.WF t → N.WF t → K.WF t → L.WF t → (M.rows = x ∧ M.cols = z) → (N.rows = x ∧ N.cols = w) →
      (K.rows = y ∧ K.cols = z) → (L.rows = y ∧ L.cols = w) → ((x + y : Nat) : Int) ≤ t.hi + 1 → ((z + w : Nat) : Int) ≤ t.hi + 1 →
      ((M.stored + N.stored + K.stored + L.stored : Nat) : Int) < t.hi →
      ∃ R, CSC.compose t M N K L = .ok R ∧ R.WF t ∧ R.Canonical ∧ (R.rows = x + y ∧ R.cols = z + w) ∧
        (∀ i j, R.entry i j = vcat x (hcat z M.entry N.entry) (hcat z K.entry L.entry) i j) ∧
        ∀ i j, R.valuesAt i j = collapse (vcat x (hcat z M.valuesAt N.valuesAt) (hcat z K.valuesAt L.valuesAt) i j) := by
    rintro M N K L x y z w hM hN hK hL ⟨rfl, rfl⟩ ⟨h1, rfl⟩ ⟨rfl, h2⟩ ⟨h3, h4⟩ h5 h6 h7
    obtain ⟨R, g1, g2, g3, g4, g5, g6⟩ := C27_csc_compose t M N K L hM hN hK hL h1.symm h3.symm h2.symm h4.symm h5 h6 h7
    obtain ⟨R', g1', -, -, -, -, g7⟩ := C66_csc_compose t M N K L hM hN hK hL h1.symm h3.symm h2.symm h4.symm h5 h6 h7
    cases g1.symm.trans g1'
    exact ⟨R, g1, g2, g3, ⟨g4, g5⟩, g6, g7⟩
  obtain ⟨X, X1, X2, -, X3, X5, -⟩ := comp A B C D p q m n hA hB hC hD sA sB sC sD f1 f2 f4
  obtain ⟨Y, Y1, Y2, -, Y3, Y5, -⟩ := comp E F G H m n u v hE hF hG hH sE sF sG sH f2 f3 f5
  obtain ⟨r, r1, r2, r3, r4, r5, r6, r7, r8⟩ := CSC.mul_facts (t := t) X2 Y2 (X3.2.trans Y3.1.symm) (by rw [X3.1, Y3.2]; exact w0)
  rw [X3.1, Y3.2] at r8
  obtain ⟨AE, ae1, ae2, ae3, ae5, ae6⟩ := mul A E p m u hA hE sA sE w1
  obtain ⟨BG, bg1, bg2, bg3, bg5, bg6⟩ := mul B G p n u hB hG sB sG w1
  obtain ⟨AF, af1, af2, af3, af5, af6⟩ := mul A F p m v hA hF sA sF w2
  obtain ⟨BH, bh1, bh2, bh3, bh5, bh6⟩ := mul B H p n v hB hH sB sH w2
  obtain ⟨CE, ce1, ce2, ce3, ce5, ce6⟩ := mul C E q m u hC hE sC sE w3
  obtain ⟨DG, dg1, dg2, dg3, dg5, dg6⟩ := mul D G q n u hD hG sD sG w3
  obtain ⟨CF, cf1, cf2, cf3, cf5, cf6⟩ := mul C F q m v hC hF sC sF w4
  obtain ⟨DH, dh1, dh2, dh3, dh5, dh6⟩ := mul D H q n v hD hH sD sH w4
  obtain ⟨P, P1, P2, P3, P5, P6, P7, P8⟩ := add AE BG p u ae2 bg2 ae3 bg3 ae6 bg6 w1
  obtain ⟨Q, Q1, Q2, Q3, Q5, Q6, Q7, Q8⟩ := add AF BH p v af2 bh2 af3 bh3 af6 bh6 w2
  obtain ⟨R, R1, R2, R3, R5, R6, R7, R8⟩ := add CE DG q u ce2 dg2 ce3 dg3 ce6 dg6 w3
  obtain ⟨S, S1, S2, S3, S5, S6, S7, S8⟩ := add CF DH q v cf2 dh2 cf3 dh3 cf6 dh6 w4
  obtain ⟨s, s1, s2, s3, s4, s6, s7⟩ := comp P Q R S p q u v P2 Q2 R2 S2 P3 Q3 R3 S3 f1 f3 (by clear * - P8 Q8 R8 S8 f7; omega)
  have hst : (s.stored : Int) < t.hi := by
    have h1 := s2.stored_le_cells s3.noDup
    rw [s4.1, s4.2] at h1
    clear * - h1 w0
    omega
  have hrs : (r.stored : Int) < t.hi := by clear * - r8 w0; omega
  refine ⟨X, Y, r, AE, BG, AF, BH, CE, DG, CF, DH, P, Q, R, S, s, X1, Y1, r1, ae1, bg1, af1, bh1, ce1, dg1, cf1, dh1, P1, Q1, R1, S1, s1,
    .of r2 s2 (by rw [r3, X3.1, s4.1]) (by rw [r4, Y3.2, s4.2]) hrs hst r6 s3.noDup r7 ?_ ?_⟩
  · intro j hj e he
    have h0 := CSR.WF.mem (a := s.asCSR) s2 hj he
    have h1 : s.valuesAt e.1.toNat j = [e.2] := by
      unfold CSC.valuesAt
      rw [Int.toNat_of_nonneg h0.1]
      exact valuesIn_singleton (s3.noDup j hj) he
    rw [s7] at h1
    have nz : ∀ (M : CSC T), M.WF t → M.NoDup → (∀ j < M.cols, ∀ e ∈ M.col j, e.2 ≠ 0) → ∀ i k,
        collapse (M.valuesAt i k) = [e.2] → e.2 ≠ 0 := by
      intro M h2 h3 h4 i k h5
      rcases CSC.valuesAt_nonzero h2 h3 h4 i k with h6 | ⟨w, h6, h7⟩
      · rw [h6] at h5; cases h5
      · rw [h7] at h5
        cases h5
        exact h6
    unfold vcat hcat at h1
    split at h1 <;> split at h1
    · exact nz P P2 P6 P7 _ _ h1
    · exact nz Q Q2 Q6 Q7 _ _ h1
    · exact nz R R2 R6 R7 _ _ h1
    · exact nz S S2 S6 S7 _ _ h1
  · intro i k
    rw [r5, X3.2, Finset.sum_range_add, s6]
    have e1 : ∀ j < m, X.entry i j = if i < p then A.entry i j else C.entry (i - p) j := by
      intro j hj
      rw [X5, vcat, hcat, hcat, if_pos hj, if_pos hj]
    have e2 : ∀ j, X.entry i (m + j) = if i < p then B.entry i j else D.entry (i - p) j := by
      intro j
      rw [X5, vcat, hcat, hcat, if_neg (Nat.not_lt.2 (Nat.le_add_right m j)), if_neg (Nat.not_lt.2 (Nat.le_add_right m j)),
        Nat.add_sub_cancel_left]
    have e3 : ∀ j < m, Y.entry j k = if k < u then E.entry j k else F.entry j (k - u) := by
      intro j hj
      rw [Y5, vcat, if_pos hj, hcat]
    have e4 : ∀ j, Y.entry (m + j) k = if k < u then G.entry j k else H.entry j (k - u) := by
      intro j
      rw [Y5, vcat, if_neg (Nat.not_lt.2 (Nat.le_add_right m j)), hcat, Nat.add_sub_cancel_left]
    rw [Finset.sum_congr rfl fun j hj => by rw [e1 j (Finset.mem_range.1 hj), e3 j (Finset.mem_range.1 hj)],
      Finset.sum_congr (s₁ := Finset.range n) rfl fun j hj => by rw [e2, e4]]
    unfold vcat hcat
    by_cases hi : i < p <;> by_cases hk : k < u <;> simp only [hi, hk, if_true, if_false, P5, Q5, R5, S5, ae5, bg5, af5, bh5, ce5, dg5, cf5, dh5]

theorem countP_or_le {α : Type} {p q r : α → Bool} {l : List α} (h : ∀ x ∈ l, p x → q x ∨ r x) : l.countP p ≤ l.countP q + l.countP r := by
  induction l with
  | nil => simp
  | cons x l ih =>
    have h1 := ih fun y hy => h y (List.mem_cons_of_mem _ hy)
    have h2 := h x List.mem_cons_self
    rw [List.countP_cons, List.countP_cons, List.countP_cons]
    cases hp : p x
    · simp; omega
    · rcases h2 hp with h3 | h3 <;> simp only [h3, if_true] <;> omega

theorem CSR.pickCount_or_le {a b c : CSR T} {ri ci : List Int} (h : ∀ i j, c.has i j → a.has i j ∨ b.has i j) :
    c.pickCount ri ci ≤ a.pickCount ri ci + b.pickCount ri ci := by
  unfold CSR.pickCount
  induction ri with
  | nil => simp
  | cons i l ih =>
    have := countP_or_le (l := ci) (p := fun j => @decide (c.has i.toNat j.toNat) (Classical.propDecidable _))
      (q := fun j => @decide (a.has i.toNat j.toNat) (Classical.propDecidable _))
      (r := fun j => @decide (b.has i.toNat j.toNat) (Classical.propDecidable _)) fun j _ hj => by
        simp only [decide_eq_true_eq] at hj ⊢
        exact h _ _ hj
    simp only [List.map_cons, List.sum_cons]
    omega

/-- C98. Rows and columns selected from a sum are the sum of the selections. -/
theorem C98_select_add [AddCommMonoid T] [DecidableEq T] (t : IntTy) (a b : CSR T) (ha : a.WF t) (hb : b.WF t)
    (hca : a.Canonical) (hcb : b.Canonical) (h1 : b.rows = a.rows) (h2 : b.cols = a.cols) (ri ci : List Int)
    (hri : ∀ i ∈ ri, 0 ≤ i ∧ i < (a.rows : Int)) (hci : ∀ j ∈ ci, 0 ≤ j ∧ j < (a.cols : Int))
    (d1 : (a.rows : Int) ≤ t.hi) (d2 : (a.cols : Int) ≤ t.hi) (d3 : (ci.length : Int) ≤ t.hi + 1)
    (f1 : ((a.stored + b.stored : Nat) : Int) < t.hi) (f2 : ((a.pickCount ri ci + b.pickCount ri ci : Nat) : Int) < t.hi) :
    ∃ ab q a' b' r, a.add t b = .ok ab ∧ ab.select t (some ri) (some ci) = .ok q ∧
      a.select t (some ri) (some ci) = .ok a' ∧ b.select t (some ri) (some ci) = .ok b' ∧ a'.add t b' = .ok r ∧ r.SameStored t q := by
  obtain ⟨ab, g1, g2, g3, g4, g5, g6, g7, g8, g9, -⟩ := C15_csr_add t a b ha hb h1 h2 f1
  have hcab := g8 hca hcb
  have hle : ab.pickCount ri ci ≤ a.pickCount ri ci + b.pickCount ri ci := by
    refine CSR.pickCount_or_le fun i j ⟨v, hv⟩ => ?_
    have hi : i < ab.rows := by
      by_contra hi
      rw [g2.row_out (by omega)] at hv
      cases hv
    have e := CSR.entry_of_mem g2 g6 hi hv
    have hz := g7 i (by omega) _ hv
    simp only [Int.toNat_natCast] at e hz
    rw [← e, g5] at hz
    by_contra hn
    rw [not_or] at hn
    rw [not_not.1 (mt CSR.has_of_entry hn.1), not_not.1 (mt CSR.has_of_entry hn.2), add_zero] at hz
    exact hz rfl
  have hsab : ab.stored ≤ a.stored + b.stored := by have := g2.stored_le_values; omega
  obtain ⟨q, q1, q2, q3, q4, q5, q6, q7, -⟩ := C22_csr_select t ab g2 hcab (g2.start_lt (by omega)) (by omega) (by omega)
    (some ri) (some ci) (by rw [g3]; exact hri) (by rw [g4]; exact hci) d3
    (by show ((ab.pickCount ri ci : Nat) : Int) ≤ t.hi; omega)
  obtain ⟨a', a1, a2, a3, a4, a5, a6, a7, -⟩ := C22_csr_select t a ha hca (ha.start_lt (by omega)) d1 d2
    (some ri) (some ci) hri hci d3 (by show ((a.pickCount ri ci : Nat) : Int) ≤ t.hi; omega)
  obtain ⟨b', b1, b2, b3, b4, b5, b6, b7, -⟩ := C22_csr_select t b hb hcb (hb.start_lt (by omega)) (by omega) (by omega)
    (some ri) (some ci) (by rw [h1]; exact hri) (by rw [h2]; exact hci) d3 (by show ((b.pickCount ri ci : Nat) : Int) ≤ t.hi; omega)
  change q.rows = ri.length at q4
  change q.cols = ci.length at q5
  change a'.rows = ri.length at a4
  change a'.cols = ci.length at a5
  change b'.rows = ri.length at b4
  change b'.cols = ci.length at b5
  rw [CSR.nnz_stored q2] at q7
  rw [CSR.nnz_stored a2] at a7
  rw [CSR.nnz_stored b2] at b7
  have q8 : q.stored = ab.pickCount ri ci := Except.ok.inj q7
  have a8 : a'.stored = a.pickCount ri ci := Except.ok.inj a7
  have b8 : b'.stored = b.pickCount ri ci := Except.ok.inj b7
  obtain ⟨r, r1, r2, r3, r4, r5, r6, r7, r8⟩ := CSR.add_facts (t := t) a2 b2 (by omega) (by omega) (by omega)
  refine ⟨ab, q, a', b', r, g1, q1, a1, b1, r1, .of r2 q2 (by omega) (by omega) (by omega) (by omega) r6 q3.noDup r7 ?_ ?_⟩
  · exact CSR.select_nonzero g2 g6 (fun i hi => g7 i (by omega)) q2 q3.noDup q4 q5 (by rw [g3]; exact hri) (by rw [g4]; exact hci) q6
  · intro i j
    by_cases hi : i < ri.length
    swap
    · rw [CSR.entry_out r2 (by omega), CSR.entry_out q2 (by omega)]
    by_cases hj : j < ci.length
    swap
    · rw [CSR.entry_out r2 (by omega), CSR.entry_out q2 (by omega)]
    have hi2 := hri _ (List.getElem_mem hi)
    have hj2 := hci _ (List.getElem_mem hj)
    have ei : ri[i]? = some ((ri[i].toNat : Nat) : Int) := by rw [List.getElem?_eq_getElem hi]; congr 1; omega
    have ej : ci[j]? = some ((ci[j].toNat : Nat) : Int) := by rw [List.getElem?_eq_getElem hj]; congr 1; omega
    rw [(q6 i j _ _ ei ej).1, g5, r5, (a6 i j _ _ ei ej).1, (b6 i j _ _ ei ej).1]

/-- C98. Selecting from a selection is selecting once, through both lists: array by array. -/
theorem C98_select_select [AddCommMonoid T] (t : IntTy) (a : CSR T) (ha : a.WF t) (hca : a.Canonical) (ri ci ri' ci' : List Int)
    (hri : ∀ i ∈ ri, 0 ≤ i ∧ i < (a.rows : Int)) (hci : ∀ j ∈ ci, 0 ≤ j ∧ j < (a.cols : Int))
    (hri' : ∀ i ∈ ri', 0 ≤ i ∧ i < (ri.length : Int)) (hci' : ∀ j ∈ ci', 0 ≤ j ∧ j < (ci.length : Int))
    (d1 : (a.rows : Int) ≤ t.hi) (d2 : (a.cols : Int) ≤ t.hi) (d3 : (ri.length : Int) ≤ t.hi) (d4 : (ci.length : Int) ≤ t.hi)
    (d5 : (ci'.length : Int) ≤ t.hi + 1) (f1 : (a.stored : Int) < t.hi) (f2 : ((ri.length * ci.length : Nat) : Int) < t.hi)
    (f3 : ((ri'.length * ci'.length : Nat) : Int) ≤ t.hi) :
    ∃ b c, a.select t (some ri) (some ci) = .ok b ∧ b.select t (some ri') (some ci') = .ok c ∧
      a.select t (some (ri'.map fun i => ri.getD i.toNat 0)) (some (ci'.map fun j => ci.getD j.toNat 0)) = .ok c := by
  have sel : ∀ (m : CSR T) (u v : List Int), m.WF t → m.Canonical → (m.stored : Int) < t.hi → (m.rows : Int) ≤ t.hi →
      (m.cols : Int) ≤ t.hi → (∀ i ∈ u, 0 ≤ i ∧ i < (m.rows : Int)) → (∀ j ∈ v, 0 ≤ j ∧ j < (m.cols : Int)) →
      (v.length : Int) ≤ t.hi + 1 → ((u.length * v.length : Nat) : Int) ≤ t.hi →
      ∃ q, m.select t (some u) (some v) = .ok q ∧ q.WF t ∧ q.Canonical ∧ q.rows = u.length ∧ q.cols = v.length ∧
        q.colidx.length = q.stored ∧ q.values.length = q.stored ∧ q.stored ≤ u.length * v.length ∧
        ∀ (r c i j : Nat), u[r]? = some (i : Int) → v[c]? = some (j : Int) → q.valuesAt r c = m.valuesAt i j := by
    intro m u v h1 h2 h3 h4 h5 h6 h7 h8 h9
    have hp := C22_pick_le m u v
    obtain ⟨q, q1, q2, q3, q4, q5, -, q6, q7, q8⟩ := C22_csr_select t m h1 h2 (h1.start_lt h3) h4 h5 (some u) (some v) h6 h7 h8
      (by show ((m.pickCount u v : Nat) : Int) ≤ t.hi; omega)
    obtain ⟨q', q1', -, -, -, -, q9⟩ := C66_csr_select t m h1 h2 (h1.start_lt h3) h4 h5 (some u) (some v) h6 h7 h8
      (by show ((m.pickCount u v : Nat) : Int) ≤ t.hi; omega)
    cases q1.symm.trans q1'
    rw [CSR.nnz_stored q2] at q6
    have : q.stored = m.pickCount u v := Except.ok.inj q6
    exact ⟨q, q1, q2, q3, q4, q5, q7, q8, by omega, q9⟩
  obtain ⟨b, b1, b2, b3, b4, b5, -, -, b8, b9⟩ := sel a ri ci ha hca f1 d1 d2 hri hci (by omega) (by omega)
  obtain ⟨c, c1, c2, c3, c4, c5, c6, c7, -, c9⟩ := sel b ri' ci' b2 b3 (by omega) (by omega) (by omega) (by rw [b4]; exact hri')
    (by rw [b5]; exact hci') d5 f3
  have pos : ∀ (l l' : List Int) (n : Nat), (∀ i ∈ l, 0 ≤ i ∧ i < (n : Int)) → (∀ i ∈ l', 0 ≤ i ∧ i < (l.length : Int)) →
      ∀ i ∈ l'.map fun i => l.getD i.toNat 0, 0 ≤ i ∧ i < (n : Int) := by
    intro l l' n h1 h2 i hi
    rw [List.mem_map] at hi
    obtain ⟨k, hk, rfl⟩ := hi
    have := h2 k hk
    rw [List.getD_eq_getElem _ _ (by omega)]
    exact h1 _ (List.getElem_mem _)
  obtain ⟨d, e1, e2, e3, e4, e5, e6, e7, -, e9⟩ := sel a (ri'.map fun i => ri.getD i.toNat 0) (ci'.map fun j => ci.getD j.toNat 0)
    ha hca f1 d1 d2 (pos ri ri' _ hri hri') (pos ci ci' _ hci hci') (by simpa using d5) (by simpa using f3)
  rw [List.length_map] at e4 e5
  refine ⟨b, c, b1, c1, ?_⟩
  rw [e1]
  congr 1
  refine CSR.ext_of e2 c2 (by omega) (by omega) e3.sorted c3.sorted e6 e7 c6 c7 fun i j => ?_
  by_cases hij : i < ri'.length ∧ j < ci'.length
  · have get : ∀ (l l' : List Int) (n k : Nat) (hk : k < l'.length), (∀ i ∈ l, 0 ≤ i ∧ i < (n : Int)) → (∀ i ∈ l', 0 ≤ i ∧ i < (l.length : Int)) →
        l'[k]? = some ((l'[k].toNat : Nat) : Int) ∧ l[l'[k].toNat]? = some (((l.getD l'[k].toNat 0).toNat : Nat) : Int) ∧
        (l'.map fun i => l.getD i.toNat 0)[k]? = some (((l.getD l'[k].toNat 0).toNat : Nat) : Int) := by
      intro l l' n k hk h1 h2
      have h3 := h2 _ (List.getElem_mem hk)
      have h4 := h1 _ (List.getElem_mem (l := l) (n := l'[k].toNat) (by omega))
      refine ⟨?_, ?_, ?_⟩
      · rw [List.getElem?_eq_getElem hk]; congr 1; omega
      · rw [List.getD_eq_getElem _ _ (by omega), List.getElem?_eq_getElem (by omega)]; congr 1; omega
      · rw [List.getElem?_map, List.getElem?_eq_getElem hk, Option.map_some, List.getD_eq_getElem _ _ (by omega)]; congr 1; omega
    obtain ⟨x1, x2, x3⟩ := get ri ri' _ i hij.1 hri hri'
    obtain ⟨y1, y2, y3⟩ := get ci ci' _ j hij.2 hci hci'
    rw [e9 i j _ _ x3 y3, c9 i j _ _ x1 y1, b9 _ _ _ _ x2 y2]
  · rw [CSR.valuesAt_out e2 (by omega), CSR.valuesAt_out c2 (by omega)]

/-- C98. The diagonal of a sum is the sum of the diagonals, and transposing does not change it. -/
theorem C98_diagonal [AddCommMonoid T] [DecidableEq T] (t : IntTy) (a b : CSR T) (ha : a.WF t) (hb : b.WF t)
    (h1 : b.rows = a.rows) (h2 : b.cols = a.cols) (f1 : ((a.stored + b.stored : Nat) : Int) < t.hi) :
    ∃ ab at' da db, a.add t b = .ok ab ∧ a.transpose = .ok at' ∧ a.diagonal = .ok da ∧ b.diagonal = .ok db ∧
      da.length = min a.rows a.cols ∧ db.length = min a.rows a.cols ∧
      ab.diagonal = .ok (da.zipWith (· + ·) db) ∧ at'.diagonal = .ok da := by
  obtain ⟨ab, g1, g2, g3, g4, g5, -⟩ := CSR.add_facts ha hb h1 h2 f1
  obtain ⟨u, u1, u2, u3, u4, u5, -⟩ := C25_csr_transpose t a ha
  refine ⟨ab, u, _, _, g1, u1, C24_csr_diagonal t a ha, C24_csr_diagonal t b hb, by simp, by simp [h1, h2], ?_, ?_⟩
  · rw [C24_csr_diagonal t ab g2, g3, g4, h1, h2, List.zipWith_map, List.zipWith_self]
    simp only [g5]
  · rw [C24_csc_diagonal t u u2, u3, u4, Nat.min_comm]
    simp only [u5]

end
section
/-- matrices that meet the hypotheses of the laws for selections: sorted rows, lists that repeat and reorder -/
example : ∃ a b : CSR Int, a.WF .i8 ∧ b.WF .i8 ∧ a.Canonical ∧ b.Canonical ∧ a.cols = b.rows ∧ b.rows = a.rows ∧ b.cols = a.cols ∧
    (∀ i ∈ [1, 0, 1], 0 ≤ i ∧ i < (a.rows : Int)) ∧ (∀ j ∈ [1, 1, 0], 0 ≤ j ∧ j < (b.cols : Int)) ∧
    (a.stored : Int) < IntTy.i8.hi ∧ (b.stored : Int) < IntTy.i8.hi ∧ ((a.rows * b.cols : Nat) : Int) < IntTy.i8.hi ∧ a.entry 0 1 ≠ 0 :=
  ⟨⟨2, 2, [0, 2, 3], [0, 1, 0], [5, 7, -3]⟩, ⟨2, 2, [0, 1, 3], [1, 0, 1], [2, 6, 4]⟩, CSR.wf_of (by decide), CSR.wf_of (by decide),
    by unfold CSR.Canonical; decide, by unfold CSR.Canonical; decide, rfl, rfl, rfl, by decide, by decide, by decide, by decide,
    by decide, by decide⟩

/-- one such selection from a product, evaluated: both sides of `C98_select_mul` -/
example : ∃ a b ab s q a' b' r : CSR Int, a.mul .i8 b = .ok ab ∧ ab.sum_duplicates .i8 = .ok s ∧
    s.select .i8 (some [1, 0, 1]) (some [1, 1, 0]) = .ok q ∧ a.select .i8 (some [1, 0, 1]) none = .ok a' ∧
    b.select .i8 none (some [1, 1, 0]) = .ok b' ∧ a'.mul .i8 b' = .ok r ∧ q.to_dense = r.to_dense ∧
    q.to_dense = .ok [[-6, -6, 0], [38, 38, 42], [-6, -6, 0]] :=
  ⟨⟨2, 2, [0, 2, 3], [0, 1, 0], [5, 7, -3]⟩, ⟨2, 2, [0, 1, 3], [1, 0, 1], [2, 6, 4]⟩,
    ⟨2, 2, [0, 2, 3], [0, 1, 1], [42, 38, -6]⟩, ⟨2, 2, [0, 2, 3], [0, 1, 1], [42, 38, -6]⟩,
    ⟨3, 3, [0, 2, 5, 7], [0, 1, 0, 1, 2, 0, 1], [-6, -6, 38, 38, 42, -6, -6]⟩,
    ⟨3, 2, [0, 1, 3, 4], [0, 0, 1, 0], [-3, 5, 7, -3]⟩, ⟨2, 3, [0, 2, 5], [0, 1, 0, 1, 2], [2, 2, 4, 4, 6]⟩,
    ⟨3, 3, [0, 2, 5, 7], [1, 0, 2, 1, 0, 1, 0], [-6, -6, 42, 38, 38, -6, -6]⟩,
    by decide +kernel, by decide +kernel, by decide +kernel, by decide +kernel, by decide +kernel, by decide +kernel, by decide +kernel, by decide +kernel⟩

/-- matrices that meet the hypotheses of the laws for stacks: unsorted, with repeated positions and stored zeros -/
example : ∃ a b c d : Coo Int, a.WF .i8 ∧ b.WF .i8 ∧ c.WF .i8 ∧ d.WF .i8 ∧ a.rows = b.rows ∧ c.cols = d.cols ∧ a.cols = c.rows ∧
    b.cols = d.rows ∧ ((a.cols + b.cols : Nat) : Int) ≤ IntTy.i8.hi + 1 ∧ ((a.nnz + b.nnz : Nat) : Int) < IntTy.i8.hi ∧
    ((c.nnz + d.nnz : Nat) : Int) < IntTy.i8.hi ∧ ((a.rows * c.cols + a.rows * c.cols : Nat) : Int) < IntTy.i8.hi ∧ a.entry 1 0 = 12 :=
  ⟨⟨2, 2, [1, 0, 1], [0, 1, 0], [5, 0, 7]⟩, ⟨2, 1, [1], [0], [3]⟩, ⟨2, 3, [1, 0], [2, 1], [4, 6]⟩, ⟨1, 3, [0, 0], [2, 0], [1, 2]⟩,
    Coo.wf_of (by decide), Coo.wf_of (by decide), Coo.wf_of (by decide), Coo.wf_of (by decide), rfl, rfl, rfl, rfl,
    by decide, by decide, by decide, by decide, by decide⟩

/-- two matrices that `C98_unstack` takes apart again -/
example : ∃ a b r : CSR Int, a.WF .i8 ∧ b.WF .i8 ∧ a.Canonical ∧ b.Canonical ∧ a.colidx.length = a.stored ∧ a.values.length = a.stored ∧
    b.colidx.length = b.stored ∧ b.values.length = b.stored ∧ a.rows = b.rows ∧ CSR.h_stack .i8 a b = .ok r ∧
    r.select .i8 none (some [2, 3, 4]) = .ok b ∧ a ≠ b :=
  ⟨⟨2, 2, [0, 2, 3], [0, 1, 0], [5, 7, -3]⟩, ⟨2, 3, [0, 1, 3], [1, 0, 2], [2, 0, 4]⟩, ⟨2, 5, [0, 3, 6], [0, 1, 3, 0, 2, 4], [5, 7, 2, -3, 0, 4]⟩,
    CSR.wf_of (by decide), CSR.wf_of (by decide), by unfold CSR.Canonical; decide, by unfold CSR.Canonical; decide, by decide, by decide,
    by decide, by decide, rfl, by decide +kernel, by decide +kernel, by decide⟩

/-- eight blocks that meet the hypotheses of `C98_compose_mul`, with different shapes -/
example : ∃ A B C D E F G H : CSC Int, A.WF .i16 ∧ B.WF .i16 ∧ C.WF .i16 ∧ D.WF .i16 ∧ E.WF .i16 ∧ F.WF .i16 ∧ G.WF .i16 ∧ H.WF .i16 ∧
    (A.rows = 2 ∧ A.cols = 1) ∧ (B.rows = 2 ∧ B.cols = 2) ∧ (C.rows = 1 ∧ C.cols = 1) ∧ (D.rows = 1 ∧ D.cols = 2) ∧
    (E.rows = 1 ∧ E.cols = 2) ∧ (F.rows = 1 ∧ F.cols = 1) ∧ (G.rows = 2 ∧ G.cols = 2) ∧ (H.rows = 2 ∧ H.cols = 1) ∧
    ((A.stored + B.stored + C.stored + D.stored : Nat) : Int) < IntTy.i16.hi ∧
    ((E.stored + F.stored + G.stored + H.stored : Nat) : Int) < IntTy.i16.hi ∧ ((2 * ((2 + 1) * (2 + 1)) : Nat) : Int) < IntTy.i16.hi ∧
    B.entry 1 0 ≠ 0 ∧ G.entry 0 1 ≠ 0 :=
  ⟨⟨2, 1, [1, 0], [0, 2], [5, 7]⟩, ⟨2, 2, [1, 0], [0, 1, 2], [5, 7]⟩, ⟨1, 1, [0], [0, 1], [3]⟩, ⟨1, 2, [0], [0, 0, 1], [3]⟩,
    ⟨1, 2, [0, 0], [0, 1, 2], [2, 3]⟩, ⟨1, 1, [], [0, 0], []⟩, ⟨2, 2, [1, 0, 0], [0, 1, 3], [4, 1, 1]⟩, ⟨2, 1, [1], [0, 1], [9]⟩,
    CSC.wf_of (by decide), CSC.wf_of (by decide), CSC.wf_of (by decide), CSC.wf_of (by decide), CSC.wf_of (by decide),
    CSC.wf_of (by decide), CSC.wf_of (by decide), CSC.wf_of (by decide), by decide, by decide, by decide, by decide, by decide,
    by decide, by decide, by decide, by decide, by decide, by decide, by decide, by decide⟩

end
end Sparse

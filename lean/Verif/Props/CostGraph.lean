import Verif.Lemmas.CostBfs
import Verif.Props.Cost
/-! C85: running times of the searches. -/
namespace Sparse
open MT
section
variable {T : Type}

theorem CSR.WF.ptr_stored {t : IntTy} {a : CSR T} (ha : a.WF t) : ptrAt a.rowptr a.rows = (flat a.row a.rows).length := by
  have := ha.rep.ptr a.rows (Nat.le_refl _)
  rw [← ptrAt_of this]
  simp

theorem CSR.WF.pointers {t : IntTy} {a : CSR T} (ha : a.WF t) : Pointers a.rows a.rowptr a.colidx a.values :=
  ⟨ha.len, ha.first, ha.mono, fun c hc => ⟨(ha.last c hc).2.1, (ha.last c hc).2.2⟩⟩

theorem wsum_rows (c d : Nat) (G : Nat → List (Int × T)) (n : Nat) :
    wsum (fun v => c + d * (G v).length) (List.range n) = c * n + d * (flat G n).length := by
  induction n with
  | zero => simp [wsum]
  | succ k ih =>
    rw [List.range_succ, wsum_append, ih, flat_succ, wsum_cons, wsum_nil, List.length_append, Nat.mul_add, Nat.mul_add]
    omega

theorem wsum_congr {f g : Nat → Nat} (l : List Nat) (h : ∀ v, f v = g v) : wsum f l = wsum g l := by
  rw [funext h]

theorem wsum_add (f g : Nat → Nat) (l : List Nat) : wsum (fun v => f v + g v) l = wsum f l + wsum g l := by
  induction l with
  | nil => simp [wsum]
  | cons x l ih => rw [wsum_cons, wsum_cons, wsum_cons, ih]; omega

/-- a row is no longer than the number of triplets with its index -/
theorem CSR.row_length_le {a : CSR T} {v : Nat} (hv : v < a.rows) :
    (a.row v).length ≤ a.triples.countP fun e => decide (e.1 = (v : Int)) := by
  have h1 : ((a.row v).map fun e => ((v : Int), e.1, e.2)).Sublist a.triples :=
    List.sublist_flatten_of_mem (List.mem_map.2 ⟨v, List.mem_range.2 hv, rfl⟩)
  refine Nat.le_trans ?_ h1.countP_le
  rw [List.countP_eq_length.2]
  · simp
  · intro e he
    rw [List.mem_map] at he
    obtain ⟨d, -, rfl⟩ := he
    simp

theorem CSC.to_csrGT_rt [AddCommMonoid T] {t : IntTy} {a : CSC T} (ha : a.WF t) (hr : (a.cols : Int) ≤ t.hi + 1) :
    RT (a.to_csrGT t) fun r d => (r.WF t ∧ r.rows = a.rows ∧ r.cols = a.cols ∧ r.triples.Perm a.triples ∧
      r.stored = (flat a.col a.cols).length) ∧
      d ≤ 14 * (flat a.col a.cols).length + 3 * a.cols + 8 * a.rows + 7 := by
  refine RT.of_ok (CSC.to_csrGT_outcome _ _) ?_ ?_
  · obtain ⟨r, h1, h2, h3, h4, -, h5, -, -, h6, -⟩ := C04_csc_to_csr t a ha hr
    refine ⟨r, h1, h2, h3, h4, h5, ?_⟩
    have e1 : r.triples.length = r.stored := by simp [CSR.triples, CSR.stored, List.length_flatMap]
    have e2 : a.triples.length = (flat a.col a.cols).length := by simp [CSC.triples, flat, List.length_flatMap]
    rw [← e1, ← e2]
    exact h5.length_eq
  · suffices h : TB (a.to_csrGT t) (14 * (flat a.col a.cols).length + 3 * a.cols + 8 * a.rows + 7) fun _ => True from h.1
    have hn := CSC.nnz_ok ha.rep
    have hp : ptrAt a.colptr a.cols = (flat a.col a.cols).length := by
      have := ha.rep.ptr a.cols (Nat.le_refl _)
      rw [← ptrAt_of this]
      simp
    have hpt : Pointers a.cols a.colptr a.rowidx a.values :=
      ⟨ha.len, ha.first, ha.mono, fun c hc => ⟨(ha.last c hc).2.1, (ha.last c hc).2.2⟩⟩
    unfold CSC.to_csrGT
    rw [hn]
    tb
    rename_i n1 e1 n2 e2
    cases e1
    cases e2
    refine TB.vec_bind (by omega) (TB.vec_bind (by omega) (TB.vec_bind (by omega) ?_))
    refine TB.bind (csr_tocscT_tb t a.rows _ _ _ hpt) ?_ fun r _ => TB.lift (Nat.zero_le _) fun _ _ => trivial
    rw [hp]
    simp
    omega

theorem CSR.triples_length (a : CSR T) : a.triples.length = a.stored := by simp [CSR.triples, CSR.stored, List.length_flatMap]

/-- the transposed graph built by the undirected searches, with its cost -/
theorem CSR.transposedT_rt [AddCommMonoid T] {t : IntTy} {a : CSR T} (ha : a.WF t) (hsq : a.rows = a.cols)
    (hn : (a.rows : Int) ≤ t.hi + 1) {f : CSR T → MT β} {Q : β → Nat → Prop}
    (h : ∀ (r : CSR T) (d : Nat), r.WF t → r.rows = a.rows → r.cols = a.rows → r.stored = a.stored →
      (∀ v < a.rows, (r.row v).length ≤ a.triples.countP fun e => decide (e.2.1 = (v : Int))) →
      d ≤ a.colidx.length + a.values.length + 14 * a.stored + 12 * a.rows + 8 → RT (f r) fun b c => Q b (d + c)) :
    RT (do f (← (← a.transposeGT).to_csrGT t)) Q := by
  unfold CSR.transposeGT
  have h1' : a.transpose = .ok ⟨a.cols, a.rows, a.colidx, a.rowptr, a.values⟩ := by
    unfold CSR.transpose
    rw [CSC.new_ok (WFptr.rep ha)]
    rfl
  rw [h1']
  refine RT.lift_bind fun c hc => ?_
  cases hc
  have hwf : CSC.WF t (⟨a.cols, a.rows, a.colidx, a.rowptr, a.values⟩ : CSC T) := ha
  refine RT.bind ((CSC.to_csrGT_rt hwf hn).mono ?_)
  rintro r d ⟨⟨h1, h2, h3, h4, h5⟩, hd⟩
  have hE : (flat a.row a.rows).length = a.stored := ha.stored_eq.symm
  have hd' : d ≤ 14 * (flat a.row a.rows).length + 3 * a.rows + 8 * a.cols + 7 := hd
  have h5' : r.stored = (flat a.row a.rows).length := h5
  have hl := ha.len
  refine (h r (a.colidx.length + a.rowptr.length + a.values.length + d) h1 (h2.trans hsq.symm) h3 (by omega) ?_ (by omega)).mono ?_
  · intro v hv
    refine Nat.le_trans (CSR.row_length_le (by rw [h2]; exact hsq ▸ hv)) ?_
    rw [h4.countP_eq]
    refine Nat.le_of_eq ?_
    show List.countP _ ((List.range a.rows).flatMap fun j => (a.row j).map fun e => (e.1, (j : Int), e.2)) =
      List.countP _ ((List.range a.rows).flatMap fun i => (a.row i).map fun e => ((i : Int), e.1, e.2))
    rw [List.countP_flatMap, List.countP_flatMap]
    congr 1
    refine List.map_congr_left fun i _ => ?_
    simp only [Function.comp, List.countP_map]
    rfl
  · intro b c hb
    rwa [Nat.add_assoc] at hb

theorem CSR.wsum_succ {t : IntTy} {a : CSR T} (ha : a.WF t) (c d : Nat) :
    wsum (fun v => c + d * (a.succ v).length) (List.range a.rows) = c * a.rows + d * a.stored := by
  rw [ha.stored_eq, ← wsum_rows]
  refine wsum_congr _ fun v => ?_
  simp [CSR.succ]

/-- C85: with `directed = false` or a weak connection, `connected_components` takes time linear in the number of nodes and the
lengths of the arrays (the arrays of the graph are copied by `t()`), for every valid square graph. -/
theorem C85_weak_components_time [AddCommMonoid T] (t : IntTy) (a : CSR T) (ha : a.WF t) (hsq : a.rows = a.cols)
    (hn : (a.rows : Int) ≤ t.hi + 1) (directed : Bool) (conn : Connection) (hd : directed = false ∨ conn = .weak)
    (fuel : Nat) (hf : a.rows < fuel) :
    RunsWithin (connected_componentsT t fuel a directed conn) (connected_components t fuel a directed conn)
      26 (a.rows + a.colidx.length + a.values.length) ∧
    ∃ r, connected_components t fuel a directed conn = .ok r := by
  obtain ⟨k, labels, hk, -⟩ := C34_undirected_components t a ha hsq hn directed conn hd fuel hf
  have ho := connected_componentsT_outcome t.checked fuel a directed conn
  have hE : a.stored ≤ a.colidx.length := by
    rw [ha.stored_eq]
    exact ha.rep.len_j
  suffices key : RT (connected_componentsT t fuel a directed conn) fun _ c =>
      c ≤ 26 * (a.rows + a.colidx.length + a.values.length + 1) from ⟨⟨ho, key _ (ho.trans hk)⟩, _, hk⟩
  have hval : validate_graph a = .ok () := by unfold validate_graph; simp [hsq]; rfl
  have core : RT (do
      let gt ← (← a.transposeGT).to_csrGT t
      connected_components_undirectedT fuel a.cols a.colidx a.rowptr gt.colidx gt.rowptr : MT (Nat × List Nat)) fun _ c =>
      c ≤ 26 * (a.rows + a.colidx.length + a.values.length + 1) := by
    refine CSR.transposedT_rt ha hsq hn fun r d h1 h2 h3 h4 h5 hd => ?_
    have hg2 := h1.grep (h2.trans h3.symm)
    rw [h2] at hg2
    rw [← hsq]
    refine (ccuT_rt (ha.grep hsq) hg2).mono fun _ c hc => ?_
    have e1 := CSR.wsum_succ ha 7 4
    have e2 := CSR.wsum_succ h1 0 4
    rw [h2] at e2
    have e3 : wsum (fun v => 7 + 4 * ((a.succ v).length + (r.succ v).length)) (List.range a.rows) =
        wsum (fun v => 7 + 4 * (a.succ v).length) (List.range a.rows) +
          wsum (fun v => 0 + 4 * (r.succ v).length) (List.range a.rows) := by
      rw [← wsum_add]
      exact wsum_congr _ fun v => by omega
    omega
  unfold connected_componentsT
  rw [hval]
  rcases hd with rfl | rfl
  · split
    · refine RT.free_bind fun _ _ => ?_
      simpa using core
    · refine RT.free_bind fun _ _ => ?_
      simpa using core
  · simp only [if_true]
    refine RT.free_bind fun _ _ => ?_
    simpa using core

example : exScc.WF .u8 ∧ exScc.rows = exScc.cols ∧ (exScc.rows : Int) ≤ IntTy.u8.hi + 1 ∧
    (connected_componentsT .u8 10 exScc false .strong).steps = 405 ∧
    (connected_componentsT .u8 10 exScc false .strong).outcome = .ok (2, [0, 0, 0, 0, 0, 0, 1]) := by
  refine ⟨exScc_wf, rfl, by decide, by decide +kernel, by decide +kernel⟩

theorem CSR.link_lt {t : IntTy} {a : CSR T} (ha : a.WF t) (hsq : a.rows = a.cols) {u v : Nat} (h : a.link u v) : v < a.rows := by
  rcases h with h | h
  · have := ha.has_lt h; omega
  · have := ha.has_lt h; omega

theorem reach_lt {R : Nat → Nat → Prop} {n : Nat} (h : ∀ u v, R u v → v < n) {s v : Nat} (hs : s < n)
    (hr : Relation.ReflTransGen R s v) : v < n := by
  cases hr with
  | refl => exact hs
  | tail _ h' => exact h _ _ h'

/-- the cost of `depth_first_order`, with the length of the list of nodes apart -/
theorem depth_first_orderT_rt [AddCommMonoid T] {t : IntTy} {a : CSR T} (ha : a.WF t) (hsq : a.rows = a.cols)
    (hn : (a.rows : Int) ≤ t.hi + 1) {start : Nat} (hs : start < a.rows) (directed : Bool) {fuel K : Nat}
    (hK1 : ∀ i < a.rows, (a.row i).length ≤ K)
    (hK2 : directed = false → ∀ j < a.rows, (a.triples.countP fun e => decide (e.2.1 = (j : Int))) ≤ K) :
    RT (depth_first_orderT t fuel a start directed) fun r c =>
      c ≤ 28 * (a.rows * (K + 1) + a.colidx.length + a.values.length + 1) + r.1.length := by
  have hE : a.stored ≤ a.colidx.length := by
    rw [ha.stored_eq]
    exact ha.rep.len_j
  have hval : validate_graph a = .ok () := by unfold validate_graph; simp [hsq]; rfl
  have hs1 : ∀ i < a.rows, (a.succ i).length ≤ K := fun i hi => by simpa [CSR.succ] using hK1 i hi
  have fin : ∀ (B d : Nat) (r : List Nat × List (Option Nat) × Nat), d ≤ B → RT (do
      let nodes ← MT.lift r.2.2 (r.1.slice 0 r.2.2)
      Pure.pure (nodes, r.2.1) : MT (List Nat × List (Option Nat))) fun r c => d + c ≤ B + r.1.length := by
    intro B d r hd
    refine RT.lift_bind fun l hl => RT.pure ?_
    have : l.length = r.2.2 := by
      unfold List.slice at hl
      split at hl
      · cases hl; simp; omega
      · cases hl
    simp only
    omega
  unfold depth_first_orderT
  rw [hval]
  refine RT.free_bind fun _ _ => ?_
  unfold vecT
  refine RT.lift_bind fun nl hnl => RT.lift_bind fun pr hpr => ?_
  cases hnl
  cases hpr
  rw [← hsq]
  have hP : a.rows * (K + 1) = a.rows * K + a.rows := Nat.mul_succ _ _
  cases directed with
  | true =>
    simp only [if_true]
    refine RT.bind ((dfs_directedT_rt (ha.grep hsq) hs1 hs).mono fun r c hc => ?_)
    have h1 : (4 + 7 * K) * (2 * a.rows) = 8 * a.rows + 14 * (a.rows * K) := by
      rw [Nat.add_mul, Nat.mul_assoc 7, Nat.mul_left_comm K, Nat.mul_comm K]; omega
    refine (fin (28 * (a.rows * (K + 1) + a.colidx.length + a.values.length + 1) - 2 * a.rows) c r (by omega)).mono ?_
    intro r' c' hc'
    omega
  | false =>
    simp only [Bool.false_eq_true, if_false, bind_assoc]
    have h1 : (6 + 14 * K) * (2 * a.rows) = 12 * a.rows + 28 * (a.rows * K) := by
      rw [Nat.add_mul, Nat.mul_assoc 14, Nat.mul_left_comm K, Nat.mul_comm K]; omega
    refine CSR.transposedT_rt ha hsq hn fun r d q1 q2 q3 q4 q5 hd => ?_
    have hg2 := q1.grep (q2.trans q3.symm)
    rw [q2] at hg2
    refine RT.bind ((dfs_undirectedT_rt (ha.grep hsq) hg2 hs1 (fun v hv => ?_) hs).mono fun r c hc => ?_)
    · have := Nat.le_trans (q5 v hv) (hK2 rfl v hv)
      simpa [CSR.succ] using this
    refine (fin (28 * (a.rows * (K + 1) + a.colidx.length + a.values.length + 1) - 2 * a.rows - d) c r (by omega)).mono ?_
    intro r' c' hc'
    omega

/-- C85: `depth_first_order` takes `O(V*(K + 1) + E)` steps when no node has more than `K` edges (out of it, and into it if the edges
are used in both directions). What is missing is the linear bound `O(V + E)`: it is false, `C85_depth_first_not_linear`. -/
theorem C85_depth_first_time_partial [AddCommMonoid T] (t : IntTy) (a : CSR T) (ha : a.WF t) (hsq : a.rows = a.cols)
    (hn : (a.rows : Int) ≤ t.hi + 1) (start : Nat) (hs : start < a.rows) (directed : Bool) (fuel : Nat)
    (hf : 2 * a.rows ≤ fuel) (K : Nat) (hK1 : ∀ i < a.rows, (a.row i).length ≤ K)
    (hK2 : directed = false → ∀ j < a.rows, (a.triples.countP fun e => decide (e.2.1 = (j : Int))) ≤ K) :
    RunsWithin (depth_first_orderT t fuel a start directed) (depth_first_order t fuel a start directed)
      29 (a.rows * (K + 1) + a.colidx.length + a.values.length) ∧
    ∃ r, depth_first_order t fuel a start directed = .ok r := by
  obtain ⟨nodes, preds, h1, h2, -, h4⟩ := C37_depth_first_nodes t a ha hsq hn start hs directed fuel hf
  have ho := depth_first_orderT_outcome t.checked fuel a start directed
  refine ⟨⟨ho, ?_⟩, _, h1⟩
  have hb := depth_first_orderT_rt (fuel := fuel) ha hsq hn hs directed hK1 hK2 _ (ho.trans h1)
  have hl : nodes.length ≤ a.rows := by
    refine nodup_lt_length h2 fun v hv => ?_
    rw [h4] at hv
    cases directed with
    | true => exact reach_lt (fun u v h => by have := ha.has_lt h; omega) hs hv
    | false => exact reach_lt (fun u v h => CSR.link_lt ha hsq h) hs hv
  have hP : a.rows * (K + 1) = a.rows * K + a.rows := Nat.mul_succ _ _
  simp only at hb
  omega

example : exScc.WF .u8 ∧ (∀ i < exScc.rows, (exScc.row i).length ≤ 3) ∧
    (∀ j < exScc.rows, (exScc.triples.countP fun e => decide (e.2.1 = (j : Int))) ≤ 3) ∧
    (depth_first_orderT .u8 20 exScc 0 true).steps = 131 ∧ (depth_first_orderT .u8 20 exScc 0 false).steps = 454 := by
  refine ⟨exScc_wf, by decide, by decide, by decide +kernel, by decide +kernel⟩

/-- the star: edges from node `0` to the nodes `1, …, m` -/
def star (m : Nat) : CSR Int :=
  ⟨m + 1, m + 1, 0 :: List.replicate (m + 1) (m : Int), (List.range m).map fun i => ((i + 1 : Nat) : Int), List.replicate m 1⟩

theorem star_ptr {m k : Nat} {v : Int} (h : (star m).rowptr[k]? = some v) : (k = 0 ∧ v = 0) ∨ (0 < k ∧ v = m) := by
  unfold star at h
  simp only at h
  match k with
  | 0 => simp at h; exact .inl ⟨rfl, h.symm⟩
  | k + 1 =>
    rw [List.getElem?_cons_succ, List.getElem?_replicate] at h
    split at h <;> cases h
    exact .inr ⟨by omega, rfl⟩

theorem star_wf {t : IntTy} {m : Nat} (hm : (m : Int) ≤ t.hi) : (star m).WF t := by
  refine ⟨by simp [star], rfl, ?_, ?_, ?_⟩
  · intro i a b ha hb
    have := star_ptr ha
    have := star_ptr hb
    omega
  · intro x hx
    have := star_ptr hx
    simp only [star, List.length_map, List.length_range, List.length_replicate]
    have := t.hi_ge
    omega
  · intro x k v _ hv _
    simp only [star] at hv ⊢
    have hk := lt_of_getElem?_some hv
    simp only [List.length_map, List.length_range] at hk
    rw [List.getElem?_map, List.getElem?_range hk] at hv
    simp at hv
    omega

theorem star_row (m v : Nat) : ((star m).row v).map (·.1) =
    if v = 0 then (List.range m).map fun i => ((i + 1 : Nat) : Int) else [] := by
  unfold CSR.row rowOf
  match v with
  | 0 =>
    simp only [star, List.getElem?_cons_zero, if_true]
    rw [List.getElem?_cons_succ, List.getElem?_replicate, if_pos (by omega)]
    simp only [Int.toNat_zero, List.drop_zero, Int.toNat_natCast, Nat.sub_zero]
    rw [List.take_of_length_le (by simp)]
    exact List.map_fst_zip (by simp)
  | v + 1 =>
    simp only [star, List.getElem?_cons_succ]
    rw [List.getElem?_replicate, List.getElem?_replicate]
    split
    · rename_i a b ha hb
      split at ha <;> cases ha
      split at hb <;> cases hb
      simp
    · simp

theorem star_succ (m v : Nat) : (star m).succ v = if v = 0 then (List.range m).map (· + 1) else [] := by
  have h : (star m).succ v = (((star m).row v).map (·.1)).map Int.toNat := by rw [List.map_map]; rfl
  rw [h, star_row]
  split
  · rw [List.map_map]; rfl
  · rfl

theorem wsum_pred (m : Nat) : 2 * wsum (fun v => v - 1) (List.range (m + 1)) = m * (m - 1) := by
  induction m with
  | zero => simp [wsum]
  | succ k ih =>
    rw [List.range_succ, wsum_append, Nat.mul_add, ih, wsum_cons, wsum_nil]
    cases k with
    | zero => rfl
    | succ j =>
      simp only [Nat.add_sub_cancel]
      rw [Nat.add_mul (j + 1) 1 (j + 1), Nat.mul_add (j + 1) j 1]
      omega

/-- C85: `depth_first_order` is not linear. For every constant `c` there is a valid graph, the star with `6*c + 6` edges out of its first
node, on which the search from that node returns and takes more than `c*(V + E + 1)` steps: each time a node of the star is
finished, the edges of the first node are scanned again from the beginning. -/
theorem C85_depth_first_not_linear (t : IntTy) (c : Nat) (hc : ((6 * c + 6 : Nat) : Int) ≤ t.hi) :
    ∃ a : CSR Int, a.WF t ∧ a.rows = a.cols ∧ a.Canonical ∧ a.colidx.length = a.stored ∧ a.values.length = a.stored ∧
      ∀ fuel, 2 * a.rows ≤ fuel →
      (∃ r, depth_first_order t fuel a 0 true = .ok r) ∧
      c * (a.rows + a.colidx.length + a.values.length + 1) < (depth_first_orderT t fuel a 0 true).steps := by
  obtain ⟨m, hm⟩ : ∃ m, m = 6 * c + 6 := ⟨_, rfl⟩
  rw [← hm] at hc
  have ha := star_wf hc
  have hg := ha.grep rfl
  have hst : (star m).stored = m := by
    have h1 : ∀ k, (flat (star m).row (k + 1)).length = m := by
      intro k
      induction k with
      | zero =>
        rw [flat_succ, List.length_append]
        have := congrArg List.length (star_row m 0)
        simp at this
        simp [this]
      | succ k ih =>
        rw [flat_succ, List.length_append, ih]
        have := congrArg List.length (star_row m (k + 1))
        simp at this
        simp [this]
    rw [ha.stored_eq]
    exact h1 m
  refine ⟨star m, ha, rfl, ?_, by rw [hst]; simp [star], by rw [hst]; simp [star], fun fuel hf => ?_⟩
  · intro i _
    have h : (((star m).row i).map (·.1)).Pairwise (· < ·) := by
      rw [star_row]
      split
      · rw [List.pairwise_map]
        exact List.pairwise_lt_range.imp (by omega)
      · exact List.Pairwise.nil
    rwa [List.pairwise_map] at h
  obtain ⟨nodes, preds, hr, -⟩ := C37_depth_first_nodes t (star m) ha rfl (by simp [star]; omega) 0 (by simp [star]) true fuel hf
  refine ⟨⟨_, hr⟩, ?_⟩
  have hlow := dfs_directedT_lower hg (fun v pre w suf hv h => ?_) (fun v hv => ?_) (by simp [star]) (fuel := fuel)
  · have key : RT (depth_first_orderT t fuel (star m) 0 true) fun _ d => wsum (fun v => v - 1) (List.range (m + 1)) ≤ d := by
      unfold depth_first_orderT
      have hval : validate_graph (star m) = .ok () := by unfold validate_graph; simp [star]; rfl
      rw [hval]
      refine RT.free_bind fun _ _ => ?_
      unfold vecT
      refine RT.lift_bind fun nl hnl => RT.lift_bind fun pr hpr => ?_
      cases hnl
      cases hpr
      simp only [if_true]
      refine RT.bind (RT.mono hlow fun r d hd => ?_)
      refine RT.lift_bind fun l hl => RT.pure ?_
      have hd' : wsum (fun v => v - 1) (List.range (m + 1)) ≤ d := hd
      omega
    have h := key _ ((depth_first_orderT_outcome t.checked fuel (star m) 0 true).trans hr)
    have h2 := wsum_pred m
    have e1 : (star m).rows + (star m).colidx.length + (star m).values.length + 1 = 3 * m + 2 := by
      simp [star]; omega
    rw [e1, Nat.mul_add, Nat.mul_left_comm]
    have e2 : m * (m - 1) = 6 * (c * m) + 5 * m := by
      rw [show m - 1 = 6 * c + 5 by omega, Nat.mul_add, Nat.mul_left_comm, Nat.mul_comm m c, Nat.mul_comm m 5]
    omega
  · rw [star_succ] at h
    split at h
    · have h1 := congrArg (·[pre.length]?) h
      simp only [List.getElem?_append_right (Nat.le_refl _), Nat.sub_self, List.getElem?_cons_zero] at h1
      have hk := lt_of_getElem?_some h1
      simp only [List.length_map, List.length_range] at hk
      rw [List.getElem?_map, List.getElem?_range hk] at h1
      simp at h1
      omega
    · simp at h
  · rcases Nat.eq_zero_or_pos v with rfl | h0
    · exact .refl
    · refine .single ?_
      rw [star_succ, if_pos rfl, List.mem_map]
      have : v < m + 1 := hv
      exact ⟨v - 1, List.mem_range.2 (by omega), by omega⟩

/-- the hypothesis holds for constants far above the one of `C85_depth_first_time_partial` -/
example : ((6 * 1000000 + 6 : Nat) : Int) ≤ IntTy.i32.hi ∧ (depth_first_orderT .u8 40 (star 12) 0 true).steps = 442 := by
  refine ⟨by decide, by decide +kernel⟩

theorem CSR.connected_componentsT_rt {t ft : IntTy} {a : CSR T} (ha : a.WF t) (hsq : a.rows = a.cols)
    (hlo : ft.lo ≤ -2) (hhi : (a.rows : Int) ≤ ft.hi + 1) {fuel : Nat} :
    RT (a.connected_componentsT t ft fuel) fun r d => ∃ c : Nat, r.1 = (c : Int) ∧ c * (c - 1) ≤ d ∧
      d ≤ 12 * a.rows + 6 * a.stored + c * (2 * a.rows + 3) := by
  unfold CSR.connected_componentsT
  rw [if_neg (by simp [hsq])]
  unfold vecT
  refine RT.lift_bind fun fl hfl => ?_
  cases hfl
  refine (csgT_rt (ha.grep hsq) hlo hhi (by simp)).mono ?_
  rintro r d ⟨c, h1, h2, h3⟩
  refine ⟨c, h1, by omega, ?_⟩
  have e := CSR.wsum_succ ha 4 6
  have e' : wsum (bw a.succ) (List.range a.rows) = wsum (fun v => 4 + 6 * (a.succ v).length) (List.range a.rows) := rfl
  omega

/-- C85: `CSR::connected_components` takes at most `O(k*V + E)` and at least `k*(k - 1)` steps, where `k` is the number of components
that it returns. What is missing is the linear bound `O(V + E)`: it is false, `C85_csr_components_not_linear`. -/
theorem C85_csr_components_time_partial (t ft : IntTy) (a : CSR T) (ha : a.WF t) (hsq : a.rows = a.cols)
    (hlo : ft.lo ≤ -2) (hhi : (a.rows : Int) ≤ ft.hi + 1) (fuel k : Nat) (flags : List Int)
    (hr : a.connected_components t ft fuel = .ok ((k : Int), flags)) :
    RunsWithin (a.connected_componentsT t ft fuel) (a.connected_components t ft fuel) 12 (a.rows * (k + 1) + a.stored) ∧
    k * (k - 1) ≤ (a.connected_componentsT t ft fuel).steps := by
  have ho := CSR.connected_componentsT_outcome t.checked ft.checked fuel a
  obtain ⟨c, h1, h2, h3⟩ := CSR.connected_componentsT_rt (t := t) (fuel := fuel) ha hsq hlo hhi _ (ho.trans hr)
  simp only at h1
  obtain rfl : c = k := by omega
  refine ⟨⟨ho, ?_⟩, h2⟩
  have e1 : a.rows * (c + 1) = a.rows * c + a.rows := Nat.mul_succ _ _
  have e2 : c * (2 * a.rows + 3) = 2 * (a.rows * c) + 3 * c := by
    rw [Nat.mul_add, Nat.mul_left_comm, Nat.mul_comm c a.rows, Nat.mul_comm c 3]
  rcases Nat.eq_zero_or_pos a.rows with h0 | h0
  · have hc : c ≤ 4 := by
      by_contra hc
      have : c * 4 ≤ c * (c - 1) := Nat.mul_le_mul_left _ (by omega)
      have hs : a.stored = 0 := by rw [ha.stored_eq, h0]; rfl
      rw [h0, hs] at h3
      omega
    omega
  · have : 1 * c ≤ a.rows * c := Nat.mul_le_mul_right _ h0
    omega

example : exSym.WF .u8 ∧ exSym.rows = exSym.cols ∧ IntTy.i8.lo ≤ -2 ∧ (exSym.rows : Int) ≤ IntTy.i8.hi + 1 ∧
    exSym.connected_components .u8 .i8 10 = .ok (3, [0, -2, 0, 1, 2, 2]) ∧
    (exSym.connected_componentsT .u8 .i8 10).steps = 112 := by
  refine ⟨exSym_wf, rfl, by decide, by decide, by decide +kernel, by decide +kernel⟩

/-- `n` nodes, each with an edge to itself -/
def loops (n : Nat) : CSR Int :=
  ⟨n, n, (List.range (n + 1)).map Int.ofNat, (List.range n).map Int.ofNat, List.replicate n 1⟩

theorem loops_ptr {n k : Nat} {v : Int} (h : (loops n).rowptr[k]? = some v) : v = k ∧ k ≤ n := by
  have hk := lt_of_getElem?_some h
  simp only [loops, List.length_map, List.length_range] at hk h
  rw [List.getElem?_map, List.getElem?_range hk] at h
  simp at h
  omega

theorem loops_idx {n k : Nat} {v : Int} (h : (loops n).colidx[k]? = some v) : v = k ∧ k < n := by
  have hk := lt_of_getElem?_some h
  simp only [loops, List.length_map, List.length_range] at hk h
  rw [List.getElem?_map, List.getElem?_range hk] at h
  simp at h
  omega

theorem loops_wf {t : IntTy} {n : Nat} (hn : (n : Int) ≤ t.hi) : (loops n).WF t := by
  refine ⟨by simp [loops], by simp [loops], ?_, ?_, ?_⟩
  · intro i a b ha hb
    have := loops_ptr ha
    have := loops_ptr hb
    omega
  · intro x hx
    have := loops_ptr hx
    simp only [loops, List.length_map, List.length_range, List.length_replicate] at this ⊢
    omega
  · intro x k v _ hv _
    have := loops_idx hv
    simp only [loops]
    omega

theorem loops_has {n u v : Nat} : (loops n).has u v ↔ u < n ∧ v = u := by
  have h1 : ∀ u < n, (loops n).row u = [((u : Int), 1)] := by
    intro u hu
    have e1 : (loops n).rowptr[u]? = some (u : Int) := by
      simp only [loops, List.getElem?_map, List.getElem?_range (show u < n + 1 by omega)]; rfl
    have e2 : (loops n).rowptr[u + 1]? = some ((u + 1 : Nat) : Int) := by
      simp only [loops, List.getElem?_map, List.getElem?_range (show u + 1 < n + 1 by omega)]; rfl
    unfold CSR.row rowOf
    rw [e1, e2]
    simp only [Int.toNat_natCast, Nat.add_sub_cancel_left]
    refine List.ext_getElem? fun k => ?_
    rw [List.getElem?_take]
    split
    · obtain rfl : k = 0 := by omega
      rw [List.getElem?_drop, Nat.add_zero, (List.getElem?_zip_eq_some (z := ((u : Int), (1 : Int)))).2 ⟨?_, ?_⟩]
      · rfl
      · simp only [loops, List.getElem?_map, List.getElem?_range hu]; rfl
      · simp [loops, hu]
    · rw [List.getElem?_eq_none]
      simp
      omega
  constructor
  · rintro ⟨x, hx⟩
    have hu : u < n := by
      by_contra hu
      unfold CSR.row rowOf at hx
      rw [List.getElem?_eq_none (l := (loops n).rowptr) (i := u + 1) (by simp [loops]; omega)] at hx
      simp at hx
    rw [h1 u hu] at hx
    simp at hx
    exact ⟨hu, hx.1⟩
  · rintro ⟨hu, rfl⟩
    exact ⟨1, by rw [h1 v hu]; simp⟩

/-- C85: `CSR::connected_components` is not linear. For every constant `c` there is a valid graph, `3*c + 3` nodes each with only an edge
to itself, on which the search returns and takes more than `c*(V + E + 1)` steps: the first node of each component is searched for
from node `0`. -/
theorem C85_csr_components_not_linear (t ft : IntTy) (c : Nat) (hc : ((3 * c + 3 : Nat) : Int) ≤ t.hi)
    (hft : ((3 * c + 3 : Nat) : Int) ≤ ft.hi) (hlo : ft.lo ≤ -2) :
    ∃ a : CSR Int, a.WF t ∧ a.rows = a.cols ∧ (∀ u v, a.has u v → a.has v u) ∧ ∀ fuel, a.rows < fuel →
      (∃ r, a.connected_components t ft fuel = .ok r) ∧
      c * (a.rows + a.colidx.length + a.values.length + 1) < (a.connected_componentsT t ft fuel).steps := by
  obtain ⟨n, hn⟩ : ∃ n, n = 3 * c + 3 := ⟨_, rfl⟩
  rw [← hn] at hc hft
  have ha := loops_wf hc
  have hsym : ∀ u v, (loops n).has u v → (loops n).has v u := by
    intro u v h
    rw [loops_has] at h ⊢
    omega
  refine ⟨loops n, ha, rfl, hsym, fun fuel hf => ?_⟩
  obtain ⟨k, flags, hr, hlen, -, h2, h3, -⟩ := C36_csr_components_partial t ft (loops n) ha rfl hsym hlo (by simp [loops]; omega)
    (by simpa [loops] using hc) (.inr ⟨0, 0, loops_has.2 ⟨by omega, rfl⟩⟩) fuel hf
  refine ⟨⟨_, hr⟩, ?_⟩
  have hrow : ∀ u < n, (loops n).row u ≠ [] := by
    intro u hu h
    obtain ⟨x, hx⟩ := loops_has.2 ⟨hu, rfl⟩
    rw [h] at hx
    simp at hx
  have hj : ∀ u v, (loops n).Joined u v → v = u := by
    intro u v h
    induction h with
    | refl => rfl
    | tail _ h ih =>
      rcases h with h | h
      · exact (loops_has.1 h).2.trans ih
      · exact (loops_has.1 h).2.symm.trans ih
  have hfl : flags.length = n := hlen
  have hnd : flags.Nodup := by
    rw [List.nodup_iff_getElem?_ne_getElem?]
    intro i j hij hjl h
    have := hj i j ((h3 i (by simpa [loops] using (by omega : i < n)) j (by simpa [loops] using (by omega : j < n))
      (hrow i (by omega)) (hrow j (by omega))).1 h)
    omega
  have hk : n ≤ k := by
    have h4 : (flags.map Int.toNat).Nodup := by
      refine List.Nodup.map_on ?_ hnd
      intro x hx y hy hxy
      obtain ⟨i, hi⟩ := List.getElem?_of_mem hx
      obtain ⟨j, hj⟩ := List.getElem?_of_mem hy
      obtain ⟨l, -, hl⟩ := h2 i (by have := lt_of_getElem?_some hi; simpa [loops] using (by omega : i < n)) (hrow i (by have := lt_of_getElem?_some hi; omega))
      obtain ⟨l', -, hl'⟩ := h2 j (by have := lt_of_getElem?_some hj; simpa [loops] using (by omega : j < n)) (hrow j (by have := lt_of_getElem?_some hj; omega))
      rw [hi] at hl
      rw [hj] at hl'
      cases hl
      cases hl'
      simp at hxy
      rw [hxy]
    have h5 := nodup_lt_length (n := k) h4 (fun u hu => by
      rw [List.mem_map] at hu
      obtain ⟨x, hx, rfl⟩ := hu
      obtain ⟨i, hi⟩ := List.getElem?_of_mem hx
      obtain ⟨l, hlk, hl⟩ := h2 i (by have := lt_of_getElem?_some hi; simpa [loops] using (by omega : i < n)) (hrow i (by have := lt_of_getElem?_some hi; omega))
      rw [hi] at hl
      cases hl
      simpa using hlk)
    rw [List.length_map] at h5
    omega
  have hlow := (C85_csr_components_time_partial t ft (loops n) ha rfl hlo (by simp [loops]; omega) fuel k flags hr).2
  have h6 : n * (n - 1) ≤ k * (k - 1) := Nat.mul_le_mul hk (by omega)
  have e1 : (loops n).rows + (loops n).colidx.length + (loops n).values.length + 1 = 3 * n + 1 := by
    simp [loops]; omega
  rw [e1, Nat.mul_add, Nat.mul_left_comm]
  have e2 : n * (n - 1) = 3 * (c * n) + 2 * n := by
    rw [show n - 1 = 3 * c + 2 by omega, Nat.mul_add, Nat.mul_left_comm, Nat.mul_comm n c, Nat.mul_comm n 2]
  omega

example : ((3 * 1000000 + 3 : Nat) : Int) ≤ IntTy.i32.hi ∧ IntTy.i32.lo ≤ -2 ∧
    ((loops 12).connected_componentsT .u8 .i8 20).steps = 360 := by
  refine ⟨by decide, by decide, by decide +kernel⟩
end
end Sparse

import Verif.Lemmas.GraphDfs
import Verif.Lemmas.GraphBfs
import Verif.Props.Convert
import Verif.Props.Basic
/-!
Connected components and depth-first order (C34–C38). `fuel` bounds the rounds of the `while` loops; the theorems
hold for every `fuel` above the stated bound, so they also say that the loops end.
-/
namespace Sparse

section
variable {T : Type}

theorem CSC.mem_triples_iff {a : CSC T} {i j : Int} {x : T} :
    (i, j, x) ∈ a.triples ↔ ∃ c : Nat, c < a.cols ∧ (c : Int) = j ∧ (i, x) ∈ a.col c := by
  unfold CSC.triples
  simp only [List.mem_flatMap, List.mem_range, List.mem_map, Prod.mk.injEq]
  constructor
  · rintro ⟨r, hr, e, he, h1, h2, h3⟩
    exact ⟨r, hr, h2, by rw [← h1, ← h3]; exact he⟩
  · rintro ⟨r, hr, h1, h2⟩
    exact ⟨r, hr, _, h2, rfl, h1, rfl⟩

/-- the transposed graph built by the undirected searches -/
theorem CSR.transposed_ok [AddCommMonoid T] {t : IntTy} {a : CSR T} (ha : a.WF t) (hsq : a.rows = a.cols)
    (hn : (a.rows : Int) ≤ t.hi + 1) :
    ∃ c r, a.transpose = .ok c ∧ c.to_csr t = .ok r ∧ r.WF t ∧ r.rows = a.rows ∧ r.cols = a.cols ∧
      (∀ i < r.rows, (r.row i).Pairwise fun e f => e.1 ≤ f.1) ∧ ∀ u v, r.has u v ↔ a.has v u := by
  obtain ⟨c, h1, -⟩ := C25_csr_transpose t a ha
  have h1' : a.transpose = .ok ⟨a.cols, a.rows, a.colidx, a.rowptr, a.values⟩ := by
    unfold CSR.transpose
    rw [CSC.new_ok (WFptr.rep ha)]
    rfl
  rw [h1'] at h1
  cases h1
  have hwf : CSC.WF t (⟨a.cols, a.rows, a.colidx, a.rowptr, a.values⟩ : CSC T) := ha
  obtain ⟨r, e1, e2, e3, e4, -, e5, e6, -⟩ := C04_csc_to_csr t _ hwf hn
  refine ⟨_, r, h1', e1, e2, by rw [e3]; exact hsq.symm, by rw [e4]; exact hsq, e6, fun u v => ?_⟩
  constructor
  · rintro ⟨x, hx⟩
    have hu := (CSR.WF.has_lt e2 ⟨x, hx⟩).1
    have := e5.subset (CSR.mem_triples_iff.2 ⟨u, hu, rfl, hx⟩)
    obtain ⟨c, -, h2, h3⟩ := CSC.mem_triples_iff.1 this
    have : c = v := by omega
    subst this
    exact ⟨x, h3⟩
  · rintro ⟨x, hx⟩
    have hv := (CSR.WF.has_lt ha ⟨x, hx⟩).1
    have := e5.symm.subset (CSC.mem_triples_iff.2 ⟨v, hv, rfl, hx⟩)
    obtain ⟨c, -, h2, h3⟩ := CSR.mem_triples_iff.1 this
    have : c = u := by omega
    subst this
    exact ⟨x, h3⟩

/-- C34: with `directed = false` or a weak connection, the components of any valid square graph are its classes of
nodes joined by paths with edges used in both directions, numbered `0 .. k` in order of their first nodes. -/
theorem C34_undirected_components [AddCommMonoid T] (t : IntTy) (a : CSR T) (ha : a.WF t) (hsq : a.rows = a.cols)
    (hn : (a.rows : Int) ≤ t.hi + 1) (directed : Bool) (conn : Connection) (hd : directed = false ∨ conn = .weak)
    (fuel : Nat) (hf : a.rows < fuel) :
    ∃ k labels, connected_components t fuel a directed conn = .ok (k, labels) ∧ labels.length = a.rows ∧
      (∀ u v : Nat, u < a.rows → v < a.rows → (labels[u]? = labels[v]? ↔ a.Joined u v)) ∧
      (∀ l, l ∈ labels ↔ l < k) ∧
      (∀ u l : Nat, labels[u]? = some l → ∀ m < l, ∃ u' < u, labels[u']? = some m) := by
  obtain ⟨c, r, h1, h2, hr, e1, e2, -, hhas⟩ := CSR.transposed_ok ha hsq hn
  have hg1 := ha.grep hsq
  have hg2 := hr.grep (by rw [e1, e2]; exact hsq)
  rw [e1] at hg2
  have key := ccu_ok hg1 hg2 (adj := a.link) (fun u w _ => by
    rw [ha.mem_succ, hr.mem_succ, hhas]; rfl) (fun u w h => h.symm) hf
  obtain ⟨⟨k, labels⟩, hk, q1, q2, q3, q4⟩ := key
  refine ⟨k, labels, ?_, q1, q2, q3, q4⟩
  rw [← hk]
  have hval : validate_graph a = .ok () := by unfold validate_graph; simp [hsq]; rfl
  have hu : (do
      let gt ← (← a.transpose).to_csr t
      connected_components_undirected fuel a.cols a.colidx a.rowptr gt.colidx gt.rowptr : M (Nat × List Nat)) =
      connected_components_undirected fuel a.rows a.colidx a.rowptr r.colidx r.rowptr := by
    rw [h1]
    show (c.to_csr t >>= _) = _
    rw [h2, hsq]
    rfl
  unfold connected_components
  rw [hval]
  by_cases hw : conn = .weak
  · simp only [hw, if_true]
    exact hu
  · have : directed = false := hd.resolve_right hw
    subst this
    simp only [hw, if_false]
    exact hu

/-- C34, C35, C37: a non-square graph is rejected with an error. -/
theorem C34_nonsquare [Zero T] (t : IntTy) (a : CSR T) (hsq : a.rows ≠ a.cols) (directed : Bool) (conn : Connection)
    (fuel : Nat) : connected_components t fuel a directed conn = .error .err := by
  unfold connected_components validate_graph
  by_cases hw : conn = .weak <;> simp [hw, hsq] <;> rfl

/-- four nodes: `0 → 1`, `3 → 1` (twice), `2 → 2` -/
def exGraph : CSR Int := ⟨4, 4, [0, 1, 1, 2, 4], [1, 2, 1, 1], [1, 0, 1, 1]⟩
theorem exGraph_wf : exGraph.WF .u8 := CSR.wf_of (by decide)

example : exGraph.WF .u8 ∧ exGraph.rows = exGraph.cols ∧ (exGraph.rows : Int) ≤ IntTy.u8.hi + 1 ∧
    connected_components .u8 5 exGraph false .strong = .ok (2, [0, 0, 1, 0]) := ⟨exGraph_wf, by decide, by decide, by decide +kernel⟩

/-! ### `CSR::connected_components` (`cs_graph_components`) -/

theorem csr_components_wp {t ft : IntTy} {a : CSR T} (ha : a.WF t) (hsq : a.rows = a.cols) (hlo : ft.lo ≤ -2) (hhi : (a.rows : Int) ≤ ft.hi + 1)
    (ht : (a.rows : Int) ≤ t.hi) {fuel : Nat} (hf : a.rows < fuel) :
    WP (a.connected_components t ft fuel) (fun r => (a.rows = 0 ∨ busy a.succ a.rows ≠ []) ∧
      ∃ (c : Nat) (D : List Nat), r.1 = c ∧ CsgOut a.succ a.rows r.2 c D ∧ ∀ u : Nat, r.2[u]? ≠ some (-1))
      (fun e => a.rows ≠ 0 ∧ busy a.succ a.rows = [] ∧ e = .err) := by
  have := csg_ok (ha.grep hsq) hlo hhi ht
    (flag := List.replicate a.rows 0) (by simp) hf
  unfold CSR.connected_components
  simp only [hsq, ne_eq, not_true, if_false]
  rw [hsq] at this
  exact this

theorem CSR.succ_eq_nil {a : CSR T} {u : Nat} : a.succ u = [] ↔ a.row u = [] := by simp [CSR.succ]

/-- C36: for a graph with symmetric pattern that is empty or has an edge, `CSR::connected_components` returns the
number `k` of components among the nodes with edges. Nodes without edges are flagged `-2`; the other flags are exactly
`0 .. k`, numbered by first occurrence, equal for two nodes exactly if they are joined by a path.
(The flag type must hold `-2` and the component numbers, the index type the number of nodes.) -/
theorem C36_csr_components_partial (t ft : IntTy) (a : CSR T) (ha : a.WF t) (hsq : a.rows = a.cols)
    (hsym : ∀ u v, a.has u v → a.has v u) (hlo : ft.lo ≤ -2) (hhi : (a.rows : Int) ≤ ft.hi + 1)
    (ht : (a.rows : Int) ≤ t.hi) (hedge : a.rows = 0 ∨ ∃ u v, a.has u v) (fuel : Nat) (hf : a.rows < fuel) :
    ∃ (k : Nat) (flags : List Int), a.connected_components t ft fuel = .ok ((k : Int), flags) ∧ flags.length = a.rows ∧
      (∀ u < a.rows, a.row u = [] → flags[u]? = some (-2)) ∧
      (∀ u < a.rows, a.row u ≠ [] → ∃ l : Nat, l < k ∧ flags[u]? = some (l : Int)) ∧
      (∀ u < a.rows, ∀ v < a.rows, a.row u ≠ [] → a.row v ≠ [] → (flags[u]? = flags[v]? ↔ a.Joined u v)) ∧
      (∀ l : Nat, l < k → (l : Int) ∈ flags) ∧
      (∀ (u l : Nat), flags[u]? = some (l : Int) → ∀ m < l, ∃ u' < u, flags[u']? = some ((m : Nat) : Int)) := by
  have hwp := csr_components_wp ha hsq hlo hhi ht hf
  have hadj : (fun u w => w ∈ a.succ u) = a.has := by
    funext u w; exact propext ha.mem_succ
  have hsym' : ∀ u w, u < a.rows → w ∈ a.succ u → u ∈ a.succ w := fun u w _ h => by
    rw [ha.mem_succ] at h ⊢; exact hsym u w h
  have hjoin : ∀ u v, a.Joined u v ↔ Relation.ReflTransGen a.has u v := by
    have : a.link = a.has := by
      funext u v
      refine propext ⟨?_, .inl⟩
      rintro (h | h)
      · exact h
      · exact hsym _ _ h
    intro u v
    unfold CSR.Joined
    rw [this]
  cases hm : a.connected_components t ft fuel with
  | error e =>
    rw [hm] at hwp
    obtain ⟨h1, h2, -⟩ := hwp
    exfalso
    rcases hedge with h | ⟨u, v, h⟩
    · exact h1 h
    · have hu := (ha.has_lt h).1
      have : u ∈ busy a.succ a.rows := mem_busy.2 ⟨hu, fun hc => by
        have := ha.mem_succ.2 h
        rw [hc] at this; simp at this⟩
      rw [h2] at this; simp at this
  | ok r =>
    rw [hm] at hwp
    obtain ⟨-, c, D, h1, ho, h3⟩ := hwp
    obtain ⟨k, flags⟩ := r
    simp only at h1 ho h3
    subst h1
    have hlab : ∀ u < a.rows, a.row u ≠ [] → ∃ l : Nat, l < c ∧ flags[u]? = some (l : Int) := by
      intro u hu hr
      obtain ⟨x, hx⟩ : ∃ x, flags[u]? = some x := ⟨flags[u]'(by have := ho.len; omega), by simp⟩
      rcases ho.val u x hx with rfl | rfl | h
      · exact absurd (CSR.succ_eq_nil.1 ((ho.iso u hu).1 hx)) hr
      · exact absurd hx (h3 u)
      · exact ⟨x.toNat, by omega, by rw [hx, Int.toNat_of_nonneg h.1]⟩
    refine ⟨c, flags, rfl, ho.len, fun u hu hr => (ho.iso u hu).2 (CSR.succ_eq_nil.2 hr), hlab, ?_, ?_, ?_⟩
    · intro u hu v hv hru hrv
      obtain ⟨l, -, hl⟩ := hlab u hu hru
      obtain ⟨m, -, hm⟩ := hlab v hv hrv
      rw [hjoin]
      constructor
      · intro h
        have := ho.conn_sym (ha.grep hsq).lt hsym' (by omega) hl (by rw [← h]; exact hl)
        rwa [hadj] at this
      · intro h
        have : flags[v]? = some (l : Int) := by
          clear hm hrv hv
          induction h with
          | refl => exact hl
          | tail _ h ih => exact ho.closed_sym hsym' (by omega) ih (ha.mem_succ.2 h)
        rw [hl, this]
    · intro l hl
      obtain ⟨u, h, -⟩ := ho.used l hl
      exact List.mem_of_getElem? h
    · intro u l h m hm
      exact ho.first u l h m (by omega)

/-- C36, for a pattern that need not be symmetric (and has an edge, if it has a node): nodes with empty rows are flagged
`-2`, the others with numbers below the returned one, all used and numbered by first occurrence. The first node of each
class reaches the whole class along edges between nodes with non-empty rows, and such an edge never leads into a class
with a larger number. -/
theorem C36_any_pattern (t ft : IntTy) (a : CSR T) (ha : a.WF t) (hsq : a.rows = a.cols)
    (hlo : ft.lo ≤ -2) (hhi : (a.rows : Int) ≤ ft.hi + 1) (ht : (a.rows : Int) ≤ t.hi)
    (hedge : a.rows = 0 ∨ ∃ u v, a.has u v) (fuel : Nat) (hf : a.rows < fuel) :
    ∃ (k : Nat) (flags : List Int), a.connected_components t ft fuel = .ok ((k : Int), flags) ∧ flags.length = a.rows ∧
      (∀ u < a.rows, a.row u = [] → flags[u]? = some (-2)) ∧
      (∀ u < a.rows, a.row u ≠ [] → ∃ l : Nat, l < k ∧ flags[u]? = some (l : Int)) ∧
      (∀ l : Nat, l < k → (l : Int) ∈ flags) ∧
      (∀ (u l : Nat), flags[u]? = some (l : Int) → ∀ m < l, ∃ u' < u, flags[u']? = some ((m : Nat) : Int)) ∧
      (∀ u l : Nat, flags[u]? = some (l : Int) → ∃ r, flags[r]? = some (l : Int) ∧
        (∀ u' : Nat, flags[u']? = some (l : Int) → r ≤ u') ∧
        Relation.ReflTransGen (fun x y => a.has x y ∧ a.row y ≠ []) r u) ∧
      (∀ u v l m : Nat, a.has u v → flags[u]? = some (l : Int) → flags[v]? = some (m : Int) → m ≤ l) := by
  have hwp := csr_components_wp ha hsq hlo hhi ht hf
  cases hm : a.connected_components t ft fuel with
  | error e =>
    rw [hm] at hwp
    obtain ⟨h1, h2, -⟩ := hwp
    exfalso
    rcases hedge with h | ⟨u, v, h⟩
    · exact h1 h
    · have hu := (ha.has_lt h).1
      have : u ∈ busy a.succ a.rows := mem_busy.2 ⟨hu, fun hc => by
        have := ha.mem_succ.2 h
        rw [hc] at this; simp at this⟩
      rw [h2] at this; simp at this
  | ok r =>
    rw [hm] at hwp
    obtain ⟨-, c, D, h1, ho, h3⟩ := hwp
    obtain ⟨k, flags⟩ := r
    simp only at h1 ho h3
    subst h1
    refine ⟨c, flags, rfl, ho.len, fun u hu hr => (ho.iso u hu).2 (CSR.succ_eq_nil.2 hr), ?_, ?_, ?_, ?_, ?_⟩
    · intro u hu hr
      obtain ⟨x, hx⟩ : ∃ x, flags[u]? = some x := ⟨flags[u]'(by have := ho.len; omega), by simp⟩
      rcases ho.val u x hx with rfl | rfl | h
      · exact absurd (CSR.succ_eq_nil.1 ((ho.iso u hu).1 hx)) hr
      · exact absurd hx (h3 u)
      · exact ⟨x.toNat, by omega, by rw [hx, Int.toNat_of_nonneg h.1]⟩
    · intro l hl
      obtain ⟨u, h, -⟩ := ho.used l hl
      exact List.mem_of_getElem? h
    · intro u l h m hm
      exact ho.first u l h m (by omega)
    · intro u l h
      obtain ⟨r, h4, h5, h6⟩ := ho.conn u l (by omega) h
      refine ⟨r, h4, h5, Relation.ReflTransGen.mono ?_ _ _ h6⟩
      rintro x y ⟨h7, h8⟩
      exact ⟨ha.mem_succ.1 h7, fun h => h8 (CSR.succ_eq_nil.2 h)⟩
    · intro u v l m huv hu hv
      have hvn : v < a.rows := by rw [hsq]; exact (ha.has_lt huv).2
      obtain ⟨y, h4, h5, h6⟩ := ho.closed u v l (by omega) hu (ha.mem_succ.2 huv) (fun hc => by
        have := (ho.iso v hvn).2 hc
        rw [hv] at this
        simp at this)
      rw [hv] at h6
      have : (m : Int) = y := Option.some.inj h6
      omega

/-- C36 fails for a graph with nodes but without edges: the result is an error ("graph is corrupted") instead of
zero components. -/
theorem C36_no_edges_error (t ft : IntTy) (a : CSR T) (ha : a.WF t) (hsq : a.rows = a.cols)
    (hlo : ft.lo ≤ -2) (hhi : (a.rows : Int) ≤ ft.hi + 1) (ht : (a.rows : Int) ≤ t.hi)
    (hn : a.rows ≠ 0) (hedge : ∀ u v, ¬ a.has u v) (fuel : Nat) (hf : a.rows < fuel) :
    a.connected_components t ft fuel = .error .err := by
  have hwp := csr_components_wp ha hsq hlo hhi ht hf
  cases hm : a.connected_components t ft fuel with
  | error e =>
    rw [hm] at hwp
    rw [hwp.2.2]
  | ok r =>
    rw [hm] at hwp
    rcases hwp.1 with h | h
    · exact absurd h hn
    · obtain ⟨u, hu⟩ := List.exists_mem_of_ne_nil _ h
      obtain ⟨h1, h2⟩ := mem_busy.1 hu
      obtain ⟨v, hv⟩ := List.exists_mem_of_ne_nil _ h2
      exact absurd (ha.mem_succ.1 hv) (hedge u v)

/-- C36: a non-square matrix is rejected with an error. -/
theorem C36_nonsquare (t ft : IntTy) (a : CSR T) (hsq : a.rows ≠ a.cols) (fuel : Nat) :
    a.connected_components t ft fuel = .error .err := by
  unfold CSR.connected_components
  simp only [ne_eq, Ne.symm hsq, not_false_eq_true, if_true]
  rfl

/-- six nodes; edges `0–2`, `4–5`, and a self-loop at `3`; `1` is isolated -/
def exSym : CSR Int := ⟨6, 6, [0, 1, 1, 2, 3, 4, 5], [2, 0, 3, 5, 4], [1, 1, 1, 1, 1]⟩
theorem exSym_wf : exSym.WF .u8 := CSR.wf_of (by decide)

example : exSym.WF .u8 ∧ exSym.rows = exSym.cols ∧ IntTy.i8.lo ≤ -2 ∧ (exSym.rows : Int) ≤ IntTy.i8.hi + 1 ∧
    (exSym.rows : Int) ≤ IntTy.u8.hi ∧ (∃ u v, exSym.has u v) ∧
    (exSym.succ 0 = [2] ∧ exSym.succ 1 = [] ∧ exSym.succ 2 = [0] ∧ exSym.succ 3 = [3] ∧ exSym.succ 4 = [5] ∧ exSym.succ 5 = [4]) ∧
    exSym.connected_components .u8 .i8 7 = .ok (3, [0, -2, 0, 1, 2, 2]) :=
  ⟨exSym_wf, by decide, by decide, by decide, by decide, ⟨0, 2, 1, by decide⟩, by decide, by decide +kernel⟩

/-- edges `0 → 1`, `1 → 1`, `2 → 0`, `2 → 3`: the classes are `{0, 1}` and `{2}`; `3` has an empty row -/
def exAsym : CSR Int := ⟨4, 4, [0, 1, 2, 4, 4], [1, 1, 0, 3], [1, 1, 1, 1]⟩
theorem exAsym_wf : exAsym.WF .u8 := CSR.wf_of (by decide)

example : exAsym.WF .u8 ∧ exAsym.rows = exAsym.cols ∧ (exAsym.rows : Int) ≤ IntTy.i8.hi + 1 ∧
    (exAsym.rows : Int) ≤ IntTy.u8.hi ∧ (∃ u v, exAsym.has u v) ∧
    exAsym.connected_components .u8 .i8 5 = .ok (2, [0, 0, 1, -2]) :=
  ⟨exAsym_wf, by decide, by decide, by decide, ⟨0, 1, 1, by decide⟩, by decide +kernel⟩

/-- three nodes without edges -/
example : (⟨3, 3, [0, 0, 0, 0], [], []⟩ : CSR Int).connected_components .u8 .i8 4 = .error .err := by decide +kernel

/-! ### depth-first order -/

/-- the whole outcome of `depth_first_order`, for both values of `directed` -/
theorem depth_first_order_ok [AddCommMonoid T] {t : IntTy} {a : CSR T} (ha : a.WF t) (hsq : a.rows = a.cols)
    (hn : (a.rows : Int) ≤ t.hi + 1) {start : Nat} (hs : start < a.rows) (directed : Bool) {fuel : Nat}
    (hf : 2 * a.rows ≤ fuel) :
    ∃ G s K, DfsOut a.rows start G s K ∧ depth_first_order t fuel a start directed = .ok (K, s.predecessors) ∧
      (directed = true → G = a.succ) ∧
      (directed = false → ∃ B : Nat → List Nat, (G = fun u => a.succ u ++ B u) ∧ (∀ u, (B u).Pairwise (· ≤ ·)) ∧
        ∀ u w, w ∈ B u ↔ a.has w u) ∧ ∀ u w, w ∈ G u ↔ if directed then a.has u w else a.link u w := by
  have hval : validate_graph a = .ok () := by unfold validate_graph; simp [hsq]; rfl
  have hslice : ∀ {G s K}, DfsOut a.rows start G s K → s.node_list.slice 0 s.i_nl_end = .ok K := by
    intro G s K h
    suffices hq : Ok (s.node_list.slice 0 s.i_nl_end) fun r => r = K by
      obtain ⟨r, e1, e2⟩ := hq
      rw [e1, e2]
    obtain ⟨r, hr⟩ := h.nodes
    rw [Ok_slice, ← hr, h.nl]
    simp
  cases directed with
  | true =>
    obtain ⟨r, h1, s, K, h2, rfl⟩ := dfs_directed_ok (ha.grep hsq) hs hf
    refine ⟨_, s, K, h2, ?_, fun _ => rfl, by simp, fun u w => by simp [ha.mem_succ]⟩
    unfold depth_first_order
    rw [hval]
    show (depth_first_directed fuel start a.colidx a.rowptr (List.replicate a.cols 0) (List.replicate a.cols none) >>= _) = _
    rw [← hsq, h1]
    show (s.node_list.slice 0 s.i_nl_end >>= _) = _
    rw [hslice h2]
    rfl
  | false =>
    obtain ⟨c, r, h1, h2, hr, e1, e2, hsort, hhas⟩ := CSR.transposed_ok ha hsq hn
    have hg2 := hr.grep (by rw [e1, e2]; exact hsq)
    rw [e1] at hg2
    obtain ⟨q, h3, s, K, h4, rfl⟩ := dfs_undirected_ok (ha.grep hsq) hg2 hs hf
    refine ⟨_, s, K, h4, ?_, by simp, fun _ => ⟨r.succ, rfl, fun u => ?_, fun u w => by rw [hr.mem_succ, hhas]⟩, fun u w => ?_⟩
    · unfold depth_first_order
      rw [hval]
      show (a.transpose >>= _) = _
      rw [h1]
      show (c.to_csr t >>= _) = _
      rw [h2]
      show (depth_first_undirected fuel start a.colidx a.rowptr r.colidx r.rowptr (List.replicate a.cols 0)
          (List.replicate a.cols none) >>= _) = _
      rw [← hsq, h3]
      show (s.node_list.slice 0 s.i_nl_end >>= _) = _
      rw [hslice h4]
      rfl
    · by_cases hu : u < r.rows
      · refine List.pairwise_map.2 ((hsort u hu).imp_of_mem fun {e f} he hf hef => ?_)
        exact Int.toNat_le_toNat hef
      · cases hr0 : r.succ u with
        | nil => exact .nil
        | cons w l =>
          have := hr.mem_succ.1 (by rw [hr0]; simp : w ∈ r.succ u)
          exact absurd (CSR.WF.has_lt hr this).1 hu
    · simp [ha.mem_succ, hr.mem_succ, hhas, CSR.link]

/-- C37: `depth_first_order` lists exactly the nodes that can be reached from the start node (along the edges, or
along edges used in both directions), each once, the start node first. -/
theorem C37_depth_first_nodes [AddCommMonoid T] (t : IntTy) (a : CSR T) (ha : a.WF t) (hsq : a.rows = a.cols)
    (hn : (a.rows : Int) ≤ t.hi + 1) (start : Nat) (hs : start < a.rows) (directed : Bool) (fuel : Nat)
    (hf : 2 * a.rows ≤ fuel) :
    ∃ nodes preds, depth_first_order t fuel a start directed = .ok (nodes, preds) ∧
      nodes.Nodup ∧ nodes.head? = some start ∧
      ∀ v, v ∈ nodes ↔ if directed then a.Reach start v else a.Joined start v := by
  obtain ⟨G, s, K, h1, h2, -, -, h3⟩ := depth_first_order_ok ha hsq hn hs directed hf
  refine ⟨K, _, h2, h1.nodup, ?_, fun v => ?_⟩
  · rw [List.head?_eq_getElem?]; exact h1.head
  · rw [h1.mem v]
    have : (fun u w => w ∈ G u) = fun u w => if directed then a.has u w else a.link u w := by
      funext u w; exact propext (h3 u w)
    rw [this]
    cases directed
    · exact Iff.rfl
    · exact Iff.rfl

/-- C37: a non-square graph is rejected with an error. -/
theorem C37_nonsquare [Zero T] (t : IntTy) (a : CSR T) (hsq : a.rows ≠ a.cols) (start : Nat) (directed : Bool)
    (fuel : Nat) : depth_first_order t fuel a start directed = .error .err := by
  unfold depth_first_order validate_graph
  simp [hsq]
  rfl

/-- C37: a start node that is not a node of the graph (in particular: any start node of the graph without nodes)
makes `depth_first_order` panic. -/
theorem C37_bad_start_panics [Zero T] (t : IntTy) (a : CSR T) (hsq : a.rows = a.cols) (start : Nat)
    (hs : a.rows ≤ start) (fuel : Nat) : depth_first_order t fuel a start true = .error (.panic .oob) := by
  have hval : validate_graph a = .ok () := by unfold validate_graph; simp [hsq]; rfl
  have hin : dfs_init start (List.replicate a.cols 0) (List.replicate a.cols none) = .error (.panic .oob) := by
    unfold dfs_init
    refine WP.fails_eq ?_
    wpe
    simp
    omega
  unfold depth_first_order
  rw [hval]
  show (depth_first_directed fuel start a.colidx a.rowptr (List.replicate a.cols 0) (List.replicate a.cols none) >>= _) = _
  unfold depth_first_directed
  rw [hin]
  rfl

/-- C38: the predecessors form a depth-first tree. The node `v` at position `k ≥ 1` of the list has as its
predecessor a node `u` listed before it, at position `i`, with an edge from `u` to `v`; every node listed between
`u` and `v` has all its neighbours listed before `v` (so `u` was the latest listed node that still had an unlisted
neighbour). With `directed`, `v` is the first successor of `u`, in storage order, not listed before.
The start node and the nodes not listed have no predecessor. -/
theorem C38_depth_first_tree [AddCommMonoid T] (t : IntTy) (a : CSR T) (ha : a.WF t) (hsq : a.rows = a.cols)
    (hn : (a.rows : Int) ≤ t.hi + 1) (start : Nat) (hs : start < a.rows) (directed : Bool) (fuel : Nat)
    (hf : 2 * a.rows ≤ fuel) :
    ∃ nodes preds, depth_first_order t fuel a start directed = .ok (nodes, preds) ∧ preds.length = a.rows ∧
      (∀ k v, nodes[k]? = some v → 1 ≤ k → ∃ i u, i < k ∧ nodes[i]? = some u ∧ preds[v]? = some (some u) ∧
        (if directed then a.has u v else a.link u v) ∧
        (∀ m x, i < m → m < k → nodes[m]? = some x → ∀ w, (if directed then a.has x w else a.link x w) → w ∈ nodes.take k) ∧
        (directed = true → ∃ pre suf, (a.row u).map (fun e => e.1.toNat) = pre ++ v :: suf ∧ ∀ x ∈ pre, x ∈ nodes.take k)) ∧
      ∀ w, w < a.rows → w ∉ nodes ∨ w = start → preds[w]? = some none := by
  obtain ⟨G, s, K, h1, h2, hG, -, h3⟩ := depth_first_order_ok ha hsq hn hs directed hf
  refine ⟨K, _, h2, h1.len, fun k v hk hk1 => ?_, h1.none⟩
  obtain ⟨i, u, q1, q2, q3, ⟨pre, suf, q4, q5⟩, q6⟩ := h1.preds k v hk hk1
  refine ⟨i, u, q1, q2, q3, (h3 u v).1 (by rw [q4]; simp), fun m x hm1 hm2 hx w hw => ?_, fun hd => ?_⟩
  · exact q6 m x hm1 hm2 hx w ((h3 x w).2 hw)
  · refine ⟨pre, suf, ?_, q5⟩
    have := hG hd
    rw [this] at q4
    exact q4

/-- five nodes: `0 → 2`, `0 → 1`, `2 → 3`, `3 → 0`, `4 → 3` -/
def exTree : CSR Int := ⟨5, 5, [0, 2, 2, 3, 4, 5], [2, 1, 3, 0, 3], [1, 1, 1, 1, 1]⟩
theorem exTree_wf : exTree.WF .u8 := CSR.wf_of (by decide)

example : exTree.WF .u8 ∧ exTree.rows = exTree.cols ∧ (exTree.rows : Int) ≤ IntTy.u8.hi + 1 ∧
    depth_first_order .u8 10 exTree 0 true = .ok ([0, 2, 3, 1], [none, some 0, some 0, some 2, none]) ∧
    depth_first_order .u8 10 exTree 0 false = .ok ([0, 2, 3, 4, 1], [none, some 0, some 0, some 2, some 3]) :=
  ⟨exTree_wf, by decide, by decide, by decide +kernel, by decide +kernel⟩

end
end Sparse

import Verif.Lemmas.GraphSccMain
import Verif.Props.Graph
import Verif.Props.Exact
/-!
Strongly connected components (C35). `fuel` bounds the rounds of the `while` loops; the theorem holds for every
`fuel` above the stated bound, so it also says that the loops end.

The full property quantifies over all valid graphs. It is false for graphs without nodes
(`C35_no_nodes_panics`) and for graphs that store an edge twice (`C35_duplicate_edge_panics`,
`C35_duplicate_edge_wrong`), so the theorem is about graphs with at least one node and without duplicate entries off
the diagonal.
-/
namespace Sparse

section
variable {T : Type}

theorem CSR.succ_nodup {t : IntTy} {a : CSR T} (ha : a.WF t) {v : Nat} (hv : v < a.rows)
    (h : (((a.row v).map (·.1)).filter fun j => decide (j ≠ (v : Int))).Nodup) :
    ((a.succ v).filter fun w => decide (w ≠ v)).Nodup := by
  have e : (a.succ v).filter (fun w => decide (w ≠ v)) =
      (((a.row v).map (·.1)).filter fun j => decide (j ≠ (v : Int))).map Int.toNat := by
    unfold CSR.succ
    rw [List.filter_map, List.filter_map, List.map_map]
    congr 1
    refine List.filter_congr fun e he => ?_
    have := (WFptr.mem ha hv he).1
    simp only [Function.comp]
    congr 1
    rw [eq_iff_iff]
    omega
  rw [e]
  refine (List.nodup_map_iff_inj_on h).2 ?_
  intro x hx y hy hxy
  have hx := List.mem_of_mem_filter hx
  have hy := List.mem_of_mem_filter hy
  rw [List.mem_map] at hx hy
  obtain ⟨e1, h1, rfl⟩ := hx
  obtain ⟨e2, h2, rfl⟩ := hy
  have := (WFptr.mem ha hv h1).1
  have := (WFptr.mem ha hv h2).1
  omega

/-- C35: the strong components of a valid square graph with at least one node and without duplicate entries
off the diagonal: `connected_components` returns `k` and one label per node; two nodes have the same label exactly if
each can be reached from the other, and the labels are exactly `0 .. k`. Moreover an edge never leads to a higher label. -/
theorem C35_strong_components_partial [Zero T] (t : IntTy) (a : CSR T) (ha : a.WF t) (hsq : a.rows = a.cols)
    (hn : 0 < a.rows) (hdup : ∀ u < a.rows, (((a.row u).map (·.1)).filter fun j => decide (j ≠ (u : Int))).Nodup)
    (fuel : Nat) (hf : 2 * a.rows < fuel) :
    ∃ k labels, connected_components t fuel a true .strong = .ok (k, labels) ∧ labels.length = a.rows ∧
      (∀ u v : Nat, u < a.rows → v < a.rows → (labels[u]? = labels[v]? ↔ a.Reach u v ∧ a.Reach v u)) ∧
      (∀ l, l ∈ labels ↔ l < k) ∧
      (∀ u v l m : Nat, a.Reach u v → labels[u]? = some l → labels[v]? = some m → m ≤ l) := by
  have hG : GReach a.succ = a.Reach := by
    unfold GReach
    funext u v
    show Relation.ReflTransGen _ u v = Relation.ReflTransGen _ u v
    congr 1
    funext x y
    exact propext ha.mem_succ
  obtain ⟨⟨k, labels⟩, h1, h2, -, h4, h5, h6⟩ := ccd_ok (ha.grep hsq) (fun v hv => CSR.succ_nodup ha hv (hdup v hv)) hn hf
  rw [hG] at h4 h6
  refine ⟨k, labels, ?_, h2, h4, h5, h6⟩
  have hval : validate_graph a = .ok () := by unfold validate_graph; simp [hsq]; rfl
  unfold connected_components
  rw [hval]
  rw [hsq] at h1
  simp only [reduceCtorEq, if_false]
  exact h1

/-- C35: on every valid square graph with at least one node, edges stored twice or not, calling `sum_duplicates` first makes
the answer right: the labels describe the strong components of the graph as it was given. Whatever the weights. -/
theorem C35_after_sum_duplicates [Zero T] [Add T] (t : IntTy) (a : CSR T) (ha : a.WF t) (hsq : a.rows = a.cols)
    (hn : 0 < a.rows) (hs : (a.stored : Int) < t.hi) (fuel : Nat) (hf : 2 * a.rows < fuel) :
    ∃ r k labels, a.sum_duplicates t = .ok r ∧ connected_components t fuel r true .strong = .ok (k, labels) ∧
      labels.length = a.rows ∧
      (∀ u v : Nat, u < a.rows → v < a.rows → (labels[u]? = labels[v]? ↔ a.Reach u v ∧ a.Reach v u)) ∧
      (∀ l, l ∈ labels ↔ l < k) ∧
      (∀ u v l m : Nat, a.Reach u v → labels[u]? = some l → labels[v]? = some m → m ≤ l) := by
  obtain ⟨r, h1, h2, h3, h4, h5, -, h6⟩ := C54_csr_sum_duplicates t a ha hs
  have key : ∀ (b : CSR T) (i j : Nat), b.has i j ↔ b.valuesAt i j ≠ [] := by
    intro b i j
    unfold CSR.has CSR.valuesAt valuesIn
    rw [ne_eq, List.map_eq_nil_iff, List.filter_eq_nil_iff]
    push Not
    constructor
    · rintro ⟨v, hv⟩; exact ⟨_, hv, by simp⟩
    · rintro ⟨⟨k, v⟩, hv, hk⟩
      simp only [decide_eq_true_eq] at hk
      subst hk
      exact ⟨v, hv⟩
  have hh : r.has = a.has := by
    funext i j
    rw [eq_iff_iff, key, key, h6]
    cases a.valuesAt i j <;> simp [collapse]
  have hR : r.Reach = a.Reach := by unfold CSR.Reach; rw [hh]
  obtain ⟨k, labels, g1, g2, g3, g4, g5⟩ := C35_strong_components_partial t r h2 (by omega) (by omega)
    (fun u hu => ((List.pairwise_map.2 ((h5 u hu).imp fun h => ne_of_lt h)) : ((r.row u).map (·.1)).Nodup).filter _) fuel (by omega)
  rw [hR, h3] at g3
  rw [hR] at g5
  exact ⟨r, k, labels, h1, g1, by omega, g3, g4, g5⟩

/-- the graph below, on which the search for strong components panics, is such a graph -/
example : ∃ a : CSR Int, a.WF .u8 ∧ a.rows = a.cols ∧ 0 < a.rows ∧ (a.stored : Int) < IntTy.u8.hi ∧
    connected_components .u8 10 a true .strong = .error (.panic .unwrap) :=
  ⟨⟨2, 2, [0, 2, 2], [1, 1], [1, 1]⟩, CSR.wf_of (by decide), rfl, by decide, by decide, rfl⟩

/-- seven nodes: the cycle `0 → 3 → 5 → 0`, the cycle `1 ⇄ 4`, `0 → 4`, `3 → 1`, `2 → 5`, loops at `2` and `4`,
and `6` without edges -/
def exScc : CSR Int := ⟨7, 7, [0, 2, 3, 5, 7, 9, 10, 10], [4, 3, 4, 2, 5, 1, 5, 1, 4, 0], [1, 1, 1, 1, 1, 1, 1, 1, 1, 1]⟩
theorem exScc_wf : exScc.WF .u8 := CSR.wf_of (by decide)

example : exScc.WF .u8 ∧ exScc.rows = exScc.cols ∧ 0 < exScc.rows ∧
    (∀ u < exScc.rows, (((exScc.row u).map (·.1)).filter fun j => decide (j ≠ (u : Int))).Nodup) ∧
    connected_components .u8 15 exScc true .strong = .ok (4, [1, 0, 2, 1, 0, 1, 3]) :=
  ⟨exScc_wf, by decide, by decide, by decide, by decide +kernel⟩

/-- C35: on the graph without nodes the search for strong components panics (`n - 1` underflows). -/
theorem C35_no_nodes_panics [Zero T] (t : IntTy) (a : CSR T) (h1 : a.rows = 0) (h2 : a.cols = 0) (fuel : Nat) :
    connected_components t fuel a true .strong = .error (.panic .arith) := by
  have hval : validate_graph a = .ok () := by unfold validate_graph; simp [h1, h2]; rfl
  unfold connected_components
  rw [hval, h2]
  rfl

example : (⟨0, 0, [0], [], []⟩ : CSR Int).WF .u8 := CSR.wf_of (by decide)

/-- two nodes; the edge `0 → 1` is stored twice -/
def exTwice : CSR Int := ⟨2, 2, [0, 2, 2], [1, 1], [1, 1]⟩
theorem exTwice_wf : exTwice.WF .u8 := CSR.wf_of (by decide)

/-- C35: a graph that stores an edge twice can make the search for strong components panic (the node is removed from the
stack and then linked to itself). -/
theorem C35_duplicate_edge_panics : exTwice.WF .u8 ∧ exTwice.rows = exTwice.cols ∧
    ∀ fuel, 10 ≤ fuel → connected_components .u8 fuel exTwice true .strong = .error (.panic .unwrap) := by
  refine ⟨exTwice_wf, rfl, ?_⟩
  intro fuel hf
  obtain ⟨m, rfl⟩ : ∃ m, fuel = m + 10 := ⟨fuel - 10, by omega⟩
  rfl

/-- four nodes on the cycle `0 → 1 → 2 → 3 → 0`, with `1 → 3` and `3 → 2`; the edge `1 → 2` is stored twice -/
def exTwiceWrong : CSR Int := ⟨4, 4, [0, 1, 4, 5, 7], [1, 2, 2, 3, 3, 0, 2], [1, 1, 1, 1, 1, 1, 1]⟩
theorem exTwiceWrong_wf : exTwiceWrong.WF .u8 := CSR.wf_of (by decide)

/-- C35: a graph that stores an edge twice can also give a wrong answer without any panic. All four nodes can be reached
from each other, yet the call returns the count 0 and three different labels; the rows of the graph are sorted. -/
theorem C35_duplicate_edge_wrong : exTwiceWrong.WF .u8 ∧ exTwiceWrong.rows = exTwiceWrong.cols ∧
    (∀ i < 4, (exTwiceWrong.row i).Pairwise fun e f => e.1 ≤ f.1) ∧
    (∀ u v : Nat, u < 4 → v < 4 → exTwiceWrong.Reach u v) ∧
    ∀ fuel, 15 ≤ fuel → connected_components .u8 fuel exTwiceWrong true .strong = .ok (0, [3, 2, 3, 3]) := by
  have hs : ∀ x y, y ∈ exTwiceWrong.succ x → exTwiceWrong.has x y := fun x y h => (exTwiceWrong_wf.mem_succ).1 h
  have e0 : exTwiceWrong.Reach 0 1 := .single (hs 0 1 (by decide))
  have e1 : exTwiceWrong.Reach 1 2 := .single (hs 1 2 (by decide))
  have e2 : exTwiceWrong.Reach 2 3 := .single (hs 2 3 (by decide))
  have e3 : exTwiceWrong.Reach 3 0 := .single (hs 3 0 (by decide))
  refine ⟨exTwiceWrong_wf, rfl, by decide, ?_, ?_⟩
  · have h0 : ∀ v : Nat, v < 4 → exTwiceWrong.Reach 0 v ∧ exTwiceWrong.Reach v 0 := by
      intro v hv
      match v, hv with
      | 0, _ => exact ⟨.refl, .refl⟩
      | 1, _ => exact ⟨e0, e1.trans (e2.trans e3)⟩
      | 2, _ => exact ⟨e0.trans e1, e2.trans e3⟩
      | 3, _ => exact ⟨e0.trans (e1.trans e2), e3⟩
    exact fun u v hu hv => (h0 u hu).2.trans (h0 v hv).1
  · intro fuel hf
    obtain ⟨m, rfl⟩ : ∃ m, fuel = m + 15 := ⟨fuel - 15, by omega⟩
    rfl

end
end Sparse

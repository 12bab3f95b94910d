import Verif.Props.Scc
import Mathlib.Data.Finset.Card
/-!
C100: the graph functions agree with each other.
-/
namespace Sparse

section
variable {T : Type}

theorem CSR.has_iff_valuesAt {a : CSR T} {i j : Nat} : a.has i j ↔ a.valuesAt i j ≠ [] := by
  unfold CSR.has CSR.valuesAt valuesIn
  constructor
  · rintro ⟨v, hv⟩ h
    rw [List.map_eq_nil_iff, List.filter_eq_nil_iff] at h
    exact h _ hv (by simp)
  · intro h
    obtain ⟨v, hv⟩ := List.exists_mem_of_ne_nil _ h
    obtain ⟨e, he, rfl⟩ := List.mem_map.1 hv
    obtain ⟨h1, h2⟩ := List.mem_filter.1 he
    have h2 : e.1 = (j : Int) := by simpa using h2
    exact ⟨e.2, by rw [← h2]; exact h1⟩

theorem CSR.WF.nodup_iff {t : IntTy} {a : CSR T} (ha : a.WF t) : a.NoDup ↔ ∀ i < a.rows, ∀ j : Nat, (a.valuesAt i j).length ≤ 1 := by
  have e : ∀ i (j : Nat), (a.valuesAt i j).length = ((a.row i).map (·.1)).count (j : Int) := by
    intro i j
    unfold CSR.valuesAt valuesIn
    rw [List.length_map, List.count_eq_countP, List.countP_map, List.countP_eq_length_filter]
    rfl
  unfold CSR.NoDup
  constructor
  · intro h i hi j
    rw [e]
    exact List.nodup_iff_count_le_one.1 (h i hi) _
  · intro h i hi
    rw [List.nodup_iff_count_le_one]
    intro x
    by_cases hx : x ∈ (a.row i).map (·.1)
    · obtain ⟨y, hy, rfl⟩ := List.mem_map.1 hx
      have := (WFptr.mem ha hi hy).1
      have h2 := h i hi y.1.toNat
      rw [e, Int.toNat_of_nonneg this] at h2
      exact h2
    · rw [List.count_eq_zero_of_not_mem hx]
      omega

theorem CSR.Joined.symm' {a : CSR T} {u v : Nat} (h : a.Joined u v) : a.Joined v u := by
  induction h with
  | refl => exact .refl
  | tail _ h ih => exact .head h.symm ih

theorem CSR.Reach.joined {a : CSR T} {u v : Nat} (h : a.Reach u v) : a.Joined u v :=
  Relation.ReflTransGen.mono (fun _ _ => .inl) _ _ h

theorem CSR.WF.joined_lt {t : IntTy} {a : CSR T} (ha : a.WF t) (hsq : a.rows = a.cols) {u v : Nat} (h : a.Joined u v) (hu : u < a.rows) :
    v < a.rows := by
  induction h with
  | refl => exact hu
  | tail _ h _ =>
    rcases h with h | h
    · rw [hsq]; exact (ha.has_lt h).2
    · exact (ha.has_lt h).1

/-- numbering classes by their first members leaves no choice -/
theorem numbering_unique {n : Nat} {R : Nat → Nat → Prop} {k k' : Nat} {l l' : List Nat} (h : l.length = n) (h' : l'.length = n)
    (p : ∀ u v : Nat, u < n → v < n → (l[u]? = l[v]? ↔ R u v)) (p' : ∀ u v : Nat, u < n → v < n → (l'[u]? = l'[v]? ↔ R u v))
    (q : ∀ x, x ∈ l ↔ x < k) (q' : ∀ x, x ∈ l' ↔ x < k')
    (o : ∀ u x : Nat, l[u]? = some x → ∀ m < x, ∃ u' < u, l[u']? = some m)
    (o' : ∀ u x : Nat, l'[u]? = some x → ∀ m < x, ∃ u' < u, l'[u']? = some m) : k = k' ∧ l = l' := by
  have key : ∀ u : Nat, u < n → l[u]? = l'[u]? := by
    intro u
    induction u using Nat.strong_induction_on with
    | _ u ih =>
      intro hu
      obtain ⟨x, hx⟩ : ∃ x, l[u]? = some x := ⟨l[u]'(by omega), List.getElem?_eq_getElem _⟩
      obtain ⟨y, hy⟩ : ∃ y, l'[u]? = some y := ⟨l'[u]'(by omega), List.getElem?_eq_getElem _⟩
      rw [hx, hy]
      rcases Nat.lt_trichotomy x y with hxy | hxy | hxy
      · obtain ⟨w, hw, e⟩ := o' u y hy x hxy
        have e1 := ih w hw (by omega)
        have e2 := (p' w u (by omega) hu).2 ((p w u (by omega) hu).1 (by rw [e1, e, hx]))
        rw [e, hy] at e2
        exact e2
      · rw [hxy]
      · obtain ⟨w, hw, e⟩ := o u x hx y hxy
        have e1 := ih w hw (by omega)
        have e2 := (p w u (by omega) hu).2 ((p' w u (by omega) hu).1 (by rw [← e1, e, hy]))
        rw [e, hx] at e2
        exact e2.symm
  have e : l = l' := by
    apply List.ext_getElem?
    intro u
    by_cases hu : u < n
    · exact key u hu
    · rw [List.getElem?_eq_none (by omega), List.getElem?_eq_none (by omega)]
  refine ⟨?_, e⟩
  subst e
  rcases Nat.lt_trichotomy k k' with h1 | h1 | h1
  · have := (q k).1 ((q' k).2 h1); omega
  · exact h1
  · have := (q' k').1 ((q k').2 h1); omega

open Classical in
/-- the number of labels is the number of nodes that are the first with their label -/
theorem card_first {α : Type} {n k : Nat} (f : Nat → Option α) (g : Nat → α) (hg : ∀ x y, g x = g y → x = y)
    (q : ∀ x, x < k ↔ ∃ u < n, f u = some (g x)) :
    k = ((Finset.range n).filter fun u => (∃ x < k, f u = some (g x)) ∧ ∀ w < u, f w ≠ f u).card := by
  conv_lhs => rw [← Finset.card_range k]
  symm
  refine Finset.card_bij (fun u hu => ((Finset.mem_filter.1 hu).2.1).choose) ?_ ?_ ?_
  · intro u hu
    exact Finset.mem_range.2 ((Finset.mem_filter.1 hu).2.1).choose_spec.1
  · intro u hu v hv e
    have hu' := ((Finset.mem_filter.1 hu).2.1).choose_spec.2
    have hv' := ((Finset.mem_filter.1 hv).2.1).choose_spec.2
    rw [e, ← hv'] at hu'
    rcases Nat.lt_trichotomy u v with h | h | h
    · exact absurd hu' ((Finset.mem_filter.1 hv).2.2 u h)
    · exact h
    · exact absurd hu'.symm ((Finset.mem_filter.1 hu).2.2 v h)
  · intro x hx
    have hx := Finset.mem_range.1 hx
    have hex := (q x).1 hx
    have h1 : ∃ u, u < n ∧ f u = some (g x) := hex
    have h2 := Nat.find_spec h1
    have hm : Nat.find h1 ∈ (Finset.range n).filter fun u => (∃ x < k, f u = some (g x)) ∧ ∀ w < u, f w ≠ f u := by
      refine Finset.mem_filter.2 ⟨Finset.mem_range.2 h2.1, ⟨x, hx, h2.2⟩, fun w hw e => ?_⟩
      exact Nat.find_min h1 hw ⟨by omega, by rw [e, h2.2]⟩
    refine ⟨_, hm, ?_⟩
    have h3 := ((Finset.mem_filter.1 hm).2.1).choose_spec.2
    exact (hg _ _ (Option.some.inj (h2.2.symm.trans h3))).symm

open Classical in
/-- a labelling that separates exactly the classes of `R` has as many labels as there are first members of classes -/
theorem card_labels {n k : Nat} {R : Nat → Nat → Prop} {l : List Nat} (h : l.length = n)
    (p : ∀ u v : Nat, u < n → v < n → (l[u]? = l[v]? ↔ R u v)) (q : ∀ x, x ∈ l ↔ x < k) :
    k = ((Finset.range n).filter fun u => ∀ w < u, ¬ R w u).card := by
  have h1 := card_first (n := n) (k := k) (fun u => l[u]?) id (fun _ _ e => e) (by
    intro x
    rw [← q x, List.mem_iff_getElem?]
    constructor
    · rintro ⟨u, hu⟩
      exact ⟨u, by have := (List.getElem?_eq_some_iff.1 hu).1; omega, hu⟩
    · rintro ⟨u, -, hu⟩
      exact ⟨u, hu⟩)
  rw [h1]
  congr 1
  ext u
  simp only [Finset.mem_filter, Finset.mem_range, id]
  constructor
  · rintro ⟨hu, -, h2⟩
    exact ⟨hu, fun w hw hR => h2 w hw ((p w u (by omega) hu).2 hR)⟩
  · rintro ⟨hu, h2⟩
    refine ⟨hu, ⟨l[u]'(by omega), (q _).1 (List.getElem_mem _), List.getElem?_eq_getElem _⟩, fun w hw e => h2 w hw ((p w u (by omega) hu).1 e)⟩

/-- C100: the answer of the weak component search depends on nothing but which nodes are joined: index type, order of the
entries, values, directions and repetitions of the edges play no role. -/
theorem C100_weak_determined [AddCommMonoid T] {S : Type} [AddCommMonoid S] (t t' : IntTy) (a : CSR T) (b : CSR S) (ha : a.WF t)
    (hb : b.WF t') (ea : a.rows = a.cols) (eb : b.rows = b.cols) (na : (a.rows : Int) ≤ t.hi + 1) (nb : (b.rows : Int) ≤ t'.hi + 1)
    (hr : a.rows = b.rows) (hj : ∀ u v, u < a.rows → v < a.rows → (a.Joined u v ↔ b.Joined u v)) (d d' : Bool) (c c' : Connection)
    (hd : d = false ∨ c = .weak) (hd' : d' = false ∨ c' = .weak) (fuel : Nat) (hf : a.rows < fuel) :
    connected_components t fuel a d c = connected_components t' fuel b d' c' := by
  obtain ⟨k, l, h1, h2, h3, h4, h5⟩ := C34_undirected_components t a ha ea na d c hd fuel hf
  obtain ⟨k', l', g1, g2, g3, g4, g5⟩ := C34_undirected_components t' b hb eb nb d' c' hd' fuel (by omega)
  obtain ⟨rfl, rfl⟩ := numbering_unique (R := a.Joined) h2 (by omega) h3
    (fun u v hu hv => by rw [hj u v hu hv]; exact g3 u v (by omega) (by omega)) h4 g4 h5 g5
  rw [h1, g1]

/-- C100: the nodes listed by the undirected depth-first search are exactly those with the same weak label as the start. -/
theorem C100_search_weak [AddCommMonoid T] (t : IntTy) (a : CSR T) (ha : a.WF t) (hsq : a.rows = a.cols) (hn : (a.rows : Int) ≤ t.hi + 1)
    (start : Nat) (hs : start < a.rows) (d : Bool) (c : Connection) (hd : d = false ∨ c = .weak) (fuel : Nat) (hf : 2 * a.rows ≤ fuel) :
    ∃ nodes preds k labels, depth_first_order t fuel a start false = .ok (nodes, preds) ∧
      connected_components t fuel a d c = .ok (k, labels) ∧
      nodes.Perm ((List.range a.rows).filter fun v => labels[v]? = labels[start]?) := by
  obtain ⟨nodes, preds, h1, h2, h3, h4⟩ := C37_depth_first_nodes t a ha hsq hn start hs false fuel hf
  obtain ⟨k, labels, g1, g2, g3, -⟩ := C34_undirected_components t a ha hsq hn d c hd fuel (by omega)
  refine ⟨nodes, preds, k, labels, h1, g1, ?_⟩
  rw [List.perm_ext_iff_of_nodup h2 (List.nodup_range.filter _)]
  intro v
  rw [h4, List.mem_filter, List.mem_range, decide_eq_true_iff]
  simp only [Bool.false_eq_true, if_false]
  constructor
  · intro h
    have hv := ha.joined_lt hsq h hs
    exact ⟨hv, (g3 v start hv hs).2 h.symm'⟩
  · rintro ⟨hv, h⟩
    exact ((g3 v start hv hs).1 h).symm'

/-- C100: two nodes have the same strong label exactly if each is listed by the directed depth-first search from the other. -/
theorem C100_search_strong [AddCommMonoid T] (t : IntTy) (a : CSR T) (ha : a.WF t) (hsq : a.rows = a.cols) (hn : (a.rows : Int) ≤ t.hi + 1)
    (hdup : ∀ u < a.rows, (((a.row u).map (·.1)).filter fun j => decide (j ≠ (u : Int))).Nodup)
    (u v : Nat) (hu : u < a.rows) (hv : v < a.rows) (fuel : Nat) (hf : 2 * a.rows < fuel) :
    ∃ nu pu nv pv k labels, depth_first_order t fuel a u true = .ok (nu, pu) ∧ depth_first_order t fuel a v true = .ok (nv, pv) ∧
      connected_components t fuel a true .strong = .ok (k, labels) ∧ (labels[u]? = labels[v]? ↔ v ∈ nu ∧ u ∈ nv) := by
  obtain ⟨nu, pu, h1, -, -, h4⟩ := C37_depth_first_nodes t a ha hsq hn u hu true fuel (by omega)
  obtain ⟨nv, pv, g1, -, -, g4⟩ := C37_depth_first_nodes t a ha hsq hn v hv true fuel (by omega)
  obtain ⟨k, labels, e1, -, e3, -⟩ := C35_strong_components_partial t a ha hsq (by omega) hdup fuel hf
  refine ⟨nu, pu, nv, pv, k, labels, h1, g1, e1, ?_⟩
  rw [e3 u v hu hv, h4, g4]
  simp

/-- C100: strong components lie within weak components, so there are at least as many of them; if every edge is stored in both
directions, the two answers have the same classes and the same number of them. -/
theorem C100_strong_weak [AddCommMonoid T] (t : IntTy) (a : CSR T) (ha : a.WF t) (hsq : a.rows = a.cols) (hn : (a.rows : Int) ≤ t.hi + 1)
    (h0 : 0 < a.rows) (hdup : ∀ u < a.rows, (((a.row u).map (·.1)).filter fun j => decide (j ≠ (u : Int))).Nodup)
    (fuel : Nat) (hf : 2 * a.rows < fuel) :
    ∃ k labels k' labels', connected_components t fuel a true .strong = .ok (k, labels) ∧
      connected_components t fuel a true .weak = .ok (k', labels') ∧ k' ≤ k ∧
      (∀ u v : Nat, u < a.rows → v < a.rows → labels[u]? = labels[v]? → labels'[u]? = labels'[v]?) ∧
      ((∀ u v, a.has u v → a.has v u) → k = k' ∧
        ∀ u v : Nat, u < a.rows → v < a.rows → (labels[u]? = labels[v]? ↔ labels'[u]? = labels'[v]?)) := by
  classical
  obtain ⟨k, l, h1, h2, h3, h4, -⟩ := C35_strong_components_partial t a ha hsq h0 hdup fuel hf
  obtain ⟨k', l', g1, g2, g3, g4, -⟩ := C34_undirected_components t a ha hsq hn true .weak (.inr rfl) fuel (by omega)
  have c1 := card_labels h2 h3 h4
  have c2 := card_labels g2 g3 g4
  refine ⟨k, l, k', l', h1, g1, ?_, fun u v hu hv e => (g3 u v hu hv).2 ((h3 u v hu hv).1 e).1.joined, fun hsym => ?_⟩
  · refine c2.trans_le (le_of_le_of_eq (Finset.card_le_card fun u hu => ?_) c1.symm)
    simp only [Finset.mem_filter] at hu ⊢
    exact ⟨hu.1, fun w hw hR => hu.2 w hw hR.1.joined⟩
  · have e : ∀ u v, a.Reach u v ↔ a.Joined u v := by
      intro u v
      have : a.link = a.has := by
        funext x y
        exact propext ⟨fun h => h.elim id (hsym y x), .inl⟩
      unfold CSR.Joined
      rw [this]
      rfl
    have e2 : ∀ u v, (a.Reach u v ∧ a.Reach v u) ↔ a.Joined u v := fun u v => by
      rw [e, e]
      exact ⟨fun h => h.1, fun h => ⟨h, h.symm'⟩⟩
    refine ⟨?_, fun u v hu hv => by rw [h3 u v hu hv, g3 u v hu hv, e2]⟩
    refine c1.trans (Eq.trans ?_ c2.symm)
    congr 1
    ext u
    simp only [Finset.mem_filter, e2]

theorem CSR.row_ne_nil_of_joined {a : CSR T} (hsym : ∀ u v, a.has u v → a.has v u) {u v : Nat} (h : a.Joined u v) (huv : u ≠ v) :
    a.row u ≠ [] := by
  induction h with
  | refl => exact absurd rfl huv
  | @tail b c h1 h2 ih =>
    by_cases hb : u = b
    · subst hb
      have : a.has u c := h2.elim id (hsym c u)
      obtain ⟨x, hx⟩ := this
      exact List.ne_nil_of_mem hx
    · exact ih hb

open Classical in
/-- C100: if every edge is stored in both directions and there is an edge, the method `CSR::connected_components` and the weak
component search put the nodes that have edges into the same classes, in the same order; the weak search counts
every node without edges as one more component. -/
theorem C100_method_weak [AddCommMonoid T] (t ft : IntTy) (a : CSR T) (ha : a.WF t) (hsq : a.rows = a.cols)
    (hsym : ∀ u v, a.has u v → a.has v u) (hlo : ft.lo ≤ -2) (hhi : (a.rows : Int) ≤ ft.hi + 1)
    (ht : (a.rows : Int) ≤ t.hi) (hedge : ∃ u v, a.has u v) (d : Bool) (c : Connection) (hd : d = false ∨ c = .weak)
    (fuel : Nat) (hf : a.rows < fuel) :
    ∃ (k : Nat) (flags : List Int) (k' : Nat) (labels : List Nat), a.connected_components t ft fuel = .ok ((k : Int), flags) ∧
      connected_components t fuel a d c = .ok (k', labels) ∧
      k' = k + ((Finset.range a.rows).filter fun u => a.row u = []).card ∧
      ∀ u v : Nat, u < a.rows → v < a.rows → a.row u ≠ [] → a.row v ≠ [] → (flags[u]? = flags[v]? ↔ labels[u]? = labels[v]?) := by
  obtain ⟨k, flags, h1, h2, h3, h4, h5, h6, h7⟩ := C36_csr_components_partial t ft a ha hsq hsym hlo hhi ht (.inr hedge) fuel hf
  obtain ⟨k', l', g1, g2, g3, g4, g5⟩ := C34_undirected_components t a ha hsq (by omega) d c hd fuel hf
  refine ⟨k, flags, k', l', h1, g1, ?_, fun u v hu hv eu ev => by rw [h5 u hu v hv eu ev, g3 u v hu hv]⟩
  have c1 := card_first (n := a.rows) (k := k) (fun u => flags[u]?) (fun x => (x : Int)) (fun _ _ e => by omega) (by
    intro x
    constructor
    · intro hx
      obtain ⟨u, hu⟩ := List.mem_iff_getElem?.1 (h6 x hx)
      exact ⟨u, by have := (List.getElem?_eq_some_iff.1 hu).1; omega, hu⟩
    · rintro ⟨u, hu, e⟩
      by_cases hr : a.row u = []
      · have := h3 u hu hr
        rw [this] at e
        injection e with e
        omega
      · obtain ⟨y, hy, e'⟩ := h4 u hu hr
        rw [e'] at e
        injection e with e
        omega)
  rw [card_labels g2 g3 g4]
  conv_rhs => rw [c1]
  rw [← Finset.card_union_of_disjoint]
  · congr 1
    ext u
    simp only [Finset.mem_union, Finset.mem_filter, Finset.mem_range]
    constructor
    · rintro ⟨hu, hR⟩
      by_cases hr : a.row u = []
      · exact .inr ⟨hu, hr⟩
      · obtain ⟨x, hx, e⟩ := h4 u hu hr
        refine .inl ⟨hu, ⟨x, hx, e⟩, fun w hw e' => hR w hw ?_⟩
        by_cases hw' : a.row w = []
        · rw [h3 w (by omega) hw', e] at e'
          injection e' with e'
          omega
        · exact (h5 w (by omega) u hu hw' hr).1 e'
    · rintro (⟨hu, ⟨x, hx, e⟩, hR⟩ | ⟨hu, hr⟩)
      · refine ⟨hu, fun w hw hj => hR w hw ?_⟩
        have e1 := CSR.row_ne_nil_of_joined hsym hj (by omega)
        have e2 := CSR.row_ne_nil_of_joined hsym hj.symm' (by omega)
        exact (h5 w (by omega) u hu e1 e2).2 hj
      · exact ⟨hu, fun w hw hj => absurd hr (CSR.row_ne_nil_of_joined hsym hj.symm' (by omega))⟩
  · rw [Finset.disjoint_left]
    intro u hu hv
    simp only [Finset.mem_filter, Finset.mem_range] at hu hv
    obtain ⟨hu, ⟨x, hx, e⟩, -⟩ := hu
    rw [h3 u hu hv.2] at e
    injection e with e
    omega

/-- C100: reversing all edges (the transposed matrix, converted back to CSR) leaves the answer of the weak search as it is, leaves
the classes and the number of strong components as they are and turns "reached from" around in the directed depth-first search. -/
theorem C100_reversed [AddCommMonoid T] (t : IntTy) (a : CSR T) (ha : a.WF t) (hsq : a.rows = a.cols) (hn : (a.rows : Int) ≤ t.hi + 1) :
    ∃ c b, a.transpose = .ok c ∧ c.to_csr t = .ok b ∧
      (∀ fuel, a.rows < fuel → ∀ (d : Bool) (q : Connection), (d = false ∨ q = .weak) →
        connected_components t fuel b d q = connected_components t fuel a d q) ∧
      (∀ fuel, 2 * a.rows ≤ fuel → ∀ u v, u < a.rows → v < a.rows → ∃ nu pu nv pv,
        depth_first_order t fuel a u true = .ok (nu, pu) ∧ depth_first_order t fuel b v true = .ok (nv, pv) ∧ (v ∈ nu ↔ u ∈ nv)) ∧
      (a.NoDup → 0 < a.rows → ∀ fuel, 2 * a.rows < fuel → ∃ k l l', connected_components t fuel a true .strong = .ok (k, l) ∧
        connected_components t fuel b true .strong = .ok (k, l') ∧
        ∀ u v : Nat, u < a.rows → v < a.rows → (l[u]? = l[v]? ↔ l'[u]? = l'[v]?)) := by
  classical
  obtain ⟨c, h1, h2, h3, h4, h5⟩ := (C53_transpose t).1 a ha
  obtain ⟨b, g1, g2, g3, g4, -, -, -, g5⟩ := C53_csc_to_csr t c h2 (by omega)
  have hh : ∀ u v, b.has u v ↔ a.has v u := fun u v => by
    rw [CSR.has_iff_valuesAt, CSR.has_iff_valuesAt, g5, h5]
  have hl : b.link = a.link := by
    funext u v
    unfold CSR.link
    rw [hh, hh]
    exact propext or_comm
  have hj : ∀ u v, a.Joined u v ↔ b.Joined u v := fun u v => by
    unfold CSR.Joined
    rw [hl]
  have hR : ∀ u v, b.Reach u v ↔ a.Reach v u := fun u v => by
    unfold CSR.Reach
    have : b.has = Function.swap a.has := by
      funext u v
      exact propext (hh u v)
    rw [this, Relation.reflTransGen_swap]
  have hbr : b.rows = a.rows := by omega
  refine ⟨c, b, h1, g1, fun fuel hf d q hd => ?_, fun fuel hf u v hu hv => ?_, fun da h0 fuel hf => ?_⟩
  · exact (C100_weak_determined t t a b ha g2 hsq (by omega) hn (by omega) (by omega) (fun u v _ _ => hj u v) d d q q hd hd fuel hf).symm
  · obtain ⟨nu, pu, e1, -, -, e4⟩ := C37_depth_first_nodes t a ha hsq hn u hu true fuel hf
    obtain ⟨nv, pv, f1, -, -, f4⟩ := C37_depth_first_nodes t b g2 (by omega) (by omega) v (by omega) true fuel (by omega)
    refine ⟨nu, pu, nv, pv, e1, f1, ?_⟩
    rw [e4, f4]
    simp [hR]
  · have db : b.NoDup := g2.nodup_iff.2 fun i hi j => by
      rw [g5, h5]
      by_cases hj : j < a.rows
      · exact ha.nodup_iff.1 da j hj i
      · rw [CSR.valuesAt_out ha fun h => hj h.1]
        exact Nat.zero_le _
    obtain ⟨k, l, e1, e2, e3, e4, -⟩ := C35_strong_components_partial t a ha hsq h0 (fun u hu => (da u hu).filter _) fuel hf
    obtain ⟨k', l', f1, f2, f3, f4, -⟩ := C35_strong_components_partial t b g2 (by omega) (by omega) (fun u hu => (db u hu).filter _)
      fuel (by omega)
    have hc : ∀ u v, (b.Reach u v ∧ b.Reach v u) ↔ (a.Reach u v ∧ a.Reach v u) := fun u v => by rw [hR, hR]; exact and_comm
    have hk : k = k' := by
      rw [card_labels e2 e3 e4, card_labels f2 f3 f4, hbr]
      congr 1
      ext u
      simp only [Finset.mem_filter, hc]
    subst hk
    exact ⟨k, l, l', e1, f1, fun u v hu hv => by rw [e3 u v hu hv, f3 u v (by omega) (by omega), hc]⟩

/-- an edge `0 → 1`, both directions between `1` and `2`, `3` alone -/
def exOne : CSR Int := ⟨4, 4, [0, 1, 2, 3, 3], [1, 2, 1], [1, 1, 1]⟩
theorem exOne_wf : exOne.WF .u8 := CSR.wf_of (by decide)

example : exOne.WF .u8 ∧ exOne.rows = exOne.cols ∧ exOne.NoDup ∧ connected_components .u8 9 exOne true .strong = .ok (3, [1, 0, 0, 2]) ∧
    connected_components .u8 9 exOne true .weak = .ok (2, [0, 0, 0, 1]) ∧
    depth_first_order .u8 9 exOne 1 false = .ok ([1, 2, 0], [some 1, none, some 1, none]) :=
  ⟨exOne_wf, rfl, by unfold CSR.NoDup; decide, by decide +kernel, by decide +kernel, by decide +kernel⟩

/-- the reversed graph and its answers -/
example : (do (← exOne.transpose).to_csr .u8) = .ok ⟨4, 4, [0, 0, 2, 3, 3], [0, 2, 1], [1, 1, 1]⟩ := by decide +kernel

/-- all edges stored in both directions: three components by the method, one node without edges -/
example : (∀ u v, exSym.has u v → exSym.has v u) ∧ exSym.connected_components .u8 .i8 7 = .ok (3, [0, -2, 0, 1, 2, 2]) ∧
    connected_components .u8 7 exSym true .weak = .ok (4, [0, 1, 0, 2, 3, 3]) := by
  refine ⟨fun u v h => ?_, by decide +kernel, by decide +kernel⟩
  have h1 := exSym_wf.has_lt h
  have key : ∀ u < 6, ∀ v < 6, v ∈ exSym.succ u → u ∈ exSym.succ v := by decide
  exact exSym_wf.mem_succ.1 (key u h1.1 v h1.2 (exSym_wf.mem_succ.2 h))

end
end Sparse

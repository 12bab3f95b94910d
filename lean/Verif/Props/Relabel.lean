import Verif.Props.GraphLaws
import Verif.Props.Blocks
import Verif.Props.Moves
import Mathlib.Algebra.Order.BigOperators.Group.List
/-!
C104: the graph functions and the selection of nodes. Selecting the same rows and columns of an adjacency matrix renumbers the nodes or
takes a part of the graph; the graph functions follow.
-/
namespace Sparse

section
variable {T : Type}

/-- the node list as indices for `select` -/
def nodeIdx (p : List Nat) : List Int := p.map fun u : Nat => (u : Int)

theorem nodeIdx_get {p : List Nat} {x u : Nat} (h : p[x]? = some u) : (nodeIdx p)[x]? = some (u : Int) := by
  unfold nodeIdx
  rw [List.getElem?_map, h]
  rfl

/-- distinct rows and columns contain no more entries than the matrix -/
theorem CSR.pickCount_nodes_le {a : CSR T} {p q : List Nat} (hp : p.Nodup) (hq : q.Nodup) (hlt : ∀ u ∈ p, u < a.rows) :
    a.pickCount (nodeIdx p) (nodeIdx q) ≤ a.stored := by
  classical
  have h1 : ∀ u : Nat, (nodeIdx q).countP (fun j => decide (a.has u j.toNat)) ≤ (a.row u).length := by
    intro u
    rw [List.countP_eq_length_filter]
    have hn : ((nodeIdx q).filter fun j => decide (a.has u j.toNat)).Nodup :=
      (hq.map fun x y h => by simpa using h).filter _
    have hs : ((nodeIdx q).filter fun j => decide (a.has u j.toNat)) ⊆ (a.row u).map (·.1) := by
      intro j hj
      obtain ⟨j1, j2⟩ := List.mem_filter.1 hj
      obtain ⟨k, -, rfl⟩ := List.mem_map.1 j1
      obtain ⟨v, hv⟩ := of_decide_eq_true j2
      exact List.mem_map.2 ⟨_, hv, by simp⟩
    simpa using (List.subperm_of_subset hn hs).length_le
  unfold CSR.pickCount CSR.stored
  have h2 : ((nodeIdx p).map fun i => (nodeIdx q).countP fun j => decide (a.has i.toNat j.toNat)).sum ≤
      (p.map fun u => (a.row u).length).sum := by
    unfold nodeIdx
    rw [List.map_map]
    refine List.sum_le_sum fun u _ => ?_
    exact h1 u
  refine h2.trans ?_
  obtain ⟨l, l1, l2⟩ := List.subperm_of_subset hp (fun u hu => List.mem_range.2 (hlt u hu))
  rw [← (l1.map fun u => (a.row u).length).sum_eq]
  exact (l2.map _).sum_le_sum (by simp)

/-- the facts about the selection of a list of nodes used below -/
theorem CSR.induced_facts [AddCommMonoid T] {t : IntTy} {a : CSR T} (ha : a.WF t) (hca : a.Canonical) (hsq : a.rows = a.cols)
    (hs : (a.stored : Int) < t.hi) (hn : (a.rows : Int) ≤ t.hi) {p : List Nat} (hp : p.Nodup) (hlt : ∀ u ∈ p, u < a.rows) :
    ∃ b, a.select t (some (nodeIdx p)) (some (nodeIdx p)) = .ok b ∧ b.WF t ∧ b.Canonical ∧ b.rows = p.length ∧ b.cols = p.length ∧
      ∀ x y u v : Nat, p[x]? = some u → p[y]? = some v → b.entry x y = a.entry u v ∧ (b.has x y ↔ a.has u v) := by
  have hlen : p.length ≤ a.rows := by
    simpa using (List.subperm_of_subset hp (fun u hu => List.mem_range.2 (hlt u hu))).length_le
  have hin : ∀ i ∈ nodeIdx p, 0 ≤ i ∧ i < (a.rows : Int) := by
    intro i hi
    obtain ⟨u, hu, rfl⟩ := List.mem_map.1 hi
    have := hlt u hu
    omega
  obtain ⟨b, b1, b2, b3, b4, b5, b6, -⟩ := C22_csr_select t a ha hca (ha.start_lt hs) hn (by omega) (some (nodeIdx p)) (some (nodeIdx p))
    hin (by rw [← hsq]; exact hin) (by show ((nodeIdx p).length : Int) ≤ _; simp [nodeIdx]; omega)
    (by
      have := CSR.pickCount_nodes_le hp hp hlt
      show ((a.pickCount (nodeIdx p) (nodeIdx p) : Nat) : Int) ≤ _
      omega)
  refine ⟨b, b1, b2, b3, ?_, ?_, fun x y u v hx hy => b6 x y u v (nodeIdx_get hx) (nodeIdx_get hy)⟩
  · rw [b4]; show (nodeIdx p).length = _; simp [nodeIdx]
  · rw [b5]; show (nodeIdx p).length = _; simp [nodeIdx]

/-- paths in a part of a graph -/
theorem induced_path {R S : Nat → Nat → Prop} {p : List Nat} (hn : p.Nodup)
    (h : ∀ x y u v : Nat, p[x]? = some u → p[y]? = some v → (S x y ↔ R u v)) (hb : ∀ x y, S x y → y < p.length) {x y u v : Nat}
    (hx : p[x]? = some u) (hy : p[y]? = some v) :
    (Relation.ReflTransGen S x y → Relation.ReflTransGen R u v) ∧
    (Relation.ReflTransGen R u v → (∀ w, Relation.ReflTransGen R u w → Relation.ReflTransGen R w v → w ∈ p) →
      Relation.ReflTransGen S x y) := by
  constructor
  · intro hp
    induction hp generalizing v with
    | refl => rw [hx, Option.some.injEq] at hy; rw [hy]
    | tail _ e ih =>
      rename_i z w hz
      have hzl : z < p.length := by
        by_cases hxz : z = x
        · subst hxz; exact (List.getElem?_eq_some_iff.1 hx).1
        · rcases Relation.ReflTransGen.cases_tail hz with h0 | ⟨m, -, h0⟩
          · exact absurd h0 hxz
          · exact hb _ _ h0
      have hzz : p[z]? = some p[z] := List.getElem?_eq_getElem hzl
      exact (ih hzz).tail ((h z w _ _ hzz hy).1 e)
  · intro hp
    induction hp using Relation.ReflTransGen.head_induction_on generalizing x with
    | refl =>
      intro _
      have h1 := List.getElem?_eq_some_iff.1 hx
      have h2 := List.getElem?_eq_some_iff.1 hy
      have : x = y := (hn.getElem_inj_iff).1 (h1.2.trans h2.2.symm)
      rw [this]
    | head e h' ih =>
      rename_i c w
      intro hall
      have hw := hall w (.single e) h'
      obtain ⟨z, hz⟩ := List.mem_iff_getElem?.1 hw
      exact .head ((h x z _ _ hx hz).2 e) (ih hz fun m m1 m2 => hall m (.head e m1) m2)

/-- two labellings with corresponding classes have equally many labels -/
theorem labels_card_eq {n k k' : Nat} {p la lb : List Nat} (hp : p.Perm (List.range n)) (ea : la.length = n) (eb : lb.length = n)
    (qa : ∀ l, l ∈ la ↔ l < k) (qb : ∀ l, l ∈ lb ↔ l < k')
    (h : ∀ x y u v : Nat, p[x]? = some u → p[y]? = some v → (lb[x]? = lb[y]? ↔ la[u]? = la[v]?)) : k = k' := by
  have hpl : p.length = n := by simpa using hp.length_eq
  have f1 : ∀ l : Fin k, ∃ x u : Nat, p[x]? = some u ∧ la[u]? = some l.1 := by
    intro l
    obtain ⟨u, hu⟩ := List.mem_iff_getElem?.1 ((qa l.1).2 l.2)
    have hun : u < n := by have := (List.getElem?_eq_some_iff.1 hu).1; omega
    obtain ⟨x, hx⟩ := List.mem_iff_getElem?.1 (hp.mem_iff.2 (List.mem_range.2 hun))
    exact ⟨x, u, hx, hu⟩
  have f2 : ∀ l : Fin k', ∃ x u : Nat, p[x]? = some u ∧ lb[x]? = some l.1 := by
    intro l
    obtain ⟨x, hx⟩ := List.mem_iff_getElem?.1 ((qb l.1).2 l.2)
    have hxn : x < p.length := by have := (List.getElem?_eq_some_iff.1 hx).1; omega
    exact ⟨x, _, List.getElem?_eq_getElem hxn, hx⟩
  have g1 : ∀ x u : Nat, p[x]? = some u → ∃ m : Fin k', lb[x]? = some m.1 := by
    intro x u hx
    have hxn := (List.getElem?_eq_some_iff.1 hx).1
    have e : lb[x]? = some lb[x] := List.getElem?_eq_getElem (by omega)
    exact ⟨⟨lb[x], (qb _).1 (List.getElem_mem _)⟩, e⟩
  have g2 : ∀ x u : Nat, p[x]? = some u → ∃ m : Fin k, la[u]? = some m.1 := by
    intro x u hx
    have hun : u < n := List.mem_range.1 (hp.mem_iff.1 (List.mem_iff_getElem?.2 ⟨x, hx⟩))
    have e : la[u]? = some la[u] := List.getElem?_eq_getElem (by omega)
    exact ⟨⟨la[u], (qa _).1 (List.getElem_mem _)⟩, e⟩
  have i1 : ∀ l : Fin k, ∃ m : Fin k', ∃ x u : Nat, p[x]? = some u ∧ la[u]? = some l.1 ∧ lb[x]? = some m.1 := by
    intro l
    obtain ⟨x, u, hx, hu⟩ := f1 l
    obtain ⟨m, hm⟩ := g1 x u hx
    exact ⟨m, x, u, hx, hu, hm⟩
  have i2 : ∀ m : Fin k', ∃ l : Fin k, ∃ x u : Nat, p[x]? = some u ∧ la[u]? = some l.1 ∧ lb[x]? = some m.1 := by
    intro m
    obtain ⟨x, u, hx, hu⟩ := f2 m
    obtain ⟨l, hl⟩ := g2 x u hx
    exact ⟨l, x, u, hx, hl, hu⟩
  choose F hF using i1
  choose G hG using i2
  refine le_antisymm ?_ ?_
  · have : Function.Injective F := by
      intro l l' e
      obtain ⟨x, u, a1, a2, a3⟩ := hF l
      obtain ⟨x', u', b1, b2, b3⟩ := hF l'
      have := (h x x' u u' a1 b1).1 (by rw [a3, b3, e])
      rw [a2, b2, Option.some.injEq] at this
      exact Fin.ext this
    simpa using Fintype.card_le_of_injective F this
  · have : Function.Injective G := by
      intro l l' e
      obtain ⟨x, u, a1, a2, a3⟩ := hG l
      obtain ⟨x', u', b1, b2, b3⟩ := hG l'
      have := (h x x' u u' a1 b1).2 (by rw [a2, b2, e])
      rw [a3, b3, Option.some.injEq] at this
      exact Fin.ext this
    simpa using Fintype.card_le_of_injective G this

/-- C104: renumbering the nodes (`select` with a permutation for rows and columns) keeps the number of components of each kind, and two new
nodes are in the same component exactly if the nodes they were are; the searches list the renumbered nodes. -/
theorem C104_relabel [AddCommMonoid T] (t : IntTy) (a : CSR T) (ha : a.WF t) (hca : a.Canonical) (hsq : a.rows = a.cols)
    (hs : (a.stored : Int) < t.hi) (hn : (a.rows : Int) ≤ t.hi) (h0 : 0 < a.rows) (p : List Nat) (hp : p.Perm (List.range a.rows))
    (fuel : Nat) (hf : 2 * a.rows < fuel) :
    ∃ b, a.select t (some (nodeIdx p)) (some (nodeIdx p)) = .ok b ∧ b.rows = a.rows ∧ b.cols = a.rows ∧
      (∀ (d : Bool) (c : Connection), d = true ∧ c = .strong ∨ d = false ∨ c = .weak → ∃ k la lb,
        connected_components t fuel a d c = .ok (k, la) ∧ connected_components t fuel b d c = .ok (k, lb) ∧
        ∀ x y u v : Nat, p[x]? = some u → p[y]? = some v → (lb[x]? = lb[y]? ↔ la[u]? = la[v]?)) ∧
      ∀ (d : Bool) (x u : Nat), p[x]? = some u → ∃ na pa nb pb, depth_first_order t fuel a u d = .ok (na, pa) ∧
        depth_first_order t fuel b x d = .ok (nb, pb) ∧ ∀ y v : Nat, p[y]? = some v → (y ∈ nb ↔ v ∈ na) := by
  have hnd : p.Nodup := hp.nodup_iff.2 List.nodup_range
  have hpl : p.length = a.rows := by simpa using hp.length_eq
  have hlt : ∀ u ∈ p, u < a.rows := fun u hu => List.mem_range.1 (hp.mem_iff.1 hu)
  obtain ⟨b, b1, b2, b3, b4, b5, b6⟩ := CSR.induced_facts ha hca hsq hs hn hnd hlt
  have hR : ∀ x y u v : Nat, p[x]? = some u → p[y]? = some v → (b.Reach x y ↔ a.Reach u v) := by
    intro x y u v hx hy
    obtain ⟨i1, i2⟩ := induced_path (R := a.has) (S := b.has) hnd (fun x y u v hx hy => (b6 x y u v hx hy).2)
      (fun x y h => by have := (b2.has_lt h).2; omega) hx hy
    refine ⟨i1, fun h => i2 h fun w hw _ => ?_⟩
    have hu := hlt u (List.mem_iff_getElem?.2 ⟨x, hx⟩)
    exact hp.mem_iff.2 (List.mem_range.2 (ha.joined_lt hsq (CSR.Reach.joined hw) hu))
  have hJ : ∀ x y u v : Nat, p[x]? = some u → p[y]? = some v → (b.Joined x y ↔ a.Joined u v) := by
    intro x y u v hx hy
    obtain ⟨i1, i2⟩ := induced_path (R := a.link) (S := b.link) hnd
      (fun x y u v hx hy => by unfold CSR.link; rw [(b6 x y u v hx hy).2, (b6 y x v u hy hx).2])
      (fun x y h => by
        rcases h with h | h
        · have := (b2.has_lt h).2; omega
        · have := (b2.has_lt h).1; omega) hx hy
    refine ⟨i1, fun h => i2 h fun w hw _ => ?_⟩
    have hu := hlt u (List.mem_iff_getElem?.2 ⟨x, hx⟩)
    exact hp.mem_iff.2 (List.mem_range.2 (ha.joined_lt hsq hw hu))
  have hlt' : ∀ x u : Nat, p[x]? = some u → x < a.rows ∧ u < a.rows := fun x u hx =>
    ⟨by have := (List.getElem?_eq_some_iff.1 hx).1; omega, hlt u (List.mem_iff_getElem?.2 ⟨x, hx⟩)⟩
  refine ⟨b, b1, by omega, by omega, ?_, ?_⟩
  · rintro d c hdc
    by_cases hw : d = false ∨ c = .weak
    · obtain ⟨k, la, e1, e2, e3, e4, -⟩ := C34_undirected_components t a ha hsq (by omega) d c hw fuel (by omega)
      obtain ⟨k', lb, f1, f2, f3, f4, -⟩ := C34_undirected_components t b b2 (by omega) (by omega) d c hw fuel (by omega)
      have hh : ∀ x y u v : Nat, p[x]? = some u → p[y]? = some v → (lb[x]? = lb[y]? ↔ la[u]? = la[v]?) := by
        intro x y u v hx hy
        have h1 := hlt' x u hx
        have h2 := hlt' y v hy
        rw [f3 x y (by omega) (by omega), e3 u v h1.2 h2.2, hJ x y u v hx hy]
      have hk := labels_card_eq hp e2 (by omega) e4 f4 hh
      subst hk
      exact ⟨k, la, lb, e1, f1, hh⟩
    · obtain ⟨rfl, rfl⟩ : d = true ∧ c = .strong := by
        rcases hdc with h | h
        · exact h
        · exact absurd h hw
      obtain ⟨k, la, e1, e2, e3, e4, -⟩ := C35_strong_components_partial t a ha hsq h0 (fun u hu => (hca.noDup u hu).filter _) fuel hf
      obtain ⟨k', lb, f1, f2, f3, f4, -⟩ := C35_strong_components_partial t b b2 (by omega) (by omega)
        (fun u hu => (b3.noDup u hu).filter _) fuel (by omega)
      have hh : ∀ x y u v : Nat, p[x]? = some u → p[y]? = some v → (lb[x]? = lb[y]? ↔ la[u]? = la[v]?) := by
        intro x y u v hx hy
        have h1 := hlt' x u hx
        have h2 := hlt' y v hy
        rw [f3 x y (by omega) (by omega), e3 u v h1.2 h2.2, hR x y u v hx hy, hR y x v u hy hx]
      have hk := labels_card_eq hp e2 (by omega) e4 f4 hh
      subst hk
      exact ⟨k, la, lb, e1, f1, hh⟩
  · intro d x u hx
    have h1 := hlt' x u hx
    obtain ⟨na, pa, e1, -, -, e4⟩ := C37_depth_first_nodes t a ha hsq (by omega) u h1.2 d fuel (by omega)
    obtain ⟨nb, pb, f1, -, -, f4⟩ := C37_depth_first_nodes t b b2 (by omega) (by omega) x (by omega) d fuel (by omega)
    refine ⟨na, pa, nb, pb, e1, f1, fun y v hy => ?_⟩
    rw [e4, f4]
    cases d
    · simpa using hJ x y u v hx hy
    · simpa using hR x y u v hx hy

/-- a labelling with all labels equal -/
theorem labels_const {n k : Nat} {l : List Nat} (h : l.length = n) (h0 : 0 < n) (q : ∀ x, x ∈ l ↔ x < k)
    (e : ∀ x y : Nat, x < n → y < n → l[x]? = l[y]?) : k = 1 ∧ l = List.replicate n 0 := by
  have hall : ∀ z ∈ l, ∀ w ∈ l, z = w := by
    intro z hz w hw
    obtain ⟨x, hx⟩ := List.mem_iff_getElem?.1 hz
    obtain ⟨y, hy⟩ := List.mem_iff_getElem?.1 hw
    have h1 := (List.getElem?_eq_some_iff.1 hx).1
    have h2 := (List.getElem?_eq_some_iff.1 hy).1
    have := e x y (by omega) (by omega)
    rw [hx, hy, Option.some.injEq] at this
    exact this
  have hm : l[0]'(by omega) ∈ l := List.getElem_mem _
  have hk := (q _).1 hm
  have h00 : (0 : Nat) ∈ l := (q 0).2 (by omega)
  have hk1 : k = 1 := by
    by_contra hne
    have := hall 1 ((q 1).2 (by omega)) 0 h00
    omega
  exact ⟨hk1, List.eq_replicate_iff.2 ⟨h, fun z hz => hall z hz 0 h00⟩⟩

/-- C104: taking a component out: the nodes with one label, in any order, selected as rows and columns, are a graph with one component
(weak labels: one weak component; strong labels: one strong component). -/
theorem C104_component [AddCommMonoid T] (t : IntTy) (a : CSR T) (ha : a.WF t) (hca : a.Canonical) (hsq : a.rows = a.cols)
    (hs : (a.stored : Int) < t.hi) (hn : (a.rows : Int) ≤ t.hi) (h0 : 0 < a.rows) (fuel : Nat) (hf : 2 * a.rows < fuel)
    (d : Bool) (c : Connection) (hd : d = true ∧ c = .strong ∨ d = false ∨ c = .weak) :
    ∃ k la, connected_components t fuel a d c = .ok (k, la) ∧ ∀ l < k, ∀ p : List Nat, p.Nodup →
      (∀ u, u ∈ p ↔ la[u]? = some l) → 0 < p.length ∧
      ∃ b, a.select t (some (nodeIdx p)) (some (nodeIdx p)) = .ok b ∧
        connected_components t fuel b d c = .ok (1, List.replicate p.length 0) := by
  have pos : ∀ (la : List Nat) (l k : Nat), (∀ x, x ∈ la ↔ x < k) → l < k → ∀ p : List Nat, (∀ u, u ∈ p ↔ la[u]? = some l) → 0 < p.length := by
    intro la l k q hl p hp
    obtain ⟨u, hu⟩ := List.mem_iff_getElem?.1 ((q l).2 hl)
    exact List.length_pos_of_mem ((hp u).2 hu)
  by_cases hw : d = false ∨ c = .weak
  · obtain ⟨k, la, e1, e2, e3, e4, -⟩ := C34_undirected_components t a ha hsq (by omega) d c hw fuel (by omega)
    refine ⟨k, la, e1, fun l hl p hnd hp => ?_⟩
    have hlt : ∀ u ∈ p, u < a.rows := fun u hu => by
      have := (List.getElem?_eq_some_iff.1 ((hp u).1 hu)).1; omega
    have hlen : p.length ≤ a.rows := by
      simpa using (List.subperm_of_subset hnd (fun u hu => List.mem_range.2 (hlt u hu))).length_le
    obtain ⟨b, b1, b2, b3, b4, b5, b6⟩ := CSR.induced_facts ha hca hsq hs hn hnd hlt
    have hpos := pos la l k e4 hl p hp
    refine ⟨hpos, b, b1, ?_⟩
    obtain ⟨k', lb, f1, f2, f3, f4, -⟩ := C34_undirected_components t b b2 (by omega) (by omega) d c hw fuel (by omega)
    obtain ⟨rfl, rfl⟩ := labels_const (n := p.length) (by omega) hpos f4 (by
      intro x y hx hy
      rw [f3 x y (by omega) (by omega)]
      have hxx : p[x]? = some p[x] := List.getElem?_eq_getElem hx
      have hyy : p[y]? = some p[y] := List.getElem?_eq_getElem hy
      have mx : p[x] ∈ p := List.getElem_mem _
      have my : p[y] ∈ p := List.getElem_mem _
      refine (induced_path (R := a.link) (S := b.link) hnd
        (fun x y u v hx hy => by unfold CSR.link; rw [(b6 x y u v hx hy).2, (b6 y x v u hy hx).2])
        (fun x y h => by
          rcases h with h | h
          · have := (b2.has_lt h).2; omega
          · have := (b2.has_lt h).1; omega) hxx hyy).2 ((e3 _ _ (hlt _ mx) (hlt _ my)).1 (by
            rw [(hp _).1 mx, (hp _).1 my])) fun w hw _ => ?_
      have hwl := ha.joined_lt hsq hw (hlt _ mx)
      rw [hp, ← (e3 _ _ (hlt _ mx) hwl).2 hw]
      exact (hp _).1 mx)
    exact f1
  · obtain ⟨rfl, rfl⟩ : d = true ∧ c = .strong := by
      rcases hd with h | h
      · exact h
      · exact absurd h hw
    obtain ⟨k, la, e1, e2, e3, e4, -⟩ := C35_strong_components_partial t a ha hsq h0 (fun u hu => (hca.noDup u hu).filter _) fuel hf
    refine ⟨k, la, e1, fun l hl p hnd hp => ?_⟩
    have hlt : ∀ u ∈ p, u < a.rows := fun u hu => by
      have := (List.getElem?_eq_some_iff.1 ((hp u).1 hu)).1; omega
    have hlen : p.length ≤ a.rows := by
      simpa using (List.subperm_of_subset hnd (fun u hu => List.mem_range.2 (hlt u hu))).length_le
    obtain ⟨b, b1, b2, b3, b4, b5, b6⟩ := CSR.induced_facts ha hca hsq hs hn hnd hlt
    have hpos := pos la l k e4 hl p hp
    refine ⟨hpos, b, b1, ?_⟩
    obtain ⟨k', lb, f1, f2, f3, f4, -⟩ := C35_strong_components_partial t b b2 (by omega) (by omega)
        (fun u hu => (b3.noDup u hu).filter _) fuel (by omega)
    have half : ∀ x y : Nat, x < p.length → y < p.length → b.Reach x y := by
      intro x y hx hy
      have hxx : p[x]? = some p[x] := List.getElem?_eq_getElem hx
      have hyy : p[y]? = some p[y] := List.getElem?_eq_getElem hy
      have mx : p[x] ∈ p := List.getElem_mem _
      have my : p[y] ∈ p := List.getElem_mem _
      have hr := (e3 _ _ (hlt _ mx) (hlt _ my)).1 (by rw [(hp _).1 mx, (hp _).1 my])
      refine (induced_path (R := a.has) (S := b.has) hnd (fun x y u v hx hy => (b6 x y u v hx hy).2)
        (fun x y h => by have := (b2.has_lt h).2; omega) hxx hyy).2 hr.1 fun w w1 w2 => ?_
      have hwl := ha.joined_lt hsq (CSR.Reach.joined w1) (hlt _ mx)
      rw [hp, ← (e3 _ _ (hlt _ mx) hwl).2 ⟨w1, w2.trans hr.2⟩]
      exact (hp _).1 mx
    obtain ⟨rfl, rfl⟩ := labels_const (n := p.length) (by omega) hpos f4 (by
      intro x y hx hy
      rw [f3 x y (by omega) (by omega)]
      exact ⟨half x y hx hy, half y x hy hx⟩)
    exact f1

/-- C104: block triangular form. The nodes listed by decreasing strong label (in any order within a component) and selected as rows and
columns give a matrix with entries below the diagonal only inside components; if there are as many components as nodes, it is upper
triangular. -/
theorem C104_block_triangular [AddCommMonoid T] (t : IntTy) (a : CSR T) (ha : a.WF t) (hca : a.Canonical) (hsq : a.rows = a.cols)
    (hs : (a.stored : Int) < t.hi) (hn : (a.rows : Int) ≤ t.hi) (h0 : 0 < a.rows) (fuel : Nat) (hf : 2 * a.rows < fuel) :
    ∃ k la, connected_components t fuel a true .strong = .ok (k, la) ∧ ∀ p : List Nat, p.Perm (List.range a.rows) →
      p.Pairwise (fun u v => ∀ l m, la[u]? = some l → la[v]? = some m → m ≤ l) →
      ∃ b, a.select t (some (nodeIdx p)) (some (nodeIdx p)) = .ok b ∧
        (∀ x y u v : Nat, p[x]? = some u → p[y]? = some v → b.entry x y = a.entry u v ∧ (b.has x y → y < x → la[u]? = la[v]?)) ∧
        (k = a.rows → ∀ x y : Nat, b.has x y → x ≤ y) := by
  obtain ⟨k, la, e1, e2, e3, e4, e5⟩ := C35_strong_components_partial t a ha hsq h0 (fun u hu => (hca.noDup u hu).filter _) fuel hf
  refine ⟨k, la, e1, fun p hp hpw => ?_⟩
  have hnd : p.Nodup := hp.nodup_iff.2 List.nodup_range
  have hpl : p.length = a.rows := by simpa using hp.length_eq
  have hlt : ∀ u ∈ p, u < a.rows := fun u hu => List.mem_range.1 (hp.mem_iff.1 hu)
  obtain ⟨b, b1, b2, b3, b4, b5, b6⟩ := CSR.induced_facts ha hca hsq hs hn hnd hlt
  have key : ∀ x y u v : Nat, p[x]? = some u → p[y]? = some v → b.has x y → y < x → la[u]? = la[v]? := by
    intro x y u v hx hy hb hyx
    have hu := hlt u (List.mem_iff_getElem?.2 ⟨x, hx⟩)
    have hv := hlt v (List.mem_iff_getElem?.2 ⟨y, hy⟩)
    have lu : la[u]? = some la[u] := List.getElem?_eq_getElem (by omega)
    have lv : la[v]? = some la[v] := List.getElem?_eq_getElem (by omega)
    have h1 := e5 u v _ _ (.single ((b6 x y u v hx hy).2.1 hb)) lu lv
    have gx := List.getElem?_eq_some_iff.1 hx
    have gy := List.getElem?_eq_some_iff.1 hy
    have h2 := List.pairwise_iff_getElem.1 hpw y x gy.1 gx.1 hyx la[v] la[u] (by rw [gy.2]; exact lv) (by rw [gx.2]; exact lu)
    rw [lu, lv, Option.some.injEq]
    omega
  refine ⟨b, b1, fun x y u v hx hy => ⟨(b6 x y u v hx hy).1, key x y u v hx hy⟩, fun hk x y hb => ?_⟩
  by_contra hlt'
  have hxy := b2.has_lt hb
  have hxx : p[x]? = some p[x] := List.getElem?_eq_getElem (by omega)
  have hyy : p[y]? = some p[y] := List.getElem?_eq_getElem (by omega)
  have hl := key x y _ _ hxx hyy hb (by omega)
  have hla : la.Nodup := by
    have hsub : (List.range k) ⊆ la := fun l hl => (e4 l).2 (List.mem_range.1 hl)
    have h3 := List.subperm_of_subset List.nodup_range hsub
    exact (h3.perm_of_length_le (by rw [List.length_range]; omega)).nodup_iff.1 List.nodup_range
  have mx := hlt _ (List.getElem_mem (l := p) (n := x) (by omega))
  have my := hlt _ (List.getElem_mem (l := p) (n := y) (by omega))
  rw [List.getElem?_eq_getElem (by omega), List.getElem?_eq_getElem (by omega), Option.some.injEq] at hl
  have := hla.getElem_inj_iff.1 hl
  have := hnd.getElem_inj_iff.1 this
  omega

/-- C104: as many strong components as nodes means that no two nodes reach each other; upper triangular matrices are such, and by
`C104_block_triangular` such matrices become upper triangular when the nodes are listed by decreasing label. -/
theorem C104_acyclic [AddCommMonoid T] (t : IntTy) (a : CSR T) (ha : a.WF t) (hsq : a.rows = a.cols) (h0 : 0 < a.rows)
    (hdup : ∀ u < a.rows, (((a.row u).map (·.1)).filter fun j => decide (j ≠ (u : Int))).Nodup) (fuel : Nat) (hf : 2 * a.rows < fuel) :
    ∃ k la, connected_components t fuel a true .strong = .ok (k, la) ∧
      (k = a.rows ↔ ∀ u v : Nat, u < a.rows → v < a.rows → a.Reach u v → a.Reach v u → u = v) ∧
      ((∀ u v, a.has u v → u ≤ v) → k = a.rows) ∧ k ≤ a.rows := by
  obtain ⟨k, la, e1, e2, e3, e4, e5⟩ := C35_strong_components_partial t a ha hsq h0 hdup fuel hf
  have hsub : (List.range k) ⊆ la := fun l hl => (e4 l).2 (List.mem_range.1 hl)
  have hsp := List.subperm_of_subset List.nodup_range hsub
  have hle : k ≤ a.rows := by simpa [e2] using hsp.length_le
  have hiff : k = a.rows ↔ ∀ u v : Nat, u < a.rows → v < a.rows → a.Reach u v → a.Reach v u → u = v := by
    constructor
    · intro hk u v hu hv h1 h2
      have hla : la.Nodup := (hsp.perm_of_length_le (by rw [List.length_range]; omega)).nodup_iff.1 List.nodup_range
      have := (e3 u v hu hv).2 ⟨h1, h2⟩
      rw [List.getElem?_eq_getElem (by omega), List.getElem?_eq_getElem (by omega), Option.some.injEq] at this
      exact hla.getElem_inj_iff.1 this
    · intro h
      have hla : la.Nodup := by
        rw [List.nodup_iff_getElem?_ne_getElem?]
        intro i j hij hj heq
        have := (e3 i j (by omega) (by omega)).1 heq
        have := h i j (by omega) (by omega) this.1 this.2
        omega
      have h3 : la ⊆ List.range k := fun l hl => List.mem_range.2 ((e4 l).1 hl)
      have := (List.subperm_of_subset hla h3).length_le
      rw [List.length_range] at this
      omega
  refine ⟨k, la, e1, hiff, fun hup => hiff.2 fun u v hu hv h1 h2 => ?_, hle⟩
  have mono : ∀ x y, a.Reach x y → x ≤ y := by
    intro x y h
    induction h with
    | refl => exact le_refl _
    | tail _ e ih => exact ih.trans (hup _ _ e)
  exact le_antisymm (mono _ _ h1) (mono _ _ h2)

theorem Coo.valuesAt_ne_nil {a : Coo T} {i j : Nat} : a.valuesAt i j ≠ [] ↔ ∃ v, ((i : Int), (j : Int), v) ∈ a.triples := by
  unfold Coo.valuesAt
  rw [ne_eq, List.map_eq_nil_iff, List.filter_eq_nil_iff]
  push Not
  constructor
  · rintro ⟨⟨x, y, v⟩, h1, h2⟩
    obtain ⟨rfl, rfl⟩ := of_decide_eq_true h2
    exact ⟨v, h1⟩
  · rintro ⟨v, hv⟩
    exact ⟨_, hv, by simp⟩

/-- C104: a graph put together of two graphs without edges between them (`compose` with empty off-diagonal blocks) has the components of the
first, with the same labels, followed by those of the second, numbered on. -/
theorem C104_block_diagonal [AddCommMonoid T] (t : IntTy) (a b : Coo T) (ha : a.WF t) (hb : b.WF t) (sa : a.rows = a.cols) (sb : b.rows = b.cols)
    (hn : ((a.rows + b.rows : Nat) : Int) ≤ t.hi + 1) (hs : ((a.nnz + b.nnz : Nat) : Int) < t.hi) (d : Bool) (c : Connection)
    (hd : d = false ∨ c = .weak) (fuel : Nat) (hf : a.rows + b.rows < fuel) :
    ∃ r g ga gb k l k' l', Coo.compose t a (Coo.with_size a.rows b.cols) (Coo.with_size b.rows a.cols) b = .ok r ∧
      r.to_csr t = .ok g ∧ a.to_csr t = .ok ga ∧ b.to_csr t = .ok gb ∧
      connected_components t fuel ga d c = .ok (k, l) ∧ connected_components t fuel gb d c = .ok (k', l') ∧
      connected_components t fuel g d c = .ok (k + k', l ++ l'.map (k + ·)) := by
  have hz : ∀ n m : Nat, (Coo.with_size n m : Coo T).WF t := by
    intro n m
    exact Coo.wf_of (by simp [Coo.with_size])
  obtain ⟨r, r1, r2, r3, r4, r5, r6⟩ := C66_coo_compose t a (Coo.with_size a.rows b.cols) (Coo.with_size b.rows a.cols) b ha (hz _ _) (hz _ _) hb
    rfl rfl rfl rfl (by simpa [Coo.with_size] using hn) (by simp only [Coo.with_size]; omega)
  have hza : ∀ n m i j, (Coo.with_size n m : Coo T).valuesAt i j = [] := by
    intro n m i j
    simp [Coo.with_size, Coo.valuesAt, Coo.triples]
  obtain ⟨g, g1, g2, g3, g4, -, -, g6, -⟩ := C01_coo_to_csr t r r2 (by rw [show (r.values.length : Nat) = r.nnz from rfl, r5]; simpa [Coo.with_size, Coo.nnz] using hs)
  obtain ⟨ga, p1, p2, p3, p4, -, -, p6, -⟩ := C01_coo_to_csr t a ha (by have : a.values.length = a.nnz := rfl; omega)
  obtain ⟨gb, q1, q2, q3, q4, -, -, q6, -⟩ := C01_coo_to_csr t b hb (by have : b.values.length = b.nnz := rfl; omega)
  have ea : ∀ i j, ga.has i j ↔ a.valuesAt i j ≠ [] := fun i j => by rw [p2.has_triples, p6, Coo.valuesAt_ne_nil]
  have eb : ∀ i j, gb.has i j ↔ b.valuesAt i j ≠ [] := fun i j => by rw [q2.has_triples, q6, Coo.valuesAt_ne_nil]
  have eg : ∀ i j, g.has i j ↔ (i < a.rows ∧ j < a.rows ∧ ga.has i j) ∨ (a.rows ≤ i ∧ a.rows ≤ j ∧ gb.has (i - a.rows) (j - a.rows)) := by
    intro i j
    rw [g2.has_triples, g6, ← Coo.valuesAt_ne_nil, r6, ea, eb]
    unfold vcat hcat
    simp only [hza, ← sa]
    by_cases hi : i < a.rows <;> by_cases hj : j < a.rows <;> simp [hi, hj, Nat.le_of_not_lt]
  have la : ∀ u v, u < a.rows → (g.link u v ↔ v < a.rows ∧ ga.link u v) := by
    intro u v hu
    unfold CSR.link
    rw [eg, eg]
    constructor
    · rintro ((h | h) | (h | h))
      · exact ⟨h.2.1, .inl h.2.2⟩
      · omega
      · exact ⟨h.1, .inr h.2.2⟩
      · omega
    · rintro ⟨hv, h | h⟩
      · exact .inl (.inl ⟨hu, hv, h⟩)
      · exact .inr (.inl ⟨hv, hu, h⟩)
  have lb : ∀ u v, (g.link (a.rows + u) v ↔ ∃ w, v = a.rows + w ∧ gb.link u w) := by
    intro u v
    unfold CSR.link
    rw [eg, eg]
    constructor
    · rintro ((h | h) | (h | h))
      · omega
      · exact ⟨v - a.rows, by omega, .inl (by simpa using h.2.2)⟩
      · omega
      · exact ⟨v - a.rows, by omega, .inr (by simpa using h.2.2)⟩
    · rintro ⟨w, rfl, h | h⟩
      · exact .inl (.inr ⟨by omega, by omega, by simpa using h⟩)
      · exact .inr (.inr ⟨by omega, by omega, by simpa using h⟩)
  have ja : ∀ u v, u < a.rows → (g.Joined u v ↔ v < a.rows ∧ ga.Joined u v) := by
    intro u v hu
    constructor
    · intro h
      induction h with
      | refl => exact ⟨hu, .refl⟩
      | tail _ e ih =>
        have := (la _ _ ih.1).1 e
        exact ⟨this.1, ih.2.tail this.2⟩
    · rintro ⟨-, h⟩
      induction h with
      | refl => exact .refl
      | tail h e ih =>
        have hm := p2.joined_lt (by omega) h (by omega)
        have hv := p2.joined_lt (by omega) (h.tail e) (by omega)
        exact ih.tail ((la _ _ (by omega)).2 ⟨by omega, e⟩)
  have jb : ∀ u v, (g.Joined (a.rows + u) v ↔ ∃ w, v = a.rows + w ∧ gb.Joined u w) := by
    intro u v
    constructor
    · intro h
      induction h with
      | refl => exact ⟨u, rfl, .refl⟩
      | tail _ e ih =>
        obtain ⟨w, rfl, hw⟩ := ih
        obtain ⟨w', rfl, hw'⟩ := (lb _ _).1 e
        exact ⟨w', rfl, hw.tail hw'⟩
    · rintro ⟨w, rfl, h⟩
      induction h with
      | refl => exact .refl
      | tail h e ih => exact ih.tail ((lb _ _).2 ⟨_, rfl, e⟩)
  have gr : g.rows = a.rows + b.rows := by rw [g3, r3]; rfl
  have gc : g.cols = a.cols + b.cols := by rw [g4, r4]; rfl
  obtain ⟨k, l, s1, s2, s3, s4, s5⟩ := C34_undirected_components t ga p2 (by omega) (by omega) d c hd fuel (by omega)
  obtain ⟨k', l', u1, u2, u3, u4, u5⟩ := C34_undirected_components t gb q2 (by omega) (by omega) d c hd fuel (by omega)
  obtain ⟨K, L, w1, w2, w3, w4, w5⟩ := C34_undirected_components t g g2 (by omega) (by omega) d c hd fuel (by omega)
  refine ⟨r, g, ga, gb, k, l, k', l', r1, g1, p1, q1, s1, u1, ?_⟩
  have low : ∀ u, u < a.rows → (l ++ l'.map (k + ·))[u]? = l[u]? := fun u hu => List.getElem?_append_left (by omega)
  have high : ∀ u, a.rows ≤ u → (l ++ l'.map (k + ·))[u]? = (l'[u - a.rows]?).map (k + ·) := fun u hu => by
    rw [List.getElem?_append_right (by omega), List.getElem?_map, show l.length = a.rows by omega]
  suffices key : K = k + k' ∧ L = l ++ l'.map (k + ·) by
    obtain ⟨rfl, rfl⟩ := key
    exact w1
  refine numbering_unique (n := a.rows + b.rows) (R := g.Joined) (k := K) (k' := k + k') (l := L)
    (l' := l ++ l'.map (k + ·)) (by omega) (by rw [List.length_append, List.length_map]; omega)
    (by rw [← gr]; exact w3) ?_ w4 ?_ w5 ?_
  · intro u v hu hv
    have cross : ∀ x y : Nat, x < a.rows → a.rows ≤ y → y < a.rows + b.rows →
        (l ++ l'.map (k + ·))[x]? ≠ (l ++ l'.map (k + ·))[y]? := by
      intro x y hx hy hy'
      rw [low x hx, high y hy, List.getElem?_eq_getElem (by omega), List.getElem?_eq_getElem (by omega)]
      intro h
      simp only [Option.map_some, Option.some.injEq] at h
      have := (s4 _).1 (List.getElem_mem (l := l) (n := x) (by omega))
      omega
    by_cases hu' : u < a.rows <;> by_cases hv' : v < a.rows
    · rw [low u hu', low v hv', ja u v hu', s3 u v (by omega) (by omega)]
      simp [hv']
    · refine iff_of_false (cross u v hu' (by omega) hv) fun h => ?_
      exact hv' ((ja u v hu').1 h).1
    · refine iff_of_false (fun h => cross v u hv' (by omega) hu h.symm) fun h => ?_
      exact hu' ((ja v u hv').1 h.symm').1
    · rw [high u (by omega), high v (by omega)]
      obtain ⟨x, rfl⟩ := Nat.exists_eq_add_of_le (Nat.le_of_not_lt hu')
      obtain ⟨y, rfl⟩ := Nat.exists_eq_add_of_le (Nat.le_of_not_lt hv')
      rw [jb, Nat.add_sub_cancel_left, Nat.add_sub_cancel_left,
        (Option.map_injective (fun x y h => by simpa using h : Function.Injective (k + ·))).eq_iff, u3 x y (by omega) (by omega)]
      constructor
      · intro h; exact ⟨y, rfl, h⟩
      · rintro ⟨w, hw, h⟩
        obtain rfl : y = w := by omega
        exact h
  · intro x
    rw [List.mem_append, s4, List.mem_map]
    constructor
    · rintro (h | ⟨y, hy, rfl⟩)
      · omega
      · have := (u4 y).1 hy; omega
    · intro h
      by_cases hx : x < k
      · exact .inl hx
      · exact .inr ⟨x - k, (u4 _).2 (by omega), by omega⟩
  · intro u x hx m hm
    by_cases hu : u < a.rows
    · rw [low u hu] at hx
      obtain ⟨u', h1, h2⟩ := s5 u x hx m hm
      exact ⟨u', h1, by rw [low u' (by omega)]; exact h2⟩
    · rw [high u (by omega)] at hx
      obtain ⟨z, hz, rfl⟩ := Option.map_eq_some_iff.1 hx
      by_cases hmk : m < k
      · obtain ⟨u', hu'⟩ := List.mem_iff_getElem?.1 ((s4 m).2 hmk)
        have := (List.getElem?_eq_some_iff.1 hu').1
        exact ⟨u', by omega, by rw [low u' (by omega)]; exact hu'⟩
      · obtain ⟨u', h1, h2⟩ := u5 _ z hz (m - k) (by omega)
        refine ⟨a.rows + u', by omega, ?_⟩
        rw [high _ (by omega), Nat.add_sub_cancel_left, h2]
        simp only [Option.map_some, Option.some.injEq]
        omega

/-! ### a graph and its renumberings -/

/-- edges 0 → 1, 1 → 2, 2 → 1, 3 → 0 -/
def exRel : CSR Int := ⟨4, 4, [0, 1, 2, 3, 4], [1, 2, 1, 0], [5, 6, 7, 8]⟩

theorem exRel_wf : exRel.WF .i8 := CSR.wf_of (by decide)

/-- the hypotheses of `C104_relabel`, and the answers for the order 2, 0, 3, 1 -/
example : exRel.WF .i8 ∧ exRel.Canonical ∧ exRel.rows = exRel.cols ∧ (exRel.stored : Int) < IntTy.i8.hi ∧ [2, 0, 3, 1].Perm (List.range exRel.rows) ∧
    exRel.select .i8 (some (nodeIdx [2, 0, 3, 1])) (some (nodeIdx [2, 0, 3, 1])) = .ok ⟨4, 4, [0, 1, 2, 3, 4], [3, 3, 1, 0], [7, 5, 8, 6]⟩ ∧
    connected_components .i8 9 exRel true .strong = .ok (3, [1, 0, 0, 2]) ∧
    connected_components .i8 9 ⟨4, 4, [0, 1, 2, 3, 4], [3, 3, 1, 0], [7, 5, 8, 6]⟩ true .strong = .ok (3, [0, 1, 2, 0]) :=
  ⟨exRel_wf, by unfold CSR.Canonical; decide, rfl, by decide, by decide, by decide +kernel, by decide +kernel, by decide +kernel⟩

/-- the nodes of the component 0 -/
example : ∀ u, u ∈ [2, 1] ↔ ([1, 0, 0, 2] : List Nat)[u]? = some 0 := by
  intro u
  rcases u with _ | _ | _ | _ | u <;> simp

/-- an order by decreasing label, and the block triangular matrix it gives -/
example : [3, 0, 2, 1].Perm (List.range exRel.rows) ∧
    [3, 0, 2, 1].Pairwise (fun u v => ∀ l m, ([1, 0, 0, 2] : List Nat)[u]? = some l → ([1, 0, 0, 2] : List Nat)[v]? = some m → m ≤ l) ∧
    exRel.select .i8 (some (nodeIdx [3, 0, 2, 1])) (some (nodeIdx [3, 0, 2, 1])) = .ok ⟨4, 4, [0, 1, 2, 3, 4], [1, 3, 3, 2], [8, 5, 7, 6]⟩ :=
  ⟨by decide, by simp, by decide +kernel⟩

/-- an upper triangular matrix: every node alone -/
example : (⟨3, 3, [0, 2, 3, 3], [0, 2, 2], [1, 2, 3]⟩ : CSR Int).WF .i8 ∧
    connected_components .i8 9 (⟨3, 3, [0, 2, 3, 3], [0, 2, 2], [1, 2, 3]⟩ : CSR Int) true .strong = .ok (3, [1, 2, 0]) :=
  ⟨CSR.wf_of (by decide), by decide +kernel⟩

/-- two edge lists and the components of their block diagonal graph -/
example : (⟨3, 3, [0], [2], [1]⟩ : Coo Int).WF .i8 ∧ (⟨2, 2, [1], [0], [4]⟩ : Coo Int).WF .i8 ∧
    (do let r ← Coo.compose .i8 (⟨3, 3, [0], [2], [1]⟩ : Coo Int) (Coo.with_size 3 2) (Coo.with_size 2 3) ⟨2, 2, [1], [0], [4]⟩
        connected_components .i8 9 (← r.to_csr .i8) false .weak) = .ok (3, [0, 1, 0, 2, 2]) :=
  ⟨Coo.wf_of (by decide), Coo.wf_of (by decide), by decide +kernel⟩

end

end Sparse

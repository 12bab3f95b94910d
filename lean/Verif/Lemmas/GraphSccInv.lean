import Verif.Lemmas.GraphScc
import Mathlib.Data.List.TakeWhile
/-!
Strongly connected components: the invariant of the search. `D` is the DFS stack, `S` the stack of finished nodes
without a component, `ord` the nodes that have been visited and have no component, in the order of their visits,
`asg` the nodes with a component, `κ` their components (numbered `0 .. c`).
-/
namespace Sparse

/-- reachability along adjacency lists -/
def GReach (G : Nat → List Nat) : Nat → Nat → Prop := Relation.ReflTransGen (fun u w => w ∈ G u)

structure SccInv (n : Nat) (G : Nat → List Nat) (labels : List Node) (D S ord asg : List Nat) (c : Nat) (κ : Nat → Nat) :
    Prop where
  len : labels.length = n
  nodup : (ord ++ asg).Nodup
  lt : ∀ u ∈ ord ++ asg, u < n
  dnd : (D ++ S).Nodup
  dlt : ∀ u ∈ D, u < n
  dasg : ∀ u ∈ D, u ∉ asg
  sord : ∀ u ∈ S, u ∈ ord
  ords : ∀ u ∈ ord, u ∈ D ∨ u ∈ S
  void : ∀ u, u < n → u ∉ ord → u ∉ asg → labels[u]? = some .void
  plab : ∀ u k : Nat, u ∈ D → ord[k]? = some u → labels[u]? = some (.label k)
  slow : ∀ u k : Nat, u ∈ S → ord[k]? = some u → ∃ l, l < k ∧ labels[u]? = some (.label l) ∧
    (∃ x, ord[l]? = some x ∧ GReach G u x) ∧ ∀ w m : Nat, w ∈ G u → ord[m]? = some w → l ≤ m
  alab : ∀ u ∈ asg, κ u < c ∧ labels[u]? = some (.label (n - 1 - κ u))
  cnt : c ≤ asg.length
  sort : ∀ p q i j : Nat, [p, q].Sublist D → ord[i]? = some p → ord[j]? = some q → j < i
  bot : ∀ r, ord[0]? = some r → r ∈ D
  suc : ∀ p w, p ∈ D → p ∈ ord → w ∈ G p → w ∈ ord ∨ w ∈ asg ∨ [w, p].Sublist D
  ssuc : ∀ u w, u ∈ S → w ∈ G u → w ∈ ord ∨ w ∈ asg
  nxt : ∀ y p, [y, p].Sublist D → p ∈ ord → (∀ q ∈ ord, ¬ [y, q, p].Sublist D) → y ∈ G p
  par : ∀ u k : Nat, u ∈ S → ord[k]? = some u → ∃ t j : Nat, ord[j]? = some t ∧ j < k ∧ u ∈ G t ∧
    (∀ p i : Nat, p ∈ D → ord[i]? = some p → ¬ (j < i ∧ i < k)) ∧
    (t ∈ D ∨ (t ∈ S ∧ ∀ a b, labels[t]? = some (.label a) → labels[u]? = some (.label b) → a ≤ b))
  sep : ∀ p i x y j k : Nat, p ∈ D → ord[i]? = some p → [x, y].Sublist S → ord[j]? = some y → i < j →
    ord[k]? = some x → i < k
  asuc : ∀ u ∈ asg, ∀ w ∈ G u, w ∈ asg ∧ κ w ≤ κ u
  areach : ∀ u ∈ asg, ∀ w ∈ asg, κ u = κ w → GReach G u w
  aused : ∀ k, k < c → ∃ u ∈ asg, κ u = k

theorem getElem?_inj {l : List Nat} (h : l.Nodup) {i j : Nat} {x : Nat} (hi : l[i]? = some x) (hj : l[j]? = some x) :
    i = j := by
  rw [List.getElem?_eq_some_iff] at hi hj
  obtain ⟨h1, h2⟩ := hi
  obtain ⟨h3, h4⟩ := hj
  exact (List.Nodup.getElem_inj_iff h).1 (by rw [h2, h4])

theorem pair_sublist_cons {v a b : Nat} {Z : List Nat} (h : [a, b].Sublist (v :: Z)) :
    (a = v ∧ b ∈ Z) ∨ [a, b].Sublist Z := by
  cases h with
  | cons _ h => exact Or.inr h
  | cons_cons _ h => exact Or.inl ⟨rfl, by simpa using h⟩

theorem pair_cons {v b : Nat} {Z : List Nat} (h : b ∈ Z) : [v, b].Sublist (v :: Z) := by
  simpa using h

theorem sublist_filter_id {L D : List Nat} {f : Nat → Bool} (h : L.Sublist D) (hf : ∀ x ∈ L, f x = true) :
    L.Sublist (D.filter f) := by
  have := h.filter f
  rwa [List.filter_eq_self.2 hf] at this

section
variable {n : Nat} {G : Nat → List Nat} {labels : List Node} {D S ord asg : List Nat} {c : Nat} {κ : Nat → Nat}

theorem SccInv.ord_nodup (h : SccInv n G labels D S ord asg c κ) : ord.Nodup := (List.nodup_append.1 h.nodup).1

theorem SccInv.ord_asg (h : SccInv n G labels D S ord asg c κ) {u : Nat} (hu : u ∈ ord) : u ∉ asg := fun hc =>
  (List.nodup_append.1 h.nodup).2.2 u hu u hc rfl

/-- labels of active nodes are at most their indexes -/
theorem SccInv.ordlab (h : SccInv n G labels D S ord asg c κ) {u k : Nat} (hk : ord[k]? = some u) :
    ∃ m, m ≤ k ∧ labels[u]? = some (.label m) := by
  rcases h.ords u (List.mem_of_getElem? hk) with hd | hs
  · exact ⟨k, le_refl k, h.plab u k hd hk⟩
  · obtain ⟨l, h1, h2, -⟩ := h.slow u k hs hk
    exact ⟨l, by omega, h2⟩

theorem SccInv.total (h : SccInv n G labels D S ord asg c κ) : ord.length + asg.length ≤ n := by
  have := nodup_lt_length h.nodup h.lt
  simpa using this

/-- labels of nodes with a component are above all indexes -/
theorem SccInv.asgbig (h : SccInv n G labels D S ord asg c κ) {u m : Nat} (hu : u ∈ asg) (hm : labels[u]? = some (.label m)) :
    ord.length ≤ m := by
  obtain ⟨h1, h2⟩ := h.alab u hu
  rw [hm] at h2
  simp at h2
  have := h.total
  have := h.cnt
  omega

theorem SccInv.visited (h : SccInv n G labels D S ord asg c κ) {u : Nat} (hu : u ∈ ord ∨ u ∈ asg) :
    ∃ m, labels[u]? = some (.label m) := by
  rcases hu with hu | hu
  · obtain ⟨k, hk⟩ := List.mem_iff_getElem?.1 hu
    obtain ⟨m, -, hm⟩ := h.ordlab hk
    exact ⟨m, hm⟩
  · exact ⟨_, (h.alab u hu).2⟩

theorem SccInv.unvisited (h : SccInv n G labels D S ord asg c κ) {u : Nat} (hu : labels[u]? = some .void) :
    u ∉ ord ∧ u ∉ asg := by
  constructor <;> intro hc
  · obtain ⟨m, hm⟩ := h.visited (Or.inl hc); rw [hu] at hm; simp at hm
  · obtain ⟨m, hm⟩ := h.visited (Or.inr hc); rw [hu] at hm; simp at hm

/-- the top of the stack is visited -/
theorem SccInv.visit {v : Nat} {Z U : List Nat} (h : SccInv n G labels (v :: Z) S ord asg c κ) (hv : v ∉ ord)
    (hGlt : ∀ u w, w ∈ G u → u < n → w < n)
    (hUnd : U.Nodup) (hU : ∀ w, w ∈ U ↔ w ∈ G v ∧ (labels.set v (.label ord.length))[w]? = some .void) :
    SccInv n G (labels.set v (.label ord.length)) (U.reverse ++ v :: Z.filter (fun x => decide (x ∉ U))) S
      (ord ++ [v]) asg c κ := by
  have hvn : v < n := h.dlt v (by simp)
  have hvl : v < labels.length := by rw [h.len]; exact hvn
  have hva : v ∉ asg := h.dasg v (by simp)
  have hvS : v ∉ S := fun hc => (List.nodup_append.1 h.dnd).2.2 v (by simp) v hc rfl
  have hZnd : (v :: Z).Nodup := (List.nodup_append.1 h.dnd).1
  have hvZ : v ∉ Z := (List.nodup_cons.1 hZnd).1
  have hset : ∀ u, u ≠ v → (labels.set v (.label ord.length))[u]? = labels[u]? := fun u hu => by
    rw [List.getElem?_set_ne (Ne.symm hu)]
  have hsetv : (labels.set v (.label ord.length))[v]? = some (.label ord.length) := List.getElem?_set_self hvl
  have hvU : v ∉ U := fun hc => by have := ((hU v).1 hc).2; rw [hsetv] at this; simp at this
  have hUv : ∀ u ∈ U, u ∉ ord ∧ u ∉ asg := fun u hu => by
    have h1 := ((hU u).1 hu).2
    have : u ≠ v := by rintro rfl; exact hvU hu
    rw [hset u this] at h1
    exact h.unvisited h1
  have hordU : ∀ u ∈ ord, u ∉ U := fun u hu hc => (hUv u hc).1 hu
  have hord'U : ∀ u ∈ ord ++ [v], u ∉ U := fun u hu => by
    rcases List.mem_append.1 hu with hu | hu
    · exact hordU u hu
    · rw [List.mem_singleton.1 hu]; exact hvU
  have hidx : ∀ {u k : Nat}, (ord ++ [v])[k]? = some u → (k = ord.length ∧ u = v) ∨ (k < ord.length ∧ ord[k]? = some u) := by
    intro u k hk
    have hlt := lt_of_getElem?_some hk
    simp only [List.length_append, List.length_singleton] at hlt
    rcases Nat.lt_or_ge k ord.length with hkl | hkl
    · rw [List.getElem?_append_left hkl] at hk
      exact Or.inr ⟨hkl, hk⟩
    · have : k = ord.length := by omega
      subst this
      rw [List.getElem?_append_right (le_refl _)] at hk
      simp at hk
      exact Or.inl ⟨rfl, hk.symm⟩
  have hidx2 : ∀ {u k : Nat}, ord[k]? = some u → (ord ++ [v])[k]? = some u := by
    intro u k hk
    rw [List.getElem?_append_left (lt_of_getElem?_some hk)]; exact hk
  have hordv : ∀ u ∈ ord, u ≠ v := fun u hu hc => hv (hc ▸ hu)
  -- sublists that avoid `U`
  have hsub : ∀ L : List Nat, (∀ x ∈ L, x ∉ U) → L.Sublist (U.reverse ++ v :: Z.filter (fun x => decide (x ∉ U))) →
      L.Sublist (v :: Z) := by
    intro L hL hs
    have h1 := sublist_filter_id (f := fun x => decide (x ∉ U)) hs (fun x hx => by simpa using hL x hx)
    rw [List.filter_append, List.filter_eq_nil_iff.2 (fun a ha => by simpa using ha), List.nil_append] at h1
    refine h1.trans (List.filter_sublist.trans ?_)
    exact List.Sublist.cons_cons _ List.filter_sublist
  have hsub2 : ∀ L : List Nat, (∀ x ∈ L, x ∉ U) → L.Sublist (v :: Z) →
      L.Sublist (U.reverse ++ v :: Z.filter (fun x => decide (x ∉ U))) := by
    intro L hL hs
    have h1 := sublist_filter_id (f := fun x => decide (x ∉ U)) hs (fun x hx => by simpa using hL x hx)
    rw [List.filter_cons, if_pos (by simpa using hvU)] at h1
    exact h1.trans (List.sublist_append_right _ _)
  have hmem : ∀ u, u ∈ U.reverse ++ v :: Z.filter (fun x => decide (x ∉ U)) ↔ u ∈ U ∨ u ∈ v :: Z := by
    intro u
    by_cases huU : u ∈ U <;> simp [huU]
  have hUD : ∀ w p, w ∈ U → p ∉ U → p ∈ v :: Z → [w, p].Sublist (U.reverse ++ v :: Z.filter (fun x => decide (x ∉ U))) := by
    intro w p hw hp hpD
    have h1 : [w].Sublist U.reverse := by simpa using hw
    have h2 : [p].Sublist (v :: Z.filter (fun x => decide (x ∉ U))) := by
      rw [List.singleton_sublist]
      rcases List.mem_cons.1 hpD with rfl | hpD
      · simp
      · simp [hpD, hp]
    exact h1.append h2
  have hSU : ∀ u ∈ S, u ∉ U := fun u hu => hordU u (h.sord u hu)
  have hSv : ∀ u ∈ S, u ≠ v := fun u hu hc => hvS (hc ▸ hu)
  refine { len := by simpa using h.len, nodup := ?_, lt := ?_, dnd := ?_, dlt := ?_, dasg := ?_, sord := ?_, ords := ?_,
           void := ?_, plab := ?_, slow := ?_, alab := ?_, cnt := h.cnt, sort := ?_, bot := ?_, suc := ?_, ssuc := ?_,
           nxt := ?_, par := ?_, sep := ?_, asuc := h.asuc, areach := h.areach, aused := h.aused }
  · rw [List.append_assoc, List.singleton_append]
    refine (List.perm_middle.symm.nodup_iff).1 ?_
    rw [List.nodup_cons]
    exact ⟨by simp [hv, hva], h.nodup⟩
  · intro u hu
    simp only [List.mem_append, List.mem_singleton] at hu
    rcases hu with (hu | rfl) | hu
    · exact h.lt u (by simp [hu])
    · exact hvn
    · exact h.lt u (by simp [hu])
  · rw [List.nodup_append]
    refine ⟨?_, (List.nodup_append.1 h.dnd).2.1, ?_⟩
    · rw [List.nodup_append]
      refine ⟨List.nodup_reverse.2 hUnd, ?_, ?_⟩
      · rw [List.nodup_cons]
        exact ⟨fun hc => hvZ (List.mem_of_mem_filter hc), (List.nodup_cons.1 hZnd).2.filter _⟩
      · intro a ha b hb hab
        subst hab
        rw [List.mem_reverse] at ha
        rcases List.mem_cons.1 hb with rfl | hb
        · exact hvU ha
        · simpa [ha] using List.of_mem_filter hb
    · intro a ha b hb hab
      subst hab
      rcases (hmem a).1 ha with ha | ha
      · exact hSU a hb ha
      · exact (List.nodup_append.1 h.dnd).2.2 a ha a hb rfl
  · intro u hu
    rcases (hmem u).1 hu with hu | hu
    · exact hGlt v u ((hU u).1 hu).1 hvn
    · exact h.dlt u hu
  · intro u hu
    rcases (hmem u).1 hu with hu | hu
    · exact (hUv u hu).2
    · exact h.dasg u hu
  · intro u hu
    simp [h.sord u hu]
  · intro u hu
    rw [hmem]
    rcases List.mem_append.1 hu with hu | hu
    · rcases h.ords u hu with hd | hs
      · exact Or.inl (Or.inr hd)
      · exact Or.inr hs
    · rw [List.mem_singleton.1 hu]
      exact Or.inl (Or.inr (by simp))
  · intro u hu h1 h2
    simp only [List.mem_append, List.mem_singleton, not_or] at h1
    rw [hset u h1.2]
    exact h.void u hu h1.1 h2
  · intro u k hu hk
    rcases hidx hk with ⟨rfl, rfl⟩ | ⟨-, hk⟩
    · exact hsetv
    · have huo := List.mem_of_getElem? hk
      rw [hset u (hordv u huo)]
      rcases (hmem u).1 hu with hu | hu
      · exact absurd hu (hordU u huo)
      · exact h.plab u k hu hk
  · intro u k hu hk
    rcases hidx hk with ⟨rfl, rfl⟩ | ⟨-, hk⟩
    · exact absurd hu hvS
    · obtain ⟨l, h1, h2, ⟨x, h3, h4⟩, h5⟩ := h.slow u k hu hk
      refine ⟨l, h1, by rw [hset u (hSv u hu)]; exact h2, ⟨x, hidx2 h3, h4⟩, ?_⟩
      intro w m hw hm
      rcases hidx hm with ⟨rfl, rfl⟩ | ⟨-, hm⟩
      · have := lt_of_getElem?_some h3; omega
      · exact h5 w m hw hm
  · intro u hu
    have : u ≠ v := by rintro rfl; exact hva hu
    rw [hset u this]
    exact h.alab u hu
  · intro p q i j hpq hi hj
    have hpo := List.mem_of_getElem? hi
    have hqo := List.mem_of_getElem? hj
    have hpq' := hsub [p, q] (by intro x hx; simp at hx; rcases hx with rfl | rfl; exacts [hord'U _ hpo, hord'U _ hqo]) hpq
    rcases hidx hj with ⟨rfl, rfl⟩ | ⟨hjl, hj⟩
    · rcases pair_sublist_cons hpq' with ⟨-, hc⟩ | hc
      · exact absurd hc hvZ
      · exact absurd (hc.subset (by simp)) hvZ
    · rcases hidx hi with ⟨rfl, rfl⟩ | ⟨hil, hi⟩
      · exact hjl
      · exact h.sort p q i j hpq' hi hj
  · intro r hr
    rw [hmem]
    rcases hidx hr with ⟨-, rfl⟩ | ⟨-, hr⟩
    · simp
    · exact Or.inr (h.bot r hr)
  · intro p w hp hpo hw
    have hpU := hord'U p hpo
    have hpD := ((hmem p).1 hp).resolve_left hpU
    by_cases hpv : p = v
    · subst hpv
      by_cases hwU : w ∈ U
      · exact Or.inr (Or.inr (hUD w p hwU hpU hpD))
      · by_cases hwo : w ∈ ord
        · exact Or.inl (by simp [hwo])
        · by_cases hwa : w ∈ asg
          · exact Or.inr (Or.inl hwa)
          · by_cases hwp : w = p
            · exact Or.inl (by simp [hwp])
            · exact absurd ((hU w).2 ⟨hw, by rw [hset w hwp]; exact h.void w (hGlt p w hw hvn) hwo hwa⟩) hwU
    · have hpo' : p ∈ ord := by simpa [hpv] using hpo
      rcases h.suc p w hpD hpo' hw with h1 | h1 | h1
      · exact Or.inl (by simp [h1])
      · exact Or.inr (Or.inl h1)
      · refine Or.inr (Or.inr ?_)
        by_cases hwU : w ∈ U
        · exact hUD w p hwU hpU hpD
        · exact hsub2 _ (by intro x hx; simp at hx; rcases hx with rfl | rfl; exacts [hwU, hpU]) h1
  · intro u w hu hw
    rcases h.ssuc u w hu hw with h1 | h1
    · exact Or.inl (by simp [h1])
    · exact Or.inr h1
  · intro y p hyp hpo hq
    have hpU := hord'U p hpo
    have hpD := ((hmem p).1 (hyp.subset (by simp))).resolve_left hpU
    by_cases hyU : y ∈ U
    · by_cases hpv : p = v
      · subst hpv; exact ((hU y).1 hyU).1
      · exfalso
        have hpZ : p ∈ Z := (List.mem_cons.1 hpD).resolve_left hpv
        have h1 : [y].Sublist U.reverse := by simpa using hyU
        have h2 : [v, p].Sublist (v :: Z.filter (fun x => decide (x ∉ U))) := pair_cons (by simp [hpZ, hpU])
        exact hq v (by simp) (h1.append h2)
    · have hyp' := hsub [y, p] (by intro x hx; simp at hx; rcases hx with rfl | rfl; exacts [hyU, hpU]) hyp
      by_cases hpv : p = v
      · subst hpv
        rcases pair_sublist_cons hyp' with ⟨-, hc⟩ | hc
        · exact absurd hc hvZ
        · exact absurd (hc.subset (by simp)) hvZ
      · have hpo' : p ∈ ord := by simpa [hpv] using hpo
        refine h.nxt y p hyp' hpo' fun q hqo hc => hq q (by simp [hqo]) ?_
        exact hsub2 _ (by intro x hx; simp at hx; rcases hx with rfl | rfl | rfl; exacts [hyU, hordU _ hqo, hpU]) hc
  · intro u k hu hk
    rcases hidx hk with ⟨rfl, rfl⟩ | ⟨hkl, hk⟩
    · exact absurd hu hvS
    · obtain ⟨t, j, h1, h2, h3, h4, h5⟩ := h.par u k hu hk
      refine ⟨t, j, hidx2 h1, h2, h3, ?_, ?_⟩
      · intro p i hp hi
        rcases hidx hi with ⟨rfl, rfl⟩ | ⟨hil, hi⟩
        · omega
        · have hpU := hordU p (List.mem_of_getElem? hi)
          exact h4 p i (((hmem p).1 hp).resolve_left hpU) hi
      · rcases h5 with h5 | ⟨h5, h6⟩
        · exact Or.inl ((hmem t).2 (Or.inr h5))
        · refine Or.inr ⟨h5, ?_⟩
          rw [hset u (hSv u hu), hset t (hSv t h5)]
          exact h6
  · intro p i x y j k hp hi hxy hj hij hk
    rcases hidx hj with ⟨rfl, rfl⟩ | ⟨hjl, hj⟩
    · exact absurd (hxy.subset (by simp)) hvS
    · rcases hidx hk with ⟨rfl, rfl⟩ | ⟨hkl, hk⟩
      · exact absurd (hxy.subset (by simp)) hvS
      · rcases hidx hi with ⟨rfl, rfl⟩ | ⟨hil, hi⟩
        · omega
        · have hpU := hordU p (List.mem_of_getElem? hi)
          exact h.sep p i x y j k (((hmem p).1 hp).resolve_left hpU) hi hxy hj hij hk

/-- every successor of the visited top of the stack has been visited -/
theorem SccInv.top_suc {v : Nat} {Z : List Nat} (h : SccInv n G labels (v :: Z) S ord asg c κ) (hv : v ∈ ord) {w : Nat}
    (hw : w ∈ G v) : w ∈ ord ∨ w ∈ asg := by
  have hvZ : v ∉ Z := (List.nodup_cons.1 (List.nodup_append.1 h.dnd).1).1
  rcases h.suc v w (by simp) hv hw with h1 | h1 | h1
  · exact Or.inl h1
  · exact Or.inr h1
  · rcases pair_sublist_cons h1 with ⟨-, hc⟩ | hc
    · exact absurd hc hvZ
    · exact absurd (hc.subset (by simp)) hvZ

/-- the top of the stack is finished and joins the stack of nodes without component -/
theorem SccInv.finish {v k l : Nat} {Z : List Nat} (h : SccInv n G labels (v :: Z) S ord asg c κ)
    (hk : ord[k]? = some v) (hl : l < k) (hlw : ∃ w ∈ G v, labels[w]? = some (.label l))
    (hmin : ∀ w ∈ G v, ∀ m, labels[w]? = some (.label m) → l ≤ m) :
    SccInv n G (labels.set v (.label l)) Z (v :: S) ord asg c κ := by
  have hvo : v ∈ ord := List.mem_of_getElem? hk
  have hvn : v < n := h.dlt v (by simp)
  have hvl : v < labels.length := by rw [h.len]; exact hvn
  have hva : v ∉ asg := h.dasg v (by simp)
  have hvS : v ∉ S := fun hc => (List.nodup_append.1 h.dnd).2.2 v (by simp) v hc rfl
  have hZnd : (v :: Z).Nodup := (List.nodup_append.1 h.dnd).1
  have hvZ : v ∉ Z := (List.nodup_cons.1 hZnd).1
  have hset : ∀ u, u ≠ v → (labels.set v (.label l))[u]? = labels[u]? := fun u hu => by
    rw [List.getElem?_set_ne (Ne.symm hu)]
  have hsetv : (labels.set v (.label l))[v]? = some (.label l) := List.getElem?_set_self hvl
  have hSv : ∀ u ∈ S, u ≠ v := fun u hu hc => hvS (hc ▸ hu)
  have hZv : ∀ u ∈ Z, u ≠ v := fun u hu hc => hvZ (hc ▸ hu)
  have hnd := h.ord_nodup
  refine { len := by simpa using h.len, nodup := h.nodup, lt := h.lt, dnd := ?_, dlt := fun u hu => h.dlt u (by simp [hu]),
           dasg := fun u hu => h.dasg u (by simp [hu]), sord := ?_, ords := ?_,
           void := ?_, plab := ?_, slow := ?_, alab := ?_, cnt := h.cnt, sort := ?_, bot := ?_, suc := ?_, ssuc := ?_,
           nxt := ?_, par := ?_, sep := ?_, asuc := h.asuc, areach := h.areach, aused := h.aused }
  · exact (List.perm_middle.nodup_iff).2 h.dnd
  · intro u hu
    rcases List.mem_cons.1 hu with rfl | hu
    · exact hvo
    · exact h.sord u hu
  · intro u hu
    rcases h.ords u hu with hd | hs
    · rcases List.mem_cons.1 hd with rfl | hd
      · exact Or.inr (by simp)
      · exact Or.inl hd
    · exact Or.inr (by simp [hs])
  · intro u hu h1 h2
    rw [hset u (by rintro rfl; exact h1 hvo)]
    exact h.void u hu h1 h2
  · intro u k' hu hk'
    rw [hset u (hZv u hu)]
    exact h.plab u k' (by simp [hu]) hk'
  · intro u k' hu hk'
    rcases List.mem_cons.1 hu with rfl | hu
    · have := getElem?_inj hnd hk hk'
      subst this
      refine ⟨l, hl, hsetv, ?_, ?_⟩
      · obtain ⟨w, hw, hwl⟩ := hlw
        rcases h.top_suc hvo hw with hwo | hwa
        · obtain ⟨m, hm⟩ := List.mem_iff_getElem?.1 hwo
          rcases h.ords w hwo with hd | hs
          · have := h.plab w m hd hm
            rw [hwl] at this
            simp at this
            subst this
            exact ⟨w, hm, Relation.ReflTransGen.single hw⟩
          · obtain ⟨l', e1, e2, ⟨x, e3, e4⟩, -⟩ := h.slow w m hs hm
            rw [hwl] at e2
            simp at e2
            subst e2
            exact ⟨x, e3, Relation.ReflTransGen.head hw e4⟩
        · have := h.asgbig hwa hwl
          have := lt_of_getElem?_some hk
          omega
      · intro w m hw hm
        obtain ⟨m', e1, e2⟩ := h.ordlab hm
        have := hmin w hw m' e2
        omega
    · rw [hset u (hSv u hu)]
      exact h.slow u k' hu hk'
  · intro u hu
    rw [hset u (by rintro rfl; exact hva hu)]
    exact h.alab u hu
  · intro p q i j hpq hi hj
    exact h.sort p q i j (hpq.trans (List.sublist_cons_self _ _)) hi hj
  · intro r hr
    rcases List.mem_cons.1 (h.bot r hr) with rfl | hr'
    · have := getElem?_inj hnd hr hk
      omega
    · exact hr'
  · intro p w hp hpo hw
    rcases h.suc p w (by simp [hp]) hpo hw with h1 | h1 | h1
    · exact Or.inl h1
    · exact Or.inr (Or.inl h1)
    · rcases pair_sublist_cons h1 with ⟨rfl, -⟩ | hc
      · exact Or.inl hvo
      · exact Or.inr (Or.inr hc)
  · intro u w hu hw
    rcases List.mem_cons.1 hu with rfl | hu
    · exact h.top_suc hvo hw
    · exact h.ssuc u w hu hw
  · intro y p hyp hpo hq
    refine h.nxt y p (hyp.trans (List.sublist_cons_self _ _)) hpo fun q hqo hc => hq q hqo ?_
    cases hc with
    | cons _ hc => exact hc
    | cons_cons _ hc => exact absurd (hyp.subset (by simp)) hvZ
  · intro u k' hu hk'
    rcases List.mem_cons.1 hu with rfl | hu
    · have := getElem?_inj hnd hk hk'
      subst this
      -- the nearest visited node below `u` on the stack
      obtain ⟨r, hr⟩ : ∃ r, ord[0]? = some r := by
        have := lt_of_getElem?_some hk
        exact ⟨ord[0], by rw [List.getElem?_eq_getElem]⟩
      have hrZ : r ∈ Z := by
        rcases List.mem_cons.1 (h.bot r hr) with rfl | hr'
        · have := getElem?_inj hnd hr hk
          omega
        · exact hr'
      obtain ⟨t, ht⟩ : ∃ t, Z.find? (fun x => decide (x ∈ ord)) = some t := by
        rw [← Option.isSome_iff_exists, List.find?_isSome]
        exact ⟨r, hrZ, by simpa using List.mem_of_getElem? hr⟩
      rw [List.find?_eq_some_iff_append] at ht
      obtain ⟨hto, X, Y, hXY, hX⟩ := ht
      simp only [decide_eq_true_eq, Bool.not_eq_true', decide_eq_false_iff_not] at hto hX
      obtain ⟨j, hj⟩ := List.mem_iff_getElem?.1 hto
      have htZ : t ∈ Z := by rw [hXY]; simp
      have hZ2 := (List.nodup_cons.1 hZnd).2
      rw [hXY, List.nodup_append] at hZ2
      have htY : t ∉ Y := (List.nodup_cons.1 hZ2.2.1).1
      have hut : [u, t].Sublist (u :: Z) := pair_cons htZ
      refine ⟨t, j, hj, h.sort u t k j hut hk hj, ?_, ?_, Or.inl htZ⟩
      · refine h.nxt u t hut hto fun q hqo hc => ?_
        cases hc with
        | cons _ hc => exact hvZ (hc.subset (by simp))
        | cons_cons _ hc =>
          have := sublist_filter_id (f := fun x => decide (x ∈ ord)) hc (by
            intro x hx; simp at hx; rcases hx with rfl | rfl
            · simpa using hqo
            · simpa using hto)
          rw [hXY, List.filter_append, List.filter_eq_nil_iff.2 (fun a ha => by simpa using hX a ha), List.nil_append,
            List.filter_cons, if_pos (by simpa using hto)] at this
          rcases pair_sublist_cons this with ⟨-, hc⟩ | hc
          · exact htY (List.mem_of_mem_filter hc)
          · exact htY (List.mem_of_mem_filter (hc.subset (by simp)))
      · rintro p i hp hi ⟨hji, hik⟩
        rw [hXY] at hp
        rcases List.mem_append.1 hp with hp | hp
        · exact hX p hp (List.mem_of_getElem? hi)
        · rcases List.mem_cons.1 hp with rfl | hp
          · have := getElem?_inj hnd hi hj
            omega
          · have : [t, p].Sublist (u :: Z) := by
              rw [hXY]
              exact (pair_cons hp).trans ((List.sublist_append_right X _).trans (List.sublist_cons_self _ _))
            have := h.sort t p j i this hj hi
            omega
    · obtain ⟨t, j, h1, h2, h3, h4, h5⟩ := h.par u k' hu hk'
      refine ⟨t, j, h1, h2, h3, fun p i hp hi => h4 p i (by simp [hp]) hi, ?_⟩
      rw [hset u (hSv u hu)]
      rcases h5 with h5 | ⟨h5, h6⟩
      · rcases List.mem_cons.1 h5 with rfl | h5
        · refine Or.inr ⟨by simp, fun a b ha hb => ?_⟩
          rw [hsetv] at ha
          simp at ha
          subst ha
          exact hmin u h3 b hb
        · exact Or.inl h5
      · refine Or.inr ⟨by simp [h5], ?_⟩
        rw [hset t (hSv t h5)]
        exact h6
  · intro p i x y j k' hp hi hxy hj hij hk'
    rcases pair_sublist_cons hxy with ⟨rfl, hyS⟩ | hxy
    · exact h.sort x p k' i (pair_cons hp) hk' hi
    · exact h.sep p i x y j k' (by simp [hp]) hi hxy hj hij hk'

/-- The top of the stack is the root of a component: the nodes `A` on top of `S` are those visited after it; they have
labels at least its index, and together with `v` they are a new component. -/
theorem SccInv.component {v k : Nat} {Z : List Nat} (h : SccInv n G labels (v :: Z) S ord asg c κ)
    (hk : ord[k]? = some v) (hmin : ∀ w ∈ G v, ∀ m, labels[w]? = some (.label m) → k ≤ m) :
    ∃ A B, S = A ++ B ∧ (∀ a ∈ A, ∃ m, k ≤ m ∧ labels[a]? = some (.label m)) ∧
      (∀ b ∈ B, ∃ m, m < k ∧ labels[b]? = some (.label m)) ∧ A.length + 1 + k = ord.length ∧
      ∀ labels' : List Node, labels'.length = n →
        (∀ u ∈ v :: A, labels'[u]? = some (.label (n - 1 - c))) → (∀ u, u ∉ v :: A → labels'[u]? = labels[u]?) →
        SccInv n G labels' Z B (ord.take k) (v :: A ++ asg) (c + 1) (fun u => if u ∈ v :: A then c else κ u) := by
  have hvo : v ∈ ord := List.mem_of_getElem? hk
  have hkl := lt_of_getElem?_some hk
  have hva : v ∉ asg := h.dasg v (by simp)
  have hvS : v ∉ S := fun hc => (List.nodup_append.1 h.dnd).2.2 v (by simp) v hc rfl
  have hZnd : (v :: Z).Nodup := (List.nodup_append.1 h.dnd).1
  have hSnd : S.Nodup := (List.nodup_append.1 h.dnd).2.1
  have hvZ : v ∉ Z := (List.nodup_cons.1 hZnd).1
  have hZv : ∀ u ∈ Z, u ≠ v := fun u hu hc => hvZ (hc ▸ hu)
  have hnd := h.ord_nodup
  have hDidx : ∀ p i : Nat, p ∈ v :: Z → ord[i]? = some p → i ≤ k := by
    intro p i hp hi
    rcases List.mem_cons.1 hp with rfl | hp
    · exact le_of_eq (getElem?_inj hnd hi hk)
    · exact le_of_lt (h.sort v p k i (pair_cons hp) hk hi)
  have hinS : ∀ u i : Nat, ord[i]? = some u → k < i → u ∈ S := by
    intro u i hi hki
    rcases h.ords u (List.mem_of_getElem? hi) with hd | hs
    · have := hDidx u i hd hi; omega
    · exact hs
  -- the split of `S`
  obtain ⟨A, B, hAB, hA, hB⟩ : ∃ A B, S = A ++ B ∧ (∀ a ∈ A, ∃ i, k < i ∧ ord[i]? = some a) ∧
      (∀ b ∈ B, ∃ i, i < k ∧ ord[i]? = some b) := by
    refine ⟨S.takeWhile (fun x => decide (x ∈ ord.drop (k + 1))), S.dropWhile (fun x => decide (x ∈ ord.drop (k + 1))),
      List.takeWhile_append_dropWhile.symm, ?_, ?_⟩
    · intro a ha
      have := List.mem_takeWhile_imp ha
      simp only [decide_eq_true_eq] at this
      obtain ⟨i, hi⟩ := List.mem_iff_getElem?.1 this
      rw [List.getElem?_drop] at hi
      exact ⟨k + 1 + i, by omega, hi⟩
    · intro b hb
      have hbS : b ∈ S := (List.dropWhile_sublist _).subset hb
      obtain ⟨i, hi⟩ := List.mem_iff_getElem?.1 (h.sord b hbS)
      refine ⟨i, ?_, hi⟩
      by_contra hc
      have hik : k < i := by
        rcases Nat.lt_or_ge k i with h1 | h1
        · exact h1
        · have : i = k := by omega
          subst this
          rw [hk] at hi
          simp at hi
          subst hi
          exact absurd hbS hvS
      -- the first element of the rest
      obtain ⟨x, R, hxR⟩ : ∃ x R, S.dropWhile (fun x => decide (x ∈ ord.drop (k + 1))) = x :: R := by
        cases hd : S.dropWhile (fun x => decide (x ∈ ord.drop (k + 1))) with
        | nil => rw [hd] at hb; simp at hb
        | cons x R => exact ⟨x, R, rfl⟩
      have hxn : x ∉ ord.drop (k + 1) := by
        have := List.head_dropWhile_not (fun x => decide (x ∈ ord.drop (k + 1))) (l := S) (by rw [hxR]; simp)
        simpa [hxR] using this
      have hin : ∀ y j : Nat, ord[j]? = some y → k < j → y ∈ ord.drop (k + 1) := by
        intro y j hj hkj
        rw [List.mem_iff_getElem?]
        exact ⟨j - (k + 1), by rw [List.getElem?_drop, show k + 1 + (j - (k + 1)) = j by omega]; exact hj⟩
      rw [hxR] at hb
      rcases List.mem_cons.1 hb with rfl | hb
      · exact hxn (hin _ _ hi hik)
      · have hxS : x ∈ S := (List.dropWhile_sublist _).subset (by rw [hxR]; simp)
        obtain ⟨j, hj⟩ := List.mem_iff_getElem?.1 (h.sord x hxS)
        have hsub : [x, b].Sublist S :=
          (pair_cons hb).trans (by rw [← hxR]; exact List.dropWhile_sublist _)
        exact hxn (hin x j hj (h.sep v k x b i j (by simp) hk hsub hi hik hj))
  have hAS : ∀ a ∈ A, a ∈ S := fun a ha => by rw [hAB]; simp [ha]
  have hBS : ∀ a ∈ B, a ∈ S := fun a ha => by rw [hAB]; simp [ha]
  have hAiff : ∀ u i : Nat, ord[i]? = some u → (u ∈ A ↔ k < i) := by
    intro u i hi
    constructor
    · intro hu
      obtain ⟨i', h1, h2⟩ := hA u hu
      rw [getElem?_inj hnd hi h2]; exact h1
    · intro hki
      have := hinS u i hi hki
      rw [hAB] at this
      rcases List.mem_append.1 this with h1 | h1
      · exact h1
      · obtain ⟨i', h2, h3⟩ := hB u h1
        have := getElem?_inj hnd hi h3
        omega
  have hBiff : ∀ u i : Nat, ord[i]? = some u → i < k → u ∉ v :: A := by
    intro u i hi hik hc
    rcases List.mem_cons.1 hc with rfl | hc
    · have := getElem?_inj hnd hi hk; omega
    · have := (hAiff u i hi).1 hc; omega
  have hgeq : ∀ u i : Nat, ord[i]? = some u → k ≤ i → u ∈ v :: A := by
    intro u i hi hik
    rcases Nat.lt_or_ge k i with h1 | h1
    · simp [(hAiff u i hi).2 h1]
    · have : i = k := by omega
      subst this
      rw [hk] at hi
      simp at hi
      simp [hi]
  -- the labels of `A`
  have hlow : ∀ i a : Nat, ord[i]? = some a → a ∈ A → ∀ m, labels[a]? = some (.label m) → k ≤ m := by
    intro i
    induction i using Nat.strong_induction_on with
    | _ i ih =>
      intro a hi ha m hm
      have hki := (hAiff a i hi).1 ha
      obtain ⟨t, j, h1, h2, h3, h4, h5⟩ := h.par a i (hAS a ha) hi
      have hkj : k ≤ j := by
        by_contra hc
        exact h4 v k (by simp) hk ⟨by omega, hki⟩
      rcases List.mem_cons.1 (hgeq t j h1 hkj) with rfl | htA
      · exact hmin a h3 m hm
      · rcases h5 with h5 | ⟨h5, h6⟩
        · have := hDidx t j h5 h1
          have := (hAiff t j h1).1 htA
          omega
        · obtain ⟨l, -, h7, -⟩ := h.slow t j h5 h1
          have := ih j h2 t h1 htA l h7
          have := h6 l m h7 hm
          omega
  have hreach1 : ∀ i a : Nat, ord[i]? = some a → k ≤ i → GReach G v a := by
    intro i
    induction i using Nat.strong_induction_on with
    | _ i ih =>
      intro a hi hki
      rcases List.mem_cons.1 (hgeq a i hi hki) with rfl | ha
      · exact Relation.ReflTransGen.refl
      · have hki := (hAiff a i hi).1 ha
        obtain ⟨t, j, h1, h2, h3, h4, -⟩ := h.par a i (hAS a ha) hi
        have hkj : k ≤ j := by
          by_contra hc
          exact h4 v k (by simp) hk ⟨by omega, hki⟩
        exact Relation.ReflTransGen.tail (ih j h2 t h1 hkj) h3
  have hreach2 : ∀ i a : Nat, ord[i]? = some a → k ≤ i → GReach G a v := by
    intro i
    induction i using Nat.strong_induction_on with
    | _ i ih =>
      intro a hi hki
      rcases List.mem_cons.1 (hgeq a i hi hki) with rfl | ha
      · exact Relation.ReflTransGen.refl
      · obtain ⟨l, h1, h2, ⟨x, h3, h4⟩, -⟩ := h.slow a i (hAS a ha) hi
        have hkl := hlow i a hi ha l h2
        exact Relation.ReflTransGen.trans h4 (ih l h1 x h3 hkl)
  have hidx : ∀ u ∈ v :: A, ∃ i, k ≤ i ∧ ord[i]? = some u := by
    intro u hu
    rcases List.mem_cons.1 hu with rfl | hu
    · exact ⟨k, le_refl k, hk⟩
    · obtain ⟨i, h1, h2⟩ := hA u hu
      exact ⟨i, by omega, h2⟩
  -- `v :: A` are the nodes from index `k` on
  have hAnd : A.Nodup := by rw [hAB, List.nodup_append] at hSnd; exact hSnd.1
  have hsplit : ord = ord.take k ++ v :: ord.drop (k + 1) := by
    have hv' : ord[k] = v := by rw [List.getElem?_eq_getElem hkl] at hk; simpa using hk
    rw [← hv', List.getElem_cons_drop, List.take_append_drop]
  have hperm : A.Perm (ord.drop (k + 1)) := by
    rw [List.perm_ext_iff_of_nodup hAnd (hnd.sublist (List.drop_sublist _ _))]
    intro u
    constructor
    · intro hu
      obtain ⟨i, h1, h2⟩ := hA u hu
      rw [List.mem_iff_getElem?]
      exact ⟨i - (k + 1), by rw [List.getElem?_drop, show k + 1 + (i - (k + 1)) = i by omega]; exact h2⟩
    · intro hu
      obtain ⟨i, hi⟩ := List.mem_iff_getElem?.1 hu
      rw [List.getElem?_drop] at hi
      exact (hAiff u _ hi).2 (by omega)
  have hlen : A.length + 1 + k = ord.length := by
    have := hperm.length_eq
    simp only [List.length_drop] at this
    omega
  have hpermAll : (ord.take k ++ (v :: A ++ asg)).Perm (ord ++ asg) := by
    conv_rhs => rw [hsplit]
    rw [List.append_assoc]
    refine List.Perm.append_left _ ?_
    exact List.Perm.append_right _ (List.Perm.cons _ hperm)
  refine ⟨A, B, hAB, ?_, ?_, hlen, ?_⟩
  · intro a ha
    obtain ⟨i, h1, h2⟩ := hA a ha
    obtain ⟨l, -, h3, -⟩ := h.slow a i (hAS a ha) h2
    exact ⟨l, hlow i a h2 ha l h3, h3⟩
  · intro b hb
    obtain ⟨i, h1, h2⟩ := hB b hb
    obtain ⟨l, h3, h4, -⟩ := h.slow b i (hBS b hb) h2
    exact ⟨l, by omega, h4⟩
  intro labels' hlen' hnew hold
  have htake : ∀ {u i : Nat}, (ord.take k)[i]? = some u → i < k ∧ ord[i]? = some u := by
    intro u i hi
    have := lt_of_getElem?_some hi
    rw [List.length_take] at this
    rw [List.getElem?_take_of_lt (by omega)] at hi
    exact ⟨by omega, hi⟩
  have htake2 : ∀ {u i : Nat}, i < k → ord[i]? = some u → (ord.take k)[i]? = some u := by
    intro u i hik hi
    rw [List.getElem?_take_of_lt hik]; exact hi
  have hZA : ∀ u ∈ Z, u ∉ v :: A := by
    intro u hu hc
    rcases List.mem_cons.1 hc with rfl | hc
    · exact hvZ hu
    · exact (List.nodup_append.1 h.dnd).2.2 u (by simp [hu]) u (hAS u hc) rfl
  have hBA : ∀ u ∈ B, u ∉ v :: A := by
    intro u hu
    obtain ⟨i, h1, h2⟩ := hB u hu
    exact hBiff u i h2 h1
  have hasgA : ∀ u ∈ asg, u ∉ v :: A := by
    intro u hu hc
    obtain ⟨i, -, h2⟩ := hidx u hc
    exact h.ord_asg (List.mem_of_getElem? h2) hu
  have hmem : ∀ u, u ∈ ord ∨ u ∈ asg → u ∈ ord.take k ∨ u ∈ v :: A ++ asg := by
    intro u hu
    have : u ∈ ord ++ asg := List.mem_append.2 hu
    exact List.mem_append.1 (hpermAll.symm.subset this)
  refine { len := hlen', nodup := hpermAll.nodup_iff.2 h.nodup, lt := fun u hu => h.lt u (hpermAll.subset hu), dnd := ?_,
           dlt := fun u hu => h.dlt u (by simp [hu]),
           dasg := ?_, sord := ?_, ords := ?_,
           void := ?_, plab := ?_, slow := ?_, alab := ?_, cnt := ?_, sort := ?_, bot := ?_, suc := ?_, ssuc := ?_,
           nxt := ?_, par := ?_, sep := ?_, asuc := ?_, areach := ?_, aused := ?_ }
  · refine h.dnd.sublist ?_
    rw [hAB]
    exact (List.sublist_cons_self v Z).append (List.sublist_append_right A B)
  · intro u hu hc
    rcases List.mem_append.1 hc with hc | hc
    · exact hZA u hu hc
    · exact h.dasg u (by simp [hu]) hc
  · intro u hu
    obtain ⟨i, h1, h2⟩ := hB u hu
    exact List.mem_of_getElem? (htake2 h1 h2)
  · intro u hu
    obtain ⟨i, hi⟩ := List.mem_iff_getElem?.1 hu
    obtain ⟨hik, hi⟩ := htake hi
    rcases h.ords u (List.mem_of_getElem? hi) with hd | hs
    · rcases List.mem_cons.1 hd with rfl | hd
      · have := getElem?_inj hnd hi hk; omega
      · exact Or.inl hd
    · rw [hAB] at hs
      rcases List.mem_append.1 hs with hs | hs
      · have := (hAiff u i hi).1 hs; omega
      · exact Or.inr hs
  · intro u hu h1 h2
    have hno : ¬ (u ∈ ord ∨ u ∈ asg) := fun hc => by
      rcases hmem u hc with h3 | h3
      · exact h1 h3
      · exact h2 h3
    rw [hold u (fun hc => h2 (List.mem_append.2 (Or.inl hc)))]
    exact h.void u hu (fun hc => hno (Or.inl hc)) (fun hc => hno (Or.inr hc))
  · intro u i hu hi
    rw [hold u (hZA u hu)]
    exact h.plab u i (by simp [hu]) (htake hi).2
  · intro u i hu hi
    obtain ⟨hik, hi⟩ := htake hi
    obtain ⟨l, h1, h2, ⟨x, h3, h4⟩, h5⟩ := h.slow u i (hBS u hu) hi
    refine ⟨l, h1, by rw [hold u (hBA u hu)]; exact h2, ⟨x, htake2 (by omega) h3, h4⟩, fun w m hw hm => h5 w m hw (htake hm).2⟩
  · intro u hu
    rcases List.mem_append.1 hu with hu | hu
    · simp only [hu, if_true]
      exact ⟨by omega, hnew u hu⟩
    · simp only [hasgA u hu, if_false]
      obtain ⟨h1, h2⟩ := h.alab u hu
      exact ⟨by omega, by rw [hold u (hasgA u hu)]; exact h2⟩
  · have := h.cnt
    simp
    omega
  · intro p q i j hpq hi hj
    exact h.sort p q i j (hpq.trans (List.sublist_cons_self _ _)) (htake hi).2 (htake hj).2
  · intro r hr
    obtain ⟨h0, hr⟩ := htake hr
    rcases List.mem_cons.1 (h.bot r hr) with rfl | hr'
    · have := getElem?_inj hnd hr hk
      omega
    · exact hr'
  · intro p w hp hpo hw
    have hpo' : p ∈ ord := List.mem_of_mem_take hpo
    rcases h.suc p w (by simp [hp]) hpo' hw with h1 | h1 | h1
    · rcases hmem w (Or.inl h1) with h2 | h2
      · exact Or.inl h2
      · exact Or.inr (Or.inl h2)
    · exact Or.inr (Or.inl (by simp [h1]))
    · rcases pair_sublist_cons h1 with ⟨rfl, -⟩ | hc
      · exact Or.inr (Or.inl (by simp))
      · exact Or.inr (Or.inr hc)
  · intro u w hu hw
    exact hmem w (h.ssuc u w (hBS u hu) hw)
  · intro y p hyp hpo hq
    have hpo' : p ∈ ord := List.mem_of_mem_take hpo
    refine h.nxt y p (hyp.trans (List.sublist_cons_self _ _)) hpo' fun q hqo hc => ?_
    have hc' : [y, q, p].Sublist Z := by
      cases hc with
      | cons _ hc => exact hc
      | cons_cons _ hc => exact absurd (hyp.subset (by simp)) hvZ
    have hqZ : q ∈ Z := hc'.subset (by simp)
    refine hq q ?_ hc'
    rcases hmem q (Or.inl hqo) with h2 | h2
    · exact h2
    · rcases List.mem_append.1 h2 with h2 | h2
      · exact absurd h2 (hZA q hqZ)
      · exact absurd h2 (h.dasg q (by simp [hqZ]))
  · intro u i hu hi
    obtain ⟨hik, hi⟩ := htake hi
    obtain ⟨t, j, h1, h2, h3, h4, h5⟩ := h.par u i (hBS u hu) hi
    have htA := hBiff t j h1 (by omega)
    refine ⟨t, j, htake2 (by omega) h1, h2, h3, fun p i' hp hi' => h4 p i' (by simp [hp]) (htake hi').2, ?_⟩
    rw [hold u (hBA u hu), hold t htA]
    simp only [List.mem_cons, not_or] at htA
    rcases h5 with h5 | ⟨h5, h6⟩
    · exact Or.inl ((List.mem_cons.1 h5).resolve_left htA.1)
    · rw [hAB] at h5
      exact Or.inr ⟨(List.mem_append.1 h5).resolve_left htA.2, h6⟩
  · intro p i x y j k' hp hi hxy hj hij hk'
    exact h.sep p i x y j k' (by simp [hp]) (htake hi).2
      (hxy.trans (by rw [hAB]; exact List.sublist_append_right A B)) (htake hj).2 hij (htake hk').2
  · intro u hu w hw
    rcases List.mem_append.1 hu with hu | hu
    · have hvis : w ∈ ord ∨ w ∈ asg := by
        rcases List.mem_cons.1 hu with rfl | hu
        · exact h.top_suc hvo hw
        · exact h.ssuc u w (hAS u hu) hw
      simp only [hu, if_true]
      by_cases hwA : w ∈ v :: A
      · simp only [hwA, if_true]
        exact ⟨by simp only [List.mem_append]; exact Or.inl hwA, le_refl _⟩
      · simp only [hwA, if_false]
        rcases hvis with hwo | hwa
        · exfalso
          obtain ⟨m, hm⟩ := List.mem_iff_getElem?.1 hwo
          have hmk : m < k := by
            by_contra hc
            exact hwA (hgeq w m hm (by omega))
          rcases List.mem_cons.1 hu with rfl | hu
          · obtain ⟨m', h1, h2⟩ := h.ordlab hm
            have := hmin w hw m' h2
            omega
          · obtain ⟨i, h1, h2⟩ := hA u hu
            obtain ⟨l, -, h3, -, h4⟩ := h.slow u i (hAS u hu) h2
            have := hlow i u h2 hu l h3
            have := h4 w m hw hm
            omega
        · exact ⟨by simp [hwa], le_of_lt (h.alab w hwa).1⟩
    · obtain ⟨h1, h2⟩ := h.asuc u hu w hw
      simp only [hasgA u hu, hasgA w h1, if_false]
      exact ⟨by simp [h1], h2⟩
  · intro u hu w hw huw
    rcases List.mem_append.1 hu with hu | hu <;> rcases List.mem_append.1 hw with hw | hw
    · obtain ⟨i, h1, h2⟩ := hidx u hu
      obtain ⟨j, h3, h4⟩ := hidx w hw
      exact Relation.ReflTransGen.trans (hreach2 i u h2 h1) (hreach1 j w h4 h3)
    · simp only [hu, hasgA w hw, if_true, if_false] at huw
      have := (h.alab w hw).1
      omega
    · simp only [hw, hasgA u hu, if_true, if_false] at huw
      have := (h.alab u hu).1
      omega
    · simp only [hasgA w hw, hasgA u hu, if_false] at huw
      exact h.areach u hu w hw huw
  · intro m hm
    rcases Nat.lt_or_ge m c with h1 | h1
    · obtain ⟨u, h2, h3⟩ := h.aused m h1
      exact ⟨u, by simp [h2], by simp only [hasgA u h2, if_false]; exact h3⟩
    · exact ⟨v, by simp, by simp; omega⟩

end

end Sparse

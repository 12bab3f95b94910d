import Verif.Lemmas.Graph
import Verif.SpecSearch
/-!
The depth-first search.
-/
namespace Sparse

/-- `w` is listed, put on the stack and given the predecessor `p` -/
def Dfs.visit (s : Dfs) (p w : Nat) : Dfs where
  node_list := s.node_list.set s.i_nl_end w
  predecessors := s.predecessors.set w (some p)
  root_list := s.root_list.set (s.i_root + 1).toNat w
  flag := s.flag.set w true
  i_root := s.i_root + 1
  i_nl_end := s.i_nl_end + 1

/-- what looking for an unvisited neighbour of `p` does -/
def Child (p : Nat) (L : List Nat) (s : Dfs) (r : Dfs × Bool) : Prop :=
  ((∀ w ∈ L, s.flag[w]? = some true) ∧ r = (s, true)) ∨
  ∃ pre w suf, L = pre ++ w :: suf ∧ (∀ x ∈ pre, s.flag[x]? = some true) ∧ s.flag[w]? = some false ∧
    r = (s.visit p w, false)

theorem dfs_child_ok {p j : List Int} {n : Nat} {G : Nat → List Nat} {o : Nat → Nat} (hg : GRep p j n G o)
    {v : Nat} (hv : v < n) {s : Dfs} (h1 : s.node_list.length = n) (h2 : s.predecessors.length = n)
    (h3 : s.root_list.length = n) (h4 : s.flag.length = n)
    (hroom : ∀ w : Nat, s.flag[w]? = some false → (s.i_root + 1).toNat < n ∧ s.i_nl_end < n) :
    Ok (dfs_child v j p s) (Child v (G v) s) := by
  unfold dfs_child
  wp
  rds [hg.start v hv, hg.stop v hv]
  refine hg.forG' hv (P := fun pre st => (∀ x ∈ pre, s.flag[x]? = some true) ∧ st = (s, true))
    (R := fun st => Child v (G v) s st) ⟨by simp, rfl⟩ ?_ ?_ ?_
  · rintro pre w suf st hE hw ⟨hpre, rfl⟩ hj
    wp
    rds [hj]
    obtain ⟨b, hb⟩ : ∃ b, s.flag[w]? = some b := ⟨s.flag[w], by simp⟩
    rds [hb]
    rw [Ok_ite]
    refine ⟨fun hbt => ?_, fun hbt => ?_⟩
    · wp
      refine ⟨?_, trivial⟩
      intro x hx
      rcases List.mem_append.1 hx with hx | hx
      · exact hpre x hx
      · rw [List.mem_singleton.1 hx, hb, hbt]
    · have hbf : b = false := by simpa using hbt
      subst hbf
      have := hroom w hb
      wp
      refine ⟨by omega, by omega, by omega, by omega, ?_⟩
      exact .inr ⟨pre, w, suf, hE, hpre, hb, rfl⟩
  · rintro st hst
    exact hst
  · rintro st ⟨hall, rfl⟩
    exact .inl ⟨hall, rfl⟩

section
variable {G : Nat → List Nat}

theorem Search.mono {p : Nat} {l : List Nat} {V W : List (Nat × Option Nat)} (h : Search G p l V W) : ∃ r, W = V ++ r := by
  induction h with
  | done => exact ⟨[], by simp⟩
  | skip _ _ ih => exact ih
  | visit _ _ _ ih1 ih2 =>
    obtain ⟨r1, rfl⟩ := ih1
    obtain ⟨r2, rfl⟩ := ih2
    exact ⟨_, by rw [List.append_assoc, List.append_assoc]⟩

theorem Search.mem {p : Nat} {l : List Nat} {V W : List (Nat × Option Nat)} (h : Search G p l V W) {x : Nat}
    (hx : x ∈ V.map (·.1)) : x ∈ W.map (·.1) := by
  obtain ⟨r, rfl⟩ := h.mono
  rw [List.map_append, List.mem_append]
  exact .inl hx

/-- visited neighbours are skipped -/
theorem Search.skips {p : Nat} {pre l : List Nat} {V W : List (Nat × Option Nat)} (hp : ∀ x ∈ pre, x ∈ V.map (·.1)) :
    Search G p (pre ++ l) V W ↔ Search G p l V W := by
  induction pre with
  | nil => rfl
  | cons x pre ih =>
    rw [← ih fun y hy => hp y (List.mem_cons_of_mem _ hy)]
    constructor
    · intro h
      cases h with
      | skip _ h => exact h
      | visit hn _ _ => exact absurd (hp x (by simp)) hn
    · exact fun h => .skip (hp x (by simp)) h

/-- what remains to be done: the neighbours of the nodes on the stack (top first) -/
def Remains (G : Nat → List Nat) : List Nat → List (Nat × Option Nat) → List (Nat × Option Nat) → Prop
  | [], V, W => V = W
  | p :: st, V, W => ∃ U, Search G p (G p) V U ∧ Remains G st U W

theorem Remains.all {st : List Nat} {V : List (Nat × Option Nat)} (h : ∀ p ∈ st, ∀ w ∈ G p, w ∈ V.map (·.1)) : Remains G st V V := by
  induction st with
  | nil => rfl
  | cons p st ih =>
    refine ⟨V, ?_, ih fun q hq => h q (List.mem_cons_of_mem _ hq)⟩
    have := (Search.skips (G := G) (p := p) (pre := G p) (l := []) (V := V) (W := V) (h p (by simp))).2 (.done p V)
    rwa [List.append_nil] at this

theorem Remains.pop {p : Nat} {st : List Nat} {V W : List (Nat × Option Nat)} (hp : ∀ w ∈ G p, w ∈ V.map (·.1))
    (h : Remains G st V W) : Remains G (p :: st) V W :=
  ⟨V, by
    have := (Search.skips (G := G) (p := p) (pre := G p) (l := []) (V := V) (W := V) hp).2 (.done p V)
    rwa [List.append_nil] at this, h⟩

theorem Remains.push {p w : Nat} {st pre suf : List Nat} {V W : List (Nat × Option Nat)} (hG : G p = pre ++ w :: suf)
    (hpre : ∀ x ∈ pre, x ∈ V.map (·.1)) (hw : w ∉ V.map (·.1)) (h : Remains G (w :: p :: st) (V ++ [(w, some p)]) W) :
    Remains G (p :: st) V W := by
  obtain ⟨U, h1, U', h2, h3⟩ := h
  refine ⟨U', ?_, h3⟩
  rw [hG, Search.skips hpre]
  refine .visit hw h1 ?_
  rw [hG, show pre ++ w :: suf = (pre ++ [w]) ++ suf by simp, Search.skips] at h2
  · exact h2
  · intro x hx
    refine h1.mem ?_
    rw [List.map_append, List.mem_append]
    rcases List.mem_append.1 hx with hx | hx
    · exact .inl (hpre x hx)
    · exact .inr (by simpa using hx)

end

/-- The state of the search: `K` are the listed nodes, `St` the stack (bottom first). -/
structure DfsInv (n start : Nat) (G : Nat → List Nat) (s : Dfs) (K St : List Nat) : Prop where
  len1 : s.node_list.length = n
  len2 : s.predecessors.length = n
  len3 : s.root_list.length = n
  len4 : s.flag.length = n
  nodes : K <+: s.node_list
  nl : s.i_nl_end = K.length
  roots : St <+: s.root_list
  root : s.i_root = (St.length : Int) - 1
  flag : ∀ w, w < n → s.flag[w]? = some (decide (w ∈ K))
  nodup : K.Nodup
  lt : ∀ w ∈ K, w < n
  head : K[0]? = some start
  sub : St.Sublist K
  closed : ∀ u ∈ K, u ∉ St → ∀ w ∈ G u, w ∈ K
  reach : ∀ u ∈ K, Relation.ReflTransGen (fun u w => w ∈ G u) start u
  preds : ∀ k v, K[k]? = some v → 1 ≤ k → ∃ i u, i < k ∧ K[i]? = some u ∧ s.predecessors[v]? = some (some u) ∧
    (∃ pre suf, G u = pre ++ v :: suf ∧ ∀ x ∈ pre, x ∈ K.take k) ∧
    ∀ m x, i < m → m < k → K[m]? = some x → ∀ w ∈ G x, w ∈ K.take k
  none : ∀ w, w < n → w ∉ K ∨ w = start → s.predecessors[w]? = some none
  run : ∃ V : List (Nat × Option Nat), V.map (·.1) = K ∧ (∀ x ∈ V, s.predecessors[x.1]? = some x.2) ∧
    ∀ W, Remains G St.reverse V W → Search G start (G start) [(start, Option.none)] W

theorem prefix_set_next {α : Type} {K l : List α} (h : K <+: l) (hl : K.length < l.length) (w : α) :
    K ++ [w] <+: l.set K.length w := by
  obtain ⟨r, rfl⟩ := h
  cases r with
  | nil => simp at hl
  | cons x r => exact ⟨r, by simp⟩

theorem DfsInv.push {n start : Nat} {G : Nat → List Nat} {s : Dfs} {K S0 : List Nat} {p : Nat}
    (h : DfsInv n start G s K (S0 ++ [p])) {pre suf : List Nat}
    {w : Nat} (hG : G p = pre ++ w :: suf) (hw : w < n)
    (hpre : ∀ x ∈ pre, s.flag[x]? = some true) (hf : s.flag[w]? = some false) (hpn : ∀ x ∈ pre, x < n) :
    DfsInv n start G (s.visit p w) (K ++ [w]) (S0 ++ [p] ++ [w]) ∧ (K ++ [w]).length ≤ n := by
  have hwK : w ∉ K := by
    have := h.flag w hw
    rw [hf] at this
    simpa using this
  have hpreK : ∀ x ∈ pre, x ∈ K := by
    intro x hx
    have := h.flag x (hpn x hx)
    rw [hpre x hx] at this
    simpa using this
  have hnd : (K ++ [w]).Nodup := by
    rw [List.nodup_append]
    exact ⟨h.nodup, by simp, fun a ha b hb hab => hwK (by simp at hb; subst hb; subst hab; exact ha)⟩
  have hlt : ∀ x ∈ K ++ [w], x < n := by
    intro x hx
    rcases List.mem_append.1 hx with hx | hx
    · exact h.lt x hx
    · rw [List.mem_singleton.1 hx]; exact hw
  have hKn := nodup_lt_length hnd hlt
  have hKn' : K.length < n := by simp at hKn; omega
  have hSt : (S0 ++ [p]).length ≤ K.length := h.sub.length_le
  have hroot : (s.i_root + 1).toNat = (S0 ++ [p]).length := by rw [h.root]; omega
  have hpK : p ∈ K := h.sub.subset (by simp)
  have hstart : start ∈ K := List.mem_of_getElem? h.head
  refine ⟨⟨by simpa [Dfs.visit] using h.len1, by simpa [Dfs.visit] using h.len2, by simpa [Dfs.visit] using h.len3, by simpa [Dfs.visit] using h.len4, ?_, ?_, ?_, ?_, ?_, hnd, hlt,
    ?_, ?_, ?_, ?_, ?_, ?_, ?_⟩, hKn⟩
  · show K ++ [w] <+: s.node_list.set s.i_nl_end w
    rw [h.nl]; exact prefix_set_next h.nodes (by rw [h.len1]; exact hKn') w
  · show s.i_nl_end + 1 = _
    rw [h.nl]; simp
  · show _ <+: s.root_list.set (s.i_root + 1).toNat w
    rw [hroot]; exact prefix_set_next h.roots (by rw [h.len3]; omega) w
  · show s.i_root + 1 = _
    rw [h.root, List.length_append (bs := [w])]; simp
  · intro x hx
    show (s.flag.set w true)[x]? = _
    by_cases hxw : x = w
    · subst hxw
      rw [List.getElem?_set_self (by rw [h.len4]; exact hx)]; simp
    · rw [List.getElem?_set_ne (Ne.symm hxw), h.flag x hx]
      simp [hxw]
  · rw [List.getElem?_append_left (lt_of_getElem?_some h.head)]; exact h.head
  · exact h.sub.append (List.Sublist.refl _)
  · intro u hu hus x hx
    have hu1 : u ≠ w := fun hc => hus (by simp [hc])
    have hu2 : u ∈ K := by simpa [hu1] using hu
    have := h.closed u hu2 (fun hc => hus (by simp at hc ⊢; tauto)) x hx
    simp [this]
  · intro u hu
    rcases List.mem_append.1 hu with hu | hu
    · exact h.reach u hu
    · rw [List.mem_singleton.1 hu]
      exact (h.reach p hpK).tail (by rw [hG]; simp)
  · intro k v hk h1
    show ∃ i u, _ ∧ _ ∧ (s.predecessors.set w (some p))[v]? = _ ∧ _
    rcases Nat.lt_or_ge k K.length with hlt' | hge
    · rw [List.getElem?_append_left hlt'] at hk
      have hvK := List.mem_of_getElem? hk
      have hvw : w ≠ v := fun hc => hwK (hc ▸ hvK)
      obtain ⟨i, u, q1, q2, q3, q4, q5⟩ := h.preds k v hk h1
      have htk : (K ++ [w]).take k = K.take k := by rw [List.take_append_of_le_length (by omega)]
      rw [htk, List.getElem?_set_ne hvw]
      refine ⟨i, u, q1, ?_, q3, q4, ?_⟩
      · rw [List.getElem?_append_left (by omega)]; exact q2
      · intro m x h2 h3 h4
        rw [List.getElem?_append_left (by omega)] at h4
        exact q5 m x h2 h3 h4
    · have hkl := lt_of_getElem?_some hk
      have hkK : k = K.length := by simp at hkl; omega
      subst hkK
      have hvw : w = v := by simpa using hk
      subst hvw
      have htk : (K ++ [w]).take K.length = K := by simp
      rw [htk, List.getElem?_set_self (by rw [h.len2]; exact hw)]
      -- the position of the top of the stack
      obtain ⟨K1, K2, rfl, hs1, hs2⟩ := List.append_sublist_iff.1 h.sub
      have hpK2 : p ∈ K2 := hs2.subset (by simp)
      obtain ⟨A, B, rfl⟩ := List.append_of_mem hpK2
      have hndK := h.nodup
      have hnd' : ((K1 ++ A) ++ p :: B).Nodup := by simpa using hndK
      refine ⟨(K1 ++ A).length, p, by simp, ?_, rfl, ⟨pre, suf, hG, hpreK⟩, ?_⟩
      · rw [List.getElem?_append_left (by simp)]
        rw [show K1 ++ (A ++ p :: B) = (K1 ++ A) ++ p :: B by simp, List.getElem?_append_right (by omega)]
        simp
      · intro m x hm1 hm2 hx
        rw [List.getElem?_append_left (by omega)] at hx
        rw [show K1 ++ (A ++ p :: B) = (K1 ++ A ++ [p]) ++ B by simp,
          List.getElem?_append_right (by simp only [List.length_append, List.length_singleton] at hm1 ⊢; omega)] at hx
        have hxB := List.mem_of_getElem? hx
        intro y hy
        refine h.closed x (by simp [hxB]) ?_ y hy
        intro hc
        rw [List.nodup_append] at hnd'
        rcases List.mem_append.1 hc with hc | hc
        · exact hnd'.2.2 x (by simp [hs1.subset hc]) x (by simp [hxB]) rfl
        · rw [List.mem_singleton.1 hc] at hxB
          exact (List.nodup_cons.1 hnd'.2.1).1 hxB
  · intro x hx hxK
    show (s.predecessors.set w (some p))[x]? = _
    have hxw : w ≠ x := by
      rintro rfl
      rcases hxK with hc | hc
      · exact hc (by simp)
      · exact hwK (hc ▸ hstart)
    rw [List.getElem?_set_ne hxw]
    refine h.none x hx ?_
    rcases hxK with hc | hc
    · exact .inl fun h' => hc (by simp [h'])
    · exact .inr hc
  · obtain ⟨V, v1, v2, v3⟩ := h.run
    refine ⟨V ++ [(w, some p)], by simp [v1], fun x hx => ?_, fun W hW => v3 W ?_⟩
    · show (s.predecessors.set w (some p))[x.1]? = _
      rcases List.mem_append.1 hx with hx | hx
      · have hxK : x.1 ∈ K := by rw [← v1]; exact List.mem_map_of_mem hx
        have hne : w ≠ x.1 := fun hc => hwK (by rw [hc]; exact hxK)
        rw [List.getElem?_set_ne hne]
        exact v2 x hx
      · rw [List.mem_singleton.1 hx, List.getElem?_set_self (by rw [h.len2]; exact hw)]
    · simp only [List.reverse_append, List.reverse_cons, List.reverse_nil, List.nil_append, List.cons_append] at hW ⊢
      exact Remains.push hG (by rw [v1]; exact hpreK) (by rw [v1]; exact hwK) hW

theorem DfsInv.pop {n start : Nat} {G : Nat → List Nat} {s : Dfs} {K S0 : List Nat} {p : Nat}
    (h : DfsInv n start G s K (S0 ++ [p])) (hp : ∀ w ∈ G p, w ∈ K) :
    DfsInv n start G { s with i_root := s.i_root - 1 } K S0 := by
  refine ⟨h.len1, h.len2, h.len3, h.len4, h.nodes, h.nl, ?_, ?_, h.flag, h.nodup, h.lt, h.head, ?_, ?_, h.reach,
    h.preds, h.none, ?_⟩
  rotate_left 4
  · obtain ⟨V, v1, v2, v3⟩ := h.run
    refine ⟨V, v1, v2, fun W hW => v3 W ?_⟩
    rw [List.reverse_append]
    exact Remains.pop (by rw [v1]; exact hp) hW
  · exact List.IsPrefix.trans (List.prefix_append _ _) h.roots
  · show s.i_root - 1 = _
    rw [h.root]; simp
  · exact (List.sublist_append_left _ _).trans h.sub
  · intro u hu hus w hw
    by_cases hup : u = p
    · subst hup; exact hp w hw
    · exact h.closed u hu (by simp [hus, hup]) w hw

/-- the outcome of the search -/
structure DfsOut (n start : Nat) (G : Nat → List Nat) (s : Dfs) (K : List Nat) : Prop where
  nodes : K <+: s.node_list
  nl : s.i_nl_end = K.length
  len : s.predecessors.length = n
  nodup : K.Nodup
  head : K[0]? = some start
  mem : ∀ v, v ∈ K ↔ Relation.ReflTransGen (fun u w => w ∈ G u) start v
  lt : ∀ w ∈ K, w < n
  preds : ∀ k v, K[k]? = some v → 1 ≤ k → ∃ i u, i < k ∧ K[i]? = some u ∧ s.predecessors[v]? = some (some u) ∧
    (∃ pre suf, G u = pre ++ v :: suf ∧ ∀ x ∈ pre, x ∈ K.take k) ∧
    ∀ m x, i < m → m < k → K[m]? = some x → ∀ w ∈ G x, w ∈ K.take k
  none : ∀ w, w < n → w ∉ K ∨ w = start → s.predecessors[w]? = some none
  run : ∃ V : List (Nat × Option Nat), V.map (·.1) = K ∧ (∀ x ∈ V, s.predecessors[x.1]? = some x.2) ∧
    Search G start (G start) [(start, Option.none)] V

theorem DfsInv.out {n start : Nat} {G : Nat → List Nat} {s : Dfs} {K St : List Nat} (h : DfsInv n start G s K St)
    (hG : ∀ u w, u < n → w ∈ G u → w < n) (hd : St = [] ∨ K.length = n) : DfsOut n start G s K := by
  have hcl : ∀ u ∈ K, ∀ w ∈ G u, w ∈ K := by
    intro u hu w hw
    rcases hd with rfl | hd
    · exact h.closed u hu (by simp) w hw
    · by_contra hc
      have := nodup_lt_length (C := w :: K) (n := n) (List.nodup_cons.2 ⟨hc, h.nodup⟩) (fun x hx => by
        rcases List.mem_cons.1 hx with rfl | hx
        · exact hG u x (h.lt u hu) hw
        · exact h.lt x hx)
      simp at this; omega
  refine ⟨h.nodes, h.nl, h.len2, h.nodup, h.head, fun v => ⟨h.reach v, fun hr => ?_⟩, h.lt, h.preds, h.none, ?_⟩
  rotate_left
  · obtain ⟨V, v1, v2, v3⟩ := h.run
    refine ⟨V, v1, v2, v3 V (Remains.all fun p hp w hw => ?_)⟩
    rw [v1]
    exact hcl p (h.sub.subset (by simpa using hp)) w hw
  induction hr with
  | refl => exact List.mem_of_getElem? h.head
  | tail _ hw ih => exact hcl _ ih _ hw

theorem dfs_init_ok {n start : Nat} (hs : start < n) (G : Nat → List Nat) :
    Ok (dfs_init start (List.replicate n 0) (List.replicate n none)) fun s => DfsInv n start G s [start] [start] := by
  have hn : 0 < n := by omega
  obtain ⟨m, rfl⟩ : ∃ m, n = m + 1 := ⟨n - 1, by omega⟩
  unfold dfs_init
  wp
  refine ⟨by simp, by simp, by simpa using hs, ?_⟩
  refine ⟨by simp, by simp, by simp, by simp, ?_, rfl, ?_, rfl, ?_, by simp, by simpa using hs, rfl, by simp, ?_, ?_, ?_, ?_, ?_⟩
  · exact ⟨List.replicate m 0, by simp [List.replicate_succ]⟩
  · exact ⟨List.replicate m 0, by simp [List.replicate_succ]⟩
  · intro w hw
    show ((List.replicate _ false).set start true)[w]? = _
    by_cases h : w = start
    · subst h
      rw [List.getElem?_set_self (by simpa using hs)]; simp
    · rw [List.getElem?_set_ne (Ne.symm h)]
      simp [h, hw]
  · intro u hu hus
    exact absurd hu hus
  · intro u hu
    rw [List.mem_singleton.1 hu]
  · intro k v hk h1
    have := lt_of_getElem?_some hk
    simp at this; omega
  · intro w hw _
    simp [hw]
  · refine ⟨[(start, none)], rfl, fun x hx => ?_, fun W hW => ?_⟩
    · rw [List.mem_singleton.1 hx]
      simp [hs]
    · obtain ⟨U, h1, rfl⟩ := hW
      exact h1

/-- the step shared by both searches, after the neighbours of the top of the stack have been looked at -/
theorem DfsInv.next {n start : Nat} {G : Nat → List Nat} {s : Dfs} {K S0 : List Nat} {p : Nat}
    (h : DfsInv n start G s K (S0 ++ [p])) (hG : ∀ u w, u < n → w ∈ G u → w < n) {s' : Dfs} {nc : Bool}
    (hc : Child p (G p) s (s', nc)) :
    Ok (if s'.i_nl_end = n then pure (ForInStep.done s')
      else if nc = true then pure (ForInStep.yield { s' with i_root := s'.i_root - 1 })
      else pure (ForInStep.yield s') : M (ForInStep Dfs)) fun st =>
      match st with
      | .yield s2 => ∃ k, k < 2 * (n - K.length) + (S0 ++ [p]).length ∧ ∃ K' St', DfsInv n start G s2 K' St' ∧
          k = 2 * (n - K'.length) + St'.length
      | .done s2 => ∃ K', DfsOut n start G s2 K' := by
  have hpn : p < n := h.lt p (h.sub.subset (by simp))
  rcases hc with ⟨hall, heq⟩ | ⟨pre, w, suf, hE, hpre, hf, heq⟩
  · cases heq
    have hp : ∀ w ∈ G p, w ∈ K := fun w hw => by
      have := h.flag w (hG p w hpn hw)
      rw [hall w hw] at this
      simpa using this
    rw [Ok_ite]
    refine ⟨fun he => ?_, fun he => ?_⟩
    · wp
      exact ⟨K, h.out hG (.inr (by rw [← h.nl]; exact he))⟩
    · rw [if_pos rfl, Ok_pure]
      exact ⟨2 * (n - K.length) + S0.length, by simp, K, S0, h.pop hp, rfl⟩
  · have hwn : w < n := hG p w hpn (by rw [hE]; simp)
    have hpr : ∀ x ∈ pre, x < n := fun x hx => hG p x hpn (by rw [hE]; simp [hx])
    obtain ⟨h', hle⟩ := h.push hE hwn hpre hf hpr
    cases heq
    rw [Ok_ite]
    refine ⟨fun he => ?_, fun he => ?_⟩
    · wp
      exact ⟨_, h'.out hG (.inr (by rw [← h'.nl]; exact he))⟩
    · rw [if_neg (by simp), Ok_pure]
      refine ⟨_, ?_, _, _, h', rfl⟩
      simp only [List.length_append, List.length_singleton] at hle ⊢
      omega

theorem DfsInv.room {n start : Nat} {G : Nat → List Nat} {s : Dfs} {K St : List Nat}
    (h : DfsInv n start G s K St) (w : Nat) (hf : s.flag[w]? = some false) :
    (s.i_root + 1).toNat < n ∧ s.i_nl_end < n := by
  have hwn : w < n := by have := lt_of_getElem?_some hf; have := h.len4; omega
  have hwK : w ∉ K := by
    have := h.flag w hwn
    rw [hf] at this
    simpa using this
  have := nodup_lt_length (C := w :: K) (n := n) (List.nodup_cons.2 ⟨hwK, h.nodup⟩) (fun x hx => by
        rcases List.mem_cons.1 hx with rfl | hx
        · exact hwn
        · exact h.lt x hx)
  have h2 := h.sub.length_le
  rw [h.root, h.nl]
  simp at this
  omega

theorem DfsInv.top {n start : Nat} {G : Nat → List Nat} {s : Dfs} {K St : List Nat}
    (h : DfsInv n start G s K St) (hr : ¬ s.i_root < 0) : ∃ S0 p, St = S0 ++ [p] ∧ s.root_list[s.i_root.toNat]? = some p := by
  have h1 := h.root
  rcases List.eq_nil_or_concat St with rfl | ⟨S0, p, rfl⟩
  · simp at h1; omega
  · simp only [List.concat_eq_append] at *
    refine ⟨S0, p, rfl, ?_⟩
    obtain ⟨r, hr⟩ := h.roots
    have : s.i_root.toNat = S0.length := by simp at h1; omega
    rw [this, ← hr]
    simp

theorem dfs_directed_ok {p j : List Int} {n : Nat} {G : Nat → List Nat} {o : Nat → Nat} (hg : GRep p j n G o)
    {start : Nat} (hs : start < n) {fuel : Nat} (hf : 2 * n ≤ fuel) :
    Ok (depth_first_directed fuel start j p (List.replicate n 0) (List.replicate n none)) fun r =>
      ∃ s K, DfsOut n start G s K ∧ r = (s.node_list, s.predecessors, s.i_nl_end) := by
  unfold depth_first_directed
  rw [Ok_bind]
  refine (dfs_init_ok hs G).mono ?_
  intro s0 hs0
  wp
  refine Ok_whileN (fun k s => ∃ K St, DfsInv n start G s K St ∧ k = 2 * (n - K.length) + St.length)
    (k := 2 * (n - 1) + 1) (by omega) ⟨_, _, hs0, by simp⟩ ?_
  rintro k s ⟨K, St, hi, rfl⟩
  rw [Ok_ite]
  refine ⟨fun hr => ?_, fun hr => ?_⟩
  · wp
    refine ⟨_, _, hi.out hg.lt (.inl ?_), rfl⟩
    have := hi.root
    rw [← List.length_eq_zero_iff]; omega
  · obtain ⟨S0, p, rfl, htop⟩ := hi.top hr
    wp
    rds [htop]
    have hpn : p < n := hi.lt p (hi.sub.subset (by simp))
    refine (dfs_child_ok hg hpn hi.len1 hi.len2 hi.len3 hi.len4 hi.room).mono ?_
    rintro ⟨s', nc⟩ hc
    simp only [List.length_replicate]
    refine (hi.next hg.lt hc).mono ?_
    rintro (s2 | s2) h
    · obtain ⟨K', hK⟩ := h
      exact ⟨_, _, hK, rfl⟩
    · exact h

theorem dfs_undirected_ok {p1 j1 p2 j2 : List Int} {n : Nat} {G1 G2 : Nat → List Nat} {o1 o2 : Nat → Nat}
    (hg1 : GRep p1 j1 n G1 o1) (hg2 : GRep p2 j2 n G2 o2)
    {start : Nat} (hs : start < n) {fuel : Nat} (hf : 2 * n ≤ fuel) :
    Ok (depth_first_undirected fuel start j1 p1 j2 p2 (List.replicate n 0) (List.replicate n none)) fun r =>
      ∃ s K, DfsOut n start (fun u => G1 u ++ G2 u) s K ∧ r = (s.node_list, s.predecessors, s.i_nl_end) := by
  have hlt : ∀ u w, u < n → w ∈ G1 u ++ G2 u → w < n := by
    intro u w hu hw
    rcases List.mem_append.1 hw with hw | hw
    · exact hg1.lt u w hu hw
    · exact hg2.lt u w hu hw
  unfold depth_first_undirected
  rw [Ok_bind]
  refine (dfs_init_ok hs (fun u => G1 u ++ G2 u)).mono ?_
  intro s0 hs0
  wp
  refine Ok_whileN (fun k s => ∃ K St, DfsInv n start (fun u => G1 u ++ G2 u) s K St ∧ k = 2 * (n - K.length) + St.length)
    (k := 2 * (n - 1) + 1) (by omega) ⟨_, _, hs0, by simp⟩ ?_
  rintro k s ⟨K, St, hi, rfl⟩
  rw [Ok_ite]
  refine ⟨fun hr => ?_, fun hr => ?_⟩
  · wp
    refine ⟨_, _, hi.out hlt (.inl ?_), rfl⟩
    have := hi.root
    rw [← List.length_eq_zero_iff]; omega
  · obtain ⟨S0, p, rfl, htop⟩ := hi.top hr
    wp
    rds [htop]
    have hpn : p < n := hi.lt p (hi.sub.subset (by simp))
    have fin : ∀ s' nc, Child p (G1 p ++ G2 p) s (s', nc) →
        Ok (if s'.i_nl_end = n then pure (ForInStep.done s')
          else if nc = true then pure (ForInStep.yield { s' with i_root := s'.i_root - 1 })
          else pure (ForInStep.yield s') : M (ForInStep Dfs)) fun st =>
          match st with
          | .yield s' => ∃ k', k' < 2 * (n - K.length) + (S0 ++ [p]).length ∧ ∃ K St,
              DfsInv n start (fun u => G1 u ++ G2 u) s' K St ∧ k' = 2 * (n - K.length) + St.length
          | .done a => ∃ s K, DfsOut n start (fun u => G1 u ++ G2 u) s K ∧
              (a.node_list, a.predecessors, a.i_nl_end) = (s.node_list, s.predecessors, s.i_nl_end) := by
      intro s' nc hc
      refine (hi.next (s' := s') (nc := nc) hlt hc).mono ?_
      rintro (s2 | s2) h
      · obtain ⟨K', hK⟩ := h
        exact ⟨_, _, hK, rfl⟩
      · exact h
    refine (dfs_child_ok hg1 hpn hi.len1 hi.len2 hi.len3 hi.len4 hi.room).mono ?_
    rintro ⟨s', nc⟩ hc
    simp only [List.length_replicate]
    rcases hc with ⟨hall, heq⟩ | ⟨pre, w, suf, hE, hpre, hfl, heq⟩
    · cases heq
      simp only [if_true]
      wp
      refine (dfs_child_ok hg2 hpn hi.len1 hi.len2 hi.len3 hi.len4 hi.room).mono ?_
      rintro ⟨s', nc⟩ hc
      refine (fin s' nc ?_).mono (by rintro (s2 | s2) h <;> exact h)
      rcases hc with ⟨hall2, heq⟩ | ⟨pre, w, suf, hE, hpre, hfl, heq⟩
      · refine .inl ⟨fun w hw => ?_, heq⟩
        rcases List.mem_append.1 hw with hw | hw
        · exact hall w hw
        · exact hall2 w hw
      · refine .inr ⟨G1 p ++ pre, w, suf, by rw [hE]; simp, fun x hx => ?_, hfl, heq⟩
        rcases List.mem_append.1 hx with hx | hx
        · exact hall x hx
        · exact hpre x hx
    · cases heq
      simp only [Bool.false_eq_true, if_false]
      exact (fin _ _ (.inr ⟨pre, w, suf ++ G2 p, by rw [hE]; simp, hpre, hfl, rfl⟩)).mono (by rintro (s2 | s2) h <;> exact h)

end Sparse

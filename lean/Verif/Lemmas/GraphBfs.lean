import Verif.Lemmas.Graph
/-!
`cs_graph_components`: breadth-first search from one seed after the other.
-/
namespace Sparse

theorem getElem?_set' {α : Type} {l : List α} {i : Nat} {a : α} (hi : i < l.length) (u : Nat) :
    (l.set i a)[u]? = if u = i then some a else l[u]? := by
  by_cases h : u = i
  · subst h; rw [List.getElem?_set_self hi, if_pos rfl]
  · rw [List.getElem?_set_ne (Ne.symm h), if_neg h]

/-- The state of the search for the component `c` of `r`: `Q` are its nodes found so far. -/
structure CsgIn (G : Nat → List Nat) (n : Nat) (flag0 : List Int) (c r : Nat) (flag pos : List Int) (Q : List Nat) : Prop where
  len1 : flag.length = n
  len2 : pos.length = n
  pos : ∀ (k u : Nat), Q[k]? = some u → pos[k]? = some ((u : Nat) : Int)
  nodup : Q.Nodup
  void : ∀ u ∈ Q, flag0[u]? = some (-1)
  conn : ∀ u ∈ Q, Relation.ReflTransGen (fun u w => w ∈ G u ∧ flag0[w]? = some (-1)) r u
  lab : ∀ u ∈ Q, flag[u]? = some ((c : Nat) : Int)
  keep : ∀ u, u ∉ Q → flag[u]? = flag0[u]?
  root : r ∈ Q

theorem CsgIn.card {G : Nat → List Nat} {n : Nat} {flag0 : List Int} {c r : Nat} {flag pos : List Int} {Q : List Nat}
    (h : CsgIn G n flag0 c r flag pos Q) : Q.length ≤ n :=
  nodup_lt_length h.nodup fun u hu => by have := lt_of_getElem?_some (h.lab u hu); have := h.len1; omega

theorem CsgIn.room {G : Nat → List Nat} {n : Nat} {flag0 : List Int} {c r : Nat} {flag pos : List Int} {Q : List Nat}
    (h : CsgIn G n flag0 c r flag pos Q) {w : Nat} (hw : w ∉ Q) (hn : w < n) : Q.length < n := by
  have := nodup_lt_length (C := w :: Q) (n := n) (List.nodup_cons.2 ⟨hw, h.nodup⟩) fun u hu => by
    rcases List.mem_cons.1 hu with rfl | hu
    · exact hn
    · have := lt_of_getElem?_some (h.lab u hu); have := h.len1; omega
  simp at this; omega

theorem CsgIn.add {G : Nat → List Nat} {n : Nat} {flag0 : List Int} {c r : Nat} {flag pos : List Int} {Q : List Nat}
    (h : CsgIn G n flag0 c r flag pos Q) {u w : Nat} (hu : u ∈ Q) (hw : w ∈ G u) (hf : flag[w]? = some (-1)) :
    w ∉ Q ∧ CsgIn G n flag0 c r (flag.set w ((c : Nat) : Int)) (pos.set Q.length ((w : Nat) : Int)) (Q ++ [w]) := by
  have hwQ : w ∉ Q := by
    intro hc
    rw [h.lab w hc] at hf
    simp at hf <;> omega
  have hwn : w < n := by have := lt_of_getElem?_some hf; have := h.len1; omega
  have hroom := h.room hwQ hwn
  have hg := fun u => getElem?_set' (l := flag) (i := w) (a := ((c : Nat) : Int)) (by have := h.len1; omega) u
  refine ⟨hwQ, ⟨by simpa using h.len1, by simpa using h.len2, ?_, ?_, ?_, ?_, ?_, ?_, ?_⟩⟩
  · intro k x hk
    rw [getElem?_set' (by have := h.len2; omega)]
    by_cases hkl : k = Q.length
    · subst hkl
      simp at hk
      simp [hk]
    · have hlt : k < Q.length := by have := lt_of_getElem?_some hk; simp at this; omega
      rw [List.getElem?_append_left hlt] at hk
      rw [if_neg hkl]; exact h.pos k x hk
  · rw [List.nodup_append]
    exact ⟨h.nodup, by simp, fun a ha b hb hab => hwQ (by simp at hb; subst hb; subst hab; exact ha)⟩
  · intro x hx
    rcases List.mem_append.1 hx with hx | hx
    · exact h.void x hx
    · rw [List.mem_singleton.1 hx, ← h.keep w hwQ]; exact hf
  · intro x hx
    rcases List.mem_append.1 hx with hx | hx
    · exact h.conn x hx
    · rw [List.mem_singleton.1 hx]
      exact (h.conn u hu).tail ⟨hw, by rw [← h.keep w hwQ]; exact hf⟩
  · intro x hx
    rw [hg]
    split
    · rfl
    · next hne =>
      simp [hne] at hx
      exact h.lab x hx
  · intro x hx
    simp at hx
    rw [hg, if_neg hx.2]
    exact h.keep x hx.1
  · simp [h.root]

/-- one round of the search: the nodes at positions `a .. b` are expanded -/
theorem csg_round_ok {p j : List Int} {n : Nat} {G : Nat → List Nat} {o : Nat → Nat} (hg : GRep p j n G o)
    {ft : IntTy} (hlo : ft.lo ≤ -1) {c : Nat} (hc : (c : Int) ≤ ft.hi) {flag0 : List Int} {r : Nat}
    {flag pos : List Int} {Q : List Nat} {a : Nat} (hab : a ≤ Q.length)
    (h : CsgIn G n flag0 c r flag pos Q) :
    Ok (csg_round ft c p j a Q.length flag pos Q.length) fun s => ∃ N, CsgIn G n flag0 c r s.1 s.2.1 (Q ++ N) ∧
      s.2.2.1 = (Q ++ N).length ∧ s.2.2.2 = N.length ∧
      ∀ k u, Q[k]? = some u → a ≤ k → ∀ w ∈ G u, s.1[w]? ≠ some (-1) := by
  have h0hi : (0 : Int) ≤ ft.hi := by have := ft.hi_ge; omega
  unfold csg_round
  wp
  refine Ok_forRange (fun i s => ∃ N, CsgIn G n flag0 c r s.1 s.2.1 (Q ++ N) ∧
      s.2.2.1 = (Q ++ N).length ∧ s.2.2.2 = N.length ∧
      ∀ k u, Q[k]? = some u → a ≤ k → k < i → ∀ w ∈ G u, s.1[w]? ≠ some (-1)) hab ?_ ?_ ?_
  · exact ⟨[], by simpa using h, by simp, rfl, fun k u _ h1 h2 => by omega⟩
  · rintro i ⟨f1, p1, nn, nw⟩ hi1 hi2 ⟨N, hin, hnn, hnw, hdone⟩
    simp only at hin hnn hnw hdone
    subst hnn hnw
    obtain ⟨u, hu⟩ : ∃ u, Q[i]? = some u := ⟨Q[i], by simp⟩
    have hu' : (Q ++ N)[i]? = some u := by rw [List.getElem?_append_left hi2]; exact hu
    have huQ : u ∈ Q := List.mem_of_getElem? hu
    have hun : u < n := by have := lt_of_getElem?_some (h.lab u huQ); have := h.len1; omega
    wp
    rds [hin.pos i u hu', hg.start u hun, hg.stop u hun]
    refine hg.forG hun (P := fun pre s => ∃ N, CsgIn G n flag0 c r s.1 s.2.1 (Q ++ N) ∧
      s.2.2.1 = (Q ++ N).length ∧ s.2.2.2 = N.length ∧ (∀ w ∈ pre, s.1[w]? ≠ some (-1)) ∧
      ∀ k u, Q[k]? = some u → a ≤ k → k < i → ∀ w ∈ G u, s.1[w]? ≠ some (-1))
      ⟨N, hin, rfl, rfl, by simp, hdone⟩ ?_ ?_
    · rintro pre w suf ⟨f2, p2, nn, nw⟩ hE hw ⟨N2, hin2, hnn2, hnw2, hpre2, hdone2⟩ hj
      simp only at hin2 hnn2 hnw2 hpre2 hdone2
      subst hnn2 hnw2
      obtain ⟨x, hx⟩ : ∃ x, f2[w]? = some x := ⟨f2[w]'(by have := hin2.len1; omega), by simp⟩
      wp
      rds [hj, hx]
      refine ⟨⟨by omega, by omega⟩, ?_⟩
      rw [Ok_ite]
      refine ⟨fun hxm => ?_, fun hxm => ?_⟩
      · subst hxm
        obtain ⟨hwQ, hadd⟩ := hin2.add (u := u) (by simp [huQ]) (by rw [hE]; simp) hx
        have hroom := hin2.room hwQ hw
        have hmono : ∀ y : Nat, f2[y]? ≠ some (-1) → (f2.set w ((c : Nat) : Int))[y]? ≠ some (-1) := by
          intro y hy
          rw [getElem?_set' (by have := hin2.len1; omega)]
          split
          · simp <;> omega
          · exact hy
        wp
        rds [hj]
        refine ⟨hc, by have := hin2.len1; omega, by have := hin2.len2; omega, _, rfl, N2 ++ [w], ?_, ?_, ?_, ?_, ?_⟩
        · simpa using hadd
        · simp; omega
        · simp
        · intro y hy
          rcases List.mem_append.1 hy with hy | hy
          · exact hmono y (hpre2 y hy)
          · rw [List.mem_singleton.1 hy]
            show (f2.set w _)[w]? ≠ _
            rw [List.getElem?_set_self (by have := hin2.len1; omega)]
            simp <;> omega
        · intro k z h1 h2 h3 y hy
          exact hmono y (hdone2 k z h1 h2 h3 y hy)
      · wp
        refine ⟨_, rfl, N2, hin2, rfl, rfl, ?_, hdone2⟩
        intro y hy
        rcases List.mem_append.1 hy with hy | hy
        · exact hpre2 y hy
        · rw [List.mem_singleton.1 hy]
          show f2[w]? ≠ _
          rw [hx]; simpa using hxm
    · rintro ⟨f2, p2, nn, nw⟩ ⟨N2, hin2, hnn2, hnw2, hpre2, hdone2⟩
      wp
      refine ⟨_, rfl, N2, hin2, hnn2, hnw2, ?_⟩
      intro k z h1 h2 h3 y hy
      by_cases hki : k = i
      · subst hki
        rw [hu] at h1
        cases h1
        exact hpre2 y hy
      · exact hdone2 k z h1 h2 (by omega) y hy
  · rintro ⟨f1, p1, nn, nw⟩ ⟨N, hin, hnn, hnw, hdone⟩
    wp
    exact ⟨N, hin, hnn, hnw, fun k u h1 h2 => hdone k u h1 h2 (lt_of_getElem?_some h1)⟩

theorem csg_search_ok {p j : List Int} {n : Nat} {G : Nat → List Nat} {o : Nat → Nat} (hg : GRep p j n G o)
    {ft : IntTy} (hlo : ft.lo ≤ -1) {c : Nat} (hc : (c : Int) ≤ ft.hi) {flag0 : List Int} {r : Nat}
    {flag pos : List Int} (h : CsgIn G n flag0 c r flag pos [r]) :
    Ok (csg_search ft n c p j flag pos) fun s => ∃ Q, CsgIn G n flag0 c r s.1 s.2.1 Q ∧ s.2.2 = Q.length ∧
      ∀ u ∈ Q, ∀ w ∈ G u, s.1[w]? ≠ some (-1) := by
  unfold csg_search
  wp
  -- `flag`, `pos`, `n_pos0`, `n_pos`, `n_pos_new`
  refine Ok_forRange' (fun i s => ∃ Q, CsgIn G n flag0 c r s.1 s.2.1 Q ∧ s.2.2.1 ≤ Q.length ∧ s.2.2.2.1 = Q.length ∧
      s.2.2.2.2 = Q.length ∧ i < Q.length ∧
      ∀ k u, Q[k]? = some u → k < s.2.2.1 → ∀ w ∈ G u, s.1[w]? ≠ some (-1))
    (fun s => ∃ Q, CsgIn G n flag0 c r s.1 s.2.1 Q ∧ s.2.2.2.1 = Q.length ∧
      ∀ u ∈ Q, ∀ w ∈ G u, s.1[w]? ≠ some (-1)) (by omega) ?_ ?_ ?_ ?_
  · exact ⟨[r], h, by simp, rfl, rfl, by simp, fun k u _ h2 => by simp at h2⟩
  · rintro i ⟨f, ps, a, b, b'⟩ - hi ⟨Q, hin, ha, hb, hb', hiQ, hdone⟩
    simp only at hin ha hb hb' hdone
    subst hb hb'
    wp
    refine (csg_round_ok hg hlo hc ha hin).mono ?_
    rintro ⟨f2, p2, nn, nw⟩ ⟨N, hin2, h1, h2, h3⟩
    simp only at hin2 h1 h2 h3
    subst h1 h2
    -- a flag other than -1 stays
    have hkeep : ∀ y : Nat, f[y]? ≠ some (-1) → f2[y]? ≠ some (-1) := by
      intro y hy
      by_cases hyQ : y ∈ Q ++ N
      · rw [hin2.lab y hyQ]; simp <;> omega
      · rw [hin2.keep y hyQ, ← hin.keep y fun hc => hyQ (by simp [hc])]; exact hy
    have hall : ∀ (k u : Nat), Q[k]? = some u → ∀ w ∈ G u, f2[w]? ≠ some (-1) := by
      intro k u hk w hw
      rcases Nat.lt_or_ge k a with hka | hka
      · exact hkeep w (hdone k u hk hka w hw)
      · exact h3 k u hk hka w hw
    simp only
    rw [Ok_ite]
    refine ⟨fun hN => ?_, fun hN => ?_⟩
    · wp
      have hN0 : N = [] := List.length_eq_zero_iff.1 hN
      subst hN0
      rw [List.append_nil] at hin2
      refine ⟨Q, hin2, by simp, fun u hu w hw => ?_⟩
      obtain ⟨k, hk⟩ := List.mem_iff_getElem?.1 hu
      exact hall k u hk w hw
    · wp
      refine ⟨Q ++ N, hin2, by simp, rfl, rfl, by simp; omega, ?_⟩
      intro k u hk hkl w hw
      rw [List.getElem?_append_left hkl] at hk
      exact hall k u hk w hw
  · rintro ⟨f, ps, a, b, b'⟩ ⟨Q, hin, hb, hdone⟩
    wp
    exact ⟨Q, hin, hb, hdone⟩
  · rintro ⟨f, ps, a, b, b'⟩ ⟨Q, hin, ha, hb, hb', hiQ, hdone⟩
    have := hin.card
    omega

/-- the first node that is neither isolated nor in a component -/
theorem csg_seed_ok {n : Nat} {ft : IntTy} (hlo : ft.lo ≤ -2) {flag : List Int} (hl : flag.length = n)
    (hv : ∀ (u : Nat) (x : Int), flag[u]? = some x → x = -2 ∨ x = -1 ∨ 0 ≤ x)
    {u0 : Nat} (hu : flag[u0]? = some (-1)) {fuel : Nat} (hf : n < fuel) :
    Ok (csg_seed fuel n ft flag) fun r => flag[r]? = some (-1) ∧ ∀ u < r, flag[u]? ≠ some (-1) := by
  have h0hi : (0 : Int) ≤ ft.hi := by have := ft.hi_ge; omega
  unfold csg_seed
  refine Ok_whileN (fun k i => i ≤ u0 ∧ k = n - i ∧ ∀ u < i, flag[u]? ≠ some (-1)) (k := n) hf
    ⟨by omega, by omega, by simp⟩ ?_
  rintro k i ⟨h1, rfl, h2⟩
  have hu0 := lt_of_getElem?_some hu
  obtain ⟨x, hx⟩ : ∃ x, flag[i]? = some x := ⟨flag[i], by simp⟩
  rw [Ok_bind, Ok_rd]
  refine ⟨x, hx, ?_⟩
  by_cases hxm : x = -1
  · subst hxm
    simp only [show ¬ ((-1 : Int) ≥ 0) by omega, if_false]
    wp
    refine ⟨⟨by omega, by omega⟩, ?_⟩
    simp only [ne_eq, show ¬ ((-1 : Int) = -2) by omega, not_false_eq_true, decide_true, if_true]
    wp
    exact ⟨hx, h2⟩
  · have hne : i ≠ u0 := by
      rintro rfl
      rw [hu] at hx
      simp at hx; omega
    have hrest : Ok (do
        let ii := i + 1
        if ii ≥ n then throw .err
        return .yield ii : M (ForInStep Nat)) fun st =>
        match st with
        | .yield s' => ∃ k', k' < n - i ∧ s' ≤ u0 ∧ k' = n - s' ∧ ∀ u < s', flag[u]? ≠ some (-1)
        | .done r => flag[r]? = some (-1) ∧ ∀ u < r, flag[u]? ≠ some (-1) := by
      simp only [ge_iff_le, show ¬ (n ≤ i + 1) by omega, if_false]
      wp
      refine ⟨n - (i + 1), by omega, by omega, rfl, fun u hu' => ?_⟩
      by_cases h : u = i
      · subst h; rw [hx]; simpa using hxm
      · exact h2 u (by omega)
    rcases hv i x hx with rfl | rfl | h0
    · simp only [show ¬ ((-2 : Int) ≥ 0) by omega, if_false]
      wp
      refine ⟨⟨by omega, by omega⟩, ?_⟩
      simp only [ne_eq, not_true, decide_false, Bool.false_eq_true, if_false]
      exact hrest.mono (by rintro (s | s) h <;> exact h)
    · exact absurd rfl hxm
    · simp only [ge_iff_le, h0, if_true]
      wp
      simp only [Bool.false_eq_true, if_false]
      exact hrest.mono (by rintro (s | s) h <;> exact h)

/-- The state between two components: `c` components have been flagged; `D` lists their nodes. -/
structure CsgOut (G : Nat → List Nat) (n : Nat) (flag : List Int) (c : Nat) (D : List Nat) : Prop where
  len : flag.length = n
  iso : ∀ u, u < n → (flag[u]? = some (-2) ↔ G u = [])
  val : ∀ (u : Nat) (x : Int), flag[u]? = some x → x = -2 ∨ x = -1 ∨ (0 ≤ x ∧ x < c)
  closed : ∀ (u w : Nat) (x : Int), 0 ≤ x → flag[u]? = some x → w ∈ G u → G w ≠ [] → ∃ y, 0 ≤ y ∧ y ≤ x ∧ flag[w]? = some y
  conn : ∀ (u : Nat) (x : Int), 0 ≤ x → flag[u]? = some x → ∃ r : Nat, flag[r]? = some x ∧
    (∀ u' : Nat, flag[u']? = some x → r ≤ u') ∧ Relation.ReflTransGen (fun u w => w ∈ G u ∧ G w ≠ []) r u
  first : ∀ (u : Nat) (x : Int), flag[u]? = some x → ∀ m : Nat, (m : Int) < x → ∃ u', u' < u ∧ flag[u']? = some ((m : Nat) : Int)
  used : ∀ m : Nat, m < c → ∃ u' : Nat, flag[u']? = some ((m : Nat) : Int) ∧ ∀ u, u ≤ u' → flag[u]? ≠ some (-1)
  nodup : D.Nodup
  mem : ∀ u, u ∈ D ↔ ∃ x : Int, 0 ≤ x ∧ flag[u]? = some x
  count : c ≤ D.length

/-- a symmetric graph: no edge leaves a component -/
theorem CsgOut.closed_sym {G : Nat → List Nat} {n : Nat} (hsym : ∀ u w, u < n → w ∈ G u → u ∈ G w) {flag : List Int}
    {c : Nat} {D : List Nat} (h : CsgOut G n flag c D) {u w : Nat} {x : Int} (h0 : 0 ≤ x) (h1 : flag[u]? = some x)
    (h2 : w ∈ G u) : flag[w]? = some x := by
  have hun : u < n := by have := lt_of_getElem?_some h1; have := h.len; omega
  have h3 := hsym u w hun h2
  obtain ⟨y, h4, h5, h6⟩ := h.closed u w x h0 h1 h2 (List.ne_nil_of_mem h3)
  obtain ⟨z, h7, h8, h9⟩ := h.closed w u y h4 h6 h3 (List.ne_nil_of_mem h2)
  rw [h1] at h9
  have : x = z := Option.some.inj h9
  rw [h6]
  congr 1
  omega

/-- a symmetric graph: the nodes of a component are joined -/
theorem CsgOut.conn_sym {G : Nat → List Nat} {n : Nat} (hlt : ∀ u w, u < n → w ∈ G u → w < n)
    (hsym : ∀ u w, u < n → w ∈ G u → u ∈ G w) {flag : List Int} {c : Nat} {D : List Nat} (h : CsgOut G n flag c D)
    {u w : Nat} {x : Int} (h0 : 0 ≤ x) (h1 : flag[u]? = some x) (h2 : flag[w]? = some x) :
    Relation.ReflTransGen (fun u w => w ∈ G u) u w := by
  have hsymm : ∀ u w, u < n → Relation.ReflTransGen (fun u w => w ∈ G u) u w →
      w < n ∧ Relation.ReflTransGen (fun u w => w ∈ G u) w u := by
    intro u w hu h
    induction h with
    | refl => exact ⟨hu, .refl⟩
    | tail _ h ih => exact ⟨hlt _ _ ih.1 h, .head (hsym _ _ ih.1 h) ih.2⟩
  obtain ⟨r, h3, h4, h5⟩ := h.conn u x h0 h1
  obtain ⟨r', h3', h4', h5'⟩ := h.conn w x h0 h2
  have : r = r' := by have := h4 _ h3'; have := h4' _ h3; omega
  subst this
  have hrn : r < n := by have := lt_of_getElem?_some h3; have := h.len; omega
  exact (hsymm _ _ hrn (Relation.ReflTransGen.mono (fun _ _ h => h.1) _ _ h5)).2.trans
    (Relation.ReflTransGen.mono (fun _ _ h => h.1) _ _ h5')

theorem CsgOut.next {G : Nat → List Nat} {n : Nat} (hlt : ∀ u w, u < n → w ∈ G u → w < n) {flag0 : List Int} {c : Nat} {D : List Nat}
    (ho : CsgOut G n flag0 c D) {r : Nat} (hr : flag0[r]? = some (-1)) {flag pos : List Int} {Q : List Nat}
    (hi : CsgIn G n flag0 c r flag pos Q) (hd : ∀ u ∈ Q, ∀ w ∈ G u, flag[w]? ≠ some (-1))
    (hfirst : ∀ u < r, flag0[u]? ≠ some (-1)) : CsgOut G n flag (c + 1) (D ++ Q) := by
  have hQn : ∀ u ∈ Q, u < n := fun u hu => by
    have := lt_of_getElem?_some (hi.lab u hu); have := hi.len1; omega
  have hlab : ∀ (u : Nat) (x : Int), flag[u]? = some x → (u ∈ Q ∧ x = c) ∨ (u ∉ Q ∧ flag0[u]? = some x ∧ x < c) := by
    intro u x h1
    by_cases hc : u ∈ Q
    · rw [hi.lab u hc] at h1; simp at h1; exact .inl ⟨hc, h1.symm⟩
    · rw [hi.keep u hc] at h1
      refine .inr ⟨hc, h1, ?_⟩
      rcases ho.val u x h1 with rfl | rfl | h <;> omega
  have hkeepl : ∀ (u : Nat) (x : Int), x ≠ -1 → flag0[u]? = some x → flag[u]? = some x := by
    intro u x hx h1
    rw [hi.keep u fun hc => ?_]
    · exact h1
    · rw [hi.void u hc] at h1; simp at h1; omega
  have hno : ∀ u : Nat, flag0[u]? ≠ some (-1) → flag[u]? ≠ some (-1) := by
    intro u h1 h2
    rcases hlab u _ h2 with ⟨_, h3⟩ | ⟨_, h3, _⟩
    · omega
    · exact h1 h3
  refine ⟨hi.len1, ?_, ?_, ?_, ?_, ?_, ?_, ?_, ?_, ?_⟩
  · intro u hu
    rw [← ho.iso u hu]
    constructor
    · intro h
      rcases hlab u _ h with ⟨_, h3⟩ | ⟨_, h3, _⟩
      · omega
      · exact h3
    · exact hkeepl u _ (by omega)
  · intro u x hx
    rcases hlab u x hx with ⟨_, h3⟩ | ⟨_, h3, _⟩
    · refine .inr (.inr ⟨by omega, by push_cast; omega⟩)
    · rcases ho.val u x h3 with h | h | h
      · exact .inl h
      · exact .inr (.inl h)
      · exact .inr (.inr ⟨h.1, by push_cast; omega⟩)
  · intro u w x h0 h1 h2 hwb
    rcases hlab u x h1 with ⟨hc, rfl⟩ | ⟨hc, h3, h4⟩
    · have hwn := hlt u w (hQn u hc) h2
      have h3 := hd u hc w h2
      obtain ⟨y, hy⟩ : ∃ y, flag[w]? = some y := ⟨flag[w]'(by have := hi.len1; omega), by simp⟩
      refine ⟨y, ?_⟩
      rcases hlab w y hy with ⟨-, rfl⟩ | ⟨-, h5, h6⟩
      · exact ⟨h0, le_refl _, hy⟩
      · rcases ho.val w y h5 with rfl | rfl | h
        · exact absurd ((ho.iso w hwn).1 h5) hwb
        · exact absurd hy h3
        · exact ⟨h.1, by omega, hy⟩
    · obtain ⟨y, h5, h6, h7⟩ := ho.closed u w x h0 h3 h2 hwb
      exact ⟨y, h5, h6, hkeepl w y (by omega) h7⟩
  · intro u x h0 h1
    rcases hlab u x h1 with ⟨hc, rfl⟩ | ⟨hc, h3, h4⟩
    · refine ⟨r, hi.lab r hi.root, fun u' h => ?_, ?_⟩
      · rcases hlab u' _ h with ⟨h5, -⟩ | ⟨-, -, h6⟩
        · by_contra hlt
          exact hfirst u' (by omega) (hi.void u' h5)
        · omega
      · refine Relation.ReflTransGen.mono ?_ _ _ (hi.conn u hc)
        rintro a b ⟨h5, h6⟩
        refine ⟨h5, fun h7 => ?_⟩
        have hbn := lt_of_getElem?_some h6
        have := (ho.iso b (by have := ho.len; omega)).2 h7
        rw [h6] at this
        simp at this
    · obtain ⟨r', h5, h6, h7⟩ := ho.conn u x h0 h3
      refine ⟨r', hkeepl r' x (by omega) h5, fun u' h => h6 u' ?_, h7⟩
      rcases hlab u' x h with ⟨-, h8⟩ | ⟨-, h8, -⟩
      · omega
      · exact h8
  · intro u x h1 m hm
    rcases hlab u x h1 with ⟨hc, rfl⟩ | ⟨hc, h3, h4⟩
    · obtain ⟨u', h5, h6⟩ := ho.used m (by omega)
      refine ⟨u', ?_, hkeepl _ _ (by omega) h5⟩
      by_contra hlt
      exact h6 u (by omega) (hi.void u hc)
    · obtain ⟨u', h5, h6⟩ := ho.first u x h3 m hm
      exact ⟨u', h5, hkeepl _ _ (by omega) h6⟩
  · intro m hm
    by_cases hmc : m = c
    · subst hmc
      refine ⟨r, hi.lab r hi.root, fun u hu => ?_⟩
      by_cases h : u = r
      · subst h; rw [hi.lab u hi.root]; simp <;> omega
      · exact hno u (hfirst u (by omega))
    · obtain ⟨u', h5, h6⟩ := ho.used m (by omega)
      exact ⟨u', hkeepl _ _ (by omega) h5, fun u hu => hno u (h6 u hu)⟩
  · rw [List.nodup_append]
    refine ⟨ho.nodup, hi.nodup, fun a ha b hb hab => ?_⟩
    subst hab
    obtain ⟨x, h1, h2⟩ := (ho.mem a).1 ha
    rw [hi.void a hb] at h2
    simp at h2; omega
  · intro u
    rw [List.mem_append, ho.mem u]
    constructor
    · rintro (⟨x, h1, h2⟩ | h)
      · exact ⟨x, h1, hkeepl u x (by omega) h2⟩
      · exact ⟨c, by omega, hi.lab u h⟩
    · rintro ⟨x, h1, h2⟩
      rcases hlab u x h2 with ⟨hc, -⟩ | ⟨hc, h3, -⟩
      · exact .inr hc
      · exact .inl ⟨x, h1, h3⟩
  · have h1 := ho.count
    have : 0 < Q.length := List.length_pos_of_mem hi.root
    simp; omega

/-- the nodes with at least one edge -/
def busy (G : Nat → List Nat) (n : Nat) : List Nat := (List.range n).filter fun u => decide (G u ≠ [])

theorem mem_busy {G : Nat → List Nat} {n u : Nat} : u ∈ busy G n ↔ u < n ∧ G u ≠ [] := by simp [busy]

theorem busy_nodup (G : Nat → List Nat) (n : Nat) : (busy G n).Nodup := List.Nodup.filter _ List.nodup_range

theorem CsgOut.busy {G : Nat → List Nat} {n : Nat} {flag : List Int} {c : Nat} {D : List Nat} (h : CsgOut G n flag c D) :
    D ⊆ busy G n ∧ D.length ≤ (busy G n).length ∧
      (D.length < (busy G n).length → ∃ u : Nat, flag[u]? = some (-1)) ∧
      (D.length = (busy G n).length → ∀ u : Nat, flag[u]? ≠ some (-1)) := by
  have hsub : D ⊆ Sparse.busy G n := by
    intro u hu
    obtain ⟨x, h1, h2⟩ := (h.mem u).1 hu
    have hun : u < n := by have := lt_of_getElem?_some h2; have := h.len; omega
    refine mem_busy.2 ⟨hun, fun hc => ?_⟩
    have := (h.iso u hun).2 hc
    rw [h2] at this
    simp at this; omega
  have hsp := List.subperm_of_subset h.nodup hsub
  refine ⟨hsub, hsp.length_le, fun hlt => ?_, fun heq u hu => ?_⟩
  · by_contra hc
    push Not at hc
    have : Sparse.busy G n ⊆ D := by
      intro u hu
      obtain ⟨h1, h2⟩ := mem_busy.1 hu
      obtain ⟨x, hx⟩ : ∃ x, flag[u]? = some x := ⟨flag[u]'(by have := h.len; omega), by simp⟩
      rcases h.val u x hx with rfl | rfl | h3
      · exact absurd ((h.iso u h1).1 hx) h2
      · exact absurd hx (hc u)
      · exact (h.mem u).2 ⟨x, h3.1, hx⟩
    have := (List.subperm_of_subset (busy_nodup G n) this).length_le
    omega
  · have hperm := hsp.perm_of_length_le (by omega)
    have hun : u < n := by have := lt_of_getElem?_some hu; have := h.len; omega
    have : u ∈ Sparse.busy G n := mem_busy.2 ⟨hun, fun hc => by
      have := (h.iso u hun).2 hc
      rw [hu] at this; simp at this⟩
    obtain ⟨x, h1, h2⟩ := (h.mem u).1 (hperm.symm.subset this)
    rw [hu] at h2
    simp at h2; omega

theorem busy_succ (G : Nat → List Nat) (i : Nat) :
    busy G (i + 1) = busy G i ++ (if G i = [] then [] else [i]) := by
  unfold busy
  rw [List.range_succ, List.filter_append]
  split <;> simp_all

theorem csg_seed_err {n : Nat} (hn : n ≠ 0) {ft : IntTy} (hlo : ft.lo ≤ -2) {flag : List Int} (hl : flag.length = n)
    (hv : ∀ u : Nat, u < n → flag[u]? = some (-2)) {fuel : Nat} (hf : n < fuel) :
    csg_seed fuel n ft flag = .error .err := by
  have h0hi : (0 : Int) ≤ ft.hi := by have := ft.hi_ge; omega
  refine WP.fails_eq ?_
  unfold csg_seed
  refine WP_whileN (fun k i => i < n ∧ k = n - i) (k := n) hf ⟨by omega, by omega⟩ ?_
  rintro k i ⟨h1, rfl⟩
  rw [WP_bind, WP_rd]
  refine ⟨fun x hx => ?_, fun h => by rw [hv i h1] at h; simp at h⟩
  rw [hv i h1] at hx
  cases hx
  simp only [show ¬ ((-2 : Int) ≥ 0) by omega, if_false]
  rw [WP_bind, WP_ofInt]
  refine ⟨fun _ => ?_, fun h => absurd ⟨hlo, by omega⟩ h⟩
  rw [WP_bind, WP_pure]
  simp only [ne_eq, not_true, decide_false, Bool.false_eq_true, if_false]
  rw [WP_ite]
  refine ⟨fun _ => ?_, fun h => ?_⟩
  · rfl
  · exact ⟨n - (i + 1), by omega, by omega, rfl⟩

/-- the state before the first component -/
theorem CsgOut.init {G : Nat → List Nat} {n : Nat} {flag : List Int} (hl : flag.length = n)
    (hv : ∀ u : Nat, u < n → flag[u]? = some (if G u = [] then -2 else -1)) : CsgOut G n flag 0 [] := by
  have hval : ∀ (u : Nat) (x : Int), flag[u]? = some x → x = -2 ∨ x = -1 := by
    intro u x hx
    have hu := lt_of_getElem?_some hx
    rw [hv u (by omega)] at hx
    simp at hx
    split at hx <;> omega
  refine ⟨hl, ?_, fun u x h => (hval u x h).imp id .inl, ?_, ?_, ?_, by simp, by simp, ?_, by simp⟩
  · intro u hu
    rw [hv u hu]
    by_cases h : G u = [] <;> simp [h]
  · intro u w x h0 h1
    rcases hval u x h1 with h | h <;> omega
  · intro u x h0 h1
    rcases hval u x h1 with h | h <;> omega
  · intro u x h1 m hm
    rcases hval u x h1 with h | h <;> omega
  · intro u
    simp only [List.not_mem_nil, false_iff]
    rintro ⟨x, h1, h2⟩
    rcases hval u x h2 with h | h <;> omega

theorem csg_ok {p j : List Int} {n : Nat} {G : Nat → List Nat} {o : Nat → Nat} (hg : GRep p j n G o)
    {t ft : IntTy} (hlo : ft.lo ≤ -2) (hhi : (n : Int) ≤ ft.hi + 1) (ht : (n : Int) ≤ t.hi)
    {flag : List Int} (hfl : flag.length = n)
    {fuel : Nat} (hf : n < fuel) :
    WP (cs_graph_components t ft fuel n p j flag) (fun r => (n = 0 ∨ busy G n ≠ []) ∧
      ∃ (c : Nat) (D : List Nat), r.1 = c ∧ CsgOut G n r.2 c D ∧ ∀ u : Nat, r.2[u]? ≠ some (-1))
      (fun e => n ≠ 0 ∧ busy G n = [] ∧ e = .err) := by
  have h0hi : (0 : Int) ≤ ft.hi := by have := ft.hi_ge; omega
  unfold cs_graph_components
  simp only [WP_bind]
  refine WP_forRange (fun i st => st.1.length = n ∧ (∀ u : Nat, u < i → st.1[u]? = some (if G u = [] then -2 else -1)) ∧
    st.2 = (busy G i).length + (n - i)) (fun _ => False) (by omega) ⟨hfl, by simp, by simp [busy]⟩ ?_ (fun _ h => h.elim) ?_
  · rintro i ⟨fl, ns⟩ - hi ⟨h1, h2, h3⟩
    simp only at h1 h2 h3
    refine WP_of_ok ?_
    wp
    rds [hg.start i hi, hg.stop i hi]
    refine ⟨⟨by omega, by omega⟩, by omega, ?_⟩
    rw [Ok_ite]
    have hset : ∀ x : Int, ∀ u : Nat, (fl.set i x)[u]? = if u = i then some x else fl[u]? := fun x u => getElem?_set' (by omega) u
    refine ⟨fun he => ?_, fun he => ?_⟩
    · have hG : G i = [] := by rw [← List.length_eq_zero_iff]; omega
      wp
      refine ⟨by omega, ⟨by omega, by omega⟩, by simp; omega, by simpa using h1, ?_, ?_⟩
      · intro u hu
        show ((fl.set i (-1)).set i (-2))[u]? = _
        rw [List.set_set, hset]
        split
        · next h => subst h; simp [hG]
        · exact h2 u (by omega)
      · show ns - 1 = _
        rw [busy_succ, h3]; simp [hG]; omega
    · have hG : G i ≠ [] := fun h => he (by rw [h]; simp)
      wp
      refine ⟨by simpa using h1, ?_, ?_⟩
      · intro u hu
        show (fl.set i (-1))[u]? = _
        rw [hset]
        split
        · next h => subst h; simp [hG]
        · exact h2 u (by omega)
      · show ns = _
        rw [busy_succ, h3]; simp [hG]; omega
  · rintro ⟨fl, ns⟩ ⟨h1, h2, h3⟩
    simp only at h1 h2 h3
    have hout0 := CsgOut.init h1 h2
    have hns : ns = (busy G n).length := by omega
    subst hns
    refine WP_forRange (fun c st => (∃ D, CsgOut G n st.1 c D ∧ st.2.2.2 = D.length ∧
        (c = 0 ∨ D.length < (busy G n).length)) ∧ st.2.1.length = n ∧ st.2.2.1 = 0)
      (fun st => (n = 0 ∨ busy G n ≠ []) ∧ ∃ (c : Nat) (D : List Nat), st.2.2.1 = c ∧ CsgOut G n st.1 c D ∧ ∀ u : Nat, st.1[u]? ≠ some (-1))
      (by omega) ⟨⟨[], hout0, rfl, .inl rfl⟩, by simp, rfl⟩ ?_ ?_ ?_
    · rintro c ⟨fl, ps, nc, nt⟩ - hc ⟨⟨D, ho, hD, hlt⟩, hps, hnc⟩
      simp only at ho hD hps hnc
      subst hD hnc
      obtain ⟨hb1, hb2, hb3, hb4⟩ := ho.busy
      by_cases hbusy : busy G n = []
      · -- every node is isolated
        have hall : ∀ u : Nat, u < n → fl[u]? = some (-2) := by
          intro u hu
          refine (ho.iso u hu).2 ?_
          by_contra hne
          have := mem_busy.2 ⟨hu, hne⟩
          rw [hbusy] at this
          simp at this
        rw [WP_bind, csg_seed_err (by omega) hlo ho.len hall hf]
        exact ⟨by omega, hbusy, rfl⟩
      · have hlt' : D.length < (busy G n).length := by
          rcases hlt with rfl | h
          · have : D = [] := by
              rw [List.eq_nil_iff_forall_not_mem]
              intro u hu
              obtain ⟨x, h1, h2⟩ := (ho.mem u).1 hu
              rcases ho.val u x h2 with h | h | h <;> omega
            subst this
            exact List.length_pos_of_ne_nil hbusy
          · exact h
        obtain ⟨u0, hu0⟩ := hb3 hlt'
        refine WP_of_ok ?_
        rw [Ok_bind]
        refine (csg_seed_ok hlo ho.len (fun u x h => (ho.val u x h).imp id (Or.imp id And.left)) hu0 hf).mono ?_
        rintro r ⟨hr1, hr2⟩
        have hrn : r < n := by have := lt_of_getElem?_some hr1; have := ho.len; omega
        wp
        refine ⟨by omega, by have := ho.len; omega, by omega, by omega, ?_⟩
        have hin0 : CsgIn G n fl c r (fl.set r ((c : Nat) : Int)) (ps.set 0 ((r : Nat) : Int)) [r] := by
          have hset := fun u => getElem?_set' (l := fl) (i := r) (a := ((c : Nat) : Int)) (by have := ho.len; omega) u
          refine ⟨by simpa using ho.len, by simpa using hps, ?_, by simp, ?_, ?_, ?_, ?_, by simp⟩
          · intro k u hk
            have : k = 0 := by have := lt_of_getElem?_some hk; simp at this; omega
            subst this
            simp at hk
            rw [List.getElem?_set_self (by omega), hk]
          · intro u hu
            rw [List.mem_singleton.1 hu]; exact hr1
          · intro u hu
            rw [List.mem_singleton.1 hu]
          · intro u hu
            rw [hset, if_pos (List.mem_singleton.1 hu)]
          · intro u hu
            rw [hset, if_neg (by simpa using hu)]
        refine (csg_search_ok hg (by omega) (by omega) hin0).mono ?_
        rintro ⟨f2, p2, np⟩ ⟨Q, hin, hnp, hd⟩
        simp only at hin hnp hd
        subst hnp
        have hnext := ho.next hg.lt hr1 hin hd hr2
        obtain ⟨hb1', hb2', hb3', hb4'⟩ := hnext.busy
        simp only [List.length_append] at hb2' hb4'
        simp only
        rw [Ok_ite]
        refine ⟨fun he => ?_, fun he => ?_⟩
        · wp
          exact ⟨by push_cast; omega, .inr hbusy, c + 1, _, rfl, hnext, hb4' he⟩
        · wp
          exact ⟨⟨_, hnext, by simp, .inr (by simp; omega)⟩, hin.len2, trivial⟩
    · rintro ⟨fl, ps, nc, nt⟩ ⟨hq, c, D, h1, h2, h3⟩
      exact ⟨hq, c, D, h1, h2, h3⟩
    · rintro ⟨fl, ps, nc, nt⟩ ⟨⟨D, ho, hD, hlt⟩, hps, hnc⟩
      simp only at ho hD hps hnc
      have hcount := ho.count
      have hbl : (busy G n).length ≤ n := nodup_lt_length (busy_nodup G n) fun u hu => (mem_busy.1 hu).1
      have hn0 : n = 0 := by omega
      subst hn0
      refine ⟨.inl rfl, 0, D, hnc, ho, fun u h => ?_⟩
      have h1 : u < fl.length := lt_of_getElem?_some h
      have h2 : fl.length = 0 := ho.len
      omega

end Sparse

import Verif.Lemmas.CostGraph
/-! The running time of `cs_graph_components`. -/
namespace Sparse
open MT

/-- the seed is the first node that is flagged neither `-2` nor with a component; every node up to it is looked at -/
theorem csg_seedT_rt {n : Nat} {ft : IntTy} (hlo : ft.lo ≤ -2) {flag : List Int} (hl : flag.length = n)
    (hv : ∀ (u : Nat) (x : Int), flag[u]? = some x → x = -2 ∨ x = -1 ∨ 0 ≤ x) (fuel : Nat) :
    RT (csg_seedT fuel n ft flag) fun r c => flag[r]? = some (-1) ∧ (∀ u < r, flag[u]? ≠ some (-1)) ∧ c = 2 * r + 2 := by
  have h0hi : (0 : Int) ≤ ft.hi := by have := ft.hi_ge; omega
  unfold csg_seedT
  refine (RT.whileT (c := 0) (I := fun i c => (∀ u < i, flag[u]? ≠ some (-1)) ∧ c = 2 * i)
    (Q := fun r c => flag[r]? = some (-1) ∧ (∀ u < r, flag[u]? ≠ some (-1)) ∧ c = 2 * r + 2) ⟨by simp, rfl⟩ ?_).mono
    fun r c h => by rwa [Nat.zero_add] at h
  rintro i c ⟨h1, hc⟩
  refine RT.rd_bind fun x hx => ?_
  have next : x ≠ -1 → RT (do
      if i + 1 ≥ n then
        let _ ← (throw .err : M Unit)
      Pure.pure (ForInStep.yield (i + 1)) : MT (ForInStep Nat)) fun st d =>
      match st with
      | .yield s' => (∀ u < s', flag[u]? ≠ some (-1)) ∧ c + (1 + (1 + d)) = 2 * s'
      | .done s' => flag[s']? = some (-1) ∧ (∀ u < s', flag[u]? ≠ some (-1)) ∧ c + (1 + (1 + d)) = 2 * s' + 2 := by
    intro hne
    split
    · exact RT.free_bind fun _ h => by cases h
    · refine RT.pure ⟨fun u hu => ?_, by omega⟩
      rcases Nat.lt_or_ge u i with h | h
      · exact h1 u h
      · rw [show u = i by omega, hx]; simpa using hne
  have eft : ft.checked.ofInt (-2) = .ok (-2) := by
    obtain ⟨z, hz, rfl⟩ : Ok (ft.checked.ofInt (-2)) fun z => z = -2 := by
      wp
      exact ⟨⟨by omega, by omega⟩, trivial⟩
    exact hz
  split
  · rename_i hx0
    refine RT.bind (RT.pure ?_)
    simp only [Bool.false_eq_true, if_false]
    refine (next (by omega)).mono ?_
    rintro (s | s) d h <;> simpa using h
  · rename_i hx0
    refine RT.free_bind fun z hz => ?_
    rw [eft] at hz
    cases hz
    refine RT.bind (RT.pure ?_)
    by_cases hx2 : x = -2
    · subst hx2
      simp only [ne_eq, not_true, decide_false, Bool.false_eq_true, if_false]
      refine (next (by omega)).mono ?_
      rintro (s | s) d h <;> simpa using h
    · simp only [ne_eq, hx2, not_false_eq_true, decide_true, if_true]
      refine RT.pure ⟨?_, h1, by omega⟩
      rcases hv i x hx with h | h | h
      · exact absurd h hx2
      · rw [hx, h]
      · omega

/-- the weight of a node in the searches: what looking at its row costs -/
def bw (G : Nat → List Nat) (v : Nat) : Nat := 4 + 6 * (G v).length

theorem csg_roundT_rt {p j : List Int} {n : Nat} {G : Nat → List Nat} {o : Nat → Nat} (hg : GRep p j n G o)
    {ft : IntTy} {c : Nat} {flag0 : List Int} {r : Nat} {flag pos : List Int} {Q : List Nat} {a : Nat} (hab : a ≤ Q.length)
    (h : CsgIn G n flag0 c r flag pos Q) :
    RT (csg_roundT ft c p j a Q.length flag pos Q.length) fun _ d => d ≤ wsum (bw G) (Q.drop a) := by
  unfold csg_roundT
  refine RT.bind (RT.mono (RT.forRange (Q := fun _ d => d ≤ wsum (bw G) (Q.drop a))
    (fun i s d => (∀ k < Q.length, s.2.1[k]? = pos[k]?) ∧ Q.length ≤ s.2.2.1 ∧ d + wsum (bw G) (Q.drop i) ≤ wsum (bw G) (Q.drop a))
    hab ⟨fun _ _ => rfl, Nat.le_refl _, by simp⟩ ?_ ?_) ?_)
  · rintro i ⟨f1, p1, nn, nw⟩ d hi1 hi2 ⟨hp, hnn, hd⟩
    simp only at hp hnn hd ⊢
    have hu : Q[i]? = some Q[i] := by simp
    have huQ : Q[i] ∈ Q := List.getElem_mem _
    have hun : Q[i] < n := by have := lt_of_getElem?_some (h.lab _ huQ); have := h.len1; omega
    have e : ∀ x : Nat, toUsize ((x : Nat) : Int) = .ok x := fun x => by simp [toUsize]; rfl
    refine RT.tick_bind (RT.rd_bind fun z hz => RT.free_bind fun v hv => ?_)
    rw [hp i hi2, h.pos i _ hu] at hz
    cases hz
    rw [e] at hv
    cases hv
    refine RT.rd_bind fun z hz => RT.free_bind fun x hx => RT.rd_bind fun z' hz' => RT.free_bind fun y hy => ?_
    rw [hg.start _ hun] at hz
    rw [hg.stop _ hun] at hz'
    cases hz
    cases hz'
    rw [e] at hx hy
    cases hx
    cases hy
    refine RT.bind (RT.mono (RT.of_TB (TB.forConst (B := 6 * (G Q[i]).length)
      (fun _ s => (∀ k < Q.length, s.2.1[k]? = pos[k]?) ∧ Q.length ≤ s.2.2.1) 6 ⟨hp, hnn⟩ ?_ ?_ fun _ h => h)) ?_)
    · rintro ic ⟨f2, p2, nn2, nw2⟩ - - ⟨hp2, hnn2⟩
      simp only at hp2 hnn2
      tb
      split
      · tb
        refine TB.pure ⟨_, rfl, ?_, ?_⟩
        · intro k hk
          show (p2.set nn2 _)[k]? = _
          rw [List.getElem?_set_ne (by omega)]
          exact hp2 k hk
        · show _ ≤ nn2 + 1
          omega
      · exact TB.pure ⟨_, rfl, hp2, hnn2⟩
    · rw [Nat.add_sub_cancel_left]
    · rintro ⟨f2, p2, nn2, nw2⟩ d2 ⟨hd2, hp2, hnn2⟩
      refine RT.pure ⟨_, rfl, hp2, hnn2, ?_⟩
      rw [List.drop_eq_getElem_cons hi2, wsum_cons] at hd
      unfold bw at hd ⊢
      omega
  · rintro s d ⟨-, -, hd⟩
    omega
  · intro s d hd
    exact RT.pure hd

theorem csg_searchT_rt {p j : List Int} {n : Nat} {G : Nat → List Nat} {o : Nat → Nat} (hg : GRep p j n G o)
    {ft : IntTy} (hlo : ft.lo ≤ -1) {c : Nat} (hc : (c : Int) ≤ ft.hi) {flag0 : List Int} {r : Nat}
    {flag pos : List Int} (h : CsgIn G n flag0 c r flag pos [r]) :
    RT (csg_searchT ft n c p j flag pos) fun s d => ∃ Q, CsgIn G n flag0 c r s.1 s.2.1 Q ∧ s.2.2 = Q.length ∧
      (∀ u ∈ Q, ∀ w ∈ G u, s.1[w]? ≠ some (-1)) ∧ d ≤ wsum (bw G) Q + Q.length := by
  have hok := csg_search_ok hg hlo hc h
  have hlen : RT (csg_searchT ft n c p j flag pos) fun s d => ∃ Q, CsgIn G n flag0 c r s.1 s.2.1 Q ∧ s.2.2 = Q.length ∧
      d ≤ wsum (bw G) Q + Q.length := by
    unfold csg_searchT
    refine RT.bind (RT.mono (RT.forRange' (Q := fun s d => ∃ Q, CsgIn G n flag0 c r s.1 s.2.1 Q ∧ s.2.2.2.1 = Q.length ∧
        d ≤ wsum (bw G) Q + Q.length)
      (fun i s d => ∃ Q, CsgIn G n flag0 c r s.1 s.2.1 Q ∧ s.2.2.1 ≤ Q.length ∧ s.2.2.2.1 = Q.length ∧
        s.2.2.2.2 = Q.length ∧ i < Q.length ∧ d ≤ wsum (bw G) (Q.take s.2.2.1) + i) (Nat.zero_le n) ?_ ?_ ?_) ?_)
    · exact ⟨[r], h, by simp, rfl, rfl, by simp, by simp⟩
    · rintro i ⟨f, ps, a, b, b'⟩ d - hi ⟨Q, hin, ha, hb, hb', hiQ, hd⟩
      simp only at hin ha hb hb' hd ⊢
      subst hb hb'
      refine RT.tick_bind (RT.bind ?_)
      have hsum : wsum (bw G) (Q.take a) + wsum (bw G) (Q.drop a) = wsum (bw G) Q := by
        rw [← wsum_append, List.take_append_drop]
      intro s hs
      have hb := csg_roundT_rt (ft := ft) hg ha hin s hs
      obtain ⟨s', hs', N, hin2, h1, h2, -⟩ := csg_round_ok hg hlo hc ha hin
      rw [csg_roundT_outcome, hs'] at hs
      cases hs
      obtain ⟨f2, p2, nn, nw⟩ := s
      simp only at hin2 h1 h2 ⊢
      subst h1 h2
      split
      · rename_i hN
        have hN0 : N = [] := List.length_eq_zero_iff.1 hN
        subst hN0
        rw [List.append_nil] at hin2
        refine RT.pure ⟨Q, hin2, by simp, ?_⟩
        omega
      · rename_i hN
        refine RT.pure ⟨Q ++ N, hin2, by simp, rfl, rfl, by simp; omega, ?_⟩
        simp only [List.take_left']
        omega
    · rintro ⟨f, ps, a, b, b'⟩ d ⟨Q, hin, ha, hb, hb', hiQ, hd⟩
      have := hin.card
      omega
    · rintro ⟨f, ps, a, b, b'⟩ d ⟨Q, hin, hb, hd⟩
      exact RT.pure ⟨Q, hin, hb, by omega⟩
  intro s hs
  obtain ⟨s', hs', Q, q1, q2, q3⟩ := hok
  obtain ⟨Q', q1', q2', q3'⟩ := hlen s hs
  rw [csg_searchT_outcome, hs'] at hs
  cases hs
  refine ⟨Q', q1', q2', ?_, q3'⟩
  intro u hu
  refine q3 u ?_
  by_contra hc
  have e1 := q1'.lab u hu
  rw [q1.keep u hc, q1'.void u hu] at e1
  simp at e1

/-- `c` components have been found and `u` is not flagged yet: then `u` comes after the first nodes of the components -/
theorem CsgOut.seed_ge {G : Nat → List Nat} {n : Nat} {flag : List Int} {c : Nat} {D : List Nat} (h : CsgOut G n flag c D)
    {r : Nat} (hr : flag[r]? = some (-1)) : c ≤ r := by
  have : ∀ m : Nat, ∃ u' : Nat, m < c → (flag[u']? = some ((m : Nat) : Int) ∧ u' < r) := by
    intro m
    by_cases hm : m < c
    · obtain ⟨u', h1, h2⟩ := h.used m hm
      refine ⟨u', fun _ => ⟨h1, ?_⟩⟩
      by_contra hc
      exact h2 r (by omega) hr
    · exact ⟨0, fun h => absurd h hm⟩
  choose f hf using this
  have := nodup_lt_length (C := (List.range c).map f) (n := r) ?_ ?_
  · simpa using this
  · refine List.Nodup.map_on ?_ List.nodup_range
    intro x hx y hy hxy
    have h1 := (hf x (List.mem_range.1 hx)).1
    have h2 := (hf y (List.mem_range.1 hy)).1
    rw [hxy, h2] at h1
    simp at h1
    omega
  · intro u hu
    obtain ⟨m, hm, rfl⟩ := List.mem_map.1 hu
    exact (hf m (List.mem_range.1 hm)).2

theorem csgT_rt {p j : List Int} {n : Nat} {G : Nat → List Nat} {o : Nat → Nat} (hg : GRep p j n G o)
    {t ft : IntTy} (hlo : ft.lo ≤ -2) (hhi : (n : Int) ≤ ft.hi + 1)
    {flag : List Int} (hfl : flag.length = n) {fuel : Nat} :
    RT (cs_graph_componentsT t ft fuel n p j flag) fun r d => ∃ c : Nat, r.1 = c ∧ c * (c - 1) ≤ d ∧
      d ≤ wsum (bw G) (List.range n) + c * (2 * n + 3) + 7 * n := by
  have h0hi : (0 : Int) ≤ ft.hi := by have := ft.hi_ge; omega
  have eft : ∀ z : Int, ft.lo ≤ z → z ≤ ft.hi → ∀ y, ft.checked.ofInt z = .ok y → y = z := by
    intro z h1 h2 y hy
    obtain ⟨z', hz, rfl⟩ : Ok (ft.checked.ofInt z) fun y => y = z := by
      wp
      exact ⟨⟨by omega, by omega⟩, trivial⟩
    rw [hz] at hy
    cases hy
    rfl
  have eus : ∀ (t : IntTy) (x : Nat) y, t.checked.ofUsize x = .ok y → y = (x : Int) := by
    intro t x y hy
    simp only [IdxTy.ofUsize, IdxTy.ofInt] at hy
    split at hy
    · cases hy; rfl
    · cases hy
  unfold cs_graph_componentsT vecT
  refine RT.lift_bind fun a ha => ?_
  cases ha
  refine RT.bind (RT.mono (RT.forRange (Q := fun st d => CsgOut G n st.1 0 [] ∧ st.2 = (busy G n).length ∧ d ≤ 5 * n)
    (fun i st d => st.1.length = n ∧ (∀ u : Nat, u < i → st.1[u]? = some (if G u = [] then -2 else -1)) ∧
      st.2 = (busy G i).length + (n - i) ∧ d ≤ 5 * i)
    (Nat.zero_le n) ⟨hfl, by simp, by simp [busy], by simp⟩ ?_ ?_) ?_)
  · rintro i ⟨fl, ns⟩ d - hi ⟨h1, h2, hns, h3⟩
    simp only at h1 h2 hns h3 ⊢
    have hset : ∀ x : Int, ∀ u : Nat, (fl.set i x)[u]? = if u = i then some x else fl[u]? := fun x u => getElem?_set' (by omega) u
    refine RT.tick_bind (RT.free_bind fun m1 hm1 => ?_)
    cases eft (-1) (by omega) (by omega) _ hm1
    refine RT.wr_bind (RT.rd_bind fun x hx => RT.rd_bind fun y hy => ?_)
    rw [hg.stop i hi] at hx
    rw [hg.start i hi] at hy
    cases hx
    cases hy
    split
    · rename_i he
      have hG : G i = [] := by rw [← List.length_eq_zero_iff]; omega
      refine RT.free_bind fun ns' hns' => RT.free_bind fun m2 hm2 => ?_
      cases eft (-2) (by omega) (by omega) _ hm2
      obtain ⟨-, rfl⟩ := usub_eq hns'
      refine RT.wr_bind (RT.pure ⟨_, rfl, by simpa using h1, ?_, by rw [busy_succ, hns]; simp [hG]; omega, by omega⟩)
      intro u hu
      show ((fl.set i (-1)).set i (-2))[u]? = _
      rw [List.set_set, hset]
      split
      · next h => subst h; simp [hG]
      · exact h2 u (by omega)
    · rename_i he
      have hG : G i ≠ [] := fun h => he (by rw [h]; simp)
      refine RT.pure ⟨_, rfl, by simpa using h1, ?_, by rw [busy_succ, hns]; simp [hG]; omega, by omega⟩
      intro u hu
      show (fl.set i (-1))[u]? = _
      rw [hset]
      split
      · next h => subst h; simp [hG]
      · exact h2 u (by omega)
  · rintro ⟨fl, ns⟩ d ⟨h1, h2, h3, h4⟩
    exact ⟨CsgOut.init h1 h2, by simp only at h3 ⊢; omega, h4⟩
  · rintro ⟨fl, ns⟩ d0 ⟨ho, hns, hd0⟩
    simp only at ho hns ⊢
    subst hns
    refine RT.bind (RT.mono (RT.forRange' (Q := fun st d => ∃ c : Nat, st.2.2.1 = (c : Int) ∧ c * (c - 1) ≤ d ∧
        d ≤ wsum (bw G) (List.range n) + c * (2 * n + 3) + n)
      (fun c st d => ∃ D, CsgOut G n st.1 c D ∧ st.2.1.length = n ∧ st.2.2.1 = 0 ∧ c * (c - 1) ≤ d ∧
        d ≤ wsum (bw G) D + D.length + c * (2 * n + 3) ∧ st.2.2.2 = D.length ∧ (c = 0 ∨ D.length < (busy G n).length))
      (Nat.zero_le n) ⟨[], ho, by simp, rfl, by simp, by simp, rfl, .inl rfl⟩ ?_ ?_) ?_)
    · rintro c ⟨fl, ps, nc, nt⟩ d - hc ⟨D, ho, hps, hnc, hd1, hd2, hD, -⟩
      simp only at ho hps hnc hD ⊢
      subst hnc hD
      refine RT.tick_bind (RT.bind ((csg_seedT_rt hlo ho.len (fun u x h => (ho.val u x h).imp id (Or.imp id And.left)) fuel).mono ?_))
      rintro r d2 ⟨hr1, hr2, rfl⟩
      have hrn : r < n := by have := lt_of_getElem?_some hr1; have := ho.len; omega
      have hcr := ho.seed_ge hr1
      refine RT.free_bind fun z hz => ?_
      cases eus _ _ _ hz
      refine RT.wr_bind (RT.free_bind fun z hz => ?_)
      cases eus _ _ _ hz
      refine RT.wr_bind (RT.bind ?_)
      have hin0 : CsgIn G n fl c r (fl.set r ((c : Nat) : Int)) (ps.set 0 ((r : Nat) : Int)) [r] := by
        have hset := fun u => getElem?_set' (l := fl) (i := r) (a := ((c : Nat) : Int)) (by have := ho.len; omega) u
        refine ⟨by simpa using ho.len, by simpa using hps, ?_, by simp, ?_, ?_, ?_, ?_, by simp⟩
        · intro k u hk
          have : k = 0 := by have := lt_of_getElem?_some hk; simp at this; omega
          subst this
          simp at hk
          rw [List.getElem?_set_self (by omega), hk]
        · intro u hu
          rw [List.mem_singleton.1 hu]; exact hr1
        · intro u hu
          rw [List.mem_singleton.1 hu]
        · intro u hu
          rw [hset, if_pos (List.mem_singleton.1 hu)]
        · intro u hu
          rw [hset, if_neg (by simpa using hu)]
      refine (csg_searchT_rt hg (by omega) (by omega) hin0).mono ?_
      rintro ⟨f2, p2, np⟩ d3 ⟨Q, hin, hnp, hdone, hd3⟩
      simp only at hin hnp hdone ⊢
      subst hnp
      have hnext := ho.next hg.lt hr1 hin hdone hr2
      have hlow : (c + 1) * (c + 1 - 1) ≤ c * (c - 1) + 2 * r := by
        rw [Nat.add_sub_cancel, Nat.add_mul, Nat.one_mul]
        have : c * c ≤ c * (c - 1) + c := by
          rw [← Nat.mul_succ]
          exact Nat.mul_le_mul_left _ (by omega)
        omega
      have hup : wsum (bw G) (D ++ Q) + (D ++ Q).length + (c + 1) * (2 * n + 3) =
          wsum (bw G) D + D.length + c * (2 * n + 3) + (wsum (bw G) Q + Q.length) + (2 * n + 3) := by
        rw [wsum_append, List.length_append, Nat.add_mul, Nat.one_mul]
        omega
      split
      · refine RT.free_bind fun z hz => ?_
        cases eus _ _ _ hz
        refine RT.pure ⟨c + 1, by push_cast; rfl, by omega, ?_⟩
        have h1 := wsum_le (bw G) hnext.nodup fun u hu => List.mem_range.2 (mem_busy.1 (hnext.busy.1 hu)).1
        have h2 := nodup_lt_length hnext.nodup fun u hu => (mem_busy.1 (hnext.busy.1 hu)).1
        omega
      · rename_i hne
        have := hnext.busy.2.1
        refine RT.pure ⟨_, hnext, hin.len2, rfl, by omega, by omega, by simp, .inr ?_⟩
        simp only [List.length_append] at this ⊢
        omega
    · rintro ⟨fl, ps, nc, nt⟩ d ⟨D, ho, hps, hnc, hd1, hd2, hD, hlt⟩
      have hcount := ho.count
      have hbl : (busy G n).length ≤ n := nodup_lt_length (busy_nodup G n) fun u hu => (mem_busy.1 hu).1
      have hn0 : n = 0 := by omega
      subst hn0
      have := nodup_lt_length ho.nodup fun u hu => (mem_busy.1 (ho.busy.1 hu)).1
      have hD0 : D = [] := List.length_eq_zero_iff.1 (by omega)
      subst hD0
      exact ⟨0, hnc, by simp, by simp at hd2 ⊢; omega⟩
    · rintro ⟨fl, ps, nc, nt⟩ d ⟨c, h1, h2, h3⟩
      exact RT.pure ⟨c, h1, by omega, by omega⟩
end Sparse

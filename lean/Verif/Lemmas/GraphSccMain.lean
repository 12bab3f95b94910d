import Verif.Lemmas.GraphSccInv
/-!
Strongly connected components: the loops of `connected_components_directed` keep the invariant.
-/
namespace Sparse

/-- the label of the next component after `c` components -/
def labOf (n c : Nat) : Node := if c < n then .label (n - 1 - c) else .void

/-- the stacks `D` and `S` in memory -/
structure PInv (n : Nat) (s : Scc) (head : Node) (D S : List Nat) : Prop where
  ssl : s.ss.length = n
  sbl : s.stack_b.length = n
  stkD : Stk s.ss head D
  stkS : Stk s.ss s.ss_head S
  bck : Bck s.stack_b .fin D
  void : ∀ x, x < n → x ∉ D → x ∉ S → s.ss[x]? = some .void

/-- the sum of the weights of nodes -/
def wsum (W : Nat → Nat) (l : List Nat) : Nat := (l.map W).sum

theorem wsum_nil (W : Nat → Nat) : wsum W [] = 0 := rfl
theorem wsum_cons (W : Nat → Nat) (x : Nat) (l : List Nat) : wsum W (x :: l) = W x + wsum W l := by simp [wsum]
theorem wsum_append (W : Nat → Nat) (l l' : List Nat) : wsum W (l ++ l') = wsum W l + wsum W l' := by simp [wsum]
theorem wsum_one (l : List Nat) : wsum (fun _ => 1) l = l.length := by
  induction l with
  | nil => rfl
  | cons x l ih => rw [wsum_cons, ih, List.length_cons]; omega

theorem wsum_le (W : Nat → Nat) {l l' : List Nat} (hl : l.Nodup) (h : ∀ x ∈ l, x ∈ l') : wsum W l ≤ wsum W l' := by
  induction l generalizing l' with
  | nil => exact Nat.zero_le _
  | cons x l ih =>
    have e : wsum W l' = W x + wsum W (l'.erase x) := by
      rw [← wsum_cons]
      exact ((List.perm_cons_erase (h x (by simp))).map W).sum_nat
    have hx := List.nodup_cons.1 hl
    have := ih (l' := l'.erase x) hx.2 fun y hy => by
      have hyx : y ≠ x := by rintro rfl; exact hx.1 hy
      exact (List.mem_erase_of_ne hyx).2 (h y (by simp [hy]))
    rw [wsum_cons, e]
    omega

theorem wsum_sublist (W : Nat → Nat) {l l' : List Nat} (h : l.Sublist l') : wsum W l ≤ wsum W l' := by
  induction h with
  | slnil => exact Nat.le_refl _
  | cons x _ ih => rw [wsum_cons]; omega
  | cons_cons x _ ih => rw [wsum_cons, wsum_cons]; omega

/-- the invariant of the loop started at `r0`; the rounds that are left, each with the weight of its node, weigh at most `k` -/
def SInv (n : Nat) (G : Nat → List Nat) (W : Nat → Nat) (r0 k : Nat) (st : Scc × Node) : Prop :=
  ∃ (D S ord asg : List Nat) (c : Nat) (κ : Nat → Nat), PInv n st.1 st.2 D S ∧ SccInv n G st.1.labels D S ord asg c κ ∧
    st.1.index = ord.length ∧ st.1.label = labOf n c ∧ (∀ u, u < r0 → u ∈ asg) ∧ (r0 ∈ D ∨ r0 ∈ ord ∨ r0 ∈ asg) ∧
    2 * wsum W (List.range n) + wsum W (D.filter (fun x => decide (x ∈ ord))) ≤ k + 2 * wsum W ord + 2 * wsum W asg

theorem scc_step_ok {p j : List Int} {n : Nat} {G : Nat → List Nat} {o : Nat → Nat} (hg : GRep p j n G o)
    (hG : ∀ v, v < n → ((G v).filter (· ≠ v)).Nodup) {fuel : Nat} (hf : n < fuel) {W : Nat → Nat} {r0 k : Nat} {s : Scc} {head : Node}
    (hhead : head ≠ .fin) (h : SInv n G W r0 k (s, head)) :
    ∃ v, head = .label v ∧ v < n ∧ Ok (scc_step fuel j p s head) fun r => ∃ k', k' + W v ≤ k ∧ SInv n G W r0 k' r := by
  obtain ⟨D, S, ord, asg, c, κ, hp, hl, hix, hlab, hW, hr0, hk⟩ := h
  obtain ⟨v, Z, rfl⟩ : ∃ v Z, D = v :: Z := by
    cases D with
    | nil => exact absurd hp.stkD hhead
    | cons v Z => exact ⟨v, Z, rfl⟩
  simp only at hp hl hix hlab
  obtain ⟨rfl, -⟩ := id hp.stkD
  have hvn : v < n := hl.dlt v (by simp)
  have hvl : v < s.labels.length := by rw [hl.len]; exact hvn
  have hva : v ∉ asg := hl.dasg v (by simp)
  have hvS : v ∉ S := fun hc => (List.nodup_append.1 hl.dnd).2.2 v (by simp) v hc rfl
  have hDnd : (v :: Z).Nodup := (List.nodup_append.1 hl.dnd).1
  have hvZ : v ∉ Z := (List.nodup_cons.1 hDnd).1
  have htot := hl.total
  refine ⟨v, rfl, hvn, ?_⟩
  unfold scc_step
  simp only [Node.unwrap]
  wp
  by_cases hvo : v ∈ ord
  · -- finish
    obtain ⟨m, hm⟩ := List.mem_iff_getElem?.1 hvo
    have hml := hl.plab v m (by simp) hm
    have hmlt := lt_of_getElem?_some hm
    rds [hml]
    simp only [reduceCtorEq, if_false]
    obtain ⟨-, nx, hnx, hnv, hZs⟩ := hp.stkD
    wp
    rds [hnx]
    have hvss : v < s.ss.length := lt_of_getElem?_some hnx
    have hord : ord.Nodup := hl.ord_nodup
    have cont : ∀ sb1 : List Node, sb1.length = n → Bck sb1 .fin Z → Ok (do
        let ss ← s.ss.wr v Node.void
        let stack_b ← sb1.wr v Node.void
        let x ← scc_low v j p s.labels
        let labels ← s.labels.wr v x.2
        if x.1 = true then do
            let index ← usub s.index 1
            let y ← scc_pop fuel v s.label labels ss s.ss_head index
            let labels ← y.1.wr v s.label
            let label ← scc_next s.label
            pure (({ labels := labels, ss := y.2.1, stack_b := stack_b, ss_head := y.2.2.1, index := y.2.2.2,
                     label := label } : Scc), nx)
          else do
            let ss ← ss.wr v s.ss_head
            pure (({ labels := labels, ss := ss, stack_b := stack_b, ss_head := Node.label v, index := s.index,
                     label := s.label } : Scc), nx)) (fun r => ∃ k', k' + W v ≤ k ∧ SInv n G W r0 k' r) := by
      intro sb1 hsb1 hbZ
      wp
      refine ⟨hvss, by omega, ?_⟩
      refine (scc_low_ok hg hvn hml (fun w hw => hl.visited (hl.top_suc hvo hw))).mono ?_
      rintro ⟨root, lo⟩ ⟨l, q1, q2, q3, q4, q5⟩
      simp only at q1 q4 q5
      subst q1
      wp
      refine ⟨hvl, ?_⟩
      have hZss : Stk (s.ss.set v .void) nx Z := hZs.set hvZ _
      have hSss : Stk (s.ss.set v .void) s.ss_head S := hp.stkS.set hvS _
      have hbZ' : Bck (sb1.set v .void) .fin Z := hbZ.set hvZ _
      have hfv : wsum W ((v :: Z).filter (fun x => decide (x ∈ ord))) = W v + wsum W (Z.filter (fun x => decide (x ∈ ord))) := by
        rw [List.filter_cons, if_pos (by simpa using hvo), wsum_cons]
      have hall0 : wsum W ord + wsum W asg ≤ wsum W (List.range n) := by
        rw [← wsum_append]
        exact wsum_le W hl.nodup fun x hx => List.mem_range.2 (hl.lt x hx)
      rw [Ok_ite]
      refine ⟨fun hroot => ?_, fun hroot => ?_⟩
      · have hlm := q4 hroot
        subst hlm
        obtain ⟨A, B, hAB, hA, hB, hlen, hnew⟩ := hl.component hm q3
        have hset : s.labels.set v (.label l) = s.labels := by
          refine List.ext_getElem? fun u => ?_
          by_cases huv : u = v
          · subst huv; rw [List.getElem?_set_self hvl, hml]
          · rw [List.getElem?_set_ne (Ne.symm huv)]
        rw [hset]
        have hAS : ∀ u ∈ A, u ∈ S := fun u hu => by rw [hAB]; simp [hu]
        have hvA : v ∉ A := fun hc => hvS (hAS v hc)
        wp
        refine ⟨by omega, ?_⟩
        have hSnd : (A ++ B).Nodup := by rw [← hAB]; exact (List.nodup_append.1 hl.dnd).2.1
        have hcn : c < n := by have := hl.cnt; omega
        have hlab' : s.label = .label (n - 1 - c) := by rw [hlab, labOf, if_pos hcn]
        refine (scc_pop_ok (n := n) (k := l) hl.len (by simpa using hp.ssl) hvA hml hSnd (by rw [← hAB]; exact hSss) hA hB
          (by omega) (by omega)).mono ?_
        rintro ⟨labels', ss', h', ix'⟩ ⟨e1, e2, e3, e4, e5, e6⟩
        simp only at e1 e2 e3 e4 e5 e6
        wp
        refine ⟨by omega, ?_⟩
        rw [hlab']
        simp only [scc_next]
        wp
        have hZA : ∀ u ∈ Z, u ∉ A := fun u hu hc =>
          (List.nodup_append.1 hl.dnd).2.2 u (by simp [hu]) u (hAS u hc) rfl
        have hfin := hnew (labels'.set v (.label (n - 1 - c))) (by simpa using e1) (by
          intro u hu
          by_cases huv : u = v
          · subst huv; rw [List.getElem?_set_self (by omega)]
          · rw [List.getElem?_set_ne (Ne.symm huv), ← hlab']
            exact (e3 u ((List.mem_cons.1 hu).resolve_left huv)).1) (by
          intro u hu
          simp only [List.mem_cons, not_or] at hu
          rw [List.getElem?_set_ne (Ne.symm hu.1)]
          exact (e4 u hu.2).1)
        have htk : (ord.take l).length = l := by rw [List.length_take]; omega
        have hall : ∀ u, u ∈ ord ∨ u ∈ asg → u ∈ ord.take l ∨ u ∈ v :: A ++ asg := by
            intro u hu
            by_contra hc
            rw [not_or] at hc
            obtain ⟨x, hx⟩ := hl.visited hu
            have hun : u < n := by
              rcases hu with hu | hu
              · exact hl.lt u (by simp [hu])
              · exact hl.lt u (by simp [hu])
            have := hfin.void u hun hc.1 hc.2
            have huA : u ∉ v :: A := fun h => hc.2 (List.mem_append.2 (Or.inl h))
            simp only [List.mem_cons, not_or] at huA
            rw [List.getElem?_set_ne (Ne.symm huA.1), (e4 u huA.2).1, hx] at this
            simp at this
        refine ⟨k - W v, ?_, Z, B, ord.take l, v :: A ++ asg, c + 1, _, ⟨e2, by simpa using hsb1, ?_, e5, hbZ', ?_⟩, hfin, ?_, ?_, ?_, ?_, ?_⟩
        · rw [hfv] at hk
          omega
        · exact hZss.congr fun w hw => (e4 w (hZA w hw)).2
        · intro x hx hxZ hxB
          by_cases hxA : x ∈ A
          · exact (e3 x hxA).2
          · show ss'[x]? = _
            rw [(e4 x hxA).2]
            by_cases hxv : x = v
            · subst hxv; rw [List.getElem?_set_self hvss]
            · rw [List.getElem?_set_ne (Ne.symm hxv)]
              exact hp.void x hx (by simp [hxv, hxZ]) (by rw [hAB]; simp [hxA, hxB])
        · show ix' = _
          rw [htk]; omega
        · show (if n - 1 - c = 0 then Node.void else .label (n - 1 - c - 1)) = labOf n (c + 1)
          unfold labOf
          by_cases hc1 : c + 1 < n
          · rw [if_pos hc1, if_neg (by omega)]; congr 1
          · rw [if_neg hc1, if_pos (by omega)]
        · intro u hu
          exact List.mem_append.2 (Or.inr (hW u hu))
        · rcases hr0 with h1 | h1
          · rcases List.mem_cons.1 h1 with rfl | h1
            · exact Or.inr (Or.inr (by simp))
            · exact Or.inl h1
          · exact Or.inr (hall r0 h1)
        · have h1 : wsum W (Z.filter (fun x => decide (x ∈ ord.take l))) ≤ wsum W (Z.filter (fun x => decide (x ∈ ord))) := by
            refine wsum_sublist W (List.monotone_filter_right Z ?_)
            intro x hx
            simp only [decide_eq_true_eq] at hx ⊢
            exact List.mem_of_mem_take hx
          have h2 := wsum_le W hl.nodup (l' := ord.take l ++ (v :: A ++ asg)) fun x hx =>
            List.mem_append.2 (hall x (List.mem_append.1 hx))
          rw [wsum_append, wsum_append] at h2
          rw [hfv] at hk
          omega
      · obtain ⟨q6, q7⟩ := q5 (by simpa using hroot)
        have hnew := hl.finish hm q6 q7 q3
        wp
        refine ⟨by simpa using hvss, k - W v, ?_, Z, v :: S, ord, asg, c, κ, ⟨by simpa using hp.ssl, by simpa using hsb1, ?_, ?_, hbZ', ?_⟩,
          hnew, hix, hlab, hW, ?_, ?_⟩
        · rw [hfv] at hk
          omega
        · exact hZss.set hvZ _
        · refine ⟨rfl, s.ss_head, ?_, hp.stkS.ne_void, hSss.set hvS _⟩
          rw [List.getElem?_set_self (by simpa using hvss)]
        · intro x hx hxZ hxS
          simp only [List.mem_cons, not_or] at hxS
          show ((s.ss.set v Node.void).set v s.ss_head)[x]? = _
          rw [List.getElem?_set_ne (Ne.symm hxS.1), List.getElem?_set_ne (Ne.symm hxS.1)]
          exact hp.void x hx (by simp [hxS.1, hxZ]) hxS.2
        · rcases hr0 with h1 | h1
          · rcases List.mem_cons.1 h1 with rfl | h1
            · exact Or.inr (Or.inl hvo)
            · exact Or.inl h1
          · exact Or.inr h1
        · rw [hfv] at hk
          omega
    cases Z with
    | nil =>
      have : nx = .fin := hZs
      subst this
      simp only [ne_eq, not_true_eq_false, and_false, if_false]
      exact cont s.stack_b hp.sbl trivial
    | cons z Z =>
      have : nx = .label z := hZs.1
      subst this
      have hz := hp.bck.lt z (by simp)
      simp only [ne_eq, reduceCtorEq, not_false_eq_true, and_self, if_true]
      rw [Ok_bind, Ok_pure, Ok_bind, Ok_wr]
      refine ⟨hz, cont (s.stack_b.set z .fin) (by simpa using hp.sbl) ⟨?_, ?_⟩⟩
      · rw [List.getElem?_set_self hz]
      · exact hp.bck.2.2.set (List.nodup_cons.1 (List.nodup_cons.1 hDnd).2).1 _
  · have hvv : s.labels[v]? = some .void := hl.void v hvn hvo hva
    rds [hvv]
    simp only [if_true]
    wp
    refine ⟨hvl, ?_⟩
    have hvl' : (s.labels.set v (.label s.index))[v]? = some (.label s.index) := List.getElem?_set_self hvl
    refine (scc_push_ok hg hvn (hG v hvn) (labels := s.labels.set v (.label s.index)) (by simpa using hl.len)
      hp.ssl hp.sbl (by rw [hvl']; simp) hDnd hp.stkD hp.bck ?_).mono ?_
    · intro x hx hxD
      have hxv : x ≠ v := by rintro rfl; exact hxD (by simp)
      rw [List.getElem?_set_ne (Ne.symm hxv)] at hx
      have hxl := lt_of_getElem?_some hx
      rw [hl.len] at hxl
      refine hp.void x hxl hxD fun hc => ?_
      exact (hl.unvisited hx).1 (hl.sord x hc)
    · rintro ⟨ss', sb', hd'⟩ ⟨U, hUnd, hU, e1, e2, e3, e4, e5⟩
      simp only at e1 e2 e3 e4 e5
      wp
      rw [hix] at hU
      have hnew := hl.visit hvo (fun u w hw hu => hg.lt u w hu hw) hUnd hU
      have hUo : ∀ u ∈ U, u ∉ ord ∧ u ≠ v := by
        intro u hu
        have h1 := ((hU u).1 hu).2
        have huv : u ≠ v := by
          rintro rfl
          rw [← hix, hvl'] at h1; simp at h1
        rw [List.getElem?_set_ne (Ne.symm huv)] at h1
        exact ⟨(hl.unvisited h1).1, huv⟩
      have hmem : ∀ u, u ∈ U.reverse ++ v :: Z.filter (fun x => decide (x ∉ U)) ↔ u ∈ U ∨ u ∈ v :: Z := by
        intro u
        by_cases huU : u ∈ U <;> simp [huU]
      have hSD : ∀ u ∈ S, u ∉ U.reverse ++ v :: Z.filter (fun x => decide (x ∉ U)) := by
        intro u hu hc
        exact (List.nodup_append.1 hnew.dnd).2.2 u hc u hu rfl
      have hlen : wsum W ((U.reverse ++ v :: Z.filter (fun x => decide (x ∉ U))).filter (fun x => decide (x ∈ ord ++ [v]))) ≤
          W v + wsum W (Z.filter (fun x => decide (x ∈ ord))) := by
        rw [List.filter_append, List.filter_eq_nil_iff.2 (fun a ha => by
          rw [List.mem_reverse] at ha
          have := hUo a ha
          simp [this.1, this.2]), List.nil_append, List.filter_cons, if_pos (by simp), wsum_cons]
        have : ((Z.filter (fun x => decide (x ∉ U))).filter (fun x => decide (x ∈ ord ++ [v]))).Sublist
            (Z.filter (fun x => decide (x ∈ ord))) := by
          have h1 : Z.filter (fun x => decide (x ∈ ord)) = Z.filter (fun x => decide (x ∈ ord ++ [v])) := by
            refine List.filter_congr fun x hx => ?_
            have : x ≠ v := by rintro rfl; exact hvZ hx
            simp [this]
          rw [h1]
          exact List.filter_sublist.filter _
        have := wsum_sublist W this
        omega
      have hfv : (v :: Z).filter (fun x => decide (x ∈ ord)) = Z.filter (fun x => decide (x ∈ ord)) := by
        rw [List.filter_cons, if_neg (by simpa using hvo)]
      have htot' := hnew.total
      simp only [List.length_append, List.length_singleton] at htot'
      have hall0 : wsum W ord + W v + wsum W asg ≤ wsum W (List.range n) := by
        have := wsum_le W hnew.nodup fun x hx => List.mem_range.2 (hnew.lt x hx)
        rw [wsum_append, wsum_append, wsum_cons, wsum_nil] at this
        omega
      rw [hfv] at hk
      refine ⟨k - W v, ?_, _, S, ord ++ [v], asg, c, κ, ⟨e1, e2, e3, ?_, e4, ?_⟩, ?_, ?_, hlab, hW, ?_, ?_⟩
      · omega
      · exact hp.stkS.congr fun w hw => e5 w (hSD w hw)
      · intro x hx hxD hxS
        rw [e5 x hxD]
        refine hp.void x hx (fun hc => hxD ((hmem x).2 (Or.inr hc))) hxS
      · rw [hix]; exact hnew
      · simp [hix]
      · rcases hr0 with h1 | h1 | h1
        · exact Or.inl ((hmem r0).2 (Or.inr h1))
        · exact Or.inr (Or.inl (by simp [h1]))
        · exact Or.inr (Or.inr h1)
      · rw [wsum_append W ord, wsum_cons, wsum_nil]
        omega

theorem GReach.asg {n : Nat} {G : Nat → List Nat} {labels : List Node} {D S ord asg : List Nat} {c : Nat} {κ : Nat → Nat}
    (h : SccInv n G labels D S ord asg c κ) {u w : Nat} (hu : u ∈ asg) (hr : GReach G u w) : w ∈ asg ∧ κ w ≤ κ u := by
  induction hr with
  | refl => exact ⟨hu, le_refl _⟩
  | tail _ hw ih =>
    have := h.asuc _ ih.1 _ hw
    exact ⟨this.1, by omega⟩

theorem SInv.start {n : Nat} {G : Nat → List Nat} {W : Nat → Nat} {v : Nat} {s : Scc} {asg : List Nat} {c : Nat} {κ : Nat → Nat}
    (hv : v < n) (hx : s.labels[v]? = some .void) (hp : PInv n s .fin [] []) (hl : SccInv n G s.labels [] [] [] asg c κ)
    (hix : s.index = 0) (hlab : s.label = labOf n c) (hW : ∀ u, u < v → u ∈ asg) :
    SInv n G W v (2 * (wsum W (List.range n) - wsum W asg))
      (({ s with ss := s.ss.set v .fin, stack_b := s.stack_b.set v .fin } : Scc), Node.label v) := by
  have hvu := hl.unvisited hx
  have hssl := hp.ssl
  have hsbl := hp.sbl
  have hss : s.ss_head = .fin := hp.stkS
  refine ⟨[v], [], [], asg, c, κ, ⟨by simpa using hp.ssl, by simpa using hp.sbl, ⟨rfl, .fin, ?_, by simp, rfl⟩, hss,
    ⟨?_, trivial⟩, ?_⟩, ?_, hix, hlab, hW, Or.inl (by simp), by simp [wsum_nil]; omega⟩
  · exact List.getElem?_set_self (by omega)
  · exact List.getElem?_set_self (by omega)
  · intro x hx hxD _
    have hxv : x ≠ v := by simpa using hxD
    show (s.ss.set v .fin)[x]? = _
    rw [List.getElem?_set_ne (Ne.symm hxv)]
    exact hp.void x hx (by simp) (by simp)
  · refine { len := hl.len, nodup := hl.nodup, lt := hl.lt, dnd := by simp, dlt := by simpa using hv,
             dasg := by simpa using hvu.2, sord := by simp, ords := by simp, void := hl.void, plab := by simp,
             slow := by simp, alab := hl.alab, cnt := hl.cnt, sort := by simp, bot := by simp, suc := by simp,
             ssuc := by simp, nxt := by simp, par := by simp, sep := by simp, asuc := hl.asuc, areach := hl.areach,
             aused := hl.aused }

theorem SInv.stop {n : Nat} {G : Nat → List Nat} {W : Nat → Nat} {v k : Nat} {s' : Scc} (h : SInv n G W v k (s', .fin)) :
    ∃ asg' c' κ', PInv n s' .fin [] [] ∧ SccInv n G s'.labels [] [] [] asg' c' κ' ∧ s'.index = 0 ∧ s'.label = labOf n c' ∧
      (∀ u, u < v + 1 → u ∈ asg') ∧ 2 * wsum W (List.range n) ≤ k + 2 * wsum W asg' := by
  obtain ⟨D, S, ord, asg', c', κ', hp', hl', hix', hlab', hW', hr0, hk⟩ := h
  simp only at hp' hl' hix' hlab'
  have hD : D = [] := by
    cases D with
    | nil => rfl
    | cons d D => exact absurd hp'.stkD.1 (by simp)
  subst hD
  have hord : ord = [] := by
    cases ord with
    | nil => rfl
    | cons r ord => exact absurd (hl'.bot r rfl) (by simp)
  subst hord
  have hS : S = [] := by
    cases S with
    | nil => rfl
    | cons r S => exact absurd (hl'.sord r (by simp)) (by simp)
  subst hS
  refine ⟨asg', c', κ', hp', hl', hix', hlab', ?_, by simpa [wsum_nil] using hk⟩
  intro u hu
  rcases Nat.lt_or_ge u v with h1 | h1
  · exact hW' u h1
  · have : u = v := by omega
    subst this
    simpa using hr0

/-- The strong components of a graph whose adjacency lists have no duplicates. -/
theorem ccd_ok {p j : List Int} {n : Nat} {G : Nat → List Nat} {o : Nat → Nat} (hg : GRep p j n G o)
    (hG : ∀ v, v < n → ((G v).filter (· ≠ v)).Nodup) (hn : 0 < n) {fuel : Nat} (hf : 2 * n < fuel) :
    Ok (connected_components_directed fuel n j p) fun r => r.2.length = n ∧ r.1 ≤ n ∧
      (∀ (u w : Nat), u < n → w < n → (r.2[u]? = r.2[w]? ↔ GReach G u w ∧ GReach G w u)) ∧
      (∀ l, l ∈ r.2 ↔ l < r.1) ∧
      (∀ (u w a b : Nat), GReach G u w → r.2[u]? = some a → r.2[w]? = some b → b ≤ a) := by
  unfold connected_components_directed
  wp
  refine ⟨by omega, ?_⟩
  refine Ok_forRange (fun v (s : Scc) => ∃ (asg : List Nat) (c : Nat) (κ : Nat → Nat), PInv n s .fin [] [] ∧
    SccInv n G s.labels [] [] [] asg c κ ∧ s.index = 0 ∧ s.label = labOf n c ∧ ∀ u, u < v → u ∈ asg) (by omega) ?_ ?_ ?_
  · refine ⟨[], 0, fun _ => 0, ⟨by simp, by simp, rfl, rfl, trivial, ?_⟩, ?_, rfl, ?_, by simp⟩
    · intro x hx _ _
      simp [List.getElem?_replicate, hx]
    · constructor <;> simp
      intro u hu
      simp [List.getElem?_replicate, hu]
    · simp [labOf, hn]
  · rintro v s - hv ⟨asg, c, κ, hp, hl, hix, hlab, hW⟩
    have hvl : v < s.labels.length := by rw [hl.len]; exact hv
    obtain ⟨x, hx⟩ : ∃ x, s.labels[v]? = some x := ⟨s.labels[v], by simp⟩
    wp
    rds [hx]
    rw [Ok_ite]
    refine ⟨fun hxv => ?_, fun hxv => ?_⟩
    · subst hxv
      have hssl := hp.ssl
      have hsbl := hp.sbl
      wp
      refine ⟨by omega, by omega, ?_⟩
      have hfu : n < fuel := by omega
      have hstart := SInv.start (W := fun _ => 1) hv hx hp hl hix hlab hW
      rw [wsum_one, wsum_one, List.length_range] at hstart
      refine (Ok_whileN (k := 2 * (n - asg.length)) (P := SInv n G (fun _ => 1) v)
        (Q := fun st => ∃ k, SInv n G (fun _ => 1) v k st ∧ st.2 = .fin) (by omega) hstart ?_).mono ?_
      · rintro k ⟨s', hd⟩ hk
        simp only
        rw [Ok_ite]
        refine ⟨fun hfin => ?_, fun hfin => ?_⟩
        · wp
          exact ⟨k, hk, hfin⟩
        · wp
          obtain ⟨u, -, -, hu⟩ := scc_step_ok hg hG hfu hfin hk
          exact hu.mono fun r ⟨k', h1, h2⟩ => ⟨k', by omega, h2⟩
      · rintro ⟨s', hd⟩ ⟨k, hk, hfin⟩
        simp only at hfin
        subst hfin
        obtain ⟨asg', c', κ', hp', hl', hix', hlab', hW', -⟩ := hk.stop
        wp
        exact ⟨_, rfl, asg', c', κ', hp', hl', hix', hlab', hW'⟩
    · wp
      refine ⟨_, rfl, asg, c, κ, hp, hl, hix, hlab, ?_⟩
      intro u hu
      rcases Nat.lt_or_ge u v with h1 | h1
      · exact hW u h1
      · have : u = v := by omega
        subst this
        by_contra hc
        have := hl.void u hv (by simp) hc
        rw [hx] at this
        exact hxv (by simpa using this)
  · rintro s ⟨asg, c, κ, hp, hl, -, hlab, hW⟩
    have hcn : c ≤ n := by have := hl.cnt; have := hl.total; simp at this; omega
    have rest : Ok (do
        let out ← forIn s.labels ([] : List Nat) fun l out => do
          let a ← usub n 1
          let b ← l.unwrap
          let d ← usub a b
          pure (ForInStep.yield (out ++ [d]))
        pure (c, out)) fun r => r.2.length = n ∧ r.1 ≤ n ∧
      (∀ (u w : Nat), u < n → w < n → (r.2[u]? = r.2[w]? ↔ GReach G u w ∧ GReach G w u)) ∧
      (∀ l, l ∈ r.2 ↔ l < r.1) ∧
      (∀ (u w a b : Nat), GReach G u w → r.2[u]? = some a → r.2[w]? = some b → b ≤ a) := by
      wp
      refine Ok_forList (fun pre (out : List Nat) => out.length = pre.length ∧ ∀ u : Nat, u < pre.length → out[u]? = some (κ u))
        ⟨rfl, by simp⟩ ?_ ?_
      · rintro pre x suf out hE ⟨h1, h2⟩
        have hx : s.labels[pre.length]? = some x := by rw [hE]; simp
        have hun : pre.length < n := by rw [← hl.len]; exact lt_of_getElem?_some hx
        obtain ⟨h3, h4⟩ := hl.alab _ (hW _ hun)
        rw [hx] at h4
        simp only [Option.some.injEq] at h4
        subst h4
        simp only [Node.unwrap]
        wp
        refine ⟨by omega, by omega, _, rfl, by simp [h1], ?_⟩
        intro u hu
        simp only [List.length_append, List.length_singleton] at hu
        rcases Nat.lt_or_ge u pre.length with h5 | h5
        · rw [List.getElem?_append_left (by omega)]; exact h2 u h5
        · have : u = pre.length := by omega
          subst this
          rw [List.getElem?_append_right (by omega), h1]
          simp
          omega
      · rintro out ⟨h1, h2⟩
        rw [hl.len] at h1 h2
        refine ⟨h1, hcn, ?_, ?_, ?_⟩
        · intro u w hu hw
          rw [h2 u hu, h2 w hw]
          constructor
          · intro h
            have h' : κ u = κ w := by simpa using h
            exact ⟨hl.areach u (hW u hu) w (hW w hw) h', hl.areach w (hW w hw) u (hW u hu) h'.symm⟩
          · rintro ⟨h3, h4⟩
            have := (GReach.asg hl (hW u hu) h3).2
            have := (GReach.asg hl (hW w hw) h4).2
            congr 1; omega
        · intro l
          constructor
          · intro hlm
            obtain ⟨u, hu⟩ := List.mem_iff_getElem?.1 hlm
            have hun := lt_of_getElem?_some hu
            rw [h1] at hun
            rw [h2 u hun] at hu
            have := (hl.alab u (hW u hun)).1
            simp at hu
            omega
          · intro hlc
            obtain ⟨u, h3, h4⟩ := hl.aused l hlc
            have hun := hl.lt u (by simp [h3])
            exact List.mem_of_getElem? (i := u) (by rw [h2 u hun, h4])
        · intro u w a b hr ha hb
          have hun := lt_of_getElem?_some ha
          have hwn := lt_of_getElem?_some hb
          rw [h1] at hun hwn
          rw [h2 u hun] at ha
          rw [h2 w hwn] at hb
          simp only [Option.some.injEq] at ha hb
          have := (GReach.asg hl (hW u hun) hr).2
          omega
    rw [hlab]
    unfold labOf
    by_cases hc : c < n
    · simp only [hc, if_true]
      rw [Ok_bind, Ok_usub]
      refine ⟨by omega, ?_⟩
      rw [Ok_bind, Ok_usub]
      refine ⟨by omega, ?_⟩
      rw [show n - 1 - (n - 1 - c) = c by omega]
      exact rest
    · simp only [hc, if_false]
      rw [Ok_bind, Ok_pure]
      have : n = c := by omega
      rw [this] at rest ⊢
      exact rest

end Sparse

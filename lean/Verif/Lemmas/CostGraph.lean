import Verif.Model.CostGraph
import Verif.Lemmas.CostScc
import Verif.Lemmas.GraphDfs
import Verif.Lemmas.GraphBfs
/-! The running times of the searches of src/graph.rs. -/
namespace Sparse
open MT
section
variable {T : Type}

theorem cc_pushT_outcome (v : Nat) (j p : List Int) (labels : List Node) (h : Node) :
    (cc_pushT v j p labels h).outcome = cc_push v j p labels h := by
  unfold cc_pushT cc_push
  erase []
theorem connected_components_undirectedT_outcome (fuel n : Nat) (j1 p1 j2 p2 : List Int) :
    (connected_components_undirectedT fuel n j1 p1 j2 p2).outcome = connected_components_undirected fuel n j1 p1 j2 p2 := by
  unfold connected_components_undirectedT connected_components_undirected
  erase [cc_pushT_outcome]
theorem csg_seedT_outcome (fuel n : Nat) (ft : IdxTy) (flag : List Int) :
    (csg_seedT fuel n ft flag).outcome = csg_seed fuel n ft flag := by
  unfold csg_seedT csg_seed
  erase []
theorem csg_roundT_outcome (ft : IdxTy) (c : Nat) (p j : List Int) (a b : Nat) (flag pos : List Int) (k : Nat) :
    (csg_roundT ft c p j a b flag pos k).outcome = csg_round ft c p j a b flag pos k := by
  unfold csg_roundT csg_round
  erase []
theorem csg_searchT_outcome (ft : IdxTy) (n c : Nat) (p j : List Int) (flag pos : List Int) :
    (csg_searchT ft n c p j flag pos).outcome = csg_search ft n c p j flag pos := by
  unfold csg_searchT csg_search
  erase [csg_roundT_outcome]
theorem cs_graph_componentsT_outcome (t ft : IdxTy) (fuel n : Nat) (p j : List Int) (flag : List Int) :
    (cs_graph_componentsT t ft fuel n p j flag).outcome = cs_graph_components t ft fuel n p j flag := by
  unfold cs_graph_componentsT cs_graph_components
  erase [csg_seedT_outcome, csg_searchT_outcome]
theorem CSR.connected_componentsT_outcome (t ft : IdxTy) (fuel : Nat) (a : CSR T) :
    (a.connected_componentsT t ft fuel).outcome = a.connected_components t ft fuel := by
  unfold CSR.connected_componentsT CSR.connected_components
  erase [cs_graph_componentsT_outcome]
theorem dfs_childT_outcome (v : Nat) (j p : List Int) (s : Dfs) :
    (dfs_childT v j p s).outcome = dfs_child v j p s := by
  unfold dfs_childT dfs_child
  erase []
theorem dfs_initT_outcome (v : Nat) (nl : List Nat) (pr : List (Option Nat)) :
    (dfs_initT v nl pr).outcome = dfs_init v nl pr := by
  unfold dfs_initT dfs_init
  erase []
theorem depth_first_directedT_outcome (fuel v : Nat) (j p : List Int) (nl : List Nat) (pr : List (Option Nat)) :
    (depth_first_directedT fuel v j p nl pr).outcome = depth_first_directed fuel v j p nl pr := by
  unfold depth_first_directedT depth_first_directed
  erase [dfs_initT_outcome, dfs_childT_outcome]
theorem depth_first_undirectedT_outcome (fuel v : Nat) (j1 p1 j2 p2 : List Int) (nl : List Nat) (pr : List (Option Nat)) :
    (depth_first_undirectedT fuel v j1 p1 j2 p2 nl pr).outcome = depth_first_undirected fuel v j1 p1 j2 p2 nl pr := by
  unfold depth_first_undirectedT depth_first_undirected
  erase [dfs_initT_outcome, dfs_childT_outcome]
theorem CSC.to_csrGT_outcome [Zero T] (t : IdxTy) (a : CSC T) : (a.to_csrGT t).outcome = a.to_csr t := by
  unfold CSC.to_csrGT CSC.to_csr
  erase [csr_tocscT_outcome]
theorem CSR.transposeGT_outcome (a : CSR T) : a.transposeGT.outcome = a.transpose := rfl
theorem connected_componentsT_outcome [Zero T] (t : IdxTy) (fuel : Nat) (g : CSR T) (d : Bool) (c : Connection) :
    (connected_componentsT t fuel g d c).outcome = connected_components t fuel g d c := by
  unfold connected_componentsT connected_components
  erase [connected_components_directedT_outcome, connected_components_undirectedT_outcome, CSC.to_csrGT_outcome, CSR.transposeGT_outcome]
theorem depth_first_orderT_outcome [Zero T] (t : IdxTy) (fuel : Nat) (g : CSR T) (v : Nat) (d : Bool) :
    (depth_first_orderT t fuel g v d).outcome = depth_first_order t fuel g v d := by
  unfold depth_first_orderT depth_first_order
  erase [depth_first_directedT_outcome, depth_first_undirectedT_outcome, CSC.to_csrGT_outcome, CSR.transposeGT_outcome]
end

theorem RT.of_ok {m : MT α} {f : M α} {Q : α → Prop} {B : Nat} (ho : m.outcome = f) (hok : Ok f Q) (hb : m.steps ≤ B) :
    RT m fun a c => Q a ∧ c ≤ B := by
  intro a ha
  obtain ⟨b, hb', hq⟩ := hok
  rw [ho, hb'] at ha
  cases ha
  exact ⟨hq, hb⟩

/-! ### undirected components -/

theorem cc_pushT_tb {p : List Int} (j : List Int) {v a b : Nat} (h1 : p[v]? = some (a : Int)) (h2 : p[v + 1]? = some (b : Int))
    (labels : List Node) (h : Node) : TB (cc_pushT v j p labels h) (2 + 4 * (b - a)) fun _ => True := by
  unfold cc_pushT
  tb
  rename_i u hu _ u' hu' _
  rw [h1] at hu
  rw [h2] at hu'
  cases hu
  cases hu'
  refine TB.bind (TB.forConst (fun _ _ => True) 4 trivial ?_ (Nat.le_refl _) fun _ h => h) (by simp) fun _ h => TB.pure trivial
  intro i s _ _ _
  tb
  split
  · tb
    exact TB.pure ⟨_, rfl, trivial⟩
  · exact TB.pure ⟨_, rfl, trivial⟩

/-- `C` is labelled, `S` is on the stack: as `CCIn`, without the paths -/
structure CCJ (n : Nat) (labels0 : List Node) (L : Nat) (labels : List Node) (h : Node) (S C : List Nat) : Prop where
  len : labels.length = n
  stk : Stk labels h S
  nodup : (S ++ C).Nodup
  void : ∀ u ∈ S ++ C, labels0[u]? = some .void
  lab : ∀ u ∈ C, labels[u]? = some (.label L)
  keep : ∀ u, u ∉ S ++ C → labels[u]? = labels0[u]?

theorem CCJ.step {p1 j1 p2 j2 : List Int} {n : Nat} {G1 G2 : Nat → List Nat} {o1 o2 : Nat → Nat}
    (hg1 : GRep p1 j1 n G1 o1) (hg2 : GRep p2 j2 n G2 o2) {labels0 : List Node} {L : Nat} {labels : List Node} {v : Nat} {S C : List Nat}
    {x : Node} (hi : CCJ n labels0 L labels (.label v) (v :: S) C) (hx : labels[v]? = some x) :
    RT (do
      let (labels, ss_head) ← cc_pushT v j1 p1 (labels.set v (.label L)) x
      let (labels, ss_head) ← cc_pushT v j2 p2 labels ss_head
      Pure.pure (ForInStep.yield (labels, ss_head)) : MT (ForInStep (List Node × Node))) fun st c =>
      ∃ s' S', st = .yield s' ∧ CCJ n labels0 L s'.1 s'.2 S' (v :: C) ∧ c ≤ 4 + 4 * ((G1 v).length + (G2 v).length) := by
  obtain ⟨-, x', hxl, hxv, hstk⟩ := hi.stk
  rw [hx] at hxl
  cases hxl
  have hnd := hi.nodup
  simp only [List.cons_append, List.nodup_cons] at hnd
  have hvS : v ∉ S := fun hc => hnd.1 (by simp [hc])
  have hvC : v ∉ C := fun hc => hnd.1 (by simp [hc])
  have hvn : v < n := by have := lt_of_getElem?_some hx; have := hi.len; omega
  have hset : ∀ u, u ≠ v → (labels.set v (.label L))[u]? = labels[u]? := fun u hu => by
    simp [List.getElem?_set, Ne.symm hu]
  have hstk1 : Stk (labels.set v (.label L)) x S := hstk.congr fun u hu => hset u fun h => hvS (h ▸ hu)
  have hnd1 : (S ++ (v :: C)).Nodup := by
    rw [List.nodup_middle, List.nodup_cons]; exact hnd
  have hmem1 : ∀ u, u ∈ S ++ (v :: C) ↔ u ∈ (v :: S) ++ C := by
    intro u; simp; tauto
  have hlab1 : ∀ u ∈ v :: C, (labels.set v (.label L))[u]? = some (.label L) := by
    intro u hu
    rcases List.mem_cons.1 hu with rfl | hu
    · rw [List.getElem?_set_self (lt_of_getElem?_some hx)]
    · rw [hset u fun h => hvC (h ▸ hu)]; exact hi.lab u hu
  have hkeep1 : ∀ u, u ∉ S ++ (v :: C) → (labels.set v (.label L))[u]? = labels0[u]? := by
    intro u hu
    rw [hset u fun h => hu (by simp [h])]
    exact hi.keep u fun h => hu ((hmem1 u).2 h)
  have t1 := cc_pushT_tb j1 (hg1.start v hvn) (hg1.stop v hvn) (labels.set v (.label L)) x
  refine RT.bind ((RT.of_ok (cc_pushT_outcome ..) (cc_push_ok hg1 hvn (by simpa using hi.len) hstk1) t1.1).mono ?_)
  rintro ⟨l2, h2⟩ c1 ⟨⟨hlen2, N1, hN1, hs2, hv1, hG1, hk1⟩, hc1⟩
  simp only at hlen2 hs2 hG1 hk1
  obtain ⟨a1, a2, a3, a4⟩ := CCIn.push (fun u hu => hi.void u ((hmem1 u).1 hu)) hstk1 hlab1 hN1 (fun w hw => (hv1 w hw).1) hk1 hkeep1 hnd1
  have t2 := cc_pushT_tb j2 (hg2.start v hvn) (hg2.stop v hvn) l2 h2
  refine RT.bind ((RT.of_ok (cc_pushT_outcome ..) (cc_push_ok hg2 hvn hlen2 hs2) t2.1).mono ?_)
  rintro ⟨l3, h3⟩ c2 ⟨⟨hlen3, N2, hN2, hs3, hv2, hG2, hk2⟩, hc2⟩
  simp only at hlen3 hs3 hG2 hk2
  obtain ⟨b1, b2, b3, b4⟩ := CCIn.push a2 hs2 a3 hN2 (fun w hw => (hv2 w hw).1) hk2 a4 a1
  refine RT.pure ⟨_, N2 ++ (N1 ++ S), rfl, ⟨hlen3, hs3, by simpa using b1, by simpa using b2, b3, by simpa using b4⟩, ?_⟩
  simp only [Nat.add_sub_cancel_left] at hc1 hc2
  omega

/-- the number of steps of the search for undirected components, if it returns -/
theorem ccuT_rt {p1 j1 p2 j2 : List Int} {n : Nat} {G1 G2 : Nat → List Nat} {o1 o2 : Nat → Nat}
    (hg1 : GRep p1 j1 n G1 o1) (hg2 : GRep p2 j2 n G2 o2) {fuel : Nat} :
    RT (connected_components_undirectedT fuel n j1 p1 j2 p2) fun _ c =>
      c ≤ wsum (fun v => 7 + 4 * ((G1 v).length + (G2 v).length)) (List.range n) + 7 * n := by
  unfold connected_components_undirectedT vecT
  refine RT.lift_bind fun a ha => ?_
  cases ha
  refine RT.bind (RT.mono (RT.forRange (Q := fun s c => s.1.length = n ∧
      c ≤ wsum (fun v => 7 + 4 * ((G1 v).length + (G2 v).length)) (List.range n) + 4 * n)
    (fun v s c => ∃ asg : List Nat, s.1.length = n ∧ asg.Nodup ∧ (∀ u ∈ asg, u < n) ∧ (∀ u ∈ asg, s.1[u]? ≠ some .void) ∧
      c ≤ wsum (fun v => 7 + 4 * ((G1 v).length + (G2 v).length)) asg + 4 * v) (Nat.zero_le n) ?_ ?_ ?_) ?_)
  · exact ⟨[], by simp, by simp, by simp, by simp, by simp⟩
  · rintro v ⟨labels0, L⟩ c - hv ⟨asg, hlen, hnd, hlt, hvoid, hc⟩
    simp only at hlen hvoid hc ⊢
    refine RT.tick_bind (RT.rd_bind fun x hx => ?_)
    split
    · rename_i hxv
      subst hxv
      refine RT.wr_bind (RT.bind ?_)
      refine (RT.whileT (c := 0) (I := fun st c' => ∃ S C, CCJ n labels0 L st.1 st.2 S C ∧
          c' ≤ wsum (fun v => 7 + 4 * ((G1 v).length + (G2 v).length)) C)
        (Q := fun st c' => ∃ C, CCJ n labels0 L st.1 .fin [] C ∧
          c' ≤ wsum (fun v => 7 + 4 * ((G1 v).length + (G2 v).length)) C + 1) ⟨[v], [], ⟨?_, ⟨rfl, .fin, ?_, by simp, rfl⟩, by simp, ?_, by simp, ?_⟩, by simp⟩ ?_).mono ?_
      · simpa using hlen
      · rw [List.getElem?_set_self (by omega)]
      · intro u hu; simp at hu; subst hu; exact hx
      · intro u hu
        simp at hu
        simp [Ne.symm hu]
      · rintro ⟨labels, h⟩ c' ⟨S, C, hi, hc'⟩
        simp only at hi hc' ⊢
        split
        · rename_i hfin
          subst hfin
          cases S with
          | cons w S => exact absurd hi.stk.1 (by simp)
          | nil => exact RT.pure ⟨C, hi, by omega⟩
        · rename_i hfin
          cases S with
          | nil => exact absurd hi.stk hfin
          | cons w S =>
            obtain ⟨rfl, -⟩ := hi.stk
            refine RT.free_bind fun w' hw' => ?_
            cases hw'
            refine RT.rd_bind fun x hx => RT.wr_bind ?_
            refine (hi.step hg1 hg2 hx).mono ?_
            rintro st d ⟨s', S', rfl, hj, hd⟩
            refine ⟨S', w :: C, hj, ?_⟩
            rw [wsum_cons]
            omega
      · rintro ⟨labels, h⟩ c' ⟨C, hi, hc'⟩
        refine RT.pure ⟨_, rfl, C ++ asg, hi.len, ?_, ?_, ?_, ?_⟩
        · rw [List.nodup_append]
          refine ⟨by simpa using hi.nodup, hnd, fun a ha b hb hab => ?_⟩
          subst hab
          exact hvoid a hb (hi.void a (by simpa using ha))
        · intro u hu
          rcases List.mem_append.1 hu with hu | hu
          · have := lt_of_getElem?_some (hi.lab u hu)
            have := hi.len
            omega
          · exact hlt u hu
        · intro u hu
          by_cases hC : u ∈ C
          · show labels[u]? ≠ _
            rw [hi.lab u hC]; simp
          · show labels[u]? ≠ _
            rw [hi.keep u (by simpa using hC)]
            exact hvoid u ((List.mem_append.1 hu).resolve_left hC)
        · rw [wsum_append]
          omega
    · exact RT.pure ⟨_, rfl, asg, hlen, hnd, hlt, hvoid, by omega⟩
  · rintro s c ⟨asg, hlen, hnd, hlt, hvoid, hc⟩
    have := wsum_le (fun v => 7 + 4 * ((G1 v).length + (G2 v).length)) hnd fun x hx => List.mem_range.2 (hlt x hx)
    exact ⟨hlen, by omega⟩
  · rintro ⟨labels, L⟩ c ⟨hlen, hc⟩
    simp only at hlen
    refine RT.bind ((RT.forList 2 ?_).mono fun out d hd => RT.pure ?_)
    · intro l out
      exact RT.tick_bind (RT.free_bind fun _ _ => RT.tick_bind (RT.pure ⟨⟨_, rfl⟩, by simp⟩))
    · rw [hlen] at hd
      omega

/-- a loop that may stop early -/
theorem RT.forRange' {a b : Nat} {s : σ} {f : Nat → σ → MT (ForInStep σ)} {Q : σ → Nat → Prop} (I : Nat → σ → Nat → Prop) (hab : a ≤ b)
    (h0 : I a s 0)
    (hs : ∀ i s c, a ≤ i → i < b → I i s c → RT (f i s) fun st d =>
      match st with | .yield s' => I (i + 1) s' (c + d) | .done s' => Q s' (c + d))
    (hQ : ∀ s c, I b s c → Q s c) : RT (forIn (rng a b) s f) Q := by
  have key : ∀ (d a : Nat) (s : σ) (c : Nat), b - a = d → a ≤ b → I a s c →
      (∀ i s c, a ≤ i → i < b → I i s c → RT (f i s) fun st d =>
        match st with | .yield s' => I (i + 1) s' (c + d) | .done s' => Q s' (c + d)) →
      RT (forIn (rng a b) s f) fun s' d => Q s' (c + d) := by
    intro d
    induction d with
    | zero =>
      intro a s c hd hab h0 _
      have : a = b := by omega
      subst this
      rw [rng_eq_nil (Nat.le_refl _), List.forIn_nil]
      exact RT.pure (hQ _ _ h0)
    | succ d ih =>
      intro a s c hd hab h0 hs
      rw [rng_cons (by omega), List.forIn_cons]
      refine RT.bind ((hs a s c (Nat.le_refl _) (by omega) h0).mono ?_)
      rintro (s' | s') e h'
      · exact RT.pure h'
      · refine (ih (a + 1) s' (c + e) (by omega) (by omega) h' fun i s c h1 h2 => hs i s c (by omega) h2).mono fun s'' d' h => ?_
        rwa [← Nat.add_assoc]
  exact (key (b - a) a s 0 rfl hab h0 hs).mono fun s d h => by rwa [Nat.zero_add] at h

/-! ### depth first search -/

/-- `Child` with the number `c` of steps: the entries before the one found are all looked at -/
def ChildT (p : Nat) (L : List Nat) (s : Dfs) (r : Dfs × Bool) (c : Nat) : Prop :=
  c ≤ 2 + 7 * L.length ∧
  (((∀ w ∈ L, s.flag[w]? = some true) ∧ r = (s, true)) ∨
  ∃ pre w suf, L = pre ++ w :: suf ∧ (∀ x ∈ pre, s.flag[x]? = some true) ∧ s.flag[w]? = some false ∧
    r = (s.visit p w, false) ∧ pre.length ≤ c)

theorem ChildT.child {p : Nat} {L : List Nat} {s : Dfs} {r : Dfs × Bool} {c : Nat} (h : ChildT p L s r c) : Child p L s r := by
  rcases h.2 with h | ⟨pre, w, suf, h1, h2, h3, h4, -⟩
  · exact .inl h
  · exact .inr ⟨pre, w, suf, h1, h2, h3, h4⟩

theorem dfs_childT_rt {p j : List Int} {n : Nat} {G : Nat → List Nat} {o : Nat → Nat} (hg : GRep p j n G o)
    {v : Nat} (hv : v < n) (s : Dfs) : RT (dfs_childT v j p s) (ChildT v (G v) s) := by
  unfold dfs_childT
  refine RT.rd_bind fun u hu => RT.free_bind fun a ha => RT.rd_bind fun u' hu' => RT.free_bind fun b hb => ?_
  rw [hg.start v hv] at hu
  rw [hg.stop v hv] at hu'
  cases hu
  cases hu'
  have e1 : toUsize ((o v : Nat) : Int) = .ok (o v) := by simp [toUsize]; rfl
  have e2 : toUsize ((o v + (G v).length : Nat) : Int) = .ok (o v + (G v).length) := by simp [toUsize]; rfl
  rw [e1] at ha
  rw [e2] at hb
  cases ha
  cases hb
  refine RT.bind ((RT.forRange' (Q := fun st c => ChildT v (G v) s st (c + 2))
    (fun i st c => st = (s, true) ∧ i - o v ≤ c ∧ c ≤ 3 * (i - o v) ∧ ∀ x ∈ (G v).take (i - o v), s.flag[x]? = some true)
    (by omega) (by simp) ?_ ?_).mono ?_)
  · rintro i st c hi1 hi2 ⟨rfl, hc1, hc2, hpre⟩
    obtain ⟨q, rfl⟩ : ∃ q, i = o v + q := ⟨i - o v, by omega⟩
    have hq : q < (G v).length := by omega
    simp only [Nat.add_sub_cancel_left] at hc1 hc2 hpre
    have hG : (G v) = (G v).take q ++ (G v)[q] :: (G v).drop (q + 1) := by simp
    refine RT.tick_bind (RT.rd_bind fun z hz => RT.free_bind fun w hw => ?_)
    rw [hg.get v q (G v)[q] hv (by simp)] at hz
    cases hz
    have e3 : toUsize (((G v)[q] : Nat) : Int) = .ok (G v)[q] := by simp [toUsize]; rfl
    rw [e3] at hw
    cases hw
    refine RT.rd_bind fun b hb => ?_
    split
    · rename_i hbt
      subst hbt
      refine RT.pure ⟨rfl, by omega, by omega, ?_⟩
      intro x hx
      rw [show o v + q + 1 - o v = q + 1 by omega, List.take_succ_eq_append_getElem hq] at hx
      rcases List.mem_append.1 hx with hx | hx
      · exact hpre x hx
      · rw [List.mem_singleton.1 hx]; exact hb
    · rename_i hbt
      have hbf : b = false := by simpa using hbt
      subst hbf
      refine RT.wr_bind (RT.wr_bind (RT.wr_bind (RT.wr_bind (RT.pure ⟨?_, .inr ⟨_, _, _, hG, hpre, hb, rfl, ?_⟩⟩))))
      · omega
      · simp; omega
  · rintro st c ⟨rfl, hc1, hc2, hpre⟩
    refine ⟨by omega, .inl ⟨?_, rfl⟩⟩
    rwa [Nat.add_sub_cancel_left, List.take_length] at hpre
  · rintro ⟨s', nc⟩ c hc
    refine RT.pure ?_
    rwa [show 1 + (1 + (c + 0)) = c + 2 by omega]

theorem dfs_initT_rt {n start : Nat} (hs : start < n) (G : Nat → List Nat) :
    RT (dfs_initT start (List.replicate n 0) (List.replicate n none)) fun s c =>
      DfsInv n start G s [start] [start] ∧ c ≤ 2 * n + 3 := by
  refine RT.of_ok (dfs_initT_outcome ..) (dfs_init_ok hs G) ?_
  suffices h : TB (dfs_initT start (List.replicate n 0) (List.replicate n none)) (2 * n + 3) fun _ => True from h.1
  unfold dfs_initT
  rw [List.length_replicate]
  refine TB.vec_bind (by omega) (TB.vec_bind (by omega) (TB.wr_bind (by omega) (TB.wr_bind (by omega) (TB.wr_bind (by omega) ?_))))
  exact TB.pure trivial

theorem dfs_tailT_rt {n start : Nat} {G : Nat → List Nat} {s : Dfs} {K S0 : List Nat} {p : Nat}
    (h : DfsInv n start G s K (S0 ++ [p])) (hG : ∀ u w, u < n → w ∈ G u → w < n) {s' : Dfs} {nc : Bool}
    (hc : Child p (G p) s (s', nc)) :
    RT (if s'.i_nl_end = n then Pure.pure (ForInStep.done s')
      else if nc = true then Pure.pure (ForInStep.yield { s' with i_root := s'.i_root - 1 })
      else Pure.pure (ForInStep.yield s') : MT (ForInStep Dfs)) fun st c =>
      (match st with
      | .yield s2 => ∃ k, k < 2 * (n - K.length) + (S0 ++ [p]).length ∧ ∃ K' St', DfsInv n start G s2 K' St' ∧
          k = 2 * (n - K'.length) + St'.length
      | .done s2 => ∃ K', DfsOut n start G s2 K') ∧ c ≤ 0 := by
  refine RT.of_ok ?_ (h.next hG hc) ?_
  · erase []
  · split
    · exact Nat.le_refl _
    · split <;> exact Nat.le_refl _

theorem dfs_directedT_rt {p j : List Int} {n : Nat} {G : Nat → List Nat} {o : Nat → Nat} (hg : GRep p j n G o)
    {K : Nat} (hK : ∀ v < n, (G v).length ≤ K) {start : Nat} (hs : start < n) {fuel : Nat} :
    RT (depth_first_directedT fuel start j p (List.replicate n 0) (List.replicate n none)) fun _ c =>
      c ≤ 2 * n + 3 + (4 + 7 * K) * (2 * n) := by
  unfold depth_first_directedT
  refine RT.bind ((dfs_initT_rt hs G).mono ?_)
  rintro s0 c0 ⟨hs0, hc0⟩
  obtain ⟨B, hB⟩ : ∃ B, B = 4 + 7 * K := ⟨_, rfl⟩
  rw [← hB]
  refine RT.bind ((RT.whileT (c := 0) (I := fun s c => ∃ k, (∃ K St, DfsInv n start G s K St ∧ k = 2 * (n - K.length) + St.length) ∧
      c + B * k ≤ B * (2 * n - 1)) (Q := fun _ c => c ≤ B * (2 * n)) ⟨_, ⟨_, _, hs0, rfl⟩, ?_⟩ ?_).mono ?_)
  · rw [Nat.zero_add]
    exact Nat.mul_le_mul_left _ (by simp; omega)
  · rintro s c ⟨k, ⟨Ks, St, hi, rfl⟩, hc⟩
    have hstep : B * (2 * n - 1) + B = B * (2 * n) := by
      rw [← Nat.mul_succ, show (2 * n - 1).succ = 2 * n by omega]
    dsimp only
    split
    · exact RT.pure (by omega)
    · rename_i hr
      obtain ⟨S0, p, rfl, htop⟩ := hi.top hr
      refine RT.rd_bind fun p' hp' => ?_
      rw [htop] at hp'
      cases hp'
      have hpn : p < n := hi.lt p (hi.sub.subset (by simp))
      refine RT.bind ((dfs_childT_rt hg hpn s).mono ?_)
      rintro ⟨s', nc⟩ c1 hch
      have hc1 := hch.1
      have := hK p hpn
      have h7 : 7 * (G p).length ≤ 7 * K := Nat.mul_le_mul_left _ this
      simp only [List.length_replicate]
      refine (dfs_tailT_rt hi hg.lt hch.child).mono ?_
      rintro (s2 | s2) c2 ⟨h, hc2⟩
      · show _ ≤ _
        omega
      · obtain ⟨k', hk', hinv⟩ := h
        refine ⟨k', hinv, ?_⟩
        have := Nat.mul_le_mul_left B (Nat.succ_le_of_lt hk')
        rw [Nat.mul_succ] at this
        omega
  · intro s c hc
    exact RT.pure (by omega)

theorem dfs_undirectedT_rt {p1 j1 p2 j2 : List Int} {n : Nat} {G1 G2 : Nat → List Nat} {o1 o2 : Nat → Nat}
    (hg1 : GRep p1 j1 n G1 o1) (hg2 : GRep p2 j2 n G2 o2) {K : Nat} (hK1 : ∀ v < n, (G1 v).length ≤ K) (hK2 : ∀ v < n, (G2 v).length ≤ K)
    {start : Nat} (hs : start < n) {fuel : Nat} :
    RT (depth_first_undirectedT fuel start j1 p1 j2 p2 (List.replicate n 0) (List.replicate n none)) fun _ c =>
      c ≤ 2 * n + 3 + (6 + 14 * K) * (2 * n) := by
  have hlt : ∀ u w, u < n → w ∈ G1 u ++ G2 u → w < n := by
    intro u w hu hw
    rcases List.mem_append.1 hw with hw | hw
    · exact hg1.lt u w hu hw
    · exact hg2.lt u w hu hw
  unfold depth_first_undirectedT
  refine RT.bind ((dfs_initT_rt hs (fun u => G1 u ++ G2 u)).mono ?_)
  rintro s0 c0 ⟨hs0, hc0⟩
  obtain ⟨B, hB⟩ : ∃ B, B = 6 + 14 * K := ⟨_, rfl⟩
  rw [← hB]
  refine RT.bind ((RT.whileT (c := 0) (I := fun s c => ∃ k, (∃ K St, DfsInv n start (fun u => G1 u ++ G2 u) s K St ∧ k = 2 * (n - K.length) + St.length) ∧
      c + B * k ≤ B * (2 * n - 1)) (Q := fun _ c => c ≤ B * (2 * n)) ⟨_, ⟨_, _, hs0, rfl⟩, ?_⟩ ?_).mono ?_)
  · rw [Nat.zero_add]
    exact Nat.mul_le_mul_left _ (by simp; omega)
  · rintro s c ⟨k, ⟨Ks, St, hi, rfl⟩, hc⟩
    have hstep : B * (2 * n - 1) + B = B * (2 * n) := by
      rw [← Nat.mul_succ, show (2 * n - 1).succ = 2 * n by omega]
    dsimp only
    split
    · exact RT.pure (by omega)
    · rename_i hr
      obtain ⟨S0, p, rfl, htop⟩ := hi.top hr
      refine RT.rd_bind fun p' hp' => ?_
      rw [htop] at hp'
      cases hp'
      have hpn : p < n := hi.lt p (hi.sub.subset (by simp))
      have h71 : 7 * (G1 p).length ≤ 7 * K := Nat.mul_le_mul_left _ (hK1 p hpn)
      have h72 : 7 * (G2 p).length ≤ 7 * K := Nat.mul_le_mul_left _ (hK2 p hpn)
      refine RT.bind ((dfs_childT_rt hg1 hpn s).mono ?_)
      rintro ⟨s', nc⟩ c1 hch
      have hc1 := hch.1
      have fin : ∀ (r : Dfs × Bool) (c2 : Nat), c2 ≤ 2 + 7 * K → Child p (G1 p ++ G2 p) s r →
          RT (if r.1.i_nl_end = (List.replicate n 0).length then Pure.pure (ForInStep.done r.1)
            else if r.2 = true then Pure.pure (ForInStep.yield { r.1 with i_root := r.1.i_root - 1 })
            else Pure.pure (ForInStep.yield r.1) : MT (ForInStep Dfs)) fun st c3 =>
            match st with
            | .yield s' => ∃ k, (∃ K St, DfsInv n start (fun u => G1 u ++ G2 u) s' K St ∧ k = 2 * (n - K.length) + St.length) ∧
                c + (1 + (1 + (c1 + (c2 + c3)))) + B * k ≤ B * (2 * n - 1)
            | .done _ => c + (1 + (1 + (c1 + (c2 + c3)))) ≤ B * (2 * n) := by
        rintro ⟨s2, nc2⟩ c2 hc2 hch2
        simp only [List.length_replicate]
        refine (dfs_tailT_rt (G := fun u => G1 u ++ G2 u) hi hlt hch2).mono ?_
        rintro (s2 | s2) c3 ⟨h, hc3⟩
        · show _ ≤ _
          omega
        · obtain ⟨k', hk', hinv⟩ := h
          refine ⟨k', hinv, ?_⟩
          have := Nat.mul_le_mul_left B (Nat.succ_le_of_lt hk')
          rw [Nat.mul_succ] at this
          omega
      rcases hch.child with ⟨hall, heq⟩ | ⟨pre, w, suf, hE, hpre, hfl, heq⟩
      · cases heq
        simp only [if_true]
        refine RT.bind ((dfs_childT_rt hg2 hpn s).mono ?_)
        intro r c2 hch2
        have hc2 := hch2.1
        refine (fin r c2 (by omega) ?_).mono (by rintro (s2 | s2) c3 h <;> exact h)
        rcases hch2.child with ⟨hall2, rfl⟩ | ⟨pre, w, suf, hE, hpre, hfl, rfl⟩
        · refine .inl ⟨?_, rfl⟩
          intro w hw
          rcases List.mem_append.1 hw with hw | hw
          · exact hall w hw
          · exact hall2 w hw
        · refine .inr ⟨G1 p ++ pre, w, suf, by rw [hE]; simp, ?_, hfl, rfl⟩
          intro x hx
          rcases List.mem_append.1 hx with hx | hx
          · exact hall x hx
          · exact hpre x hx
      · cases heq
        simp only [Bool.false_eq_true, if_false]
        refine RT.bind (RT.pure ((fin (s.visit p w, false) 0 (by omega) (.inr ⟨pre, w, suf ++ G2 p, by rw [hE]; simp, hpre, hfl, rfl⟩)).mono ?_))
        rintro (s2 | s2) c3 h <;> exact h
  · intro s c hc
    exact RT.pure (by omega)

/-- if every node is reachable, and the successor at position `k` of a row is at most `k + 1`, the search looks at a quadratic number of
entries -/
theorem dfs_directedT_lower {p j : List Int} {n : Nat} {G : Nat → List Nat} {o : Nat → Nat} (hg : GRep p j n G o)
    (hpos : ∀ v pre w suf, v < n → G v = pre ++ w :: suf → w ≤ pre.length + 1)
    (hreach : ∀ v < n, Relation.ReflTransGen (fun u w => w ∈ G u) 0 v) (hn : 0 < n) {fuel : Nat} :
    RT (depth_first_directedT fuel 0 j p (List.replicate n 0) (List.replicate n none)) fun _ c =>
      wsum (fun v => v - 1) (List.range n) ≤ c := by
  unfold depth_first_directedT
  refine RT.bind ((dfs_initT_rt hn G).mono ?_)
  rintro s0 c0 ⟨hs0, hc0⟩
  refine RT.bind ((RT.whileT (c := 0) (I := fun s c => ∃ K St, DfsInv n 0 G s K St ∧ wsum (fun v => v - 1) K ≤ c)
      (Q := fun _ c => wsum (fun v => v - 1) (List.range n) ≤ c) ⟨_, _, hs0, by simp [wsum]⟩ ?_).mono ?_)
  · have fin : ∀ {s K St c}, DfsInv n 0 G s K St → (St = [] ∨ K.length = n) → wsum (fun v => v - 1) K ≤ c →
        wsum (fun v => v - 1) (List.range n) ≤ c := by
      intro s K St c hi hd hc
      have ho := hi.out hg.lt hd
      refine Nat.le_trans (wsum_le _ List.nodup_range fun v hv => ?_) hc
      exact (ho.mem v).2 (hreach v (List.mem_range.1 hv))
    rintro s c ⟨K, St, hi, hc⟩
    dsimp only
    split
    · rename_i hr
      refine RT.pure (Nat.le_trans (fin hi (.inl ?_) hc) (by omega))
      have := hi.root
      rw [← List.length_eq_zero_iff]; omega
    · rename_i hr
      obtain ⟨S0, p, rfl, htop⟩ := hi.top hr
      refine RT.rd_bind fun p' hp' => ?_
      rw [htop] at hp'
      cases hp'
      have hpn : p < n := hi.lt p (hi.sub.subset (by simp))
      refine RT.bind ((dfs_childT_rt hg hpn s).mono ?_)
      rintro ⟨s', nc⟩ c1 ⟨-, hch⟩
      simp only [List.length_replicate]
      rcases hch with ⟨hall, heq⟩ | ⟨pre, w, suf, hE, hpre, hfl, heq, hlen⟩
      · cases heq
        split
        · rename_i he
          exact RT.pure (Nat.le_trans (fin hi (.inr (by rw [← hi.nl]; exact he)) hc) (by omega))
        · rw [if_pos rfl]
          refine RT.pure ⟨K, S0, hi.pop ?_, Nat.le_trans hc (by omega)⟩
          intro w hw
          have := hi.flag w (hg.lt p w hpn hw)
          rw [hall w hw] at this
          simpa using this
      · cases heq
        have hwn : w < n := hg.lt p w hpn (by rw [hE]; simp)
        obtain ⟨h', hle⟩ := hi.push hE hwn hpre hfl fun x hx => hg.lt p x hpn (by rw [hE]; simp [hx])
        have hw := hpos p pre w suf hpn hE
        have hsum : wsum (fun v => v - 1) (K ++ [w]) ≤ c + c1 := by
          rw [wsum_append, wsum_cons, wsum_nil]
          omega
        split
        · rename_i he
          exact RT.pure (Nat.le_trans (fin h' (.inr (by rw [← h'.nl]; exact he)) hsum) (by omega))
        · rw [if_neg (by simp)]
          exact RT.pure ⟨_, _, h', Nat.le_trans hsum (by omega)⟩
  · intro s c hc
    exact RT.pure (by omega)
end Sparse

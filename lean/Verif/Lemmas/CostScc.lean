import Verif.Lemmas.CostBound
import Verif.Lemmas.GraphSccMain
/-! The running time of `connected_components_directed`. -/
namespace Sparse
open MT

/-- if `m` returns, its value and the number of steps it took satisfy `Q` -/
def RT (m : MT α) (Q : α → Nat → Prop) : Prop := ∀ a, m.outcome = .ok a → Q a m.steps

namespace RT
theorem mono {m : MT α} {Q Q' : α → Nat → Prop} (h : RT m Q) (hQ : ∀ a c, Q a c → Q' a c) : RT m Q' := fun a e => hQ a _ (h a e)

theorem of_TB {m : MT α} {B : Nat} {Q : α → Prop} (h : TB m B Q) : RT m fun a c => c ≤ B ∧ Q a := fun a e => ⟨h.1, h.2 a e⟩

theorem pure {a : α} {Q : α → Nat → Prop} (h : Q a 0) : RT (Pure.pure a) Q := fun b e => by cases e; exact h

theorem bind {m : MT α} {f : α → MT β} {Q : β → Nat → Prop} (h : RT m fun a c => RT (f a) fun b c' => Q b (c + c')) :
    RT (m >>= f) Q := by
  obtain ⟨m, c⟩ := m
  intro b hb
  cases m with
  | error e => cases hb
  | ok a => exact h a rfl b hb

theorem lift_bind {n : Nat} {m : M α} {f : α → MT β} {Q : β → Nat → Prop}
    (h : ∀ a, m = .ok a → RT (f a) fun b c => Q b (n + c)) : RT (MT.lift n m >>= f) Q := bind fun a e => h a e

theorem tick_bind {f : Unit → MT β} {Q : β → Nat → Prop} (h : RT (f ()) fun b c => Q b (1 + c)) : RT (tick >>= f) Q :=
  lift_bind fun _ _ => h

theorem rd_bind {l : List α} {i : Nat} {f : α → MT β} {Q : β → Nat → Prop}
    (h : ∀ a, l[i]? = some a → RT (f a) fun b c => Q b (1 + c)) : RT (l.rdT i >>= f) Q := by
  refine lift_bind fun a e => h a ?_
  unfold List.rd at e
  split at e
  · cases e; assumption
  · cases e

theorem wr_bind {l : List α} {i : Nat} {a : α} {f : List α → MT β} {Q : β → Nat → Prop}
    (h : RT (f (l.set i a)) fun b c => Q b (1 + c)) : RT (l.wrT i a >>= f) Q := by
  refine lift_bind fun b e => ?_
  unfold List.wr at e
  split at e
  · cases e; exact h
  · cases e

theorem free_bind {m : M α} {f : α → MT β} {Q : β → Nat → Prop}
    (h : ∀ a, m = .ok a → RT (f a) Q) : RT (liftM m >>= f) Q :=
  lift_bind fun a e => (h a e).mono fun b c hc => by rwa [Nat.zero_add]

theorem whileT {fuel : Nat} {s : σ} {step : σ → MT (ForInStep σ)} {Q : σ → Nat → Prop} (I : σ → Nat → Prop) {c : Nat} (h0 : I s c)
    (hs : ∀ s c, I s c → RT (step s) fun st d => match st with | .yield s' => I s' (c + (1 + d)) | .done s' => Q s' (c + (1 + d))) :
    RT (MT.whileT fuel s step) fun s' d => Q s' (c + d) := by
  induction fuel generalizing s c with
  | zero => intro a h; cases h
  | succ n ih =>
    unfold MT.whileT
    refine tick_bind (bind ((hs s c h0).mono ?_))
    intro st d hst
    cases st with
    | done s' => exact pure (by simpa using hst)
    | yield s' =>
      refine (ih hst).mono fun s'' d' h => ?_
      rwa [show c + (1 + (d + d')) = c + (1 + d) + d' by omega]

theorem forRange {a b : Nat} {s : σ} {f : Nat → σ → MT (ForInStep σ)} {Q : σ → Nat → Prop} (I : Nat → σ → Nat → Prop) (hab : a ≤ b)
    (h0 : I a s 0)
    (hs : ∀ i s c, a ≤ i → i < b → I i s c → RT (f i s) fun st d => ∃ s', st = .yield s' ∧ I (i + 1) s' (c + d))
    (hQ : ∀ s c, I b s c → Q s c) : RT (forIn (rng a b) s f) Q := by
  refine mono (Q := I b) ?_ hQ
  have key : ∀ (d a : Nat) (s : σ) (c : Nat), b - a = d → a ≤ b → I a s c →
      (∀ i s c, a ≤ i → i < b → I i s c → RT (f i s) fun st d => ∃ s', st = .yield s' ∧ I (i + 1) s' (c + d)) →
      RT (forIn (rng a b) s f) fun s' d => I b s' (c + d) := by
    intro d
    induction d with
    | zero =>
      intro a s c hd hab h0 _
      have : a = b := by omega
      subst this
      rw [rng_eq_nil (Nat.le_refl _), List.forIn_nil]
      exact pure h0
    | succ d ih =>
      intro a s c hd hab h0 hs
      rw [rng_cons (by omega), List.forIn_cons]
      refine bind ((hs a s c (Nat.le_refl _) (by omega) h0).mono ?_)
      rintro st e ⟨s', rfl, h'⟩
      refine (ih (a + 1) s' (c + e) (by omega) (by omega) h' fun i s c h1 h2 => hs i s c (by omega) h2).mono fun s'' d' h => ?_
      rwa [← Nat.add_assoc]
  refine (key (b - a) a s 0 rfl hab h0 hs).mono fun s d h => by rwa [Nat.zero_add] at h

theorem forList {l : List α} {s : σ} {f : α → σ → MT (ForInStep σ)} (k : Nat)
    (hs : ∀ x s, RT (f x s) fun st d => (∃ s', st = .yield s') ∧ d ≤ k) : RT (forIn l s f) fun _ c => c ≤ k * l.length := by
  induction l generalizing s with
  | nil => exact pure (Nat.zero_le _)
  | cons x l ih =>
    rw [List.forIn_cons]
    refine bind ((hs x s).mono ?_)
    rintro st d ⟨⟨s', rfl⟩, hd⟩
    refine ih.mono fun s'' d' h => ?_
    rw [List.length_cons, Nat.mul_add]
    omega
end RT

theorem scc_pushT_tb {p : List Int} (j : List Int) {v a b : Nat} (h1 : p[v]? = some (a : Int)) (h2 : p[v + 1]? = some (b : Int))
    (labels ss sb : List Node) (h : Node) :
    TB (scc_pushT v j p labels ss sb h) (2 + 11 * (b - a)) fun _ => True := by
  unfold scc_pushT
  tb
  rename_i u hu _ u' hu' _
  rw [h1] at hu
  rw [h2] at hu'
  cases hu
  cases hu'
  refine TB.bind (TB.forConst (fun _ _ => True) 11 trivial ?_ (Nat.le_refl _) fun _ h => h) (by simp) fun _ h => TB.pure trivial
  intro i s _ _ _
  tb
  split
  · tb
    split
    · tb
      split
      · tb
        split
        · tb
          exact TB.pure ⟨_, rfl, trivial⟩
        · tb
          exact TB.pure ⟨_, rfl, trivial⟩
      · split
        · tb
          exact TB.pure ⟨_, rfl, trivial⟩
        · tb
          exact TB.pure ⟨_, rfl, trivial⟩
    · tb
      exact TB.pure ⟨_, rfl, trivial⟩
  · exact TB.pure ⟨_, rfl, trivial⟩

theorem scc_lowT_tb {p : List Int} (j : List Int) {v a b : Nat} (h1 : p[v]? = some (a : Int)) (h2 : p[v + 1]? = some (b : Int))
    (labels : List Node) : TB (scc_lowT v j p labels) (3 + 3 * (b - a)) fun _ => True := by
  unfold scc_lowT
  tb
  rename_i u hu _ u' hu' _
  rw [h1] at hu
  rw [h2] at hu'
  cases hu
  cases hu'
  refine TB.bind (TB.forConst (fun _ _ => True) 3 trivial ?_ (Nat.le_refl _) fun _ h => h) (by simp) fun _ h => TB.pure trivial
  intro i s _ _ _
  tb
  split
  · exact TB.pure ⟨_, rfl, trivial⟩
  · exact TB.pure ⟨_, rfl, trivial⟩

theorem usub_eq {a b c : Nat} (h : usub a b = .ok c) : b ≤ a ∧ c = a - b := by
  unfold usub at h
  split at h
  · cases h; exact ⟨‹_›, rfl⟩
  · cases h

/-- the loop that pops a component takes back one index per round -/
theorem scc_popT_rt (fuel v : Nat) (label : Node) (labels ss : List Node) (h : Node) (ix : Nat) :
    RT (scc_popT fuel v label labels ss h ix) fun r c => c + 6 * r.2.2.2 ≤ 6 * ix + 3 := by
  unfold scc_popT
  refine (RT.whileT (I := fun s c => c + 6 * s.2.2.2 ≤ 6 * ix) (Q := fun r c => c + 6 * r.2.2.2 ≤ 6 * ix + 3) (c := 0) (by simp)
    ?_).mono fun r c h => by rwa [Nat.zero_add] at h
  rintro ⟨la, s, hd, i⟩ c hI
  simp only at hI ⊢
  split
  · exact RT.pure (by simp; omega)
  · refine RT.rd_bind fun a ha => RT.free_bind fun b hb => RT.rd_bind fun d hd => ?_
    split
    · exact RT.pure (by simp; omega)
    · refine RT.free_bind fun w hw => RT.rd_bind fun e he => RT.wr_bind (RT.wr_bind (RT.free_bind fun i' hi => RT.pure ?_))
      have := usub_eq hi
      simp
      omega

theorem scc_stepT_rt {p j : List Int} {n : Nat} {G : Nat → List Nat} {o : Nat → Nat} (hg : GRep p j n G o) {fuel v : Nat} (hv : v < n)
    (s : Scc) : RT (scc_stepT fuel j p s (.label v)) fun r c => c + 6 * r.1.index ≤ 6 * s.index + 13 + 11 * (G v).length := by
  have h1 := hg.start v hv
  have h2 := hg.stop v hv
  unfold scc_stepT
  refine RT.free_bind fun w hw => ?_
  cases hw
  refine RT.rd_bind fun x hx => ?_
  split
  · refine RT.wr_bind (RT.bind ((RT.of_TB (scc_pushT_tb j h1 h2 _ _ _ _)).mono fun r c hc => RT.pure ?_))
    simp
    omega
  · refine RT.rd_bind fun y hy => ?_
    dsimp only
    split
    · refine RT.free_bind fun w hw => RT.wr_bind ?_
      refine RT.wr_bind (RT.wr_bind (RT.bind ((RT.of_TB (scc_lowT_tb j h1 h2 _)).mono fun x c hc => RT.wr_bind ?_)))
      split
      · refine RT.free_bind fun i hi => ?_
        refine RT.bind ((scc_popT_rt _ _ _ _ _ _ _).mono fun ⟨y1, y2, y3, y4⟩ c' hc' => RT.wr_bind (RT.free_bind fun l hl => RT.pure ?_))
        have := usub_eq hi
        simp at hc' ⊢
        omega
      · refine RT.wr_bind (RT.pure ?_)
        simp
        omega
    · refine RT.wr_bind (RT.wr_bind (RT.bind ((RT.of_TB (scc_lowT_tb j h1 h2 _)).mono fun x c hc => RT.wr_bind ?_)))
      split
      · refine RT.free_bind fun i hi => ?_
        refine RT.bind ((scc_popT_rt _ _ _ _ _ _ _).mono fun ⟨y1, y2, y3, y4⟩ c' hc' => RT.wr_bind (RT.free_bind fun l hl => RT.pure ?_))
        have := usub_eq hi
        simp at hc' ⊢
        omega
      · refine RT.wr_bind (RT.pure ?_)
        simp
        omega

theorem ccdT_rt {p j : List Int} {n : Nat} {G : Nat → List Nat} {o : Nat → Nat} (hg : GRep p j n G o)
    (hG : ∀ v, v < n → ((G v).filter (· ≠ v)).Nodup) (hn : 0 < n) {fuel : Nat} (hf : 2 * n < fuel) :
    RT (connected_components_directedT fuel n j p) fun _ c =>
      c ≤ 2 * wsum (fun v => 20 + 11 * (G v).length) (List.range n) + 10 * n := by
  have hfu : n < fuel := by omega
  unfold connected_components_directedT vecT
  refine RT.lift_bind fun a ha => RT.lift_bind fun b hb => RT.lift_bind fun d hd => ?_
  cases ha
  cases hb
  cases hd
  refine RT.free_bind fun n1 hn1 => ?_
  obtain ⟨-, rfl⟩ := usub_eq hn1
  refine RT.bind (RT.mono (RT.forRange (Q := fun s c => s.labels.length = n ∧ c ≤ 2 * wsum (fun v => 20 + 11 * (G v).length) (List.range n) + 5 * n)
    (fun v s c => ∃ (asg : List Nat) (cc : Nat) (κ : Nat → Nat), PInv n s .fin [] [] ∧
      SccInv n G s.labels [] [] [] asg cc κ ∧ s.index = 0 ∧ s.label = labOf n cc ∧ (∀ u, u < v → u ∈ asg) ∧
      c ≤ 2 * wsum (fun v => 20 + 11 * (G v).length) asg + 5 * v) (Nat.zero_le n) ?_ ?_ ?_) ?_)
  · refine ⟨[], 0, fun _ => 0, ⟨by simp, by simp, rfl, rfl, trivial, ?_⟩, ?_, rfl, ?_, by simp, by simp⟩
    · intro x hx _ _
      simp [List.getElem?_replicate, hx]
    · constructor <;> simp
      intro u hu
      simp [List.getElem?_replicate, hu]
    · simp [labOf, hn]
  · rintro v s c - hv ⟨asg, cc, κ, hp, hl, hix, hlab, hW, hc⟩
    refine RT.tick_bind (RT.rd_bind fun x hx => ?_)
    split
    · rename_i hxv
      subst hxv
      refine RT.wr_bind (RT.wr_bind (RT.bind ?_))
      have hstart := SInv.start (W := fun v => 20 + 11 * (G v).length) hv hx hp hl hix hlab hW
      have hle : wsum (fun v => 20 + 11 * (G v).length) asg ≤ wsum (fun v => 20 + 11 * (G v).length) (List.range n) :=
        wsum_le _ (List.nodup_append.1 hl.nodup).2.1 fun x hx => List.mem_range.2 (hl.lt x (by simp [hx]))
      refine (RT.whileT (c := 0) (I := fun st c' => ∃ k, SInv n G (fun v => 20 + 11 * (G v).length) v k st ∧
          c' + k + 6 * st.1.index ≤ 2 * (wsum (fun v => 20 + 11 * (G v).length) (List.range n) - wsum (fun v => 20 + 11 * (G v).length) asg))
        (Q := fun st c' => ∃ k, SInv n G (fun v => 20 + 11 * (G v).length) v k st ∧ st.2 = .fin ∧
          c' + k ≤ 2 * (wsum (fun v => 20 + 11 * (G v).length) (List.range n) - wsum (fun v => 20 + 11 * (G v).length) asg) + 1)
        ⟨_, hstart, by simp [hix]⟩ ?_).mono ?_
      · rintro ⟨s', hd⟩ c' ⟨k, hk, hc'⟩
        simp only at hc' ⊢
        split
        · exact RT.pure ⟨k, hk, ‹_›, by simp; omega⟩
        · rename_i hfin
          obtain ⟨u, rfl, hu, r, hr, k', hkk, hinv⟩ := scc_step_ok hg hG hfu hfin hk
          refine RT.bind fun r' hr' => RT.pure ⟨k', ?_, ?_⟩
          · rw [scc_stepT_outcome, hr] at hr'
            cases hr'
            exact hinv
          · have := scc_stepT_rt (fuel := fuel) hg hu s' r' hr'
            simp
            omega
      · rintro ⟨s', hd⟩ c' ⟨k, hk, hfin, hc'⟩
        simp only at hfin
        subst hfin
        obtain ⟨asg', c1, κ', hp', hl', hix', hlab', hW', hk'⟩ := hk.stop
        exact RT.pure ⟨_, rfl, asg', c1, κ', hp', hl', hix', hlab', hW', by simp at hc' ⊢; omega⟩
    · rename_i hxv
      refine RT.pure ⟨_, rfl, asg, cc, κ, hp, hl, hix, hlab, ?_, by simp; omega⟩
      intro u hu
      rcases Nat.lt_or_ge u v with h1 | h1
      · exact hW u h1
      · have : u = v := by omega
        subst this
        by_contra hc
        have := hl.void u hv (by simp) hc
        rw [hx] at this
        exact hxv (by simpa using this)
  · rintro s c ⟨asg, cc, κ, hp, hl, hix, hlab, hW, hc⟩
    have hle : wsum (fun v => 20 + 11 * (G v).length) asg ≤ wsum (fun v => 20 + 11 * (G v).length) (List.range n) :=
      wsum_le _ (List.nodup_append.1 hl.nodup).2.1 fun x hx => List.mem_range.2 (hl.lt x (by simp [hx]))
    exact ⟨hl.len, by omega⟩
  · rintro s c ⟨hlen, hc⟩
    have rest : ∀ count : Nat, RT (do
        let out ← forIn s.labels ([] : List Nat) fun l out => do
          tick
          let a ← usub n 1
          let b ← l.unwrap
          let d ← usub a b
          tick
          Pure.pure (ForInStep.yield (out ++ [d]))
        Pure.pure (count, out) : MT (Nat × List Nat)) fun _ c => c ≤ 2 * n := by
      intro count
      rw [← hlen]
      refine RT.bind ((RT.forList 2 ?_).mono fun out c hc => RT.pure (by simpa using hc))
      intro l out
      refine RT.tick_bind (RT.free_bind fun _ _ => RT.free_bind fun _ _ => RT.free_bind fun _ _ => RT.tick_bind (RT.pure ⟨⟨_, rfl⟩, ?_⟩))
      simp
    dsimp only
    split
    · refine RT.free_bind fun count _ => (rest count).mono fun r c' h => ?_
      omega
    · refine RT.bind (RT.pure ((rest n).mono fun r c' h => ?_))
      omega
end Sparse

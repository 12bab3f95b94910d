import Verif.Lemmas.GraphSccMain
import Verif.Lemmas.Invalid
import Verif.Props.Scc
/-!
Strong components of graphs that may store edges more than once (C35). The answer can be wrong or a panic
(`C35_duplicate_edge_wrong`, `C35_duplicate_edge_panics`), but the search never leaves its arrays, and an answer has one
label per node, in range.
-/
namespace Sparse

/-- an array of `n` nodes that points at nodes below `n` only -/
def NBnd (n : Nat) (l : List Node) : Prop := l.length = n ∧ ∀ x w : Nat, l[x]? = some (Node.label w) → w < n

/-- a node below `n`, or no node -/
def HBnd (n : Nat) (h : Node) : Prop := ∀ w, h = .label w → w < n

/-- the panics that remain -/
def SccFault (f : Fault) : Prop :=
  f = .panic .unwrap ∨ f = .panic .arith ∨ f = .panic .unreachable ∨ f = .panic .fuel

theorem NBnd.get {n : Nat} {l : List Node} (h : NBnd n l) {x : Nat} {a : Node} (e : l[x]? = some a) : HBnd n a := by
  rintro w rfl; exact h.2 x w e

theorem NBnd.set {n : Nat} {l : List Node} (h : NBnd n l) {x : Nat} {a : Node} (ha : HBnd n a) : NBnd n (l.set x a) := by
  refine ⟨by rw [List.length_set]; exact h.1, fun y w e => ?_⟩
  rw [List.getElem?_set] at e
  split at e
  · split at e
    · exact ha w (Option.some.inj e)
    · cases e
  · exact h.2 y w e

theorem HBnd.void {n : Nat} : HBnd n .void := fun _ h => by cases h
theorem HBnd.fin {n : Nat} : HBnd n .fin := fun _ h => by cases h
theorem HBnd.label {n w : Nat} (h : w < n) : HBnd n (.label w) := fun _ e => by cases e; exact h

theorem NBnd.void {n : Nat} : NBnd n (List.replicate n .void) := by
  refine ⟨List.length_replicate, fun x w e => ?_⟩
  rw [List.getElem?_replicate] at e
  split at e <;> cases e

theorem WP_rdN {n : Nat} {α : Type} {l : List α} (hl : l.length = n) {i : Nat} (hi : i < n) {Q : α → Prop} {E : Fault → Prop}
    (h : ∀ a, l[i]? = some a → Q a) : WP (l.rd i) Q E := by
  rw [WP_rd]
  exact ⟨h, fun e => by rw [List.getElem?_eq_none_iff] at e; omega⟩

theorem WP_wrN {n : Nat} {α : Type} {l : List α} (hl : l.length = n) {i : Nat} (hi : i < n) {a : α} {Q : List α → Prop}
    {E : Fault → Prop} (h : Q (l.set i a)) : WP (l.wr i a) Q E := by
  rw [WP_wr]
  exact ⟨fun _ => h, fun e => by omega⟩

theorem WP_unwrapN {n : Nat} {h : Node} (hh : HBnd n h) {Q : Nat → Prop} (hQ : ∀ v, h = .label v → v < n → Q v) :
    WP h.unwrap Q SccFault := by
  cases h with
  | label v => exact hQ v rfl (hh v rfl)
  | void => exact .inl rfl
  | fin => exact .inl rfl

/-- a loop of which only an invariant matters -/
theorem WP_whileI {σ : Type} {fuel : Nat} {s : σ} {step : σ → M (ForInStep σ)} {Q : σ → Prop} (I : σ → Prop) (h0 : I s)
    (hs : ∀ s, I s → WP (step s) (fun st => match st with | .yield s' => I s' | .done s' => Q s') SccFault) :
    WP (whileM fuel s step) Q SccFault := by
  induction fuel generalizing s with
  | zero => exact .inr (.inr (.inr rfl))
  | succ m ih =>
    unfold whileM
    rw [WP_bind]
    refine (hs s h0).mono ?_ (fun _ h => h)
    intro st hst
    cases st with
    | done s' => exact hst
    | yield s' => exact ih hst

/-- reading the bounds of the row of `v` -/
theorem WP_starts {p j : List Int} {n : Nat} {G : Nat → List Nat} {o : Nat → Nat} (hg : GRep p j n G o) {v : Nat} (hv : v < n)
    {α : Type} {k : Nat → Nat → M α} {Q : α → Prop} (h : WP (k (o v) (o v + (G v).length)) Q SccFault) :
    WP (do
      let start ← toUsize (← p.rd v)
      let stop ← toUsize (← p.rd (v + 1))
      k start stop) Q SccFault := by
  rw [WP_bind, WP_rd]
  refine ⟨fun a ha => ?_, fun e => by rw [hg.start v hv] at e; cases e⟩
  rw [hg.start v hv] at ha
  obtain rfl := Option.some.inj ha
  rw [WP_bind, WP_toUsize]
  refine ⟨fun _ => ?_, fun e => by omega⟩
  rw [WP_bind, WP_rd]
  refine ⟨fun a ha => ?_, fun e => by rw [hg.stop v hv] at e; cases e⟩
  rw [hg.stop v hv] at ha
  obtain rfl := Option.some.inj ha
  rw [WP_bind, WP_toUsize]
  refine ⟨fun _ => ?_, fun e => by omega⟩
  rw [Int.toNat_natCast, Int.toNat_natCast]
  exact h

/-- the loop over the successors of `v` -/
theorem WP_succ {p j : List Int} {n : Nat} {G : Nat → List Nat} {o : Nat → Nat} (hg : GRep p j n G o) {v : Nat} (hv : v < n)
    {σ : Type} {s : σ} {f : Nat → σ → M (ForInStep σ)} {Q : σ → Prop} (I : σ → Prop) (h0 : I s)
    (hs : ∀ jj (w : Nat) s, w < n → j[jj]? = some (w : Int) → I s → WP (f jj s) (fun st => ∃ s', st = .yield s' ∧ I s') SccFault)
    (hQ : ∀ s, I s → Q s) :
    WP (forIn (rng (o v) (o v + (G v).length)) s f) Q SccFault := by
  refine WP_forRange (fun _ s => I s) (fun _ => False) (by omega) h0 ?_ (by simp) hQ
  intro jj s h1 h2 hI
  have hq : jj - o v < (G v).length := by omega
  have hm := hg.get v (jj - o v) _ hv (List.getElem?_eq_getElem hq)
  rw [show o v + (jj - o v) = jj by omega] at hm
  refine (hs jj _ s (hg.lt v _ hv (List.getElem_mem hq)) hm hI).mono ?_ (fun _ h => h)
  rintro _ ⟨s', rfl, h⟩
  exact h

/-- reading a successor -/
theorem WP_rdW {j : List Int} {jj w : Nat} (hm : j[jj]? = some (w : Int)) {α : Type} {k : Nat → M α} {Q : α → Prop}
    (h : WP (k w) Q SccFault) :
    WP (do
      let w ← toUsize (← j.rd jj)
      k w) Q SccFault := by
  rw [WP_bind, WP_rd]
  refine ⟨fun a ha => ?_, fun e => by rw [hm] at e; cases e⟩
  rw [hm] at ha
  obtain rfl := Option.some.inj ha
  rw [WP_bind, WP_toUsize]
  refine ⟨fun _ => ?_, fun e => by omega⟩
  rw [Int.toNat_natCast]
  exact h

theorem scc_push_safe {p j : List Int} {n : Nat} {G : Nat → List Nat} {o : Nat → Nat} (hg : GRep p j n G o) {v : Nat} (hv : v < n)
    {labels ss sb : List Node} {h : Node} (hl : labels.length = n) (hss : NBnd n ss) (hsb : NBnd n sb) (hh : HBnd n h) :
    WP (scc_push v j p labels ss sb h) (fun r => NBnd n r.1 ∧ NBnd n r.2.1 ∧ HBnd n r.2.2) SccFault := by
  unfold scc_push
  refine WP_starts hg hv ?_
  rw [WP_bind]
  refine WP_succ hg hv (fun s => NBnd n s.1 ∧ NBnd n s.2.1 ∧ HBnd n s.2.2) ⟨hss, hsb, hh⟩ ?_ (fun s h => h)
  rintro jj w ⟨ss, sb, h⟩ hw hm ⟨h1, h2, h3⟩
  refine WP_rdW hm ?_
  rw [WP_bind]
  refine WP_rdN hl hw fun a ha => ?_
  dsimp only at h1 h2 h3 ⊢
  have fin : ∀ {ss' sb' : List Node}, NBnd n ss' → NBnd n sb' → WP (do
      let ss_2 ← ss'.wr w h
      let stack_b ← sb'.wr w Node.fin
      let l ← h.unwrap
      let stack_b ← stack_b.wr l (Node.label w)
      pure (ForInStep.yield (ss_2, stack_b, Node.label w)) : M (ForInStep (List Node × List Node × Node)))
      (fun st => ∃ s', st = ForInStep.yield s' ∧ NBnd n s'.1 ∧ NBnd n s'.2.1 ∧ HBnd n s'.2.2) SccFault := by
    intro ss' sb' g1 g2
    rw [WP_bind]
    refine WP_wrN g1.1 hw ?_
    rw [WP_bind]
    refine WP_wrN g2.1 hw ?_
    rw [WP_bind]
    refine WP_unwrapN h3 fun x _ hx => ?_
    rw [WP_bind]
    refine WP_wrN (n := n) (by rw [List.length_set]; exact g2.1) hx ?_
    rw [WP_pure]
    exact ⟨_, rfl, g1.set h3, (g2.set .fin).set (.label hw), .label hw⟩
  rw [WP_ite]
  refine ⟨fun _ => ?_, fun _ => ⟨_, rfl, h1, h2, h3⟩⟩
  rw [WP_bind]
  refine WP_rdN h1.1 hw fun a _ => ?_
  rw [WP_ite]
  refine ⟨fun _ => ?_, fun _ => fin h1 h2⟩
  rw [WP_bind]
  refine WP_rdN h1.1 hw fun f hf => ?_
  rw [WP_bind]
  refine WP_rdN h2.1 hw fun b hb => ?_
  have fin' : ∀ {ss' : List Node}, NBnd n ss' → WP (if f ≠ Node.fin then do
        let l ← f.unwrap
        let stack_b ← sb.wr l b
        let ss_2 ← ss'.wr w h
        let stack_b ← stack_b.wr w Node.fin
        let l ← h.unwrap
        let stack_b ← stack_b.wr l (Node.label w)
        pure (ForInStep.yield (ss_2, stack_b, Node.label w))
      else do
        let ss_2 ← ss'.wr w h
        let stack_b ← sb.wr w Node.fin
        let l ← h.unwrap
        let stack_b ← stack_b.wr l (Node.label w)
        pure (ForInStep.yield (ss_2, stack_b, Node.label w)) : M (ForInStep (List Node × List Node × Node)))
      (fun st => ∃ s', st = ForInStep.yield s' ∧ NBnd n s'.1 ∧ NBnd n s'.2.1 ∧ HBnd n s'.2.2) SccFault := by
    intro ss' g1
    rw [WP_ite]
    refine ⟨fun _ => ?_, fun _ => fin g1 h2⟩
    rw [WP_bind]
    refine WP_unwrapN (h1.get hf) fun x _ hx => ?_
    rw [WP_bind]
    exact WP_wrN h2.1 hx (fin g1 (h2.set (h2.get hb)))
  rw [WP_ite]
  refine ⟨fun _ => ?_, fun _ => fin' h1⟩
  rw [WP_bind]
  refine WP_unwrapN (h2.get hb) fun x _ hx => ?_
  rw [WP_bind]
  exact WP_wrN h1.1 hx (fin' (h1.set (h1.get hf)))

theorem scc_low_safe {p j : List Int} {n : Nat} {G : Nat → List Nat} {o : Nat → Nat} (hg : GRep p j n G o) {v : Nat} (hv : v < n)
    {labels : List Node} (hl : labels.length = n) : WP (scc_low v j p labels) (fun _ => True) SccFault := by
  unfold scc_low
  rw [WP_bind]
  refine WP_rdN hl hv fun a _ => ?_
  refine WP_starts hg hv ?_
  rw [WP_bind]
  refine WP_succ hg hv (fun _ => True) trivial ?_ (fun s _ => trivial)
  rintro jj w s hw hm -
  refine WP_rdW hm ?_
  rw [WP_bind]
  refine WP_rdN hl hw fun b _ => ?_
  rw [WP_ite]
  exact ⟨fun _ => ⟨_, rfl, trivial⟩, fun _ => ⟨_, rfl, trivial⟩⟩

theorem scc_pop_safe {n fuel v : Nat} (hv : v < n) {label : Node} {labels ss : List Node} {h : Node} {index : Nat}
    (hl : labels.length = n) (hss : NBnd n ss) (hh : HBnd n h) :
    WP (scc_pop fuel v label labels ss h index) (fun r => r.1.length = n ∧ NBnd n r.2.1 ∧ HBnd n r.2.2.1) SccFault := by
  unfold scc_pop
  refine WP_whileI (fun r => r.1.length = n ∧ NBnd n r.2.1 ∧ HBnd n r.2.2.1) ⟨hl, hss, hh⟩ ?_
  rintro ⟨labels, ss, h, index⟩ ⟨h1, h2, h3⟩
  dsimp only at h1 h2 h3 ⊢
  rw [WP_ite]
  refine ⟨fun _ => ⟨h1, h2, h3⟩, fun _ => ?_⟩
  rw [WP_bind]
  refine WP_rdN h1 hv fun a _ => ?_
  rw [WP_bind]
  refine WP_unwrapN h3 fun w e hw => ?_
  rw [WP_bind]
  refine WP_rdN h1 hw fun b _ => ?_
  rw [WP_ite]
  refine ⟨fun _ => ⟨h1, h2, h3⟩, fun _ => ?_⟩
  rw [WP_bind]
  refine WP_unwrapN h3 fun w e hw => ?_
  rw [WP_bind]
  refine WP_rdN h2.1 hw fun c hc => ?_
  rw [WP_bind]
  refine WP_wrN h2.1 hw ?_
  rw [WP_bind]
  refine WP_wrN h1 hw ?_
  rw [WP_bind, WP_usub]
  exact ⟨fun _ => ⟨by rw [List.length_set]; exact h1, h2.set .void, h2.get hc⟩, fun _ => .inr (.inl rfl)⟩

/-- what every round keeps: the arrays have `n` places and point at nodes -/
def SccBnd (n : Nat) (r : Scc × Node) : Prop :=
  r.1.labels.length = n ∧ NBnd n r.1.ss ∧ NBnd n r.1.stack_b ∧ HBnd n r.1.ss_head ∧ HBnd n r.2

theorem scc_step_safe {p j : List Int} {n : Nat} {G : Nat → List Nat} {o : Nat → Nat} (hg : GRep p j n G o) {fuel : Nat}
    {s : Scc} {h : Node} (hs : SccBnd n (s, h)) : WP (scc_step fuel j p s h) (SccBnd n) SccFault := by
  obtain ⟨h1, h2, h3, h4, h5⟩ := hs
  dsimp only at h1 h2 h3 h4 h5
  unfold scc_step
  rw [WP_bind]
  refine WP_unwrapN h5 fun v e hv => ?_
  rw [WP_bind]
  refine WP_rdN h1 hv fun a _ => ?_
  rw [WP_ite]
  refine ⟨fun _ => ?_, fun _ => ?_⟩
  · rw [WP_bind]
    refine WP_wrN h1 hv ?_
    rw [WP_bind]
    refine (scc_push_safe hg hv (by rw [List.length_set]; exact h1) h2 h3 h5).mono ?_ (fun _ h => h)
    rintro ⟨ss, sb, h⟩ ⟨g1, g2, g3⟩
    exact ⟨by simpa using h1, g1, g2, h4, g3⟩
  · rw [WP_bind]
    refine WP_rdN h2.1 hv fun c hc => ?_
    have hc' := h2.get hc
    have fin : ∀ {sb : List Node}, NBnd n sb → WP (do
        let ss ← s.ss.wr v Node.void
        let stack_b ← sb.wr v Node.void
        let (root, low_v) ← scc_low v j p s.labels
        let labels ← s.labels.wr v low_v
        if root = true then do
          let index ← usub s.index 1
          let (labels, ss, ss_head, index) ← scc_pop fuel v s.label labels ss s.ss_head index
          let labels ← labels.wr v s.label
          let label ← scc_next s.label
          pure (({ labels, ss, stack_b, ss_head, index, label } : Scc), c)
        else do
          let ss ← ss.wr v s.ss_head
          pure (({ s with labels, ss, stack_b, ss_head := Node.label v } : Scc), c)) (SccBnd n) SccFault := by
      intro sb g
      rw [WP_bind]
      refine WP_wrN h2.1 hv ?_
      rw [WP_bind]
      refine WP_wrN g.1 hv ?_
      rw [WP_bind]
      refine (scc_low_safe hg hv h1).mono ?_ (fun _ h => h)
      rintro ⟨root, low⟩ -
      dsimp only
      rw [WP_bind]
      refine WP_wrN h1 hv ?_
      rw [WP_ite]
      refine ⟨fun _ => ?_, fun _ => ?_⟩
      · rw [WP_bind, WP_usub]
        refine ⟨fun _ => ?_, fun _ => .inr (.inl rfl)⟩
        rw [WP_bind]
        refine (scc_pop_safe hv (by rw [List.length_set]; exact h1) (h2.set .void) h4).mono ?_ (fun _ h => h)
        rintro ⟨labels, ss, ssh, index⟩ ⟨g1, g2, g3⟩
        dsimp only at g1 g2 g3 ⊢
        rw [WP_bind]
        refine WP_wrN g1 hv ?_
        have hb : ∀ l' l, SccBnd n (({ labels := labels.set v l', ss, stack_b := sb.set v .void, ss_head := ssh, index, label := l } : Scc), c) :=
          fun l' l => ⟨by simpa using g1, g2, g.set .void, g3, hc'⟩
        rw [WP_bind]
        cases s.label with
        | label l => exact hb _ _
        | void => exact hb _ _
        | fin => exact .inr (.inr (.inl rfl))
      · rw [WP_bind]
        refine WP_wrN (n := n) (by rw [List.length_set]; exact h2.1) hv ?_
        exact ⟨by simpa using h1, (h2.set .void).set h4, g.set .void, .label hv, hc'⟩
    show WP (if c ≠ Node.void ∧ c ≠ Node.fin then _ else _) _ _
    rw [WP_ite]
    refine ⟨fun _ => ?_, fun _ => fin h3⟩
    rw [WP_bind]
    refine WP_unwrapN hc' fun x _ hx => ?_
    rw [WP_bind]
    exact WP_wrN h3.1 hx (fin (h3.set .fin))

theorem ccd_safe {p j : List Int} {n : Nat} {G : Nat → List Nat} {o : Nat → Nat} (hg : GRep p j n G o) (fuel : Nat) :
    WP (connected_components_directed fuel n j p) (fun r => r.1 ≤ n ∧ r.2.length = n ∧ ∀ l ∈ r.2, l < n) SccFault := by
  unfold connected_components_directed
  rw [WP_bind, WP_usub]
  refine ⟨fun hn => ?_, fun _ => .inr (.inl rfl)⟩
  rw [WP_bind]
  refine WP_forRange (fun _ s => SccBnd n (s, .fin)) (fun _ => False) (by omega)
    ⟨List.length_replicate, .void, .void, .fin, .fin⟩ ?_ (by simp) ?_
  · rintro v s - hv ⟨h1, h2, h3, h4, h5⟩
    dsimp only at h1 h2 h3 h4
    rw [WP_bind]
    refine WP_rdN h1 hv fun a _ => ?_
    rw [WP_ite]
    refine ⟨fun _ => ?_, fun _ => ⟨h1, h2, h3, h4, h5⟩⟩
    rw [WP_bind]
    refine WP_wrN h2.1 hv ?_
    rw [WP_bind]
    refine WP_wrN h3.1 hv ?_
    rw [WP_bind]
    refine WP_whileI (SccBnd n) ⟨h1, h2.set .fin, h3.set .fin, h4, .label hv⟩ ?_
    rintro ⟨s, h⟩ hI
    dsimp only
    rw [WP_ite]
    refine ⟨fun _ => ?_, fun _ => ?_⟩
    · exact ⟨hI.1, hI.2.1, hI.2.2.1, hI.2.2.2.1, .fin⟩
    · rw [WP_bind]
      exact (scc_step_safe hg hI).mono (fun _ h => h) (fun _ h => h)
  · intro s hI
    have fin : ∀ k, k ≤ n → WP (do
        let out ← forIn s.labels ([] : List Nat) fun l out => do
          let x ← usub n 1
          let y ← l.unwrap
          let z ← usub x y
          pure (.yield (out ++ [z]))
        pure (k, out) : M (Nat × List Nat)) (fun r => r.1 ≤ n ∧ r.2.length = n ∧ ∀ l ∈ r.2, l < n) SccFault := by
      intro k hk
      rw [WP_bind]
      refine WP_forList (fun pre out => out.length = pre.length ∧ ∀ l ∈ out, l < n) (fun _ => False) ⟨rfl, by simp⟩ ?_ (by simp) ?_
      · rintro pre l r out - ⟨g1, g2⟩
        rw [WP_bind, WP_usub]
        refine ⟨fun _ => ?_, fun _ => .inr (.inl rfl)⟩
        rw [WP_bind]
        cases l with
        | void => exact .inl rfl
        | fin => exact .inl rfl
        | label l =>
          show WP (usub (n - 1) l >>= _) _ _
          rw [WP_bind, WP_usub]
          refine ⟨fun _ => ⟨by simp [g1], fun x hx => ?_⟩, fun _ => .inr (.inl rfl)⟩
          rcases List.mem_append.1 hx with hx | hx
          · exact g2 x hx
          · rw [List.mem_singleton] at hx; omega
      · rintro out ⟨g1, g2⟩
        exact ⟨hk, by rw [g1]; exact hI.1, g2⟩
    dsimp only
    cases s.label with
    | label l =>
      show WP (usub n 1 >>= _) _ _
      rw [WP_bind, WP_usub]
      refine ⟨fun _ => ?_, fun _ => .inr (.inl rfl)⟩
      rw [WP_bind, WP_usub]
      exact ⟨fun _ => fin _ (by omega), fun _ => .inr (.inl rfl)⟩
    | void => exact fin n (Nat.le_refl _)
    | fin => exact fin n (Nat.le_refl _)

/-- C35: on every valid square graph, edges stored more than once or not, and with any bound on the rounds of the loops,
the search for strong components never reads or writes outside its arrays and never returns `Err`: it returns at most as
many components as there are nodes and one label below the number of nodes for every node, or it panics (an empty node
unwrapped, a number below zero, an unreachable label), or it has used up the rounds. -/
theorem C35_always_in_bounds {T : Type} [Zero T] (t : IntTy) (a : CSR T) (ha : a.WF t) (hsq : a.rows = a.cols) (fuel : Nat) :
    match connected_components t fuel a true .strong with
    | .ok (k, labels) => k ≤ a.rows ∧ labels.length = a.rows ∧ ∀ l ∈ labels, l < a.rows
    | .error f => f = .panic .unwrap ∨ f = .panic .arith ∨ f = .panic .unreachable ∨ f = .panic .fuel := by
  have e : connected_components t fuel a true .strong = connected_components_directed fuel a.rows a.colidx a.rowptr := by
    have hval : validate_graph a = .ok () := by unfold validate_graph; simp [hsq]; rfl
    unfold connected_components
    rw [hval, hsq]
    simp only [reduceCtorEq, if_false]
    rfl
  have h := ccd_safe (ha.grep hsq) fuel
  rw [e]
  cases hm : connected_components_directed fuel a.rows a.colidx a.rowptr with
  | ok r => rw [hm] at h; exact h
  | error f => rw [hm] at h; exact h

/-- both outcomes occur on graphs that store an edge twice -/
example : exTwice.WF .u8 ∧ exTwice.rows = exTwice.cols ∧ exTwiceWrong.WF .u8 ∧ exTwiceWrong.rows = exTwiceWrong.cols ∧
    connected_components .u8 15 exTwice true .strong = .error (.panic .unwrap) ∧
    connected_components .u8 15 exTwiceWrong true .strong = .ok (0, [3, 2, 3, 3]) :=
  ⟨exTwice_wf, rfl, exTwiceWrong_wf, rfl, by decide +kernel, by decide +kernel⟩

end Sparse

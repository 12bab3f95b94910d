import Verif.Model.Threads
import Verif.Lemmas.Eigen
/-! Invariants of concurrent executions of `eigs`. -/
namespace Sparse

section
variable {σ T : Type}

/-- the program points at which a thread holds the lock -/
def Pc.holds : Pc σ T → Prop
  | .enter _ => True
  | .inside _ _ => True
  | .leave _ => True
  | _ => False

def Pc.isFinished : Pc σ T → Prop
  | .finished _ => True
  | _ => False

structure World.Inv (jobs : List (CSC T × Nat)) (w : World σ T) : Prop where
  len : w.pcs.length = jobs.length
  clean : w.poisoned = false
  own : ∀ (i : Nat) p, w.pcs[i]? = some p → (p.holds ↔ w.owner = some i)
  lt : ∀ i, w.owner = some i → i < w.pcs.length
  mem : ∀ (i : Nat) c m, w.pcs[i]? = some (Pc.inside c m) → m = w.mem

theorem World.init_inv (jobs : List (CSC T × Nat)) (m : σ) : (World.init jobs m).Inv jobs where
  len := by simp [World.init]
  clean := rfl
  own := by
    intro i p h
    simp only [World.init, List.getElem?_map, Option.map_eq_some_iff] at h
    obtain ⟨_, _, rfl⟩ := h
    simp [Pc.holds, World.init]
  lt := by simp [World.init]
  mem := by
    intro i c m' h
    simp [World.init, List.getElem?_replicate] at h

variable [Zero T] [Add T] [Mul T] [Neg T] [BEq T]

theorem eigs_begin_holds {a : CSC T} {nev : Nat} {p : Pc σ T} (h : eigs_begin a nev = .ok p) :
    ∃ s, p = .lock (.naupd s) := by
  unfold eigs_begin at h
  cases h1 : eigs_check a nev with
  | error e => rw [h1] at h; simp [bind, Except.bind] at h
  | ok q =>
    rw [h1] at h
    simp only [bind, Except.bind, eigs_init_eq] at h
    exact ⟨_, (Except.ok.inj h).symm⟩

theorem eigs_resume_holds {a : CSC T} {nev : Nat} {r : Reply T} {p : Pc σ T} (h : eigs_resume a nev r = .ok p) :
    (∃ c, p = .lock c) ∨ ∃ x, p = .finished (.ok x) := by
  cases r with
  | naupd s =>
    simp only [eigs_resume] at h
    split at h
    · cases h1 : eigs_product a a.rows s with
      | error e => rw [h1] at h; simp [bind, Except.bind] at h
      | ok q => rw [h1] at h; exact .inl ⟨_, (Except.ok.inj h).symm⟩
    · split at h
      · simp [throw, throwThe, MonadExceptOf.throw] at h
      · exact .inl ⟨_, (Except.ok.inj h).symm⟩
  | neupd s r =>
    simp only [eigs_resume] at h
    split at h
    · simp [throw, throwThe, MonadExceptOf.throw] at h
    · cases h1 : eigs_assemble a.rows nev s r with
      | error e => rw [h1] at h; simp [bind, Except.bind] at h
      | ok q => rw [h1] at h; exact .inr ⟨_, (Except.ok.inj h).symm⟩

/-- moving a thread that does not hold the lock to a point where it does not hold the lock -/
theorem World.Inv.goto {jobs : List (CSC T × Nat)} {w : World σ T} (h : w.Inv jobs) {i : Nat} {p q : Pc σ T}
    (hp : w.pcs[i]? = some p) (hq : q.holds ↔ p.holds) (hm : ∀ c m, q = .inside c m → m = w.mem) :
    (w.goto i q).Inv jobs := by
  have hi : i < w.pcs.length := (List.getElem?_eq_some_iff.1 hp).1
  refine ⟨by simp [World.goto, h.len], h.clean, ?_, by simpa [World.goto] using h.lt, ?_⟩
  · intro j r hr
    simp only [World.goto, List.getElem?_set] at hr ⊢
    split at hr
    · next e =>
      subst e
      cases hr
      rw [hq]
      exact h.own _ _ hp
    · exact h.own _ _ hr
  · intro j c m hr
    simp only [World.goto, List.getElem?_set] at hr ⊢
    split at hr
    · 
      exact hm _ _ (Option.some.inj hr)
    · exact h.mem _ _ _ hr

theorem World.Inv.fail {jobs : List (CSC T × Nat)} {w : World σ T} (h : w.Inv jobs) {i : Nat} {p : Pc σ T}
    (hp : w.pcs[i]? = some p) (hn : ¬ p.holds) (e : Fault) : (w.fail i e).Inv jobs := by
  have ho : w.owner ≠ some i := fun hc => hn ((h.own _ _ hp).2 hc)
  have : w.fail i e = w.goto i (.finished (.error e)) := by
    unfold World.fail World.goto
    simp [ho]
  rw [this]
  exact h.goto hp ⟨fun h => h.elim, fun h => (hn h).elim⟩ (fun _ _ hc => by cases hc)

theorem World.Inv.step {jobs : List (CSC T × Nat)} {w : World σ T} (h : w.Inv jobs) (rt : ArpackRt σ T) (i : Nat) :
    (w.step rt jobs i).Inv jobs := by
  unfold World.step
  split
  next a nev p hj hp =>
    have hi : i < w.pcs.length := (List.getElem?_eq_some_iff.1 hp).1
    cases p with
    | start =>
      dsimp only
      split
      · next q hq =>
        obtain ⟨s, rfl⟩ := eigs_begin_holds hq
        exact h.goto hp (by simp [Pc.holds]) (fun _ _ hc => by cases hc)
      · exact h.fail hp (by simp [Pc.holds]) _
    | lock c =>
      dsimp only
      split
      · exact h
      · next ho =>
        rw [if_neg (by simp [h.clean])]
        have ho : w.owner = none := by simpa using ho
        refine ⟨by simp [World.goto, h.len], h.clean, ?_, by simp [World.goto, hi], ?_⟩
        · intro j r hr
          simp only [World.goto, List.getElem?_set] at hr ⊢
          split at hr
          · next e =>
            subst e
            cases hr
            simp [Pc.holds]
          · next e =>
            rw [h.own _ _ hr, ho]
            simp [e]
        · intro j c m hr
          simp only [World.goto, List.getElem?_set] at hr ⊢
          split at hr
          · 
            cases hr
          · exact h.mem _ _ _ hr
    | enter c =>
      exact h.goto hp (by simp [Pc.holds]) (fun _ _ hc => by cases hc; rfl)
    | inside c m =>
      have ho : w.owner = some i := (h.own _ _ hp).1 (by simp [Pc.holds])
      refine ⟨by simp [World.goto, h.len], h.clean, ?_, by simpa [World.goto] using h.lt, ?_⟩
      · intro j r hr
        simp only [World.goto, List.getElem?_set] at hr ⊢
        split at hr
        · next e =>
          subst e
          cases hr
          simp [Pc.holds, ho]
        · exact h.own _ _ hr
      · intro j c m hr
        simp only [World.goto, List.getElem?_set] at hr ⊢
        split at hr
        · 
          cases hr
        · next e =>
          have := (h.own _ _ hr).1 (by simp [Pc.holds])
          rw [ho] at this
          exact absurd (Option.some.inj this) e
    | leave r =>
      have ho : w.owner = some i := (h.own _ _ hp).1 (by simp [Pc.holds])
      refine ⟨by simp [World.goto, h.len], h.clean, ?_, by simp [World.goto], ?_⟩
      · intro j r hr
        simp only [World.goto, List.getElem?_set] at hr ⊢
        split at hr
        · 
          cases hr
          simp [Pc.holds]
        · next e =>
          rw [h.own _ _ hr, ho]
          simp [e]
      · intro j c m hr
        simp only [World.goto, List.getElem?_set] at hr ⊢
        split at hr
        · 
          cases hr
        · exact h.mem _ _ _ hr
    | resume r =>
      dsimp only
      split
      · next q hq =>
        rcases eigs_resume_holds hq with ⟨c, rfl⟩ | ⟨x, rfl⟩
        · exact h.goto hp (by simp [Pc.holds]) (fun _ _ hc => by cases hc)
        · exact h.goto hp (by simp [Pc.holds]) (fun _ _ hc => by cases hc)
      · exact h.fail hp (by simp [Pc.holds]) _
    | finished o => exact h
  next => exact h

theorem World.run_nil (rt : ArpackRt σ T) (jobs : List (CSC T × Nat)) (w : World σ T) : w.run rt jobs [] = w := rfl

theorem World.run_cons (rt : ArpackRt σ T) (jobs : List (CSC T × Nat)) (w : World σ T) (i : Nat) (l : List Nat) :
    w.run rt jobs (i :: l) = (w.step rt jobs i).run rt jobs l := rfl

theorem World.run_append (rt : ArpackRt σ T) (jobs : List (CSC T × Nat)) (w : World σ T) (l l' : List Nat) :
    w.run rt jobs (l ++ l') = (w.run rt jobs l).run rt jobs l' := by
  simp [World.run, List.foldl_append]

theorem World.Inv.run {jobs : List (CSC T × Nat)} {w : World σ T} (h : w.Inv jobs) (rt : ArpackRt σ T) (l : List Nat) :
    (w.run rt jobs l).Inv jobs := by
  induction l generalizing w with
  | nil => exact h
  | cons i l ih => exact ih (h.step rt i)

/-- an induction principle: what holds at the start and is kept by every step holds after every schedule -/
theorem World.run_induction {jobs : List (CSC T × Nat)} {rt : ArpackRt σ T} {m : σ} (P : World σ T → Prop)
    (h0 : P (World.init jobs m))
    (hs : ∀ w i, w.Inv jobs → P w → P (w.step rt jobs i)) (l : List Nat) : P ((World.init jobs m).run rt jobs l) := by
  have key : ∀ (l : List Nat) (w : World σ T), w.Inv jobs → P w → P (w.run rt jobs l) := by
    intro l
    induction l with
    | nil => exact fun w _ h => h
    | cons i l ih => exact fun w hw h => ih _ (hw.step rt i) (hs w i hw h)
  exact key l _ (World.init_inv jobs m) h0


/-! ### comparison with the sequential function -/

/-- no call's reply depends on the static variables -/
def ArpackRt.Memoryless (rt : ArpackRt σ T) : Prop :=
  ∀ m m', (∀ args s, (rt.naupd m args s).2 = (rt.naupd m' args s).2) ∧
    (∀ args ldz s r, (rt.neupd m args ldz s r).2 = (rt.neupd m' args ldz s r).2)

/-- the library as seen by `eigs` when the static variables contain `m` at every call -/
def ArpackRt.at (rt : ArpackRt σ T) (m : σ) : ArpackLib T where
  naupd _ args s := (rt.naupd m args s).2
  neupd args ldz s r := (rt.neupd m args ldz s r).2

/-- the loop of `eigs_iterate` -/
def eigs_loop (lib : ArpackLib T) (fuel : Nat) (a : CSC T) (n ncv nev k : Nat) (s : Arpack T) : M (Nat × Arpack T) :=
  whileM fuel (k, s) fun (k, s) => do
    if s.ido = 1 then
      let s ← eigs_product a n s
      pure (.yield (k + 1, lib.naupd k (eigs_args n ncv nev) s))
    else
      pure (.done (k, s))

/-- what remains of `eigs` after a reply of the library -/
def contReply (lib : ArpackLib T) (fuel : Nat) (a : CSC T) (nev k : Nat) : Reply T → M (List (Cx T) × List (List (Cx T)))
  | .naupd s => do
    let r ← eigs_loop lib fuel a a.rows (min a.rows (2 * nev + 1)) nev k s
    if r.2.info < 0 then
      throw .err
    let (s, r) ← eigs_extract lib a.rows (min a.rows (2 * nev + 1)) nev r.2
    eigs_assemble a.rows nev s r
  | .neupd s r =>
    if s.info ≠ 0 then throw .err else eigs_assemble a.rows nev s r

theorem whileM_mono {α : Type} {step : α → M (ForInStep α)} {n : Nat} {s : α} (h : whileM n s step ≠ .error (.panic .fuel))
    (k : Nat) : whileM (n + k) s step = whileM n s step := by
  induction n generalizing s with
  | zero => exact absurd rfl h
  | succ n ih =>
    rw [Nat.succ_add]
    unfold whileM at h ⊢
    cases h1 : step s with
    | error e => rfl
    | ok q =>
      rw [h1] at h
      cases q with
      | done s' => rfl
      | yield s' => exact ih h

theorem eigs_check_ok {a : CSC T} {nev : Nat} {q : Nat × Nat} (h : eigs_check a nev = .ok q) :
    q = (a.rows, min a.rows (2 * nev + 1)) := by
  rw [eigs_check_eq] at h
  split at h
  · cases h
  · split at h
    · cases h
    · split at h
      · cases h
      · exact (Except.ok.inj h).symm

/-- `eigs` up to the first call of the library, and the rest -/
theorem eigs_split (lib : ArpackLib T) (fuel : Nat) (a : CSC T) (nev : Nat) :
    eigs lib fuel a nev = (do
      let q ← eigs_check a nev
      let s ← eigs_init q.1 q.2
      contReply lib fuel a nev 1 (.naupd (lib.naupd 0 (eigs_args q.1 q.2 nev) s))) := by
  unfold eigs
  cases h : eigs_check a nev with
  | error e => rfl
  | ok q =>
    have := eigs_check_ok h
    subst this
    simp only [bind, Except.bind, eigs_iterate, eigs_init_eq, contReply, eigs_loop]
    generalize whileM _ _ _ = x
    cases x with
    | error e => rfl
    | ok r =>
      by_cases hi : r.2.info < 0
      · simp only [hi, if_true]
        rfl
      · simp only [hi, if_false]
        rfl

theorem contReply_naupd (lib : ArpackLib T) (fuel : Nat) (a : CSC T) (nev k : Nat) (s : Arpack T) :
    contReply lib (fuel + 1) a nev k (.naupd s) =
      if s.ido = 1 then (do
        let s' ← eigs_product a a.rows s
        contReply lib fuel a nev (k + 1) (.naupd (lib.naupd k (eigs_args a.rows (min a.rows (2 * nev + 1)) nev) s')))
      else if s.info < 0 then throw .err
      else (do
        let r := lib.neupd (eigs_args a.rows (min a.rows (2 * nev + 1)) nev) (asI32 (a.rows + 1)) s
          ⟨List.replicate (nev + 1) 0, List.replicate (nev + 1) 0, List.replicate (a.rows * (nev + 1)) 0⟩
        contReply lib fuel a nev k (.neupd r.1 r.2)) := by
  simp only [contReply, eigs_loop]
  conv_lhs => unfold whileM
  split
  · next h =>
    simp only [bind, Except.bind]
    cases eigs_product a a.rows s with
    | error e => rfl
    | ok s' => rfl
  · next h =>
    simp only [bind, Except.bind, pure, Except.pure]
    split
    · rfl
    · simp only [eigs_extract]
      generalize lib.neupd _ _ _ _ = q
      by_cases hi : q.1.info = 0
      · simp [hi, pure, Except.pure]
      · simp [hi, throw, throwThe, MonadExceptOf.throw]

/-- the reply of a library to the call `c`, the `k`-th of its kind -/
def ArpackLib.reply (lib : ArpackLib T) (a : CSC T) (nev k : Nat) : Call T → Reply T
  | .naupd s => .naupd (lib.naupd k (eigs_args a.rows (min a.rows (2 * nev + 1)) nev) s)
  | .neupd s =>
    let r := lib.neupd (eigs_args a.rows (min a.rows (2 * nev + 1)) nev) (asI32 (a.rows + 1)) s
      ⟨List.replicate (nev + 1) 0, List.replicate (nev + 1) 0, List.replicate (a.rows * (nev + 1)) 0⟩
    .neupd r.1 r.2

/-- number of `dnaupd_c` calls made once the call `c` has returned -/
def Call.after (k : Nat) : Call T → Nat
  | .naupd _ => k + 1
  | .neupd _ => k

/-- what remains of the sequential computation of a thread at `p` that has made `k` calls of `dnaupd_c` -/
def contPc (lib : ArpackLib T) (fuel : Nat) (a : CSC T) (nev k : Nat) : Pc σ T → M (List (Cx T) × List (List (Cx T)))
  | .start => eigs lib fuel a nev
  | .lock c => contReply lib fuel a nev (c.after k) (lib.reply a nev k c)
  | .enter c => contReply lib fuel a nev (c.after k) (lib.reply a nev k c)
  | .inside c _ => contReply lib fuel a nev (c.after k) (lib.reply a nev k c)
  | .leave r => contReply lib fuel a nev k r
  | .resume r => contReply lib fuel a nev k r
  | .finished out => out

/-- `eigs_begin` followed by the rest -/
theorem contPc_begin (lib : ArpackLib T) (fuel : Nat) (a : CSC T) (nev : Nat) :
    eigs lib fuel a nev = (do contPc (σ := σ) lib fuel a nev 0 (← eigs_begin a nev)) := by
  simp only [eigs_split, eigs_begin]
  cases h : eigs_check a nev with
  | error e => rfl
  | ok q =>
    have := eigs_check_ok h
    subst this
    rfl

/-- `eigs_resume` followed by the rest -/
theorem contPc_resume (lib : ArpackLib T) (fuel : Nat) (a : CSC T) (nev k : Nat) (r : Reply T) :
    contReply lib (fuel + 1) a nev k r = (do contPc (σ := σ) lib fuel a nev k (← eigs_resume a nev r)) := by
  cases r with
  | naupd s =>
    rw [contReply_naupd]
    simp only [eigs_resume]
    split
    · simp only [bind, Except.bind]
      cases eigs_product a a.rows s with
      | error e => rfl
      | ok s' => rfl
    · split
      · rfl
      · rfl
  | neupd s r =>
    simp only [eigs_resume, contReply]
    split
    · rfl
    · cases eigs_assemble a.rows nev s r with
      | error e => rfl
      | ok x => rfl

/-- `lib` answers the first calls of `dnaupd_c` as the library with static variables `ms` does, and `dneupd_c` as the
library with static variables `e` -/
def ArpackRt.Agrees (rt : ArpackRt σ T) (lib : ArpackLib T) (ms : List σ) (e : Option σ) : Prop :=
  (∀ k m, ms[k]? = some m → ∀ args s, lib.naupd k args s = (rt.naupd m args s).2) ∧
  (∀ m, e = some m → ∀ args ldz s r, lib.neupd args ldz s r = (rt.neupd m args ldz s r).2)

/-- the thread `i` of `w` has made as many calls as `ms` is long, and the rest of its computation is the rest of the
sequential one -/
def World.Follows (rt : ArpackRt σ T) (w : World σ T) (i : Nat) (a : CSC T) (nev : Nat) : Prop :=
  ∀ p, w.pcs[i]? = some p → ∃ (ms : List σ) (e : Option σ) (d : Nat), (p = .start → ms = [] ∧ e = none) ∧
    ((∀ c, p = .lock c ∨ p = .enter c ∨ (∃ m, p = .inside c m) → e = none)) ∧
    (∀ s, p = .leave (.naupd s) ∨ p = .resume (.naupd s) → e = none) ∧
    ∀ lib, rt.Agrees lib ms e → ∀ f, eigs lib (f + d) a nev = contPc lib f a nev ms.length p

theorem World.step_other (rt : ArpackRt σ T) (jobs : List (CSC T × Nat)) (w : World σ T) {i j : Nat} (h : j ≠ i) :
    (w.step rt jobs j).pcs[i]? = w.pcs[i]? := by
  have hg : ∀ (w' : World σ T) q, w'.pcs = w.pcs → (w'.goto j q).pcs[i]? = w.pcs[i]? := by
    intro w' q e
    simp [World.goto, e, h]
  have hf : ∀ e, (w.fail j e).pcs[i]? = w.pcs[i]? := by
    intro e
    simp [World.fail, h]
  unfold World.step
  split
  next a nev p hj hp =>
    cases p with
    | start => dsimp only; split; · exact hg _ _ rfl
               exact hf _
    | lock c => dsimp only; split; · rfl
                split; · exact hf _
                exact hg _ _ rfl
    | enter c => exact hg _ _ rfl
    | inside c x => exact hg _ _ rfl
    | leave r => exact hg _ _ rfl
    | resume r => dsimp only; split; · exact hg _ _ rfl
                  exact hf _
    | finished o => rfl
  next => rfl

/-- the result of `eigs` does not change once the fuel is enough -/
theorem eigs_mono {lib : ArpackLib T} {fuel : Nat} {a : CSC T} {nev : Nat}
    (h : eigs lib fuel a nev ≠ .error (.panic .fuel)) (k : Nat) : eigs lib (fuel + k) a nev = eigs lib fuel a nev := by
  rw [eigs_split] at h ⊢
  rw [eigs_split lib fuel]
  cases h1 : eigs_check a nev with
  | error e => rfl
  | ok q =>
    rw [h1] at h
    simp only [bind, Except.bind, eigs_init_eq, contReply, eigs_loop] at h ⊢
    rw [whileM_mono]
    intro hc
    rw [hc] at h
    exact h rfl

theorem World.Follows.init (rt : ArpackRt σ T) (jobs : List (CSC T × Nat)) (m : σ) (i : Nat) (a : CSC T) (nev : Nat) :
    (World.init jobs m).Follows rt i a nev := by
  intro p hp
  simp only [World.init, List.getElem?_map, Option.map_eq_some_iff] at hp
  obtain ⟨_, _, rfl⟩ := hp
  exact ⟨[], none, 0, fun _ => ⟨rfl, rfl⟩, by simp, by simp, fun lib _ f => rfl⟩

theorem World.Follows.step {rt : ArpackRt σ T} {jobs : List (CSC T × Nat)} {w : World σ T}
    {i : Nat} {a : CSC T} {nev : Nat} (h : w.Follows rt i a nev) (hj : jobs[i]? = some (a, nev)) (j : Nat) (hw : w.Inv jobs) :
    (w.step rt jobs j).Follows rt i a nev := by
  by_cases hne : j = i
  swap
  · intro p hp
    rw [World.step_other rt jobs w hne] at hp
    exact h p hp
  subst hne
  intro q hq
  cases hp : w.pcs[j]? with
  | none =>
    unfold World.step at hq
    rw [hj, hp] at hq
    simp only [hp] at hq
    cases hq
  | some p =>
    have hi : j < w.pcs.length := (List.getElem?_eq_some_iff.1 hp).1
    have hg : ∀ (w' : World σ T) r, w'.pcs = w.pcs → (w'.goto j r).pcs[j]? = some r := by
      intro w' r e
      simp [World.goto, e, hi]
    have hfl : ∀ e, (w.fail j e).pcs[j]? = some (.finished (.error e)) := by
      intro e
      simp [World.fail, hi]
    obtain ⟨ms, e, d, h0, h1, h2, h3⟩ := h p hp
    unfold World.step at hq
    rw [hj, hp] at hq
    cases p with
    | start =>
      obtain ⟨rfl, rfl⟩ := h0 rfl
      dsimp only at hq
      split at hq
      · next r hr =>
        rw [hg _ _ (by exact rfl)] at hq
        cases hq
        refine ⟨[], none, d, by simp, by simp, by simp, fun lib hl f => ?_⟩
        rw [h3 lib hl f, contPc, contPc_begin (σ := σ), hr]
        rfl
      · next e he =>
        rw [hfl] at hq
        cases hq
        refine ⟨[], none, d, by simp, by simp, by simp, fun lib hl f => ?_⟩
        rw [h3 lib hl f, contPc, contPc_begin (σ := σ), he]
        rfl
    | lock c =>
      dsimp only at hq
      split at hq
      · rw [hp] at hq
        cases hq
        exact ⟨ms, e, d, by simp, h1, by simp, h3⟩
      · rw [if_neg (by simp [hw.clean]), hg _ _ (by exact rfl)] at hq
        cases hq
        exact ⟨ms, e, d, by simp, fun _ _ => h1 c (.inl rfl), by simp, h3⟩
    | enter c =>
      dsimp only at hq
      rw [hg _ _ (by exact rfl)] at hq
      cases hq
      exact ⟨ms, e, d, by simp, fun _ _ => h1 c (.inr (.inl rfl)), by simp, h3⟩
    | inside c m =>
      dsimp only at hq
      rw [hg _ _ (by exact rfl)] at hq
      cases hq
      have he : e = none := h1 c (.inr (.inr ⟨m, rfl⟩))
      subst he
      cases c with
      | naupd s =>
        refine ⟨ms ++ [m], none, d, by simp, by simp, by simp, fun lib hl f => ?_⟩
        have hl' : rt.Agrees lib ms none := by
          refine ⟨fun k x hk => hl.1 k x ?_, by simp⟩
          rw [List.getElem?_append_left (List.getElem?_eq_some_iff.1 hk).1]
          exact hk
        have hn : lib.naupd ms.length (eigs_args a.rows (min a.rows (2 * nev + 1)) nev) s = (rt.naupd m (eigs_args a.rows (min a.rows (2 * nev + 1)) nev) s).2 :=
          hl.1 ms.length m (by simp) _ _
        rw [h3 lib hl' f]
        simp only [contPc, ArpackLib.reply, Call.after, ArpackRt.answer, List.length_append, List.length_singleton, hn]
      | neupd s =>
        refine ⟨ms, some m, d, by simp, by simp, by simp [ArpackRt.answer], fun lib hl f => ?_⟩
        have hl' : rt.Agrees lib ms none := ⟨hl.1, by simp⟩
        have hn := hl.2 m rfl
        rw [h3 lib hl' f]
        simp only [contPc, ArpackLib.reply, Call.after, ArpackRt.answer, hn]
    | leave r =>
      dsimp only at hq
      rw [hg _ _ (by exact rfl)] at hq
      cases hq
      exact ⟨ms, e, d, by simp, by simp, fun s hs => h2 s (by simpa using hs), h3⟩
    | resume r =>
      dsimp only at hq
      have hd : ∀ lib, rt.Agrees lib ms e → ∀ f, eigs lib (f + (d + 1)) a nev =
          (do contPc (σ := σ) lib f a nev ms.length (← eigs_resume a nev r)) := by
        intro lib hl f
        rw [← contPc_resume, show f + (d + 1) = f + 1 + d by omega, h3 lib hl (f + 1)]
        rfl
      split at hq
      · next x hx =>
        rw [hg _ _ (by exact rfl)] at hq
        cases hq
        refine ⟨ms, e, d + 1, ?_, ?_, ?_, fun lib hl f => ?_⟩
        · rcases eigs_resume_holds hx with ⟨c, rfl⟩ | ⟨y, rfl⟩ <;> simp
        · intro c hc
          cases r with
          | naupd s => exact h2 s (.inr rfl)
          | neupd s r =>
            exfalso
            simp only [eigs_resume] at hx
            split at hx
            · simp [throw, throwThe, MonadExceptOf.throw] at hx
            · cases h4 : eigs_assemble a.rows nev s r with
              | error e => rw [h4] at hx; simp [bind, Except.bind] at hx
              | ok z =>
                rw [h4] at hx
                simp only [bind, Except.bind, pure, Except.pure, Except.ok.injEq] at hx
                subst hx
                simp at hc
        · rcases eigs_resume_holds hx with ⟨c, rfl⟩ | ⟨y, rfl⟩ <;> simp
        · rw [hd lib hl f, hx]
          rfl
      · next x hx =>
        rw [hfl] at hq
        cases hq
        refine ⟨ms, e, d + 1, by simp, by simp, by simp, fun lib hl f => ?_⟩
        rw [hd lib hl f, hx]
        rfl
    | finished o =>
      dsimp only at hq
      rw [hp] at hq
      cases hq
      exact ⟨ms, e, d, by simp, by simp, by simp, h3⟩

theorem World.Follows.run (rt : ArpackRt σ T) (jobs : List (CSC T × Nat)) (m : σ) {i : Nat} {a : CSC T} {nev : Nat}
    (hj : jobs[i]? = some (a, nev)) (l : List Nat) : ((World.init jobs m).run rt jobs l).Follows rt i a nev :=
  World.run_induction (fun w => w.Follows rt i a nev) (World.Follows.init rt jobs m i a nev) (fun _ j hw h => h.step hj j hw) l

/-- a library without memory agrees with every record of its static variables -/
theorem ArpackRt.Memoryless.agrees {rt : ArpackRt σ T} (h : rt.Memoryless) (m : σ) (ms : List σ) (e : Option σ) :
    rt.Agrees (rt.at m) ms e :=
  ⟨fun _ x _ args s => (h m x).1 args s, fun x _ args ldz s r => (h m x).2 args ldz s r⟩

/-! ### driving one thread to its end -/

/-- some continuation makes thread `i` finish with `out` -/
def World.CanFinish (rt : ArpackRt σ T) (jobs : List (CSC T × Nat)) (w : World σ T) (i : Nat)
    (out : M (List (Cx T) × List (List (Cx T)))) : Prop :=
  ∃ l, (w.run rt jobs l).pcs[i]? = some (.finished out)

theorem World.CanFinish.of_step {rt : ArpackRt σ T} {jobs : List (CSC T × Nat)} {w : World σ T} {i : Nat}
    {out : M (List (Cx T) × List (List (Cx T)))} (j : Nat) (h : (w.step rt jobs j).CanFinish rt jobs i out) :
    w.CanFinish rt jobs i out := by
  obtain ⟨l, hl⟩ := h
  exact ⟨j :: l, hl⟩

/-- the owner of the lock can release it without moving any other thread -/
theorem World.Inv.release {rt : ArpackRt σ T} {jobs : List (CSC T × Nat)} {w : World σ T} (h : w.Inv jobs) {j : Nat}
    (ho : w.owner = some j) : ∃ l, (w.run rt jobs l).owner = none ∧ ∀ i, i ≠ j → (w.run rt jobs l).pcs[i]? = w.pcs[i]? := by
  have hlt := h.lt j ho
  have hp := List.getElem?_eq_getElem hlt
  obtain ⟨⟨a, nev⟩, hj⟩ : ∃ q, jobs[j]? = some q := ⟨jobs[j]'(h.len ▸ hlt), List.getElem?_eq_getElem _⟩
  have hh := (h.own _ _ hp).2 ho
  have lv : ∀ (w : World σ T) r, w.pcs[j]? = some (.leave r) → (w.step rt jobs j).owner = none := by
    intro w r hr
    unfold World.step
    rw [hj, hr]
    rfl
  have ins : ∀ (w : World σ T) c m, w.pcs[j]? = some (.inside c m) → ∃ r, (w.step rt jobs j).pcs[j]? = some (.leave r) := by
    intro w c m hr
    have hi : j < w.pcs.length := (List.getElem?_eq_some_iff.1 hr).1
    unfold World.step
    rw [hj, hr]
    exact ⟨_, by simp [World.goto, hi]; rfl⟩
  have ent : ∀ (w : World σ T) c, w.pcs[j]? = some (.enter c) → ∃ c m, (w.step rt jobs j).pcs[j]? = some (.inside c m) := by
    intro w c hr
    have hi : j < w.pcs.length := (List.getElem?_eq_some_iff.1 hr).1
    unfold World.step
    rw [hj, hr]
    exact ⟨_, _, by simp [World.goto, hi]; exact ⟨rfl, rfl⟩⟩
  generalize w.pcs[j]'hlt = p at hp hh
  cases p with
  | leave r =>
    exact ⟨[j], lv _ _ hp, fun i hi => World.step_other _ _ _ (Ne.symm hi)⟩
  | inside c m =>
    obtain ⟨r, h1⟩ := ins _ _ _ hp
    refine ⟨[j, j], lv _ _ h1, fun i hi => ?_⟩
    exact (World.step_other _ _ _ (Ne.symm hi)).trans (World.step_other _ _ _ (Ne.symm hi))
  | enter c =>
    obtain ⟨_, _, h1⟩ := ent _ _ hp
    obtain ⟨r, h2⟩ := ins _ _ _ h1
    refine ⟨[j, j, j], lv _ _ h2, fun i hi => ?_⟩
    exact (World.step_other _ _ _ (Ne.symm hi)).trans ((World.step_other _ _ _ (Ne.symm hi)).trans (World.step_other _ _ _ (Ne.symm hi)))
  | _ => exact hh.elim

/-- from the request for the lock to the point where the reply has been obtained and the lock is free again -/
theorem World.Inv.call {rt : ArpackRt σ T} (hm : rt.Memoryless) (m : σ) {jobs : List (CSC T × Nat)} {w : World σ T}
    (h : w.Inv jobs) {i : Nat} {a : CSC T} {nev : Nat} (hj : jobs[i]? = some (a, nev)) {p : Pc σ T}
    (hp : w.pcs[i]? = some p) (k : Nat) :
    (∃ r, (p = .leave r ∨ p = .resume r) ∧ ∃ l, (w.run rt jobs l).pcs[i]? = some (.resume r)) ∨
    (∃ c, (p = .lock c ∨ p = .enter c ∨ ∃ x, p = .inside c x) ∧
      ∃ l, (w.run rt jobs l).pcs[i]? = some (.resume ((rt.at m).reply a nev k c))) ∨
    p = .start ∨ p.isFinished := by
  have lv : ∀ (w : World σ T) r, w.pcs[i]? = some (.leave r) → (w.step rt jobs i).pcs[i]? = some (.resume r) := by
    intro w r hr
    have hi : i < w.pcs.length := (List.getElem?_eq_some_iff.1 hr).1
    unfold World.step
    rw [hj, hr]
    simp [World.goto, hi]
  have ins : ∀ (w : World σ T) c x, w.pcs[i]? = some (.inside c x) →
      (w.step rt jobs i).pcs[i]? = some (.leave ((rt.at m).reply a nev k c)) := by
    intro w c x hr
    have hi : i < w.pcs.length := (List.getElem?_eq_some_iff.1 hr).1
    have he : (rt.answer a nev c x).2 = (rt.at m).reply a nev k c := by
      cases c with
      | naupd s => simp only [ArpackRt.answer, ArpackLib.reply, ArpackRt.at, (hm x m).1]
      | neupd s => simp only [ArpackRt.answer, ArpackLib.reply, ArpackRt.at, (hm x m).2]
    unfold World.step
    rw [hj, hr]
    simp [World.goto, hi, he]
  have ent : ∀ (w : World σ T) c, w.pcs[i]? = some (.enter c) → (w.step rt jobs i).pcs[i]? = some (.inside c w.mem) := by
    intro w c hr
    have hi : i < w.pcs.length := (List.getElem?_eq_some_iff.1 hr).1
    unfold World.step
    rw [hj, hr]
    simp [World.goto, hi]
  have lck : ∀ (w : World σ T) c, w.Inv jobs → w.owner = none → w.pcs[i]? = some (.lock c) →
      (w.step rt jobs i).pcs[i]? = some (.enter c) := by
    intro w c hw ho hr
    have hi : i < w.pcs.length := (List.getElem?_eq_some_iff.1 hr).1
    unfold World.step
    rw [hj, hr]
    simp [World.goto, hi, ho, hw.clean]
  cases p with
  | start => exact .inr (.inr (.inl rfl))
  | finished o => exact .inr (.inr (.inr trivial))
  | leave r => exact .inl ⟨r, .inl rfl, [i], lv _ _ hp⟩
  | resume r => exact .inl ⟨r, .inr rfl, [], hp⟩
  | inside c x => exact .inr (.inl ⟨c, .inr (.inr ⟨x, rfl⟩), [i, i], lv _ _ (ins _ _ _ hp)⟩)
  | enter c => exact .inr (.inl ⟨c, .inr (.inl rfl), [i, i, i], lv _ _ (ins _ _ _ (ent _ _ hp))⟩)
  | lock c =>
    refine .inr (.inl ⟨c, .inl rfl, ?_⟩)
    obtain ⟨l, ho, hl⟩ : ∃ l, (w.run rt jobs l).owner = none ∧ (w.run rt jobs l).pcs[i]? = some (.lock c) := by
      cases ho : w.owner with
      | none => exact ⟨[], ho, hp⟩
      | some j =>
        obtain ⟨l, h1, h2⟩ := h.release (rt := rt) ho
        refine ⟨l, h1, (h2 i ?_).trans hp⟩
        rintro rfl
        exact (h.own _ _ hp).2 ho
    refine ⟨l ++ [i, i, i, i], ?_⟩
    rw [World.run_append]
    exact lv _ _ (ins _ _ _ (ent _ _ (lck _ _ (h.run rt l) ho hl)))

/-- a thread that has its reply finishes as the sequential function does, with a library without memory -/
theorem World.Inv.finish {rt : ArpackRt σ T} (hm : rt.Memoryless) (m : σ) {jobs : List (CSC T × Nat)}
    {i : Nat} {a : CSC T} {nev : Nat} (hj : jobs[i]? = some (a, nev)) (f : Nat) :
    ∀ {w : World σ T} (k : Nat) (r : Reply T), w.Inv jobs → w.pcs[i]? = some (.resume r) →
      contReply (rt.at m) f a nev k r ≠ .error (.panic .fuel) →
      w.CanFinish rt jobs i (contReply (rt.at m) f a nev k r) := by
  have nx : ∀ (w : World σ T) r, w.pcs[i]? = some (.resume r) → (w.step rt jobs i).pcs[i]? =
      some (match eigs_resume a nev r with | .ok q => q | .error e => .finished (.error e)) := by
    intro w r hr
    have hi : i < w.pcs.length := (List.getElem?_eq_some_iff.1 hr).1
    unfold World.step
    rw [hj, hr]
    dsimp only
    split
    · next h => rw [h]; simp [World.goto, hi]
    · next h => rw [h]; simp [World.fail, hi]
  have neu : ∀ (w : World σ T) f k s r, w.pcs[i]? = some (.resume (.neupd s r)) →
      w.CanFinish rt jobs i (contReply (rt.at m) f a nev k (.neupd s r)) := by
    intro w f k s r hr
    refine ⟨[i], (nx _ _ hr).trans ?_⟩
    have : contReply (rt.at m) f a nev k (.neupd s r) = contReply (rt.at m) (f + 1) a nev k (.neupd s r) := rfl
    rw [this, contPc_resume (σ := σ)]
    cases h : eigs_resume (σ := σ) a nev (.neupd s r) with
    | error e => rfl
    | ok q =>
      rcases eigs_resume_holds h with ⟨c, rfl⟩ | ⟨y, rfl⟩
      · exfalso
        simp only [eigs_resume] at h
        split at h
        · simp [throw, throwThe, MonadExceptOf.throw] at h
        · cases h4 : eigs_assemble a.rows nev s r with
          | error e => rw [h4] at h; simp [bind, Except.bind] at h
          | ok z =>
            rw [h4] at h
            simp [bind, Except.bind, pure, Except.pure] at h
      · rfl
  induction f with
  | zero =>
    intro w k r hw hr hf
    cases r with
    | naupd s => exact absurd rfl hf
    | neupd s r => exact neu w 0 k s r hr
  | succ f ih =>
    intro w k r hw hr hf
    have hn := nx w r hr
    rw [contPc_resume (σ := σ)] at hf ⊢
    cases h : eigs_resume (σ := σ) a nev r with
    | error e =>
      rw [h] at hn
      exact ⟨[i], hn⟩
    | ok q =>
      rw [h] at hn hf
      rcases eigs_resume_holds h with ⟨c, rfl⟩ | ⟨y, rfl⟩
      · rcases (hw.step rt i).call hm m hj hn k with ⟨r, hr, _⟩ | ⟨c', hc, l, hl⟩ | h | h
        · simp at hr
        · have : c = c' := by simpa using hc.symm
          subst this
          have hi := ih (c.after k) _ ((hw.step rt i).run rt l) hl hf
          obtain ⟨l', hl'⟩ := hi
          refine ⟨i :: (l ++ l'), ?_⟩
          rw [World.run_cons, World.run_append]
          exact hl'
        · simp at h
        · exact h.elim
      · exact ⟨[i], hn⟩

end
end Sparse

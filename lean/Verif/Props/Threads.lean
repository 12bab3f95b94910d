import Verif.Lemmas.Threads
import Verif.Props.Eigen
/-! C64 and C65: `eigs` called from several threads at once, for every schedule. -/
namespace Sparse

section
variable {σ T : Type} [Zero T] [Add T] [Mul T] [Neg T] [BEq T]

/-! ### C64: the mutex -/

/-- C64: whatever the schedule, no two threads are inside the foreign library at the same time. -/
theorem C64_mutual_exclusion (rt : ArpackRt σ T) (jobs : List (CSC T × Nat)) (m : σ) (sched : List Nat)
    (i j : Nat) (c c' : Call T) (x y : σ) :
    ((World.init jobs m).run rt jobs sched).pcs[i]? = some (.inside c x) →
    ((World.init jobs m).run rt jobs sched).pcs[j]? = some (.inside c' y) → i = j := by
  intro hi hj
  have h := (World.init_inv jobs m).run rt sched
  have h1 := (h.own _ _ hi).1 (by simp [Pc.holds])
  have h2 := (h.own _ _ hj).1 (by simp [Pc.holds])
  rw [h1] at h2
  exact Option.some.inj h2

/-- C64: whatever the schedule, no thread finds the mutex poisoned. -/
theorem C64_never_poisoned (rt : ArpackRt σ T) (jobs : List (CSC T × Nat)) (m : σ) (sched : List Nat) :
    ((World.init jobs m).run rt jobs sched).poisoned = false :=
  ((World.init_inv jobs m).run rt sched).clean

/-- The calls listed in `log`, made one after the other, each starting with the static variables the one before it
has left, take the static variables from `m` to `m'` and give the listed replies. -/
def Serial (rt : ArpackRt σ T) (jobs : List (CSC T × Nat)) : σ → List (Nat × Call T × Reply T) → σ → Prop
  | m, [], m' => m = m'
  | m, e :: log, m' => ∃ a nev, jobs[e.1]? = some (a, nev) ∧ (rt.answer a nev e.2.1 m).2 = e.2.2 ∧
      Serial rt jobs (rt.answer a nev e.2.1 m).1 log m'

theorem Serial.snoc {rt : ArpackRt σ T} {jobs : List (CSC T × Nat)} {m m' : σ} {log : List (Nat × Call T × Reply T)}
    (h : Serial rt jobs m log m') {i : Nat} {a : CSC T} {nev : Nat} (hj : jobs[i]? = some (a, nev)) (c : Call T) :
    Serial rt jobs m (log ++ [(i, c, (rt.answer a nev c m').2)]) (rt.answer a nev c m').1 := by
  induction log generalizing m with
  | nil =>
    cases h
    exact ⟨a, nev, hj, rfl, rfl⟩
  | cons e log ih =>
    obtain ⟨a', nev', h1, h2, h3⟩ := h
    exact ⟨a', nev', h1, h2, ih h3⟩

/-- C64: whatever the schedule, the foreign calls that have returned had the effect of calls made one after the other. -/
theorem C64_calls_atomic (rt : ArpackRt σ T) (jobs : List (CSC T × Nat)) (m : σ) (sched : List Nat) :
    let w := (World.init jobs m).run rt jobs sched
    Serial rt jobs m w.log w.mem := by
  refine World.run_induction (fun w => Serial rt jobs m w.log w.mem) rfl ?_ sched
  intro w i hw h
  unfold World.step
  split
  next a nev p hj hp =>
    cases p with
    | start => dsimp only; split <;> exact h
    | lock c => dsimp only; split; · exact h
                split <;> exact h
    | enter c => exact h
    | inside c x =>
      have := hw.mem _ _ _ hp
      subst this
      exact h.snoc hj c
    | leave r => exact h
    | resume r => dsimp only; split <;> exact h
    | finished o => exact h
  next => exact h

/-- the thread `i` is about to take a step that changes its position -/
theorem World.Inv.moves {jobs : List (CSC T × Nat)} {w : World σ T} (h : w.Inv jobs) (rt : ArpackRt σ T) {i : Nat}
    {p : Pc σ T} (hp : w.pcs[i]? = some p) (hf : ¬ p.isFinished) (ho : w.owner = none ∨ w.owner = some i) :
    ∃ q, (w.step rt jobs i).pcs[i]? = some q ∧ q ≠ p := by
  have hi : i < w.pcs.length := (List.getElem?_eq_some_iff.1 hp).1
  obtain ⟨⟨a, nev⟩, hj⟩ : ∃ q, jobs[i]? = some q := ⟨jobs[i]'(h.len ▸ hi), List.getElem?_eq_getElem _⟩
  have hg : ∀ (w' : World σ T) q, w'.pcs = w.pcs → (w'.goto i q).pcs[i]? = some q := by
    intro w' q e
    simp [World.goto, e, hi]
  have hfl : ∀ e, (w.fail i e).pcs[i]? = some (.finished (.error e)) := by
    intro e
    simp [World.fail, hi]
  unfold World.step
  rw [hj, hp]
  cases p with
  | start =>
    dsimp only
    split
    · next q hq =>
      obtain ⟨s, rfl⟩ := eigs_begin_holds hq
      exact ⟨_, hg _ _ rfl, by simp⟩
    · exact ⟨_, hfl _, by simp⟩
  | lock c =>
    have h1 : w.owner = none := by
      rcases ho with ho | ho
      · exact ho
      · exact ((h.own _ _ hp).2 ho).elim
    dsimp only
    rw [h1, h.clean]
    exact ⟨_, hg _ _ rfl, by simp⟩
  | enter c => exact ⟨_, hg _ _ rfl, by simp⟩
  | inside c x => exact ⟨_, hg _ _ rfl, by simp⟩
  | leave r => exact ⟨_, hg _ _ rfl, by simp⟩
  | resume r =>
    dsimp only
    split
    · next q hq =>
      rcases eigs_resume_holds hq with ⟨c, rfl⟩ | ⟨x, rfl⟩
      · exact ⟨_, hg _ _ rfl, by simp⟩
      · exact ⟨_, hg _ _ rfl, by simp⟩
    · exact ⟨_, hfl _, by simp⟩
  | finished o => exact (hf trivial).elim

/-- C64: whatever the schedule so far, either all threads have finished or some thread can go on: there is no
deadlock. -/
theorem C64_no_deadlock (rt : ArpackRt σ T) (jobs : List (CSC T × Nat)) (m : σ) (sched : List Nat) :
    let w := (World.init jobs m).run rt jobs sched
    (∀ i < jobs.length, ∃ out, w.pcs[i]? = some (.finished out)) ∨
    ∃ i p q, w.pcs[i]? = some p ∧ (w.step rt jobs i).pcs[i]? = some q ∧ q ≠ p := by
  intro w
  have h : w.Inv jobs := (World.init_inv jobs m).run rt sched
  by_cases ha : ∀ i < jobs.length, ∃ out, w.pcs[i]? = some (.finished out)
  · exact .inl ha
  · right
    cases ho : w.owner with
    | some j =>
      have hp := List.getElem?_eq_getElem (h.lt j ho)
      have hh := (h.own _ _ hp).2 ho
      obtain ⟨q, h1, h2⟩ := h.moves rt hp (by
        intro hf
        generalize w.pcs[j]'(h.lt j ho) = p at hh hf
        cases p <;> simp_all [Pc.holds, Pc.isFinished]) (.inr ho)
      exact ⟨j, _, q, hp, h1, h2⟩
    | none =>
      push Not at ha
      obtain ⟨i, hi, hn⟩ := ha
      have hp := List.getElem?_eq_getElem (h.len ▸ hi)
      obtain ⟨q, h1, h2⟩ := h.moves rt hp (by
        intro hf
        rw [hp] at hn
        generalize w.pcs[i]'(h.len ▸ hi) = p at hn hf
        cases p with
        | finished o => exact hn o rfl
        | _ => simp_all [Pc.isFinished]) (.inl ho)
      exact ⟨i, _, q, hp, h1, h2⟩

/-! ### C65: what the other threads can do to the result -/

/-- C65: whatever the library, the other threads and the schedule, a thread that has finished has the outcome of a
sequential `eigs` for some sequence of contents of the library's static variables: only through these can the other
threads have any influence. -/
theorem C65_outcome_sequential (rt : ArpackRt σ T) (jobs : List (CSC T × Nat)) (m : σ) (sched : List Nat) (i : Nat)
    (a : CSC T) (nev : Nat) (hj : jobs[i]? = some (a, nev)) (out : M (List (Cx T) × List (List (Cx T)))) :
    ((World.init jobs m).run rt jobs sched).pcs[i]? = some (.finished out) →
    ∃ (mem : Nat → σ) (last : σ) (d : Nat), ∀ fuel ≥ d,
      eigs ⟨fun k args s => (rt.naupd (mem k) args s).2, fun args ldz s r => (rt.neupd last args ldz s r).2⟩ fuel a nev
        = out := by
  intro hp
  obtain ⟨ms, e, d, _, _, _, h⟩ := World.Follows.run rt jobs m hj sched _ hp
  refine ⟨fun k => (ms[k]?).getD m, e.getD m, d, fun fuel hf => ?_⟩
  obtain ⟨f, rfl⟩ : ∃ f, fuel = f + d := ⟨fuel - d, by omega⟩
  refine h _ ⟨?_, ?_⟩ f
  · intro k x hk args s
    simp [hk]
  · rintro x rfl args ldz s r
    rfl

/-- C65, for a library none of whose answers depends on its static variables: whatever the other threads and the
schedule, a thread that has finished has the outcome of the sequential `eigs`. Missing: libraries that do keep
something from one call to the next, for which the statement is false (`C65_counterexample`). -/
theorem C65_isolated_partial (rt : ArpackRt σ T) (hm : rt.Memoryless) (jobs : List (CSC T × Nat)) (m : σ)
    (sched : List Nat) (i : Nat) (a : CSC T) (nev : Nat) (hj : jobs[i]? = some (a, nev))
    (out : M (List (Cx T) × List (List (Cx T)))) :
    ((World.init jobs m).run rt jobs sched).pcs[i]? = some (.finished out) →
    ∃ d, ∀ fuel ≥ d, eigs (rt.at m) fuel a nev = out := by
  intro hp
  obtain ⟨ms, e, d, _, _, _, h⟩ := World.Follows.run rt jobs m hj sched _ hp
  refine ⟨d, fun fuel hf => ?_⟩
  obtain ⟨f, rfl⟩ : ∃ f, fuel = f + d := ⟨fuel - d, by omega⟩
  exact h _ (hm.agrees m ms e) f

/-- C65, for the same libraries: if the sequential `eigs` ends, then from whatever state the schedule has led to, the
thread can still be brought to its end. -/
theorem C65_completes_partial (rt : ArpackRt σ T) (hm : rt.Memoryless) (jobs : List (CSC T × Nat)) (m : σ)
    (sched : List Nat) (i : Nat) (a : CSC T) (nev : Nat) (hj : jobs[i]? = some (a, nev))
    (out : M (List (Cx T) × List (List (Cx T)))) (fuel : Nat) :
    eigs (rt.at m) fuel a nev = out → out ≠ .error (.panic .fuel) →
    ∃ more, ((World.init jobs m).run rt jobs (sched ++ more)).pcs[i]? = some (.finished out) := by
  intro ho hne
  have hi := (World.init_inv jobs m).run rt sched
  have hlt : i < ((World.init jobs m).run rt jobs sched).pcs.length := by
    rw [hi.len]
    exact (List.getElem?_eq_some_iff.1 hj).1
  have hp := List.getElem?_eq_getElem hlt
  obtain ⟨ms, e, d, h0, h1, h2, h⟩ := World.Follows.run rt jobs m hj sched _ hp
  have hc := h _ (hm.agrees m ms e) fuel
  rw [eigs_mono (by rw [ho]; exact hne), ho] at hc
  simp only [World.run_append]
  generalize (World.init jobs m).run rt jobs sched = w at *
  generalize w.pcs[i]'hlt = p at *
  suffices hs : ∀ (w : World σ T) p, w.Inv jobs → w.pcs[i]? = some p → p ≠ .start →
      out = contPc (rt.at m) fuel a nev ms.length p → w.CanFinish rt jobs i out by
    by_cases hst : p = .start
    · subst hst
      obtain ⟨rfl, _⟩ := h0 rfl
      rw [contPc, contPc_begin (σ := σ)] at hc
      cases hb : eigs_begin (σ := σ) a nev with
      | error e =>
        rw [hb] at hc
        refine ⟨[i], ?_⟩
        show (w.step rt jobs i).pcs[i]? = _
        unfold World.step
        rw [hj, hp]
        dsimp only
        rw [hb, hc]
        simp [World.fail, hlt]
        rfl
      | ok q =>
        rw [hb] at hc
        refine World.CanFinish.of_step i (hs _ q (hi.step rt i) ?_ ?_ hc)
        · unfold World.step
          rw [hj, hp]
          dsimp only
          rw [hb]
          simp [World.goto, hlt]
        · obtain ⟨s, rfl⟩ := eigs_begin_holds hb
          simp
    · exact hs w p hi hp hst hc
  intro w p hi hp hst hc
  have fin : ∀ l k r, (w.run rt jobs l).pcs[i]? = some (.resume r) → out = contReply (rt.at m) fuel a nev k r →
      w.CanFinish rt jobs i out := by
    intro l k r hr hk
    obtain ⟨l', hl'⟩ := World.Inv.finish hm m hj fuel k r (hi.run rt l) hr (hk ▸ hne)
    exact ⟨l ++ l', by rw [World.run_append, hl', hk]⟩
  rcases hi.call hm m hj hp ms.length with ⟨r, hr, l, hl⟩ | ⟨c, hcc, l, hl⟩ | hs | hf
  · refine fin l ms.length r hl ?_
    rcases hr with rfl | rfl <;> exact hc
  · refine fin l (c.after ms.length) _ hl ?_
    rcases hcc with rfl | rfl | ⟨x, rfl⟩ <;> exact hc
  · exact absurd hs hst
  · cases p with
    | finished o =>
      refine ⟨[], ?_⟩
      rw [hc]
      exact hp
    | _ => exact hf.elim

end

/-! ### concrete cases -/

namespace ThreadsExample

/-- A library with one static variable: the first call of a computation stores the order of the matrix in it and
requests a product; the next call reads the product at a position computed from the static variable. -/
def rt : ArpackRt Nat Int where
  naupd m args s :=
    if s.ido = 0 then
      (args.n.toNat, { s with
        ido := 1, workd := List.replicate s.workd.length 1, ipntr := (s.ipntr.set 0 1).set 1 (2 * args.n + 1) })
    else
      (m, { s with ido := 99, resid := s.resid.set 0 ((s.workd[2 * m]?).getD 0), iparam := s.iparam.set 4 1 })
  neupd m _ _ s r := (m, s, { r with dr := r.dr.set 0 ((s.resid[0]?).getD 0) })

/-- the same library with the order taken from the arguments of the call -/
def rt' : ArpackRt Nat Int where
  naupd m args s := ((rt.naupd m args s).1, (rt.naupd args.n.toNat args s).2)
  neupd := rt.neupd

def a3 : CSC Int := ⟨3, 3, [0, 1, 2], [0, 1, 2, 3], [5, 6, 7]⟩
def a4 : CSC Int := ⟨4, 4, [0, 1, 2, 3], [0, 1, 2, 3, 4], [1, 2, 3, 4]⟩
def jobs : List (CSC Int × Nat) := [(a3, 1), (a4, 1)]

/-- thread 0 runs alone to its end -/
def alone : List Nat := List.replicate 16 0
/-- thread 1 makes its first call between the first two calls of thread 0 -/
def mixed : List Nat := List.replicate 5 0 ++ List.replicate 5 1 ++ List.replicate 11 0

/-- the first eigenvalue reported by a thread that has finished with a result -/
def first {σ T : Type} : Option (Pc σ T) → Option T
  | some (.finished (.ok (d, _))) => (d[0]?).map Cx.re
  | _ => none

theorem first_alone : first ((World.init jobs 0).run rt jobs alone).pcs[0]? = some 5 := by decide +kernel
theorem first_mixed : first ((World.init jobs 0).run rt jobs mixed).pcs[0]? = some 7 := by decide +kernel

/-- the hypothesis of `C65_isolated_partial` is met by a library that does answer differently to different matrices -/
theorem rt'_memoryless : rt'.Memoryless := by
  intro m m'
  exact ⟨fun _ _ => rfl, fun _ _ _ _ => rfl⟩

example : first ((World.init jobs 0).run rt' jobs alone).pcs[0]? = some 5 ∧
    first ((World.init jobs 0).run rt' jobs mixed).pcs[0]? = some 5 := by decide +kernel

/-- one thread inside the library, the other waiting for the lock -/
example : ∃ c x c', ((World.init jobs 0).run rt jobs [0, 0, 1, 1, 0, 1]).pcs[0]? = some (.inside c x) ∧
    ((World.init jobs 0).run rt jobs [0, 0, 1, 1, 0, 1]).pcs[1]? = some (.lock c') := ⟨_, _, _, rfl, rfl⟩

/-- three calls have returned -/
example : ((World.init jobs 0).run rt jobs (mixed.take 15)).log.map Prod.fst = [0, 1, 0] := by decide +kernel

/-- the sequential function ends -/
example : (eigs (rt'.at 0) 2 a3 1).isOk = true := by decide +kernel

end ThreadsExample

open ThreadsExample in
/-- C65 is false for a library that keeps static variables between the calls of one computation: the lock is given up
between them, and the result of one thread then depends on whether another one has run. -/
theorem C65_counterexample :
    ∃ (rt : ArpackRt Nat Int) (jobs : List (CSC Int × Nat)) (m : Nat) (sched sched' : List Nat) (r r' : List (Cx Int) × List (List (Cx Int))),
      ((World.init jobs m).run rt jobs sched).pcs[0]? = some (.finished (.ok r)) ∧
      ((World.init jobs m).run rt jobs sched').pcs[0]? = some (.finished (.ok r')) ∧ r ≠ r' := by
  have key : ∀ (o : Option (Pc Nat Int)) x, first o = some x → ∃ r : List (Cx Int) × List (List (Cx Int)),
      o = some (.finished (.ok r)) ∧ (r.1[0]?).map Cx.re = some x := by
    intro o x h
    unfold first at h
    split at h
    · exact ⟨_, rfl, h⟩
    · cases h
  obtain ⟨r, h1, h2⟩ := key _ _ first_alone
  obtain ⟨r', h3, h4⟩ := key _ _ first_mixed
  refine ⟨rt, jobs, 0, alone, mixed, r, r', h1, h3, ?_⟩
  rintro rfl
  rw [h2] at h4
  exact absurd h4 (by decide)

end Sparse

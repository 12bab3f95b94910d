import Verif.Model.Eigen
/-!
Model of `eigs` (src/eigen/real.rs) called from several threads at once. The threads share the global mutex `MUTEX`
(lines 9-11) and the static variables of the foreign library. A schedule is the list of the threads that take the
successive steps; a foreign call is two steps, one that enters it and reads the static variables and one that leaves
it and writes them, so that overlapping calls would be visible. The arrays of a call belong to its thread.
-/
namespace Sparse

section
variable {σ T : Type}

/-- The foreign routines, with the content `σ` of the library's static variables before and after the call. -/
structure ArpackRt (σ T : Type) where
  naupd : σ → ArpackArgs → Arpack T → σ × Arpack T
  neupd : σ → ArpackArgs → Int → Arpack T → Ritz T → σ × Arpack T × Ritz T

/-- A foreign call about to be made: `dnaupd_c` (src/eigen/real.rs:78-95, 105-122) or `dneupd_c` (142-168) -/
inductive Call (T : Type) where
  | naupd (s : Arpack T)
  | neupd (s : Arpack T)

/-- What a foreign call has left in the variables passed by reference -/
inductive Reply (T : Type) where
  | naupd (s : Arpack T)
  | neupd (s : Arpack T) (r : Ritz T)

/-- Where a thread is in `eigs`. -/
inductive Pc (σ T : Type) where
  /-- before src/eigen/real.rs:34 -/
  | start
  /-- at `MUTEX.lock().unwrap()`: lines 77, 104, 141 -/
  | lock (c : Call T)
  /-- the lock is held, the foreign call is next: lines 78, 105, 142 -/
  | enter (c : Call T)
  /-- inside the foreign call, which has read the static variables -/
  | inside (c : Call T) (m : σ)
  /-- the call has returned, `drop(lock)` is next: lines 96, 123, 169 -/
  | leave (r : Reply T)
  /-- after `drop(lock)`: lines 97, 124, 170 -/
  | resume (r : Reply T)
  /-- `eigs` has returned or panicked -/
  | finished (out : M (List (Cx T) × List (List (Cx T))))

/-- The state shared by the threads. `log` is a history variable: the foreign calls completed so far, oldest first,
with the thread, the call and the reply. -/
structure World (σ T : Type) where
  pcs : List (Pc σ T)
  owner : Option Nat
  poisoned : Bool
  mem : σ
  log : List (Nat × Call T × Reply T)

/-- the foreign call `c` made by `eigs(a, nev)` when the static variables contain `m` -/
def ArpackRt.answer [Zero T] (rt : ArpackRt σ T) (a : CSC T) (nev : Nat) (c : Call T) (m : σ) : σ × Reply T :=
  let n := a.rows
  let ncv := min n (2 * nev + 1)
  match c with
  | .naupd s =>
    let r := rt.naupd m (eigs_args n ncv nev) s
    (r.1, .naupd r.2)
  | .neupd s =>
    let r := rt.neupd m (eigs_args n ncv nev) (asI32 (n + 1)) s
      ⟨List.replicate (nev + 1) 0, List.replicate (nev + 1) 0, List.replicate (n * (nev + 1)) 0⟩
    (r.1, .neupd r.2.1 r.2.2)

/-- src/eigen/real.rs:34-75: from the start to the first `MUTEX.lock()` -/
def eigs_begin [Zero T] (a : CSC T) (nev : Nat) : M (Pc σ T) := do
  let (n, ncv) ← eigs_check a nev
  pure (.lock (.naupd (← eigs_init n ncv)))

/-- src/eigen/real.rs:99-101 and 126-139 after `dnaupd_c`, 171-234 after `dneupd_c`: from `drop(lock)` to the next
`MUTEX.lock()` or the end -/
def eigs_resume [Zero T] [Add T] [Mul T] [Neg T] [BEq T] (a : CSC T) (nev : Nat) : Reply T → M (Pc σ T)
  | .naupd s =>
    if s.ido = 1 then do
      pure (.lock (.naupd (← eigs_product a a.rows s)))
    else if s.info < 0 then
      throw .err
    else
      pure (.lock (.neupd s))
  | .neupd s r =>
    if s.info ≠ 0 then
      throw .err
    else do
      pure (.finished (.ok (← eigs_assemble a.rows nev s r)))

/-- thread `i` is now at `p` -/
def World.goto (w : World σ T) (i : Nat) (p : Pc σ T) : World σ T := { w with pcs := w.pcs.set i p }

/-- Thread `i` returns `Err` or panics. A guard it holds is dropped; dropping it while panicking poisons the mutex. -/
def World.fail (w : World σ T) (i : Nat) (e : Fault) : World σ T :=
  { w with
    pcs := w.pcs.set i (.finished (.error e))
    poisoned := w.poisoned || (decide (w.owner = some i) && decide (e ≠ .err))
    owner := if w.owner = some i then none else w.owner }

/-- One step of thread `i`, which executes `eigs(&a, nev)` for `jobs[i] = (a, nev)`. A thread waiting for the lock
and a thread that has finished do nothing. -/
def World.step [Zero T] [Add T] [Mul T] [Neg T] [BEq T] (rt : ArpackRt σ T) (jobs : List (CSC T × Nat))
    (w : World σ T) (i : Nat) : World σ T :=
  match jobs[i]?, w.pcs[i]? with
  | some (a, nev), some p =>
    match p with
    | .start =>
      match eigs_begin a nev with
      | .ok p => w.goto i p
      | .error e => w.fail i e
    | .lock c =>
      if w.owner.isSome then w
      else if w.poisoned then w.fail i (.panic .unwrap)
      else { w with owner := some i }.goto i (.enter c)
    | .enter c => w.goto i (.inside c w.mem)
    | .inside c m =>
      let r := rt.answer a nev c m
      { w with mem := r.1, log := w.log ++ [(i, c, r.2)] }.goto i (.leave r.2)
    | .leave r => { w with owner := none }.goto i (.resume r)
    | .resume r =>
      match eigs_resume a nev r with
      | .ok p => w.goto i p
      | .error e => w.fail i e
    | .finished _ => w
  | _, _ => w

/-- all threads before their call of `eigs`, static variables `m` -/
def World.init (jobs : List (CSC T × Nat)) (m : σ) : World σ T :=
  { pcs := jobs.map fun _ => .start, owner := none, poisoned := false, mem := m, log := [] }

/-- the state after the threads in `sched` have taken their steps in that order -/
def World.run [Zero T] [Add T] [Mul T] [Neg T] [BEq T] (rt : ArpackRt σ T) (jobs : List (CSC T × Nat))
    (w : World σ T) (sched : List Nat) : World σ T :=
  sched.foldl (fun w i => w.step rt jobs i) w

end
end Sparse

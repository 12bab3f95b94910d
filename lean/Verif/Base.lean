/-
Execution monad and the primitive Rust operations used by the crate.
Nothing in this file is specific to a function of the crate; the correspondence with Rust is:

* slice / `Vec` indexing `v[i]`          → `v.rd i`      (panics out of bounds)
* slice / `Vec` store `v[i] = x`         → `v.wr i x`    (panics out of bounds)
* `x.to_usize().unwrap()`                → `toUsize x`   (panics on a negative value)
* `I::from(n).unwrap()`                  → `t.ofUsize n` / `t.ofInt z` (panics if not representable)
* `a + b`, `a - b` on the index type `I` → `t.add a b`, `t.sub a b` (panic on overflow, or wrap around in a build
                                           without overflow checks)
* `a - b` on `usize`                     → `usub a b`    (panics on underflow)
* `for i in a..b`                        → `for i in rng a b`
* `while c { .. }`                       → `whileM fuel s step`
* `return Err(..)`                       → `throw .err`
* `r.unwrap()` on a `Result`             → `unwrapR r`
-/
namespace Sparse

/-- Reasons for a Rust panic. `fuel` is not a Rust panic: it marks a `while` loop that has not finished
within the fuel given to it. -/
inductive Panic where
  | oob | unwrap | arith | assert | unreachable | fuel
  deriving DecidableEq, Repr

/-- Abnormal outcome of a Rust call: a returned `Err` or a panic. -/
inductive Fault where
  | err
  | panic (p : Panic)
  deriving DecidableEq, Repr

/-- Outcome of a Rust call. -/
abbrev M := Except Fault

instance [DecidableEq α] : DecidableEq (M α) := fun a b =>
  match a, b with
  | .ok x, .ok y => if h : x = y then .isTrue (by rw [h]) else .isFalse (by intro e; cases e; exact h rfl)
  | .error x, .error y => if h : x = y then .isTrue (by rw [h]) else .isFalse (by intro e; cases e; exact h rfl)
  | .ok _, .error _ => .isFalse (by intro e; cases e)
  | .error _, .ok _ => .isFalse (by intro e; cases e)

/-- `v[i]` -/
def _root_.List.rd (l : List α) (i : Nat) : M α :=
  match l[i]? with
  | some a => pure a
  | none => throw (.panic .oob)

/-- `v[i] = x` -/
def _root_.List.wr (l : List α) (i : Nat) (a : α) : M (List α) :=
  if i < l.length then pure (l.set i a) else throw (.panic .oob)

/-- `Vec::resize(n, v)` -/
def _root_.List.resize (l : List α) (n : Nat) (v : α) : List α :=
  l.take n ++ List.replicate (n - l.length) v

/-- `&v[a..b]` (panics when `a > b` or `b > len`) -/
def _root_.List.slice (l : List α) (a b : Nat) : M (List α) :=
  if a ≤ b ∧ b ≤ l.length then pure ((l.drop a).take (b - a)) else throw (.panic .oob)

/-- `&v[a..]` (panics when `a > len`) -/
def _root_.List.sliceFrom (l : List α) (a : Nat) : M (List α) :=
  if a ≤ l.length then pure (l.drop a) else throw (.panic .oob)

/-- A Rust primitive integer type used as index type `I` (src/traits.rs:6-23): its value range. -/
structure IntTy where
  lo : Int
  hi : Int
  lo_nonpos : lo ≤ 0
  hi_ge : 127 ≤ hi

namespace IntTy
def u8 : IntTy := ⟨0, 255, by decide, by decide⟩
def u16 : IntTy := ⟨0, 65535, by decide, by decide⟩
def u32 : IntTy := ⟨0, 4294967295, by decide, by decide⟩
def u64 : IntTy := ⟨0, 18446744073709551615, by decide, by decide⟩
def usize : IntTy := u64
def i8 : IntTy := ⟨-128, 127, by decide, by decide⟩
def i16 : IntTy := ⟨-32768, 32767, by decide, by decide⟩
def i32 : IntTy := ⟨-2147483648, 2147483647, by decide, by decide⟩
def i64 : IntTy := ⟨-9223372036854775808, 9223372036854775807, by decide, by decide⟩
def isize : IntTy := i64

end IntTy

/-- An index type together with the build profile: with overflow checks (`wraps = false`) `+` and `-` panic on overflow,
without them (`wraps = true`) they wrap around. -/
structure IdxTy extends IntTy where
  wraps : Bool

/-- the type in a build with overflow checks -/
@[coe] def IntTy.checked (t : IntTy) : IdxTy := { t with wraps := false }
/-- the type in a build without overflow checks -/
def IntTy.unchecked (t : IntTy) : IdxTy := { t with wraps := true }

/-- a type alone stands for the build with overflow checks -/
instance : Coe IntTy IdxTy := ⟨IntTy.checked⟩

namespace IdxTy
abbrev u8 : IdxTy := IntTy.u8
abbrev u16 : IdxTy := IntTy.u16
abbrev u32 : IdxTy := IntTy.u32
abbrev u64 : IdxTy := IntTy.u64
abbrev usize : IdxTy := IntTy.usize
abbrev i8 : IdxTy := IntTy.i8
abbrev i16 : IdxTy := IntTy.i16
abbrev i32 : IdxTy := IntTy.i32
abbrev i64 : IdxTy := IntTy.i64
abbrev isize : IdxTy := IntTy.isize

/-- `I::from(z).unwrap()` for a signed argument -/
def ofInt (t : IdxTy) (z : Int) : M Int :=
  if t.lo ≤ z ∧ z ≤ t.hi then pure z else throw (.panic .unwrap)

/-- `I::from(n).unwrap()` for a `usize` argument -/
def ofUsize (t : IdxTy) (n : Nat) : M Int :=
  if (n : Int) ≤ t.hi then pure (n : Int) else throw (.panic .unwrap)

/-- the value of the type that is congruent to `z` modulo the number of values -/
def wrap (t : IdxTy) (z : Int) : Int := t.lo + (z - t.lo) % (t.hi - t.lo + 1)

/-- the outcome of an addition or subtraction with mathematical result `z` -/
def arith (t : IdxTy) (z : Int) : M Int :=
  if t.lo ≤ z ∧ z ≤ t.hi then pure z else if t.wraps then pure (t.wrap z) else throw (.panic .arith)

/-- `a + b` on `I` -/
def add (t : IdxTy) (a b : Int) : M Int := t.arith (a + b)

/-- `a - b` on `I` -/
def sub (t : IdxTy) (a b : Int) : M Int := t.arith (a - b)
end IdxTy

namespace IntTy
variable (t : IntTy)
theorem checked_ofInt (z : Int) :
    IdxTy.ofInt t z = if t.lo ≤ z ∧ z ≤ t.hi then pure z else throw (.panic .unwrap) := rfl
theorem checked_ofUsize (n : Nat) :
    IdxTy.ofUsize t n = if (n : Int) ≤ t.hi then pure (n : Int) else throw (.panic .unwrap) := rfl
theorem checked_add (a b : Int) :
    IdxTy.add t a b = if t.lo ≤ a + b ∧ a + b ≤ t.hi then pure (a + b) else throw (.panic .arith) := rfl
theorem checked_sub (a b : Int) :
    IdxTy.sub t a b = if t.lo ≤ a - b ∧ a - b ≤ t.hi then pure (a - b) else throw (.panic .arith) := rfl
end IntTy

/-- `x.to_usize().unwrap()` -/
def toUsize (a : Int) : M Nat :=
  if 0 ≤ a then pure a.toNat else throw (.panic .unwrap)

/-- `a - b` on `usize` (underflow-checked) -/
def usub (a b : Nat) : M Nat :=
  if b ≤ a then pure (a - b) else throw (.panic .arith)

/-- `Result::unwrap()` -/
def unwrapR (m : M α) : M α :=
  match m with
  | .error .err => .error (.panic .unwrap)
  | m => m

/-- the range `a..b` -/
def rng (a b : Nat) : List Nat := List.range' a (b - a)

/-- `while`/`loop`: `step s` returns `.done s'` when the loop is left and `.yield s'` to go on. -/
def whileM (fuel : Nat) (s : σ) (step : σ → M (ForInStep σ)) : M σ :=
  match fuel with
  | 0 => throw (.panic .fuel)
  | n + 1 => do
    match ← step s with
    | .done s' => pure s'
    | .yield s' => whileM n s' step

/-! ### `Ok m Q`: `m` returns normally and its value satisfies `Q` -/

def Ok (m : M α) (Q : α → Prop) : Prop := ∃ a, m = .ok a ∧ Q a

theorem Ok.mono {m : M α} {Q R : α → Prop} (h : Ok m Q) (hQR : ∀ a, Q a → R a) : Ok m R := by
  obtain ⟨a, h1, h2⟩ := h
  exact ⟨a, h1, hQR a h2⟩

theorem Ok_of_eq {m : M α} {a : α} {Q : α → Prop} (h : m = .ok a) (hq : Q a) : Ok m Q := ⟨a, h, hq⟩

theorem Ok_pure {a : α} {Q : α → Prop} : Ok (pure a) Q ↔ Q a := by
  simp [Ok, pure, Except.pure]

theorem Ok_ok {a : α} {Q : α → Prop} : Ok (.ok a) Q ↔ Q a := by
  simp [Ok]

theorem Ok_throw {e : Fault} {Q : α → Prop} : Ok (throw e) Q ↔ False := by
  simp [Ok, throw, throwThe, MonadExceptOf.throw]

theorem Ok_bind {m : M α} {f : α → M β} {Q : β → Prop} :
    Ok (m >>= f) Q ↔ Ok m fun a => Ok (f a) Q := by
  cases m <;> simp [Ok, bind, Except.bind]

theorem Ok_map {m : M α} {f : α → β} {Q : β → Prop} :
    Ok (f <$> m) Q ↔ Ok m fun a => Q (f a) := by
  cases m <;> simp [Ok, Functor.map, Except.map]

theorem Ok_ite {c : Prop} [Decidable c] {a b : M α} {Q : α → Prop} :
    Ok (if c then a else b) Q ↔ ((c → Ok a Q) ∧ (¬ c → Ok b Q)) := by
  split <;> simp_all

theorem Ok_rd {l : List α} {i : Nat} {Q : α → Prop} :
    Ok (l.rd i) Q ↔ ∃ a, l[i]? = some a ∧ Q a := by
  unfold List.rd
  split <;> simp_all [Ok_pure, Ok_throw]

theorem Ok_wr {l : List α} {i : Nat} {a : α} {Q : List α → Prop} :
    Ok (l.wr i a) Q ↔ i < l.length ∧ Q (l.set i a) := by
  unfold List.wr
  split <;> rename_i h <;> simp only [Ok_pure, Ok_throw, h, true_and, false_and]

theorem Ok_slice {l : List α} {a b : Nat} {Q : List α → Prop} :
    Ok (l.slice a b) Q ↔ (a ≤ b ∧ b ≤ l.length) ∧ Q ((l.drop a).take (b - a)) := by
  unfold List.slice
  split <;> rename_i h <;> simp only [Ok_pure, Ok_throw, h, true_and, false_and]

theorem Ok_sliceFrom {l : List α} {a : Nat} {Q : List α → Prop} :
    Ok (l.sliceFrom a) Q ↔ a ≤ l.length ∧ Q (l.drop a) := by
  unfold List.sliceFrom
  split <;> rename_i h <;> simp only [Ok_pure, Ok_throw, h, true_and, false_and]

theorem Ok_ofInt {t : IntTy} {z : Int} {Q : Int → Prop} :
    Ok (IdxTy.ofInt t z) Q ↔ (t.lo ≤ z ∧ z ≤ t.hi) ∧ Q z := by
  rw [IntTy.checked_ofInt]
  split <;> rename_i h <;> simp only [Ok_pure, Ok_throw, h, true_and, false_and]

theorem Ok_ofUsize {t : IntTy} {n : Nat} {Q : Int → Prop} :
    Ok (IdxTy.ofUsize t n) Q ↔ (n : Int) ≤ t.hi ∧ Q n := by
  rw [IntTy.checked_ofUsize]
  split <;> rename_i h <;> simp only [Ok_pure, Ok_throw, h, true_and, false_and]

theorem Ok_add {t : IntTy} {a b : Int} {Q : Int → Prop} :
    Ok (IdxTy.add t a b) Q ↔ (t.lo ≤ a + b ∧ a + b ≤ t.hi) ∧ Q (a + b) := by
  rw [IntTy.checked_add]
  split <;> rename_i h <;> simp only [Ok_pure, Ok_throw, h, true_and, false_and]

theorem Ok_sub {t : IntTy} {a b : Int} {Q : Int → Prop} :
    Ok (IdxTy.sub t a b) Q ↔ (t.lo ≤ a - b ∧ a - b ≤ t.hi) ∧ Q (a - b) := by
  rw [IntTy.checked_sub]
  split <;> rename_i h <;> simp only [Ok_pure, Ok_throw, h, true_and, false_and]

theorem Ok_toUsize {a : Int} {Q : Nat → Prop} :
    Ok (toUsize a) Q ↔ 0 ≤ a ∧ Q a.toNat := by
  unfold toUsize
  split <;> rename_i h <;> simp only [Ok_pure, Ok_throw, h, true_and, false_and]

theorem Ok_usub {a b : Nat} {Q : Nat → Prop} :
    Ok (usub a b) Q ↔ b ≤ a ∧ Q (a - b) := by
  unfold usub
  split <;> rename_i h <;> simp only [Ok_pure, Ok_throw, h, true_and, false_and]

theorem Ok_unwrapR {m : M α} {Q : α → Prop} : Ok (unwrapR m) Q ↔ Ok m Q := by
  unfold unwrapR
  split <;> simp [Ok]

/-! ### loop rules -/

theorem rng_eq_nil {a b : Nat} (h : b ≤ a) : rng a b = [] := by
  have : b - a = 0 := by omega
  simp [rng, this]

theorem rng_cons {a b : Nat} (h : a < b) : rng a b = a :: rng (a + 1) b := by
  have : b - a = (b - (a + 1)) + 1 := by omega
  simp [rng, this, List.range'_succ]

theorem rng_succ {a b : Nat} (h : a ≤ b) : rng a (b + 1) = rng a b ++ [b] := by
  have e : b + 1 - a = (b - a) + 1 := by omega
  rw [rng, e, List.range'_concat, rng]
  congr 2
  omega

theorem mem_rng {a b i : Nat} : i ∈ rng a b ↔ a ≤ i ∧ i < b := by
  simp only [rng, List.mem_range'_1]
  omega

/-- Invariant rule for `for x in l`, with early exit (`break`/`return`). `P p s`: `p` is the list of
elements processed so far. -/
theorem Ok_forList' {l : List α} {s : σ} {f : α → σ → M (ForInStep σ)} {Q : σ → Prop}
    (P : List α → σ → Prop) (R : σ → Prop) (h0 : P [] s)
    (hs : ∀ p x r s, l = p ++ x :: r → P p s →
      Ok (f x s) (fun st => match st with | .yield s' => P (p ++ [x]) s' | .done s' => R s'))
    (hR : ∀ s, R s → Q s) (hQ : ∀ s, P l s → Q s) : Ok (forIn l s f) Q := by
  have key : ∀ (r p : List α) (s : σ), l = p ++ r → P p s → Ok (forIn r s f) Q := by
    intro r
    induction r with
    | nil =>
      intro p s hl hp
      simp only [List.forIn_nil, Ok_pure]
      simp at hl; subst hl; exact hQ _ hp
    | cons x r ih =>
      intro p s hl hp
      rw [List.forIn_cons, Ok_bind]
      refine (hs p x r s hl hp).mono ?_
      intro st hst
      cases st with
      | done s' => simp only [Ok_pure]; exact hR _ hst
      | yield s' => exact ih (p ++ [x]) s' (by simp [hl]) hst
  exact key l [] s (by simp) h0

/-- Invariant rule for `for x in l` without early exit. -/
theorem Ok_forList {l : List α} {s : σ} {f : α → σ → M (ForInStep σ)} {Q : σ → Prop}
    (P : List α → σ → Prop) (h0 : P [] s)
    (hs : ∀ p x r s, l = p ++ x :: r → P p s →
      Ok (f x s) (fun st => ∃ s', st = .yield s' ∧ P (p ++ [x]) s'))
    (hQ : ∀ s, P l s → Q s) : Ok (forIn l s f) Q := by
  refine Ok_forList' P (fun _ => False) h0 ?_ (by simp) hQ
  intro p x r s hl hp
  refine (hs p x r s hl hp).mono ?_
  rintro st ⟨s', rfl, h⟩
  exact h

/-- Invariant rule for `for i in a..b` with early exit. -/
theorem Ok_forRange' {a b : Nat} {s : σ} {f : Nat → σ → M (ForInStep σ)} {Q : σ → Prop}
    (P : Nat → σ → Prop) (R : σ → Prop) (hab : a ≤ b) (h0 : P a s)
    (hs : ∀ i s, a ≤ i → i < b → P i s →
      Ok (f i s) (fun st => match st with | .yield s' => P (i + 1) s' | .done s' => R s'))
    (hR : ∀ s, R s → Q s) (hQ : ∀ s, P b s → Q s) : Ok (forIn (rng a b) s f) Q := by
  have key : ∀ (k a : Nat) (s : σ), b - a = k → a ≤ b → P a s →
      (∀ i s, a ≤ i → i < b → P i s →
        Ok (f i s) (fun st => match st with | .yield s' => P (i + 1) s' | .done s' => R s')) →
      Ok (forIn (rng a b) s f) Q := by
    intro k
    induction k with
    | zero =>
      intro a s hk hab hp hs
      have : a = b := by omega
      subst this
      rw [rng_eq_nil (Nat.le_refl _), List.forIn_nil, Ok_pure]
      exact hQ _ hp
    | succ k ih =>
      intro a s hk hab hp hs
      rw [rng_cons (by omega), List.forIn_cons, Ok_bind]
      refine (hs a s (Nat.le_refl _) (by omega) hp).mono ?_
      intro st hst
      cases st with
      | done s' => simp only [Ok_pure]; exact hR _ hst
      | yield s' => exact ih (a + 1) s' (by omega) (by omega) hst (fun i s h1 h2 => hs i s (by omega) h2)
  exact key (b - a) a s rfl hab h0 hs

/-- Invariant rule for `for i in a..b` without early exit. -/
theorem Ok_forRange {a b : Nat} {s : σ} {f : Nat → σ → M (ForInStep σ)} {Q : σ → Prop}
    (P : Nat → σ → Prop) (hab : a ≤ b) (h0 : P a s)
    (hs : ∀ i s, a ≤ i → i < b → P i s →
      Ok (f i s) (fun st => ∃ s', st = .yield s' ∧ P (i + 1) s'))
    (hQ : ∀ s, P b s → Q s) : Ok (forIn (rng a b) s f) Q := by
  refine Ok_forRange' P (fun _ => False) hab h0 ?_ (by simp) hQ
  intro i s h1 h2 hp
  refine (hs i s h1 h2 hp).mono ?_
  rintro st ⟨s', rfl, h⟩
  exact h

/-- Invariant rule for `while`: the measure bounds the number of remaining iterations. -/
theorem Ok_while {fuel : Nat} {s : σ} {step : σ → M (ForInStep σ)} {Q : σ → Prop}
    (P : σ → Prop) (μ : σ → Nat) (hf : μ s < fuel) (h0 : P s)
    (hs : ∀ s, P s → Ok (step s)
      (fun st => match st with | .yield s' => P s' ∧ μ s' < μ s | .done s' => Q s')) :
    Ok (whileM fuel s step) Q := by
  induction fuel generalizing s with
  | zero => omega
  | succ n ih =>
    unfold whileM
    rw [Ok_bind]
    refine (hs s h0).mono ?_
    intro st hst
    cases st with
    | done s' => simp only [Ok_pure]; exact hst
    | yield s' => exact ih (by have := hst.2; omega) hst.1

/-- all WP rewriting rules for straight-line code -/
macro "wp" : tactic => `(tactic| simp only [Ok_bind, Ok_pure, Ok_ok, Ok_map, Ok_throw, Ok_rd, Ok_wr,
  Ok_ofUsize, Ok_ofInt, Ok_add, Ok_sub, Ok_toUsize, Ok_usub, Ok_unwrapR, Ok_slice, Ok_sliceFrom])

end Sparse

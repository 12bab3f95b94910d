import Verif.Base
/-! Rules for outcomes that may be faults: `WP m Q E` says that `m` returns a value satisfying `Q` or a
fault satisfying `E`. With `Q = False` it proves that a call fails. -/
namespace Sparse

def WP (m : M α) (Q : α → Prop) (E : Fault → Prop) : Prop :=
  match m with
  | .ok a => Q a
  | .error e => E e

theorem WP.fails {m : M α} {E : Fault → Prop} (h : WP m (fun _ => False) E) : ∃ e, m = .error e ∧ E e := by
  cases m with
  | ok a => exact h.elim
  | error e => exact ⟨e, rfl, h⟩

theorem WP.fails_eq {m : M α} {e : Fault} (h : WP m (fun _ => False) (· = e)) : m = .error e := by
  obtain ⟨e', h1, rfl⟩ := h.fails
  exact h1

theorem WP.mono {m : M α} {Q R : α → Prop} {E F : Fault → Prop} (h : WP m Q E) (hQ : ∀ a, Q a → R a)
    (hE : ∀ e, E e → F e) : WP m R F := by
  cases m with
  | ok a => exact hQ _ h
  | error e => exact hE _ h

theorem WP_of_ok {m : M α} {Q : α → Prop} {E : Fault → Prop} (h : Ok m Q) : WP m Q E := by
  obtain ⟨a, rfl, h⟩ := h
  exact h

/-- a call about which nothing is known -/
theorem WP_any {m : M α} {Q : α → Prop} (h : ∀ a, Q a) : WP m Q (fun _ => True) := by
  cases m with
  | ok a => exact h a
  | error e => trivial

theorem WP.not_ok {m : M α} {E : Fault → Prop} (h : WP m (fun _ => False) E) (a : α) : m ≠ .ok a := by
  rintro rfl
  exact h

theorem WP_pure {a : α} {Q : α → Prop} {E : Fault → Prop} : WP (pure a) Q E ↔ Q a := Iff.rfl
theorem WP_ok {a : α} {Q : α → Prop} {E : Fault → Prop} : WP (.ok a) Q E ↔ Q a := Iff.rfl
theorem WP_error {e : Fault} {Q : α → Prop} {E : Fault → Prop} : WP (.error e) Q E ↔ E e := Iff.rfl
theorem WP_throw {e : Fault} {Q : α → Prop} {E : Fault → Prop} : WP (throw e) Q E ↔ E e := Iff.rfl
theorem WP_bind {m : M α} {f : α → M β} {Q : β → Prop} {E : Fault → Prop} :
    WP (m >>= f) Q E ↔ WP m (fun a => WP (f a) Q E) E := by
  cases m <;> exact Iff.rfl
theorem WP_map {m : M α} {f : α → β} {Q : β → Prop} {E : Fault → Prop} :
    WP (f <$> m) Q E ↔ WP m (fun a => Q (f a)) E := by
  cases m <;> exact Iff.rfl
theorem WP_ite {c : Prop} [Decidable c] {a b : M α} {Q : α → Prop} {E : Fault → Prop} :
    WP (if c then a else b) Q E ↔ ((c → WP a Q E) ∧ (¬ c → WP b Q E)) := by
  split <;> simp_all
theorem WP_rd {l : List α} {i : Nat} {Q : α → Prop} {E : Fault → Prop} :
    WP (l.rd i) Q E ↔ ((∀ a, l[i]? = some a → Q a) ∧ (l[i]? = none → E (.panic .oob))) := by
  unfold List.rd
  split <;> rename_i h <;> simp [h, WP_pure, WP_throw]
theorem WP_wr {l : List α} {i : Nat} {a : α} {Q : List α → Prop} {E : Fault → Prop} :
    WP (l.wr i a) Q E ↔ ((i < l.length → Q (l.set i a)) ∧ (¬ i < l.length → E (.panic .oob))) := by
  unfold List.wr
  rw [WP_ite, WP_pure, WP_throw]
theorem WP_ofUsize {t : IntTy} {n : Nat} {Q : Int → Prop} {E : Fault → Prop} :
    WP (IdxTy.ofUsize t n) Q E ↔ (((n : Int) ≤ t.hi → Q n) ∧ (¬ (n : Int) ≤ t.hi → E (.panic .unwrap))) := by
  rw [IntTy.checked_ofUsize]
  rw [WP_ite, WP_pure, WP_throw]
theorem WP_ofInt {t : IntTy} {n : Int} {Q : Int → Prop} {E : Fault → Prop} :
    WP (IdxTy.ofInt t n) Q E ↔ (((t.lo ≤ n ∧ n ≤ t.hi) → Q n) ∧ (¬ (t.lo ≤ n ∧ n ≤ t.hi) → E (.panic .unwrap))) := by
  rw [IntTy.checked_ofInt]
  rw [WP_ite, WP_pure, WP_throw]
theorem WP_add {t : IntTy} {a b : Int} {Q : Int → Prop} {E : Fault → Prop} :
    WP (IdxTy.add t a b) Q E ↔ (((t.lo ≤ a + b ∧ a + b ≤ t.hi) → Q (a + b)) ∧
      (¬ (t.lo ≤ a + b ∧ a + b ≤ t.hi) → E (.panic .arith))) := by
  rw [IntTy.checked_add]
  rw [WP_ite, WP_pure, WP_throw]
theorem WP_sub {t : IntTy} {a b : Int} {Q : Int → Prop} {E : Fault → Prop} :
    WP (IdxTy.sub t a b) Q E ↔ (((t.lo ≤ a - b ∧ a - b ≤ t.hi) → Q (a - b)) ∧
      (¬ (t.lo ≤ a - b ∧ a - b ≤ t.hi) → E (.panic .arith))) := by
  rw [IntTy.checked_sub]
  rw [WP_ite, WP_pure, WP_throw]
theorem WP_toUsize {a : Int} {Q : Nat → Prop} {E : Fault → Prop} :
    WP (toUsize a) Q E ↔ ((0 ≤ a → Q a.toNat) ∧ (¬ 0 ≤ a → E (.panic .unwrap))) := by
  unfold toUsize
  rw [WP_ite, WP_pure, WP_throw]
theorem WP_usub {a b : Nat} {Q : Nat → Prop} {E : Fault → Prop} :
    WP (usub a b) Q E ↔ ((b ≤ a → Q (a - b)) ∧ (¬ b ≤ a → E (.panic .arith))) := by
  unfold usub
  rw [WP_ite, WP_pure, WP_throw]

/-- `for i in a..b`: the invariant holds until the loop ends, is left early, or fails. -/
theorem WP_forRange {a b : Nat} {s : σ} {f : Nat → σ → M (ForInStep σ)} {Q : σ → Prop} {E : Fault → Prop}
    (P : Nat → σ → Prop) (R : σ → Prop) (hab : a ≤ b) (h0 : P a s)
    (hs : ∀ i s, a ≤ i → i < b → P i s →
      WP (f i s) (fun st => match st with | .yield s' => P (i + 1) s' | .done s' => R s') E)
    (hR : ∀ s, R s → Q s) (hQ : ∀ s, P b s → Q s) : WP (forIn (rng a b) s f) Q E := by
  have key : ∀ (k a : Nat) (s : σ), b - a = k → a ≤ b → P a s →
      (∀ i s, a ≤ i → i < b → P i s →
        WP (f i s) (fun st => match st with | .yield s' => P (i + 1) s' | .done s' => R s') E) →
      WP (forIn (rng a b) s f) Q E := by
    intro k
    induction k with
    | zero =>
      intro a s hk hab hp hs
      have : a = b := by omega
      subst this
      rw [rng_eq_nil (Nat.le_refl _), List.forIn_nil, WP_pure]
      exact hQ _ hp
    | succ k ih =>
      intro a s hk hab hp hs
      rw [rng_cons (by omega), List.forIn_cons, WP_bind]
      refine (hs a s (Nat.le_refl _) (by omega) hp).mono ?_ (fun _ h => h)
      intro st hst
      cases st with
      | done s' => simp only [WP_pure]; exact hR _ hst
      | yield s' => exact ih (a + 1) s' (by omega) (by omega) hst (fun i s h1 h2 => hs i s (by omega) h2)
  exact key (b - a) a s rfl hab h0 hs

/-- `for x in l`, possibly failing. -/
theorem WP_forList {l : List α} {s : σ} {f : α → σ → M (ForInStep σ)} {Q : σ → Prop} {E : Fault → Prop}
    (P : List α → σ → Prop) (R : σ → Prop) (h0 : P [] s)
    (hs : ∀ p x r s, l = p ++ x :: r → P p s →
      WP (f x s) (fun st => match st with | .yield s' => P (p ++ [x]) s' | .done s' => R s') E)
    (hR : ∀ s, R s → Q s) (hQ : ∀ s, P l s → Q s) : WP (forIn l s f) Q E := by
  have key : ∀ (r p : List α) (s : σ), l = p ++ r → P p s → WP (forIn r s f) Q E := by
    intro r
    induction r with
    | nil =>
      intro p s hl hp
      simp only [List.forIn_nil, WP_pure]
      simp at hl; subst hl; exact hQ _ hp
    | cons x r ih =>
      intro p s hl hp
      rw [List.forIn_cons, WP_bind]
      refine (hs p x r s hl hp).mono ?_ (fun _ h => h)
      intro st hst
      cases st with
      | done s' => simp only [WP_pure]; exact hR _ hst
      | yield s' => exact ih (p ++ [x]) s' (by simp [hl]) hst
  exact key l [] s (by simp) h0

/-- rewriting rules for straight-line code that may fail -/
macro "wpe" : tactic => `(tactic| simp only [WP_bind, WP_pure, WP_ok, WP_error, WP_map, WP_throw, WP_rd, WP_wr,
  WP_ofUsize, WP_ofInt, WP_add, WP_sub, WP_toUsize, WP_usub])

end Sparse

import Verif.Lemmas.CostMore
/-! Bounds on the number of steps of the other kernels. The bounds are derived with credits: a program that starts with `B` credits
pays one for each step. -/
namespace Sparse
open MT

/-- `m` takes at most `B` steps, and if it returns `a`, then `Q a r` where `r` is what is left of `B` -/
def TC (m : MT α) (B : Nat) (Q : α → Nat → Prop) : Prop := m.steps ≤ B ∧ ∀ a, m.outcome = .ok a → Q a (B - m.steps)

namespace TC
theorem steps {m : MT α} {B : Nat} {Q : α → Nat → Prop} (h : TC m B Q) : m.steps ≤ B := h.1

theorem weaken {m : MT α} {B : Nat} {Q Q' : α → Nat → Prop} (h : TC m B Q) (hQ : ∀ a r, Q a r → Q' a r) : TC m B Q' :=
  ⟨h.1, fun a e => hQ _ _ (h.2 a e)⟩

theorem pure {a : α} {B : Nat} {Q : α → Nat → Prop} (h : Q a B) : TC (Pure.pure a) B Q :=
  ⟨Nat.zero_le _, fun b e => by cases e; exact h⟩

theorem bind {m : MT α} {f : α → MT β} {B : Nat} {Q : β → Nat → Prop} (h : TC m B fun a r => TC (f a) r Q) : TC (m >>= f) B Q := by
  obtain ⟨m, c⟩ := m
  obtain ⟨h1, h2⟩ := h
  have h1 : c ≤ B := h1
  cases m with
  | error e => exact ⟨h1, fun a ha => by cases ha⟩
  | ok a =>
    obtain ⟨h3, h4⟩ := h2 a rfl
    have h3 : (f a).steps ≤ B - c := h3
    refine ⟨?_, ?_⟩
    · show c + (f a).steps ≤ B
      omega
    · intro b hb
      have := h4 b hb
      show Q b (B - (c + (f a).steps))
      rw [Nat.sub_add_eq]
      exact this

theorem lift {n : Nat} {m : M α} {B : Nat} {Q : α → Nat → Prop} (hn : n ≤ B) (h : ∀ a, m = .ok a → Q a (B - n)) : TC (MT.lift n m) B Q :=
  ⟨hn, h⟩

theorem tick_bind {f : Unit → MT β} {B : Nat} {Q : β → Nat → Prop} (hn : 1 ≤ B) (h : TC (f ()) (B - 1) Q) :
    TC (tick >>= f) B Q := bind (lift hn fun _ _ => h)

theorem rd_bind {l : List α} {i : Nat} {f : α → MT β} {B : Nat} {Q : β → Nat → Prop} (hn : 1 ≤ B)
    (h : ∀ a, l[i]? = some a → TC (f a) (B - 1) Q) : TC (l.rdT i >>= f) B Q := by
  refine bind (lift hn fun a e => h a ?_)
  unfold List.rd at e
  split at e
  · cases e; assumption
  · cases e

theorem wr_bind {l : List α} {i : Nat} {a : α} {f : List α → MT β} {B : Nat} {Q : β → Nat → Prop} (hn : 1 ≤ B)
    (h : i < l.length → TC (f (l.set i a)) (B - 1) Q) : TC (l.wrT i a >>= f) B Q := by
  refine bind (lift hn fun b e => ?_)
  unfold List.wr at e
  split at e
  · cases e; exact h ‹_›
  · cases e

theorem vec_bind {n : Nat} {a : α} {f : List α → MT β} {B : Nat} {Q : β → Nat → Prop} (hn : n ≤ B)
    (h : TC (f (List.replicate n a)) (B - n) Q) : TC (vecT n a >>= f) B Q :=
  bind (lift hn fun b e => by cases e; exact h)

theorem resize_bind {n : Nat} {l : List α} {a : α} {f : List α → MT β} {B : Nat} {Q : β → Nat → Prop} (hn : n ≤ B)
    (h : TC (f (l.resize n a)) (B - n) Q) : TC (l.resizeT n a >>= f) B Q :=
  bind (lift hn fun b e => by cases e; exact h)

theorem slice_bind {l : List α} {a b : Nat} {f : List α → MT β} {B : Nat} {Q : β → Nat → Prop} (hn : b - a ≤ B)
    (h : ∀ s, TC (f s) (B - (b - a)) Q) : TC (l.sliceT a b >>= f) B Q :=
  bind (lift hn fun s _ => h s)

theorem toUsize_bind {z : Int} {f : Nat → MT β} {B : Nat} {Q : β → Nat → Prop}
    (h : 0 ≤ z → TC (f z.toNat) B Q) : TC (liftM (toUsize z) >>= f) B Q := by
  refine bind (lift (Nat.zero_le _) fun b e => ?_)
  unfold toUsize at e
  split at e
  · cases e; exact h ‹_›
  · cases e

theorem free_bind {m : M α} {f : α → MT β} {B : Nat} {Q : β → Nat → Prop}
    (h : ∀ a, m = .ok a → TC (f a) B Q) : TC (liftM m >>= f) B Q :=
  bind (lift (Nat.zero_le _) h)

/-- a loop over a range; `I i s r` holds before round `i` with `r` credits -/
theorem forR {a b : Nat} {s : σ} {f : Nat → σ → MT (ForInStep σ)} {B : Nat} {Q : σ → Nat → Prop} (I : Nat → σ → Nat → Prop)
    (h0 : I a s B)
    (hs : ∀ i s r, a ≤ i → i < b → I i s r → TC (f i s) r fun st r => match st with
      | .yield s' => I (i + 1) s' r
      | .done s' => Q s' r)
    (hQ : ∀ s r, I (max a b) s r → Q s r) : TC (forIn (rng a b) s f) B Q := by
  have key : ∀ (d a : Nat) (s : σ) (B : Nat), b - a = d → I a s B →
      (∀ i s r, a ≤ i → i < b → I i s r → TC (f i s) r fun st r => match st with
        | .yield s' => I (i + 1) s' r
        | .done s' => Q s' r) →
      (∀ s r, I (max a b) s r → Q s r) → TC (forIn (rng a b) s f) B Q := by
    intro d
    induction d with
    | zero =>
      intro a s B hd h0 _ hQ
      rw [rng_eq_nil (by omega), List.forIn_nil]
      refine pure (hQ _ _ ?_)
      rwa [Nat.max_eq_left (by omega)]
    | succ d ih =>
      intro a s B hd h0 hs hQ
      rw [rng_cons (by omega), List.forIn_cons]
      refine bind ((hs a s B (Nat.le_refl _) (by omega) h0).weaken ?_)
      intro st r h
      cases st with
      | done s' => exact pure h
      | yield s' =>
        refine ih (a + 1) s' r (by omega) h (fun i s r h1 h2 => hs i s r (by omega) h2) fun s r h => hQ s r ?_
        rwa [show max (a + 1) b = max a b by omega] at h
  exact key (b - a) a s B rfl h0 hs hQ

/-- a loop over a list -/
theorem forL {l : List α} {s : σ} {f : α → σ → MT (ForInStep σ)} {B : Nat} {Q : σ → Nat → Prop} (I : Nat → σ → Nat → Prop)
    (h0 : I l.length s B)
    (hs : ∀ x k s r, x ∈ l → I (k + 1) s r → TC (f x s) r fun st r => match st with
      | .yield s' => I k s' r
      | .done s' => Q s' r)
    (hQ : ∀ s r, I 0 s r → Q s r) : TC (forIn l s f) B Q := by
  induction l generalizing s B with
  | nil => exact pure (hQ _ _ h0)
  | cons x l ih =>
    rw [List.forIn_cons]
    refine bind ((hs x l.length s B (by simp) h0).weaken ?_)
    intro st r h
    cases st with
    | done s' => exact pure h
    | yield s' => exact ih h fun y k s r hy => hs y k s r (by simp [hy])

/-- a `while` loop; `I s r` holds before a round with `r` credits -/
theorem whileT {fuel : Nat} {s : σ} {step : σ → MT (ForInStep σ)} {B : Nat} {Q : σ → Nat → Prop} (I : σ → Nat → Prop)
    (h0 : I s B)
    (hs : ∀ s r, I s r → 1 ≤ r ∧ TC (step s) (r - 1) fun st r => match st with
      | .yield s' => I s' r
      | .done s' => Q s' r) : TC (MT.whileT fuel s step) B Q := by
  induction fuel generalizing s B with
  | zero => exact ⟨Nat.zero_le _, fun a e => by cases e⟩
  | succ n ih =>
    unfold MT.whileT
    obtain ⟨h1, h2⟩ := hs s B h0
    refine tick_bind h1 (bind (h2.weaken ?_))
    intro st r h
    cases st with
    | done s' => exact pure h
    | yield s' => exact ih h

/-- a program that is given more credits than it needs leaves the difference -/
theorem frame {m : MT α} {B B' : Nat} (h : TC m B fun _ _ => True) (hB : B ≤ B') : TC m B' fun _ r => B' - B ≤ r :=
  ⟨Nat.le_trans h.1 hB, fun _ _ => by have := h.1; omega⟩
end TC

/-- straight-line code with credits -/
macro "tc" : tactic => `(tactic| repeat (first
  | (refine TC.tick_bind (by omega) ?_)
  | (refine TC.rd_bind (by omega) fun _ _ => ?_)
  | (refine TC.wr_bind (by omega) fun _ => ?_)
  | (refine TC.toUsize_bind fun _ => ?_)
  | (refine TC.free_bind fun _ _ => ?_)))

section
variable {T T2 : Type}

theorem Pointers.step {n : Nat} {p j : List Int} {x : List T} (h : Pointers n p j x) {i : Nat} (hi : i < n) :
    ptrAt p i ≤ ptrAt p (i + 1) ∧ ptrAt p (i + 1) ≤ ptrAt p n :=
  ⟨h.ptrAt_mono hi, (sum_rows (ptrAt p) 0 0 n (fun i hi => h.ptrAt_mono hi) (i + 1) (by omega)).2⟩

theorem csr_scale_rowsT_tc [Mul T] {n : Nat} {p j : List Int} {x : List T} (x_x : List T) (h : Pointers n p j x) :
    TC (csr_scale_rowsT n p x x_x) (3 * n + 4 * ptrAt p n) fun _ _ => True := by
  unfold csr_scale_rowsT
  refine TC.bind (TC.forR (fun i _ r => 3 * (n - i) + 4 * (ptrAt p n - ptrAt p i) ≤ r) (by omega) ?_ fun _ _ _ => TC.pure trivial)
  intro i s r _ hi hr
  have := h.step hi
  tc
  rename_i v hv hv0 v' hv' hv0'
  rw [ptrAt_of hv, ptrAt_of hv']
  refine TC.bind (TC.forR (fun k _ r => 3 * (n - (i + 1)) + 4 * (ptrAt p n - ptrAt p (i + 1)) + 4 * (ptrAt p (i + 1) - k) ≤ r) (by omega) ?_
    fun _ r h => TC.pure ?_)
  · intro k s r _ hk hr
    tc
    exact TC.pure (by dsimp only; omega)
  · dsimp only at h ⊢
    omega

theorem csr_scale_columnsT_tc [Mul T] (n : Nat) (p j : List Int) (x x_x : List T) :
    TC (csr_scale_columnsT n p j x x_x) (1 + 5 * ptrAt p n + 5) fun _ _ => True := by
  unfold csr_scale_columnsT
  tc
  rename_i v hv hv0
  rw [ptrAt_of hv]
  refine TC.bind (TC.forR (fun i _ r => 5 * (ptrAt p n - i) ≤ r) (by omega) ?_ fun _ _ _ => TC.pure trivial)
  intro i s r _ hi hr
  tc
  exact TC.pure (by dsimp only; omega)

theorem csr_todenseT_tc [Add T] {n : Nat} {p j : List Int} {x : List T} (b : List (List T)) (h : Pointers n p j x) :
    TC (csr_todenseT n p j x b) (3 * n + 7 * ptrAt p n) fun _ _ => True := by
  unfold csr_todenseT
  refine TC.bind (TC.forR (fun i _ r => 3 * (n - i) + 7 * (ptrAt p n - ptrAt p i) ≤ r) (by omega) ?_ fun _ _ _ => TC.pure trivial)
  intro i s r _ hi hr
  have := h.step hi
  tc
  rename_i v hv hv0 v' hv' hv0'
  rw [ptrAt_of hv, ptrAt_of hv']
  refine TC.bind (TC.forR (fun k _ r => 3 * (n - (i + 1)) + 7 * (ptrAt p n - ptrAt p (i + 1)) + 7 * (ptrAt p (i + 1) - k) ≤ r) (by omega) ?_
    fun _ r h => TC.pure ?_)
  · intro k s r _ hk hr
    tc
    exact TC.pure (by dsimp only; omega)
  · dsimp only at h ⊢
    omega

theorem csr_tocooT_tc (t : IdxTy) {n : Nat} {p j : List Int} {x : List T} (a b : List Int) (c : List T) (h : Pointers n p j x) :
    TC (csr_tocooT t n p j x a b c) (3 * n + 6 * ptrAt p n) fun _ _ => True := by
  unfold csr_tocooT
  refine TC.bind (TC.forR (fun i _ r => 3 * (n - i) + 6 * (ptrAt p n - ptrAt p i) ≤ r) (by omega) ?_ fun _ _ _ => TC.pure trivial)
  intro i s r _ hi hr
  have := h.step hi
  tc
  rename_i v hv hv0 v' hv' hv0'
  rw [ptrAt_of hv, ptrAt_of hv']
  refine TC.bind (TC.forR (fun k _ r => 3 * (n - (i + 1)) + 6 * (ptrAt p n - ptrAt p (i + 1)) + 6 * (ptrAt p (i + 1) - k) ≤ r) (by omega) ?_
    fun _ r h => TC.pure ?_)
  · intro k s r _ hk hr
    tc
    exact TC.pure (by dsimp only; omega)
  · dsimp only at h ⊢
    omega

theorem coo_todenseT_tc [Add T] (n_row n_col nnz : Nat) (i j : List Int) (x b : List T) (f : Bool) :
    TC (coo_todenseT n_row n_col nnz i j x b f) (6 * nnz) fun _ _ => True := by
  unfold coo_todenseT
  simp only []
  split
  all_goals
    refine TC.bind (TC.forR (fun i _ r => 6 * (nnz - i) ≤ r) (by omega) ?_ fun _ _ _ => TC.pure trivial)
    intro i s r _ hi hr
    tc
    exact TC.pure (by dsimp only; omega)

theorem sub_one_le {t : IdxTy} {z w : Int} (hz : 0 ≤ z) (h : t.sub z 1 = .ok w) : w ≤ z ∨ z = 0 ∧ w = t.hi := by
  unfold IdxTy.sub IdxTy.arith at h
  split at h
  · cases h
    omega
  · split at h
    · cases h
      unfold IdxTy.wrap
      have h1 := t.lo_nonpos
      have h2 := t.hi_ge
      have h3 := Int.emod_lt_of_pos (z - 1 - t.lo) (b := t.hi - t.lo + 1) (by omega)
      have h4 := Int.emod_nonneg (z - 1 - t.lo) (b := t.hi - t.lo + 1) (by omega)
      rename_i hr _
      by_cases h5 : t.lo ≤ z - 1
      · omega
      · have : z = 0 := by omega
        subst this
        have h6 : t.lo = 0 := by omega
        right
        refine ⟨rfl, ?_⟩
        rw [h6]
        have : (0 - 1 - 0 : Int) % (t.hi - 0 + 1) = t.hi := by
          rw [← Int.add_emod_right]
          rw [Int.emod_eq_of_lt] <;> omega
        omega
    · cases h

theorem csr_has_sorted_indicesT_tc (t : IdxTy) {n : Nat} {p j : List Int} {x : List T} (h : Pointers n p j x) (hj : (j.length : Int) ≤ t.hi) :
    TC (csr_has_sorted_indicesT t n p j) (3 * n + 3 * ptrAt p n + 3 * (j.length + 1)) fun _ _ => True := by
  unfold csr_has_sorted_indicesT
  refine TC.bind (TC.forR (fun i _ r => 3 * (n - i) + 3 * (ptrAt p n - ptrAt p i) + 3 * (j.length + 1) ≤ r) (by omega) ?_ fun s _ _ => ?_)
  · intro i s r _ hi hr
    have := h.step hi
    tc
    rename_i v hv hv0 v' hv' w hw hw0
    have hv1 := ptrAt_of hv
    have hv1' := ptrAt_of hv'
    rcases sub_one_le (Int.le_trans hv0 (h.mono i _ _ hv hv')) hw with hw1 | ⟨rfl, rfl⟩
    · refine TC.bind (TC.forR (fun k _ r => 3 * (n - (i + 1)) + 3 * (ptrAt p n - ptrAt p (i + 1)) + 3 * (ptrAt p (i + 1) - k)
        + 3 * (j.length + 1) ≤ r) (by omega) ?_ fun s r h => ?_)
      · intro k s r _ hk hr
        tc
        split
        · exact TC.pure (TC.pure (TC.pure trivial))
        · exact TC.pure (by dsimp only; omega)
      · dsimp only at h ⊢
        split
        · exact TC.pure (TC.pure trivial)
        · exact TC.pure (by dsimp only; omega)
    · refine TC.bind (TC.forR (fun k _ r => (k = 0 ∨ k < j.length) ∧ 3 * (j.length + 1 - k) ≤ r) (by omega) ?_ fun s r h => ?_)
      · intro k s r _ hk hr
        tc
        rename_i _ _ _ hk1
        have hk2 := (List.getElem?_eq_some_iff.1 hk1).1
        split
        · exact TC.pure (TC.pure (TC.pure trivial))
        · exact TC.pure (by dsimp only; omega)
      · dsimp only at h ⊢
        have := t.hi_ge
        omega
  · dsimp only
    split
    · exact TC.pure trivial
    · exact TC.pure trivial

theorem add_one_ge {t : IdxTy} {z w : Int} (hz : 0 ≤ z) (hz' : z ≤ t.hi) (h : t.add z 1 = .ok w) : w = z + 1 ∨ w ≤ 0 ∧ z = t.hi := by
  unfold IdxTy.add IdxTy.arith at h
  split at h
  · cases h
    omega
  · split at h
    · cases h
      unfold IdxTy.wrap
      have h1 := t.lo_nonpos
      have h2 := t.hi_ge
      have h3 : z + 1 - t.lo = t.hi - t.lo + 1 := by omega
      rw [h3, Int.emod_self]
      omega
    · cases h

theorem Pointers.ptrAt_le {n : Nat} {p j : List Int} {x : List T} (h : Pointers n p j x) : ptrAt p n ≤ j.length := by
  have hn : n < p.length := by have := h.len; omega
  have h1 := List.getElem?_eq_getElem hn
  have := (h.last _ h1).1
  rw [← ptrAt_of h1]
  omega

theorem csr_has_canonical_formatT_tc (t : IdxTy) {n : Nat} {p j : List Int} {x : List T} (h : Pointers n p j x) (hj : (j.length : Int) ≤ t.hi) :
    TC (csr_has_canonical_formatT t n p j) (6 * n + 3 * ptrAt p n) fun _ _ => True := by
  unfold csr_has_canonical_formatT
  refine TC.bind (TC.forR (fun i _ r => 6 * (n - i) + 3 * (ptrAt p n - ptrAt p i) ≤ r) (by omega) ?_ fun s _ _ => ?_)
  · intro i s r _ hi hr
    have := h.step hi
    tc
    split
    · exact TC.pure (TC.pure trivial)
    · tc
      rename_i v hv hv0 v' hv' hv0' hlt u hu w hw hw0 u' hu' hu0'
      have hv1 := ptrAt_of hv
      have hv1' := ptrAt_of hu'
      rw [hv] at hu
      cases hu
      have := h.ptrAt_le
      rcases add_one_ge hv0 (by omega) hw with hw1 | ⟨hw1, hw2⟩
      · refine TC.bind (TC.forR (fun k _ r => 6 * (n - (i + 1)) + 3 * (ptrAt p n - ptrAt p (i + 1)) + 3 * (ptrAt p (i + 1) - k) ≤ r)
          (by omega) ?_ fun s r h => ?_)
        · intro k s r _ hk hr
          tc
          split
          · exact TC.pure (TC.pure (TC.pure trivial))
          · exact TC.pure (by dsimp only; omega)
        · dsimp only at h ⊢
          split
          · exact TC.pure (TC.pure trivial)
          · exact TC.pure (by dsimp only; omega)
      · have : w = 0 := by omega
        subst this
        refine TC.bind (TC.forR (fun k _ r => k = 0 ∧ 1 ≤ r) (by omega) ?_ fun s r h => ?_)
        · rintro k s r _ hk ⟨rfl, hr⟩
          tc
          rename_i hs
          cases hs
        · have := t.hi_ge
          omega
  · dsimp only
    split
    · exact TC.pure trivial
    · exact TC.pure trivial

theorem binop_accumT_tc [Add T] (t : IdxTy) (a b : Nat) (b_j : List Int) (b_x : List T) (next : List Int)
    (row : List T) (head length : Int) (hl : t.lo ≤ length) (B : Nat) :
    TC (binop_accumT t a b b_j b_x next row head length) (7 * (b - a) + B) fun r c =>
      t.lo ≤ r.2.2.2 ∧ r.2.2.2 ≤ length + (b - a : Nat) ∧ B ≤ c := by
  unfold binop_accumT
  refine TC.bind (TC.forR (fun k s r => t.lo ≤ s.2.2.2 ∧ s.2.2.2 ≤ length + (k - a : Nat) ∧ 7 * (b - k) + B ≤ r) (by simp; omega) ?_
    fun s r h => TC.pure (by dsimp only; omega))
  intro k s r hk hkb h
  tc
  split
  · tc
    rename_i hw
    have := add_one_le h.1 hw
    exact TC.pure (by dsimp only; omega)
  · exact TC.pure (by dsimp only; omega)

theorem binop_flushT_tc [Zero T] (t : IdxTy) (op : T → T → T2) (nz : T2 → Bool) (length head : Int) (next : List Int)
    (ra rb : List T) (nnz : Int) (c_j : List Int) (c_x : List T2) (B : Nat) :
    TC (binop_flushT t op nz length head next ra rb nnz c_j c_x) (9 * length.toNat + B) fun _ c => B ≤ c := by
  unfold binop_flushT
  refine TC.toUsize_bind fun _ => ?_
  refine TC.bind (TC.forR (fun k _ r => 9 * (length.toNat - k) + B ≤ r) (by omega) ?_ fun s r h => TC.pure (by omega))
  intro i s r hi _ h
  tc
  dsimp only
  split
  all_goals
    tc
    exact TC.pure (by dsimp only; omega)

theorem csr_binop_csr_generalT_tc [Zero T] [Add T] (t : IdxTy) (n_row n_col : Nat) (a_p a_j : List Int) (a_x : List T)
    (b_p b_j : List Int) (b_x : List T) (c_p c_j : List Int) (c_x : List T2) (op : T → T → T2) (nz : T2 → Bool)
    (ha : Pointers n_row a_p a_j a_x) (hb : Pointers n_row b_p b_j b_x) :
    TC (csr_binop_csr_generalT t n_row n_col a_p a_j a_x b_p b_j b_x c_p c_j c_x op nz)
      (3 * n_col + 1 + 6 * n_row + 16 * (ptrAt a_p n_row + ptrAt b_p n_row)) fun _ _ => True := by
  unfold csr_binop_csr_generalT
  refine TC.vec_bind (by omega) (TC.vec_bind (by omega) (TC.vec_bind (by omega) ?_))
  tc
  refine TC.bind (TC.forR (fun i _ r => 6 * (n_row - i) + 16 * (ptrAt a_p n_row - ptrAt a_p i)
    + 16 * (ptrAt b_p n_row - ptrAt b_p i) ≤ r) (by omega) ?_ fun _ _ _ => TC.pure trivial)
  intro i s r _ hi hr
  have := ha.step hi
  have := hb.step hi
  have hlo := t.lo_nonpos
  tc
  rename_i v hv hv0 v' hv' hv0'
  rw [ptrAt_of hv, ptrAt_of hv']
  rw [show r - 1 - 1 - 1 = 7 * (ptrAt a_p (i + 1) - ptrAt a_p i) + (r - 3 - 7 * (ptrAt a_p (i + 1) - ptrAt a_p i)) by omega]
  refine TC.bind ((binop_accumT_tc t _ _ a_j a_x _ _ _ _ hlo _).weaken fun ra c h => ?_)
  tc
  rename_i w hw hw0 w' hw' hw0'
  rw [ptrAt_of hw, ptrAt_of hw']
  rw [show c - 1 - 1 = 7 * (ptrAt b_p (i + 1) - ptrAt b_p i) + (c - 2 - 7 * (ptrAt b_p (i + 1) - ptrAt b_p i)) by omega]
  refine TC.bind ((binop_accumT_tc t _ _ b_j b_x _ _ _ _ h.1 _).weaken fun rb c' h' => ?_)
  rw [show c' = 9 * rb.2.2.2.toNat + (c' - 9 * rb.2.2.2.toNat) by omega]
  refine TC.bind ((binop_flushT_tc t op nz _ _ _ _ _ _ _ _ _).weaken fun rf c'' h'' => ?_)
  tc
  exact TC.pure (by dsimp only; omega)

theorem binop_emitT_tc (nz : T2 → Bool) (j : Int) (v : T2) (nnz : Nat) (c_j : List Int) (c_x : List T2) (B : Nat) :
    TC (binop_emitT nz j v nnz c_j c_x) (2 + B) fun _ c => B ≤ c := by
  unfold binop_emitT
  split
  all_goals
    tc
    exact TC.pure (by omega)

theorem tail_emitT_tc (nz : T2 → Bool) (a_j : List Int) (k : Nat) (v : T2) (nnz : Nat) (c_j : List Int) (c_x : List T2) (B : Nat) :
    TC (tail_emitT nz a_j k v nnz c_j c_x) (3 + B) fun _ c => B ≤ c := by
  unfold tail_emitT
  split
  all_goals
    tc
    exact TC.pure (by omega)

theorem canonical_mergeT_tc [Zero T] (a_j : List Int) (a_x : List T) (b_j : List Int) (b_x : List T)
    (op : T → T → T2) (nz : T2 → Bool) (a_end b_end : Nat) (s : Nat × Nat × Nat × List Int × List T2) (B : Nat) :
    TC (canonical_mergeT a_j a_x b_j b_x op nz a_end b_end s) (7 * (a_end - s.1) + 7 * (b_end - s.2.1) + 1 + B) fun r c =>
      7 * (a_end - r.1) + 7 * (b_end - r.2.1) + B ≤ c := by
  unfold canonical_mergeT
  refine TC.whileT (fun s c => 7 * (a_end - s.1) + 7 * (b_end - s.2.1) + 1 + B ≤ c) (by omega) ?_
  rintro ⟨a, b, nnz, cj, cx⟩ r hr
  dsimp only at hr ⊢
  refine ⟨by omega, ?_⟩
  split
  · rename_i hlt
    tc
    split
    · tc
      rw [show r - 1 - 1 - 1 - 1 - 1 = 2 + (r - 7) by omega]
      refine TC.bind ((binop_emitT_tc nz _ _ _ _ _ _).weaken fun e c h => TC.pure ?_)
      dsimp only
      omega
    · split
      all_goals
        tc
        rw [show r - 1 - 1 - 1 - 1 = 2 + (r - 6) by omega]
        refine TC.bind ((binop_emitT_tc nz _ _ _ _ _ _).weaken fun e c h => TC.pure ?_)
        dsimp only
        omega
  · exact TC.pure (by dsimp only; omega)

theorem canonical_tailT_tc (a_j : List Int) (a_x : List T) (f : T → T2) (nz : T2 → Bool) (a_end : Nat)
    (s : Nat × Nat × List Int × List T2) (B : Nat) :
    TC (canonical_tailT a_j a_x f nz a_end s) (5 * (a_end - s.1) + 1 + B) fun _ c => B ≤ c := by
  unfold canonical_tailT
  refine TC.whileT (fun s c => 5 * (a_end - s.1) + 1 + B ≤ c) (by omega) ?_
  rintro ⟨a, nnz, cj, cx⟩ r hr
  dsimp only at hr ⊢
  refine ⟨by omega, ?_⟩
  split
  · tc
    rw [show r - 1 - 1 = 3 + (r - 5) by omega]
    refine TC.bind ((tail_emitT_tc nz _ _ _ _ _ _ _).weaken fun e c h => TC.pure ?_)
    dsimp only
    omega
  · exact TC.pure (by dsimp only; omega)

theorem csr_binop_csr_canonicalT_tc [Zero T] (t : IdxTy) (n_row : Nat) (a_p a_j : List Int) (a_x : List T)
    (b_p b_j : List Int) (b_x : List T) (c_p c_j : List Int) (c_x : List T2) (op : T → T → T2) (nz : T2 → Bool)
    (ha : Pointers n_row a_p a_j a_x) (hb : Pointers n_row b_p b_j b_x) :
    TC (csr_binop_csr_canonicalT t n_row a_p a_j a_x b_p b_j b_x c_p c_j c_x op nz)
      (1 + 9 * n_row + 7 * (ptrAt a_p n_row + ptrAt b_p n_row)) fun _ _ => True := by
  unfold csr_binop_csr_canonicalT
  tc
  refine TC.bind (TC.forR (fun i _ r => 9 * (n_row - i) + 7 * (ptrAt a_p n_row - ptrAt a_p i)
    + 7 * (ptrAt b_p n_row - ptrAt b_p i) ≤ r) (by omega) ?_ fun _ _ _ => TC.pure trivial)
  intro i s r _ hi hr
  have := ha.step hi
  have := hb.step hi
  tc
  rename_i v hv hv0 v' hv' hv0' w hw hw0 w' hw' hw0'
  rw [ptrAt_of hv, ptrAt_of hv', ptrAt_of hw, ptrAt_of hw']
  rw [show r - 1 - 1 - 1 - 1 - 1 = 7 * (ptrAt a_p (i + 1) - ptrAt a_p i) + 7 * (ptrAt b_p (i + 1) - ptrAt b_p i) + 1
    + (r - 6 - 7 * (ptrAt a_p (i + 1) - ptrAt a_p i) - 7 * (ptrAt b_p (i + 1) - ptrAt b_p i)) by omega]
  refine TC.bind ((canonical_mergeT_tc a_j a_x b_j b_x op nz _ _ _ _).weaken fun ra c h => ?_)
  rw [show c = 5 * (ptrAt a_p (i + 1) - ra.1) + 1 + (c - 1 - 5 * (ptrAt a_p (i + 1) - ra.1)) by omega]
  refine TC.bind ((canonical_tailT_tc a_j a_x _ nz _ _ _).weaken fun rb c' h' => ?_)
  rw [show c' = 5 * (ptrAt b_p (i + 1) - ra.2.1) + 1 + (c' - 1 - 5 * (ptrAt b_p (i + 1) - ra.2.1)) by omega]
  refine TC.bind ((canonical_tailT_tc b_j b_x _ nz _ _ _).weaken fun rc c'' h'' => ?_)
  tc
  exact TC.pure (by dsimp only; omega)

theorem csr_binop_csrT_tc [Zero T] [Add T] (t : IdxTy) (n_row n_col : Nat) (a_p a_j : List Int) (a_x : List T)
    (b_p b_j : List Int) (b_x : List T) (c_p c_j : List Int) (c_x : List T2) (op : T → T → T2) (nz : T2 → Bool)
    (ha : Pointers n_row a_p a_j a_x) (hb : Pointers n_row b_p b_j b_x) (hja : (a_j.length : Int) ≤ t.hi) (hjb : (b_j.length : Int) ≤ t.hi) :
    TC (csr_binop_csrT t n_row n_col a_p a_j a_x b_p b_j b_x c_p c_j c_x op nz)
      (3 * n_col + 1 + 21 * n_row + 19 * (ptrAt a_p n_row + ptrAt b_p n_row)) fun _ _ => True := by
  unfold csr_binop_csrT
  refine TC.bind ((TC.frame (csr_has_canonical_formatT_tc t ha hja) (by omega)).weaken fun ca c h => ?_)
  have hc : ∀ both c', 3 * n_col + 1 + 9 * n_row + 16 * (ptrAt a_p n_row + ptrAt b_p n_row) ≤ c' →
      TC (if both = true then csr_binop_csr_canonicalT t n_row a_p a_j a_x b_p b_j b_x c_p c_j c_x op nz
        else csr_binop_csr_generalT t n_row n_col a_p a_j a_x b_p b_j b_x c_p c_j c_x op nz) c' fun _ _ => True := by
    intro both c' h'
    split
    · exact (TC.frame (csr_binop_csr_canonicalT_tc t n_row a_p a_j a_x b_p b_j b_x c_p c_j c_x op nz ha hb) (by omega)).weaken
        fun _ _ _ => trivial
    · exact (TC.frame (csr_binop_csr_generalT_tc t n_row n_col a_p a_j a_x b_p b_j b_x c_p c_j c_x op nz ha hb) (by omega)).weaken
        fun _ _ _ => trivial
  dsimp only
  split
  · exact TC.bind ((TC.frame (csr_has_canonical_formatT_tc t hb hjb) (by omega)).weaken fun both _ h => hc both _ (by omega))
  · exact TC.bind (TC.pure (hc false _ (by omega)))

theorem sum_runT_tc [Add T] (e : Nat) (j : Int) (a_j : List Int) (a_x : List T) (s : Nat × T) (B : Nat) :
    TC (sum_runT e j a_j a_x s) (3 * (e - s.1) + 2 + B) fun r c => s.1 ≤ r.1 ∧ 3 * (e - r.1) + B ≤ c := by
  unfold sum_runT
  refine TC.whileT (fun s' c => s.1 ≤ s'.1 ∧ 3 * (e - s'.1) + 2 + B ≤ c) (by omega) ?_
  rintro ⟨k, v⟩ r hr
  dsimp only at hr ⊢
  refine ⟨by omega, ?_⟩
  split
  · tc
    split
    · tc
      exact TC.pure (by dsimp only; omega)
    · exact TC.pure (by dsimp only; omega)
  · exact TC.pure (by dsimp only; omega)

theorem sum_rowT_tc [Add T] (e : Nat) (s : Nat × Nat × List Int × List T) (B : Nat) :
    TC (sum_rowT e s) (7 * (e - s.1) + 1 + B) fun r c => r.2.2.1.length = s.2.2.1.length ∧ B ≤ c := by
  unfold sum_rowT
  refine TC.whileT (fun s' c => s'.2.2.1.length = s.2.2.1.length ∧ 7 * (e - s'.1) + 1 + B ≤ c) (by omega) ?_
  rintro ⟨k, nnz, aj, ax⟩ r hr
  dsimp only at hr ⊢
  refine ⟨by omega, ?_⟩
  split
  · tc
    rw [show r - 1 - 1 - 1 = 3 * (e - (k + 1)) + 2 + (r - 5 - 3 * (e - (k + 1))) by omega]
    refine TC.bind ((sum_runT_tc e _ aj ax _ _).weaken fun q c h => ?_)
    dsimp only at h
    tc
    exact TC.pure (by dsimp only; rw [List.length_set]; omega)
  · exact TC.pure (by dsimp only; omega)

theorem csr_sum_duplicatesT_tc [Add T] (t : IdxTy) {n : Nat} {p j : List Int} {x : List T} (h : Pointers n p j x) :
    TC (csr_sum_duplicatesT t n p j x) (4 * n + 7 * ptrAt p n) fun r _ => r.2.1.length = j.length := by
  unfold csr_sum_duplicatesT
  refine TC.bind (TC.forR (fun i s r => s.2.1.length = j.length ∧ (∀ k, i < k → s.1[k]? = p[k]?) ∧ s.2.2.2.2 = ptrAt p i ∧
    4 * (n - i) + 7 * (ptrAt p n - ptrAt p i) ≤ r) ⟨rfl, fun _ _ => rfl, h.ptrAt_zero.symm, by omega⟩ ?_ fun _ _ h => TC.pure h.1)
  intro i s r _ hi hr
  have := h.step hi
  tc
  rename_i v hv hv0
  rw [hr.2.1 _ (by omega)] at hv
  rw [ptrAt_of hv, hr.2.2.1]
  rw [show r - 1 - 1 = 7 * (ptrAt p (i + 1) - ptrAt p i) + 1 + (r - 3 - 7 * (ptrAt p (i + 1) - ptrAt p i)) by omega]
  refine TC.bind ((sum_rowT_tc _ _ _).weaken fun q c h => ?_)
  tc
  refine TC.pure ⟨h.1.trans hr.1, fun k hk => ?_, rfl, by omega⟩
  rw [← hr.2.1 k (by omega)]
  exact List.getElem?_set_ne (by omega)

theorem elim_rowT_tc [Zero T] [BEq T] (e : Nat) (s : Nat × Nat × List Int × List T) (B : Nat) :
    TC (elim_rowT e s) (5 * (e - s.1) + 1 + B) fun _ c => B ≤ c := by
  unfold elim_rowT
  refine TC.whileT (fun s c => 5 * (e - s.1) + 1 + B ≤ c) (by omega) ?_
  rintro ⟨k, nnz, aj, ax⟩ r hr
  dsimp only at hr ⊢
  refine ⟨by omega, ?_⟩
  split
  · tc
    split
    all_goals
      tc
      exact TC.pure (by dsimp only; omega)
  · exact TC.pure (by dsimp only; omega)

theorem csr_eliminate_zerosT_tc [Zero T] [BEq T] (t : IdxTy) {n : Nat} {p j : List Int} {x : List T} (h : Pointers n p j x) :
    TC (csr_eliminate_zerosT t n p j x) (4 * n + 5 * ptrAt p n) fun _ _ => True := by
  unfold csr_eliminate_zerosT
  refine TC.bind (TC.forR (fun i s r => (∀ k, i < k → s.1[k]? = p[k]?) ∧ s.2.2.2.2 = ptrAt p i ∧
    4 * (n - i) + 5 * (ptrAt p n - ptrAt p i) ≤ r) ⟨fun _ _ => rfl, h.ptrAt_zero.symm, by omega⟩ ?_ fun _ _ _ => TC.pure trivial)
  intro i s r _ hi hr
  have := h.step hi
  tc
  rename_i v hv hv0
  rw [hr.1 _ (by omega)] at hv
  rw [ptrAt_of hv, hr.2.1]
  rw [show r - 1 - 1 = 5 * (ptrAt p (i + 1) - ptrAt p i) + 1 + (r - 3 - 5 * (ptrAt p (i + 1) - ptrAt p i)) by omega]
  refine TC.bind ((elim_rowT_tc _ _ _).weaken fun q c h => ?_)
  tc
  refine TC.pure ⟨fun k hk => ?_, rfl, by omega⟩
  rw [← hr.1 k (by omega)]
  exact List.getElem?_set_ne (by omega)

theorem axpyT_tc [Add T] [Mul T] (n : Nat) (a : T) (x : List T) (xo : Nat) (y : List T) (yo : Nat) :
    TC (axpyT n a x xo y yo) (4 * n) fun _ _ => True := by
  unfold axpyT
  dsimp only
  split
  · refine TC.free_bind fun _ h => ?_
    cases h
  · refine TC.bind (TC.forR (fun i _ r => 4 * (n - i) ≤ r) (by omega) ?_ fun _ _ _ => TC.pure trivial)
    intro i s r _ hi hr
    tc
    exact TC.pure (by dsimp only; omega)

/-- what is left of `D * d` after one of `d` rounds of cost `D` -/
theorem mul_sub_one {a b : Nat} (D : Nat) (h : a < b) : D * (b - a) = D + D * (b - (a + 1)) := by
  rw [show b - a = (b - (a + 1)) + 1 by omega, Nat.mul_add, Nat.mul_one, Nat.add_comm]

theorem mul_sub_split {a b c : Nat} (D : Nat) (h : a ≤ b) (h' : b ≤ c) : D * (c - a) = D * (c - b) + D * (b - a) := by
  rw [← Nat.mul_add]
  congr 1
  omega

theorem csr_matvecsT_tc [Add T] [Mul T] {n : Nat} (n_vecs : Nat) {p j : List Int} {x : List T} (x_x y : List T) (h : Pointers n p j x) :
    TC (csr_matvecsT n n_vecs p j x x_x y) (3 * n + (3 + 4 * n_vecs) * ptrAt p n) fun _ _ => True := by
  unfold csr_matvecsT
  refine TC.bind (TC.forR (fun i _ r => 3 * (n - i) + (3 + 4 * n_vecs) * (ptrAt p n - ptrAt p i) ≤ r)
    (by rw [h.ptrAt_zero, Nat.sub_zero, Nat.sub_zero]) ?_ fun _ _ _ => TC.pure trivial)
  intro i s r _ hi hr
  have := h.step hi
  rw [mul_sub_split _ this.1 this.2] at hr
  generalize hE : (3 + 4 * n_vecs) * (ptrAt p n - ptrAt p (i + 1)) = E at hr ⊢
  refine TC.tick_bind (by omega) ?_
  dsimp only
  split
  · refine TC.free_bind fun _ h => ?_
    cases h
  · tc
    rename_i v hv hv0 v' hv' hv0'
    rw [ptrAt_of hv, ptrAt_of hv']
    refine TC.bind (TC.forR (fun k _ r => 3 * (n - (i + 1)) + E + (3 + 4 * n_vecs) * (ptrAt p (i + 1) - k) ≤ r) (by omega) ?_
      fun _ r h => TC.pure ?_)
    · intro k s r _ hk hr
      rw [mul_sub_one _ hk] at hr
      tc
      refine TC.bind ((TC.frame (axpyT_tc _ _ _ _ _ _) (by omega)).weaken fun _ c h => TC.pure ?_)
      dsimp only
      omega
    · dsimp only at h ⊢
      omega

theorem csc_matvecsT_tc [Add T] [Mul T] {n : Nat} (n_vecs : Nat) {p j : List Int} {x : List T} (x_x y : List T) (h : Pointers n p j x) :
    TC (csc_matvecsT n n_vecs p j x x_x y) (3 * n + (3 + 4 * n_vecs) * ptrAt p n) fun _ _ => True := by
  unfold csc_matvecsT
  refine TC.bind (TC.forR (fun i _ r => 3 * (n - i) + (3 + 4 * n_vecs) * (ptrAt p n - ptrAt p i) ≤ r)
    (by rw [h.ptrAt_zero, Nat.sub_zero, Nat.sub_zero]) ?_ fun _ _ _ => TC.pure trivial)
  intro i s r _ hi hr
  have := h.step hi
  rw [mul_sub_split _ this.1 this.2] at hr
  generalize hE : (3 + 4 * n_vecs) * (ptrAt p n - ptrAt p (i + 1)) = E at hr ⊢
  tc
  rename_i v hv hv0 v' hv' hv0'
  rw [ptrAt_of hv, ptrAt_of hv']
  refine TC.bind (TC.forR (fun k _ r => 3 * (n - (i + 1)) + E + (3 + 4 * n_vecs) * (ptrAt p (i + 1) - k) ≤ r) (by omega) ?_
    fun _ r h => TC.pure ?_)
  · intro k s r _ hk hr
    rw [mul_sub_one _ hk] at hr
    tc
    refine TC.bind ((TC.frame (axpyT_tc _ _ _ _ _ _) (by omega)).weaken fun _ c h => TC.pure ?_)
    dsimp only
    omega
  · dsimp only at h ⊢
    omega

theorem select_countT_tc (a_p a_j rowidx colidx : List Int) {K : Nat} (hK : RowsLe a_p K) (B : Nat) :
    TC (select_countT a_p a_j rowidx colidx) ((3 + 3 * K + 2 * colidx.length) * rowidx.length + B) fun n c =>
      n ≤ colidx.length * rowidx.length ∧ B ≤ c := by
  unfold select_countT
  generalize hC : colidx.length = C
  generalize hD : 3 + 3 * K + 2 * C = D
  refine TC.bind (TC.forL (fun k n r => n + C * k ≤ C * rowidx.length ∧ D * k + B ≤ r) ⟨by omega, Nat.le_refl _⟩ ?_
    fun _ _ h => TC.pure (by omega))
  intro row k n r _ hr
  rw [Nat.mul_add, Nat.mul_add, Nat.mul_one, Nat.mul_one] at hr
  dsimp only
  tc
  rename_i _ v hv hv0 v' hv' hv0'
  have hle := hK.toNat hv hv' hv0
  refine TC.bind (TC.forR (fun k' _ r' => 3 * (v'.toNat - k') + 2 * C + D * k + B ≤ r') (by omega) ?_ fun cp r' h' => ?_)
  · intro k' s r' _ hk' hr'
    tc
    exact TC.pure (by dsimp only; omega)
  · refine TC.bind (TC.forL (fun k' n' r' => n' + k' + C * k ≤ C * rowidx.length ∧ 2 * k' + D * k + B ≤ r') (by rw [hC]; omega) ?_
      fun n' r' h' => TC.pure (by dsimp only; omega))
    intro col k' n' r' _ hr'
    tc
    split
    all_goals exact TC.pure (by dsimp only; omega)

theorem csr_selectT_tc [Zero T] (t : IdxTy) (a_p a_j : List Int) (a_x : List T) (rowidx colidx b_p b_j : List Int) (b_x : List T)
    {K : Nat} (hK : RowsLe a_p K) :
    TC (csr_selectT t a_p a_j a_x rowidx colidx b_p b_j b_x)
      ((9 + 6 * K + 10 * colidx.length) * rowidx.length + 2) fun _ _ => True := by
  unfold csr_selectT
  have e : (9 + 6 * K + 10 * colidx.length) * rowidx.length + 2 = (3 + 3 * K + 2 * colidx.length) * rowidx.length +
      ((5 + 3 * K + 6 * colidx.length) * rowidx.length + 2 * (colidx.length * rowidx.length) + rowidx.length + 2) := by
    simp only [Nat.add_mul, Nat.mul_assoc]
    omega
  rw [e]
  refine TC.bind ((select_countT_tc a_p a_j rowidx colidx hK _).weaken fun nnz c h => ?_)
  refine TC.resize_bind (by omega) (TC.resize_bind (by omega) (TC.resize_bind (by omega) ?_))
  tc
  dsimp only
  refine TC.bind (TC.forR (fun i _ r => (5 + 3 * K + 6 * colidx.length) * (rowidx.length - i) ≤ r) (by rw [Nat.sub_zero]; omega) ?_
    fun _ _ _ => TC.pure trivial)
  intro i s r _ hi hr
  rw [mul_sub_one _ hi] at hr
  generalize (5 + 3 * K + 6 * colidx.length) * (rowidx.length - (i + 1)) = E at hr ⊢
  tc
  rename_i v hv hv0 v' hv' hv0'
  have hle := hK.toNat hv hv' hv0
  refine TC.bind (TC.forR (fun k' _ r' => 3 * (v'.toNat - k') + 6 * colidx.length + 1 + E ≤ r') (by omega) ?_ fun cp r' h' => ?_)
  · intro k' s r' _ hk' hr'
    tc
    exact TC.pure (by dsimp only; omega)
  · refine TC.bind (TC.forR (fun k' _ r' => 6 * (colidx.length - k') + 1 + E ≤ r') (by omega) ?_ fun n' r' h' => ?_)
    · intro k' n' r' _ hk' hr'
      tc
      split
      all_goals
        tc
        exact TC.pure (by dsimp only; omega)
    · tc
      exact TC.pure (by dsimp only; omega)

theorem submatrix_countT_tc (m r0 : Nat) (ic0 ic1 : Int) {n : Nat} {p j : List Int} {x : List T} (h : Pointers n p j x) (B : Nat) :
    TC (submatrix_countT m r0 p j ic0 ic1) (3 * n + 4 * ptrAt p n + 3 + B) fun c r => m ≤ n ∧ c ≤ ptrAt p n ∧ B ≤ r := by
  unfold submatrix_countT
  refine TC.bind (TC.forR (fun i s r => (i = 0 ∨ r0 + i ≤ n) ∧ 3 * (n - i) + 4 * (ptrAt p n - ptrAt p (r0 + i)) + 3 + B ≤ r ∧
    s + (ptrAt p n - ptrAt p (r0 + i)) ≤ ptrAt p n)
    (by omega) ?_ fun _ _ h => TC.pure (by omega))
  intro i s r _ hi hr
  tc
  rename_i v hv hv0 v' hv' hv0'
  have hlt := (List.getElem?_eq_some_iff.1 hv').1
  have hlen := h.len
  have := h.step (i := r0 + i) (by omega)
  rw [ptrAt_of hv, ptrAt_of hv']
  refine TC.bind (TC.forR (fun k s r => 3 * (n - (i + 1)) + 4 * (ptrAt p n - ptrAt p (r0 + i + 1)) + 4 * (ptrAt p (r0 + i + 1) - k) + 3 + B ≤ r ∧
    s + (ptrAt p n - ptrAt p (r0 + i + 1)) + (ptrAt p (r0 + i + 1) - k) ≤ ptrAt p n) (by omega) ?_ fun _ r h => TC.pure ?_)
  · intro k s r _ hk hr
    tc
    try dsimp only
    split
    all_goals
      exact TC.pure (by dsimp only; omega)
  · dsimp only at h ⊢
    rw [← Nat.add_assoc]
    omega

theorem get_csr_submatrixT_tc [Zero T] (t : IdxTy) (ir0 ir1 ic0 ic1 : Int) (b_p b_j : List Int) (b_x : List T)
    {n : Nat} {p j : List Int} {x : List T} (h : Pointers n p j x) :
    TC (get_csr_submatrixT t p j x ir0 ir1 ic0 ic1 b_p b_j b_x) (8 * n + 13 * ptrAt p n + 5) fun _ _ => True := by
  unfold get_csr_submatrixT
  tc
  generalize ir0.toNat = r0
  rename_i w _ _
  generalize w.toNat = m
  rw [show 8 * n + 13 * ptrAt p n + 5 = 3 * n + 4 * ptrAt p n + 3 + (5 * n + 9 * ptrAt p n + 2) by omega]
  refine TC.bind ((submatrix_countT_tc m r0 ic0 ic1 h _).weaken fun c r hc => ?_)
  refine TC.resize_bind (by omega) (TC.resize_bind (by omega) (TC.resize_bind (by omega) ?_))
  tc
  refine TC.bind (TC.forR (fun i s r => (i = 0 ∨ r0 + i ≤ n) ∧ 4 * (m - i) + 7 * (ptrAt p n - ptrAt p (r0 + i)) ≤ r)
    (by omega) ?_ fun _ _ h => TC.pure trivial)
  intro i s r _ hi hr
  tc
  rename_i v hv hv0 v' hv' hv0'
  have hlt := (List.getElem?_eq_some_iff.1 hv').1
  have hlen := h.len
  have := h.step (i := r0 + i) (by omega)
  rw [ptrAt_of hv, ptrAt_of hv']
  refine TC.bind (TC.forR (fun k s r => 4 * (m - (i + 1)) + 7 * (ptrAt p n - ptrAt p (r0 + i + 1)) + 7 * (ptrAt p (r0 + i + 1) - k) + 1 ≤ r)
    (by omega) ?_ fun _ r h => ?_)
  · intro k s r _ hk hr
    tc
    dsimp only
    split
    all_goals
      tc
      exact TC.pure (by dsimp only; omega)
  · tc
    refine TC.pure ?_
    dsimp only at h ⊢
    rw [← Nat.add_assoc]
    omega

theorem csr_row_indexT_tc (k : Nat) (rows : List Nat) (p j : List Int) (x : List T) (b_j : List Int) (b_x : List T) {K : Nat}
    (hK : RowsLe p K) : TC (csr_row_indexT k rows p j x b_j b_x) ((4 + 2 * K) * k) fun _ _ => True := by
  unfold csr_row_indexT
  refine TC.bind (TC.forR (fun i _ r => (4 + 2 * K) * (k - i) ≤ r) (by rw [Nat.sub_zero]) ?_ fun _ _ _ => TC.pure trivial)
  intro i s r _ hi hr
  rw [mul_sub_one _ hi] at hr
  generalize (4 + 2 * K) * (k - (i + 1)) = E at hr ⊢
  tc
  rename_i v hv hv0 v' hv' hv0'
  have hle := hK.toNat hv hv' hv0
  refine TC.slice_bind (by omega) fun _ => TC.slice_bind (by omega) fun _ => TC.pure ?_
  dsimp only
  omega

theorem csr_column_index1T_tc (t : IdxTy) (k : Nat) (cols : List Nat) (m : Nat) (co b_p : List Int)
    {n : Nat} {p j : List Int} {x : List T} (h : Pointers n p j x) :
    TC (csr_column_index1T t k cols n m p j co b_p) (4 * k + 4 * n + 3 * ptrAt p n + 4 * m + 1) fun _ _ => True := by
  unfold csr_column_index1T
  refine TC.bind (TC.forR (fun i _ r => 4 * (k - i) + 4 * n + 3 * ptrAt p n + 4 * m + 1 ≤ r) (by omega) ?_ fun s r hr => ?_)
  · intro i s r _ hi hr
    tc
    exact TC.pure (by dsimp only; omega)
  · tc
    refine TC.bind (TC.forR (fun i _ r => 4 * (n - i) + 3 * (ptrAt p n - ptrAt p i) + 4 * m ≤ r) (by omega) ?_ fun s r hr => ?_)
    · intro i s r _ hi hr
      have := h.step hi
      tc
      rename_i v hv hv0 v' hv' hv0'
      rw [ptrAt_of hv, ptrAt_of hv']
      refine TC.bind (TC.forR (fun q _ r => 4 * (n - (i + 1)) + 1 + 4 * m + 3 * (ptrAt p n - ptrAt p (i + 1)) + 3 * (ptrAt p (i + 1) - q) ≤ r)
        (by omega) ?_ fun _ r h => ?_)
      · intro q s r _ hq hr
        tc
        exact TC.pure (by dsimp only; omega)
      · tc
        exact TC.pure (by dsimp only; omega)
    · refine TC.bind (TC.forR (fun i _ r => 4 * (m - i) ≤ r) (by omega) ?_ fun _ _ _ => TC.pure trivial)
      intro i s r _ hi hr
      tc
      exact TC.pure (by dsimp only; omega)

theorem csr_column_index2T_tc (order offsets : List Int) (nnz : Nat) (j : List Int) (x : List T) (b_j : List Int) (b_x : List T) :
    TC (csr_column_index2T order offsets nnz j x b_j b_x) (5 * nnz + 4 * b_j.length + 4) fun _ _ => True := by
  unfold csr_column_index2T
  refine TC.bind (TC.forR (fun i s r => s.1.length = b_j.length ∧ s.2.2 ≤ b_j.length ∧ 5 * (nnz - i) + 4 * (b_j.length - s.2.2) + 4 ≤ r)
    ⟨rfl, Nat.zero_le _, by dsimp only; omega⟩ ?_ fun _ _ _ => TC.pure trivial)
  intro i s r _ hi hr
  obtain ⟨bj, bx, c⟩ := s
  dsimp only at hr
  have key : ∀ (a b r : Nat), 5 * (nnz - (i + 1)) + 4 * (b_j.length - c) + 5 ≤ r → TC (do
      let v ← x.rdT i
      let s ← forIn (rng a b) (bj, bx, c) fun k s => do
        tick
        let q ← order.rdT k
        let bj ← s.1.wrT s.2.2 q
        let bx ← s.2.1.wrT s.2.2 v
        Pure.pure (ForInStep.yield (bj, bx, s.2.2 + 1))
      Pure.pure (ForInStep.yield (s.1, s.2.1, s.2.2))) r fun st r => match st with
        | .yield s' => s'.1.length = b_j.length ∧ s'.2.2 ≤ b_j.length ∧ 5 * (nnz - (i + 1)) + 4 * (b_j.length - s'.2.2) + 4 ≤ r
        | .done _ => True := by
    intro a b r hr'
    tc
    refine TC.bind (TC.forR (fun _ s r => s.1.length = b_j.length ∧ s.2.2 ≤ b_j.length ∧
      5 * (nnz - (i + 1)) + 4 * (b_j.length - s.2.2) + 4 ≤ r) ⟨hr.1, hr.2.1, by dsimp only; omega⟩ ?_ fun _ _ h => TC.pure h)
    intro k s r _ _ hs
    tc
    exact TC.pure (by dsimp only; simp only [List.length_set]; omega)
  dsimp only
  tc
  split
  · refine TC.bind (TC.pure ?_)
    split
    · exact (key _ _ _ (by omega)).weaken fun st r h => by
        cases st with
        | yield s' => exact h
        | done s' => exact TC.pure trivial
    · exact TC.pure ⟨hr.1, hr.2.1, by dsimp only; omega⟩
  · tc
    split
    · exact (key _ _ _ (by omega)).weaken fun st r h => by
        cases st with
        | yield s' => exact h
        | done s' => exact TC.pure trivial
    · exact TC.pure ⟨hr.1, hr.2.1, by dsimp only; omega⟩

end
end Sparse

import Verif.Lemmas.Cost
import Verif.SpecCost
/-! Rules for upper bounds on the number of steps, and the bounds of the kernels. -/
namespace Sparse
open MT

/-- `m` takes at most `B` steps, whatever its outcome, and if it returns, its value satisfies `Q` -/
def TB (m : MT α) (B : Nat) (Q : α → Prop) : Prop := m.steps ≤ B ∧ ∀ a, m.outcome = .ok a → Q a

namespace TB
theorem mono {m : MT α} {B B' : Nat} {Q Q' : α → Prop} (h : TB m B Q) (hB : B ≤ B') (hQ : ∀ a, Q a → Q' a) : TB m B' Q' :=
  ⟨Nat.le_trans h.1 hB, fun a e => hQ a (h.2 a e)⟩

theorem pure {a : α} {B : Nat} {Q : α → Prop} (h : Q a) : TB (Pure.pure a) B Q :=
  ⟨Nat.zero_le _, fun b e => by cases e; exact h⟩

theorem bind {m : MT α} {f : α → MT β} {B1 B : Nat} {Q1 : α → Prop} {Q : β → Prop} (h : TB m B1 Q1) (hB : B1 ≤ B)
    (hf : ∀ a, Q1 a → TB (f a) (B - B1) Q) : TB (m >>= f) B Q := by
  obtain ⟨m, c⟩ := m
  obtain ⟨h1, h2⟩ := h
  have h1 : c ≤ B1 := h1
  cases m with
  | error e => exact ⟨Nat.le_trans h1 hB, fun a ha => by cases ha⟩
  | ok a =>
    obtain ⟨h3, h4⟩ := hf a (h2 a rfl)
    refine ⟨?_, h4⟩
    show c + (f a).steps ≤ B
    omega

theorem lift {n : Nat} {m : M α} {B : Nat} {Q : α → Prop} (hn : n ≤ B) (h : ∀ a, m = .ok a → Q a) : TB (MT.lift n m) B Q :=
  ⟨hn, h⟩

theorem lift_bind {n : Nat} {m : M α} {f : α → MT β} {B : Nat} {Q : β → Prop} (hn : n ≤ B)
    (h : ∀ a, m = .ok a → TB (f a) (B - n) Q) : TB (MT.lift n m >>= f) B Q :=
  bind (lift (Nat.le_refl n) fun _ e => e) hn h

theorem tick_bind {f : Unit → MT β} {B : Nat} {Q : β → Prop} (hn : 1 ≤ B) (h : TB (f ()) (B - 1) Q) :
    TB (tick >>= f) B Q := lift_bind hn fun _ _ => h

theorem rd_bind {l : List α} {i : Nat} {f : α → MT β} {B : Nat} {Q : β → Prop} (hn : 1 ≤ B)
    (h : ∀ a, l[i]? = some a → TB (f a) (B - 1) Q) : TB (l.rdT i >>= f) B Q := by
  refine lift_bind hn fun a e => h a ?_
  unfold List.rd at e
  split at e
  · cases e; assumption
  · cases e

theorem wr_bind {l : List α} {i : Nat} {a : α} {f : List α → MT β} {B : Nat} {Q : β → Prop} (hn : 1 ≤ B)
    (h : TB (f (l.set i a)) (B - 1) Q) : TB (l.wrT i a >>= f) B Q := by
  refine lift_bind hn fun b e => ?_
  unfold List.wr at e
  split at e
  · cases e; exact h
  · cases e

theorem fill_bind {l : List α} {a : α} {f : List α → MT β} {B : Nat} {Q : β → Prop} (hn : l.length ≤ B)
    (h : TB (f (l.map fun _ => a)) (B - l.length) Q) : TB (l.fillT a >>= f) B Q :=
  lift_bind hn fun b e => by cases e; exact h

theorem vec_bind {n : Nat} {a : α} {f : List α → MT β} {B : Nat} {Q : β → Prop} (hn : n ≤ B)
    (h : TB (f (List.replicate n a)) (B - n) Q) : TB (vecT n a >>= f) B Q :=
  lift_bind hn fun b e => by cases e; exact h

theorem toUsize_bind {z : Int} {f : Nat → MT β} {B : Nat} {Q : β → Prop}
    (h : 0 ≤ z → TB (f z.toNat) B Q) : TB (liftM (toUsize z) >>= f) B Q := by
  refine lift_bind (Nat.zero_le _) fun b e => ?_
  unfold toUsize at e
  split at e
  · cases e; exact h ‹_›
  · cases e

theorem free_bind {m : M α} {f : α → MT β} {B : Nat} {Q : β → Prop}
    (h : ∀ a, m = .ok a → TB (f a) B Q) : TB (liftM m >>= f) B Q :=
  lift_bind (Nat.zero_le _) h

/-- a `for` loop over a range: the sum of the bounds of its rounds -/
theorem forRange {a b : Nat} {s : σ} {f : Nat → σ → MT (ForInStep σ)} {Q : σ → Prop} (P : Nat → σ → Prop) (k : Nat → Nat)
    {B : Nat} (h0 : P a s)
    (hs : ∀ i s, a ≤ i → i < b → P i s → TB (f i s) (k i) fun st => ∃ s', st = .yield s' ∧ P (i + 1) s')
    (hB : ((rng a b).map k).sum ≤ B) (hQ : ∀ s, P (max a b) s → Q s) : TB (forIn (rng a b) s f) B Q := by
  refine mono (B := ((rng a b).map k).sum) (Q := fun s => P (max a b) s) ?_ hB hQ
  clear hB hQ
  have key : ∀ (d a : Nat) (s : σ), b - a = d → P a s →
      (∀ i s, a ≤ i → i < b → P i s → TB (f i s) (k i) fun st => ∃ s', st = .yield s' ∧ P (i + 1) s') →
      TB (forIn (rng a b) s f) ((rng a b).map k).sum fun s => P (max a b) s := by
    intro d
    induction d with
    | zero =>
      intro a s hd h0 _
      rw [rng_eq_nil (by omega), List.forIn_nil]
      refine pure ?_
      rwa [Nat.max_eq_left (by omega)]
    | succ d ih =>
      intro a s hd h0 hs
      rw [rng_cons (by omega), List.forIn_cons, List.map_cons, List.sum_cons]
      refine bind (hs a s (Nat.le_refl _) (by omega) h0) (by omega) ?_
      rintro st ⟨s', rfl, h'⟩
      have := ih (a + 1) s' (by omega) h' fun i s h1 h2 => hs i s (by omega) h2
      rw [show max (a + 1) b = max a b by omega] at this
      exact this.mono (by omega) fun _ h => h
  exact key (b - a) a s rfl h0 hs

/-- every round within the same bound -/
theorem forConst {a b : Nat} {s : σ} {f : Nat → σ → MT (ForInStep σ)} {Q : σ → Prop} (P : Nat → σ → Prop) (k : Nat)
    {B : Nat} (h0 : P a s)
    (hs : ∀ i s, a ≤ i → i < b → P i s → TB (f i s) k fun st => ∃ s', st = .yield s' ∧ P (i + 1) s')
    (hB : k * (b - a) ≤ B) (hQ : ∀ s, P (max a b) s → Q s) : TB (forIn (rng a b) s f) B Q := by
  refine forRange P (fun _ => k) h0 hs (Nat.le_trans (Nat.le_of_eq ?_) hB) hQ
  rw [List.map_const', List.sum_replicate_nat, Nat.mul_comm]
  simp [rng]
end TB

/-- the sum of the lengths of consecutive rows -/
theorem sum_rows (p : Nat → Nat) (c d n : Nat) (hp : ∀ i < n, p i ≤ p (i + 1)) (a : Nat) (ha : a ≤ n) :
    ((rng a n).map fun i => c + d * (p (i + 1) - p i)).sum = c * (n - a) + d * (p n - p a) ∧ p a ≤ p n := by
  obtain ⟨e, he⟩ : ∃ e, n - a = e := ⟨_, rfl⟩
  induction e generalizing a with
  | zero =>
    have : a = n := by omega
    subst this
    simp [rng]
  | succ e ih =>
    obtain ⟨h1, h2⟩ := ih (a + 1) (by omega) (by omega)
    have h3 := hp a (by omega)
    rw [rng_cons (by omega), List.map_cons, List.sum_cons, h1]
    refine ⟨?_, by omega⟩
    rw [show n - a = (n - (a + 1)) + 1 by omega, show p n - p a = (p n - p (a + 1)) + (p (a + 1) - p a) by omega,
      Nat.mul_add, Nat.mul_add]
    omega

/-- straight-line code -/
macro "tb" : tactic => `(tactic| repeat (first
  | (refine TB.tick_bind (by omega) ?_)
  | (refine TB.rd_bind (by omega) fun _ _ => ?_)
  | (refine TB.wr_bind (by omega) ?_)
  | (refine TB.toUsize_bind fun _ => ?_)
  | (refine TB.free_bind fun _ _ => ?_)))

/-- the entry `i` of a pointer array -/
def ptrAt (p : List Int) (i : Nat) : Nat := (p.getD i 0).toNat

theorem ptrAt_of {p : List Int} {i : Nat} {v : Int} (h : p[i]? = some v) : v.toNat = ptrAt p i := by
  simp [ptrAt, h]

section
variable {T : Type}

theorem Pointers.ptrAt_mono {n : Nat} {p j : List Int} {x : List T} (h : Pointers n p j x) {i : Nat} (hi : i < n) :
    ptrAt p i ≤ ptrAt p (i + 1) := by
  have l := h.len
  have e1 : p[i]? = some p[i] := List.getElem?_eq_getElem (by omega)
  have e2 : p[i + 1]? = some p[i + 1] := List.getElem?_eq_getElem (by omega)
  rw [← ptrAt_of e1, ← ptrAt_of e2]
  have := h.mono i _ _ e1 e2
  omega

theorem Pointers.ptrAt_zero {n : Nat} {p j : List Int} {x : List T} (h : Pointers n p j x) : ptrAt p 0 = 0 := by
  rw [← ptrAt_of h.first]; rfl

theorem count_loopT_tb (t : IdxTy) (nnz : Nat) (key b_p : List Int) :
    TB (count_loopT t nnz key b_p) (4 * nnz) fun r => r.length = b_p.length := by
  unfold count_loopT
  refine TB.bind (TB.forConst (fun _ b => b.length = b_p.length) 4 rfl ?_ (Nat.le_refl _) fun _ h => h) (by omega) fun _ h => TB.pure h
  intro i s _ _ h
  tb
  exact TB.pure ⟨_, rfl, by simpa using h⟩

theorem cumsum_loopT_tb (t : IdxTy) (n : Nat) (b_p : List Int) :
    TB (cumsum_loopT t n b_p) (3 * n) fun r => r.length = b_p.length := by
  unfold cumsum_loopT
  refine TB.bind (TB.forConst (fun _ b => b.1.length = b_p.length) 3 rfl ?_ (Nat.le_refl _) fun _ h => h) (by omega) fun _ h => TB.pure h
  intro i s _ _ h
  tb
  exact TB.pure ⟨_, rfl, by simpa using h⟩

theorem shift_loopT_tb (n : Nat) (b_p : List Int) :
    TB (shift_loopT n b_p) (3 * (n + 1)) fun _ => True := by
  unfold shift_loopT
  refine TB.bind (TB.forConst (fun _ _ => True) 3 trivial ?_ (Nat.le_refl _) fun _ h => h) (by omega) fun _ h => TB.pure trivial
  intro i s _ _ h
  tb
  exact TB.pure ⟨_, rfl, trivial⟩

theorem coo_scatterT_tb (t : IdxTy) (nnz : Nat) (a_i a_j : List Int) (a_x : List T) (b_p b_j : List Int) (b_x : List T) :
    TB (coo_scatterT t nnz a_i a_j a_x b_p b_j b_x) (9 * nnz) fun _ => True := by
  unfold coo_scatterT
  refine TB.bind (TB.forConst (fun _ _ => True) 9 trivial ?_ (Nat.le_refl _) fun _ h => h) (by omega) fun _ h => TB.pure trivial
  intro i s _ _ h
  tb
  exact TB.pure ⟨_, rfl, trivial⟩

theorem coo_tocsrT_tb (t : IdxTy) (n_row nnz : Nat) (a_i a_j : List Int) (a_x : List T) (b_p b_j : List Int) (b_x : List T) :
    TB (coo_tocsrT t n_row nnz a_i a_j a_x b_p b_j b_x) (b_p.length + 13 * nnz + 6 * n_row + 4) fun _ => True := by
  unfold coo_tocsrT
  refine TB.fill_bind (by omega) ?_
  refine TB.bind (count_loopT_tb _ _ _ _) (by omega) fun _ _ => ?_
  refine TB.bind (cumsum_loopT_tb _ _ _) (by omega) fun _ _ => ?_
  tb
  refine TB.bind (coo_scatterT_tb _ _ _ _ _ _ _ _) (by omega) fun _ _ => ?_
  refine TB.bind (shift_loopT_tb _ _) (by omega) fun _ _ => TB.pure trivial

theorem coo_matvecT_tb [Add T] [Mul T] (nnz : Nat) (a_i a_j : List Int) (a_x x_x y_x : List T) :
    TB (coo_matvecT nnz a_i a_j a_x x_x y_x) (7 * nnz) fun _ => True := by
  unfold coo_matvecT
  refine TB.bind (TB.forConst (fun _ _ => True) 7 trivial ?_ (Nat.le_refl _) fun _ h => h) (by omega) fun _ h => TB.pure trivial
  intro i s _ _ h
  tb
  exact TB.pure ⟨_, rfl, trivial⟩

theorem csr_diagonalT_tb [Zero T] [Add T] (k : Int) {n_row n_col : Nat} {a_p a_j : List Int} {a_x : List T} (y_x : List T)
    (h : Pointers n_row a_p a_j a_x) :
    TB (csr_diagonalT k n_row n_col a_p a_j a_x y_x) (3 * ptrAt a_p n_row + 4 * min n_row n_col) fun _ => True := by
  unfold csr_diagonalT
  refine TB.free_bind fun u hu => ?_
  refine TB.free_bind fun w hw => ?_
  generalize hr : (if k ≥ 0 then 0 else (-1 * k).toNat) = fr at *
  generalize hc : (if k ≥ 0 then k.toNat else 0) = fc at *
  have hu : fr ≤ n_row ∧ u = n_row - fr := by
    unfold usub at hu; split at hu <;> cases hu; exact ⟨‹_›, rfl⟩
  have hw : fc ≤ n_col ∧ w = n_col - fc := by
    unfold usub at hw; split at hw <;> cases hw; exact ⟨‹_›, rfl⟩
  have hm : ∀ i j, i ≤ j → j ≤ n_row → ptrAt a_p i ≤ ptrAt a_p j := by
    intro i j hij hj
    exact (sum_rows (ptrAt a_p) 0 0 j (fun i hi => h.ptrAt_mono (by omega)) i hij).2
  have hs := sum_rows (fun i => ptrAt a_p (fr + i)) 4 3 (min u w) (fun i hi => h.ptrAt_mono (by omega)) 0 (by omega)
  have h1 := hm (fr + min u w) n_row (by omega) (Nat.le_refl _)
  refine TB.bind (TB.forRange (fun _ _ => True) _ trivial ?_ (Nat.le_of_eq hs.1) fun _ h => h) ?_ fun _ h => TB.pure trivial
  · intro i s _ hi _
    tb
    rename_i v hv hv0 v' hv' hv0'
    rw [ptrAt_of hv, ptrAt_of hv', Nat.add_assoc]
    refine TB.bind (TB.forConst (fun _ _ => True) 3 trivial ?_ (Nat.le_refl _) fun _ h => h) (by omega) fun _ h => ?_
    · intro j s _ _ _
      tb
      split
      · tb
        exact TB.pure ⟨_, rfl, trivial⟩
      · exact TB.pure ⟨_, rfl, trivial⟩
    · tb
      exact TB.pure ⟨_, rfl, trivial⟩
  · simp only [Nat.add_zero] at hs ⊢
    omega

/-- the loop over all rows: `c` steps per row and `d` per entry -/
theorem Pointers.sum_all {n : Nat} {p j : List Int} {x : List T} (h : Pointers n p j x) (c d : Nat) :
    ((rng 0 n).map fun i => c + d * (ptrAt p (i + 1) - ptrAt p i)).sum = c * n + d * ptrAt p n := by
  rw [(sum_rows (ptrAt p) c d n (fun i hi => h.ptrAt_mono hi) 0 (by omega)).1, h.ptrAt_zero]
  rfl

theorem expandptrT_tb (t : IdxTy) {n : Nat} {a_p : List Int} (b_i : List Int) {a_j : List Int} {a_x : List T} (h : Pointers n a_p a_j a_x) :
    TB (expandptrT t n a_p b_i) (3 * n + 2 * ptrAt a_p n) fun _ => True := by
  unfold expandptrT
  refine TB.bind (TB.forRange (fun _ _ => True) _ trivial ?_ (Nat.le_of_eq (h.sum_all 3 2)) fun _ h => h) (by omega) fun _ h => TB.pure trivial
  intro i s _ hi _
  tb
  rename_i v hv hv0 v' hv' hv0'
  rw [ptrAt_of hv, ptrAt_of hv']
  refine TB.bind (TB.forConst (fun _ _ => True) 2 trivial ?_ (Nat.le_refl _) fun _ h => h) (by omega) fun _ h => TB.pure ⟨_, rfl, trivial⟩
  intro j s _ _ _
  tb
  exact TB.pure ⟨_, rfl, trivial⟩

theorem csr_scatterT_tb (t : IdxTy) {n : Nat} {a_p a_j : List Int} {a_x : List T} (b_p b_j : List Int) (b_x : List T)
    (h : Pointers n a_p a_j a_x) :
    TB (csr_scatterT t n a_p a_j a_x b_p b_j b_x) (3 * n + 8 * ptrAt a_p n) fun _ => True := by
  unfold csr_scatterT
  refine TB.bind (TB.forRange (fun _ _ => True) _ trivial ?_ (Nat.le_of_eq (h.sum_all 3 8)) fun _ h => h) (by omega) fun _ h => TB.pure trivial
  intro i s _ hi _
  tb
  rename_i v hv hv0 v' hv' hv0'
  rw [ptrAt_of hv, ptrAt_of hv']
  refine TB.bind (TB.forConst (fun _ _ => True) 8 trivial ?_ (Nat.le_refl _) fun _ h => h) (by omega) fun _ h => TB.pure ⟨_, rfl, trivial⟩
  intro j s _ _ _
  tb
  exact TB.pure ⟨_, rfl, trivial⟩

theorem csr_tocscT_tb (t : IdxTy) {n : Nat} (m : Nat) {a_p a_j : List Int} {a_x : List T} (b_p b_j : List Int) (b_x : List T)
    (h : Pointers n a_p a_j a_x) :
    TB (csr_tocscT t n m a_p a_j a_x b_p b_j b_x) (b_p.length + 12 * ptrAt a_p n + 3 * n + 6 * m + 5) fun _ => True := by
  unfold csr_tocscT
  refine TB.rd_bind (by omega) fun z hz => ?_
  refine TB.fill_bind (by omega) ?_
  refine TB.toUsize_bind fun _ => ?_
  rw [ptrAt_of hz]
  refine TB.bind (count_loopT_tb _ _ _ _) (by omega) fun _ _ => ?_
  refine TB.bind (cumsum_loopT_tb _ _ _) (by omega) fun _ _ => ?_
  tb
  refine TB.bind (csr_scatterT_tb _ _ _ _ h) (by omega) fun _ _ => ?_
  refine TB.bind (shift_loopT_tb _ _) (by omega) fun _ _ => TB.pure trivial

theorem csr_matvecT_tb [Add T] [Mul T] {n : Nat} {a_p a_j : List Int} {a_x : List T} (x_x y_x : List T) (h : Pointers n a_p a_j a_x) :
    TB (csr_matvecT n a_p a_j a_x x_x y_x) (5 * n + 4 * ptrAt a_p n) fun _ => True := by
  unfold csr_matvecT
  refine TB.bind (TB.forRange (fun _ _ => True) _ trivial ?_ (Nat.le_of_eq (h.sum_all 5 4)) fun _ h => h) (by omega) fun _ h => TB.pure trivial
  intro i s _ hi _
  tb
  rename_i v hv hv0 v' hv' hv0'
  rw [ptrAt_of hv, ptrAt_of hv']
  refine TB.bind (TB.forConst (fun _ _ => True) 4 trivial ?_ (Nat.le_refl _) fun _ h => h) (by omega) fun _ h => ?_
  · intro j s _ _ _
    tb
    exact TB.pure ⟨_, rfl, trivial⟩
  · tb
    exact TB.pure ⟨_, rfl, trivial⟩

theorem csc_matvecT_tb [Add T] [Mul T] {n : Nat} {a_p a_j : List Int} {a_x : List T} (x_x y_x : List T) (h : Pointers n a_p a_j a_x) :
    TB (csc_matvecT n a_p a_j a_x x_x y_x) (3 * n + 6 * ptrAt a_p n) fun _ => True := by
  unfold csc_matvecT
  refine TB.bind (TB.forRange (fun _ _ => True) _ trivial ?_ (Nat.le_of_eq (h.sum_all 3 6)) fun _ h => h) (by omega) fun _ h => TB.pure trivial
  intro i s _ hi _
  tb
  rename_i v hv hv0 v' hv' hv0'
  rw [ptrAt_of hv, ptrAt_of hv']
  refine TB.bind (TB.forConst (fun _ _ => True) 6 trivial ?_ (Nat.le_refl _) fun _ h => h) (by omega) fun _ h => TB.pure ⟨_, rfl, trivial⟩
  intro j s _ _ _
  tb
  exact TB.pure ⟨_, rfl, trivial⟩

theorem add_one_le {t : IdxTy} {z w : Int} (hz : t.lo ≤ z) (h : t.add z 1 = .ok w) : t.lo ≤ w ∧ w ≤ z + 1 := by
  unfold IdxTy.add IdxTy.arith at h
  split at h
  · cases h
    omega
  · split at h
    · cases h
      unfold IdxTy.wrap
      have h1 := t.lo_nonpos
      have h2 := t.hi_ge
      have h3 := Int.emod_nonneg (z + 1 - t.lo) (b := t.hi - t.lo + 1) (by omega)
      have h4 := Int.emod_add_mul_ediv (z + 1 - t.lo) (t.hi - t.lo + 1)
      have h5 := Int.mul_nonneg (a := t.hi - t.lo + 1) (by omega)
        (Int.ediv_nonneg (a := z + 1 - t.lo) (b := t.hi - t.lo + 1) (by omega) (by omega))
      omega
    · cases h

theorem matmat_accumT_tb [Add T] [Mul T] (t : IdxTy) (a b : Nat) (v : T) (b_j : List Int) (b_x : List T) (next : List Int)
    (sums : List T) (head length : Int) (hl : t.lo ≤ length) :
    TB (matmat_accumT t a b v b_j b_x next sums head length) (7 * (b - a)) fun r =>
      t.lo ≤ r.2.2.2 ∧ r.2.2.2 ≤ length + (b - a : Nat) := by
  unfold matmat_accumT
  refine TB.bind (TB.forConst (fun k s => t.lo ≤ s.2.2.2 ∧ s.2.2.2 ≤ length + (k - a : Nat)) 7 (by simp; omega) ?_ (Nat.le_refl _)
    fun _ h => h) (by omega) fun s h => TB.pure ⟨h.1, by have := h.2; dsimp only; omega⟩
  intro i s hi _ h
  tb
  split
  · tb
    rename_i hw
    have := add_one_le h.1 hw
    exact TB.pure ⟨_, rfl, by simp; omega⟩
  · exact TB.pure ⟨_, rfl, by simp; omega⟩

theorem matmat_flushT_tb [Zero T] [BEq T] (t : IdxTy) (length head : Int) (next : List Int)
    (sums : List T) (nnz : Int) (c_j : List Int) (c_x : List T) :
    TB (matmat_flushT t length head next sums nnz c_j c_x) (8 * length.toNat) fun _ => True := by
  unfold matmat_flushT
  refine TB.toUsize_bind fun _ => ?_
  refine TB.bind (TB.forConst (fun _ _ => True) 8 trivial ?_ (Nat.le_refl _) fun _ h => h) (by omega) fun s h => TB.pure trivial
  intro i s hi _ h
  tb
  split
  · tb
    exact TB.pure ⟨_, rfl, trivial⟩
  · tb
    exact TB.pure ⟨_, rfl, trivial⟩

theorem RowsLe.toNat {p : List Int} {K : Nat} (h : RowsLe p K) {i : Nat} {u v : Int} (hu : p[i]? = some u) (hv : p[i + 1]? = some v)
    (h0 : 0 ≤ u) : v.toNat - u.toNat ≤ K := by
  have := h i u v hu hv
  omega

theorem csr_matmatT_tb [Zero T] [Add T] [Mul T] [BEq T] (t : IdxTy) (n_row n_col : Nat)
    {a_p : List Int} (a_j : List Int) (a_x : List T) {b_p : List Int} (b_j : List Int) (b_x : List T) (c_p c_j : List Int) (c_x : List T)
    {K : Nat} (ha : RowsLe a_p K) (hb : RowsLe b_p K) :
    TB (csr_matmatT t n_row n_col a_p a_j a_x b_p b_j b_x c_p c_j c_x)
      (20 * (n_row * (K * K)) + 4 * n_row + 2 * n_col + 1) fun _ => True := by
  unfold csr_matmatT
  refine TB.vec_bind (by omega) ?_
  refine TB.vec_bind (by omega) ?_
  refine TB.wr_bind (by omega) ?_
  have hKK : K ≤ K * K := by
    cases K with
    | zero => omega
    | succ K => exact Nat.le_mul_of_pos_left _ (by omega)
  have e : (20 * (K * K) + 4) * (n_row - 0) = 20 * (n_row * (K * K)) + 4 * n_row := by
    rw [Nat.add_mul, Nat.mul_assoc, Nat.sub_zero, Nat.mul_comm (K * K) n_row]
  refine TB.bind (TB.forConst (fun _ _ => True) (20 * (K * K) + 4) trivial ?_ (Nat.le_refl _) fun _ h => h) (by omega) fun s h => TB.pure trivial
  intro i s hi _ h
  tb
  rename_i v hv hv0 v' hv' hv0'
  have hK := ha.toNat hv hv' hv0
  have hK' : (5 + 7 * K) * (v'.toNat - v.toNat) ≤ 5 * K + 7 * (K * K) := by
    refine Nat.le_trans (Nat.mul_le_mul_left _ hK) ?_
    rw [Nat.add_mul, Nat.mul_assoc]
  refine TB.bind (TB.forConst (fun jj s => t.lo ≤ s.2.2.2 ∧ s.2.2.2 ≤ (((jj - v.toNat) * K : Nat) : Int)) (5 + 7 * K) ?_ ?_ hK'
    fun _ h => h) (by omega) fun r hr => ?_
  · have := t.lo_nonpos
    simpa using this
  · intro jj s hjj _ hs
    tb
    rename_i w hw hw0 x hx u hu hu0 u' hu' hu0'
    have hB := hb.toNat hu hu' hu0
    refine TB.bind (matmat_accumT_tb t _ _ _ _ _ _ _ _ _ hs.1) (by omega) fun r hr => TB.pure ⟨_, rfl, hr.1, ?_⟩
    have h2 := hs.2
    have h3 := hr.2
    have h4 : (jj + 1 - v.toNat) * K = (jj - v.toNat) * K + K := by
      rw [show jj + 1 - v.toNat = (jj - v.toNat) + 1 by omega, Nat.add_mul, Nat.one_mul]
    dsimp only at h3 ⊢
    rw [h4]
    omega
  · have h5 : r.2.2.2.toNat ≤ K * K := by
      have h6 := hr.2
      have h7 : (max v.toNat v'.toNat - v.toNat) * K ≤ K * K := Nat.mul_le_mul_right _ (by omega)
      omega
    refine TB.bind (matmat_flushT_tb t _ _ _ _ _ _ _) (by omega) fun r hr => ?_
    tb
    exact TB.pure ⟨_, rfl, trivial⟩

theorem csr_matmat_maxnnzT_tb (n_row n_col : Nat) {a_p : List Int} (a_j : List Int) {b_p : List Int} (b_j : List Int)
    {K : Nat} (ha : RowsLe a_p K) (hb : RowsLe b_p K) :
    TB (csr_matmat_maxnnzT n_row n_col a_p a_j b_p b_j) (8 * (n_row * (K * K)) + 3 * n_row + n_col) fun r => r ≤ n_row * (K * K) := by
  unfold csr_matmat_maxnnzT
  refine TB.vec_bind (by omega) ?_
  have hKK : K ≤ K * K := by
    cases K with
    | zero => omega
    | succ K => exact Nat.le_mul_of_pos_left _ (by omega)
  have e : (8 * (K * K) + 3) * (n_row - 0) = 8 * (n_row * (K * K)) + 3 * n_row := by
    rw [Nat.add_mul, Nat.mul_assoc, Nat.sub_zero, Nat.mul_comm (K * K) n_row]
  refine TB.bind (TB.forConst (fun i s => s.2 ≤ i * (K * K)) (8 * (K * K) + 3) (by simp) ?_ (Nat.le_refl _) fun _ h => h) (by omega) fun s h =>
    TB.pure (by rwa [Nat.max_eq_right (Nat.zero_le _)] at h)
  intro i s hi _ h
  tb
  rename_i v hv hv0 v' hv' hv0'
  have hK := ha.toNat hv hv' hv0
  have hK' : (4 + 4 * K) * (v'.toNat - v.toNat) ≤ 4 * K + 4 * (K * K) := by
    refine Nat.le_trans (Nat.mul_le_mul_left _ hK) ?_
    rw [Nat.add_mul, Nat.mul_assoc]
  refine TB.bind (TB.forConst (fun k s => s.2 ≤ (k - v.toNat) * K) (4 + 4 * K) (by simp) ?_ hK' fun _ h => h) (by omega) fun r hr => TB.pure ⟨_, rfl, ?_⟩
  rotate_left
  · have h1 : (max v.toNat v'.toNat - v.toNat) * K ≤ K * K := Nat.mul_le_mul_right _ (by omega)
    dsimp only
    rw [Nat.add_mul]
    omega
  intro jj s' hjj _ hs
  tb
  rename_i w hw hw0 u hu hu0 u' hu' hu0'
  have hB := hb.toNat hu hu' hu0
  refine TB.bind (TB.forConst (fun k s => s.2 ≤ s'.2 + (k - u.toNat)) 4 (by simp) ?_ (Nat.le_refl _) fun _ h => h) (by omega) fun r hr =>
    TB.pure ⟨_, rfl, ?_⟩
  rotate_left
  · rw [show jj + 1 - v.toNat = (jj - v.toNat) + 1 by omega, Nat.add_mul]
    dsimp only
    omega
  intro kk s _ _ _
  tb
  split
  · tb
    exact TB.pure ⟨_, rfl, by dsimp only; omega⟩
  · exact TB.pure ⟨_, rfl, by dsimp only; omega⟩

/-! ### lower bounds -/

/-- if `m` returns, it has taken at least `L` steps -/
def TL (m : MT α) (L : Nat) : Prop := ∀ a, m.outcome = .ok a → L ≤ m.steps

namespace TL
theorem zero (m : MT α) : TL m 0 := fun _ _ => Nat.zero_le _
theorem bind {m : MT α} {f : α → MT β} {L1 L : Nat} (h : TL m L1) (hf : ∀ a, m.outcome = .ok a → TL (f a) (L - L1)) :
    TL (m >>= f) L := by
  obtain ⟨m, c⟩ := m
  intro b hb
  cases m with
  | error e => cases hb
  | ok a =>
    have h1 : L1 ≤ c := h a rfl
    have h2 : L - L1 ≤ (f a).steps := hf a rfl b hb
    show L ≤ c + (f a).steps
    omega
theorem skip {m : MT α} {f : α → MT β} {L : Nat} (hf : ∀ a, m.outcome = .ok a → TL (f a) L) : TL (m >>= f) L :=
  bind (zero m) hf
theorem mono {m : MT α} {L L' : Nat} (h : TL m L) (hl : L' ≤ L) : TL m L' := fun a e => Nat.le_trans hl (h a e)
theorem forRange {a b : Nat} {s : σ} {f : Nat → σ → MT (ForInStep σ)} (k : Nat)
    (hy : ∀ i s st, (f i s).outcome = .ok st → ∃ s', st = .yield s')
    (hs : ∀ i s, a ≤ i → i < b → TL (f i s) k) : TL (forIn (rng a b) s f) (k * (b - a)) := by
  obtain ⟨d, hd⟩ : ∃ d, b - a = d := ⟨_, rfl⟩
  induction d generalizing a s with
  | zero => rw [hd]; exact zero _
  | succ d ih =>
    rw [rng_cons (by omega), List.forIn_cons]
    refine bind (hs a s (Nat.le_refl _) (by omega)) fun st hst => ?_
    obtain ⟨s', rfl⟩ := hy a s st hst
    refine (ih (a := a + 1) (s := s') (fun i s h1 h2 => hs i s (by omega) h2) (by omega)).mono ?_
    rw [show b - a = (b - (a + 1)) + 1 by omega, Nat.mul_add]
    omega
end TL

end
end Sparse

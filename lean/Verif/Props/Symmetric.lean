import Verif.Props.Exact
/-!
Symmetric results without rounding differences (C113): nothing is assumed about the scalars but that the operation in question
commutes, as the operations of floating-point numbers do.
-/
namespace Sparse

section
variable {T : Type}

/-- the stored entries are symmetric, bit for bit: every value stored at `(i, j)` is stored at `(j, i)` too -/
def CSR.SymmetricEntries (r : CSR T) : Prop :=
  r.rows = r.cols ∧ ∀ i < r.rows, ∀ j < r.rows, ∀ v, ((j : Int), v) ∈ r.row i ↔ ((i : Int), v) ∈ r.row j

/-- the same for CSC -/
def CSC.SymmetricEntries (r : CSC T) : Prop :=
  r.rows = r.cols ∧ ∀ i < r.rows, ∀ j < r.rows, ∀ v, ((i : Int), v) ∈ r.col j ↔ ((j : Int), v) ∈ r.col i

theorem flatMap_congr_mem {α β : Type} {l : List α} {f g : α → List β} (h : ∀ e ∈ l, f e = g e) : l.flatMap f = l.flatMap g := by
  induction l with
  | nil => rfl
  | cons x l ih =>
    rw [List.flatMap_cons, List.flatMap_cons, h x (by simp), ih fun e he => h e (List.mem_cons_of_mem _ he)]

theorem products_swap [Mul T] (hm : ∀ x y : T, x * y = y * x) : ∀ X Y : List (Int × T), (X.Pairwise fun e f => e.1 < f.1) →
    (Y.Pairwise fun e f => e.1 < f.1) →
    (X.flatMap fun e => (valuesIn Y e.1).map fun w => e.2 * w) = Y.flatMap fun f => (valuesIn X f.1).map fun v => f.2 * v := by
  intro X
  induction X with
  | nil => intro Y _ _; simp
  | cons x X ihX =>
    intro Y
    induction Y with
    | nil => intro _ _; simp
    | cons y Y ihY =>
      intro hX hY
      obtain ⟨hx, hX'⟩ := List.pairwise_cons.1 hX
      obtain ⟨hy, hY'⟩ := List.pairwise_cons.1 hY
      rcases lt_trichotomy x.1 y.1 with h | h | h
      · have e1 : valuesIn (y :: Y) x.1 = [] := valuesIn_eq_nil fun e he => by
          rcases List.mem_cons.1 he with rfl | he
          · omega
          · have := hy e he; omega
        rw [List.flatMap_cons, e1, List.map_nil, List.nil_append, ihX _ hX' hY]
        refine flatMap_congr_mem fun f hf => ?_
        rw [valuesIn_cons, if_neg, List.nil_append]
        rcases List.mem_cons.1 hf with rfl | hf
        · omega
        · have := hy f hf; omega
      · have e1 : valuesIn Y x.1 = [] := valuesIn_eq_nil fun e he => by have := hy e he; omega
        have e2 : valuesIn X y.1 = [] := valuesIn_eq_nil fun e he => by have := hx e he; omega
        rw [List.flatMap_cons, List.flatMap_cons, valuesIn_cons, valuesIn_cons, if_pos h.symm, if_pos h, e1, e2]
        simp only [List.append_nil, List.map_cons, List.map_nil]
        rw [hm x.2 y.2]
        congr 1
        rw [show (X.flatMap fun e => (valuesIn (y :: Y) e.1).map fun w => e.2 * w) =
          X.flatMap fun e => (valuesIn Y e.1).map fun w => e.2 * w from flatMap_congr_mem fun e he => by
            rw [valuesIn_cons, if_neg (by have := hx e he; omega), List.nil_append], ihX _ hX' hY']
        exact flatMap_congr_mem fun f hf => by
            rw [valuesIn_cons, if_neg (by have := hy f hf; omega), List.nil_append]
      · have e1 : valuesIn (x :: X) y.1 = [] := valuesIn_eq_nil fun e he => by
          rcases List.mem_cons.1 he with rfl | he
          · omega
          · have := hx e he; omega
        rw [List.flatMap_cons (x := y) (xs := Y), e1, List.map_nil, List.nil_append, ← ihY hX hY']
        refine flatMap_congr_mem fun f hf => ?_
        rw [valuesIn_cons, if_neg, List.nil_append]
        rcases List.mem_cons.1 hf with rfl | hf
        · omega
        · have := hx f hf; omega

theorem CSR.contributions_gram [Mul T] {t : IntTy} {a b : CSR T} (ha : a.WF t) (hb : ∀ i j, b.valuesAt i j = a.valuesAt j i)
    {i : Nat} (hi : i < a.rows) (k : Nat) :
    a.contributions b i k = (a.row i).flatMap fun e => (valuesIn (a.row k) e.1).map fun w => e.2 * w := by
  refine flatMap_congr_mem fun e he => ?_
  rw [hb]
  have := ha.mem hi he
  unfold CSR.valuesAt
  rw [Int.toNat_of_nonneg this.1]

theorem CSC.contributions_gram [Mul T] {t : IntTy} {a b : CSC T} (ha : a.WF t) (hb : ∀ i j, b.valuesAt i j = a.valuesAt j i)
    {k : Nat} (hk : k < a.cols) (i : Nat) :
    b.contributions a i k = (a.col k).flatMap fun e => (valuesIn (a.col i) e.1).map fun w => e.2 * w := by
  refine flatMap_congr_mem fun e he => ?_
  rw [hb]
  have := ha.mem hk he
  unfold CSC.valuesAt
  rw [Int.toNat_of_nonneg this.1]

theorem CSC.stored_to_csr [Zero T] {t : IntTy} {a : CSC T} {r : CSR T} (ha : a.WF t) (hc : (a.cols : Int) ≤ t.hi + 1)
    (h : a.to_csr t = .ok r) : r.stored = a.stored := by
  obtain ⟨r', h1, h2, h3, h4, h5, h6⟩ := CSC.to_csr_ok ha hc
  cases h.symm.trans h1
  have hfl := colsOf_flat_length (R := a.col) (n := a.cols) (m := a.rows) fun i hi e he => ⟨(ha.mem hi he).1, (ha.mem hi he).2.1⟩
  rw [ha.stored_eq, ← hfl, ← h2]
  exact CSR.stored_of_rep (a := r) (by rw [h2]; exact h4)

theorem CSR.stored_transpose {t : IntTy} {a : CSR T} {s : CSC T} (ha : a.WF t) (h : a.transpose = .ok s) : s.stored = a.stored := by
  unfold CSR.transpose at h
  rw [CSC.new_ok ha.rep] at h
  cases h
  rfl

theorem CSR.has_valuesAt (b : CSR T) (i j : Nat) : b.has i j ↔ b.valuesAt i j ≠ [] := by
  unfold CSR.has CSR.valuesAt valuesIn
  rw [ne_eq, List.map_eq_nil_iff, List.filter_eq_nil_iff]
  push Not
  constructor
  · rintro ⟨v, hv⟩; exact ⟨_, hv, by simp⟩
  · rintro ⟨⟨k, v⟩, hv, hk⟩
    simp only [decide_eq_true_eq] at hk
    subst hk
    exact ⟨v, hv⟩

/-- C113: `A * Aᵀ` of a CSR matrix in canonical format is symmetric to the last bit, for all scalars whose multiplication
commutes: addition may round, overflow or not be associative. -/
theorem C113_csr_gram [Zero T] [Add T] [Mul T] [BEq T] (hm : ∀ x y : T, x * y = y * x) (t : IntTy) (a : CSR T) (ha : a.WF t)
    (hc : a.Canonical) (hf : ((a.rows * a.rows : Nat) : Int) ≤ t.hi) :
    ∃ s b r, a.transpose = .ok s ∧ s.to_csr t = .ok b ∧ a.mul t b = .ok r ∧ r.WF t ∧ r.NoDup ∧ r.rows = a.rows ∧
      r.SymmetricEntries := by
  obtain ⟨s, s1, s2, s3, s4, s5⟩ := (C53_transpose (T := T) t).1 a ha
  have hn : (a.rows : Int) ≤ t.hi := by
    have : a.rows ≤ a.rows * a.rows := Nat.le_mul_self _
    omega
  obtain ⟨b, b1, b2, b3, b4, -, -, -, b5⟩ := C53_csc_to_csr t s s2 (by omega)
  obtain ⟨r, -, r1, r2, r3, r4, r5, r6⟩ := C57_csr_mat_mat t a b ha b2 (by omega) (by
    have := C13_slots_le a b
    rw [show b.cols = a.rows by omega] at this
    omega)
  have hb : ∀ i j, b.valuesAt i j = a.valuesAt j i := fun i j => by rw [b5, s5]
  refine ⟨s, b, r, s1, b1, r1, r2, r5, r3, by omega, ?_⟩
  intro i hi j hj v
  rw [r6 i (by omega), r6 j (by omega), CSR.contributions_gram ha hb (by omega),
    CSR.contributions_gram ha hb (by omega), products_swap hm _ _ (hc i (by omega)) (hc j (by omega))]

/-- C113: `A + Aᵀ` of any square CSR matrix, in canonical format or not, is symmetric to the last bit, for all scalars whose
addition commutes. -/
theorem C113_csr_sum [Zero T] [Add T] [Sub T] [BEq T] (hp : ∀ x y : T, x + y = y + x) (t : IntTy) (a : CSR T) (ha : a.WF t)
    (hsq : a.rows = a.cols) (hr : (a.rows : Int) ≤ t.hi) (hf : ((a.stored + a.stored : Nat) : Int) < t.hi) :
    ∃ s b r, a.transpose = .ok s ∧ s.to_csr t = .ok b ∧ a.add t b = .ok r ∧ r.WF t ∧ r.NoDup ∧ r.rows = a.rows ∧
      r.SymmetricEntries := by
  obtain ⟨s, s1, s2, s3, s4, s5⟩ := (C53_transpose (T := T) t).1 a ha
  obtain ⟨b, b1, b2, b3, b4, -, -, -, b5⟩ := C53_csc_to_csr t s s2 (by omega)
  have hst : b.stored = a.stored := by
    rw [CSC.stored_to_csr s2 (by omega) b1]
    exact CSR.stored_transpose ha s1
  obtain ⟨r, r1, r2, r3, r4, r5, r6⟩ := (C58_csr_add_sub t a b ha b2 (by omega) (by omega) (by omega)).1
  have key := CSR.has_valuesAt (T := T)
  have hb : ∀ i j, b.valuesAt i j = a.valuesAt j i := fun i j => by rw [b5, s5]
  have he : ∀ (P : Prop) (x y : List T), elementwise P (· + ·) x y = elementwise P (· + ·) y x := by
    intro P x y
    unfold elementwise
    split <;> exact hp _ _
  refine ⟨s, b, r, s1, b1, r1, r2, r5, r3, by omega, ?_⟩
  intro i hi j hj v
  rw [r6 i (by omega), r6 j (by omega), key, key, key, key, hb, hb, he _ (a.valuesAt i j), or_comm]

/-- C113: `A - Aᵀ` of any square CSR matrix is antisymmetric to the last bit, for all scalars with `x - y = -(y - x)` whose negation
keeps nonzero values nonzero. -/
theorem C113_csr_difference [Zero T] [Add T] [Sub T] [Neg T] [BEq T] (hs : ∀ x y : T, x - y = -(y - x))
    (hz : ∀ x : T, (x != 0) = true → (-x != 0) = true) (t : IntTy) (a : CSR T) (ha : a.WF t)
    (hsq : a.rows = a.cols) (hr : (a.rows : Int) ≤ t.hi) (hf : ((a.stored + a.stored : Nat) : Int) < t.hi) :
    ∃ s b r, a.transpose = .ok s ∧ s.to_csr t = .ok b ∧ a.sub t b = .ok r ∧ r.WF t ∧ r.NoDup ∧ r.rows = a.rows ∧ r.cols = a.rows ∧
      ∀ i < r.rows, ∀ j < r.rows, ∀ v, ((j : Int), v) ∈ r.row i → ((i : Int), -v) ∈ r.row j := by
  obtain ⟨s, s1, s2, s3, s4, s5⟩ := (C53_transpose (T := T) t).1 a ha
  obtain ⟨b, b1, b2, b3, b4, -, -, -, b5⟩ := C53_csc_to_csr t s s2 (by omega)
  have hst : b.stored = a.stored := by
    rw [CSC.stored_to_csr s2 (by omega) b1]
    exact CSR.stored_transpose ha s1
  obtain ⟨r, r1, r2, r3, r4, r5, r6⟩ := (C58_csr_add_sub t a b ha b2 (by omega) (by omega) (by omega)).2
  have key := CSR.has_valuesAt (T := T)
  have hb : ∀ i j, b.valuesAt i j = a.valuesAt j i := fun i j => by rw [b5, s5]
  have he : ∀ (P : Prop) (x y : List T), elementwise P (· - ·) x y = -elementwise P (· - ·) y x := by
    intro P x y
    unfold elementwise
    split <;> exact hs _ _
  refine ⟨s, b, r, s1, b1, r1, r2, r5, r3, by omega, ?_⟩
  intro i hi j hj v h
  rw [r6 i (by omega), key, key, hb] at h
  rw [r6 j (by omega), key, key, hb, he _ (a.valuesAt j i)]
  obtain ⟨h1, rfl, h3⟩ := h
  exact ⟨h1.symm, rfl, hz _ h3⟩

/-- C113: `Aᵀ * A` of a CSC matrix in canonical format is symmetric to the last bit. -/
theorem C113_csc_gram [Zero T] [Add T] [Mul T] [BEq T] (hm : ∀ x y : T, x * y = y * x) (t : IntTy) (a : CSC T) (ha : a.WF t)
    (hc : a.Canonical) (hf : ((a.cols * a.cols : Nat) : Int) ≤ t.hi) :
    ∃ s b r, a.transpose = .ok s ∧ s.to_csc t = .ok b ∧ b.mul t a = .ok r ∧ r.WF t ∧ r.NoDup ∧ r.rows = a.cols ∧
      r.SymmetricEntries := by
  obtain ⟨s, s1, s2, s3, s4, s5⟩ := (C53_transpose (T := T) t).2.1 a ha
  have hn : (a.cols : Int) ≤ t.hi := by
    have : a.cols ≤ a.cols * a.cols := Nat.le_mul_self _
    omega
  obtain ⟨b, b1, b2, b3, b4, -, -, -, b5⟩ := C53_csr_to_csc t s s2 (by omega)
  obtain ⟨r, -, r1, r2, r3, r4, r5, r6⟩ := C57_csc_mat_mat t b a b2 ha (by omega) (by
    have := C13_slots_le a.asCSR b.asCSR
    have h2 : a.asCSR.rows * b.asCSR.cols = a.cols * a.cols := by
      show a.cols * b.rows = _
      rw [show b.rows = a.cols by omega]
    have h3 := CSC.productSlots_asCSR b a
    rw [h2] at this
    omega)
  have hb : ∀ i j, b.valuesAt i j = a.valuesAt j i := fun i j => by rw [b5, s5]
  refine ⟨s, b, r, s1, b1, r1, r2, r5, by omega, by omega, ?_⟩
  intro i hi j hj v
  rw [r6 j (by omega), r6 i (by omega), CSC.contributions_gram ha hb (by omega),
    CSC.contributions_gram ha hb (by omega), products_swap hm _ _ (hc j (by omega)) (hc i (by omega))]

theorem CSR.stored_to_csc [Zero T] {t : IntTy} {a : CSR T} {r : CSC T} (ha : a.WF t) (hr : (a.rows : Int) ≤ t.hi + 1)
    (h : a.to_csc t = .ok r) : r.stored = a.stored := by
  obtain ⟨r', h1, h2, h3, h4, h5, h6⟩ := CSR.to_csc_ok ha hr
  cases h.symm.trans h1
  have hfl := colsOf_flat_length (R := a.row) (n := a.rows) (m := a.cols) fun i hi e he => ⟨(ha.mem hi he).1, (ha.mem hi he).2.1⟩
  rw [ha.stored_eq, ← hfl, ← h3]
  exact CSC.stored_of_rep (a := r) (by rw [h3]; exact h4)

/-- C113: `A + Aᵀ` of any square CSC matrix is symmetric to the last bit. -/
theorem C113_csc_sum [Zero T] [Add T] [Sub T] [BEq T] (hp : ∀ x y : T, x + y = y + x) (t : IntTy) (a : CSC T) (ha : a.WF t)
    (hsq : a.rows = a.cols) (hr : (a.rows : Int) ≤ t.hi) (hf : ((a.stored + a.stored : Nat) : Int) < t.hi) :
    ∃ s b r, a.transpose = .ok s ∧ s.to_csc t = .ok b ∧ a.add_op t b = .ok r ∧ r.WF t ∧ r.NoDup ∧ r.rows = a.rows ∧
      r.SymmetricEntries := by
  obtain ⟨s, s1, s2, s3, s4, s5⟩ := (C53_transpose (T := T) t).2.1 a ha
  obtain ⟨b, b1, b2, b3, b4, -, -, -, b5⟩ := C53_csr_to_csc t s s2 (by omega)
  have hst : b.stored = a.stored := by
    rw [CSR.stored_to_csc s2 (by omega) b1]
    unfold CSC.transpose at s1
    rw [CSR.new_ok ha.rep] at s1
    cases s1
    rfl
  obtain ⟨r, r1, r2, r3, r4, r5, r6⟩ := (C58_csc_add_subtract t a b ha b2 (by omega) (by omega) (by omega)).2.2
  have key : ∀ (b : CSC T) (i j : Nat), b.has i j ↔ b.valuesAt i j ≠ [] := fun b i j => CSR.has_valuesAt b.asCSR j i
  have hb : ∀ i j, b.valuesAt i j = a.valuesAt j i := fun i j => by rw [b5, s5]
  have he : ∀ (P : Prop) (x y : List T), elementwise P (· + ·) x y = elementwise P (· + ·) y x := by
    intro P x y
    unfold elementwise
    split <;> exact hp _ _
  refine ⟨s, b, r, s1, b1, r1, r2, r5, r3, by omega, ?_⟩
  intro i hi j hj v
  rw [r6 j (by omega), r6 i (by omega), key, key, key, key, hb, hb, he _ (a.valuesAt i j), or_comm]

/-- the operations of `Sat`, whose addition is not associative, commute -/
theorem Sat.comm (x y : Sat) : x * y = y * x ∧ x + y = y + x :=
  ⟨show Sat.clamp (x.v * y.v) = Sat.clamp (y.v * x.v) by rw [mul_comm], show Sat.clamp (x.v + y.v) = Sat.clamp (y.v + x.v) by rw [add_comm]⟩

/-- a matrix with an unsorted row but without repeated positions -/
def unsortedSat : CSR Sat := ⟨2, 3, [0, 3, 6], [0, 1, 2, 0, 2, 1], [⟨9⟩, ⟨9⟩, ⟨-9⟩, ⟨10⟩, ⟨10⟩, ⟨10⟩]⟩

/-- C113: the canonical format is needed: with one unsorted row, and no repeated position, `A * Aᵀ` is not symmetric when
additions round or saturate. -/
theorem C113_unsorted_not_symmetric : unsortedSat.WF .i8 ∧ unsortedSat.NoDup ∧
    ∃ s b r, unsortedSat.transpose = .ok s ∧ s.to_csr .i8 = .ok b ∧ unsortedSat.mul .i8 b = .ok r ∧ r.WF .i8 ∧
      ¬ r.SymmetricEntries := by
  have ha : unsortedSat.WF .i8 := CSR.wf_of (by decide)
  refine ⟨ha, by unfold CSR.NoDup; decide, ?_⟩
  obtain ⟨s, s1, s2, s3, s4, s5⟩ := (C53_transpose (T := Sat) .i8).1 _ ha
  have e1 : unsortedSat.rows = 2 := rfl
  have e2 : unsortedSat.cols = 3 := rfl
  have e3 : IntTy.i8.hi = 127 := rfl
  obtain ⟨b, b1, b2, b3, b4, -, -, -, b5⟩ := C53_csc_to_csr .i8 s s2 (by omega)
  obtain ⟨r, -, r1, r2, r3, r4, r5, r6⟩ := C57_csr_mat_mat .i8 unsortedSat b ha b2 (by omega) (by
    have := C13_slots_le unsortedSat b
    rw [show b.cols = 2 by omega, e1] at this
    omega)
  have hb : ∀ i j, b.valuesAt i j = unsortedSat.valuesAt j i := fun i j => by rw [b5, s5]
  refine ⟨s, b, r, s1, b1, r1, r2, fun h => ?_⟩
  have h1 := (r6 0 (by omega) 1 ⟨10⟩).2 (by
    rw [CSR.contributions_gram ha hb (by omega)]
    decide)
  have h2 := (r6 1 (by omega) 0 ⟨10⟩).1 ((h.2 0 (by omega) 1 (by omega) ⟨10⟩).1 h1)
  rw [CSR.contributions_gram ha hb (by omega)] at h2
  revert h2
  decide

/-- the hypotheses of `C113_csr_gram`, `C113_csr_sum` (a position stored twice) and `C113_csc_gram` hold of matrices over `Sat` -/
example : ∃ (a c : CSR Sat) (d : CSC Sat), a.WF .i8 ∧ a.Canonical ∧ ((a.rows * a.rows : Nat) : Int) ≤ IntTy.i8.hi ∧ a.stored = 5 ∧
    c.WF .i8 ∧ c.rows = c.cols ∧ (c.rows : Int) ≤ IntTy.i8.hi ∧ ((c.stored + c.stored : Nat) : Int) < IntTy.i8.hi ∧ ¬ c.NoDup ∧
    d.WF .i8 ∧ d.Canonical ∧ ((d.cols * d.cols : Nat) : Int) ≤ IntTy.i8.hi ∧ d.stored = 5 :=
  ⟨⟨2, 3, [0, 3, 5], [0, 1, 2, 0, 2], [⟨9⟩, ⟨9⟩, ⟨-9⟩, ⟨10⟩, ⟨10⟩]⟩, ⟨2, 2, [0, 2, 3], [1, 1, 0], [⟨90⟩, ⟨50⟩, ⟨-7⟩]⟩,
    ⟨3, 2, [0, 1, 2, 0, 2], [0, 3, 5], [⟨9⟩, ⟨9⟩, ⟨-9⟩, ⟨10⟩, ⟨10⟩]⟩, CSR.wf_of (by decide), by unfold CSR.Canonical; decide, by decide,
    by decide, CSR.wf_of (by decide), rfl, by decide, by decide, by unfold CSR.NoDup; decide, CSC.wf_of (by decide),
    by unfold CSC.Canonical; decide, by decide, by decide⟩

/-- the hypotheses of `C113_csc_sum` hold of a matrix with a position stored twice -/
example : ∃ c : CSC Sat, c.WF .i8 ∧ c.rows = c.cols ∧ (c.rows : Int) ≤ IntTy.i8.hi ∧ ((c.stored + c.stored : Nat) : Int) < IntTy.i8.hi ∧
    ¬ c.NoDup :=
  ⟨⟨2, 2, [1, 1, 0], [0, 2, 3], [⟨90⟩, ⟨50⟩, ⟨-7⟩]⟩, CSC.wf_of (by decide), rfl, by decide, by decide, by unfold CSC.NoDup; decide⟩

local instance negSatSymmetric : Neg Sat := ⟨fun x => ⟨-x.v⟩⟩

/-- the laws assumed in `C113_csr_difference` hold of `Sat`; the matrix of the first example meets the other hypotheses -/
example : (∀ x y : Sat, x - y = -(y - x)) ∧ ∀ x : Sat, (x != 0) = true → (-x != 0) = true := by
  constructor
  · intro x y
    show Sat.clamp (x.v - y.v) = (⟨-(Sat.clamp (y.v - x.v)).v⟩ : Sat)
    unfold Sat.clamp
    congr 1
    show _ = -max (-100) (min 100 (y.v - x.v))
    omega
  · rintro ⟨x⟩ h
    have h1 : (⟨x⟩ : Sat) ≠ 0 := by simpa using h
    have h2 : (⟨-x⟩ : Sat) ≠ 0 := fun h3 => h1 (by
      have : -x = 0 := congrArg Sat.v h3
      obtain rfl : x = 0 := by omega
      rfl)
    have : (-⟨x⟩ : Sat) = ⟨-x⟩ := rfl
    rw [this]
    simpa using h2

end
end Sparse

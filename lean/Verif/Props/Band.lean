import Mathlib.Data.Int.Interval
import Verif.Props.Laws
import Verif.Props.LawsCsc
import Verif.Props.Powers
/-!
Where the results of programs store entries (C112): at most at the positions matrix algebra allows, whatever cancels; so
bands, triangles and diagonals survive, and banded results stay small.
-/
namespace Sparse

section
variable {T : Type}

/-- an entry is stored at row `i`, column `j` -/
def Val.storesAt : {f : Fmt} → Val T f → Nat → Nat → Prop
  | .coo, a => fun i j => ∃ v, ((i : Int), (j : Int), v) ∈ Coo.triples a
  | .csr, a => CSR.has a
  | .csc, a => CSC.has a

/-- the column minus the row, for every position of the pattern, lies between `l` and `u` -/
def InBand (p : Nat → Nat → Prop) (l u : Int) : Prop := ∀ i j : Nat, p i j → l ≤ (j : Int) - i ∧ (j : Int) - i ≤ u

/-- the rules of bands: given matrices lie in the band; sums need both operands in it; the bands of the factors of a
product add up; the transpose has the reversed band; `upper` cuts it off. Stacked, composed and selected matrices have to
lie in the band as they are. -/
def Expr.Banded [Zero T] : {f : Fmt} → Expr T f → Int → Int → Prop
  | _, .coo a => InBand fun i j => ∃ v, ((i : Int), (j : Int), v) ∈ a.triples
  | _, .csr a => InBand a.has
  | _, .csc a => InBand a.has
  | _, .cooDiag _ | _, .csrDiag _ | _, .cscDiag _ | _, .cooEye _ => fun l u => l ≤ 0 ∧ 0 ≤ u
  | _, .cooZero _ _ | _, .csrZero _ _ => fun _ _ => True
  | _, .cooDense A | _, .csrDense A | _, .cscDense A => InBand fun i j => ((A[i]?).bind (·[j]?)).getD 0 ≠ 0
  | _, .csrToCoo e => fun l u => e.Banded l u ∧ l ≤ 0 ∧ 0 ≤ u
  | _, .cooToCsr e | _, .cooToCsc e | _, .cooNeg e => e.Banded
  | _, .csrToCsc e | _, .csrNeg e | _, .csrScale e _ | _, .csrScaleL _ e | _, .csrSort e | _, .csrSum e => e.Banded
  | _, .cscToCoo e | _, .cscToCsr e | _, .cscNeg e | _, .cscScale e _ | _, .cscScaleL _ e | _, .cscSort e | _, .cscSum e =>
    e.Banded
  | _, .cooT e | _, .csrT e | _, .cscT e => fun l u => e.Banded (-u) (-l)
  | _, .cooAdd e f | _, .csrAdd e f | _, .csrSub e f => fun l u => e.Banded l u ∧ f.Banded l u
  | _, .cscAdd e f | _, .cscSub e f | _, .cscAddMethod e f | _, .cscSubMethod e f => fun l u => e.Banded l u ∧ f.Banded l u
  | _, .csrMul e f | _, .cscMul e f | _, .cscMulCsr e f => fun l u =>
    ∃ l1 u1 l2 u2 : Int, e.Banded l1 u1 ∧ f.Banded l2 u2 ∧ l ≤ l1 + l2 ∧ u1 + u2 ≤ u
  | _, .cooUpper e k => fun l u => ∃ l' : Int, e.Banded l' u ∧ l ≤ max l' k
  | _, .cooV e f => InBand (Expr.cooV e f).pos
  | _, .cooV3 e f g => InBand (Expr.cooV3 e f g).pos
  | _, .cooH e f => InBand (Expr.cooH e f).pos
  | _, .cooH3 e f g => InBand (Expr.cooH3 e f g).pos
  | _, .csrH e f => InBand (Expr.csrH e f).pos
  | _, .cooBlock e f g h => InBand (Expr.cooBlock e f g h).pos
  | _, .cscBlock e f g h => InBand (Expr.cscBlock e f g h).pos
  | _, .csrSelect e ri ci => InBand (Expr.csrSelect e ri ci).pos
  | _, .cscSelect e ri ci => InBand (Expr.cscSelect e ri ci).pos

theorem InBand.or {p q : Nat → Nat → Prop} {l u : Int} (hp : InBand p l u) (hq : InBand q l u) :
    InBand (fun i j => p i j ∨ q i j) l u := fun i j h => h.elim (hp i j) (hq i j)

theorem InBand.swap {p : Nat → Nat → Prop} {l u : Int} (hp : InBand p (-u) (-l)) : InBand (fun i j => p j i) l u := by
  intro i j h
  have := hp j i h
  omega

theorem InBand.mul {p q : Nat → Nat → Prop} {l u l1 u1 l2 u2 : Int} (hp : InBand p l1 u1) (hq : InBand q l2 u2)
    (hl : l ≤ l1 + l2) (hu : u1 + u2 ≤ u) : InBand (fun i k => ∃ j, p i j ∧ q j k) l u := by
  rintro i k ⟨j, h1, h2⟩
  have := hp i j h1
  have := hq j k h2
  omega

theorem Expr.Banded.pos [Zero T] : {f : Fmt} → {e : Expr T f} → {l u : Int} → e.Banded l u → InBand e.pos l u
  | _, .coo _, _, _, h => h
  | _, .csr _, _, _, h => h
  | _, .csc _, _, _, h => h
  | _, .cooDiag _, l, u, h => by
    have h : l ≤ 0 ∧ 0 ≤ u := h
    rintro i j ⟨rfl, -⟩
    omega
  | _, .csrDiag _, l, u, h => by
    have h : l ≤ 0 ∧ 0 ≤ u := h
    rintro i j ⟨rfl, -⟩
    omega
  | _, .cscDiag _, l, u, h => by
    have h : l ≤ 0 ∧ 0 ≤ u := h
    rintro i j ⟨rfl, -⟩
    omega
  | _, .cooEye _, l, u, h => by
    have h : l ≤ 0 ∧ 0 ≤ u := h
    rintro i j ⟨rfl, -⟩
    omega
  | _, .cooZero _ _, _, _, _ => fun _ _ h => h.elim
  | _, .csrZero _ _, _, _, _ => fun _ _ h => h.elim
  | _, .cooDense _, _, _, h => h
  | _, .csrDense _, _, _, h => h
  | _, .cscDense _, _, _, h => h
  | _, .cooToCsr e, _, _, h => Banded.pos (e := e) h
  | _, .cooToCsc e, _, _, h => Banded.pos (e := e) h
  | _, .csrToCoo e, _, _, h => (Banded.pos (e := e) h.1).or (by rintro i j ⟨rfl, rfl⟩; simpa using h.2)
  | _, .csrToCsc e, _, _, h => Banded.pos (e := e) h
  | _, .cscToCoo e, _, _, h => Banded.pos (e := e) h
  | _, .cscToCsr e, _, _, h => Banded.pos (e := e) h
  | _, .cooT e, _, _, h => (Banded.pos (e := e) h).swap
  | _, .csrT e, _, _, h => (Banded.pos (e := e) h).swap
  | _, .cscT e, _, _, h => (Banded.pos (e := e) h).swap
  | _, .cooNeg e, _, _, h => Banded.pos (e := e) h
  | _, .csrNeg e, _, _, h => Banded.pos (e := e) h
  | _, .cscNeg e, _, _, h => Banded.pos (e := e) h
  | _, .cooAdd e f, _, _, h => (Banded.pos (e := e) h.1).or (Banded.pos (e := f) h.2)
  | _, .csrAdd e f, _, _, h => (Banded.pos (e := e) h.1).or (Banded.pos (e := f) h.2)
  | _, .csrSub e f, _, _, h => (Banded.pos (e := e) h.1).or (Banded.pos (e := f) h.2)
  | _, .cscAdd e f, _, _, h => (Banded.pos (e := e) h.1).or (Banded.pos (e := f) h.2)
  | _, .cscSub e f, _, _, h => (Banded.pos (e := e) h.1).or (Banded.pos (e := f) h.2)
  | _, .cscAddMethod e f, _, _, h => (Banded.pos (e := e) h.1).or (Banded.pos (e := f) h.2)
  | _, .cscSubMethod e f, _, _, h => (Banded.pos (e := e) h.1).or (Banded.pos (e := f) h.2)
  | _, .csrMul e f, _, _, ⟨_, _, _, _, h1, h2, h3, h4⟩ => (Banded.pos (e := e) h1).mul (Banded.pos (e := f) h2) h3 h4
  | _, .cscMul e f, _, _, ⟨_, _, _, _, h1, h2, h3, h4⟩ => (Banded.pos (e := e) h1).mul (Banded.pos (e := f) h2) h3 h4
  | _, .cscMulCsr e f, _, _, ⟨_, _, _, _, h1, h2, h3, h4⟩ => (Banded.pos (e := e) h1).mul (Banded.pos (e := f) h2) h3 h4
  | _, .csrScale e _, _, _, h => Banded.pos (e := e) h
  | _, .csrScaleL _ e, _, _, h => Banded.pos (e := e) h
  | _, .cscScale e _, _, _, h => Banded.pos (e := e) h
  | _, .cscScaleL _ e, _, _, h => Banded.pos (e := e) h
  | _, .csrSort e, _, _, h => Banded.pos (e := e) h
  | _, .cscSort e, _, _, h => Banded.pos (e := e) h
  | _, .csrSum e, _, _, h => Banded.pos (e := e) h
  | _, .cscSum e, _, _, h => Banded.pos (e := e) h
  | _, .cooUpper e k, l, u, ⟨l', h1, h2⟩ => by
    rintro i j ⟨g1, g2⟩
    have := Banded.pos (e := e) h1 i j g1
    omega
  | _, .cooV _ _, _, _, h => h
  | _, .cooV3 _ _ _, _, _, h => h
  | _, .cooH _ _, _, _, h => h
  | _, .cooH3 _ _ _, _, _, h => h
  | _, .csrH _ _, _, _, h => h
  | _, .cooBlock _ _ _ _, _, _, h => h
  | _, .cscBlock _ _ _ _, _, _, h => h
  | _, .csrSelect _ _ _, _, _, h => h
  | _, .cscSelect _ _ _, _, _, h => h

variable [CommRing T] [DecidableEq T] {t : IntTy}

omit [DecidableEq T] in
theorem Expr.Good.storesAt : {f : Fmt} → {e : Expr T f} → {r : Val T f} → e.Good t r → ∀ i j, r.storesAt i j → e.pos i j
  | .coo, e, r, h, i, j, ⟨v, hv⟩ => GoodO.has (show GoodO t r e.shape.1 e.shape.2 e.denote e.pos e.size from h) i j v hv
  | .csr, e, r, h, i, j, hv => GoodR.has (show GoodR t r e.shape.1 e.shape.2 e.denote e.pos e.size from h) i j hv
  | .csc, e, r, h, i, j, hv =>
    GoodR.has (show GoodR t (CSC.asCSR r) e.shape.2 e.shape.1 (fun i j => e.denote j i) (fun i j => e.pos j i) e.size from h) j i hv

/-- C112: a program of matrix operations stores entries at most where matrix algebra allows a nonzero entry: at the positions
of the operands of a sum, and for a product where a stored entry of the one factor meets one of the other. -/
theorem C112_fill_in {f : Fmt} (e : Expr T f) (hf : e.Fits t) (hb : e.AvoidsCscSubScale) :
    ∃ r, e.eval t = .ok r ∧ r.WF t ∧ ∀ i j, r.storesAt i j → e.pos i j := by
  obtain ⟨r, h1, h2⟩ := e.good hf hb
  refine ⟨r, h1, ?_, h2.storesAt⟩
  obtain ⟨r', h3, h4, -⟩ := C50_compositions_partial e hf hb
  cases h1.symm.trans h3
  exact h4

omit [DecidableEq T] in
theorem Val.entry_of_not_storesAt : {f : Fmt} → (r : Val T f) → (i j : Nat) → ¬ r.storesAt i j → r.entry i j = 0
  | .coo, r, i, j, h => by
    show Coo.entry r i j = 0
    unfold Coo.entry
    rw [List.filter_eq_nil_iff.2]
    · rfl
    · rintro ⟨a, b, v⟩ he h2
      obtain ⟨rfl, rfl⟩ : a = (i : Int) ∧ b = (j : Int) := by simpa using h2
      exact h ⟨v, he⟩
  | .csr, _, _, _, h => CSR.entry_of_not_has h
  | .csc, r, i, j, h => CSR.entry_of_not_has (a := CSC.asCSR r) (i := j) (j := i) h

/-- C112: bands survive. If the program is banded by the rules of `Expr.Banded` — bands of sums unite, bands of products add
up, transposing reverses — then every stored entry of the result lies in the band and the entries outside are zero. -/
theorem C112_band {f : Fmt} (e : Expr T f) (hf : e.Fits t) (hb : e.AvoidsCscSubScale) (l u : Int) (hband : e.Banded l u) :
    ∃ r, e.eval t = .ok r ∧ r.WF t ∧
      (∀ i j : Nat, r.storesAt i j → l ≤ (j : Int) - i ∧ (j : Int) - i ≤ u) ∧
      ∀ i j : Nat, ¬ (l ≤ (j : Int) - i ∧ (j : Int) - i ≤ u) → r.entry i j = 0 := by
  obtain ⟨r, h1, h2, h3⟩ := C112_fill_in e hf hb
  refine ⟨r, h1, h2, fun i j h => hband.pos i j (h3 i j h), fun i j h => ?_⟩
  exact r.entry_of_not_storesAt i j fun h4 => h (hband.pos i j (h3 i j h4))

omit [CommRing T] [DecidableEq T] in
theorem CSR.WF.stored_le_band {a : CSR T} (h : a.WF t) (hd : a.NoDup) {l u : Int} (hb : InBand a.has l u) :
    a.stored ≤ a.rows * (u + 1 - l).toNat := by
  have hrow : ∀ i < a.rows, (a.row i).length ≤ (u + 1 - l).toNat := by
    intro i hi
    have h1 := List.toFinset_card_of_nodup (hd i hi)
    rw [List.length_map] at h1
    rw [← h1]
    have h2 : (((a.row i).map (·.1)).toFinset) ⊆ Finset.Ico (i + l) (i + (u + 1)) := by
      intro x hx
      rw [List.mem_toFinset, List.mem_map] at hx
      obtain ⟨e, he, rfl⟩ := hx
      have h3 := h.mem hi he
      have h4 : ((e.1.toNat : Nat) : Int) = e.1 := by omega
      have := hb i e.1.toNat ⟨e.2, by rw [h4]; exact he⟩
      rw [Finset.mem_Ico]
      omega
    refine (Finset.card_le_card h2).trans ?_
    rw [Int.card_Ico]
    omega
  rw [h.stored_eq]
  unfold flat
  rw [List.length_flatMap]
  have h5 := List.sum_le_card_nsmul ((List.range a.rows).map fun i => (a.row i).length) (u + 1 - l).toNat (by
    intro x hx
    obtain ⟨i, hi, rfl⟩ := List.mem_map.1 hx
    exact hrow i (List.mem_range.1 hi))
  simpa using h5

/-- C112: a banded result of `+`, `-` or `*` in CSR format stores at most one entry per row and diagonal of the band. -/
theorem C112_csr_size (e : Expr T .csr) (he : e.EndsInOperator) (hf : e.Fits t) (hb : e.AvoidsCscSubScale) (l u : Int)
    (hband : e.Banded l u) :
    ∃ r : CSR T, e.eval t = .ok r ∧ r.rows = e.shape.1 ∧ r.stored ≤ e.shape.1 * (u + 1 - l).toNat := by
  obtain ⟨r, h1, h2, h3, -, -, h4, -⟩ := Expr.operator_facts he hf hb
  obtain ⟨r', h5, -, h6, -⟩ := C112_band e hf hb l u hband
  cases h1.symm.trans h5
  exact ⟨r, h1, h3, h3 ▸ h2.stored_le_band h4 h6⟩

/-- C112: the same in CSC format, per column. -/
theorem C112_csc_size (e : Expr T .csc) (he : e.EndsInCscOperator) (hf : e.Fits t) (hb : e.AvoidsCscSubScale) (l u : Int)
    (hband : e.Banded l u) :
    ∃ r : CSC T, e.eval t = .ok r ∧ r.cols = e.shape.2 ∧ r.stored ≤ e.shape.2 * (u + 1 - l).toNat := by
  obtain ⟨r, h1, h2, -, h3, -, h4, -⟩ := Expr.csc_operator_facts he hf hb
  obtain ⟨r', h5, -, h6, -⟩ := C112_band e hf hb l u hband
  cases h1.symm.trans h5
  refine ⟨r, h1, h3, ?_⟩
  have h7 := CSR.WF.stored_le_band (t := t) (a := r.asCSR) h2 h4 (l := -u) (u := -l) (fun i j h => by
    have := h6 j i h
    omega)
  have h8 : (-l + 1 - -u).toNat = (u + 1 - l).toNat := by omega
  rw [h8] at h7
  exact h3 ▸ h7

/-- C112: multiplying `k` copies of a matrix with band `l … u`, in any order, gives the band `k * l … k * u`. -/
theorem C112_power (a : CSR T) (ha : a.WF t) (hsq : a.rows = a.cols) (hf : ((a.rows * a.rows : Nat) : Int) < t.hi) (l u : Int)
    (hband : ∀ i j : Nat, a.has i j → l ≤ (j : Int) - i ∧ (j : Int) - i ≤ u) (p : PowProg) :
    ∃ r, p.run t a = .ok r ∧ r.WF t ∧ r.rows = a.rows ∧ r.cols = a.rows ∧
      ∀ i j : Nat, r.has i j → p.exponent * l ≤ (j : Int) - i ∧ (j : Int) - i ≤ p.exponent * u := by
  induction p with
  | one =>
    obtain ⟨r, h1, h2, -, h3, h4, -, h5, -⟩ := C47_csr_with_diagonal t (List.replicate a.rows (1 : T)) (by
      rw [List.length_replicate]
      have : a.rows ≤ a.rows * a.rows := Nat.le_mul_self _
      omega)
    refine ⟨r, h1, h2, by simpa using h3, by simpa using h4, ?_⟩
    intro i j h
    have hi := (h2.has_bounds h).1
    rw [h3, List.length_replicate] at hi
    obtain ⟨v, hv⟩ := h
    rw [h5 i 1 (by simp [hi])] at hv
    obtain ⟨rfl, -⟩ : j = i ∧ v = 1 := by simpa using hv
    simp [PowProg.exponent]
  | base => exact ⟨a, rfl, ha, rfl, hsq.symm, by simpa [PowProg.exponent] using hband⟩
  | mul p q ihp ihq =>
    obtain ⟨x, x1, x2, x3, x4, x5⟩ := ihp
    obtain ⟨y, y1, y2, y3, y4, y5⟩ := ihq
    obtain ⟨r, -, h1, h2, h3, h4, -, -, -, h5, -⟩ := C13_csr_mat_mat t x y x2 y2 (by omega) (by
      have := C13_slots_le x y
      rw [x3, y4] at this
      omega)
    refine ⟨r, ?_, h2, by omega, by omega, ?_⟩
    · simp only [PowProg.run, x1, y1]
      exact h1
    · intro i k h
      obtain ⟨⟨j, h6, h7⟩, -⟩ := (h5 i (by have := (h2.has_bounds h).1; omega) k).1 h
      have := x5 i j h6
      have := y5 j k h7
      simp only [PowProg.exponent]
      push_cast
      rw [add_mul, add_mul]
      omega

/-- C112: a product of two matrices with nothing stored below the diagonal stores nothing below the diagonal, and its diagonal
is the product of the diagonals. -/
theorem C112_triangular (a b : CSR T) (ha : a.WF t) (hb : b.WF t) (hd : a.cols = b.rows)
    (hf : ((a.rows * b.cols : Nat) : Int) < t.hi) (ua : ∀ i j, a.has i j → i ≤ j) (ub : ∀ i j, b.has i j → i ≤ j) :
    ∃ r, a.mul t b = .ok r ∧ r.WF t ∧ (∀ i j, r.has i j → i ≤ j) ∧ ∀ i, r.entry i i = a.entry i i * b.entry i i := by
  obtain ⟨r, -, h1, h2, h3, h4, h6, -, -, h5, -⟩ := C13_csr_mat_mat t a b ha hb hd (by
    have := C13_slots_le a b
    omega)
  refine ⟨r, h1, h2, ?_, ?_⟩
  · intro i k h
    obtain ⟨⟨j, h6, h7⟩, -⟩ := (h5 i (by have := (h2.has_bounds h).1; omega) k).1 h
    have := ua i j h6
    have := ub j k h7
    omega
  · intro i
    rw [h6]
    rw [Finset.sum_eq_single i]
    · intro j _ hj
      rcases Nat.lt_or_ge j i with hlt | hge
      · rw [CSR.entry_of_not_has (a := a) fun h => by have := ua _ _ h; omega, zero_mul]
      · rw [CSR.entry_of_not_has (a := b) (i := j) (j := i) fun h => by have := ub _ _ h; omega, mul_zero]
    · intro hi
      rw [CSR.entry_of_not_has (a := a) fun h => by have := (ha.has_bounds h).2; exact hi (Finset.mem_range.2 this), zero_mul]

omit [CommRing T] [DecidableEq T] in
theorem CSR.WF.inBand {a : CSR T} (h : a.WF t) {l u : Int} (hb : ∀ i < a.rows, ∀ e ∈ a.row i, l ≤ e.1 - i ∧ e.1 - i ≤ u) :
    InBand a.has l u := fun i j hh => by
  obtain ⟨v, hv⟩ := hh
  exact hb i (h.has_bounds ⟨v, hv⟩).1 _ hv

/-- the tridiagonal matrix of the examples, with an unsorted row and a stored zero -/
def tridiagonal : CSR Int :=
  ⟨3, 3, [0, 2, 5, 7], [0, 1, 2, 0, 1, 1, 2], [2, -1, 0, -1, 2, -1, 2]⟩

/-- `C112_fill_in`, `C112_band`, `C112_csr_size`: `A * Aᵀ + A` of a tridiagonal matrix is pentadiagonal; the band is reached -/
example : ∃ e : Expr Int .csr, e.EndsInOperator ∧ e.Fits .i8 ∧ e.AvoidsCscSubScale ∧ e.Banded (-2) 2 ∧ ¬ e.Banded (-1) 1 ∧
    e.denote 0 2 ≠ 0 := by
  have w : tridiagonal.WF .i8 := CSR.wf_of (by decide)
  have ha : (Expr.csr tridiagonal).Fits .i8 := ⟨w, by decide, by decide, by decide, by decide⟩
  have hb : InBand tridiagonal.has (-1) 1 := w.inBand (by decide)
  have hb' : InBand tridiagonal.has (-1) (- -1) := by rw [neg_neg]; exact hb
  refine ⟨.csrAdd (.csrMul (.csr tridiagonal) (.cscToCsr (.csrT (.csr tridiagonal)))) (.csr tridiagonal), .add _ _, ?_, ?_, ?_, ?_, ?_⟩
  · refine ⟨⟨ha, ha, rfl, ?_⟩, ha, rfl, ?_⟩
    · exact lt_of_le_of_lt (Int.ofNat_le.2 (count_le 3 3)) (by decide)
    · exact lt_of_le_of_lt (Int.ofNat_le.2 (Nat.add_le_add_right (count_le 3 3) _)) (by decide)
  · exact ⟨⟨trivial, trivial⟩, trivial⟩
  · exact ⟨⟨-1, 1, -1, 1, hb, hb', by decide, by decide⟩, fun i j h => by have := hb i j h; omega⟩
  · rintro ⟨⟨l1, u1, l2, u2, h1, h2, h3, h4⟩, -⟩
    have h5 := (h1 0 1 ⟨-1, by decide⟩).2
    have h6 := (h2 2 1 ⟨-1, by decide⟩)
    omega
  · decide

/-- `C112_csc_size`: the same in CSC format -/
example : ∃ e : Expr Int .csc, e.EndsInCscOperator ∧ e.Fits .i8 ∧ e.AvoidsCscSubScale ∧ e.Banded (-2) 2 ∧ e.denote 0 2 ≠ 0 := by
  have w : tridiagonal.WF .i8 := CSR.wf_of (by decide)
  have ha : (Expr.csr tridiagonal).Fits .i8 := ⟨w, by decide, by decide, by decide, by decide⟩
  have hb : InBand tridiagonal.has (-1) 1 := w.inBand (by decide)
  have hb' : InBand tridiagonal.has (-1) (- -1) := by rw [neg_neg]; exact hb
  refine ⟨.cscMul (.csrToCsc (.csr tridiagonal)) (.csrT (.csr tridiagonal)), .mul _ _, ?_, ?_, ?_, ?_⟩
  · exact ⟨ha, ha, rfl, lt_of_le_of_lt (Int.ofNat_le.2 (count_le 3 3)) (by decide)⟩
  · exact ⟨trivial, trivial⟩
  · exact ⟨-1, 1, -1, 1, hb, hb', by decide, by decide⟩
  · decide

/-- `C112_power`: the tridiagonal matrix meets the hypotheses -/
example : tridiagonal.WF .i8 ∧ tridiagonal.rows = tridiagonal.cols ∧ ((tridiagonal.rows * tridiagonal.rows : Nat) : Int) < IntTy.i8.hi ∧
    (∀ i j : Nat, tridiagonal.has i j → -1 ≤ (j : Int) - i ∧ (j : Int) - i ≤ 1) ∧ (PowProg.mul .base .base).exponent = 2 :=
  have w : tridiagonal.WF .i8 := CSR.wf_of (by decide)
  ⟨w, rfl, by decide, w.inBand (by decide), rfl⟩

/-- `C112_triangular`: an upper triangular matrix with an unsorted row and a position stored twice -/
example : ∃ a : CSR Int, a.WF .i8 ∧ a.cols = a.rows ∧ ((a.rows * a.cols : Nat) : Int) < IntTy.i8.hi ∧
    (∀ i j, a.has i j → i ≤ j) ∧ a.entry 0 0 = 5 ∧ a.entry 0 1 = 3 ∧ a.entry 1 1 = 7 :=
  have w : CSR.WF .i8 (⟨2, 2, [0, 3, 4], [1, 0, 0, 1], [3, 2, 3, 7]⟩ : CSR Int) := CSR.wf_of (by decide)
  ⟨_, w, rfl, by decide, fun i j h => by have := w.inBand (l := 0) (u := 2) (by decide) i j h; omega, by decide, by decide, by decide⟩

end
end Sparse

import Verif.Props.RoundProg
import Verif.Props.ColumnLaws
import Verif.Lemmas.UsizeCsc
/-!
C110 for the column format: rounding errors of whole programs of CSC matrices. Differences are left out (the operator is wrong, C19);
multiples are computed on the transposed matrix (the operator of the column format is wrong, C20).
-/
open scoped BigOperators
namespace Sparse

/-- A program of CSC matrices: given matrices, sums, products, multiples. -/
inductive FProgC (F : Type)
  | given (a : CSC F)
  | add (p q : FProgC F)
  | mul (p q : FProgC F)
  | scale (p : FProgC F) (s : F)

namespace FProgC
variable {F K : Type}

/-- number of rows of the result -/
def rows : FProgC F → Nat
  | given a => a.rows
  | add p _ => p.rows
  | mul p _ => p.rows
  | scale p _ => p.rows

/-- number of columns of the result -/
def cols : FProgC F → Nat
  | given a => a.cols
  | add p _ => p.cols
  | mul _ q => q.cols
  | scale p _ => p.cols

/-- The given matrices are valid and store no position twice, the shapes fit, and the number of cells of every result (twice, for
sums) fits the index type. -/
def Fits (t : IntTy) : FProgC F → Prop
  | given a => a.WF t ∧ a.NoDup
  | add p q => p.Fits t ∧ q.Fits t ∧ q.rows = p.rows ∧ q.cols = p.cols ∧ ((2 * (p.rows * p.cols) : Nat) : Int) < t.hi
  | mul p q => p.Fits t ∧ q.Fits t ∧ p.cols = q.rows ∧ ((p.rows * q.cols : Nat) : Int) ≤ t.hi
  | scale p _ => p.Fits t

/-- The program run with the operators of the crate. -/
def run [Zero F] [Add F] [Mul F] [BEq F] (t : IntTy) : FProgC F → M (CSC F)
  | given a => .ok a
  | add p q => do (← p.run t).add_op t (← q.run t)
  | mul p q => do (← p.run t).mul t (← q.run t)
  | scale p s => do (← (← (← p.run t).transpose).mul_scalar s).transpose

/-- all the values stored in a result are finite -/
def finiteResult (fin : F → Prop) (m : M (CSC F)) : Prop := ∀ r, m = .ok r → ∀ i j, ∀ v ∈ r.valuesAt i j, fin v

/-- no intermediate result overflows -/
def Finite [Zero F] [Add F] [Mul F] [BEq F] (t : IntTy) (fin : F → Prop) : FProgC F → Prop
  | given _ => True
  | add p q => p.Finite t fin ∧ q.Finite t fin ∧ finiteResult fin ((add p q).run t)
  | mul p q => p.Finite t fin ∧ q.Finite t fin ∧ finiteResult fin ((mul p q).run t)
  | scale p s => p.Finite t fin ∧ finiteResult fin ((scale p s).run t)

section
variable [Field K] [LinearOrder K]

/-- the exact result -/
def exactly (val : F → K) : FProgC F → Nat → Nat → K
  | given a => fun i j => exact val (a.valuesAt i j)
  | add p q => fun i j => p.exactly val i j + q.exactly val i j
  | mul p q => fun i j => ∑ k ∈ Finset.range p.cols, p.exactly val i k * q.exactly val k j
  | scale p s => fun i j => p.exactly val i j * val s

/-- the exact result for the absolute values -/
def absolute (val : F → K) : FProgC F → Nat → Nat → K
  | given a => fun i j => |exact val (a.valuesAt i j)|
  | add p q => fun i j => p.absolute val i j + q.absolute val i j
  | mul p q => fun i j => ∑ k ∈ Finset.range p.cols, p.absolute val i k * q.absolute val k j
  | scale p s => fun i j => p.absolute val i j * |val s|

/-- the error bound: the errors of the operands carried on, plus the error of the operation on values of at most
`absolute + bound` -/
def bound (val : F → K) (u η : K) : FProgC F → Nat → Nat → K
  | given _ => fun _ _ => 0
  | add p q => fun i j => p.bound val u η i j + q.bound val u η i j +
      u * (p.absolute val i j + p.bound val u η i j + (q.absolute val i j + q.bound val u η i j))
  | mul p q => fun i j => ∑ k ∈ Finset.range p.cols, (p.absolute val i k * q.bound val u η k j +
        p.bound val u η i k * (q.absolute val k j + q.bound val u η k j)) +
      errBound u η p.cols (∑ k ∈ Finset.range p.cols, (p.absolute val i k + p.bound val u η i k) *
        (q.absolute val k j + q.bound val u η k j))
  | scale p s => fun i j => p.bound val u η i j * |val s| + (u * ((p.absolute val i j + p.bound val u η i j) * |val s|) + η)
end

/-- the number of roundings on the longest way to a value -/
def depth : FProgC F → Nat
  | given _ => 0
  | add p q => max p.depth q.depth + 1
  | mul p q => p.depth + q.depth + p.cols
  | scale p _ => p.depth + 1

/-- the same program on the transposed matrices -/
def mirror : FProgC F → FProg F
  | given a => .given a.asCSR
  | add p q => .add p.mirror q.mirror
  | mul p q => .mul q.mirror p.mirror
  | scale p s => .scale p.mirror s

theorem mirror_rows (p : FProgC F) : p.mirror.rows = p.cols := by
  induction p with
  | given a => rfl
  | add p q hp _ => exact hp
  | mul p q _ hq => exact hq
  | scale p s hp => exact hp

theorem mirror_cols (p : FProgC F) : p.mirror.cols = p.rows := by
  induction p with
  | given a => rfl
  | add p q hp _ => exact hp
  | mul p q hp _ => exact hp
  | scale p s hp => exact hp

theorem mirror_fits (t : IntTy) (p : FProgC F) (h : p.Fits t) : p.mirror.Fits t := by
  induction p with
  | given a => exact h
  | add p q hp hq =>
    obtain ⟨h1, h2, h3, h4, h5⟩ := h
    refine ⟨hp h1, hq h2, ?_, ?_, ?_⟩
    · rw [mirror_rows, mirror_rows, h4]
    · rw [mirror_cols, mirror_cols, h3]
    · rw [mirror_rows, mirror_cols, Nat.mul_comm p.cols]; exact h5
  | mul p q hp hq =>
    obtain ⟨h1, h2, h3, h4⟩ := h
    refine ⟨hq h2, hp h1, ?_, ?_⟩
    · rw [mirror_rows, mirror_cols, h3]
    · rw [mirror_rows, mirror_cols, Nat.mul_comm]; exact h4
  | scale p s hp => exact hp h

theorem mirror_run [Zero F] [Add F] [Sub F] [Mul F] [BEq F] (t : IntTy) (p : FProgC F) (h : p.Fits t) {r : CSR F} (hr : p.mirror.run t = .ok r) :
    p.run t = .ok r.flip ∧ r.Checked := by
  induction p generalizing r with
  | given a => cases hr; exact ⟨rfl, CSR.WF.checked h.1⟩
  | add p q hp hq =>
    obtain ⟨x, hx, hr⟩ := bind_okM hr
    obtain ⟨y, hy, hr⟩ := bind_okM hr
    obtain ⟨x1, x2⟩ := hp h.1 hx
    obtain ⟨y1, y2⟩ := hq h.2.1 hy
    obtain ⟨g1, g2⟩ := (Twins.add t x y x2 y2).right hr
    refine ⟨?_, g2⟩
    show (do (← p.run t).add_op t (← q.run t)) = _
    rw [x1, y1]
    exact g1
  | mul p q hp hq =>
    obtain ⟨y, hy, hr⟩ := bind_okM hr
    obtain ⟨x, hx, hr⟩ := bind_okM hr
    obtain ⟨x1, x2⟩ := hp h.1 hx
    obtain ⟨y1, y2⟩ := hq h.2.1 hy
    obtain ⟨g1, g2⟩ := (Twins.mul t y x).right hr
    refine ⟨?_, g2⟩
    show (do (← p.run t).mul t (← q.run t)) = _
    rw [x1, y1]
    exact g1
  | scale p s hp =>
    obtain ⟨x, hx, hr⟩ := bind_okM hr
    obtain ⟨x1, x2⟩ := hp h hx
    have e1 : x.flip.transpose = .ok x := by
      unfold CSC.transpose
      exact congrArg unwrapR x2.new
    have e2 : r.Checked := by
      unfold CSR.mul_scalar at hr
      exact (CSR.new_checked (unwrapR_okM hr)).2
    refine ⟨?_, e2⟩
    show (do (← (← (← p.run t).transpose).mul_scalar s).transpose) = _
    rw [x1]
    show (do (← (← x.flip.transpose).mul_scalar s).transpose) = _
    rw [e1]
    show (do (← x.mul_scalar s).transpose) = _
    rw [hr]
    exact e2.transpose

theorem mirror_finite [Zero F] [Add F] [Sub F] [Mul F] [BEq F] (t : IntTy) (fin : F → Prop) (p : FProgC F) (h : p.Fits t) (hf : p.Finite t fin) :
    p.mirror.Finite t fin := by
  have key : ∀ p : FProgC F, p.Fits t → finiteResult fin (p.run t) → FProg.finiteResult fin (p.mirror.run t) := fun p h hp r hr i j v hv =>
    hp r.flip (p.mirror_run t h hr).1 j i v hv
  induction p with
  | given a => trivial
  | add p q hp hq => exact ⟨hp h.1 hf.1, hq h.2.1 hf.2.1, key (add p q) h hf.2.2⟩
  | mul p q hp hq => exact ⟨hq h.2.1 hf.2.1, hp h.1 hf.1, key (mul p q) h hf.2.2⟩
  | scale p s hp => exact ⟨hp h hf.1, key (scale p s) h hf.2⟩

section
variable [Field K] [LinearOrder K]

omit [LinearOrder K] in
theorem mirror_exactly (val : F → K) (t : IntTy) (p : FProgC F) (h : p.Fits t) (i j : Nat) : p.mirror.exactly val j i = p.exactly val i j := by
  induction p generalizing i j with
  | given a => rfl
  | add p q hp hq => exact congrArg₂ (· + ·) (hp h.1 i j) (hq h.2.1 i j)
  | mul p q hp hq =>
    show ∑ k ∈ Finset.range q.mirror.cols, q.mirror.exactly val j k * p.mirror.exactly val k i = ∑ k ∈ Finset.range p.cols, p.exactly val i k * q.exactly val k j
    rw [mirror_cols, ← h.2.2.1]
    exact Finset.sum_congr rfl fun k _ => by rw [hp h.1, hq h.2.1, mul_comm]
  | scale p s hp => exact congrArg (· * val s) (hp h i j)

theorem mirror_absolute (val : F → K) (t : IntTy) (p : FProgC F) (h : p.Fits t) (i j : Nat) : p.mirror.absolute val j i = p.absolute val i j := by
  induction p generalizing i j with
  | given a => rfl
  | add p q hp hq => exact congrArg₂ (· + ·) (hp h.1 i j) (hq h.2.1 i j)
  | mul p q hp hq =>
    show ∑ k ∈ Finset.range q.mirror.cols, q.mirror.absolute val j k * p.mirror.absolute val k i = ∑ k ∈ Finset.range p.cols, p.absolute val i k * q.absolute val k j
    rw [mirror_cols, ← h.2.2.1]
    exact Finset.sum_congr rfl fun k _ => by rw [hp h.1, hq h.2.1, mul_comm]
  | scale p s hp => exact congrArg (· * |val s|) (hp h i j)

theorem mirror_bound (val : F → K) (u η : K) (t : IntTy) (p : FProgC F) (h : p.Fits t) (i j : Nat) :
    p.mirror.bound val u η j i = p.bound val u η i j := by
  induction p generalizing i j with
  | given a => rfl
  | add p q hp hq =>
    simp only [mirror, FProg.bound, bound, hp h.1, hq h.2.1, mirror_absolute val t p h.1, mirror_absolute val t q h.2.1]
  | mul p q hp hq =>
    simp only [mirror, FProg.bound, bound, hp h.1, hq h.2.1, mirror_absolute val t p h.1, mirror_absolute val t q h.2.1, mirror_cols, ← h.2.2.1]
    congr 1
    · exact Finset.sum_congr rfl fun k _ => by ring
    · congr 1
      exact Finset.sum_congr rfl fun k _ => by ring
  | scale p s hp =>
    simp only [mirror, FProg.bound, bound, hp h, mirror_absolute val t p h]

theorem mirror_depth (t : IntTy) (p : FProgC F) (h : p.Fits t) : p.mirror.depth = p.depth := by
  induction p with
  | given a => rfl
  | add p q hp hq => simp only [mirror, FProg.depth, depth, hp h.1, hq h.2.1]
  | mul p q hp hq =>
    simp only [mirror, FProg.depth, depth, hp h.1, hq h.2.1, mirror_cols, ← h.2.2.1]
    omega
  | scale p s hp => simp only [mirror, FProg.depth, depth, hp h]
end

end FProgC

section
variable {F K : Type} [Field K] [LinearOrder K] [IsStrictOrderedRing K]
variable {val : F → K} {fin : F → Prop} {u η : K}
variable [Zero F] [Add F] [Sub F] [Mul F] [BEq F]

/-- C110, column format: the error of every entry of the result of a program. -/
theorem C110_csc_bound (h : FloatLaws val fin u η) (t : IntTy) (p : FProgC F) (hp : p.Fits t) :
    ∃ r, p.run t = .ok r ∧ r.WF t ∧ r.NoDup ∧ r.rows = p.rows ∧ r.cols = p.cols ∧
      (p.Finite t fin → ∀ i < p.rows, ∀ j < p.cols,
        |exact val (r.valuesAt i j) - p.exactly val i j| ≤ p.bound val u η i j) := by
  obtain ⟨r, r1, r2, r3, r4, r5, r6⟩ := C110_bound h t p.mirror (p.mirror_fits t hp)
  rw [p.mirror_rows] at r4 r6
  rw [p.mirror_cols] at r5 r6
  refine ⟨r.flip, (p.mirror_run t hp r1).1, r2, r3, r5, r4, fun hf i hi j hj => ?_⟩
  have := r6 (p.mirror_finite t fin hp hf) j hj i hi
  rwa [p.mirror_exactly val t hp, p.mirror_bound val u η t hp] at this

/-- C110, column format: without underflow, relative to the result for the absolute values. -/
theorem C110_csc_relative (h : FloatLaws val fin u 0) (t : IntTy) (p : FProgC F) (hp : p.Fits t) (hf : p.Finite t fin) :
    ∃ r, p.run t = .ok r ∧ r.rows = p.rows ∧ r.cols = p.cols ∧ ∀ i < p.rows, ∀ j < p.cols,
      |exact val (r.valuesAt i j) - p.exactly val i j| ≤ ((1 + u) ^ p.depth - 1) * p.absolute val i j := by
  obtain ⟨r, r1, r4, r5, r6⟩ := C110_relative h t p.mirror (p.mirror_fits t hp) (p.mirror_finite t fin hp hf)
  rw [p.mirror_rows] at r4 r6
  rw [p.mirror_cols] at r5 r6
  refine ⟨r.flip, (p.mirror_run t hp r1).1, r5, r4, fun i hi j hj => ?_⟩
  have := r6 j hj i hi
  rwa [p.mirror_exactly val t hp, p.mirror_absolute val t hp, p.mirror_depth t hp] at this

theorem FProgC.finite_of {m : M (CSC F)} {r : CSC F} (hm : m = .ok r) (h : ∀ v ∈ r.values, fin v) : FProgC.finiteResult fin m := by
  intro r' hr i j v hv
  obtain rfl : r = r' := by rw [hm] at hr; exact Except.ok.inj hr
  exact FProg.finite_of (m := .ok r.asCSR) rfl h r.asCSR rfl j i v hv

end

/-- two significant bits: `(A + A) * (A * 3)` with `A = (3 1; 0 2)` -/
def exRoundC : CSC (Chopped 1 64) := ⟨2, 2, [0, 0, 1], [0, 1, 3], [.round 3, .round 1, .round 2]⟩
def exRoundProgC : FProgC (Chopped 1 64) := .mul (.add (.given exRoundC) (.given exRoundC)) (.scale (.given exRoundC) (.round 3))

def exRoundSumC : CSC (Chopped 1 64) := ⟨2, 2, [0, 0, 1, 0, 0, 0], [0, 1, 3], [.round 6, .round 2, .round 4, 0, 0, 0]⟩
def exRoundScaledC : CSC (Chopped 1 64) := ⟨2, 2, [0, 0, 1], [0, 1, 3], [.round 8, .round 3, .round 6]⟩
def exRoundResultC : CSC (Chopped 1 64) := ⟨2, 2, [0, 1, 0], [0, 1, 3], [.round 48, .round 24, .round 24]⟩

/-- 3 * 3 = 9 is rounded to 8 and 6 * 3 + 2 * 6 = 30 to 24 -/
example : exRoundProgC.Fits .u8 ∧ exRoundProgC.depth = 4 ∧ exRoundProgC.Finite .u8 Chopped.Fin ∧ exRoundProgC.run .u8 = .ok exRoundResultC :=
  ⟨⟨⟨⟨CSC.wf_of (by decide), by unfold CSC.NoDup; decide⟩, ⟨CSC.wf_of (by decide), by unfold CSC.NoDup; decide⟩, rfl, rfl, by decide⟩,
    ⟨CSC.wf_of (by decide), by unfold CSC.NoDup; decide⟩, rfl, by decide⟩, rfl,
    ⟨⟨trivial, trivial, FProgC.finite_of (r := exRoundSumC) (by decide +kernel) (by decide +kernel)⟩,
      ⟨trivial, FProgC.finite_of (r := exRoundScaledC) (by decide +kernel) (by decide +kernel)⟩,
      FProgC.finite_of (r := exRoundResultC) (by decide +kernel) (by decide +kernel)⟩, by decide +kernel⟩

end Sparse

import Verif.SpecExact
import Mathlib.Algebra.Order.Field.Basic
import Mathlib.Algebra.Order.AbsoluteValue.Basic
import Mathlib.Algebra.BigOperators.Group.Finset.Basic
/-!
Rounding errors (C78). `F` is the type of floating-point numbers, infinities and NaN included, `K` an ordered field (the
real numbers), `val` the number that a finite element of `F` stands for.
-/
namespace Sparse
variable {F K : Type} [Field K] [LinearOrder K] [IsStrictOrderedRing K]

/-- What is assumed of floating-point arithmetic: a finite result has finite operands and a relative error of at most `u`
(the unit round-off); products have an additional absolute error of at most `η` (underflow); adding to zero is exact; a
number that compares equal to zero is zero. IEEE 754 binary64 with rounding to nearest has `u = 2⁻⁵³`, `η = 2⁻¹⁰⁷⁵`. -/
structure FloatLaws [Zero F] [Add F] [Sub F] [Mul F] [BEq F] (val : F → K) (fin : F → Prop) (u η : K) : Prop where
  u_nonneg : 0 ≤ u
  eta_nonneg : 0 ≤ η
  zero_val : val 0 = 0
  add_err : ∀ x y, fin (x + y) → fin x ∧ fin y ∧ |val (x + y) - (val x + val y)| ≤ u * |val x + val y|
  sub_err : ∀ x y, fin (x - y) → fin x ∧ fin y ∧ |val (x - y) - (val x - val y)| ≤ u * |val x - val y|
  mul_err : ∀ x y, fin (x * y) → fin x ∧ fin y ∧ |val (x * y) - val x * val y| ≤ u * |val x * val y| + η
  zero_add : ∀ x, fin (0 + x) → val (0 + x) = val x
  eq_zero : ∀ x, (x == 0) = true → fin x ∧ val x = 0

/-- the exact sum of the numbers in a list -/
def exact (val : F → K) (l : List F) : K := (l.map val).sum
/-- the exact sum of the absolute values of the numbers in a list -/
def mag (val : F → K) (l : List F) : K := (l.map fun v => |val v|).sum

/-- the usual error bound of `n` operations on terms whose absolute values have the sum `s` -/
def errBound (u η : K) (n : Nat) (s : K) : K := ((1 + u) ^ n - 1) * s + n * (1 + u) ^ n * η

/-- the error bound of an element-wise operation with the exact result `e`: one rounding if both operands are canonical,
otherwise as many as the larger number of values stored at the position -/
noncomputable def elementBound (val : F → K) (u : K) (canonical : Prop) (e : K) (la lb : List F) : K :=
  open Classical in
  if canonical then u * |e| else ((1 + u) ^ max la.length lb.length - 1) * (mag val la + mag val lb)

/-- `A` is the `m × n` dense array of the sums of the lists `l i j`, with one rounding less than terms in each sum -/
def DenseUpTo (val : F → K) (fin : F → Prop) (u : K) (m n : Nat) (l : Nat → Nat → List F) (A : List (List F)) : Prop :=
  A.length = m ∧ ∀ i row, A[i]? = some row → row.length = n ∧ ∀ j v, row[j]? = some v → fin v →
    |val v - exact val (l i j)| ≤ ((1 + u) ^ ((l i j).length - 1) - 1) * mag val (l i j)

end Sparse

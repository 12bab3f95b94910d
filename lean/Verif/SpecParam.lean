import Verif.SpecWrap
import Mathlib.Algebra.Ring.PUnit
/-!
Changing the scalars of a program (C86, C87). Nothing is assumed of the arithmetic of the scalars: `run` is `eval` of
SpecExpr with bare operations `0 1 + - * neg !=` in the place of a commutative ring.
-/
namespace Sparse

variable {T T' : Type}

/-- `φ` preserves whatever the crate does with scalars; `!= 0` is its only test -/
structure ScalarMap [Zero T] [One T] [Add T] [Sub T] [Neg T] [Mul T] [BEq T]
    [Zero T'] [One T'] [Add T'] [Sub T'] [Neg T'] [Mul T'] [BEq T'] (φ : T → T') : Prop where
  zero : φ 0 = 0
  one : φ 1 = 1
  add : ∀ x y, φ (x + y) = φ x + φ y
  sub : ∀ x y, φ (x - y) = φ x - φ y
  neg : ∀ x, φ (-x) = -φ x
  mul : ∀ x y, φ (x * y) = φ x * φ y
  ne_zero : ∀ x, (φ x != 0) = (x != 0)

/-- the same matrix with each stored value replaced -/
def Val.mapValues (φ : T → T') : {f : Fmt} → Val T f → Val T' f
  | .coo, a => Coo.mapValues φ a
  | .csr, a => CSR.mapValues φ a
  | .csc, a => CSC.mapValues φ a

/-- what is left of a matrix without its values: shape, index arrays and number of values -/
def Val.pattern {f : Fmt} (a : Val T f) : Val Unit f := Val.mapValues (fun _ => ()) a

namespace Expr

/-- what is left of a program without the values in it -/
def pattern {f : Fmt} (e : Expr T f) : Expr Unit f := e.mapValues fun _ => ()

/-- the program uses no operation that drops entries because they are zero: no `from_dense`, no element-wise
operator of CSR or CSC, no matrix product -/
def Rigid : {f : Fmt} → Expr T f → Prop
  | _, coo _ => True
  | _, csr _ => True
  | _, csc _ => True
  | _, cooDiag _ => True
  | _, csrDiag _ => True
  | _, cscDiag _ => True
  | _, cooEye _ => True
  | _, cooZero _ _ => True
  | _, csrZero _ _ => True
  | _, cooDense _ => False
  | _, csrDense _ => False
  | _, cscDense _ => False
  | _, cooToCsr e => e.Rigid
  | _, cooToCsc e => e.Rigid
  | _, csrToCoo e => e.Rigid
  | _, csrToCsc e => e.Rigid
  | _, cscToCoo e => e.Rigid
  | _, cscToCsr e => e.Rigid
  | _, cooT e => e.Rigid
  | _, csrT e => e.Rigid
  | _, cscT e => e.Rigid
  | _, cooNeg e => e.Rigid
  | _, csrNeg e => e.Rigid
  | _, cscNeg e => e.Rigid
  | _, cooAdd e f => e.Rigid ∧ f.Rigid
  | _, csrAdd _ _ => False
  | _, csrSub _ _ => False
  | _, cscAdd _ _ => False
  | _, cscSub _ _ => False
  | _, cscAddMethod _ _ => False
  | _, cscSubMethod _ _ => False
  | _, csrMul _ _ => False
  | _, cscMul _ _ => False
  | _, cscMulCsr _ _ => False
  | _, csrScale e _ => e.Rigid
  | _, csrScaleL _ e => e.Rigid
  | _, cscScale e _ => e.Rigid
  | _, cscScaleL _ e => e.Rigid
  | _, csrSort e => e.Rigid
  | _, cscSort e => e.Rigid
  | _, csrSum e => e.Rigid
  | _, cscSum e => e.Rigid
  | _, cooUpper e _ => e.Rigid
  | _, cooV e f => e.Rigid ∧ f.Rigid
  | _, cooV3 e f g => e.Rigid ∧ f.Rigid ∧ g.Rigid
  | _, cooH e f => e.Rigid ∧ f.Rigid
  | _, cooH3 e f g => e.Rigid ∧ f.Rigid ∧ g.Rigid
  | _, csrH e f => e.Rigid ∧ f.Rigid
  | _, cooBlock e f g h => e.Rigid ∧ f.Rigid ∧ g.Rigid ∧ h.Rigid
  | _, cscBlock e f g h => e.Rigid ∧ f.Rigid ∧ g.Rigid ∧ h.Rigid
  | _, csrSelect e _ _ => e.Rigid
  | _, cscSelect e _ _ => e.Rigid

section
variable [Zero T] [One T] [Add T] [Sub T] [Neg T] [Mul T] [BEq T]
/-- evaluation by the operations of the crate, innermost first, left operand first -/
def run (t : IdxTy) : {f : Fmt} → Expr T f → M (Val T f)
  | _, coo a => .ok a
  | _, csr a => .ok a
  | _, csc a => .ok a
  | _, cooDiag d => Coo.with_diagonal t d
  | _, csrDiag d => CSR.with_diagonal t d
  | _, cscDiag d => CSC.with_diagonal t d
  | _, cooEye n => Coo.identity t n
  | _, cooZero m n => .ok (Coo.with_size m n)
  | _, csrZero m n => .ok (CSR.with_size m n)
  | _, cooDense A => Coo.from_dense t A
  | _, csrDense A => CSR.from_dense t A
  | _, cscDense A => CSC.from_dense t A
  | _, cooToCsr e => do let a ← e.run t; Coo.to_csr t a
  | _, cooToCsc e => do let a ← e.run t; Coo.to_csc t a
  | _, csrToCoo e => do let a ← e.run t; CSR.to_coo t a
  | _, csrToCsc e => do let a ← e.run t; CSR.to_csc t a
  | _, cscToCoo e => do let a ← e.run t; CSC.to_coo t a
  | _, cscToCsr e => do let a ← e.run t; CSC.to_csr t a
  | _, cooT e => do let a ← e.run t; pure (Coo.transpose a)
  | _, csrT e => do let a ← e.run t; CSR.transpose a
  | _, cscT e => do let a ← e.run t; CSC.transpose a
  | _, cooNeg e => do let a ← e.run t; Coo.neg a
  | _, csrNeg e => do let a ← e.run t; CSR.neg a
  | _, cscNeg e => do let a ← e.run t; CSC.neg a
  | _, cooAdd e f => do let a ← e.run t; let b ← f.run t; Coo.add t a b
  | _, csrAdd e f => do let a ← e.run t; let b ← f.run t; CSR.add t a b
  | _, csrSub e f => do let a ← e.run t; let b ← f.run t; CSR.sub t a b
  | _, cscAdd e f => do let a ← e.run t; let b ← f.run t; CSC.add_op t a b
  | _, cscSub e f => do let a ← e.run t; let b ← f.run t; CSC.sub_op t a b
  | _, cscAddMethod e f => do let a ← e.run t; let b ← f.run t; CSC.add t a b
  | _, cscSubMethod e f => do let a ← e.run t; let b ← f.run t; CSC.subtract t a b
  | _, csrMul e f => do let a ← e.run t; let b ← f.run t; CSR.mul t a b
  | _, cscMul e f => do let a ← e.run t; let b ← f.run t; CSC.mul t a b
  | _, cscMulCsr e f => do let a ← e.run t; let b ← f.run t; CSC.mul_csr t a b
  | _, csrScale e s => do let a ← e.run t; CSR.mul_scalar a s
  | _, csrScaleL s e => do let a ← e.run t; CSR.scalar_mul s a
  | _, cscScale e s => do let a ← e.run t; CSC.mul_scalar a s
  | _, cscScaleL s e => do let a ← e.run t; CSC.scalar_mul s a
  | _, csrSort e => do let a ← e.run t; CSR.sort_indexes a
  | _, cscSort e => do let a ← e.run t; CSC.sort_indexes a
  | _, csrSum e => do let a ← e.run t; CSR.sum_duplicates t a
  | _, cscSum e => do let a ← e.run t; CSC.sum_duplicates t a
  | _, cooUpper e k => do let a ← e.run t; Coo.upper t a k
  | _, cooV e f => do let a ← e.run t; let b ← f.run t; Coo.v_stack t a b
  | _, cooV3 e f g => do let a ← e.run t; let b ← f.run t; let c ← g.run t; Coo.v_stack3 t a b c
  | _, cooH e f => do let a ← e.run t; let b ← f.run t; Coo.h_stack t a b
  | _, cooH3 e f g => do let a ← e.run t; let b ← f.run t; let c ← g.run t; Coo.h_stack3 t a b c
  | _, csrH e f => do let a ← e.run t; let b ← f.run t; CSR.h_stack t a b
  | _, cooBlock e f g h => do
    let a ← e.run t; let b ← f.run t; let c ← g.run t; let d ← h.run t; Coo.compose t a b c d
  | _, cscBlock e f g h => do
    let a ← e.run t; let b ← f.run t; let c ← g.run t; let d ← h.run t; CSC.compose t a b c d
  | _, csrSelect e ri ci => do let a ← e.run t; let b ← CSR.sum_duplicates t a; CSR.select t b ri ci
  | _, cscSelect e ri ci => do let a ← e.run t; let b ← CSC.sum_duplicates t a; CSC.select t b ri ci
end

end Expr
end Sparse

import Verif.SpecWiden
import Verif.Model.Scalar
/-!
Integer scalars (C75): evaluation of an expression with scalar operations that may panic, and the relation
between such operations and exact arithmetic.
-/
namespace Sparse
section
variable {T : Type}

/-- the first call has the same outcome as the second, or it panics because a number is not representable -/
def SameOrArith {α : Type} (m m' : M α) : Prop := m = m' ∨ m = .error (.panic .arith)

/-- the call returns a result as described, or panics because a number is not representable -/
def OrOverflows {α : Type} (m : M α) (P : α → Prop) : Prop := (∃ r, m = .ok r ∧ P r) ∨ m = .error (.panic .arith)

/-- an operation of the scalar type gives the result of the exact operation, or panics -/
structure Ops.Exact [Zero T] [Add T] [Sub T] [Mul T] [Neg T] (o : Ops T) : Prop where
  add : ∀ a b, SameOrArith (o.add a b) (.ok (a + b))
  sub : ∀ a b, SameOrArith (o.sub a b) (.ok (a - b))
  mul : ∀ a b, SameOrArith (o.mul a b) (.ok (a * b))
  neg : ∀ a, SameOrArith (o.neg a) (.ok (-a))

namespace Expr

/-- as `eval`, with the given scalar operations -/
def evalS [CommRing T] [DecidableEq T] (o : Ops T) (t : IdxTy) : {f : Fmt} → Expr T f → M (Val T f)
  | _, coo a => .ok a
  | _, csr a => .ok a
  | _, csc a => .ok a
  | _, cooDiag d => Coo.with_diagonal t d
  | _, csrDiag d => CSR.with_diagonal t d
  | _, cscDiag d => CSC.with_diagonal t d
  | _, cooEye n => Coo.identity t n
  | _, cooZero m n => .ok (Coo.with_size m n)
  | _, csrZero m n => .ok (CSR.with_size m n)
  | _, cooDense A => Coo.from_dense t A
  | _, csrDense A => CSR.from_dense t A
  | _, cscDense A => CSC.from_dense t A
  | _, cooToCsr e => do let a ← e.evalS o t; Coo.to_csrS o t a
  | _, cooToCsc e => do let a ← e.evalS o t; Coo.to_cscS o t a
  | _, csrToCoo e => do let a ← e.evalS o t; CSR.to_coo t a
  | _, csrToCsc e => do let a ← e.evalS o t; CSR.to_csc t a
  | _, cscToCoo e => do let a ← e.evalS o t; CSC.to_coo t a
  | _, cscToCsr e => do let a ← e.evalS o t; CSC.to_csr t a
  | _, cooT e => do let a ← e.evalS o t; pure (Coo.transpose a)
  | _, csrT e => do let a ← e.evalS o t; CSR.transpose a
  | _, cscT e => do let a ← e.evalS o t; CSC.transpose a
  | _, cooNeg e => do let a ← e.evalS o t; Coo.negS o a
  | _, csrNeg e => do let a ← e.evalS o t; CSR.negS o a
  | _, cscNeg e => do let a ← e.evalS o t; CSC.negS o a
  | _, cooAdd e f => do let a ← e.evalS o t; let b ← f.evalS o t; Coo.addS o t a b
  | _, csrAdd e f => do let a ← e.evalS o t; let b ← f.evalS o t; CSR.addS o t a b
  | _, csrSub e f => do let a ← e.evalS o t; let b ← f.evalS o t; CSR.subS o t a b
  | _, cscAdd e f => do let a ← e.evalS o t; let b ← f.evalS o t; CSC.add_opS o t a b
  | _, cscSub e f => do let a ← e.evalS o t; let b ← f.evalS o t; CSC.sub_opS o t a b
  | _, cscAddMethod e f => do let a ← e.evalS o t; let b ← f.evalS o t; CSC.addS o t a b
  | _, cscSubMethod e f => do let a ← e.evalS o t; let b ← f.evalS o t; CSC.subtractS o t a b
  | _, csrMul e f => do let a ← e.evalS o t; let b ← f.evalS o t; CSR.mulS o t a b
  | _, cscMul e f => do let a ← e.evalS o t; let b ← f.evalS o t; CSC.mulS o t a b
  | _, cscMulCsr e f => do let a ← e.evalS o t; let b ← f.evalS o t; CSC.mul_csrS o t a b
  | _, csrScale e s => do let a ← e.evalS o t; CSR.mul_scalarS o a s
  | _, csrScaleL s e => do let a ← e.evalS o t; CSR.scalar_mulS o s a
  | _, cscScale e s => do let a ← e.evalS o t; CSC.mul_scalarS o a s
  | _, cscScaleL s e => do let a ← e.evalS o t; CSC.scalar_mulS o s a
  | _, csrSort e => do let a ← e.evalS o t; CSR.sort_indexes a
  | _, cscSort e => do let a ← e.evalS o t; CSC.sort_indexes a
  | _, csrSum e => do let a ← e.evalS o t; CSR.sum_duplicatesS o t a
  | _, cscSum e => do let a ← e.evalS o t; CSC.sum_duplicatesS o t a
  | _, cooUpper e k => do let a ← e.evalS o t; Coo.upper t a k
  | _, cooV e f => do let a ← e.evalS o t; let b ← f.evalS o t; Coo.v_stack t a b
  | _, cooV3 e f g => do let a ← e.evalS o t; let b ← f.evalS o t; let c ← g.evalS o t; Coo.v_stack3 t a b c
  | _, cooH e f => do let a ← e.evalS o t; let b ← f.evalS o t; Coo.h_stack t a b
  | _, cooH3 e f g => do let a ← e.evalS o t; let b ← f.evalS o t; let c ← g.evalS o t; Coo.h_stack3 t a b c
  | _, csrH e f => do let a ← e.evalS o t; let b ← f.evalS o t; CSR.h_stackS o t a b
  | _, cooBlock e f g h => do
    let a ← e.evalS o t; let b ← f.evalS o t; let c ← g.evalS o t; let d ← h.evalS o t; Coo.compose t a b c d
  | _, cscBlock e f g h => do
    let a ← e.evalS o t; let b ← f.evalS o t; let c ← g.evalS o t; let d ← h.evalS o t; CSC.composeS o t a b c d
  | _, csrSelect e ri ci => do let a ← e.evalS o t; let b ← CSR.sum_duplicatesS o t a; CSR.select t b ri ci
  | _, cscSelect e ri ci => do let a ← e.evalS o t; let b ← CSC.sum_duplicatesS o t a; CSC.select t b ri ci

/-- the nested array of a value by the crate's `to_dense`, with the given scalar operations -/
def _root_.Sparse.Val.to_denseS [AddCommMonoid T] (o : Ops T) (t : IdxTy) : {f : Fmt} → Val T f → M (List (List T))
  | .coo, a => Coo.to_denseS o a
  | .csr, a => CSR.to_denseS o a
  | .csc, a => CSC.to_denseS o t a

end Expr
end
end Sparse

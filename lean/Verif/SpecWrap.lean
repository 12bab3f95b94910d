import Verif.SpecExpr
import Mathlib.Data.BitVec
/-!
Integer scalars in a build without overflow checks (C77): `BitVec w` with wrap-around arithmetic is the scalar type.
An expression over it is read over the integers by replacing each given value with the integer it stands for.
-/
namespace Sparse
variable {T T' : Type}

/-- the matrix with each stored value replaced -/
def Coo.mapValues (g : T → T') (a : Coo T) : Coo T' := ⟨a.rows, a.cols, a.rowidx, a.colidx, a.values.map g⟩
def CSR.mapValues (g : T → T') (a : CSR T) : CSR T' := ⟨a.rows, a.cols, a.rowptr, a.colidx, a.values.map g⟩
def CSC.mapValues (g : T → T') (a : CSC T) : CSC T' := ⟨a.rows, a.cols, a.rowidx, a.colptr, a.values.map g⟩

namespace Expr

/-- the same expression with each given value replaced -/
def mapValues (g : T → T') : {f : Fmt} → Expr T f → Expr T' f
  | _, coo a => coo (a.mapValues g)
  | _, csr a => csr (a.mapValues g)
  | _, csc a => csc (a.mapValues g)
  | _, cooDiag d => cooDiag (d.map g)
  | _, csrDiag d => csrDiag (d.map g)
  | _, cscDiag d => cscDiag (d.map g)
  | _, cooEye n => cooEye n
  | _, cooZero m n => cooZero m n
  | _, csrZero m n => csrZero m n
  | _, cooDense A => cooDense (A.map (·.map g))
  | _, csrDense A => csrDense (A.map (·.map g))
  | _, cscDense A => cscDense (A.map (·.map g))
  | _, cooToCsr e => cooToCsr (e.mapValues g)
  | _, cooToCsc e => cooToCsc (e.mapValues g)
  | _, csrToCoo e => csrToCoo (e.mapValues g)
  | _, csrToCsc e => csrToCsc (e.mapValues g)
  | _, cscToCoo e => cscToCoo (e.mapValues g)
  | _, cscToCsr e => cscToCsr (e.mapValues g)
  | _, cooT e => cooT (e.mapValues g)
  | _, csrT e => csrT (e.mapValues g)
  | _, cscT e => cscT (e.mapValues g)
  | _, cooNeg e => cooNeg (e.mapValues g)
  | _, csrNeg e => csrNeg (e.mapValues g)
  | _, cscNeg e => cscNeg (e.mapValues g)
  | _, cooAdd e f => cooAdd (e.mapValues g) (f.mapValues g)
  | _, csrAdd e f => csrAdd (e.mapValues g) (f.mapValues g)
  | _, csrSub e f => csrSub (e.mapValues g) (f.mapValues g)
  | _, cscAdd e f => cscAdd (e.mapValues g) (f.mapValues g)
  | _, cscSub e f => cscSub (e.mapValues g) (f.mapValues g)
  | _, cscAddMethod e f => cscAddMethod (e.mapValues g) (f.mapValues g)
  | _, cscSubMethod e f => cscSubMethod (e.mapValues g) (f.mapValues g)
  | _, csrMul e f => csrMul (e.mapValues g) (f.mapValues g)
  | _, cscMul e f => cscMul (e.mapValues g) (f.mapValues g)
  | _, cscMulCsr e f => cscMulCsr (e.mapValues g) (f.mapValues g)
  | _, csrScale e s => csrScale (e.mapValues g) (g s)
  | _, csrScaleL s e => csrScaleL (g s) (e.mapValues g)
  | _, cscScale e s => cscScale (e.mapValues g) (g s)
  | _, cscScaleL s e => cscScaleL (g s) (e.mapValues g)
  | _, csrSort e => csrSort (e.mapValues g)
  | _, cscSort e => cscSort (e.mapValues g)
  | _, csrSum e => csrSum (e.mapValues g)
  | _, cscSum e => cscSum (e.mapValues g)
  | _, cooUpper e k => cooUpper (e.mapValues g) k
  | _, cooV e f => cooV (e.mapValues g) (f.mapValues g)
  | _, cooV3 e f h => cooV3 (e.mapValues g) (f.mapValues g) (h.mapValues g)
  | _, cooH e f => cooH (e.mapValues g) (f.mapValues g)
  | _, cooH3 e f h => cooH3 (e.mapValues g) (f.mapValues g) (h.mapValues g)
  | _, csrH e f => csrH (e.mapValues g) (f.mapValues g)
  | _, cooBlock e f h k => cooBlock (e.mapValues g) (f.mapValues g) (h.mapValues g) (k.mapValues g)
  | _, cscBlock e f h k => cscBlock (e.mapValues g) (f.mapValues g) (h.mapValues g) (k.mapValues g)
  | _, csrSelect e ri ci => csrSelect (e.mapValues g) ri ci
  | _, cscSelect e ri ci => cscSelect (e.mapValues g) ri ci

/-- the expression over the integers: bit patterns read as two's complement numbers -/
def signed {w : Nat} {f : Fmt} (e : Expr (BitVec w) f) : Expr Int f := e.mapValues BitVec.toInt
/-- the expression over the integers: bit patterns read as natural numbers -/
def unsigned {w : Nat} {f : Fmt} (e : Expr (BitVec w) f) : Expr Int f := e.mapValues fun v => (v.toNat : Int)

end Expr
end Sparse

import Verif.SpecExpr
import Verif.Model.Dok
/-!
Values of the index type (C79). The model represents a value of the index type `I` by an unbounded integer; `HasType t x` says that
every such integer stored in `x` is a value of `t`.
-/
namespace Sparse

/-- `x` is a value of the type -/
def IntTy.Has (t : IntTy) (x : Int) : Prop := t.lo ≤ x ∧ x ≤ t.hi

/-- all elements are values of the type -/
def IntTy.HasAll (t : IntTy) (l : List Int) : Prop := ∀ x ∈ l, t.Has x

/-- all index values stored in a CSR matrix are values of the type, used or not -/
def CSR.HasType (t : IntTy) (a : CSR T) : Prop := t.HasAll a.rowptr ∧ t.HasAll a.colidx
/-- all index values stored in a CSC matrix are values of the type, used or not -/
def CSC.HasType (t : IntTy) (a : CSC T) : Prop := t.HasAll a.rowidx ∧ t.HasAll a.colptr
/-- all index values stored in a coordinate matrix are values of the type -/
def Coo.HasType (t : IntTy) (a : Coo T) : Prop := t.HasAll a.rowidx ∧ t.HasAll a.colidx
/-- all keys of a dictionary are pairs of values of the type -/
def KMap.HasType (t : IntTy) (m : KMap T) : Prop := ∀ e ∈ m, t.Has e.1.1 ∧ t.Has e.1.2

/-- all index values stored in a matrix are values of the type -/
def Val.HasType (t : IntTy) : {f : Fmt} → Val T f → Prop
  | .coo, a => Coo.HasType t a
  | .csr, a => CSR.HasType t a
  | .csc, a => CSC.HasType t a

/-- the matrices given in an expression store values of the type -/
def Expr.Given (t : IntTy) : {f : Fmt} → Expr T f → Prop
  | _, coo a => a.HasType t
  | _, csr a => a.HasType t
  | _, csc a => a.HasType t
  | _, cooDiag _ | _, csrDiag _ | _, cscDiag _ | _, cooEye _ | _, cooZero _ _ | _, csrZero _ _ => True
  | _, cooDense _ | _, csrDense _ | _, cscDense _ => True
  | _, cooToCsr e | _, cooToCsc e | _, cooNeg e | _, cooT e | _, cooUpper e _ => e.Given t
  | _, csrToCoo e | _, csrToCsc e | _, csrNeg e | _, csrScale e _ | _, csrScaleL _ e | _, csrSort e | _, csrSum e
  | _, csrT e => e.Given t
  | _, cscToCoo e | _, cscToCsr e | _, cscNeg e | _, cscScale e _ | _, cscScaleL _ e | _, cscSort e | _, cscSum e
  | _, cscT e => e.Given t
  | _, cooAdd e f | _, csrAdd e f | _, csrSub e f => e.Given t ∧ f.Given t
  | _, cscAdd e f | _, cscSub e f | _, cscAddMethod e f | _, cscSubMethod e f => e.Given t ∧ f.Given t
  | _, csrMul e f => e.Given t ∧ f.Given t
  | _, cscMul e f => e.Given t ∧ f.Given t
  | _, cscMulCsr e f => e.Given t ∧ f.Given t
  | _, cooV e f => e.Given t ∧ f.Given t
  | _, cooV3 e f g => e.Given t ∧ f.Given t ∧ g.Given t
  | _, cooH e f | _, csrH e f => e.Given t ∧ f.Given t
  | _, cooH3 e f g => e.Given t ∧ f.Given t ∧ g.Given t
  | _, cooBlock e f g h | _, cscBlock e f g h => e.Given t ∧ f.Given t ∧ g.Given t ∧ h.Given t
  | _, csrSelect e _ _ | _, cscSelect e _ _ => e.Given t

/-- what `m` returns, if it returns, satisfies `Q` -/
def Ret (m : M α) (Q : α → Prop) : Prop := ∀ a, m = .ok a → Q a

end Sparse

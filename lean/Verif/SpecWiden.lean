import Verif.SpecExpr
/-!
Index types of different size (C69, C70).
-/
namespace Sparse

/-- the values of `t` are values of `t'` -/
def IntTy.Sub (t t' : IntTy) : Prop := t'.lo ≤ t.lo ∧ t.hi ≤ t'.hi

theorem IntTy.Sub.refl (t : IntTy) : t.Sub t := ⟨le_refl _, le_refl _⟩

/-- the first call has the same outcome as the second (the same value, or `Err`, or the same panic), or it panics because a
value is not representable in the index type: in `I::from(..).unwrap()`, or in an overflowing `+` or `-` (`.arith`) -/
def SameOrOverflow {α : Type} (m m' : M α) : Prop :=
  m = m' ∨ m = .error (.panic .unwrap) ∨ m = .error (.panic .arith)

namespace Expr
variable {T : Type}

/-- the given matrices are valid and have no unused storage, given arrays are rectangular and shapes agree. As `Fits`, but
without any bound on dimensions and storage sizes. -/
def Shaped (t : IntTy) : {f : Fmt} → Expr T f → Prop
  | _, coo a => a.WF t
  | _, csr a => a.WF t ∧ a.colidx.length = a.stored ∧ a.values.length = a.stored
  | _, csc a => a.WF t ∧ a.rowidx.length = a.stored ∧ a.values.length = a.stored
  | _, cooDiag _ | _, csrDiag _ | _, cscDiag _ | _, cooEye _ | _, cooZero _ _ | _, csrZero _ _ => True
  | _, cooDense A => ∀ r ∈ A, r.length = (A.headD []).length
  | _, csrDense A | _, cscDense A => A ≠ [] ∧ ∀ r ∈ A, r.length = (A.headD []).length
  | _, cooToCsr e | _, cooToCsc e | _, cooNeg e | _, cooT e | _, cooUpper e _ => e.Shaped t
  | _, csrToCoo e | _, csrToCsc e | _, csrNeg e | _, csrScale e _ | _, csrScaleL _ e | _, csrSort e | _, csrSum e
  | _, csrT e => e.Shaped t
  | _, cscToCoo e | _, cscToCsr e | _, cscNeg e | _, cscScale e _ | _, cscScaleL _ e | _, cscSort e | _, cscSum e
  | _, cscT e => e.Shaped t
  | _, cooAdd e f | _, csrAdd e f | _, csrSub e f => e.Shaped t ∧ f.Shaped t ∧ e.shape = f.shape
  | _, cscAdd e f | _, cscSub e f | _, cscAddMethod e f | _, cscSubMethod e f => e.Shaped t ∧ f.Shaped t ∧ e.shape = f.shape
  | _, csrMul e f => e.Shaped t ∧ f.Shaped t ∧ e.shape.2 = f.shape.1
  | _, cscMul e f => e.Shaped t ∧ f.Shaped t ∧ e.shape.2 = f.shape.1
  | _, cscMulCsr e f => e.Shaped t ∧ f.Shaped t ∧ e.shape.2 = f.shape.1
  | _, cooV e f => e.Shaped t ∧ f.Shaped t ∧ e.shape.2 = f.shape.2
  | _, cooV3 e f g => e.Shaped t ∧ f.Shaped t ∧ g.Shaped t ∧ e.shape.2 = f.shape.2 ∧ e.shape.2 = g.shape.2
  | _, cooH e f | _, csrH e f => e.Shaped t ∧ f.Shaped t ∧ e.shape.1 = f.shape.1
  | _, cooH3 e f g => e.Shaped t ∧ f.Shaped t ∧ g.Shaped t ∧ e.shape.1 = f.shape.1 ∧ e.shape.1 = g.shape.1
  | _, cooBlock e f g h | _, cscBlock e f g h => e.Shaped t ∧ f.Shaped t ∧ g.Shaped t ∧ h.Shaped t ∧
      e.shape.1 = f.shape.1 ∧ g.shape.1 = h.shape.1 ∧ e.shape.2 = g.shape.2 ∧ f.shape.2 = h.shape.2
  | _, csrSelect e ri ci | _, cscSelect e ri ci => e.Shaped t ∧ InRange e.shape.1 ri ∧ InRange e.shape.2 ci

end Expr
end Sparse

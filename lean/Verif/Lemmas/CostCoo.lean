import Verif.Lemmas.CostMatBound
import Verif.Model.CostCoo
/-! The methods of `Model/CostCoo.lean`: without the counter they are the methods of the model; bounds on the counter. -/
namespace Sparse
open MT

theorem MT.outcome_pushT (l : List α) (x : α) : (pushT l x).outcome = pure (l ++ [x]) := rfl
theorem MT.outcome_shiftT (t : IdxTy) (o : Nat) (l : List Int) : (shiftT t o l).outcome = shiftM t o l := rfl

/-- removes the counter -/
macro "erasec" "[" ls:Lean.Parser.Tactic.simpLemma,* "]" : tactic => `(tactic|
  erasem [MT.outcome_pushT, MT.outcome_shiftT, iotaT_outcome, CSR.to_cooT_outcome, CSC.to_cooT_outcome, Coo.to_csrT_outcome,
    Coo.to_cscT_outcome, CSR.pruneT_outcome, CSC.pruneT_outcome, $ls,*])

section
variable {T : Type}

theorem Coo.newT_outcome (rows cols : Nat) (rowidx colidx : List Int) (values : List T) :
    (Coo.newT rows cols rowidx colidx values).outcome = Coo.new rows cols rowidx colidx values := rfl

theorem Coo.from_denseT_outcome [Zero T] [BEq T] (t : IdxTy) (a : List (List T)) :
    (Coo.from_denseT t a).outcome = Coo.from_dense t a := by
  unfold Coo.from_denseT Coo.from_dense
  erasec []

theorem Coo.with_diagonalT_outcome [Zero T] (t : IdxTy) (d : List T) : (Coo.with_diagonalT t d).outcome = Coo.with_diagonal t d := by
  unfold Coo.with_diagonalT Coo.with_diagonal
  erasec []

theorem Coo.identityT_outcome [Zero T] [One T] (t : IdxTy) (n : Nat) :
    (Coo.identityT t n : MT (Coo T)).outcome = Coo.identity t n := by
  unfold Coo.identityT Coo.identity
  erasec []

theorem Coo.upperT_outcome (t : IdxTy) (a : Coo T) (k : Int) : (a.upperT t k).outcome = a.upper t k := by
  unfold Coo.upperT Coo.upper
  erasec []

theorem Coo.diagonalT_outcome [Zero T] [Add T] (a : Coo T) : a.diagonalT.outcome = a.diagonal := by
  unfold Coo.diagonalT Coo.diagonal
  erasec []

theorem Coo.v_stackT_outcome (t : IdxTy) (a b : Coo T) : (Coo.v_stackT t a b).outcome = Coo.v_stack t a b := by
  unfold Coo.v_stackT Coo.v_stack
  erasec []

theorem Coo.h_stackT_outcome (t : IdxTy) (a b : Coo T) : (Coo.h_stackT t a b).outcome = Coo.h_stack t a b := by
  unfold Coo.h_stackT Coo.h_stack
  erasec [Coo.newT_outcome]

theorem Coo.v_stack3T_outcome (t : IdxTy) (a b c : Coo T) : (Coo.v_stack3T t a b c).outcome = Coo.v_stack3 t a b c := by
  unfold Coo.v_stack3T Coo.v_stack3
  erasec [Coo.v_stackT_outcome]

theorem Coo.h_stack3T_outcome (t : IdxTy) (a b c : Coo T) : (Coo.h_stack3T t a b c).outcome = Coo.h_stack3 t a b c := by
  unfold Coo.h_stack3T Coo.h_stack3
  erasec [Coo.h_stackT_outcome]

theorem Coo.composeT_outcome (t : IdxTy) (a b c d : Coo T) : (Coo.composeT t a b c d).outcome = Coo.compose t a b c d := by
  unfold Coo.composeT Coo.compose
  erasec [Coo.h_stackT_outcome, Coo.v_stackT_outcome]

theorem Coo.compose3T_outcome (t : IdxTy) (a b c d e f g h i : Coo T) :
    (Coo.compose3T t a b c d e f g h i).outcome = Coo.compose3 t a b c d e f g h i := by
  unfold Coo.compose3T Coo.compose3
  erasec [Coo.h_stack3T_outcome, Coo.v_stack3T_outcome]

theorem CSR.h_stackT_outcome [Zero T] [Add T] (t : IdxTy) (a b : CSR T) : (CSR.h_stackT t a b).outcome = CSR.h_stack t a b := by
  unfold CSR.h_stackT CSR.h_stack
  erasec [Coo.h_stackT_outcome]

theorem CSC.composeT_outcome [Zero T] [Add T] (t : IdxTy) (a b c d : CSC T) : (CSC.composeT t a b c d).outcome = CSC.compose t a b c d := by
  unfold CSC.composeT CSC.compose
  erasec [Coo.h_stackT_outcome, Coo.v_stackT_outcome]

theorem CSR.from_denseT_outcome [Zero T] [BEq T] (t : IdxTy) (a : List (List T)) :
    (CSR.from_denseT t a).outcome = CSR.from_dense t a := by
  unfold CSR.from_denseT CSR.from_dense
  erasec []

theorem CSC.from_denseT_outcome [Zero T] [BEq T] (t : IdxTy) (a : List (List T)) :
    (CSC.from_denseT t a).outcome = CSC.from_dense t a := by
  unfold CSC.from_denseT CSC.from_dense
  erasec []

theorem CSR.with_diagonalT_outcome (t : IdxTy) (d : List T) : (CSR.with_diagonalT t d).outcome = CSR.with_diagonal t d := by
  unfold CSR.with_diagonalT CSR.with_diagonal
  erasec []

theorem CSC.with_diagonalT_outcome (t : IdxTy) (d : List T) : (CSC.with_diagonalT t d).outcome = CSC.with_diagonal t d := by
  unfold CSC.with_diagonalT CSC.with_diagonal
  erasec []

end
end Sparse

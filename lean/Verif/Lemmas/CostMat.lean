import Verif.Lemmas.CostMoreBound
import Verif.Model.CostMat
/-! Methods with a counter: without the counter they are the methods of the model. -/
namespace Sparse
open MT

namespace MT
theorem outcome_copyT (l : List α) : (copyT l).outcome = pure l := rfl
theorem outcome_mapT (f : α → β) (l : List α) : (mapT f l).outcome = pure (l.map f) := rfl
theorem outcome_vec2T (n m : Nat) (x : α) : (vec2T n m x).outcome = pure (List.replicate n (List.replicate m x)) := rfl
theorem outcome_sortT (l : List (Int × α)) : (sortT l).outcome = pure (l.mergeSort fun a b => decide (a.1 ≤ b.1)) := rfl
theorem outcome_unwrapT (m : MT α) : (unwrapT m).outcome = unwrapR m.outcome := rfl
theorem steps_unwrapT (m : MT α) : (unwrapT m).steps = m.steps := rfl
end MT

/-- removes the counter of the methods -/
macro "erasem" "[" ls:Lean.Parser.Tactic.simpLemma,* "]" : tactic => `(tactic|
  erase [MT.outcome_resizeT, MT.outcome_sliceT, MT.outcome_copyT, MT.outcome_mapT, MT.outcome_vec2T, MT.outcome_sortT, MT.outcome_unwrapT,
    csr_has_canonical_formatT_outcome, csr_has_sorted_indicesT_outcome, csr_sum_duplicatesT_outcome, csr_matvecT_outcome, csc_matvecT_outcome,
    csr_matmatT_outcome, csr_matmat_maxnnzT_outcome, csr_selectT_outcome, csr_todenseT_outcome, csr_diagonalT_outcome, csr_tocscT_outcome,
    coo_tocsrT_outcome, expandptrT_outcome, csr_tocooT_outcome, csr_binop_csrT_outcome, $ls,*])

section
variable {T : Type}

theorem csr_sort_indicesT_outcome [Zero T] (n_row : Nat) (a_p a_j0 : List Int) (a_x0 : List T) :
    (csr_sort_indicesT n_row a_p a_j0 a_x0).outcome = csr_sort_indices n_row a_p a_j0 a_x0 := by
  unfold csr_sort_indicesT csr_sort_indices
  erasem []

theorem iotaT_outcome (t : IdxTy) (n : Nat) :
    (iotaT t n).outcome = iotaM t n := by
  unfold iotaT iotaM
  erasem [csr_sort_indicesT_outcome]

theorem CSR.newT_outcome (rows cols : Nat) (rowptr colidx : List Int) (values : List T) :
    (CSR.newT rows cols rowptr colidx values).outcome = CSR.new rows cols rowptr colidx values := by
  unfold CSR.newT CSR.new
  erasem [csr_sort_indicesT_outcome, iotaT_outcome]

theorem CSR.nnzT_outcome (a : CSR T) :
    (CSR.nnzT a).outcome = CSR.nnz a := by
  unfold CSR.nnzT CSR.nnz
  erasem [csr_sort_indicesT_outcome, iotaT_outcome, CSR.newT_outcome]

theorem CSR.pruneT_outcome [Zero T] (a : CSR T) :
    (CSR.pruneT a).outcome = CSR.prune a := by
  unfold CSR.pruneT CSR.prune
  erasem [csr_sort_indicesT_outcome, iotaT_outcome, CSR.newT_outcome, CSR.nnzT_outcome]

theorem CSR.has_canonical_formatT_outcome (t : IdxTy) (a : CSR T) :
    (CSR.has_canonical_formatT t a).outcome = CSR.has_canonical_format t a := by
  unfold CSR.has_canonical_formatT CSR.has_canonical_format
  erasem [csr_sort_indicesT_outcome, iotaT_outcome, CSR.newT_outcome, CSR.nnzT_outcome, CSR.pruneT_outcome]

theorem CSR.has_sorted_indexesT_outcome (t : IdxTy) (a : CSR T) :
    (CSR.has_sorted_indexesT t a).outcome = CSR.has_sorted_indexes t a := by
  unfold CSR.has_sorted_indexesT CSR.has_sorted_indexes
  erasem [csr_sort_indicesT_outcome, iotaT_outcome, CSR.newT_outcome, CSR.nnzT_outcome, CSR.pruneT_outcome, CSR.has_canonical_formatT_outcome]

theorem CSR.sort_indexesT_outcome [Zero T] (a : CSR T) :
    (CSR.sort_indexesT a).outcome = CSR.sort_indexes a := by
  unfold CSR.sort_indexesT CSR.sort_indexes
  erasem [csr_sort_indicesT_outcome, iotaT_outcome, CSR.newT_outcome, CSR.nnzT_outcome, CSR.pruneT_outcome, CSR.has_canonical_formatT_outcome, CSR.has_sorted_indexesT_outcome]

theorem CSR.sum_duplicatesT_outcome [Zero T] [Add T] (t : IdxTy) (a : CSR T) :
    (CSR.sum_duplicatesT t a).outcome = CSR.sum_duplicates t a := by
  unfold CSR.sum_duplicatesT CSR.sum_duplicates
  erasem [csr_sort_indicesT_outcome, iotaT_outcome, CSR.newT_outcome, CSR.nnzT_outcome, CSR.pruneT_outcome, CSR.has_canonical_formatT_outcome, CSR.has_sorted_indexesT_outcome, CSR.sort_indexesT_outcome]

theorem CSR.mat_vecT_outcome [Zero T] [Add T] [Mul T] (a : CSR T) (x : List T) :
    (CSR.mat_vecT a x).outcome = CSR.mat_vec a x := by
  unfold CSR.mat_vecT CSR.mat_vec
  erasem [csr_sort_indicesT_outcome, iotaT_outcome, CSR.newT_outcome, CSR.nnzT_outcome, CSR.pruneT_outcome, CSR.has_canonical_formatT_outcome, CSR.has_sorted_indexesT_outcome, CSR.sort_indexesT_outcome, CSR.sum_duplicatesT_outcome]

theorem CSR.mat_matT_outcome [Zero T] [Add T] [Mul T] [BEq T] (t : IdxTy) (a x : CSR T) :
    (CSR.mat_matT t a x).outcome = CSR.mat_mat t a x := by
  unfold CSR.mat_matT CSR.mat_mat
  erasem [csr_sort_indicesT_outcome, iotaT_outcome, CSR.newT_outcome, CSR.nnzT_outcome, CSR.pruneT_outcome, CSR.has_canonical_formatT_outcome, CSR.has_sorted_indexesT_outcome, CSR.sort_indexesT_outcome, CSR.sum_duplicatesT_outcome, CSR.mat_vecT_outcome]

theorem CSR.to_denseT_outcome [Zero T] [Add T] (a : CSR T) :
    (CSR.to_denseT a).outcome = CSR.to_dense a := by
  unfold CSR.to_denseT CSR.to_dense
  erasem [csr_sort_indicesT_outcome, iotaT_outcome, CSR.newT_outcome, CSR.nnzT_outcome, CSR.pruneT_outcome, CSR.has_canonical_formatT_outcome, CSR.has_sorted_indexesT_outcome, CSR.sort_indexesT_outcome, CSR.sum_duplicatesT_outcome, CSR.mat_vecT_outcome, CSR.mat_matT_outcome]

theorem CSR.diagonalT_outcome [Zero T] [Add T] (a : CSR T) :
    (CSR.diagonalT a).outcome = CSR.diagonal a := by
  unfold CSR.diagonalT CSR.diagonal
  erasem [csr_sort_indicesT_outcome, iotaT_outcome, CSR.newT_outcome, CSR.nnzT_outcome, CSR.pruneT_outcome, CSR.has_canonical_formatT_outcome, CSR.has_sorted_indexesT_outcome, CSR.sort_indexesT_outcome, CSR.sum_duplicatesT_outcome, CSR.mat_vecT_outcome, CSR.mat_matT_outcome, CSR.to_denseT_outcome]

theorem CSR.getT_outcome [Zero T] (a : CSR T) (i j : Int) :
    (CSR.getT a i j).outcome = CSR.get a i j := by
  unfold CSR.getT CSR.get
  erasem [csr_sort_indicesT_outcome, iotaT_outcome, CSR.newT_outcome, CSR.nnzT_outcome, CSR.pruneT_outcome, CSR.has_canonical_formatT_outcome, CSR.has_sorted_indexesT_outcome, CSR.sort_indexesT_outcome, CSR.sum_duplicatesT_outcome, CSR.mat_vecT_outcome, CSR.mat_matT_outcome, CSR.to_denseT_outcome, CSR.diagonalT_outcome]
  eqm

theorem CSC.newT_outcome (rows cols : Nat) (rowidx colptr : List Int) (values : List T) :
    (CSC.newT rows cols rowidx colptr values).outcome = CSC.new rows cols rowidx colptr values := by
  unfold CSC.newT CSC.new
  erasem [csr_sort_indicesT_outcome, iotaT_outcome, CSR.newT_outcome, CSR.nnzT_outcome, CSR.pruneT_outcome, CSR.has_canonical_formatT_outcome, CSR.has_sorted_indexesT_outcome, CSR.sort_indexesT_outcome, CSR.sum_duplicatesT_outcome, CSR.mat_vecT_outcome, CSR.mat_matT_outcome, CSR.to_denseT_outcome, CSR.diagonalT_outcome, CSR.getT_outcome]

theorem CSC.nnzT_outcome (a : CSC T) :
    (CSC.nnzT a).outcome = CSC.nnz a := by
  unfold CSC.nnzT CSC.nnz
  erasem [csr_sort_indicesT_outcome, iotaT_outcome, CSR.newT_outcome, CSR.nnzT_outcome, CSR.pruneT_outcome, CSR.has_canonical_formatT_outcome, CSR.has_sorted_indexesT_outcome, CSR.sort_indexesT_outcome, CSR.sum_duplicatesT_outcome, CSR.mat_vecT_outcome, CSR.mat_matT_outcome, CSR.to_denseT_outcome, CSR.diagonalT_outcome, CSR.getT_outcome, CSC.newT_outcome]

theorem CSR.transposeT_outcome (a : CSR T) :
    (CSR.transposeT a).outcome = CSR.transpose a := by
  unfold CSR.transposeT CSR.transpose
  erasem [csr_sort_indicesT_outcome, iotaT_outcome, CSR.newT_outcome, CSR.nnzT_outcome, CSR.pruneT_outcome, CSR.has_canonical_formatT_outcome, CSR.has_sorted_indexesT_outcome, CSR.sort_indexesT_outcome, CSR.sum_duplicatesT_outcome, CSR.mat_vecT_outcome, CSR.mat_matT_outcome, CSR.to_denseT_outcome, CSR.diagonalT_outcome, CSR.getT_outcome, CSC.newT_outcome, CSC.nnzT_outcome]

theorem CSC.transposeT_outcome (a : CSC T) :
    (CSC.transposeT a).outcome = CSC.transpose a := by
  unfold CSC.transposeT CSC.transpose
  erasem [csr_sort_indicesT_outcome, iotaT_outcome, CSR.newT_outcome, CSR.nnzT_outcome, CSR.pruneT_outcome, CSR.has_canonical_formatT_outcome, CSR.has_sorted_indexesT_outcome, CSR.sort_indexesT_outcome, CSR.sum_duplicatesT_outcome, CSR.mat_vecT_outcome, CSR.mat_matT_outcome, CSR.to_denseT_outcome, CSR.diagonalT_outcome, CSR.getT_outcome, CSC.newT_outcome, CSC.nnzT_outcome, CSR.transposeT_outcome]

theorem CSC.pruneT_outcome (a : CSC T) :
    (CSC.pruneT a).outcome = CSC.prune a := by
  unfold CSC.pruneT CSC.prune
  erasem [csr_sort_indicesT_outcome, iotaT_outcome, CSR.newT_outcome, CSR.nnzT_outcome, CSR.pruneT_outcome, CSR.has_canonical_formatT_outcome, CSR.has_sorted_indexesT_outcome, CSR.sort_indexesT_outcome, CSR.sum_duplicatesT_outcome, CSR.mat_vecT_outcome, CSR.mat_matT_outcome, CSR.to_denseT_outcome, CSR.diagonalT_outcome, CSR.getT_outcome, CSC.newT_outcome, CSC.nnzT_outcome, CSR.transposeT_outcome, CSC.transposeT_outcome]

theorem CSC.has_canonical_formatT_outcome (t : IdxTy) (a : CSC T) :
    (CSC.has_canonical_formatT t a).outcome = CSC.has_canonical_format t a := by
  unfold CSC.has_canonical_formatT CSC.has_canonical_format
  erasem [csr_sort_indicesT_outcome, iotaT_outcome, CSR.newT_outcome, CSR.nnzT_outcome, CSR.pruneT_outcome, CSR.has_canonical_formatT_outcome, CSR.has_sorted_indexesT_outcome, CSR.sort_indexesT_outcome, CSR.sum_duplicatesT_outcome, CSR.mat_vecT_outcome, CSR.mat_matT_outcome, CSR.to_denseT_outcome, CSR.diagonalT_outcome, CSR.getT_outcome, CSC.newT_outcome, CSC.nnzT_outcome, CSR.transposeT_outcome, CSC.transposeT_outcome, CSC.pruneT_outcome]

theorem CSC.has_sorted_indexesT_outcome (t : IdxTy) (a : CSC T) :
    (CSC.has_sorted_indexesT t a).outcome = CSC.has_sorted_indexes t a := by
  unfold CSC.has_sorted_indexesT CSC.has_sorted_indexes
  erasem [csr_sort_indicesT_outcome, iotaT_outcome, CSR.newT_outcome, CSR.nnzT_outcome, CSR.pruneT_outcome, CSR.has_canonical_formatT_outcome, CSR.has_sorted_indexesT_outcome, CSR.sort_indexesT_outcome, CSR.sum_duplicatesT_outcome, CSR.mat_vecT_outcome, CSR.mat_matT_outcome, CSR.to_denseT_outcome, CSR.diagonalT_outcome, CSR.getT_outcome, CSC.newT_outcome, CSC.nnzT_outcome, CSR.transposeT_outcome, CSC.transposeT_outcome, CSC.pruneT_outcome, CSC.has_canonical_formatT_outcome]

theorem CSC.sort_indexesT_outcome [Zero T] (a : CSC T) :
    (CSC.sort_indexesT a).outcome = CSC.sort_indexes a := by
  unfold CSC.sort_indexesT CSC.sort_indexes
  erasem [csr_sort_indicesT_outcome, iotaT_outcome, CSR.newT_outcome, CSR.nnzT_outcome, CSR.pruneT_outcome, CSR.has_canonical_formatT_outcome, CSR.has_sorted_indexesT_outcome, CSR.sort_indexesT_outcome, CSR.sum_duplicatesT_outcome, CSR.mat_vecT_outcome, CSR.mat_matT_outcome, CSR.to_denseT_outcome, CSR.diagonalT_outcome, CSR.getT_outcome, CSC.newT_outcome, CSC.nnzT_outcome, CSR.transposeT_outcome, CSC.transposeT_outcome, CSC.pruneT_outcome, CSC.has_canonical_formatT_outcome, CSC.has_sorted_indexesT_outcome]

theorem CSC.sum_duplicatesT_outcome [Zero T] [Add T] (t : IdxTy) (a : CSC T) :
    (CSC.sum_duplicatesT t a).outcome = CSC.sum_duplicates t a := by
  unfold CSC.sum_duplicatesT CSC.sum_duplicates
  erasem [csr_sort_indicesT_outcome, iotaT_outcome, CSR.newT_outcome, CSR.nnzT_outcome, CSR.pruneT_outcome, CSR.has_canonical_formatT_outcome, CSR.has_sorted_indexesT_outcome, CSR.sort_indexesT_outcome, CSR.sum_duplicatesT_outcome, CSR.mat_vecT_outcome, CSR.mat_matT_outcome, CSR.to_denseT_outcome, CSR.diagonalT_outcome, CSR.getT_outcome, CSC.newT_outcome, CSC.nnzT_outcome, CSR.transposeT_outcome, CSC.transposeT_outcome, CSC.pruneT_outcome, CSC.has_canonical_formatT_outcome, CSC.has_sorted_indexesT_outcome, CSC.sort_indexesT_outcome]

theorem CSC.mat_vecT_outcome [Zero T] [Add T] [Mul T] (a : CSC T) (x : List T) :
    (CSC.mat_vecT a x).outcome = CSC.mat_vec a x := by
  unfold CSC.mat_vecT CSC.mat_vec
  erasem [csr_sort_indicesT_outcome, iotaT_outcome, CSR.newT_outcome, CSR.nnzT_outcome, CSR.pruneT_outcome, CSR.has_canonical_formatT_outcome, CSR.has_sorted_indexesT_outcome, CSR.sort_indexesT_outcome, CSR.sum_duplicatesT_outcome, CSR.mat_vecT_outcome, CSR.mat_matT_outcome, CSR.to_denseT_outcome, CSR.diagonalT_outcome, CSR.getT_outcome, CSC.newT_outcome, CSC.nnzT_outcome, CSR.transposeT_outcome, CSC.transposeT_outcome, CSC.pruneT_outcome, CSC.has_canonical_formatT_outcome, CSC.has_sorted_indexesT_outcome, CSC.sort_indexesT_outcome, CSC.sum_duplicatesT_outcome]

theorem CSC.mat_matT_outcome [Zero T] [Add T] [Mul T] [BEq T] (t : IdxTy) (a x : CSC T) :
    (CSC.mat_matT t a x).outcome = CSC.mat_mat t a x := by
  unfold CSC.mat_matT CSC.mat_mat
  erasem [csr_sort_indicesT_outcome, iotaT_outcome, CSR.newT_outcome, CSR.nnzT_outcome, CSR.pruneT_outcome, CSR.has_canonical_formatT_outcome, CSR.has_sorted_indexesT_outcome, CSR.sort_indexesT_outcome, CSR.sum_duplicatesT_outcome, CSR.mat_vecT_outcome, CSR.mat_matT_outcome, CSR.to_denseT_outcome, CSR.diagonalT_outcome, CSR.getT_outcome, CSC.newT_outcome, CSC.nnzT_outcome, CSR.transposeT_outcome, CSC.transposeT_outcome, CSC.pruneT_outcome, CSC.has_canonical_formatT_outcome, CSC.has_sorted_indexesT_outcome, CSC.sort_indexesT_outcome, CSC.sum_duplicatesT_outcome, CSC.mat_vecT_outcome]
  rfl

theorem CSC.to_csrT_outcome [Zero T] (t : IdxTy) (a : CSC T) :
    (CSC.to_csrT t a).outcome = CSC.to_csr t a := by
  unfold CSC.to_csrT CSC.to_csr
  erasem [csr_sort_indicesT_outcome, iotaT_outcome, CSR.newT_outcome, CSR.nnzT_outcome, CSR.pruneT_outcome, CSR.has_canonical_formatT_outcome, CSR.has_sorted_indexesT_outcome, CSR.sort_indexesT_outcome, CSR.sum_duplicatesT_outcome, CSR.mat_vecT_outcome, CSR.mat_matT_outcome, CSR.to_denseT_outcome, CSR.diagonalT_outcome, CSR.getT_outcome, CSC.newT_outcome, CSC.nnzT_outcome, CSR.transposeT_outcome, CSC.transposeT_outcome, CSC.pruneT_outcome, CSC.has_canonical_formatT_outcome, CSC.has_sorted_indexesT_outcome, CSC.sort_indexesT_outcome, CSC.sum_duplicatesT_outcome, CSC.mat_vecT_outcome, CSC.mat_matT_outcome]

theorem CSR.to_cscT_outcome [Zero T] (t : IdxTy) (a : CSR T) :
    (CSR.to_cscT t a).outcome = CSR.to_csc t a := by
  unfold CSR.to_cscT CSR.to_csc
  erasem [csr_sort_indicesT_outcome, iotaT_outcome, CSR.newT_outcome, CSR.nnzT_outcome, CSR.pruneT_outcome, CSR.has_canonical_formatT_outcome, CSR.has_sorted_indexesT_outcome, CSR.sort_indexesT_outcome, CSR.sum_duplicatesT_outcome, CSR.mat_vecT_outcome, CSR.mat_matT_outcome, CSR.to_denseT_outcome, CSR.diagonalT_outcome, CSR.getT_outcome, CSC.newT_outcome, CSC.nnzT_outcome, CSR.transposeT_outcome, CSC.transposeT_outcome, CSC.pruneT_outcome, CSC.has_canonical_formatT_outcome, CSC.has_sorted_indexesT_outcome, CSC.sort_indexesT_outcome, CSC.sum_duplicatesT_outcome, CSC.mat_vecT_outcome, CSC.mat_matT_outcome, CSC.to_csrT_outcome]

theorem CSC.to_denseT_outcome [Zero T] [Add T] (t : IdxTy) (a : CSC T) :
    (CSC.to_denseT t a).outcome = CSC.to_dense t a := by
  unfold CSC.to_denseT CSC.to_dense
  erasem [csr_sort_indicesT_outcome, iotaT_outcome, CSR.newT_outcome, CSR.nnzT_outcome, CSR.pruneT_outcome, CSR.has_canonical_formatT_outcome, CSR.has_sorted_indexesT_outcome, CSR.sort_indexesT_outcome, CSR.sum_duplicatesT_outcome, CSR.mat_vecT_outcome, CSR.mat_matT_outcome, CSR.to_denseT_outcome, CSR.diagonalT_outcome, CSR.getT_outcome, CSC.newT_outcome, CSC.nnzT_outcome, CSR.transposeT_outcome, CSC.transposeT_outcome, CSC.pruneT_outcome, CSC.has_canonical_formatT_outcome, CSC.has_sorted_indexesT_outcome, CSC.sort_indexesT_outcome, CSC.sum_duplicatesT_outcome, CSC.mat_vecT_outcome, CSC.mat_matT_outcome, CSC.to_csrT_outcome, CSR.to_cscT_outcome]

theorem CSC.diagonalT_outcome [Zero T] [Add T] (a : CSC T) :
    (CSC.diagonalT a).outcome = CSC.diagonal a := by
  unfold CSC.diagonalT CSC.diagonal
  erasem [csr_sort_indicesT_outcome, iotaT_outcome, CSR.newT_outcome, CSR.nnzT_outcome, CSR.pruneT_outcome, CSR.has_canonical_formatT_outcome, CSR.has_sorted_indexesT_outcome, CSR.sort_indexesT_outcome, CSR.sum_duplicatesT_outcome, CSR.mat_vecT_outcome, CSR.mat_matT_outcome, CSR.to_denseT_outcome, CSR.diagonalT_outcome, CSR.getT_outcome, CSC.newT_outcome, CSC.nnzT_outcome, CSR.transposeT_outcome, CSC.transposeT_outcome, CSC.pruneT_outcome, CSC.has_canonical_formatT_outcome, CSC.has_sorted_indexesT_outcome, CSC.sort_indexesT_outcome, CSC.sum_duplicatesT_outcome, CSC.mat_vecT_outcome, CSC.mat_matT_outcome, CSC.to_csrT_outcome, CSR.to_cscT_outcome, CSC.to_denseT_outcome]

theorem Coo.transposeT_outcome (a : Coo T) :
    (Coo.transposeT a).outcome = pure (Coo.transpose a) := by
  unfold Coo.transposeT Coo.transpose
  erasem [csr_sort_indicesT_outcome, iotaT_outcome, CSR.newT_outcome, CSR.nnzT_outcome, CSR.pruneT_outcome, CSR.has_canonical_formatT_outcome, CSR.has_sorted_indexesT_outcome, CSR.sort_indexesT_outcome, CSR.sum_duplicatesT_outcome, CSR.mat_vecT_outcome, CSR.mat_matT_outcome, CSR.to_denseT_outcome, CSR.diagonalT_outcome, CSR.getT_outcome, CSC.newT_outcome, CSC.nnzT_outcome, CSR.transposeT_outcome, CSC.transposeT_outcome, CSC.pruneT_outcome, CSC.has_canonical_formatT_outcome, CSC.has_sorted_indexesT_outcome, CSC.sort_indexesT_outcome, CSC.sum_duplicatesT_outcome, CSC.mat_vecT_outcome, CSC.mat_matT_outcome, CSC.to_csrT_outcome, CSR.to_cscT_outcome, CSC.to_denseT_outcome, CSC.diagonalT_outcome]

theorem Coo.to_cscT_outcome [Zero T] [Add T] (t : IdxTy) (a : Coo T) :
    (Coo.to_cscT t a).outcome = Coo.to_csc t a := by
  unfold Coo.to_cscT Coo.to_csc
  erasem [csr_sort_indicesT_outcome, iotaT_outcome, CSR.newT_outcome, CSR.nnzT_outcome, CSR.pruneT_outcome, CSR.has_canonical_formatT_outcome, CSR.has_sorted_indexesT_outcome, CSR.sort_indexesT_outcome, CSR.sum_duplicatesT_outcome, CSR.mat_vecT_outcome, CSR.mat_matT_outcome, CSR.to_denseT_outcome, CSR.diagonalT_outcome, CSR.getT_outcome, CSC.newT_outcome, CSC.nnzT_outcome, CSR.transposeT_outcome, CSC.transposeT_outcome, CSC.pruneT_outcome, CSC.has_canonical_formatT_outcome, CSC.has_sorted_indexesT_outcome, CSC.sort_indexesT_outcome, CSC.sum_duplicatesT_outcome, CSC.mat_vecT_outcome, CSC.mat_matT_outcome, CSC.to_csrT_outcome, CSR.to_cscT_outcome, CSC.to_denseT_outcome, CSC.diagonalT_outcome, Coo.transposeT_outcome]

theorem Coo.to_csrT_outcome [Zero T] [Add T] (t : IdxTy) (a : Coo T) :
    (Coo.to_csrT t a).outcome = Coo.to_csr t a := by
  unfold Coo.to_csrT Coo.to_csr
  erasem [csr_sort_indicesT_outcome, iotaT_outcome, CSR.newT_outcome, CSR.nnzT_outcome, CSR.pruneT_outcome, CSR.has_canonical_formatT_outcome, CSR.has_sorted_indexesT_outcome, CSR.sort_indexesT_outcome, CSR.sum_duplicatesT_outcome, CSR.mat_vecT_outcome, CSR.mat_matT_outcome, CSR.to_denseT_outcome, CSR.diagonalT_outcome, CSR.getT_outcome, CSC.newT_outcome, CSC.nnzT_outcome, CSR.transposeT_outcome, CSC.transposeT_outcome, CSC.pruneT_outcome, CSC.has_canonical_formatT_outcome, CSC.has_sorted_indexesT_outcome, CSC.sort_indexesT_outcome, CSC.sum_duplicatesT_outcome, CSC.mat_vecT_outcome, CSC.mat_matT_outcome, CSC.to_csrT_outcome, CSR.to_cscT_outcome, CSC.to_denseT_outcome, CSC.diagonalT_outcome, Coo.transposeT_outcome, Coo.to_cscT_outcome]

theorem Coo.to_denseT_outcome [Zero T] [Add T] (a : Coo T) :
    (Coo.to_denseT a).outcome = Coo.to_dense a := by
  unfold Coo.to_denseT Coo.to_dense
  erasem [csr_sort_indicesT_outcome, iotaT_outcome, CSR.newT_outcome, CSR.nnzT_outcome, CSR.pruneT_outcome, CSR.has_canonical_formatT_outcome, CSR.has_sorted_indexesT_outcome, CSR.sort_indexesT_outcome, CSR.sum_duplicatesT_outcome, CSR.mat_vecT_outcome, CSR.mat_matT_outcome, CSR.to_denseT_outcome, CSR.diagonalT_outcome, CSR.getT_outcome, CSC.newT_outcome, CSC.nnzT_outcome, CSR.transposeT_outcome, CSC.transposeT_outcome, CSC.pruneT_outcome, CSC.has_canonical_formatT_outcome, CSC.has_sorted_indexesT_outcome, CSC.sort_indexesT_outcome, CSC.sum_duplicatesT_outcome, CSC.mat_vecT_outcome, CSC.mat_matT_outcome, CSC.to_csrT_outcome, CSR.to_cscT_outcome, CSC.to_denseT_outcome, CSC.diagonalT_outcome, Coo.transposeT_outcome, Coo.to_cscT_outcome, Coo.to_csrT_outcome]

theorem CSR.to_cooT_outcome (t : IdxTy) (a : CSR T) :
    (CSR.to_cooT t a).outcome = CSR.to_coo t a := by
  unfold CSR.to_cooT CSR.to_coo
  erasem [csr_sort_indicesT_outcome, iotaT_outcome, CSR.newT_outcome, CSR.nnzT_outcome, CSR.pruneT_outcome, CSR.has_canonical_formatT_outcome, CSR.has_sorted_indexesT_outcome, CSR.sort_indexesT_outcome, CSR.sum_duplicatesT_outcome, CSR.mat_vecT_outcome, CSR.mat_matT_outcome, CSR.to_denseT_outcome, CSR.diagonalT_outcome, CSR.getT_outcome, CSC.newT_outcome, CSC.nnzT_outcome, CSR.transposeT_outcome, CSC.transposeT_outcome, CSC.pruneT_outcome, CSC.has_canonical_formatT_outcome, CSC.has_sorted_indexesT_outcome, CSC.sort_indexesT_outcome, CSC.sum_duplicatesT_outcome, CSC.mat_vecT_outcome, CSC.mat_matT_outcome, CSC.to_csrT_outcome, CSR.to_cscT_outcome, CSC.to_denseT_outcome, CSC.diagonalT_outcome, Coo.transposeT_outcome, Coo.to_cscT_outcome, Coo.to_csrT_outcome, Coo.to_denseT_outcome]

theorem CSC.to_cooT_outcome [Zero T] (t : IdxTy) (a : CSC T) :
    (CSC.to_cooT t a).outcome = CSC.to_coo t a := by
  unfold CSC.to_cooT CSC.to_coo
  erasem [csr_sort_indicesT_outcome, iotaT_outcome, CSR.newT_outcome, CSR.nnzT_outcome, CSR.pruneT_outcome, CSR.has_canonical_formatT_outcome, CSR.has_sorted_indexesT_outcome, CSR.sort_indexesT_outcome, CSR.sum_duplicatesT_outcome, CSR.mat_vecT_outcome, CSR.mat_matT_outcome, CSR.to_denseT_outcome, CSR.diagonalT_outcome, CSR.getT_outcome, CSC.newT_outcome, CSC.nnzT_outcome, CSR.transposeT_outcome, CSC.transposeT_outcome, CSC.pruneT_outcome, CSC.has_canonical_formatT_outcome, CSC.has_sorted_indexesT_outcome, CSC.sort_indexesT_outcome, CSC.sum_duplicatesT_outcome, CSC.mat_vecT_outcome, CSC.mat_matT_outcome, CSC.to_csrT_outcome, CSR.to_cscT_outcome, CSC.to_denseT_outcome, CSC.diagonalT_outcome, Coo.transposeT_outcome, Coo.to_cscT_outcome, Coo.to_csrT_outcome, Coo.to_denseT_outcome, CSR.to_cooT_outcome]

theorem CSR.negT_outcome [Neg T] (a : CSR T) :
    (CSR.negT a).outcome = CSR.neg a := by
  unfold CSR.negT CSR.neg
  erasem [csr_sort_indicesT_outcome, iotaT_outcome, CSR.newT_outcome, CSR.nnzT_outcome, CSR.pruneT_outcome, CSR.has_canonical_formatT_outcome, CSR.has_sorted_indexesT_outcome, CSR.sort_indexesT_outcome, CSR.sum_duplicatesT_outcome, CSR.mat_vecT_outcome, CSR.mat_matT_outcome, CSR.to_denseT_outcome, CSR.diagonalT_outcome, CSR.getT_outcome, CSC.newT_outcome, CSC.nnzT_outcome, CSR.transposeT_outcome, CSC.transposeT_outcome, CSC.pruneT_outcome, CSC.has_canonical_formatT_outcome, CSC.has_sorted_indexesT_outcome, CSC.sort_indexesT_outcome, CSC.sum_duplicatesT_outcome, CSC.mat_vecT_outcome, CSC.mat_matT_outcome, CSC.to_csrT_outcome, CSR.to_cscT_outcome, CSC.to_denseT_outcome, CSC.diagonalT_outcome, Coo.transposeT_outcome, Coo.to_cscT_outcome, Coo.to_csrT_outcome, Coo.to_denseT_outcome, CSR.to_cooT_outcome, CSC.to_cooT_outcome]

theorem CSR.mul_scalarT_outcome [Mul T] (a : CSR T) (s : T) :
    (CSR.mul_scalarT a s).outcome = CSR.mul_scalar a s := by
  unfold CSR.mul_scalarT CSR.mul_scalar
  erasem [csr_sort_indicesT_outcome, iotaT_outcome, CSR.newT_outcome, CSR.nnzT_outcome, CSR.pruneT_outcome, CSR.has_canonical_formatT_outcome, CSR.has_sorted_indexesT_outcome, CSR.sort_indexesT_outcome, CSR.sum_duplicatesT_outcome, CSR.mat_vecT_outcome, CSR.mat_matT_outcome, CSR.to_denseT_outcome, CSR.diagonalT_outcome, CSR.getT_outcome, CSC.newT_outcome, CSC.nnzT_outcome, CSR.transposeT_outcome, CSC.transposeT_outcome, CSC.pruneT_outcome, CSC.has_canonical_formatT_outcome, CSC.has_sorted_indexesT_outcome, CSC.sort_indexesT_outcome, CSC.sum_duplicatesT_outcome, CSC.mat_vecT_outcome, CSC.mat_matT_outcome, CSC.to_csrT_outcome, CSR.to_cscT_outcome, CSC.to_denseT_outcome, CSC.diagonalT_outcome, Coo.transposeT_outcome, Coo.to_cscT_outcome, Coo.to_csrT_outcome, Coo.to_denseT_outcome, CSR.to_cooT_outcome, CSC.to_cooT_outcome, CSR.negT_outcome]

theorem CSR.addT_outcome [Zero T] [Add T] [BEq T] (t : IdxTy) (a b : CSR T) :
    (CSR.addT t a b).outcome = CSR.add t a b := by
  unfold CSR.addT CSR.add
  erasem [csr_sort_indicesT_outcome, iotaT_outcome, CSR.newT_outcome, CSR.nnzT_outcome, CSR.pruneT_outcome, CSR.has_canonical_formatT_outcome, CSR.has_sorted_indexesT_outcome, CSR.sort_indexesT_outcome, CSR.sum_duplicatesT_outcome, CSR.mat_vecT_outcome, CSR.mat_matT_outcome, CSR.to_denseT_outcome, CSR.diagonalT_outcome, CSR.getT_outcome, CSC.newT_outcome, CSC.nnzT_outcome, CSR.transposeT_outcome, CSC.transposeT_outcome, CSC.pruneT_outcome, CSC.has_canonical_formatT_outcome, CSC.has_sorted_indexesT_outcome, CSC.sort_indexesT_outcome, CSC.sum_duplicatesT_outcome, CSC.mat_vecT_outcome, CSC.mat_matT_outcome, CSC.to_csrT_outcome, CSR.to_cscT_outcome, CSC.to_denseT_outcome, CSC.diagonalT_outcome, Coo.transposeT_outcome, Coo.to_cscT_outcome, Coo.to_csrT_outcome, Coo.to_denseT_outcome, CSR.to_cooT_outcome, CSC.to_cooT_outcome, CSR.negT_outcome, CSR.mul_scalarT_outcome]
  rfl

theorem CSR.subT_outcome [Zero T] [Add T] [Sub T] [BEq T] (t : IdxTy) (a b : CSR T) :
    (CSR.subT t a b).outcome = CSR.sub t a b := by
  unfold CSR.subT CSR.sub
  erasem [csr_sort_indicesT_outcome, iotaT_outcome, CSR.newT_outcome, CSR.nnzT_outcome, CSR.pruneT_outcome, CSR.has_canonical_formatT_outcome, CSR.has_sorted_indexesT_outcome, CSR.sort_indexesT_outcome, CSR.sum_duplicatesT_outcome, CSR.mat_vecT_outcome, CSR.mat_matT_outcome, CSR.to_denseT_outcome, CSR.diagonalT_outcome, CSR.getT_outcome, CSC.newT_outcome, CSC.nnzT_outcome, CSR.transposeT_outcome, CSC.transposeT_outcome, CSC.pruneT_outcome, CSC.has_canonical_formatT_outcome, CSC.has_sorted_indexesT_outcome, CSC.sort_indexesT_outcome, CSC.sum_duplicatesT_outcome, CSC.mat_vecT_outcome, CSC.mat_matT_outcome, CSC.to_csrT_outcome, CSR.to_cscT_outcome, CSC.to_denseT_outcome, CSC.diagonalT_outcome, Coo.transposeT_outcome, Coo.to_cscT_outcome, Coo.to_csrT_outcome, Coo.to_denseT_outcome, CSR.to_cooT_outcome, CSC.to_cooT_outcome, CSR.negT_outcome, CSR.mul_scalarT_outcome, CSR.addT_outcome]
  rfl

theorem CSC.add_opT_outcome [Zero T] [Add T] [BEq T] (t : IdxTy) (a b : CSC T) :
    (CSC.add_opT t a b).outcome = CSC.add_op t a b := by
  unfold CSC.add_opT CSC.add_op
  erasem [csr_sort_indicesT_outcome, iotaT_outcome, CSR.newT_outcome, CSR.nnzT_outcome, CSR.pruneT_outcome, CSR.has_canonical_formatT_outcome, CSR.has_sorted_indexesT_outcome, CSR.sort_indexesT_outcome, CSR.sum_duplicatesT_outcome, CSR.mat_vecT_outcome, CSR.mat_matT_outcome, CSR.to_denseT_outcome, CSR.diagonalT_outcome, CSR.getT_outcome, CSC.newT_outcome, CSC.nnzT_outcome, CSR.transposeT_outcome, CSC.transposeT_outcome, CSC.pruneT_outcome, CSC.has_canonical_formatT_outcome, CSC.has_sorted_indexesT_outcome, CSC.sort_indexesT_outcome, CSC.sum_duplicatesT_outcome, CSC.mat_vecT_outcome, CSC.mat_matT_outcome, CSC.to_csrT_outcome, CSR.to_cscT_outcome, CSC.to_denseT_outcome, CSC.diagonalT_outcome, Coo.transposeT_outcome, Coo.to_cscT_outcome, Coo.to_csrT_outcome, Coo.to_denseT_outcome, CSR.to_cooT_outcome, CSC.to_cooT_outcome, CSR.negT_outcome, CSR.mul_scalarT_outcome, CSR.addT_outcome, CSR.subT_outcome]
  rfl

theorem Coo.addT_outcome [Zero T] [Add T] (t : IdxTy) (a b : Coo T) :
    (Coo.addT t a b).outcome = Coo.add t a b := by
  unfold Coo.addT Coo.add
  erasem [csr_sort_indicesT_outcome, iotaT_outcome, CSR.newT_outcome, CSR.nnzT_outcome, CSR.pruneT_outcome, CSR.has_canonical_formatT_outcome, CSR.has_sorted_indexesT_outcome, CSR.sort_indexesT_outcome, CSR.sum_duplicatesT_outcome, CSR.mat_vecT_outcome, CSR.mat_matT_outcome, CSR.to_denseT_outcome, CSR.diagonalT_outcome, CSR.getT_outcome, CSC.newT_outcome, CSC.nnzT_outcome, CSR.transposeT_outcome, CSC.transposeT_outcome, CSC.pruneT_outcome, CSC.has_canonical_formatT_outcome, CSC.has_sorted_indexesT_outcome, CSC.sort_indexesT_outcome, CSC.sum_duplicatesT_outcome, CSC.mat_vecT_outcome, CSC.mat_matT_outcome, CSC.to_csrT_outcome, CSR.to_cscT_outcome, CSC.to_denseT_outcome, CSC.diagonalT_outcome, Coo.transposeT_outcome, Coo.to_cscT_outcome, Coo.to_csrT_outcome, Coo.to_denseT_outcome, CSR.to_cooT_outcome, CSC.to_cooT_outcome, CSR.negT_outcome, CSR.mul_scalarT_outcome, CSR.addT_outcome, CSR.subT_outcome, CSC.add_opT_outcome]

theorem select_idxT_outcome (t : IdxTy) (n : Nat) (idx : Option (List Int)) : (select_idxT t n idx).outcome = select_idx t n idx := by
  unfold select_idxT select_idx
  cases idx with
  | none => exact iotaT_outcome t n
  | some idx => erasem []

theorem CSR.selectT_outcome [Zero T] (t : IdxTy) (a : CSR T) (ri ci : Option (List Int)) : (a.selectT t ri ci).outcome = a.select t ri ci := by
  unfold CSR.selectT CSR.select
  erasem [select_idxT_outcome, CSR.newT_outcome, CSR.has_canonical_formatT_outcome]

theorem CSC.selectT_outcome [Zero T] (t : IdxTy) (a : CSC T) (ri ci : Option (List Int)) : (a.selectT t ri ci).outcome = a.select t ri ci := by
  unfold CSC.selectT CSC.select
  erasem [select_idxT_outcome, CSC.has_canonical_formatT_outcome]

end
end Sparse

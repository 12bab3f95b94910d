import Verif.Lemmas.CostMatBound
import Verif.Props.CostMore
/-!
C92: the running times of the public methods, with the allocation of the result, the cloning of arrays and the sort included. A step is
defined in `Model/Cost.lean` and `Model/CostMat.lean`. The bounds hold for every outcome of the call, in both builds where `t : IdxTy`.
`a.colidx.length` (`a.rowidx.length`) is the number of stored entries, unused storage included; `K` bounds the entries of a row (column).
-/
namespace Sparse

section
variable {T : Type}

/-- C92: `CSR::mat_vec` is linear in the stored entries and the rows. -/
theorem C92_csr_mat_vec [Zero T] [Add T] [Mul T] (a : CSR T) (x : List T) (ha : Pointers a.rows a.rowptr a.colidx a.values) :
    RunsWithin (a.mat_vecT x) (a.mat_vec x) 6 (a.colidx.length + a.rows) := by
  refine ⟨CSR.mat_vecT_outcome .., Nat.le_trans (CSR.mat_vecT_tb x ha).1 ?_⟩
  have := ha.ptrAt_le
  omega

/-- C92: `CSR::has_canonical_format` is linear in the stored entries and the rows. -/
theorem C92_csr_has_canonical_format (t : IdxTy) (a : CSR T) (ha : Pointers a.rows a.rowptr a.colidx a.values)
    (hj : (a.colidx.length : Int) ≤ t.hi) :
    RunsWithin (a.has_canonical_formatT t) (a.has_canonical_format t) 6 (a.colidx.length + a.rows) := by
  refine ⟨CSR.has_canonical_formatT_outcome .., Nat.le_trans (CSR.has_canonical_formatT_tb t ha hj).1 ?_⟩
  have := ha.ptrAt_le
  omega

/-- C92: `CSR::has_sorted_indexes` is linear in the stored entries and the rows. -/
theorem C92_csr_has_sorted_indexes (t : IdxTy) (a : CSR T) (ha : Pointers a.rows a.rowptr a.colidx a.values)
    (hj : (a.colidx.length : Int) ≤ t.hi) :
    RunsWithin (a.has_sorted_indexesT t) (a.has_sorted_indexes t) 6 (a.colidx.length + a.rows) := by
  refine ⟨CSR.has_sorted_indexesT_outcome .., Nat.le_trans (CSR.has_sorted_indexesT_tb t ha hj) ?_⟩
  exact Nat.le_refl _

/-- C92: `CSR::sort_indexes` takes `O(E log K + rows)` for `E` stored entries. -/
theorem C92_csr_sort_indexes [Zero T] (a : CSR T) (ha : Pointers a.rows a.rowptr a.colidx a.values) (K : Nat)
    (hK : RowsLe a.rowptr K) :
    RunsWithin (a.sort_indexesT) (a.sort_indexes) 14 (a.colidx.length * (Nat.log2 K + 1) + a.rows) := by
  refine ⟨CSR.sort_indexesT_outcome .., Nat.le_trans (CSR.sort_indexesT_tb ha hK).1 ?_⟩
  have := mul_log_le (c := 14) (Nat.log2 K) (by decide) ha.ptrAt_le
  omega

/-- C92: `CSR::sum_duplicates` takes `O(E log K + rows)`, however the duplicates are spread. -/
theorem C92_csr_sum_duplicates [Zero T] [Add T] (t : IdxTy) (a : CSR T) (ha : Pointers a.rows a.rowptr a.colidx a.values)
    (hj : (a.colidx.length : Int) ≤ t.hi) (K : Nat) (hK : RowsLe a.rowptr K) :
    RunsWithin (a.sum_duplicatesT t) (a.sum_duplicates t) 26 (a.colidx.length * (Nat.log2 K + 1) + a.rows) := by
  refine ⟨CSR.sum_duplicatesT_outcome .., Nat.le_trans (CSR.sum_duplicatesT_tb t ha hj hK).1 ?_⟩
  have := mul_log_le (c := 24) (Nat.log2 K) (by decide) ha.ptrAt_le
  have := le_mul_log a.colidx.length (Nat.log2 K)
  omega

/-- C92: `CSR::to_csc` is linear in the stored entries, the rows and the columns. -/
theorem C92_csr_to_csc [Zero T] (t : IdxTy) (a : CSR T) (ha : Pointers a.rows a.rowptr a.colidx a.values) :
    RunsWithin (a.to_cscT t) (a.to_csc t) 14 (a.colidx.length + a.rows + a.cols) := by
  refine ⟨CSR.to_cscT_outcome .., Nat.le_trans (CSR.to_cscT_tb t ha).1 ?_⟩
  have := ha.ptrAt_le
  omega

/-- C92: `CSR::to_dense` takes `O(E + rows * cols + rows)`. -/
theorem C92_csr_to_dense [Zero T] [Add T] (a : CSR T) (ha : Pointers a.rows a.rowptr a.colidx a.values) :
    RunsWithin (a.to_denseT) (a.to_dense) 7 (a.colidx.length + a.rows * a.cols + a.rows) := by
  refine ⟨CSR.to_denseT_outcome .., Nat.le_trans (CSR.to_denseT_tb ha).1 ?_⟩
  rw [Nat.mul_add, Nat.mul_one]
  have := ha.ptrAt_le
  omega

/-- C92: `CSR::get` reads one row: `O(K)`. -/
theorem C92_csr_get [Zero T] (a : CSR T) (i j : Int) (K : Nat) (hK : RowsLe a.rowptr K) :
    RunsWithin (a.getT i j) (a.get i j) 3 (K) := by
  refine ⟨CSR.getT_outcome .., Nat.le_trans (CSR.getT_tb i j hK).1 ?_⟩
  omega

/-- C92: `-a` clones the arrays, whatever they hold. -/
theorem C92_csr_neg [Neg T] (a : CSR T) :
    RunsWithin (a.negT) (a.neg) 1 (a.rowptr.length + a.colidx.length + a.values.length) := by
  refine ⟨CSR.negT_outcome .., Nat.le_trans (CSR.negT_tb a).1 ?_⟩
  omega

/-- C92: `a * s` clones the arrays, whatever they hold. -/
theorem C92_csr_mul_scalar [Mul T] (a : CSR T) (s : T) :
    RunsWithin (a.mul_scalarT s) (a.mul_scalar s) 1 (a.rowptr.length + a.colidx.length + a.values.length) := by
  refine ⟨CSR.mul_scalarT_outcome .., Nat.le_trans (CSR.mul_scalarT_tb a s).1 ?_⟩
  omega

/-- C92: `CSR::to_coo` is linear in the stored entries and the rows. -/
theorem C92_csr_to_coo (t : IdxTy) (a : CSR T) (ha : Pointers a.rows a.rowptr a.colidx a.values) :
    RunsWithin (a.to_cooT t) (a.to_coo t) 4 (a.colidx.length + a.values.length + a.rows) := by
  refine ⟨CSR.to_cooT_outcome .., Nat.le_trans (CSR.to_cooT_tb t ha).1 ?_⟩
  have := ha.ptrAt_le
  omega

/-- C92: `CSR::diagonal` is linear in the stored entries and the length of the diagonal. -/
theorem C92_csr_diagonal [Zero T] [Add T] (a : CSR T) (ha : Pointers a.rows a.rowptr a.colidx a.values) :
    RunsWithin (a.diagonalT) (a.diagonal) 5 (a.colidx.length + min a.rows a.cols) := by
  refine ⟨CSR.diagonalT_outcome .., Nat.le_trans (CSR.diagonalT_tb ha).1 ?_⟩
  have := ha.ptrAt_le
  omega

/-- C92: `CSR::t` clones the arrays, whatever they hold. -/
theorem C92_csr_transpose (a : CSR T) :
    RunsWithin (a.transposeT) (a.transpose) 1 (a.rowptr.length + a.colidx.length + a.values.length) := by
  refine ⟨CSR.transposeT_outcome .., Nat.le_trans (CSR.transposeT_tb a).1 ?_⟩
  omega

/-- C92: the product takes `O(rows * K^2 + max(rows, cols))`, with the arrays of the result. -/
theorem C92_csr_mat_mat [Zero T] [Add T] [Mul T] [BEq T] (t : IdxTy) (a b : CSR T) (K : Nat) (ha : RowsLe a.rowptr K) (hb : RowsLe b.rowptr K) :
    RunsWithin (a.mat_matT t b) (a.mat_mat t b) 30 (a.rows * K ^ 2 + max a.rows b.cols) := by
  refine ⟨CSR.mat_matT_outcome .., Nat.le_trans (CSR.mat_matT_tb t a b ha hb).1 ?_⟩
  rw [Nat.pow_two]
  omega

/-- C92: `CSR::select` of `r` rows and `c` cols takes `O(E + rows + c + r * (K + c + 1))`. -/
theorem C92_csr_select [Zero T] (t : IdxTy) (a : CSR T) (ri ci : Option (List Int))
    (ha : Pointers a.rows a.rowptr a.colidx a.values) (hj : (a.colidx.length : Int) ≤ t.hi) (K : Nat) (hK : RowsLe a.rowptr K) :
    RunsWithin (a.selectT t ri ci) (a.select t ri ci) 13 (a.colidx.length + a.rows + selLen a.cols ci + selLen a.rows ri * (K + selLen a.cols ci + 1)) := by
  refine ⟨CSR.selectT_outcome .., Nat.le_trans (CSR.selectT_tb t ri ci ha hj hK).1 ?_⟩
  have h := ha.ptrAt_le
  generalize selLen a.cols ci = c
  generalize selLen a.rows ri = r
  simp only [Nat.add_mul, Nat.mul_add, Nat.mul_assoc, Nat.mul_one, Nat.mul_comm K, Nat.mul_comm c r]
  omega

/-- C92: operator `+` is linear in the stored entries of both operands, the rows and the columns. -/
theorem C92_csr_add [Zero T] [Add T] [BEq T] (t : IdxTy) (a b : CSR T)
    (ha : Pointers a.rows a.rowptr a.colidx a.values) (hb : Pointers b.rows b.rowptr b.colidx b.values) (hr : a.rows = b.rows)
    (hja : (a.colidx.length : Int) ≤ t.hi) (hjb : (b.colidx.length : Int) ≤ t.hi) :
    RunsWithin (a.addT t b) (a.add t b) 22 (a.colidx.length + b.colidx.length + a.rows + a.cols) := by
  refine ⟨CSR.addT_outcome .., Nat.le_trans (CSR.addT_tb t ha hb hr hja hjb).1 ?_⟩
  have := ha.ptrAt_le
  have := hb.ptrAt_le
  omega

/-- C92: operator `-` is linear in the stored entries of both operands, the rows and the columns. -/
theorem C92_csr_sub [Zero T] [Add T] [Sub T] [BEq T] (t : IdxTy) (a b : CSR T)
    (ha : Pointers a.rows a.rowptr a.colidx a.values) (hb : Pointers b.rows b.rowptr b.colidx b.values) (hr : a.rows = b.rows)
    (hja : (a.colidx.length : Int) ≤ t.hi) (hjb : (b.colidx.length : Int) ≤ t.hi) :
    RunsWithin (a.subT t b) (a.sub t b) 22 (a.colidx.length + b.colidx.length + a.rows + a.cols) := by
  refine ⟨CSR.subT_outcome .., Nat.le_trans (CSR.subT_tb t ha hb hr hja hjb).1 ?_⟩
  have := ha.ptrAt_le
  have := hb.ptrAt_le
  omega

/-- C92: `CSC::mat_vec` is linear in the stored entries, the rows and the columns. -/
theorem C92_csc_mat_vec [Zero T] [Add T] [Mul T] (a : CSC T) (x : List T) (ha : Pointers a.cols a.colptr a.rowidx a.values) :
    RunsWithin (a.mat_vecT x) (a.mat_vec x) 6 (a.rowidx.length + a.rows + a.cols) := by
  refine ⟨CSC.mat_vecT_outcome .., Nat.le_trans (CSC.mat_vecT_tb x ha).1 ?_⟩
  have := ha.ptrAt_le
  omega

/-- C92: `CSC::has_canonical_format` is linear in the stored entries and the cols. -/
theorem C92_csc_has_canonical_format (t : IdxTy) (a : CSC T) (ha : Pointers a.cols a.colptr a.rowidx a.values)
    (hj : (a.rowidx.length : Int) ≤ t.hi) :
    RunsWithin (a.has_canonical_formatT t) (a.has_canonical_format t) 6 (a.rowidx.length + a.cols) := by
  refine ⟨CSC.has_canonical_formatT_outcome .., Nat.le_trans (CSC.has_canonical_formatT_tb t ha hj).1 ?_⟩
  have := ha.ptrAt_le
  omega

/-- C92: `CSC::has_sorted_indexes` is linear in the stored entries and the cols. -/
theorem C92_csc_has_sorted_indexes (t : IdxTy) (a : CSC T) (ha : Pointers a.cols a.colptr a.rowidx a.values)
    (hj : (a.rowidx.length : Int) ≤ t.hi) :
    RunsWithin (a.has_sorted_indexesT t) (a.has_sorted_indexes t) 6 (a.rowidx.length + a.cols) := by
  refine ⟨CSC.has_sorted_indexesT_outcome .., Nat.le_trans (CSC.has_sorted_indexesT_tb t ha hj) ?_⟩
  exact Nat.le_refl _

/-- C92: `CSC::sort_indexes` takes `O(E log K + cols)` for `E` stored entries. -/
theorem C92_csc_sort_indexes [Zero T] (a : CSC T) (ha : Pointers a.cols a.colptr a.rowidx a.values) (K : Nat)
    (hK : RowsLe a.colptr K) :
    RunsWithin (a.sort_indexesT) (a.sort_indexes) 14 (a.rowidx.length * (Nat.log2 K + 1) + a.cols) := by
  refine ⟨CSC.sort_indexesT_outcome .., Nat.le_trans (CSC.sort_indexesT_tb ha hK).1 ?_⟩
  have := mul_log_le (c := 14) (Nat.log2 K) (by decide) ha.ptrAt_le
  omega

/-- C92: `CSC::sum_duplicates` takes `O(E log K + cols)`, however the duplicates are spread. -/
theorem C92_csc_sum_duplicates [Zero T] [Add T] (t : IdxTy) (a : CSC T) (ha : Pointers a.cols a.colptr a.rowidx a.values)
    (hj : (a.rowidx.length : Int) ≤ t.hi) (K : Nat) (hK : RowsLe a.colptr K) :
    RunsWithin (a.sum_duplicatesT t) (a.sum_duplicates t) 26 (a.rowidx.length * (Nat.log2 K + 1) + a.cols) := by
  refine ⟨CSC.sum_duplicatesT_outcome .., Nat.le_trans (CSC.sum_duplicatesT_tb t ha hj hK).1 ?_⟩
  have := mul_log_le (c := 24) (Nat.log2 K) (by decide) ha.ptrAt_le
  have := le_mul_log a.rowidx.length (Nat.log2 K)
  omega

/-- C92: `CSC::to_csr` is linear in the stored entries, the rows and the columns. -/
theorem C92_csc_to_csr [Zero T] (t : IdxTy) (a : CSC T) (ha : Pointers a.cols a.colptr a.rowidx a.values) :
    RunsWithin (a.to_csrT t) (a.to_csr t) 14 (a.rowidx.length + a.rows + a.cols) := by
  refine ⟨CSC.to_csrT_outcome .., Nat.le_trans (CSC.to_csrT_tb t ha).1 ?_⟩
  have := ha.ptrAt_le
  omega

/-- C92: `CSC::to_dense` takes `O(E + rows * cols + rows + cols)`: it goes through CSR. -/
theorem C92_csc_to_dense [Zero T] [Add T] (t : IntTy) (a : CSC T) (ha : a.WF t) (hc : (a.cols : Int) ≤ t.hi + 1) :
    RunsWithin (a.to_denseT t) (a.to_dense t) 21 (a.rowidx.length + a.rows * a.cols + a.rows + a.cols) := by
  refine ⟨CSC.to_denseT_outcome .., Nat.le_trans (CSC.to_denseT_tb ha hc).1 ?_⟩
  rw [Nat.mul_add, Nat.mul_one]
  have := ha.pointers.ptrAt_le
  omega

/-- C92: `CSC::to_coo` is linear in the stored entries and the columns. -/
theorem C92_csc_to_coo [Zero T] (t : IdxTy) (a : CSC T) (ha : Pointers a.cols a.colptr a.rowidx a.values) :
    RunsWithin (a.to_cooT t) (a.to_coo t) 9 (a.rowidx.length + a.cols) := by
  refine ⟨CSC.to_cooT_outcome .., Nat.le_trans (CSC.to_cooT_tb t ha).1 ?_⟩
  have := ha.ptrAt_le
  omega

/-- C92: `CSC::diagonal` is linear in the stored entries and the length of the diagonal. -/
theorem C92_csc_diagonal [Zero T] [Add T] (a : CSC T) (ha : Pointers a.cols a.colptr a.rowidx a.values) :
    RunsWithin (a.diagonalT) (a.diagonal) 5 (a.rowidx.length + min a.rows a.cols) := by
  refine ⟨CSC.diagonalT_outcome .., Nat.le_trans (CSC.diagonalT_tb ha).1 ?_⟩
  have := ha.ptrAt_le
  omega

/-- C92: `CSC::t` clones the arrays, whatever they hold. -/
theorem C92_csc_transpose (a : CSC T) :
    RunsWithin (a.transposeT) (a.transpose) 1 (a.colptr.length + a.rowidx.length + a.values.length) := by
  refine ⟨CSC.transposeT_outcome .., Nat.le_trans (CSC.transposeT_tb a).1 ?_⟩
  omega

/-- C92: the product takes `O(cols * K^2 + max(rows, cols))`, with the arrays of the result. -/
theorem C92_csc_mat_mat [Zero T] [Add T] [Mul T] [BEq T] (t : IdxTy) (a b : CSC T) (K : Nat) (ha : RowsLe a.colptr K) (hb : RowsLe b.colptr K) :
    RunsWithin (a.mat_matT t b) (a.mat_mat t b) 30 (b.cols * K ^ 2 + max a.rows b.cols) := by
  refine ⟨CSC.mat_matT_outcome .., Nat.le_trans (CSC.mat_matT_tb t a b ha hb).1 ?_⟩
  rw [Nat.pow_two]
  omega

/-- C92: `CSC::select` of `r` cols and `c` rows takes `O(E + cols + c + r * (K + c + 1))`. -/
theorem C92_csc_select [Zero T] (t : IdxTy) (a : CSC T) (ri ci : Option (List Int))
    (ha : Pointers a.cols a.colptr a.rowidx a.values) (hj : (a.rowidx.length : Int) ≤ t.hi) (K : Nat) (hK : RowsLe a.colptr K) :
    RunsWithin (a.selectT t ri ci) (a.select t ri ci) 13 (a.rowidx.length + a.cols + selLen a.rows ri + selLen a.cols ci * (K + selLen a.rows ri + 1)) := by
  refine ⟨CSC.selectT_outcome .., Nat.le_trans (CSC.selectT_tb t ri ci ha hj hK).1 ?_⟩
  have h := ha.ptrAt_le
  generalize selLen a.cols ci = c
  generalize selLen a.rows ri = r
  simp only [Nat.add_mul, Nat.mul_add, Nat.mul_assoc, Nat.mul_one, Nat.mul_comm K, Nat.mul_comm c r]
  omega

/-- C92: operator `+` is linear in the stored entries of both operands, the rows and the columns. -/
theorem C92_csc_add [Zero T] [Add T] [BEq T] (t : IdxTy) (a b : CSC T)
    (ha : Pointers a.cols a.colptr a.rowidx a.values) (hb : Pointers b.cols b.colptr b.rowidx b.values) (hr : a.cols = b.cols)
    (hja : (a.rowidx.length : Int) ≤ t.hi) (hjb : (b.rowidx.length : Int) ≤ t.hi) :
    RunsWithin (a.add_opT t b) (a.add_op t b) 22 (a.rowidx.length + b.rowidx.length + a.rows + a.cols) := by
  refine ⟨CSC.add_opT_outcome .., Nat.le_trans (CSC.add_opT_tb t ha hb hr hja hjb).1 ?_⟩
  have := ha.ptrAt_le
  have := hb.ptrAt_le
  omega

/-- C92: `Coo::to_csr` of `E` entries takes `O(E log E + rows)`, whether or not the entries fit the index type. -/
theorem C92_coo_to_csr [Zero T] [Add T] (t : IntTy) (a : Coo T) (ha : a.WF t) :
    RunsWithin (a.to_csrT t) (a.to_csr t) 41 (a.values.length * (Nat.log2 a.values.length + 1) + a.rows) := by
  refine ⟨Coo.to_csrT_outcome .., Nat.le_trans (Coo.to_csrT_tb ha).1 ?_⟩
  have := mul_log_le (c := 41) (Nat.log2 a.values.length) (by decide) (Nat.le_refl a.values.length)
  omega

/-- C92: `Coo::to_csc` of `E` entries takes `O(E log E + cols)`, whether or not the entries fit the index type. -/
theorem C92_coo_to_csc [Zero T] [Add T] (t : IntTy) (a : Coo T) (ha : a.WF t) :
    RunsWithin (a.to_cscT t) (a.to_csc t) 41 (a.values.length * (Nat.log2 a.values.length + 1) + a.cols) := by
  refine ⟨Coo.to_cscT_outcome .., Nat.le_trans (Coo.to_cscT_tb ha).1 ?_⟩
  have := mul_log_le (c := 41) (Nat.log2 a.values.length) (by decide) (Nat.le_refl a.values.length)
  omega

/-- C92: operator `+` of coordinate matrices: `O(E log E + rows)` for the entries of both. -/
theorem C92_coo_add [Zero T] [Add T] (t : IntTy) (a b : Coo T) (ha : a.WF t) (hb : b.WF t) :
    RunsWithin (a.addT t b) (a.add t b) 44 ((a.values.length + b.values.length) * (Nat.log2 (a.values.length + b.values.length) + 1) + a.rows) := by
  refine ⟨Coo.addT_outcome .., Nat.le_trans (Coo.addT_tb ha hb).1 ?_⟩
  have := mul_log_le (c := 44) (Nat.log2 (a.values.length + b.values.length)) (by decide) (Nat.le_refl (a.values.length + b.values.length))
  omega

/-- C92: `Coo::to_dense` takes `O(E + rows * cols + rows)`, whatever the arrays hold. -/
theorem C92_coo_to_dense [Zero T] [Add T] (a : Coo T) :
    RunsWithin (a.to_denseT) (a.to_dense) 8 (a.values.length + a.rows * a.cols + a.rows) := by
  refine ⟨Coo.to_denseT_outcome .., Nat.le_trans (Coo.to_denseT_tb a).1 ?_⟩
  rw [Nat.mul_add, Nat.mul_one]
  omega

/-- C92: `Coo::t` clones the arrays. -/
theorem C92_coo_transpose (a : Coo T) :
    RunsWithin (a.transposeT) (pure a.transpose) 1 (a.rowidx.length + a.colidx.length + a.values.length) := by
  refine ⟨Coo.transposeT_outcome .., Nat.le_trans (Coo.transposeT_tb a).1 ?_⟩
  omega

/-- 3 rows, the second empty, the first with two entries in one column, the third unsorted -/
def exCM : CSR Int := ⟨3, 3, [0, 3, 3, 5], [0, 2, 2, 1, 0], [1, 0, 3, 4, 5]⟩

theorem exCM_ptr : Pointers exCM.rows exCM.rowptr exCM.colidx exCM.values := ⟨rfl, rfl, exCostMore_ptr.1.mono, exCostMore_ptr.1.last⟩

theorem exCM_rows : RowsLe exCM.rowptr 3 := by
  intro i u v hu hv
  match i with
  | 0 => cases hu; cases hv; decide
  | 1 => cases hu; cases hv; decide
  | 2 => cases hu; cases hv; decide
  | i + 3 => simp [exCM] at hv

/-- the hypotheses are met, the bounds are of the order of the steps taken -/
example : RunsWithin (exCM.mat_vecT [1, 2, 3]) (exCM.mat_vec [1, 2, 3]) 6 8 ∧ (exCM.mat_vecT [1, 2, 3]).steps = 38 ∧
    exCM.mat_vec [1, 2, 3] = .ok [10, 0, 13] := ⟨C92_csr_mat_vec _ _ exCM_ptr, by decide +kernel, by decide +kernel⟩

example : RunsWithin exCM.sort_indexesT exCM.sort_indexes 14 13 := C92_csr_sort_indexes _ exCM_ptr 3 exCM_rows

example : RunsWithin (exCM.sum_duplicatesT .u8) (exCM.sum_duplicates .u8) 26 13 ∧
    (exCM.has_canonical_formatT .u8).outcome = .ok false :=
  ⟨C92_csr_sum_duplicates .u8 _ exCM_ptr (by decide) 3 exCM_rows, by decide +kernel⟩

example : RunsWithin (exCM.to_cscT .u8) (exCM.to_csc .u8) 14 11 ∧ (exCM.to_cscT .u8).steps = 113 :=
  ⟨C92_csr_to_csc .u8 _ exCM_ptr, by decide +kernel⟩

example : RunsWithin (exCM.to_denseT) (exCM.to_dense) 7 17 ∧ exCM.to_denseT.steps = 56 ∧
    exCM.to_dense = .ok [[1, 0, 3], [0, 0, 0], [5, 4, 0]] := ⟨C92_csr_to_dense _ exCM_ptr, by decide +kernel, by decide +kernel⟩

example : RunsWithin (exCM.getT 2 0) (exCM.get 2 0) 3 3 ∧ (exCM.getT 2 0).steps = 7 ∧ exCM.get 2 0 = .ok 5 :=
  ⟨C92_csr_get _ 2 0 3 exCM_rows, by decide +kernel, by decide +kernel⟩

example : RunsWithin (exCM.mat_matT .u8 exCM) (exCM.mat_mat .u8 exCM) 30 30 ∧ (exCM.mat_matT .u8 exCM).steps = 231 ∧
    (exCM.mat_mat .u8 exCM).isOk = true := ⟨C92_csr_mat_mat .u8 _ _ 3 exCM_rows exCM_rows, by decide +kernel, by decide +kernel⟩

example : RunsWithin (exCM.addT .u8 exCM) (exCM.add .u8 exCM) 22 16 ∧ (exCM.addT .u8 exCM).steps = 166 ∧
    (exCM.add .u8 exCM).isOk = true :=
  ⟨C92_csr_add .u8 _ _ exCM_ptr exCM_ptr rfl (by decide) (by decide), by decide +kernel, by decide +kernel⟩

/-- release build -/
example : RunsWithin (exCM.subT { IdxTy.u8 with wraps := true } exCM) (exCM.sub { IdxTy.u8 with wraps := true } exCM) 22 16 :=
  C92_csr_sub _ _ _ exCM_ptr exCM_ptr rfl (by decide) (by decide)

example : RunsWithin (exCM.selectT .u8 (some [2, 0]) none) (exCM.select .u8 (some [2, 0]) none) 13 25 :=
  C92_csr_select .u8 _ (some [2, 0]) none exCM_ptr (by decide) 3 exCM_rows

/-- coordinate entries that are added up -/
def exCMo : Coo Int := ⟨2, 2, [1, 0, 1], [0, 1, 0], [5, 6, 7]⟩

theorem exCMo_wf : exCMo.WF .u8 := ⟨rfl, rfl, by decide, by decide⟩

example : RunsWithin (exCMo.to_csrT .u8) (exCMo.to_csr .u8) 41 8 ∧ RunsWithin (exCMo.addT .u8 exCMo) (exCMo.add .u8 exCMo) 44 20 :=
  ⟨C92_coo_to_csr .u8 _ exCMo_wf, C92_coo_add .u8 _ _ exCMo_wf exCMo_wf⟩

example : exCMo.to_denseT.steps = 30 ∧ exCMo.to_dense = .ok [[0, 6], [12, 0]] ∧ exCMo.transposeT.steps = 9 := by decide +kernel

/-- the transposed matrix, by columns -/
def exCMc : CSC Int := ⟨3, 3, [0, 2, 2, 1, 0], [0, 3, 3, 5], [1, 0, 3, 4, 5]⟩

theorem exCMc_wf : exCMc.WF .u8 := by
  refine ⟨exCM_ptr.len, exCM_ptr.first, exCM_ptr.mono, ?_, ?_⟩
  · intro c hc
    cases hc
    decide
  · intro c k v hc hk hlt
    have : ∀ v ∈ exCMc.rowidx, 0 ≤ v ∧ v < (exCMc.rows : Int) ∧ v ≤ IntTy.u8.hi := by decide
    exact this v (List.mem_of_getElem? hk)

example : RunsWithin (exCMc.to_denseT .u8) (exCMc.to_dense .u8) 21 20 ∧ (exCMc.to_denseT .u8).steps = 169 ∧
    exCMc.to_dense .u8 = .ok [[1, 0, 5], [0, 0, 4], [3, 0, 0]] :=
  ⟨C92_csc_to_dense .u8 _ exCMc_wf (by decide), by decide +kernel, by decide +kernel⟩

example : RunsWithin (exCMc.sum_duplicatesT .u8) (exCMc.sum_duplicates .u8) 26 13 :=
  C92_csc_sum_duplicates .u8 _ exCMc_wf.pointers (by decide) 3 exCM_rows

end
end Sparse

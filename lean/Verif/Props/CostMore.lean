import Verif.Lemmas.CostMoreBound
import Verif.Props.Cost
/-!
The running times of the kernels whose documentation does not state one: conversions, scaling, format tests and in-place operations (C88),
element-wise operations (C89), selection of rows, columns and blocks (C90). Steps are those of `Model/Cost.lean` and
`Model/CostMore.lean`. The bounds hold for every outcome of the call.
-/
namespace Sparse

section
variable {T T2 : Type}

/-- C88: `csr_scale_rows` is linear, `O(nnz + n_row)`. -/
theorem C88_csr_scale_rows [Mul T] (n_row nnz : Nat) (a_p a_j : List Int) (a_x x_x : List T)
    (ha : Pointers n_row a_p a_j a_x) (hn : a_p[n_row]? = some (nnz : Int)) :
    RunsWithin (csr_scale_rowsT n_row a_p a_x x_x) (csr_scale_rows n_row a_p a_x x_x) 4 (nnz + n_row) := by
  refine ⟨csr_scale_rowsT_outcome .., Nat.le_trans (csr_scale_rowsT_tc x_x ha).1 ?_⟩
  rw [← ptrAt_of hn]
  simp
  omega

/-- C88: `csr_scale_columns` is linear in the entries, `O(nnz)`, whatever the arrays hold. -/
theorem C88_csr_scale_columns [Mul T] (n_row nnz : Nat) (a_p a_j : List Int) (a_x x_x : List T) (hn : a_p[n_row]? = some (nnz : Int)) :
    RunsWithin (csr_scale_columnsT n_row a_p a_j a_x x_x) (csr_scale_columns n_row a_p a_j a_x x_x) 6 nnz := by
  refine ⟨csr_scale_columnsT_outcome .., Nat.le_trans (csr_scale_columnsT_tc n_row a_p a_j a_x x_x).1 ?_⟩
  rw [← ptrAt_of hn]
  simp
  omega

/-- C88: `csr_todense` is linear, `O(nnz + n_row)`: the dense array is not traversed. -/
theorem C88_csr_todense [Add T] (n_row nnz : Nat) (a_p a_j : List Int) (a_x : List T) (b : List (List T))
    (ha : Pointers n_row a_p a_j a_x) (hn : a_p[n_row]? = some (nnz : Int)) :
    RunsWithin (csr_todenseT n_row a_p a_j a_x b) (csr_todense n_row a_p a_j a_x b) 7 (nnz + n_row) := by
  refine ⟨csr_todenseT_outcome .., Nat.le_trans (csr_todenseT_tc b ha).1 ?_⟩
  rw [← ptrAt_of hn]
  simp
  omega

/-- C88: `coo_todense` is linear in the entries, `O(nnz)`, in both storage orders and whatever the arrays hold. -/
theorem C88_coo_todense [Add T] (n_row n_col nnz : Nat) (a_i a_j : List Int) (a_x b : List T) (fortran : Bool) :
    RunsWithin (coo_todenseT n_row n_col nnz a_i a_j a_x b fortran) (coo_todense n_row n_col nnz a_i a_j a_x b fortran) 6 nnz := by
  refine ⟨coo_todenseT_outcome .., Nat.le_trans (coo_todenseT_tc n_row n_col nnz a_i a_j a_x b fortran).1 ?_⟩
  omega

/-- C88: `csr_tocoo` is linear, `O(nnz + n_row)`. -/
theorem C88_csr_tocoo (t : IdxTy) (n_row nnz : Nat) (a_p a_j : List Int) (a_x : List T) (b_i b_j : List Int) (b_x : List T)
    (ha : Pointers n_row a_p a_j a_x) (hn : a_p[n_row]? = some (nnz : Int)) :
    RunsWithin (csr_tocooT t n_row a_p a_j a_x b_i b_j b_x) (csr_tocoo t n_row a_p a_j a_x b_i b_j b_x) 6 (nnz + n_row) := by
  refine ⟨csr_tocooT_outcome .., Nat.le_trans (csr_tocooT_tc t b_i b_j b_x ha).1 ?_⟩
  rw [← ptrAt_of hn]
  simp
  omega

/-- C88: `csr_has_sorted_indices` is linear, `O(len(a_j) + n_row)`, also in the release build with an unsigned index type, where the bound
of its inner loop wraps around for a row that ends at 0. -/
theorem C88_csr_has_sorted_indices (t : IdxTy) (n_row : Nat) (a_p a_j : List Int) (a_x : List T)
    (ha : Pointers n_row a_p a_j a_x) (hj : (a_j.length : Int) ≤ t.hi) :
    RunsWithin (csr_has_sorted_indicesT t n_row a_p a_j) (csr_has_sorted_indices t n_row a_p a_j) 6 (a_j.length + n_row) := by
  refine ⟨csr_has_sorted_indicesT_outcome .., Nat.le_trans (csr_has_sorted_indicesT_tc t ha hj).1 ?_⟩
  have := ha.ptrAt_le
  omega

/-- C88: `csr_has_canonical_format` is linear, `O(nnz + n_row)`. -/
theorem C88_csr_has_canonical_format (t : IdxTy) (n_row nnz : Nat) (a_p a_j : List Int) (a_x : List T)
    (ha : Pointers n_row a_p a_j a_x) (hn : a_p[n_row]? = some (nnz : Int)) (hj : (a_j.length : Int) ≤ t.hi) :
    RunsWithin (csr_has_canonical_formatT t n_row a_p a_j) (csr_has_canonical_format t n_row a_p a_j) 6 (nnz + n_row) := by
  refine ⟨csr_has_canonical_formatT_outcome .., Nat.le_trans (csr_has_canonical_formatT_tc t ha hj).1 ?_⟩
  rw [← ptrAt_of hn]
  simp
  omega

/-- C88: `csr_sum_duplicates` is linear, `O(nnz + n_row)`, however the duplicates are spread. -/
theorem C88_csr_sum_duplicates [Add T] (t : IdxTy) (n_row nnz : Nat) (a_p a_j : List Int) (a_x : List T)
    (ha : Pointers n_row a_p a_j a_x) (hn : a_p[n_row]? = some (nnz : Int)) :
    RunsWithin (csr_sum_duplicatesT t n_row a_p a_j a_x) (csr_sum_duplicates t n_row a_p a_j a_x) 7 (nnz + n_row) := by
  refine ⟨csr_sum_duplicatesT_outcome .., Nat.le_trans (csr_sum_duplicatesT_tc t ha).1 ?_⟩
  rw [← ptrAt_of hn]
  simp
  omega

/-- C88: `csr_eliminate_zeros` is linear, `O(nnz + n_row)`. -/
theorem C88_csr_eliminate_zeros [Zero T] [BEq T] (t : IdxTy) (n_row nnz : Nat) (a_p a_j : List Int) (a_x : List T)
    (ha : Pointers n_row a_p a_j a_x) (hn : a_p[n_row]? = some (nnz : Int)) :
    RunsWithin (csr_eliminate_zerosT t n_row a_p a_j a_x) (csr_eliminate_zeros t n_row a_p a_j a_x) 5 (nnz + n_row) := by
  refine ⟨csr_eliminate_zerosT_outcome .., Nat.le_trans (csr_eliminate_zerosT_tc t ha).1 ?_⟩
  rw [← ptrAt_of hn]
  simp
  omega

/-- C88: the product with `n_vecs` vectors, by rows: `O(nnz * (n_vecs + 1) + n_row)`. -/
theorem C88_csr_matvecs [Add T] [Mul T] (n_row n_vecs nnz : Nat) (a_p a_j : List Int) (a_x x_x y_x : List T)
    (ha : Pointers n_row a_p a_j a_x) (hn : a_p[n_row]? = some (nnz : Int)) :
    RunsWithin (csr_matvecsT n_row n_vecs a_p a_j a_x x_x y_x) (csr_matvecs n_row n_vecs a_p a_j a_x x_x y_x)
      4 (nnz * (n_vecs + 1) + n_row) := by
  refine ⟨csr_matvecsT_outcome .., Nat.le_trans (csr_matvecsT_tc n_vecs x_x y_x ha).1 ?_⟩
  rw [← ptrAt_of hn, Int.toNat_natCast]
  simp only [Nat.add_mul, Nat.mul_add, Nat.mul_one, Nat.mul_assoc, Nat.mul_comm n_vecs nnz]
  omega

/-- C88: the product with `n_vecs` vectors, by columns: `O(nnz * (n_vecs + 1) + n_col)`. -/
theorem C88_csc_matvecs [Add T] [Mul T] (n_col n_vecs nnz : Nat) (a_p a_i : List Int) (a_x x_x y_x : List T)
    (ha : Pointers n_col a_p a_i a_x) (hn : a_p[n_col]? = some (nnz : Int)) :
    RunsWithin (csc_matvecsT n_col n_vecs a_p a_i a_x x_x y_x) (csc_matvecs n_col n_vecs a_p a_i a_x x_x y_x)
      4 (nnz * (n_vecs + 1) + n_col) := by
  refine ⟨csc_matvecsT_outcome .., Nat.le_trans (csc_matvecsT_tc n_vecs x_x y_x ha).1 ?_⟩
  rw [← ptrAt_of hn, Int.toNat_natCast]
  simp only [Nat.add_mul, Nat.mul_add, Nat.mul_one, Nat.mul_assoc, Nat.mul_comm n_vecs nnz]
  omega

/-- the hypotheses are met: 3 rows, the second empty, the third with two entries in one column -/
theorem exCostMore_ptr : Pointers 3 [0, 3, 3, 5] [0, 2, 2, 1, 1] [(1 : Int), 0, 3, 4, 5] ∧
    ([0, 3, 3, 5] : List Int)[3]? = some ((5 : Nat) : Int) ∧ (([0, 2, 2, 1, 1] : List Int).length : Int) ≤ IdxTy.u8.hi := by
  refine ⟨⟨rfl, rfl, ?_, ?_⟩, rfl, by decide⟩
  · intro i a b h1 h2
    have hi : i < 3 := by
      have := (List.getElem?_eq_some_iff.1 h2).1
      simp at this
      omega
    rcases i with _ | _ | _ | i
    · cases h1; cases h2; decide
    · cases h1; cases h2; decide
    · cases h1; cases h2; decide
    · omega
  · intro c h
    cases h
    decide

example : RunsWithin (csr_sum_duplicatesT .u8 3 [0, 3, 3, 5] [0, 2, 2, 1, 1] [(1 : Int), 0, 3, 4, 5])
      (csr_sum_duplicates .u8 3 [0, 3, 3, 5] [0, 2, 2, 1, 1] [(1 : Int), 0, 3, 4, 5]) 7 8 ∧
    (csr_sum_duplicatesT .u8 3 [0, 3, 3, 5] [0, 2, 2, 1, 1] [(1 : Int), 0, 3, 4, 5]).steps = 37 ∧
    csr_sum_duplicates .u8 3 [0, 3, 3, 5] [0, 2, 2, 1, 1] [(1 : Int), 0, 3, 4, 5] = .ok ([0, 2, 2, 3], [0, 2, 1, 1, 1], [1, 3, 9, 4, 5]) :=
  ⟨C88_csr_sum_duplicates .u8 3 5 _ _ _ exCostMore_ptr.1 exCostMore_ptr.2.1, by decide +kernel, by decide +kernel⟩

example : RunsWithin (csr_eliminate_zerosT .u8 3 [0, 3, 3, 5] [0, 2, 2, 1, 1] [(1 : Int), 0, 3, 4, 5])
      (csr_eliminate_zeros .u8 3 [0, 3, 3, 5] [0, 2, 2, 1, 1] [(1 : Int), 0, 3, 4, 5]) 5 8 ∧
    csr_eliminate_zeros .u8 3 [0, 3, 3, 5] [0, 2, 2, 1, 1] [(1 : Int), 0, 3, 4, 5] = .ok ([0, 2, 2, 4], [0, 2, 1, 1, 1], [1, 3, 4, 5, 5]) :=
  ⟨C88_csr_eliminate_zeros .u8 3 5 _ _ _ exCostMore_ptr.1 exCostMore_ptr.2.1, by decide +kernel⟩

example : RunsWithin (csr_has_sorted_indicesT .u8 3 [0, 3, 3, 5] [0, 2, 2, 1, 1]) (csr_has_sorted_indices .u8 3 [0, 3, 3, 5] [0, 2, 2, 1, 1]) 6 8 ∧
    csr_has_sorted_indices .u8 3 [0, 3, 3, 5] [0, 2, 2, 1, 1] = .ok true ∧
    (csr_has_sorted_indicesT { IdxTy.u8 with wraps := true } 2 [0, 0, 2] [0, 1]).steps = 9 :=
  ⟨C88_csr_has_sorted_indices .u8 3 _ _ [(1 : Int), 0, 3, 4, 5] exCostMore_ptr.1 exCostMore_ptr.2.2, by decide +kernel, by decide +kernel⟩

example : RunsWithin (csr_has_canonical_formatT .u8 3 [0, 3, 3, 5] [0, 2, 2, 1, 1]) (csr_has_canonical_format .u8 3 [0, 3, 3, 5] [0, 2, 2, 1, 1]) 6 8 ∧
    csr_has_canonical_format .u8 3 [0, 3, 3, 5] [0, 2, 2, 1, 1] = .ok false :=
  ⟨C88_csr_has_canonical_format .u8 3 5 _ _ [(1 : Int), 0, 3, 4, 5] exCostMore_ptr.1 exCostMore_ptr.2.1 exCostMore_ptr.2.2, by decide +kernel⟩

example : (csr_scale_rowsT 3 [0, 3, 3, 5] [(1 : Int), 0, 3, 4, 5] [2, 3, 4]).steps = 29 ∧
    csr_scale_rows 3 [0, 3, 3, 5] [(1 : Int), 0, 3, 4, 5] [2, 3, 4] = .ok [2, 0, 6, 16, 20] ∧
    (csr_scale_columnsT 3 [0, 3, 3, 5] [0, 2, 2, 1, 1] [(1 : Int), 0, 3, 4, 5] [2, 3, 4]).steps = 26 ∧
    csr_scale_columns 3 [0, 3, 3, 5] [0, 2, 2, 1, 1] [(1 : Int), 0, 3, 4, 5] [2, 3, 4] = .ok [2, 0, 12, 12, 15] ∧
    (csr_tocooT .u8 3 [0, 3, 3, 5] [0, 2, 2, 1, 1] [(1 : Int), 0, 3, 4, 5] [9, 9, 9, 9, 9] [9, 9, 9, 9, 9] [9, 9, 9, 9, 9]).steps = 39 ∧
    csr_tocoo .u8 3 [0, 3, 3, 5] [0, 2, 2, 1, 1] [(1 : Int), 0, 3, 4, 5] [9, 9, 9, 9, 9] [9, 9, 9, 9, 9] [9, 9, 9, 9, 9] =
      .ok ([0, 0, 0, 2, 2], [0, 2, 2, 1, 1], [1, 0, 3, 4, 5]) ∧
    (csr_todenseT 3 [0, 3, 3, 5] [0, 2, 2, 1, 1] [(1 : Int), 0, 3, 4, 5] [[0, 0, 0], [0, 0, 0], [0, 0, 0]]).steps = 44 ∧
    csr_todense 3 [0, 3, 3, 5] [0, 2, 2, 1, 1] [(1 : Int), 0, 3, 4, 5] [[0, 0, 0], [0, 0, 0], [0, 0, 0]] = .ok [[1, 0, 3], [0, 0, 0], [0, 9, 0]] := by
  decide +kernel

example : RunsWithin (csr_matvecsT 3 2 [0, 3, 3, 5] [0, 2, 2, 1, 1] [(1 : Int), 0, 3, 4, 5] [1, 2, 3, 4, 5, 6] [0, 0, 0, 0, 0, 0])
      (csr_matvecs 3 2 [0, 3, 3, 5] [0, 2, 2, 1, 1] [(1 : Int), 0, 3, 4, 5] [1, 2, 3, 4, 5, 6] [0, 0, 0, 0, 0, 0]) 4 18 ∧
    csr_matvecs 3 2 [0, 3, 3, 5] [0, 2, 2, 1, 1] [(1 : Int), 0, 3, 4, 5] [1, 2, 3, 4, 5, 6] [0, 0, 0, 0, 0, 0] = .ok [16, 20, 0, 0, 27, 36] :=
  ⟨C88_csr_matvecs 3 2 5 _ _ _ _ _ exCostMore_ptr.1 exCostMore_ptr.2.1, by decide +kernel⟩

example : RunsWithin (csc_matvecsT 3 2 [0, 3, 3, 5] [0, 2, 2, 1, 1] [(1 : Int), 0, 3, 4, 5] [1, 2, 3, 4, 5, 6] [0, 0, 0, 0, 0, 0])
      (csc_matvecs 3 2 [0, 3, 3, 5] [0, 2, 2, 1, 1] [(1 : Int), 0, 3, 4, 5] [1, 2, 3, 4, 5, 6] [0, 0, 0, 0, 0, 0]) 4 18 ∧
    csc_matvecs 3 2 [0, 3, 3, 5] [0, 2, 2, 1, 1] [(1 : Int), 0, 3, 4, 5] [1, 2, 3, 4, 5, 6] [0, 0, 0, 0, 0, 0] = .ok [1, 2, 45, 54, 3, 6] :=
  ⟨C88_csc_matvecs 3 2 5 _ _ _ _ _ exCostMore_ptr.1 exCostMore_ptr.2.1, by decide +kernel⟩

example : (coo_todenseT 2 2 3 [0, 1, 0] [1, 0, 1] [(3 : Int), 4, 5] [0, 0, 0, 0] true).steps = 18 ∧
    (coo_todenseT 2 2 3 [0, 1, 0] [1, 0, 1] [(3 : Int), 4, 5] [0, 0, 0, 0] true).outcome = .ok [0, 4, 8, 0] := by decide +kernel

/-- C89: an element-wise operation on operands in canonical form is linear in the rows and in the entries of both,
`O(nnz(A) + nnz(B) + n_row)`, independent of the number of columns. -/
theorem C89_csr_binop_csr_canonical [Zero T] (t : IdxTy) (n_row nnza nnzb : Nat) (a_p a_j : List Int) (a_x : List T)
    (b_p b_j : List Int) (b_x : List T) (c_p c_j : List Int) (c_x : List T2) (op : T → T → T2) (nz : T2 → Bool)
    (ha : Pointers n_row a_p a_j a_x) (hna : a_p[n_row]? = some (nnza : Int))
    (hb : Pointers n_row b_p b_j b_x) (hnb : b_p[n_row]? = some (nnzb : Int)) :
    RunsWithin (csr_binop_csr_canonicalT t n_row a_p a_j a_x b_p b_j b_x c_p c_j c_x op nz)
      (csr_binop_csr_canonical t n_row a_p a_j a_x b_p b_j b_x c_p c_j c_x op nz) 9 (nnza + nnzb + n_row) := by
  refine ⟨csr_binop_csr_canonicalT_outcome .., Nat.le_trans
    (csr_binop_csr_canonicalT_tc t n_row a_p a_j a_x b_p b_j b_x c_p c_j c_x op nz ha hb).1 ?_⟩
  rw [← ptrAt_of hna, ← ptrAt_of hnb]
  simp
  omega

/-- C89: for operands in any form, sorted or not and with duplicates or not, the operation is linear,
`O(nnz(A) + nnz(B) + n_row + n_col)`: the columns of a row are found by a linked list, not by traversing all of them. -/
theorem C89_csr_binop_csr_general [Zero T] [Add T] (t : IdxTy) (n_row n_col nnza nnzb : Nat) (a_p a_j : List Int) (a_x : List T)
    (b_p b_j : List Int) (b_x : List T) (c_p c_j : List Int) (c_x : List T2) (op : T → T → T2) (nz : T2 → Bool)
    (ha : Pointers n_row a_p a_j a_x) (hna : a_p[n_row]? = some (nnza : Int))
    (hb : Pointers n_row b_p b_j b_x) (hnb : b_p[n_row]? = some (nnzb : Int)) :
    RunsWithin (csr_binop_csr_generalT t n_row n_col a_p a_j a_x b_p b_j b_x c_p c_j c_x op nz)
      (csr_binop_csr_general t n_row n_col a_p a_j a_x b_p b_j b_x c_p c_j c_x op nz) 16 (nnza + nnzb + n_row + n_col) := by
  refine ⟨csr_binop_csr_generalT_outcome .., Nat.le_trans
    (csr_binop_csr_generalT_tc t n_row n_col a_p a_j a_x b_p b_j b_x c_p c_j c_x op nz ha hb).1 ?_⟩
  rw [← ptrAt_of hna, ← ptrAt_of hnb]
  simp
  omega

/-- C89: with the tests of the form of both operands in front, as the matrix operators call it. -/
theorem C89_csr_binop_csr [Zero T] [Add T] (t : IdxTy) (n_row n_col nnza nnzb : Nat) (a_p a_j : List Int) (a_x : List T)
    (b_p b_j : List Int) (b_x : List T) (c_p c_j : List Int) (c_x : List T2) (op : T → T → T2) (nz : T2 → Bool)
    (ha : Pointers n_row a_p a_j a_x) (hna : a_p[n_row]? = some (nnza : Int)) (hja : (a_j.length : Int) ≤ t.hi)
    (hb : Pointers n_row b_p b_j b_x) (hnb : b_p[n_row]? = some (nnzb : Int)) (hjb : (b_j.length : Int) ≤ t.hi) :
    RunsWithin (csr_binop_csrT t n_row n_col a_p a_j a_x b_p b_j b_x c_p c_j c_x op nz)
      (csr_binop_csr t n_row n_col a_p a_j a_x b_p b_j b_x c_p c_j c_x op nz) 21 (nnza + nnzb + n_row + n_col) := by
  refine ⟨csr_binop_csrT_outcome .., Nat.le_trans
    (csr_binop_csrT_tc t n_row n_col a_p a_j a_x b_p b_j b_x c_p c_j c_x op nz ha hb hja hjb).1 ?_⟩
  rw [← ptrAt_of hna, ← ptrAt_of hnb]
  simp
  omega

example : RunsWithin
      (csr_binop_csrT .u8 3 3 [0, 3, 3, 5] [0, 2, 2, 1, 1] [(1 : Int), 0, 3, 4, 5] [0, 3, 3, 5] [0, 2, 2, 1, 1] [(1 : Int), 0, 3, 4, 5]
        [9, 9, 9, 9] (List.replicate 10 9) (List.replicate 10 9) (· + ·) (· != 0))
      (csr_binop_csr .u8 3 3 [0, 3, 3, 5] [0, 2, 2, 1, 1] [(1 : Int), 0, 3, 4, 5] [0, 3, 3, 5] [0, 2, 2, 1, 1] [(1 : Int), 0, 3, 4, 5]
        [9, 9, 9, 9] (List.replicate 10 9) (List.replicate 10 9) (· + ·) (· != 0)) 21 16 ∧
    (csr_binop_csr .u8 3 3 [0, 3, 3, 5] [0, 2, 2, 1, 1] [(1 : Int), 0, 3, 4, 5] [0, 3, 3, 5] [0, 2, 2, 1, 1] [(1 : Int), 0, 3, 4, 5]
        [9, 9, 9, 9] (List.replicate 10 9) (List.replicate 10 9) (· + ·) (· != 0)) =
      .ok ([0, 2, 2, 3], [2, 0, 1, 9, 9, 9, 9, 9, 9, 9], [6, 2, 18, 9, 9, 9, 9, 9, 9, 9]) :=
  ⟨C89_csr_binop_csr .u8 3 3 5 5 _ _ _ _ _ _ _ _ _ _ _ exCostMore_ptr.1 exCostMore_ptr.2.1 exCostMore_ptr.2.2
    exCostMore_ptr.1 exCostMore_ptr.2.1 exCostMore_ptr.2.2, by decide +kernel⟩

/-- C90: `csr_row_index` costs the rows it copies: `O(k * (K + 1))` for `k` row numbers and rows of at most `K` entries, independent of
the rest of the matrix. -/
theorem C90_csr_row_index (k K : Nat) (rows : List Nat) (a_p a_j : List Int) (a_x : List T) (b_j : List Int) (b_x : List T)
    (hK : RowsLe a_p K) :
    RunsWithin (csr_row_indexT k rows a_p a_j a_x b_j b_x) (csr_row_index k rows a_p a_j a_x b_j b_x) 4 (k * (K + 1)) := by
  refine ⟨csr_row_indexT_outcome .., Nat.le_trans (csr_row_indexT_tc k rows a_p a_j a_x b_j b_x hK).1 ?_⟩
  simp only [Nat.add_mul, Nat.mul_add, Nat.mul_one, Nat.mul_assoc, Nat.mul_comm K k]
  omega

/-- C90: `csr_select` costs, for each of the `rowidx` rows, the length of the row and the number of columns asked for:
`O(|rowidx| * (K + |colidx| + 1))`. A search of the row for every column would cost `|rowidx| * K * |colidx|`. -/
theorem C90_csr_select [Zero T] (t : IdxTy) (K : Nat) (a_p a_j : List Int) (a_x : List T) (rowidx colidx : List Int)
    (b_p b_j : List Int) (b_x : List T) (hK : RowsLe a_p K) :
    RunsWithin (csr_selectT t a_p a_j a_x rowidx colidx b_p b_j b_x) (csr_select t a_p a_j a_x rowidx colidx b_p b_j b_x)
      10 (rowidx.length * (K + colidx.length + 1)) := by
  refine ⟨csr_selectT_outcome .., Nat.le_trans (csr_selectT_tc t a_p a_j a_x rowidx colidx b_p b_j b_x hK).1 ?_⟩
  simp only [Nat.add_mul, Nat.mul_add, Nat.mul_one, Nat.mul_assoc, Nat.mul_comm K, Nat.mul_comm colidx.length]
  omega

/-- C90: `get_csr_submatrix` is linear in the matrix, `O(nnz + n_row)`, whatever bounds are passed. -/
theorem C90_get_csr_submatrix [Zero T] (t : IdxTy) (n_row nnz : Nat) (a_p a_j : List Int) (a_x : List T) (ir0 ir1 ic0 ic1 : Int)
    (b_p b_j : List Int) (b_x : List T) (ha : Pointers n_row a_p a_j a_x) (hn : a_p[n_row]? = some (nnz : Int)) :
    RunsWithin (get_csr_submatrixT t a_p a_j a_x ir0 ir1 ic0 ic1 b_p b_j b_x) (get_csr_submatrix t a_p a_j a_x ir0 ir1 ic0 ic1 b_p b_j b_x)
      13 (nnz + n_row) := by
  refine ⟨get_csr_submatrixT_outcome .., Nat.le_trans (get_csr_submatrixT_tc t ir0 ir1 ic0 ic1 b_p b_j b_x ha).1 ?_⟩
  rw [← ptrAt_of hn]
  simp
  omega

/-- C90: the first pass of the selection of columns is linear, `O(n_idx + nnz + n_row + n_col)`. -/
theorem C90_csr_column_index1 (t : IdxTy) (n_idx : Nat) (cols : List Nat) (n_row n_col nnz : Nat) (a_p a_j : List Int) (a_x : List T)
    (offsets b_p : List Int) (ha : Pointers n_row a_p a_j a_x) (hn : a_p[n_row]? = some (nnz : Int)) :
    RunsWithin (csr_column_index1T t n_idx cols n_row n_col a_p a_j offsets b_p)
      (csr_column_index1 t n_idx cols n_row n_col a_p a_j offsets b_p) 4 (n_idx + nnz + n_row + n_col) := by
  refine ⟨csr_column_index1T_outcome .., Nat.le_trans (csr_column_index1T_tc t n_idx cols n_col offsets b_p ha).1 ?_⟩
  rw [← ptrAt_of hn]
  simp
  omega

/-- C90: the second pass is linear in the entries of the matrix and of the result, `O(nnz + len(b_j))`, whatever the arrays hold. -/
theorem C90_csr_column_index2 (order offsets : List Int) (nnz : Nat) (a_j : List Int) (a_x : List T) (b_j : List Int) (b_x : List T) :
    RunsWithin (csr_column_index2T order offsets nnz a_j a_x b_j b_x) (csr_column_index2 order offsets nnz a_j a_x b_j b_x)
      5 (nnz + b_j.length) := by
  refine ⟨csr_column_index2T_outcome .., Nat.le_trans (csr_column_index2T_tc order offsets nnz a_j a_x b_j b_x).1 ?_⟩
  omega

/-- the bound on the rows is met -/
theorem exCostMore_rows : RowsLe [0, 3, 3, 5] 3 := by
  intro i u v h1 h2
  have hi : i < 3 := by
    have := (List.getElem?_eq_some_iff.1 h2).1
    simp at this
    omega
  rcases i with _ | _ | _ | i
  · cases h1; cases h2; decide
  · cases h1; cases h2; decide
  · cases h1; cases h2; decide
  · omega

example : RunsWithin (csr_row_indexT 2 [2, 0] [0, 3, 3, 5] [0, 2, 2, 1, 1] [(1 : Int), 0, 3, 4, 5] [] [])
      (csr_row_index 2 [2, 0] [0, 3, 3, 5] [0, 2, 2, 1, 1] [(1 : Int), 0, 3, 4, 5] [] []) 4 8 ∧
    csr_row_index 2 [2, 0] [0, 3, 3, 5] [0, 2, 2, 1, 1] [(1 : Int), 0, 3, 4, 5] [] [] = .ok ([1, 1, 0, 2, 2], [4, 5, 1, 0, 3]) :=
  ⟨C90_csr_row_index 2 3 _ _ _ _ _ _ exCostMore_rows, by decide +kernel⟩

example : RunsWithin (csr_selectT .u8 [0, 3, 3, 5] [0, 2, 2, 1, 1] [(1 : Int), 0, 3, 4, 5] [2, 0] [2, 1] [] [] [])
      (csr_select .u8 [0, 3, 3, 5] [0, 2, 2, 1, 1] [(1 : Int), 0, 3, 4, 5] [2, 0] [2, 1] [] [] []) 10 12 ∧
    (csr_selectT .u8 [0, 3, 3, 5] [0, 2, 2, 1, 1] [(1 : Int), 0, 3, 4, 5] [2, 0] [2, 1] [] [] []).steps = 80 ∧
    csr_select .u8 [0, 3, 3, 5] [0, 2, 2, 1, 1] [(1 : Int), 0, 3, 4, 5] [2, 0] [2, 1] [] [] [] = .ok ([0, 1, 2], [1, 0], [5, 3]) :=
  ⟨C90_csr_select .u8 3 _ _ _ _ _ _ _ _ exCostMore_rows, by decide +kernel, by decide +kernel⟩

example : RunsWithin (get_csr_submatrixT .u8 [0, 3, 3, 5] [0, 2, 2, 1, 1] [(1 : Int), 0, 3, 4, 5] 1 3 1 2 [] [] [])
      (get_csr_submatrix .u8 [0, 3, 3, 5] [0, 2, 2, 1, 1] [(1 : Int), 0, 3, 4, 5] 1 3 1 2 [] [] []) 13 8 ∧
    get_csr_submatrix .u8 [0, 3, 3, 5] [0, 2, 2, 1, 1] [(1 : Int), 0, 3, 4, 5] 1 3 1 2 [] [] [] = .ok ([0, 0, 2], [0, 0], [4, 5]) :=
  ⟨C90_get_csr_submatrix .u8 3 5 _ _ _ _ _ _ _ _ _ _ exCostMore_ptr.1 exCostMore_ptr.2.1, by decide +kernel⟩

example : RunsWithin (csr_column_index1T .u8 2 [2, 1] 3 3 [0, 3, 3, 5] [0, 2, 2, 1, 1] [0, 0, 0] [9, 9, 9, 9])
      (csr_column_index1 .u8 2 [2, 1] 3 3 [0, 3, 3, 5] [0, 2, 2, 1, 1] [0, 0, 0] [9, 9, 9, 9]) 4 13 ∧
    csr_column_index1 .u8 2 [2, 1] 3 3 [0, 3, 3, 5] [0, 2, 2, 1, 1] [0, 0, 0] [9, 9, 9, 9] = .ok ([0, 1, 2], [0, 2, 2, 4]) ∧
    csr_column_index2 [1, 0] [0, 1, 2] 5 [0, 2, 2, 1, 1] [(1 : Int), 0, 3, 4, 5] [9, 9, 9, 9] [9, 9, 9, 9] =
      .ok ([0, 0, 1, 1], [0, 3, 4, 5]) ∧
    (csr_column_index2T [1, 0] [0, 1, 2] 5 [0, 2, 2, 1, 1] [(1 : Int), 0, 3, 4, 5] [9, 9, 9, 9] [9, 9, 9, 9]).steps = 39 :=
  ⟨C90_csr_column_index1 .u8 2 [2, 1] 3 3 5 _ _ [(1 : Int), 0, 3, 4, 5] _ _ exCostMore_ptr.1 exCostMore_ptr.2.1,
    by decide +kernel, by decide +kernel, by decide +kernel⟩

end
end Sparse

import Verif.Model.Graph
import Verif.Model.Complex

/-!
The crate's own unit tests and documentation examples, replayed on the model. Each `def` is one test function of /repo, written
with the model's functions in the place of the crate's; the `example` below it says that every assertion of the test holds. The
tests are checks of the model against the behaviour that the crate's authors expect. They are not part of any claim.

The `f64` values of the tests are small whole numbers, on which floating point arithmetic is exact; `Int` stands for `f64` and for
the scalar type `usize`. The index type is `usize` as in the tests.
-/

namespace Sparse
namespace Conformance

/-- src/test.rs:11. -/
def N : Nat := 4
/-- src/test.rs:12. -/
def NNZ : Nat := 8
/-- src/test.rs:14-16. -/
def diagonal : List Int := [11, 22, 33, 44]
/-- src/test.rs:22-29. -/
def dense_data : List (List Int) := [[11, 0, 0, 0], [21, 22, 0, 0], [0, 32, 33, 0], [41, 0, 43, 44]]
/-- src/test.rs:40-45. -/
def coo_data : List Int × List Int × List Int :=
  ([0, 1, 3, 1, 2, 2, 3, 3], [0, 0, 0, 1, 1, 2, 2, 3], [11, 21, 41, 22, 32, 33, 43, 44])
/-- src/test.rs:47-52. -/
def csr_data : List Int × List Int × List Int :=
  ([0, 1, 3, 5, 8], [0, 0, 1, 1, 2, 0, 2, 3], [11, 21, 22, 32, 33, 41, 43, 44])
/-- src/test.rs:54-59. -/
def csc_data : List Int × List Int × List Int :=
  ([0, 1, 3, 1, 2, 2, 3, 3], [0, 3, 5, 7, 8], [11, 21, 41, 22, 32, 33, 43, 44])

def coo0 : M (Coo Int) := Coo.new N N coo_data.1 coo_data.2.1 coo_data.2.2
def csr0 : M (CSR Int) := CSR.new N N csr_data.1 csr_data.2.1 csr_data.2.2

/-! `List.mergeSort` is defined by well-founded recursion, which the kernel does not unfold. The next definitions restate the sort of a
row, and the sort of the labels in the tests, with insertion sort, and prove that it is the same. -/

/-- Stable insertion of an element in a sorted list. -/
def insertBy (le : α → α → Bool) (a : α) : List α → List α
  | [] => [a]
  | b :: l => if le a b then a :: b :: l else b :: insertBy le a l

/-- Stable insertion sort. -/
def insertionBy (le : α → α → Bool) : List α → List α
  | [] => []
  | a :: l => insertBy le a (insertionBy le l)

theorem insertBy_append (le : α → α → Bool) (a : α) (l₁ l₂ : List α) (h₁ : ∀ b ∈ l₁, le a b = false)
    (h₂ : ∀ b ∈ l₂, le a b = true) : insertBy le a (l₁ ++ l₂) = l₁ ++ a :: l₂ := by
  induction l₁ with
  | nil =>
    cases l₂ with
    | nil => rfl
    | cons b l => simp [insertBy, h₂ b (by simp)]
  | cons b l ih =>
    simp only [List.cons_append, insertBy, h₁ b (by simp), Bool.false_eq_true, if_false]
    rw [ih fun c hc => h₁ c (by simp [hc])]

/-- The two stable sorts agree for every total order. -/
theorem mergeSort_eq_insertionBy (le : α → α → Bool) (htr : ∀ a b c, le a b = true → le b c = true → le a c = true)
    (hto : ∀ a b, (le a b || le b a) = true) (l : List α) : l.mergeSort le = insertionBy le l := by
  induction l with
  | nil => simp [insertionBy]
  | cons a l ih =>
    obtain ⟨l₁, l₂, h, h', hl⟩ := List.mergeSort_cons htr hto a l
    have hs := List.pairwise_mergeSort htr hto (a :: l)
    rw [h, List.pairwise_append, List.pairwise_cons] at hs
    rw [h, insertionBy, ← ih, h', insertBy_append le a l₁ l₂ (fun b hb => by simpa using hl b hb) hs.2.1.1]

theorem mergeSort_key (l : List (Int × T)) :
    l.mergeSort (fun a b => decide (a.1 ≤ b.1)) = insertionBy (fun a b => decide (a.1 ≤ b.1)) l :=
  mergeSort_eq_insertionBy _ (fun a b c => by simpa using Int.le_trans) (fun a b => by simpa using Int.le_total _ _) l

/-- `csr_sort_indices` with the insertion sort. -/
def csr_sort_indicesI [Zero T] (n_row : Nat) (a_p a_j0 : List Int) (a_x0 : List T) : M (List Int × List T) := do
  let mut a_j := a_j0
  let mut a_x := a_x0
  let mut temp : List (Int × T) := []
  for i in rng 0 n_row do
    let row_start ← toUsize (← a_p.rd i)
    let row_end ← toUsize (← a_p.rd (i + 1))
    temp := temp.resize (← usub row_end row_start) (0, 0)
    let mut n := 0
    for jj in rng row_start row_end do
      temp ← temp.wr n (← a_j.rd jj, (← temp.rd n).2)
      temp ← temp.wr n ((← temp.rd n).1, ← a_x.rd jj)
      n := n + 1
    temp := insertionBy (fun a b => decide (a.1 ≤ b.1)) temp
    n := 0
    for jj in rng row_start row_end do
      a_j ← a_j.wr jj (← temp.rd n).1
      a_x ← a_x.wr jj (← temp.rd n).2
      n := n + 1
  return (a_j, a_x)

theorem csr_sort_indices_eq [Zero T] (n_row : Nat) (a_p a_j0 : List Int) (a_x0 : List T) :
    csr_sort_indices n_row a_p a_j0 a_x0 = csr_sort_indicesI n_row a_p a_j0 a_x0 := by
  simp only [csr_sort_indices, csr_sort_indicesI, mergeSort_key]

/-- `CSR.sort_indexes` with the insertion sort. -/
theorem sort_indexes_eq [Zero T] (a : CSR T) : a.sort_indexes = (do
    let (colidx, values) ← csr_sort_indicesI (← usub a.rowptr.length 1) a.rowptr a.colidx a.values
    return { a with colidx, values }) := by
  simp only [CSR.sort_indexes, csr_sort_indices_eq]

/-- `CSC.sort_indexes` with the insertion sort. -/
theorem csc_sort_indexes_eq [Zero T] (a : CSC T) : a.sort_indexes = (do
    let (rowidx, values) ← csr_sort_indicesI (← usub a.colptr.length 1) a.colptr a.rowidx a.values
    return { a with rowidx, values }) := by
  simp only [CSC.sort_indexes, csr_sort_indices_eq]

/-- Labels in increasing order (`labels.sort()` in the tests). -/
def sorted (l : List Nat) : List Nat := l.mergeSort fun a b => decide (a ≤ b)

theorem sorted_eq (l : List Nat) : sorted l = insertionBy (fun a b => decide (a ≤ b)) l :=
  mergeSort_eq_insertionBy _ (fun a b c => by simpa using Nat.le_trans) (fun a b => by simpa using Nat.le_total _ _) l

/-! ### src/coo/coo_test.rs -/

/-- src/coo/coo_test.rs:5-34. -/
def coo_new : M Bool := do
  let coo ← coo0
  return coo.rows == N && coo.cols == N && coo.nnz == NNZ && (← coo.diagonal) == diagonal
example : coo_new = .ok true := by decide +kernel

/-- src/coo/coo_test.rs:36-64. -/
def coo_empty : M Bool := do
  let coo : Coo Int := Coo.with_size N N
  return coo.rows == N && coo.cols == N && coo.nnz == 0 && (← coo.diagonal) == List.replicate N 0
example : coo_empty = .ok true := by decide +kernel

/-- src/coo/coo_test.rs:66-95. -/
def coo_identity : M Bool := do
  let eye : Coo Int ← Coo.identity .usize N
  return eye.rows == N && eye.cols == N && eye.nnz == N && (← eye.diagonal) == List.replicate N 1
example : coo_identity = .ok true := by decide +kernel

/-- src/coo/coo_test.rs:97-125. -/
def coo_with_diagonal : M Bool := do
  let diag : List Int := [1, 2, 3, 4, 5, 6]
  let coo ← Coo.with_diagonal .usize diag
  return coo.rows == 6 && coo.cols == 6 && coo.nnz == 6 && (← coo.diagonal) == diag
example : coo_with_diagonal = .ok true := by decide +kernel

/-- src/coo/coo_test.rs:127-164. -/
def coo_transpose : M Bool := do
  let coo := (← coo0).transpose
  let dense ← coo.to_dense
  return coo.rows == N && coo.cols == N && coo.nnz == NNZ && (← (← dense.rd 1).rd 2) == 32
example : coo_transpose = .ok true := by decide +kernel

/-- src/coo/coo_test.rs:166-216. -/
def coo_add : M Bool := do
  let csr ← (← coo0).add .usize (← coo0).transpose
  let dense ← csr.to_dense
  return csr.rows == N && csr.cols == N && (← csr.diagonal) == diagonal.map (fun d => d + d) &&
    (← (← dense.rd 1).rd 2) == 32
example : coo_add = .ok true := by
  simp only [coo_add, Coo.add, Coo.to_csr, CSR.sum_duplicates, sort_indexes_eq]
  decide +kernel

/-- src/coo/coo_test.rs:218-225. -/
def coo_to_dense : M Bool := do
  return (← (← coo0).to_dense) == dense_data
example : coo_to_dense = .ok true := by decide +kernel

/-- src/coo/coo_test.rs:227-254. -/
def coo_to_csc : M Bool := do
  let csc ← (← coo0).to_csc .usize
  return csc.rows == N && csc.cols == N && csc.rowidx == csc_data.1 && csc.colptr == csc_data.2.1 && csc.values == csc_data.2.2
example : coo_to_csc = .ok true := by decide +kernel

/-- src/coo/coo_test.rs:256-298. -/
def coo_to_csr_sum_duplicates : M Bool := do
  let coo ← Coo.new N N (coo_data.1 ++ coo_data.1) (coo_data.2.1 ++ coo_data.2.1) (coo_data.2.2 ++ coo_data.2.2)
  let csr ← coo.to_csr .usize
  return csr.rows == N && csr.cols == N && (← csr.nnz) == NNZ &&
    (← csr.to_dense) == dense_data.map (fun row => row.map fun v => v + v)
example : coo_to_csr_sum_duplicates = .ok true := by
  simp only [coo_to_csr_sum_duplicates, Coo.to_csr, CSR.sum_duplicates, sort_indexes_eq]
  decide +kernel

/-- src/coo/coo_test.rs:300-315. -/
def coo_v_stack : M Bool := do
  let coo ← Coo.v_stack .usize (← coo0) (← coo0)
  return (← coo.to_dense) == dense_data ++ dense_data
example : coo_v_stack = .ok true := by decide +kernel

/-- src/coo/coo_test.rs:317-335. -/
def coo_h_stack : M Bool := do
  let coo ← Coo.h_stack .usize (← coo0) (← coo0)
  return (← coo.to_dense) == dense_data.map fun row => row ++ row
example : coo_h_stack = .ok true := by decide +kernel

/-! ### src/csr/csr_test.rs -/

/-- src/csr/csr_test.rs:7-37. -/
def csr_new : M Bool := do
  let csr ← csr0
  return csr.rows == N && csr.cols == N && (← csr.nnz) == NNZ && (← csr.diagonal) == diagonal
example : csr_new = .ok true := by decide +kernel

/-- src/csr/csr_test.rs:40-67. -/
def csr_with_diag : M Bool := do
  let csr ← CSR.with_diagonal .usize diagonal
  return csr.rows == N && csr.cols == N && (← csr.nnz) == N && (← csr.diagonal) == diagonal
example : csr_with_diag = .ok true := by decide +kernel

/-- The data of `csr_data` with positions 1 and 2 of the column indexes and of the values swapped (src/csr/csr_test.rs:82-84). -/
def csr_swapped : M (CSR Int) :=
  CSR.new N N csr_data.1 [0, 1, 0, 1, 2, 0, 2, 3] [11, 22, 21, 32, 33, 41, 43, 44]

/-- src/csr/csr_test.rs:69-92. -/
def csr_has_sorted_indexes : M Bool := do
  return (← (← csr0).has_sorted_indexes .usize) && !(← (← csr_swapped).has_sorted_indexes .usize)
example : csr_has_sorted_indexes = .ok true := by decide +kernel

/-- src/csr/csr_test.rs:94-108. -/
def csr_sort_indexes : M Bool := do
  let csr ← (← csr_swapped).sort_indexes
  csr.has_sorted_indexes .usize
example : csr_sort_indexes = .ok true := by
  simp only [csr_sort_indexes, sort_indexes_eq]
  decide +kernel

/-- src/csr/csr_test.rs:110-160. -/
def csr_to_coo : M Bool := do
  let coo ← (← csr0).to_coo .usize
  let dense ← coo.to_dense
  return coo.rows == N && coo.cols == N && coo.nnz == NNZ && (← coo.diagonal) == diagonal && (← (← dense.rd 2).rd 1) == 32
example : csr_to_coo = .ok true := by decide +kernel

/-- src/csr/csr_test.rs:162-200. -/
def csr_to_csc : M Bool := do
  let csc ← (← csr0).to_csc .usize
  return csc.rows == N && csc.cols == N && (← csc.nnz) == NNZ && (← csc.diagonal) == diagonal
example : csr_to_csc = .ok true := by decide +kernel

/-- src/csr/csr_test.rs:202-249. -/
def csr_transpose : M Bool := do
  let a : List (List Int) := [[1, 2, 3], [0, 2, 0]]
  let csr ← (← Coo.from_dense .usize a).to_csr .usize
  let csc ← csr.transpose
  return csc.rows == csr.cols && csc.cols == csr.rows && (← csc.nnz) == (← csr.nnz) &&
    (← csc.to_dense .usize) == [[1, 0], [2, 2], [3, 0]]
example : csr_transpose = .ok true := by decide +kernel

/-- src/csr/csr_test.rs:251-277. -/
def csr_mat_vec : M Bool := do
  let csr ← (← Coo.from_dense .usize [[(1 : Int), 2, 3], [0, 2, 0]]).to_csr .usize
  return (← csr.mat_vec [1, 2, 3]) == [14, 4]
example : csr_mat_vec = .ok true := by decide +kernel

/-- src/csr/csr_test.rs:279-305. -/
def csr_mat_mat : M Bool := do
  let a ← (← Coo.from_dense .usize [[(1 : Int), 2, 3], [4, 5, 6]]).to_csr .usize
  let b ← (← Coo.from_dense .usize [[(1 : Int), 2], [3, 4], [5, 6]]).to_csr .usize
  let c ← a.mat_mat .usize b
  return c.rows == a.rows && c.cols == b.cols && (← c.to_dense) == [[22, 28], [49, 64]]
example : csr_mat_mat = .ok true := by decide +kernel

/-- src/csr/csr_test.rs:307-347. -/
def csr_select : M Bool := do
  let sel ← (← csr0).select .usize (some [1, 2, 3]) (some [0, 1, 3])
  return sel.rows == 3 && sel.cols == 3 && (← sel.nnz) == 5 && (← sel.diagonal) == [21, 32, 44]
example : csr_select = .ok true := by decide +kernel

/-- src/csr/csr_test.rs:354-357. -/
def push_sym (coo : Coo Int) (i j : Int) : Coo Int := (coo.push i j 1).push j i 1

/-- src/csr/csr_test.rs:349-396. -/
def csr_connected_components : M Bool := do
  let coo := push_sym (push_sym (push_sym (push_sym (push_sym (push_sym (Coo.with_size 12 12) 1 2) 2 3) 4 6) 6 8) 7 10) 11 10
  let (ncc, flags) ← (← coo.to_csr .usize).connected_components .usize .isize 1000
  return ncc == 3 && decide ((← flags.rd 0) < 0) && (← flags.rd 1) == 0 && (← flags.rd 2) == 0 && (← flags.rd 3) == 0 &&
    (← flags.rd 4) == 1 && decide ((← flags.rd 5) < 0) && (← flags.rd 6) == 1 && (← flags.rd 7) == 2 && (← flags.rd 8) == 1 &&
    decide ((← flags.rd 9) < 0) && (← flags.rd 10) == 2 && (← flags.rd 11) == 2
example : csr_connected_components = .ok true := by decide +kernel

/-! ### src/csr/ccsr_test.rs -/

local instance : Zero (Cx Int) := ⟨⟨0, 0⟩⟩
local instance : Add (Cx Int) := ⟨fun a b => ⟨a.re + b.re, a.im + b.im⟩⟩

/-- src/test.rs:76-78. -/
def to_complex (floats : List Int) : List (Cx Int) := floats.map fun f => ⟨f, 0⟩

/-- src/csr/ccsr_test.rs:5-46. -/
def ccsr_new : M Bool := do
  let csr ← CSR.new N N csr_data.1 csr_data.2.1 (to_complex csr_data.2.2)
  return csr.rows == N && csr.cols == N && (← csr.nnz) == NNZ && decide ((← csr.diagonal) = to_complex diagonal)
example : ccsr_new = .ok true := by decide +kernel

/-! ### src/graph.rs -/

/-- src/graph.rs:622-632. -/
def weak_connections : M Bool := do
  let x ← CSR.from_dense .usize [[(0 : Int), 1, 0], [0, 0, 0], [0, 0, 0]]
  let (n, labels) ← connected_components .usize 100 x true .weak
  return n == 2 && labels == [0, 0, 1]
example : weak_connections = .ok true := by decide +kernel

/-- src/graph.rs:634-660. -/
def strong_connections : M Bool := do
  let x1 ← CSR.from_dense .usize [[(0 : Int), 1, 0], [0, 0, 0], [0, 0, 0]]
  let x2 ← x1.add .usize (← (← x1.transpose).to_csr .usize)
  let (n1, labels1) ← connected_components .usize 100 x1 true .strong
  let (n2, labels2) ← connected_components .usize 100 x2 true .strong
  return n1 == 3 && sorted labels1 == [0, 1, 2] && n2 == 2 && sorted labels2 == [0, 0, 1]
example : strong_connections = .ok true := by
  simp only [strong_connections, sorted_eq]
  decide +kernel

/-- src/graph.rs:662-681. -/
def strong_connections2 : M Bool := do
  let x ← CSR.from_dense .usize [[(0 : Int), 0, 0, 0, 0, 0], [1, 0, 1, 0, 0, 0], [0, 0, 0, 1, 0, 0], [0, 0, 1, 0, 1, 0],
    [0, 0, 0, 0, 0, 0], [0, 0, 0, 0, 1, 0]]
  let (n, labels) ← connected_components .usize 100 x true .strong
  return n == 5 && sorted labels == [0, 1, 2, 2, 3, 4]
example : strong_connections2 = .ok true := by
  simp only [strong_connections2, sorted_eq]
  decide +kernel

/-- src/graph.rs:683-701. -/
def weak_connections2 : M Bool := do
  let x ← CSR.from_dense .usize [[(0 : Int), 0, 0, 0, 0, 0], [1, 0, 0, 0, 0, 0], [0, 0, 0, 1, 0, 0], [0, 0, 1, 0, 1, 0],
    [0, 0, 0, 0, 0, 0], [0, 0, 0, 0, 1, 0]]
  let (n, labels) ← connected_components .usize 100 x true .weak
  return n == 2 && sorted labels == [0, 0, 1, 1, 1, 1]
example : weak_connections2 = .ok true := by
  simp only [weak_connections2, sorted_eq]
  decide +kernel

/-- src/graph.rs:40-59. -/
def doc_connected_components : M Bool := do
  let x ← CSR.from_dense .usize [[(0 : Int), 1, 1, 0, 0], [0, 0, 1, 0, 0], [0, 0, 0, 0, 0], [0, 0, 0, 0, 1], [0, 0, 0, 0, 0]]
  let (n, labels) ← connected_components .usize 100 x false .weak
  return n == 2 && labels == [0, 0, 0, 1, 1]
example : doc_connected_components = .ok true := by decide +kernel

/-- src/graph.rs:432-451. -/
def doc_depth_first_order : M Bool := do
  let x ← CSR.from_dense .usize [[(0 : Int), 1, 2, 0], [0, 0, 0, 1], [2, 0, 0, 3], [0, 0, 0, 0]]
  let (nodes, predecessors) ← depth_first_order .usize 100 x 0 true
  return nodes == [0, 1, 3, 2] && predecessors == [none, some 0, some 0, some 1]
example : doc_depth_first_order = .ok true := by decide +kernel

end Conformance
end Sparse

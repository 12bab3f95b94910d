import Verif.Model.CostMore
import Verif.Model.Mat
/-!
The methods of the matrix types with a counter of steps, allocation and cloning included. Without the counter the definitions are those of
`Model/Mat.lean`; a step is one access to an array element or one round of a loop, and an element written while a vector is allocated,
resized, cloned or mapped. Sorting `k` elements is charged `k * (log2 k + 1)` steps, the cost the standard library promises for its stable sort.
-/
namespace Sparse
open MT

/-- `v.clone()` and `v.to_vec()` -/
def copyT (l : List α) : MT (List α) := .lift l.length (pure l)
/-- `v.iter().map(f).collect()` -/
def mapT (f : α → β) (l : List α) : MT (List β) := .lift l.length (pure (l.map f))
/-- `vec![vec![x; cols]; rows]` -/
def vec2T (rows cols : Nat) (x : α) : MT (List (List α)) := .lift (rows * (cols + 1)) (pure (List.replicate rows (List.replicate cols x)))
/-- `v.sort_by(..)` on the keys, src/row.rs:235 -/
def sortT (l : List (Int × α)) : MT (List (Int × α)) :=
  .lift (l.length * (Nat.log2 l.length + 1)) (pure (l.mergeSort fun a b => decide (a.1 ≤ b.1)))
/-- `.unwrap()` of a result -/
def unwrapT (m : MT α) : MT α := (unwrapR m.outcome, m.steps)

section
variable {T : Type}

/-- src/row.rs:215-244 `csr_sort_indices` -/
def csr_sort_indicesT [Zero T] (n_row : Nat) (a_p a_j0 : List Int) (a_x0 : List T) : MT (List Int × List T) := do
  let mut a_j := a_j0
  let mut a_x := a_x0
  let mut temp : List (Int × T) := []
  for i in rng 0 n_row do
    tick
    let row_start ← toUsize (← a_p.rdT i)
    let row_end ← toUsize (← a_p.rdT (i + 1))
    temp ← temp.resizeT (← usub row_end row_start) (0, 0)
    let mut n := 0
    for jj in rng row_start row_end do
      tick
      temp ← temp.wrT n (← a_j.rdT jj, (← temp.rdT n).2)
      temp ← temp.wrT n ((← temp.rdT n).1, ← a_x.rdT jj)
      n := n + 1
    temp ← sortT temp
    n := 0
    for jj in rng row_start row_end do
      tick
      a_j ← a_j.wrT jj (← temp.rdT n).1
      a_x ← a_x.wrT jj (← temp.rdT n).2
      n := n + 1
  return (a_j, a_x)

/-- `for i in 0..n { v[i] = I::from(i).unwrap() }` as `iotaM` -/
def iotaT (t : IdxTy) (n : Nat) : MT (List Int) := do
  let mut v : List Int ← vecT n 0
  for i in rng 0 n do
    tick
    v ← v.wrT i (← t.ofUsize i)
  return v

/-- src/csr/csr.rs:306-326 and 328-344, src/csc/csc.rs:310-328 and 330-346, as `select_idx` -/
def select_idxT (t : IdxTy) (n : Nat) (idx : Option (List Int)) : MT (List Int) := do
  match idx with
  | none => iotaT t n
  | some idx =>
    for ri in idx do
      tick
      if ri < 0 then
        MT.lift 0 (throw .err)
      if ri ≥ (← t.ofUsize n) then
        MT.lift 0 (throw .err)
    return idx

/-! ### CSR -/

/-- src/csr/csr.rs:27-51: reads the last pointer -/
def CSR.newT (rows cols : Nat) (rowptr colidx : List Int) (values : List T) : MT (CSR T) := .lift 1 (CSR.new rows cols rowptr colidx values)
/-- src/csr/csr.rs:150-156: reads the last pointer -/
def CSR.nnzT (a : CSR T) : MT Nat := .lift 1 a.nnz

/-- src/csr/csr.rs:217-235 -/
def CSR.pruneT [Zero T] (a : CSR T) : MT (CSR T) := do
  if a.rowptr.length ≠ a.rows + 1 then
    MT.lift 0 (throw .err)
  let nnz ← a.nnzT
  if a.colidx.length < nnz then
    MT.lift 0 (throw .err)
  if a.values.length < nnz then
    MT.lift 0 (throw .err)
  let values ← a.values.resizeT nnz 0
  let colidx ← a.colidx.resizeT nnz 0
  return { a with values, colidx }

/-- src/csr/csr.rs:178-180 -/
def CSR.has_canonical_formatT (t : IdxTy) (a : CSR T) : MT Bool := do
  csr_has_canonical_formatT t (← usub a.rowptr.length 1) a.rowptr a.colidx
/-- src/csr/csr.rs:184-186 -/
def CSR.has_sorted_indexesT (t : IdxTy) (a : CSR T) : MT Bool := do
  csr_has_sorted_indicesT t (← usub a.rowptr.length 1) a.rowptr a.colidx

/-- src/csr/csr.rs:189-196 -/
def CSR.sort_indexesT [Zero T] (a : CSR T) : MT (CSR T) := do
  let r ← csr_sort_indicesT (← usub a.rowptr.length 1) a.rowptr a.colidx a.values
  return { a with colidx := r.1, values := r.2 }

/-- src/csr/csr.rs:199-214 -/
def CSR.sum_duplicatesT [Zero T] [Add T] (t : IdxTy) (a : CSR T) : MT (CSR T) := do
  if ← a.has_canonical_formatT t then
    return a
  let a ← a.sort_indexesT
  let r ← csr_sum_duplicatesT t a.rows a.rowptr a.colidx a.values
  CSR.pruneT { a with rowptr := r.1, colidx := r.2.1, values := r.2.2 }

/-- src/csr/csr.rs:239-258 -/
def CSR.mat_vecT [Zero T] [Add T] [Mul T] (a : CSR T) (x : List T) : MT (List T) := do
  if x.length ≠ a.cols then
    MT.lift 0 (throw .err)
  csr_matvecT a.rows a.rowptr a.colidx a.values x (← vecT a.rows 0)

/-- src/csr/csr.rs:262-295 -/
def CSR.mat_matT [Zero T] [Add T] [Mul T] [BEq T] (t : IdxTy) (a x : CSR T) : MT (CSR T) := do
  if a.cols ≠ x.rows then
    MT.lift 0 (throw .err)
  let rowptr ← vecT (a.rows + 1) 0
  let nnz ← csr_matmat_maxnnzT a.rows x.cols a.rowptr a.colidx x.rowptr x.colidx
  let r ← csr_matmatT t a.rows x.cols a.rowptr a.colidx a.values x.rowptr x.colidx x.values rowptr (← vecT nnz 0) (← vecT nnz 0)
  CSR.newT a.rows x.cols r.1 r.2.1 r.2.2

/-- src/csr/csr.rs:299-361 -/
def CSR.selectT [Zero T] (t : IdxTy) (a : CSR T) (rowidx colidx : Option (List Int)) : MT (CSR T) := do
  if !(← a.has_canonical_formatT t) then
    MT.lift 0 (throw .err)
  let rowidx ← select_idxT t a.rows rowidx
  let colidx ← select_idxT t a.cols colidx
  let r ← csr_selectT t a.rowptr a.colidx a.values rowidx colidx [] [] []
  CSR.newT rowidx.length colidx.length r.1 r.2.1 r.2.2

/-- src/csr/csr.rs:401-416 -/
def CSR.to_denseT [Zero T] [Add T] (a : CSR T) : MT (List (List T)) := do
  csr_todenseT a.rows a.rowptr a.colidx a.values (← vec2T a.rows a.cols 0)

/-- src/csr/csr.rs:419-432 -/
def CSR.diagonalT [Zero T] [Add T] (a : CSR T) : MT (List T) := do
  csr_diagonalT 0 a.rows a.cols a.rowptr a.colidx a.values (← vecT (min a.rows a.cols) 0)

/-- src/csr/csr.rs:492-506 -/
def CSR.getT [Zero T] (a : CSR T) (i j : Int) : MT T := do
  let i ← toUsize i
  let j ← toUsize j
  let start ← toUsize (← a.rowptr.rdT i)
  let stop ← toUsize (← a.rowptr.rdT (i + 1))
  for k in rng start stop do
    tick
    if (← toUsize (← a.colidx.rdT k)) = j then
      return ← a.values.rdT k
  return 0

/-! ### CSC -/

/-- src/csc/csc.rs:25-49: reads the last pointer -/
def CSC.newT (rows cols : Nat) (rowidx colptr : List Int) (values : List T) : MT (CSC T) := .lift 1 (CSC.new rows cols rowidx colptr values)
/-- src/csc/csc.rs:138-144: reads the last pointer -/
def CSC.nnzT (a : CSC T) : MT Nat := .lift 1 a.nnz

/-- src/csr/csr.rs:160-162 (and 166-175 `t`, which clones the arrays) -/
def CSR.transposeT (a : CSR T) : MT (CSC T) := do
  unwrapT (CSC.newT a.cols a.rows (← copyT a.colidx) (← copyT a.rowptr) (← copyT a.values))
/-- src/csc/csc.rs:167-176 (and 179-181 `t`, which clones the arrays) -/
def CSC.transposeT (a : CSC T) : MT (CSR T) := do
  unwrapT (CSR.newT a.cols a.rows (← copyT a.colptr) (← copyT a.rowidx) (← copyT a.values))

/-- src/csc/csc.rs:222-237 -/
def CSC.pruneT (a : CSC T) : MT (CSC T) := do
  if a.colptr.length ≠ a.cols + 1 then
    MT.lift 0 (throw .err)
  let nnz ← a.nnzT
  if a.rowidx.length < nnz then
    MT.lift 0 (throw .err)
  if a.values.length < nnz then
    MT.lift 0 (throw .err)
  let values ← a.values.sliceT 0 nnz
  let rowidx ← a.rowidx.sliceT 0 nnz
  return { a with values, rowidx }

/-- src/csc/csc.rs:184-186 -/
def CSC.has_canonical_formatT (t : IdxTy) (a : CSC T) : MT Bool := do
  csr_has_canonical_formatT t (← usub a.colptr.length 1) a.colptr a.rowidx
/-- src/csc/csc.rs:189-191 -/
def CSC.has_sorted_indexesT (t : IdxTy) (a : CSC T) : MT Bool := do
  csr_has_sorted_indicesT t (← usub a.colptr.length 1) a.colptr a.rowidx

/-- src/csc/csc.rs:194-201 -/
def CSC.sort_indexesT [Zero T] (a : CSC T) : MT (CSC T) := do
  let r ← csr_sort_indicesT (← usub a.colptr.length 1) a.colptr a.rowidx a.values
  return { a with rowidx := r.1, values := r.2 }

/-- src/csc/csc.rs:204-219 -/
def CSC.sum_duplicatesT [Zero T] [Add T] (t : IdxTy) (a : CSC T) : MT (CSC T) := do
  if ← a.has_canonical_formatT t then
    return a
  let a ← a.sort_indexesT
  let r ← csr_sum_duplicatesT t a.cols a.colptr a.rowidx a.values
  unwrapT (CSC.pruneT { a with colptr := r.1, rowidx := r.2.1, values := r.2.2 })

/-- src/csc/csc.rs:241-260 -/
def CSC.mat_vecT [Zero T] [Add T] [Mul T] (a : CSC T) (x : List T) : MT (List T) := do
  if x.length ≠ a.cols then
    MT.lift 0 (throw .err)
  csc_matvecT a.cols a.colptr a.rowidx a.values x (← vecT a.rows 0)

/-- src/csc/csc.rs:264-300 (`csc_matmat` and `csc_matmat_maxnnz`, src/col.rs:93-146, call the row kernels with the operands swapped) -/
def CSC.mat_matT [Zero T] [Add T] [Mul T] [BEq T] (t : IdxTy) (a x : CSC T) : MT (CSC T) := do
  if x.rows ≠ a.cols then
    MT.lift 0 (throw .err)
  let nnz ← csr_matmat_maxnnzT x.cols a.rows x.colptr x.rowidx a.colptr a.rowidx
  let colptr ← vecT (x.cols + 1) 0
  let r ← csr_matmatT t x.cols a.rows x.colptr x.rowidx x.values a.colptr a.rowidx a.values colptr (← vecT nnz 0) (← vecT nnz 0)
  CSC.newT a.rows x.cols r.2.1 r.1 r.2.2

/-- src/csc/csc.rs:303-371 -/
def CSC.selectT [Zero T] (t : IdxTy) (a : CSC T) (rowidx colidx : Option (List Int)) : MT (CSC T) := do
  if !(← a.has_canonical_formatT t) then
    MT.lift 0 (throw .err)
  let rowidx ← select_idxT t a.rows rowidx
  let colidx ← select_idxT t a.cols colidx
  let r ← csr_selectT t a.colptr a.rowidx a.values colidx rowidx [] [] []
  return { rows := rowidx.length, cols := colidx.length, rowidx := r.2.1, colptr := r.1, values := r.2.2 }

/-- src/csc/csc.rs:463-491 -/
def CSC.to_csrT [Zero T] (t : IdxTy) (a : CSC T) : MT (CSR T) := do
  let n1 ← a.nnzT
  let n2 ← a.nnzT
  let r ← csr_tocscT t a.cols a.rows a.colptr a.rowidx a.values (← vecT (a.rows + 1) 0) (← vecT n1 0) (← vecT n2 0)
  unwrapT (CSR.newT a.rows a.cols r.1 r.2.1 r.2.2)

/-- src/csr/csr.rs:381-398 -/
def CSR.to_cscT [Zero T] (t : IdxTy) (a : CSR T) : MT (CSC T) := do
  let n1 ← a.nnzT
  let n2 ← a.nnzT
  let r ← csr_tocscT t a.rows a.cols a.rowptr a.colidx a.values (← vecT (a.cols + 1) 0) (← vecT n1 0) (← vecT n2 0)
  unwrapT (CSC.newT a.rows a.cols r.2.1 r.1 r.2.2)

/-- src/csc/csc.rs:515-517 -/
def CSC.to_denseT [Zero T] [Add T] (t : IdxTy) (a : CSC T) : MT (List (List T)) := do
  (← a.to_csrT t).to_denseT

/-- src/csc/csc.rs:520-533 -/
def CSC.diagonalT [Zero T] [Add T] (a : CSC T) : MT (List T) := do
  csr_diagonalT 0 a.cols a.rows a.colptr a.rowidx a.values (← vecT (min a.rows a.cols) 0)

/-! ### Coo -/

/-- src/coo/coo.rs:259-267 -/
def Coo.transposeT (a : Coo T) : MT (Coo T) := do
  return { rows := a.cols, cols := a.rows, rowidx := ← copyT a.colidx, colidx := ← copyT a.rowidx, values := ← copyT a.values }

/-- src/coo/coo.rs:271-292 -/
def Coo.to_cscT [Zero T] [Add T] (t : IdxTy) (a : Coo T) : MT (CSC T) := do
  let r ← coo_tocsrT t a.cols a.nnz a.colidx a.rowidx a.values (← vecT (a.cols + 1) 0) (← vecT a.nnz 0) (← vecT a.nnz 0)
  let m ← unwrapT (CSC.newT a.rows a.cols r.2.1 r.1 r.2.2)
  m.sum_duplicatesT t

/-- src/coo/coo.rs:296-317 -/
def Coo.to_csrT [Zero T] [Add T] (t : IdxTy) (a : Coo T) : MT (CSR T) := do
  let r ← coo_tocsrT t a.rows a.nnz a.rowidx a.colidx a.values (← vecT (a.rows + 1) 0) (← vecT a.nnz 0) (← vecT a.nnz 0)
  let m ← unwrapT (CSR.newT a.rows a.cols r.1 r.2.1 r.2.2)
  unwrapT (m.sum_duplicatesT t)

/-- src/coo/coo.rs:320-333 -/
def Coo.to_denseT [Zero T] [Add T] (a : Coo T) : MT (List (List T)) := do
  let mut dense ← vec2T a.rows a.cols (0 : T)
  for n in rng 0 a.nnz do
    tick
    let i ← toUsize (← a.rowidx.rdT n)
    let j ← toUsize (← a.colidx.rdT n)
    let row ← dense.rdT i
    dense ← dense.wrT i (← row.wrT j ((← row.rdT j) + (← a.values.rdT n)))
  return dense

/-- src/csr/csr.rs:364-378 -/
def CSR.to_cooT (t : IdxTy) (a : CSR T) : MT (Coo T) := do
  let rowidx ← expandptrT t a.rows a.rowptr (← vecT a.colidx.length 0)
  unwrapT (MT.lift 0 (Coo.new a.rows a.cols rowidx (← copyT a.colidx) (← copyT a.values)))

/-- src/csc/csc.rs:494-512 -/
def CSC.to_cooT [Zero T] (t : IdxTy) (a : CSC T) : MT (Coo T) := do
  let nnz ← a.nnzT
  let r ← csr_tocooT t a.cols a.colptr a.rowidx a.values (← vecT nnz 0) (← vecT nnz 0) (← vecT nnz 0)
  unwrapT (MT.lift 0 (Coo.new a.rows a.cols r.2.1 r.1 r.2.2))

/-! ### operators -/

/-- src/csr/std_ops.rs:7-17 -/
def CSR.negT [Neg T] (a : CSR T) : MT (CSR T) := do
  unwrapT (CSR.newT a.rows a.cols (← copyT a.rowptr) (← copyT a.colidx) (← mapT (fun v => -v) a.values))
/-- src/csr/std_ops.rs:72-81 -/
def CSR.mul_scalarT [Mul T] (a : CSR T) (s : T) : MT (CSR T) := do
  unwrapT (CSR.newT a.rows a.cols (← copyT a.rowptr) (← copyT a.colidx) (← mapT (fun v => v * s) a.values))

/-- src/csr/std_ops.rs:19-41, operator `+` -/
def CSR.addT [Zero T] [Add T] [BEq T] (t : IdxTy) (a b : CSR T) : MT (CSR T) := do
  let nnz := (← a.nnzT) + (← b.nnzT)
  let r ← csr_binop_csrT t a.rows a.cols a.rowptr a.colidx a.values b.rowptr b.colidx b.values (← vecT (a.rows + 1) 0) (← vecT nnz 0)
    (← vecT nnz 0) (fun a b => a + b) nzT
  unwrapT (CSR.newT a.rows a.cols r.1 r.2.1 r.2.2)
/-- src/csr/std_ops.rs:43-65, operator `-` -/
def CSR.subT [Zero T] [Add T] [Sub T] [BEq T] (t : IdxTy) (a b : CSR T) : MT (CSR T) := do
  let nnz := (← a.nnzT) + (← b.nnzT)
  let r ← csr_binop_csrT t a.rows a.cols a.rowptr a.colidx a.values b.rowptr b.colidx b.values (← vecT (a.rows + 1) 0) (← vecT nnz 0)
    (← vecT nnz 0) (fun a b => a - b) nzT
  unwrapT (CSR.newT a.rows a.cols r.1 r.2.1 r.2.2)
/-- src/csc/std_ops.rs:20-42, operator `+` -/
def CSC.add_opT [Zero T] [Add T] [BEq T] (t : IdxTy) (a b : CSC T) : MT (CSC T) := do
  let nnz := (← a.nnzT) + (← b.nnzT)
  let r ← csr_binop_csrT t a.cols a.rows a.colptr a.rowidx a.values b.colptr b.rowidx b.values (← vecT (a.cols + 1) 0) (← vecT nnz 0)
    (← vecT nnz 0) (fun a b => a + b) nzT
  unwrapT (CSC.newT a.rows a.cols r.2.1 r.1 r.2.2)

/-- src/coo/std_ops.rs:6-28, operator `+` -/
def Coo.addT [Zero T] [Add T] (t : IdxTy) (a b : Coo T) : MT (CSR T) := do
  if a.rows ≠ b.rows then
    MT.lift 0 (throw (.panic .assert))
  if a.cols ≠ b.cols then
    MT.lift 0 (throw (.panic .assert))
  let rowidx ← copyT (a.rowidx ++ b.rowidx)
  let colidx ← copyT (a.colidx ++ b.colidx)
  let values ← copyT (a.values ++ b.values)
  let m ← unwrapT (MT.lift 0 (Coo.new a.rows a.cols rowidx colidx values))
  m.to_csrT t

end
end Sparse

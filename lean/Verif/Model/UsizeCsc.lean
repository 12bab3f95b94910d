import Verif.Model.Usize
/-!
The remaining functions whose `usize` arithmetic or requests for memory can leave the machine word: the constructors and conversions of
the column format, stacking and composing three blocks, and composing compressed matrices. Conventions as in `Verif.Model.Usize`.
-/
namespace Sparse

section
variable {T : Type}

/-- src/csc/csc.rs:25-49 -/
def CSC.newU (u : Usz) (rows cols : Nat) (rowidx colptr : List Int) (values : List T) : M (CSC T) := do
  if colptr.length ≠ (← u.add cols 1) then
    throw .err
  let nnz ← toUsize (← colptr.rd (← u.sub colptr.length 1))
  if rowidx.length < nnz then
    throw .err
  if values.length < nnz then
    throw .err
  return { rows, cols, rowidx, colptr, values }

/-- src/col.rs:120-130 `csc_matmat_maxnnz`. -/
def csc_matmat_maxnnzU (u : Usz) (n_row n_col : Nat) (a_p a_i b_p b_i : List Int) : M Nat :=
  csr_matmat_maxnnzU u n_col n_row b_p b_i a_p a_i

/-- src/csc/csc.rs:264-300; `isz` and `sz` are the sizes of an index and of a value in bytes. The memory for the work vectors of the
kernels (one element per row) is assumed to be available. -/
def CSC.mat_matU [Zero T] [Add T] [Mul T] [BEq T] (u : Usz) (isz sz : Nat) (t : IdxTy) (a x : CSC T) : M (CSC T) := do
  if x.rows ≠ a.cols then
    throw .err
  let rows := a.rows
  let cols := x.cols
  let nnz ← csc_matmat_maxnnzU u rows cols a.colptr a.rowidx x.colptr x.rowidx
  let n ← u.add cols 1
  u.cap isz n
  let colptr := List.replicate n 0
  u.cap isz nnz
  u.cap sz nnz
  let (colptr, rowidx, values) ← csc_matmat t rows cols a.colptr a.rowidx a.values
    x.colptr x.rowidx x.values colptr (List.replicate nnz 0) (List.replicate nnz 0)
  CSC.newU u rows cols rowidx colptr values

/-- src/coo/coo.rs:271-292 -/
def Coo.to_cscU [Zero T] [Add T] (u : Usz) (isz : Nat) (t : IdxTy) (a : Coo T) : M (CSC T) := do
  let nnz := a.nnz
  let n ← u.add a.cols 1
  u.cap isz n
  let (colptr, rowidx, values) ← coo_tocsr t a.cols nnz a.colidx a.rowidx a.values
    (List.replicate n 0) (List.replicate nnz 0) (List.replicate nnz 0)
  let m ← unwrapR (CSC.newU u a.rows a.cols rowidx colptr values)
  m.sum_duplicates t

/-- src/csc/csc.rs:463-480; the last entry of the column pointers may be any number, so the requests for memory are checked -/
def CSC.to_csrU [Zero T] (u : Usz) (isz sz : Nat) (t : IdxTy) (a : CSC T) : M (CSR T) := do
  let n ← u.add a.rows 1
  u.cap isz n
  let n1 ← a.nnz
  u.cap isz n1
  let n2 ← a.nnz
  u.cap sz n2
  let (rowptr, colidx, values) ← csr_tocsc t a.cols a.rows a.colptr a.rowidx a.values
    (List.replicate n 0) (List.replicate n1 0) (List.replicate n2 0)
  unwrapR (CSR.newU u a.rows a.cols rowptr colidx values)

/-- src/csr/csr.rs:381-398 -/
def CSR.to_cscU [Zero T] (u : Usz) (isz sz : Nat) (t : IdxTy) (a : CSR T) : M (CSC T) := do
  let n ← u.add a.cols 1
  u.cap isz n
  let n1 ← a.nnz
  u.cap isz n1
  let n2 ← a.nnz
  u.cap sz n2
  let (colptr, rowidx, values) ← csr_tocsc t a.rows a.cols a.rowptr a.colidx a.values
    (List.replicate n 0) (List.replicate n1 0) (List.replicate n2 0)
  unwrapR (CSC.newU u a.rows a.cols rowidx colptr values)

/-- src/csc/csc.rs:167-176 -/
def CSC.transposeU (u : Usz) (a : CSC T) : M (CSR T) :=
  unwrapR (CSR.newU u a.cols a.rows a.colptr a.rowidx a.values)

/-- src/csr/csr.rs:160-162 (and 166-175 `t`) -/
def CSR.transposeU (u : Usz) (a : CSR T) : M (CSC T) :=
  unwrapR (CSC.newU u a.cols a.rows a.colidx a.rowptr a.values)

/-- src/coo/coo.rs:439-456 -/
def Coo.v_stack3U (u : Usz) (t : IdxTy) (a b c : Coo T) : M (Coo T) := do
  if a.cols ≠ b.cols then
    throw .err
  if a.cols ≠ c.cols then
    throw .err
  Coo.v_stackU u t (← Coo.v_stackU u t a b) c

/-- src/coo/coo.rs:503-520 -/
def Coo.h_stack3U (u : Usz) (t : IdxTy) (a b c : Coo T) : M (Coo T) := do
  if a.rows ≠ b.rows then
    throw .err
  if a.rows ≠ c.rows then
    throw .err
  Coo.h_stackU u t (← Coo.h_stackU u t a b) c

/-- src/coo/coo.rs:552-557 -/
def Coo.compose3U (u : Usz) (t : IdxTy) (j11 j12 j13 j21 j22 j23 j31 j32 j33 : Coo T) : M (Coo T) := do
  let j1x ← Coo.h_stack3U u t j11 j12 j13
  let j2x ← Coo.h_stack3U u t j21 j22 j23
  let j3x ← Coo.h_stack3U u t j31 j32 j33
  Coo.v_stack3U u t j1x j2x j3x

/-- src/csr/csr.rs:115-117; `to_coo` allocates arrays as long as existing ones -/
def CSR.h_stackU [Zero T] [Add T] (u : Usz) (isz : Nat) (t : IdxTy) (a b : CSR T) : M (CSR T) := do
  let ab ← Coo.h_stackU u t (← a.to_coo t) (← b.to_coo t)
  ab.to_csrU u isz t

/-- src/csc/csc.rs:560-577; the memory for the coordinates of the four blocks is assumed to be available -/
def CSC.composeU [Zero T] [Add T] (u : Usz) (isz : Nat) (t : IdxTy) (j11 j12 j21 j22 : CSC T) : M (CSC T) := do
  let j11coo ← j11.to_coo t
  let j12coo ← j12.to_coo t
  let j21coo ← j21.to_coo t
  let j22coo ← j22.to_coo t
  let j1x ← Coo.h_stackU u t j11coo j12coo
  let j2x ← Coo.h_stackU u t j21coo j22coo
  let j ← Coo.v_stackU u t j1x j2x
  j.to_cscU u isz t

end
end Sparse

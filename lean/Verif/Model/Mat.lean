import Verif.Model.Col
/-! Model of the matrix types: src/coo/coo.rs, src/csr/csr.rs, src/csc/csc.rs and their operators in
std_ops.rs. `t` is the index type `I`. Methods taking `&mut self` return the new value of `self`.
`Clone` is the identity. -/
namespace Sparse

/-- src/coo/coo.rs:11-17 -/
structure Coo (T : Type) where
  rows : Nat
  cols : Nat
  rowidx : List Int
  colidx : List Int
  values : List T
  deriving DecidableEq, Repr

/-- src/csr/csr.rs:15-21 -/
structure CSR (T : Type) where
  rows : Nat
  cols : Nat
  rowptr : List Int
  colidx : List Int
  values : List T
  deriving DecidableEq, Repr

/-- src/csc/csc.rs:14-20 -/
structure CSC (T : Type) where
  rows : Nat
  cols : Nat
  rowidx : List Int
  colptr : List Int
  values : List T
  deriving DecidableEq, Repr

section
variable {T : Type}

/-- `for i in 0..n { v[i] = I::from(i).unwrap() }` on a vector of `n` zeros: src/csr/csr.rs:98-105,
318-320, 336-338; src/csc/csc.rs:86-93, 312-314, 330-332. -/
def iotaM (t : IdxTy) (n : Nat) : M (List Int) := do
  let mut v : List Int := List.replicate n 0
  for i in rng 0 n do
    v ← v.wr i (← t.ofUsize i)
  return v

/-! ### CSR -/

/-- src/csr/csr.rs:27-51 -/
def CSR.new (rows cols : Nat) (rowptr colidx : List Int) (values : List T) : M (CSR T) := do
  if rowptr.length ≠ rows + 1 then
    throw .err
  let nnz ← toUsize (← rowptr.rd (← usub rowptr.length 1))
  if colidx.length < nnz then
    throw .err
  if values.length < nnz then
    throw .err
  return { rows, cols, rowptr, colidx, values }

/-- src/csr/csr.rs:53-61 -/
def CSR.with_size (rows cols : Nat) : CSR T :=
  { rows, cols, rowptr := List.replicate (rows + 1) 0, colidx := [], values := [] }

/-- src/csr/csr.rs:150-156 -/
def CSR.nnz (a : CSR T) : M Nat := do
  if a.rowptr.isEmpty then
    return 0
  else
    toUsize (← a.rowptr.rd (← usub a.rowptr.length 1))

/-- src/csr/csr.rs:217-235 -/
def CSR.prune [Zero T] (a : CSR T) : M (CSR T) := do
  if a.rowptr.length ≠ a.rows + 1 then
    throw .err
  let nnz ← a.nnz
  if a.colidx.length < nnz then
    throw .err
  if a.values.length < nnz then
    throw .err
  return { a with values := a.values.resize nnz 0, colidx := a.colidx.resize nnz 0 }

/-- src/csr/csr.rs:63-92. The row is read as `a[i][j]`. -/
def CSR.from_dense [Zero T] [BEq T] (t : IdxTy) (a : List (List T)) : M (CSR T) := do
  let rows := a.length
  let cols := (← a.rd 0).length
  let mut rowptr : List Int := []
  let mut colidx : List Int := []
  let mut values : List T := []
  let mut idxptr : Nat := 0
  for i in rng 0 rows do
    rowptr := rowptr ++ [← t.ofUsize idxptr]
    for j in rng 0 cols do
      if (← (← a.rd i).rd j) != 0 then
        values := values ++ [← (← a.rd i).rd j]
        colidx := colidx ++ [← t.ofUsize j]
        idxptr := idxptr + 1
  rowptr := rowptr ++ [← t.ofUsize idxptr]
  unwrapR (CSR.prune { rows, cols, rowptr, colidx, values })

/-- src/csr/csr.rs:96-113 -/
def CSR.with_diagonal (t : IdxTy) (values : List T) : M (CSR T) := do
  let n := values.length
  let rowptr ← iotaM t (n + 1)
  let colidx ← iotaM t n
  return { rows := n, cols := n, rowptr, colidx, values }

/-- src/csr/csr.rs:178-180 -/
def CSR.has_canonical_format (t : IdxTy) (a : CSR T) : M Bool := do
  csr_has_canonical_format t (← usub a.rowptr.length 1) a.rowptr a.colidx

/-- src/csr/csr.rs:184-186 -/
def CSR.has_sorted_indexes (t : IdxTy) (a : CSR T) : M Bool := do
  csr_has_sorted_indices t (← usub a.rowptr.length 1) a.rowptr a.colidx

/-- src/csr/csr.rs:189-196 -/
def CSR.sort_indexes [Zero T] (a : CSR T) : M (CSR T) := do
  let (colidx, values) ← csr_sort_indices (← usub a.rowptr.length 1) a.rowptr a.colidx a.values
  return { a with colidx, values }

/-- src/csr/csr.rs:199-214 -/
def CSR.sum_duplicates [Zero T] [Add T] (t : IdxTy) (a : CSR T) : M (CSR T) := do
  if ← a.has_canonical_format t then
    return a
  let a ← a.sort_indexes
  let (rowptr, colidx, values) ← csr_sum_duplicates t a.rows a.rowptr a.colidx a.values
  CSR.prune { a with rowptr, colidx, values }

/-- src/csr/csr.rs:239-258 -/
def CSR.mat_vec [Zero T] [Add T] [Mul T] (a : CSR T) (x : List T) : M (List T) := do
  if x.length ≠ a.cols then
    throw .err
  csr_matvec a.rows a.rowptr a.colidx a.values x (List.replicate a.rows 0)

/-- src/csr/csr.rs:262-295 -/
def CSR.mat_mat [Zero T] [Add T] [Mul T] [BEq T] (t : IdxTy) (a x : CSR T) :
    M (CSR T) := do
  if a.cols ≠ x.rows then
    throw .err
  let rows := a.rows
  let cols := x.cols
  let rowptr := List.replicate (rows + 1) 0
  let nnz ← csr_matmat_maxnnz rows cols a.rowptr a.colidx x.rowptr x.colidx
  let (rowptr, colidx, values) ← csr_matmat t rows cols a.rowptr a.colidx a.values
    x.rowptr x.colidx x.values rowptr (List.replicate nnz 0) (List.replicate nnz 0)
  CSR.new rows cols rowptr colidx values

/-- The index argument of `select`: src/csr/csr.rs:306-326 and 328-344, src/csc/csc.rs:310-328 and
330-346. -/
def select_idx (t : IdxTy) (n : Nat) (idx : Option (List Int)) : M (List Int) := do
  match idx with
  | none => iotaM t n
  | some idx =>
    for ri in idx do
      if ri < 0 then
        throw .err
      if ri ≥ (← t.ofUsize n) then
        throw .err
    return idx

/-- src/csr/csr.rs:299-361 -/
def CSR.select [Zero T] (t : IdxTy) (a : CSR T) (rowidx colidx : Option (List Int)) :
    M (CSR T) := do
  if !(← a.has_canonical_format t) then
    throw .err
  let rowidx ← select_idx t a.rows rowidx
  let colidx ← select_idx t a.cols colidx
  let (b_p, b_j, b_x) ← csr_select t a.rowptr a.colidx a.values rowidx colidx [] [] []
  CSR.new rowidx.length colidx.length b_p b_j b_x

/-- src/csr/csr.rs:401-416 -/
def CSR.to_dense [Zero T] [Add T] (a : CSR T) : M (List (List T)) :=
  csr_todense a.rows a.rowptr a.colidx a.values (List.replicate a.rows (List.replicate a.cols 0))

/-- src/csr/csr.rs:419-432 -/
def CSR.diagonal [Zero T] [Add T] (a : CSR T) : M (List T) :=
  csr_diagonal 0 a.rows a.cols a.rowptr a.colidx a.values
    (List.replicate (min a.rows a.cols) 0)

/-- src/csr/csr.rs:492-506 -/
def CSR.get [Zero T] (a : CSR T) (i j : Int) : M T := do
  let i ← toUsize i
  let j ← toUsize j
  let start ← toUsize (← a.rowptr.rd i)
  let stop ← toUsize (← a.rowptr.rd (i + 1))
  for k in rng start stop do
    if (← toUsize (← a.colidx.rd k)) = j then
      return ← a.values.rd k
  return 0

/-! ### CSC -/

/-- src/csc/csc.rs:25-49 -/
def CSC.new (rows cols : Nat) (rowidx colptr : List Int) (values : List T) : M (CSC T) := do
  if colptr.length ≠ cols + 1 then
    throw .err
  let nnz ← toUsize (← colptr.rd (← usub colptr.length 1))
  if rowidx.length < nnz then
    throw .err
  if values.length < nnz then
    throw .err
  return { rows, cols, rowidx, colptr, values }

/-- src/csc/csc.rs:138-144 -/
def CSC.nnz (a : CSC T) : M Nat := do
  if a.colptr.length = 0 then
    return 0
  else
    toUsize (← a.colptr.rd (← usub a.colptr.length 1))

/-- src/csc/csc.rs:222-237 -/
def CSC.prune (a : CSC T) : M (CSC T) := do
  if a.colptr.length ≠ a.cols + 1 then
    throw .err
  let nnz ← a.nnz
  if a.rowidx.length < nnz then
    throw .err
  if a.values.length < nnz then
    throw .err
  return { a with values := ← a.values.slice 0 nnz, rowidx := ← a.rowidx.slice 0 nnz }

/-- src/csc/csc.rs:51-80 -/
def CSC.from_dense [Zero T] [BEq T] (t : IdxTy) (a : List (List T)) : M (CSC T) := do
  let rows := a.length
  let cols := (← a.rd 0).length
  let mut colptr : List Int := []
  let mut rowidx : List Int := []
  let mut values : List T := []
  let mut idxptr : Nat := 0
  for i in rng 0 cols do
    colptr := colptr ++ [← t.ofUsize idxptr]
    for j in rng 0 rows do
      if (← (← a.rd j).rd i) != 0 then
        values := values ++ [← (← a.rd j).rd i]
        rowidx := rowidx ++ [← t.ofUsize j]
        idxptr := idxptr + 1
  colptr := colptr ++ [← t.ofUsize idxptr]
  unwrapR (CSC.prune { rows, cols, rowidx, colptr, values })

/-- src/csc/csc.rs:84-101 -/
def CSC.with_diagonal (t : IdxTy) (values : List T) : M (CSC T) := do
  let n := values.length
  let rowidx ← iotaM t n
  let colptr ← iotaM t (n + 1)
  return { rows := n, cols := n, rowidx, colptr, values }

/-- src/csc/csc.rs:167-176 (and 179-181 `t`) -/
def CSC.transpose (a : CSC T) : M (CSR T) :=
  unwrapR (CSR.new a.cols a.rows a.colptr a.rowidx a.values)

/-- src/csr/csr.rs:160-162 (and 166-175 `t`) -/
def CSR.transpose (a : CSR T) : M (CSC T) :=
  unwrapR (CSC.new a.cols a.rows a.colidx a.rowptr a.values)

/-- src/csc/csc.rs:184-186 -/
def CSC.has_canonical_format (t : IdxTy) (a : CSC T) : M Bool := do
  csr_has_canonical_format t (← usub a.colptr.length 1) a.colptr a.rowidx

/-- src/csc/csc.rs:189-191 -/
def CSC.has_sorted_indexes (t : IdxTy) (a : CSC T) : M Bool := do
  csr_has_sorted_indices t (← usub a.colptr.length 1) a.colptr a.rowidx

/-- src/csc/csc.rs:194-201 -/
def CSC.sort_indexes [Zero T] (a : CSC T) : M (CSC T) := do
  let (rowidx, values) ← csr_sort_indices (← usub a.colptr.length 1) a.colptr a.rowidx a.values
  return { a with rowidx, values }

/-- src/csc/csc.rs:204-219 -/
def CSC.sum_duplicates [Zero T] [Add T] (t : IdxTy) (a : CSC T) : M (CSC T) := do
  if ← a.has_canonical_format t then
    return a
  let a ← a.sort_indexes
  let (colptr, rowidx, values) ← csr_sum_duplicates t a.cols a.colptr a.rowidx a.values
  unwrapR (CSC.prune { a with colptr, rowidx, values })

/-- src/csc/csc.rs:241-260 -/
def CSC.mat_vec [Zero T] [Add T] [Mul T] (a : CSC T) (x : List T) : M (List T) := do
  if x.length ≠ a.cols then
    throw .err
  csc_matvec a.cols a.colptr a.rowidx a.values x (List.replicate a.rows 0)

/-- src/csc/csc.rs:264-300 -/
def CSC.mat_mat [Zero T] [Add T] [Mul T] [BEq T] (t : IdxTy) (a x : CSC T) :
    M (CSC T) := do
  if x.rows ≠ a.cols then
    throw .err
  let rows := a.rows
  let cols := x.cols
  let nnz ← csc_matmat_maxnnz rows cols a.colptr a.rowidx x.colptr x.rowidx
  let colptr := List.replicate (cols + 1) 0
  let (colptr, rowidx, values) ← csc_matmat t rows cols a.colptr a.rowidx a.values
    x.colptr x.rowidx x.values colptr (List.replicate nnz 0) (List.replicate nnz 0)
  CSC.new rows cols rowidx colptr values

/-- src/csc/csc.rs:303-371 -/
def CSC.select [Zero T] (t : IdxTy) (a : CSC T) (rowidx colidx : Option (List Int)) :
    M (CSC T) := do
  if !(← a.has_canonical_format t) then
    throw .err
  let rowidx ← select_idx t a.rows rowidx
  let colidx ← select_idx t a.cols colidx
  let (b_p, b_j, b_x) ← csr_select t a.colptr a.rowidx a.values colidx rowidx [] [] []
  return { rows := rowidx.length, cols := colidx.length, rowidx := b_j, colptr := b_p, values := b_x }

/-- src/csc/csc.rs:374-415 -/
def CSC.add [Zero T] [Add T] [BEq T] (t : IdxTy) (a x : CSC T) : M (CSC T) := do
  if x.rows ≠ a.rows ∨ x.cols ≠ a.cols then
    throw .err
  let maxnnz := (← a.nnz) + (← x.nnz)
  let (colptr, rowidx, values) ← csr_add_csr t a.cols a.rows a.colptr a.rowidx a.values
    x.colptr x.rowidx x.values (List.replicate a.colptr.length 0) (List.replicate maxnnz 0)
    (List.replicate maxnnz 0)
  let newnnz ← toUsize (← colptr.rd a.cols)
  let rowidx ← rowidx.slice 0 newnnz
  let values ← values.slice 0 newnnz
  CSC.new a.rows a.cols rowidx colptr values

/-- src/csc/csc.rs:419-460 -/
def CSC.subtract [Zero T] [Add T] [Sub T] [BEq T] (t : IdxTy) (a x : CSC T) :
    M (CSC T) := do
  if x.rows ≠ a.rows ∨ x.cols ≠ a.cols then
    throw .err
  let maxnnz := (← a.nnz) + (← x.nnz)
  let (colptr, rowidx, values) ← csr_sub_csr t a.cols a.rows a.colptr a.rowidx a.values
    x.colptr x.rowidx x.values (List.replicate a.colptr.length 0) (List.replicate maxnnz 0)
    (List.replicate maxnnz 0)
  let newnnz ← toUsize (← colptr.rd a.cols)
  let rowidx ← rowidx.slice 0 newnnz
  let values ← values.slice 0 newnnz
  CSC.new a.rows a.cols rowidx colptr values

/-- src/csc/csc.rs:463-491 -/
def CSC.to_csr [Zero T] (t : IdxTy) (a : CSC T) : M (CSR T) := do
  let n1 ← a.nnz
  let n2 ← a.nnz
  let (rowptr, colidx, values) ← csr_tocsc t a.cols a.rows a.colptr a.rowidx a.values
    (List.replicate (a.rows + 1) 0) (List.replicate n1 0) (List.replicate n2 0)
  unwrapR (CSR.new a.rows a.cols rowptr colidx values)

/-- src/csr/csr.rs:381-398 -/
def CSR.to_csc [Zero T] (t : IdxTy) (a : CSR T) : M (CSC T) := do
  let n1 ← a.nnz
  let n2 ← a.nnz
  let (colptr, rowidx, values) ← csr_tocsc t a.rows a.cols a.rowptr a.colidx a.values
    (List.replicate (a.cols + 1) 0) (List.replicate n1 0) (List.replicate n2 0)
  unwrapR (CSC.new a.rows a.cols rowidx colptr values)

/-- src/csc/csc.rs:515-517 -/
def CSC.to_dense [Zero T] [Add T] (t : IdxTy) (a : CSC T) : M (List (List T)) := do
  (← a.to_csr t).to_dense

/-- src/csc/csc.rs:520-533 -/
def CSC.diagonal [Zero T] [Add T] (a : CSC T) : M (List T) :=
  csr_diagonal 0 a.cols a.rows a.colptr a.rowidx a.values
    (List.replicate (min a.rows a.cols) 0)

/-! ### Coo -/

/-- src/coo/coo.rs:22-42 -/
def Coo.new (rows cols : Nat) (rowidx colidx : List Int) (values : List T) : M (Coo T) := do
  let nnz := values.length
  if nnz ≠ rowidx.length ∨ nnz ≠ colidx.length then
    throw .err
  return { rows, cols, rowidx, colidx, values }

/-- src/coo/coo.rs:44-52 (`with_capacity`, 54-62, gives the same matrix) -/
def Coo.with_size (rows cols : Nat) : Coo T :=
  { rows, cols, rowidx := [], colidx := [], values := [] }

/-- src/coo/coo.rs:213-215 -/
def Coo.nnz (a : Coo T) : Nat := a.values.length

/-- src/coo/coo.rs:65-92. `a.iter().enumerate()` is written with the index. -/
def Coo.from_dense [Zero T] [BEq T] (t : IdxTy) (a : List (List T)) : M (Coo T) := do
  let m := a.length
  let n ← if m > 0 then do pure (← a.rd 0).length else pure 0
  let mut rowidx : List Int := []
  let mut colidx : List Int := []
  let mut values : List T := []
  for i in rng 0 a.length do
    let r ← a.rd i
    for j in rng 0 r.length do
      let v ← r.rd j
      if v != 0 then
        rowidx := rowidx ++ [← t.ofUsize i]
        colidx := colidx ++ [← t.ofUsize j]
        values := values ++ [v]
  return { rows := m, cols := n, rowidx, colidx, values }

/-- src/coo/coo.rs:95-112 -/
def Coo.with_diagonal [Zero T] (t : IdxTy) (diag : List T) : M (Coo T) := do
  let n := diag.length
  let mut rowidx : List Int := List.replicate n 0
  let mut colidx : List Int := List.replicate n 0
  let mut values : List T := List.replicate n 0
  for i in rng 0 n do
    rowidx ← rowidx.wr i (← t.ofUsize i)
    colidx ← colidx.wr i (← t.ofUsize i)
    values ← values.wr i (← diag.rd i)
  return { rows := n, cols := n, rowidx, colidx, values }

/-- src/coo/coo.rs:164-180 -/
def Coo.identity [Zero T] [One T] (t : IdxTy) (n : Nat) : M (Coo T) := do
  let mut rowidx : List Int := List.replicate n 0
  let mut colidx : List Int := List.replicate n 0
  let mut values : List T := List.replicate n 0
  for i in rng 0 n do
    rowidx ← rowidx.wr i (← t.ofUsize i)
    colidx ← colidx.wr i (← t.ofUsize i)
    values ← values.wr i 1
  return { rows := n, cols := n, rowidx, colidx, values }

/-- src/coo/coo.rs:217-221 -/
def Coo.push (a : Coo T) (row col : Int) (v : T) : Coo T :=
  { a with rowidx := a.rowidx ++ [row], colidx := a.colidx ++ [col], values := a.values ++ [v] }

/-- src/coo/coo.rs:223-227 -/
def Coo.extend (a : Coo T) (row col : List Int) (v : List T) : Coo T :=
  { a with rowidx := a.rowidx ++ row, colidx := a.colidx ++ col, values := a.values ++ v }

/-- src/coo/coo.rs:247-255 (and 259-267 `t`) -/
def Coo.transpose (a : Coo T) : Coo T :=
  { rows := a.cols, cols := a.rows, rowidx := a.colidx, colidx := a.rowidx, values := a.values }

/-- src/coo/coo.rs:271-292 -/
def Coo.to_csc [Zero T] [Add T] (t : IdxTy) (a : Coo T) : M (CSC T) := do
  let nnz := a.nnz
  let (colptr, rowidx, values) ← coo_tocsr t a.cols nnz a.colidx a.rowidx a.values
    (List.replicate (a.cols + 1) 0) (List.replicate nnz 0) (List.replicate nnz 0)
  let m ← unwrapR (CSC.new a.rows a.cols rowidx colptr values)
  m.sum_duplicates t

/-- src/coo/coo.rs:296-317 -/
def Coo.to_csr [Zero T] [Add T] (t : IdxTy) (a : Coo T) : M (CSR T) := do
  let nnz := a.nnz
  let (rowptr, colidx, values) ← coo_tocsr t a.rows nnz a.rowidx a.colidx a.values
    (List.replicate (a.rows + 1) 0) (List.replicate nnz 0) (List.replicate nnz 0)
  let m ← unwrapR (CSR.new a.rows a.cols rowptr colidx values)
  unwrapR (m.sum_duplicates t)

/-- src/coo/coo.rs:320-333 -/
def Coo.to_dense [Zero T] [Add T] (a : Coo T) : M (List (List T)) := do
  let mut dense := List.replicate a.rows (List.replicate a.cols (0 : T))
  for n in rng 0 a.nnz do
    let i ← toUsize (← a.rowidx.rd n)
    let j ← toUsize (← a.colidx.rd n)
    let row ← dense.rd i
    dense ← dense.wr i (← row.wr j ((← row.rd j) + (← a.values.rd n)))
  return dense

/-- src/coo/coo.rs:337-358 -/
def Coo.upper (t : IdxTy) (a : Coo T) (k : Int) : M (Coo T) := do
  let mut rowidx : List Int := []
  let mut colidx : List Int := []
  let mut values : List T := []
  for i in rng 0 a.nnz do
    if (← t.add (← a.rowidx.rd i) k) ≤ (← a.colidx.rd i) then
      rowidx := rowidx ++ [← a.rowidx.rd i]
      colidx := colidx ++ [← a.colidx.rd i]
      values := values ++ [← a.values.rd i]
  return { rows := a.rows, cols := a.cols, rowidx, colidx, values }

/-- src/coo/coo.rs:361-372 -/
def Coo.diagonal [Zero T] [Add T] (a : Coo T) : M (List T) := do
  let mut d : List T := List.replicate (min a.rows a.cols) 0
  for i in rng 0 a.values.length do
    let r ← a.rowidx.rd i
    if r = (← a.colidx.rd i) then
      let j ← toUsize r
      d ← d.wr j ((← d.rd j) + (← a.values.rd i))
  return d

/-- `idx.iter().map(|&r| r + I::from(off).unwrap())` (src/coo/coo.rs:411-416, 481-486). -/
def shiftM (t : IdxTy) (off : Nat) (idx : List Int) : M (List Int) :=
  idx.mapM fun r => do t.add r (← t.ofUsize off)

/-- src/coo/coo.rs:391-434 -/
def Coo.v_stack (t : IdxTy) (a b : Coo T) : M (Coo T) := do
  if a.cols ≠ b.cols then
    throw .err
  return { rows := a.rows + b.rows, cols := a.cols,
           rowidx := a.rowidx ++ (← shiftM t a.rows b.rowidx),
           colidx := a.colidx ++ b.colidx, values := a.values ++ b.values }

/-- src/coo/coo.rs:439-456 -/
def Coo.v_stack3 (t : IdxTy) (a b c : Coo T) : M (Coo T) := do
  if a.cols ≠ b.cols then
    throw .err
  if a.cols ≠ c.cols then
    throw .err
  (← Coo.v_stack t a b).v_stack t c

/-- src/coo/coo.rs:461-498 -/
def Coo.h_stack (t : IdxTy) (a b : Coo T) : M (Coo T) := do
  if a.rows ≠ b.rows then
    throw .err
  Coo.new a.rows (a.cols + b.cols) (a.rowidx ++ b.rowidx)
    (a.colidx ++ (← shiftM t a.cols b.colidx)) (a.values ++ b.values)

/-- src/coo/coo.rs:503-520 -/
def Coo.h_stack3 (t : IdxTy) (a b c : Coo T) : M (Coo T) := do
  if a.rows ≠ b.rows then
    throw .err
  if a.rows ≠ c.rows then
    throw .err
  (← Coo.h_stack t a b).h_stack t c

/-- src/coo/coo.rs:533-537 -/
def Coo.compose (t : IdxTy) (j11 j12 j21 j22 : Coo T) : M (Coo T) := do
  let j1x ← Coo.h_stack t j11 j12
  let j2x ← Coo.h_stack t j21 j22
  Coo.v_stack t j1x j2x

/-- src/coo/coo.rs:552-557 -/
def Coo.compose3 (t : IdxTy) (j11 j12 j13 j21 j22 j23 j31 j32 j33 : Coo T) : M (Coo T) := do
  let j1x ← Coo.h_stack3 t j11 j12 j13
  let j2x ← Coo.h_stack3 t j21 j22 j23
  let j3x ← Coo.h_stack3 t j31 j32 j33
  Coo.v_stack3 t j1x j2x j3x

/-! ### conversions to Coo -/

/-- src/csr/csr.rs:364-378 -/
def CSR.to_coo (t : IdxTy) (a : CSR T) : M (Coo T) := do
  let rowidx ← expandptr t a.rows a.rowptr (List.replicate a.colidx.length 0)
  unwrapR (Coo.new a.rows a.cols rowidx a.colidx a.values)

/-- src/csc/csc.rs:494-512 -/
def CSC.to_coo [Zero T] (t : IdxTy) (a : CSC T) : M (Coo T) := do
  let nnz ← a.nnz
  let (colidx, rowidx, values) ← csr_tocoo t a.cols a.colptr a.rowidx a.values
    (List.replicate nnz 0) (List.replicate nnz 0) (List.replicate nnz 0)
  unwrapR (Coo.new a.rows a.cols rowidx colidx values)

/-- src/csr/csr.rs:115-117 -/
def CSR.h_stack [Zero T] [Add T] (t : IdxTy) (a b : CSR T) : M (CSR T) := do
  (← Coo.h_stack t (← a.to_coo t) (← b.to_coo t)).to_csr t

/-- src/csc/csc.rs:560-577 -/
def CSC.compose [Zero T] [Add T] (t : IdxTy) (j11 j12 j21 j22 : CSC T) : M (CSC T) := do
  let j11coo ← j11.to_coo t
  let j12coo ← j12.to_coo t
  let j21coo ← j21.to_coo t
  let j22coo ← j22.to_coo t
  let j1x ← Coo.h_stack t j11coo j12coo
  let j2x ← Coo.h_stack t j21coo j22coo
  let j ← Coo.v_stack t j1x j2x
  j.to_csc t

/-! ### operators -/

/-- src/csr/std_ops.rs:7-17 -/
def CSR.neg [Neg T] (a : CSR T) : M (CSR T) :=
  unwrapR (CSR.new a.rows a.cols a.rowptr a.colidx (a.values.map fun v => -v))

/-- src/csr/std_ops.rs:19-41, operator `+` -/
def CSR.add [Zero T] [Add T] [BEq T] (t : IdxTy) (a b : CSR T) : M (CSR T) := do
  let nnz := (← a.nnz) + (← b.nnz)
  let (rowptr, colidx, values) ← csr_add_csr t a.rows a.cols a.rowptr a.colidx a.values
    b.rowptr b.colidx b.values (List.replicate (a.rows + 1) 0) (List.replicate nnz 0)
    (List.replicate nnz 0)
  unwrapR (CSR.new a.rows a.cols rowptr colidx values)

/-- src/csr/std_ops.rs:43-65, operator `-` -/
def CSR.sub [Zero T] [Add T] [Sub T] [BEq T] (t : IdxTy) (a b : CSR T) : M (CSR T) := do
  let nnz := (← a.nnz) + (← b.nnz)
  let (rowptr, colidx, values) ← csr_sub_csr t a.rows a.cols a.rowptr a.colidx a.values
    b.rowptr b.colidx b.values (List.replicate (a.rows + 1) 0) (List.replicate nnz 0)
    (List.replicate nnz 0)
  unwrapR (CSR.new a.rows a.cols rowptr colidx values)

/-- src/csr/std_ops.rs:67-70, operator `*` on two matrices -/
def CSR.mul [Zero T] [Add T] [Mul T] [BEq T] (t : IdxTy) (a b : CSR T) : M (CSR T) :=
  unwrapR (a.mat_mat t b)

/-- src/csr/std_ops.rs:72-81, operator `matrix * scalar` -/
def CSR.mul_scalar [Mul T] (a : CSR T) (s : T) : M (CSR T) :=
  unwrapR (CSR.new a.rows a.cols a.rowptr a.colidx (a.values.map fun v => v * s))

/-- src/csr/std_ops.rs:83-96, operator `scalar * matrix` (`Complex64` only) -/
def CSR.scalar_mul [Mul T] (s : T) (a : CSR T) : M (CSR T) :=
  unwrapR (CSR.new a.rows a.cols a.rowptr a.colidx (a.values.map fun v => s * v))

/-- src/csr/std_ops.rs:97-104, operator `matrix * vector` -/
def CSR.mul_vec [Zero T] [Add T] [Mul T] (a : CSR T) (x : List T) : M (List T) :=
  unwrapR (a.mat_vec x)

/-- src/csc/std_ops.rs:8-18 -/
def CSC.neg [Neg T] (a : CSC T) : M (CSC T) :=
  unwrapR (CSC.new a.rows a.cols a.rowidx a.colptr (a.values.map fun v => -v))

/-- src/csc/std_ops.rs:20-42, operator `+` -/
def CSC.add_op [Zero T] [Add T] [BEq T] (t : IdxTy) (a b : CSC T) : M (CSC T) := do
  let nnz := (← a.nnz) + (← b.nnz)
  let (colptr, rowidx, values) ← csr_add_csr t a.cols a.rows a.colptr a.rowidx a.values
    b.colptr b.rowidx b.values (List.replicate (a.cols + 1) 0) (List.replicate nnz 0)
    (List.replicate nnz 0)
  unwrapR (CSC.new a.rows a.cols rowidx colptr values)

/-- src/csc/std_ops.rs:44-66, operator `-`: the last line passes `colptr` and `rowidx` to `CSC::new` in
the wrong order (line 65). -/
def CSC.sub_op [Zero T] [Add T] [Sub T] [BEq T] (t : IdxTy) (a b : CSC T) : M (CSC T) := do
  let nnz := (← a.nnz) + (← b.nnz)
  let (colptr, rowidx, values) ← csr_sub_csr t a.cols a.rows a.colptr a.rowidx a.values
    b.colptr b.rowidx b.values (List.replicate (a.cols + 1) 0) (List.replicate nnz 0)
    (List.replicate nnz 0)
  unwrapR (CSC.new a.rows a.cols colptr rowidx values)

/-- src/csc/std_ops.rs:68-71, operator `*` on two CSC matrices -/
def CSC.mul [Zero T] [Add T] [Mul T] [BEq T] (t : IdxTy) (a b : CSC T) : M (CSC T) :=
  unwrapR (a.mat_mat t b)

/-- src/csc/std_ops.rs:73-76, operator `CSC * CSR` -/
def CSC.mul_csr [Zero T] [Add T] [Mul T] [BEq T] (t : IdxTy) (a : CSC T) (b : CSR T) :
    M (CSC T) := do
  unwrapR (a.mat_mat t (← b.to_csc t))

/-- src/csc/std_ops.rs:78-87, operator `matrix * scalar`: `colptr` and `rowidx` are passed to `CSC::new`
in the wrong order (lines 83-84). -/
def CSC.mul_scalar [Mul T] (a : CSC T) (s : T) : M (CSC T) :=
  unwrapR (CSC.new a.rows a.cols a.colptr a.rowidx (a.values.map fun v => v * s))

/-- src/csc/std_ops.rs:89-102, operator `scalar * matrix` (`Complex64` only): same argument order
(lines 94-95). -/
def CSC.scalar_mul [Mul T] (s : T) (a : CSC T) : M (CSC T) :=
  unwrapR (CSC.new a.rows a.cols a.colptr a.rowidx (a.values.map fun v => s * v))

/-- src/csc/std_ops.rs:103-110, operator `matrix * vector` -/
def CSC.mul_vec [Zero T] [Add T] [Mul T] (a : CSC T) (x : List T) : M (List T) :=
  unwrapR (a.mat_vec x)

/-- src/coo/std_ops.rs:6-28, operator `+` (`assert_eq!` on the shapes) -/
def Coo.add [Zero T] [Add T] (t : IdxTy) (a b : Coo T) : M (CSR T) := do
  if a.rows ≠ b.rows then
    throw (.panic .assert)
  if a.cols ≠ b.cols then
    throw (.panic .assert)
  let m ← unwrapR (Coo.new a.rows a.cols (a.rowidx ++ b.rowidx) (a.colidx ++ b.colidx)
    (a.values ++ b.values))
  m.to_csr t

/-- src/coo/std_ops.rs:30-40 -/
def Coo.neg [Neg T] (a : Coo T) : M (Coo T) :=
  unwrapR (Coo.new a.rows a.cols a.rowidx a.colidx (a.values.map fun v => -v))

end
end Sparse

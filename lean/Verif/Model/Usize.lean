import Verif.Model.Mat
import Verif.Model.Dok
import Verif.Model.Graph
import Verif.Model.Col
/-!
The functions whose `usize` arithmetic can leave the machine word, once more, with `usize` of a given width. In the rest of the
model `usize` is unbounded and a subtraction below zero panics; here additions, multiplications and subtractions are checked (debug
builds) or wrap around (release builds), and allocations are limited to `isize::MAX` bytes.

Every other function of the crate only computes `usize` values that are positions in, lengths of, or numbers of rounds over existing
arrays (`i + 1` after `i < n`, `nnz += 1` before or after a successful access, `len() - 1` of an array with `n + 1` elements).
-/
namespace Sparse

/-- The machine word: `usize::MAX` and the build profile. -/
structure Usz where
  max : Nat
  wraps : Bool

namespace Usz
/-- 64 bits, build with overflow checks -/
def debug64 : Usz := ⟨2 ^ 64 - 1, false⟩
/-- 64 bits, build without overflow checks -/
def release64 : Usz := ⟨2 ^ 64 - 1, true⟩

/-- `isize::MAX` -/
def imax (u : Usz) : Nat := u.max / 2

/-- `a + b` on `usize` -/
def add (u : Usz) (a b : Nat) : M Nat :=
  if a + b ≤ u.max then pure (a + b) else if u.wraps then pure ((a + b) % (u.max + 1)) else throw (.panic .arith)

/-- `a * b` on `usize` -/
def mul (u : Usz) (a b : Nat) : M Nat :=
  if a * b ≤ u.max then pure (a * b) else if u.wraps then pure ((a * b) % (u.max + 1)) else throw (.panic .arith)

/-- `a - b` on `usize` -/
def sub (u : Usz) (a b : Nat) : M Nat :=
  if b ≤ a then pure (a - b) else if u.wraps then pure (a + (u.max + 1) - b) else throw (.panic .arith)

/-- `-1 * k` on `isize`, cast to `usize`, for a negative `k`: the only case that overflows is `isize::MIN`, which wraps to itself and
is cast to `isize::MAX + 1` -/
def neg (u : Usz) (k : Int) : M Nat :=
  if -k ≤ u.imax then pure (-k).toNat else if u.wraps then pure (u.imax + 1) else throw (.panic .arith)

/-- the request for memory for `n` elements of `sz` bytes (`Vec::with_capacity(n)`, `vec![x; n]`), which panics with "capacity overflow"
above `isize::MAX` bytes; below that allocation is assumed to succeed -/
def cap (u : Usz) (sz n : Nat) : M Unit :=
  if sz * n ≤ u.imax then pure () else throw (.panic .assert)
end Usz

section
variable {T : Type}

/-- src/row.rs:30-58 `csr_diagonal` -/
def csr_diagonalU [Zero T] [Add T] (u : Usz) (k : Int) (n_row n_col : Nat) (a_p a_j : List Int)
    (a_x : List T) (y_x0 : List T) : M (List T) := do
  let first_row : Nat ← if k ≥ 0 then pure 0 else u.neg k
  let first_col : Nat := if k ≥ 0 then k.toNat else 0
  let n := min (← u.sub n_row first_row) (← u.sub n_col first_col)
  let mut y_x := y_x0
  for i in rng 0 n do
    let row ← u.add first_row i
    let col ← u.add first_col i
    let row_begin ← toUsize (← a_p.rd row)
    let row_end ← toUsize (← a_p.rd (← u.add row 1))
    let mut diag : T := 0
    for j in rng row_begin row_end do
      if (← toUsize (← a_j.rd j)) = col then
        diag := diag + (← a_x.rd j)
    y_x ← y_x.wr i diag
  return y_x

/-- src/row.rs:373-417 `csr_matmat_maxnnz`, with the check in lines 408-411 -/
def csr_matmat_maxnnzU (u : Usz) (n_row n_col : Nat) (a_p a_j b_p b_j : List Int) : M Nat := do
  let mut mask : List Int := List.replicate n_col (-1)
  let mut nnz := 0
  for i in rng 0 n_row do
    let start ← toUsize (← a_p.rd i)
    let stop ← toUsize (← a_p.rd (← u.add i 1))
    let mut row_nnz := 0
    for jj in rng start stop do
      let j ← toUsize (← a_j.rd jj)
      let b_start ← toUsize (← b_p.rd j)
      let b_end ← toUsize (← b_p.rd (← u.add j 1))
      for kk in rng b_start b_end do
        let k ← toUsize (← b_j.rd kk)
        if (← mask.rd k) ≠ (i : Int) then
          mask ← mask.wr k (i : Int)
          row_nnz ← u.add row_nnz 1
    let next_nnz ← u.add nnz row_nnz
    if row_nnz > (← u.sub u.max nnz) then
      throw (.panic .assert)
    nnz := next_nnz
  return nnz

/-- src/row.rs:1436-1473 `csr_row_slice` -/
def csr_row_sliceU (u : Usz) (fuel : Nat) (start stop step : Nat) (a_p a_j : List Int) (a_x : List T)
    (b_j0 : List Int) (b_x0 : List T) : M (List Int × List T) := do
  if step > 0 then
    let r ← whileM fuel (start, b_j0, b_x0) fun (row, b_j, b_x) => do
      if row < stop then
        let row_start ← toUsize (← a_p.rd row)
        let row_end ← toUsize (← a_p.rd (← u.add row 1))
        let sj ← a_j.slice row_start row_end
        let sx ← a_x.slice row_start row_end
        return .yield (← u.add row step, b_j ++ sj, b_x ++ sx)
      else
        return .done (row, b_j, b_x)
    return r.2
  else
    let r ← whileM fuel (start, b_j0, b_x0) fun (row, b_j, b_x) => do
      if row > stop then
        let row_start ← toUsize (← a_p.rd row)
        let row_end ← toUsize (← a_p.rd (← u.add row 1))
        let sj ← a_j.slice row_start row_end
        let sx ← a_x.slice row_start row_end
        return .yield (← u.add row step, b_j ++ sj, b_x ++ sx)
      else
        return .done (row, b_j, b_x)
    return r.2

/-- src/row.rs:1579-1591 `csr_count_diagonals` -/
def csr_count_diagonalsU (u : Usz) (n_row : Nat) (a_p a_j : List Int) : M Nat := do
  let mut diagonals : List Nat := []
  for i in rng 0 n_row do
    let start ← toUsize (← a_p.rd i)
    let stop ← toUsize (← a_p.rd (← u.add i 1))
    for jj in rng start stop do
      diagonals := diagonals.insert (← u.sub (← toUsize (← a_j.rd jj)) i)
  return diagonals.length

/-- src/coord.rs:92-113 `coo_todense` -/
def coo_todenseU [Add T] (u : Usz) (n_row n_col nnz : Nat) (a_i a_j : List Int) (a_x : List T)
    (b_x0 : List T) (fortran : Bool) : M (List T) := do
  let mut b_x := b_x0
  if !fortran then
    for n in rng 0 nnz do
      let i ← u.add (← u.mul n_col (← toUsize (← a_i.rd n))) (← toUsize (← a_j.rd n))
      b_x ← b_x.wr i ((← b_x.rd i) + (← a_x.rd n))
  else
    for n in rng 0 nnz do
      let i ← u.add (← u.mul n_row (← toUsize (← a_j.rd n))) (← toUsize (← a_i.rd n))
      b_x ← b_x.wr i ((← b_x.rd i) + (← a_x.rd n))
  return b_x

/-- src/row.rs:1238-1260 `csr_matvecs` -/
def csr_matvecsU [Add T] [Mul T] (u : Usz) (n_row n_vecs : Nat) (a_p a_j : List Int) (a_x x_x y_x0 : List T) :
    M (List T) := do
  let mut y_x := y_x0
  for i in rng 0 n_row do
    let yo ← u.mul n_vecs i
    if yo > y_x.length then
      throw (.panic .oob)
    let start ← toUsize (← a_p.rd i)
    let stop ← toUsize (← a_p.rd (← u.add i 1))
    for jj in rng start stop do
      let j ← toUsize (← a_j.rd jj)
      let a ← a_x.rd jj
      y_x ← axpy n_vecs a x_x (← u.mul n_vecs j) y_x yo
  return y_x

/-- src/col.rs:66-91 `csc_matvecs` -/
def csc_matvecsU [Add T] [Mul T] (u : Usz) (n_col n_vecs : Nat) (a_p a_i : List Int) (a_x x_x y_x0 : List T) :
    M (List T) := do
  let mut y_x := y_x0
  for j in rng 0 n_col do
    let start ← toUsize (← a_p.rd j)
    let stop ← toUsize (← a_p.rd (← u.add j 1))
    for ii in rng start stop do
      let i ← toUsize (← a_i.rd ii)
      let a ← a_x.rd ii
      let xo ← u.mul n_vecs j
      y_x ← axpy n_vecs a x_x xo y_x (← u.mul n_vecs i)
  return y_x

/-- src/csr/csr.rs:27-51 -/
def CSR.newU (u : Usz) (rows cols : Nat) (rowptr colidx : List Int) (values : List T) : M (CSR T) := do
  if rowptr.length ≠ (← u.add rows 1) then
    throw .err
  let nnz ← toUsize (← rowptr.rd (← u.sub rowptr.length 1))
  if colidx.length < nnz then
    throw .err
  if values.length < nnz then
    throw .err
  return { rows, cols, rowptr, colidx, values }

/-- src/csr/csr.rs:53-61; `isz` is the size of an index in bytes -/
def CSR.with_sizeU (u : Usz) (isz : Nat) (rows cols : Nat) : M (CSR T) := do
  let n ← u.add rows 1
  u.cap isz n
  return { rows, cols, rowptr := List.replicate n 0, colidx := [], values := [] }

/-- src/csr/csr.rs:262-295; `isz` and `sz` are the sizes of an index and of a value in bytes. The memory for the work vectors of the
kernels (one element per column) is assumed to be available. -/
def CSR.mat_matU [Zero T] [Add T] [Mul T] [BEq T] (u : Usz) (isz sz : Nat) (t : IdxTy) (a x : CSR T) : M (CSR T) := do
  if a.cols ≠ x.rows then
    throw .err
  let rows := a.rows
  let cols := x.cols
  let n ← u.add rows 1
  u.cap isz n
  let rowptr := List.replicate n 0
  let nnz ← csr_matmat_maxnnzU u rows cols a.rowptr a.colidx x.rowptr x.colidx
  u.cap isz nnz
  u.cap sz nnz
  let (rowptr, colidx, values) ← csr_matmat t rows cols a.rowptr a.colidx a.values
    x.rowptr x.colidx x.values rowptr (List.replicate nnz 0) (List.replicate nnz 0)
  CSR.newU u rows cols rowptr colidx values

/-- src/coo/coo.rs:391-434; the number of entries is bounded by the lengths of existing arrays -/
def Coo.v_stackU (u : Usz) (t : IdxTy) (a b : Coo T) : M (Coo T) := do
  if a.cols ≠ b.cols then
    throw .err
  let rows ← u.add a.rows b.rows
  return { rows := rows, cols := a.cols,
           rowidx := a.rowidx ++ (← shiftM t a.rows b.rowidx),
           colidx := a.colidx ++ b.colidx, values := a.values ++ b.values }

/-- src/coo/coo.rs:461-498 -/
def Coo.h_stackU (u : Usz) (t : IdxTy) (a b : Coo T) : M (Coo T) := do
  if a.rows ≠ b.rows then
    throw .err
  let cols ← u.add a.cols b.cols
  Coo.new a.rows cols (a.rowidx ++ b.rowidx)
    (a.colidx ++ (← shiftM t a.cols b.colidx)) (a.values ++ b.values)

/-- src/coo/coo.rs:533-537 -/
def Coo.composeU (u : Usz) (t : IdxTy) (j11 j12 j21 j22 : Coo T) : M (Coo T) := do
  let j1x ← Coo.h_stackU u t j11 j12
  let j2x ← Coo.h_stackU u t j21 j22
  Coo.v_stackU u t j1x j2x

/-- src/coo/coo.rs:335-358; `isz` and `sz` are the sizes of an index and of a value in bytes -/
def Coo.upperU (u : Usz) (isz sz : Nat) (t : IdxTy) (a : Coo T) (k : Int) : M (Coo T) := do
  let c ← u.add (a.nnz / 2) a.cols
  u.cap isz c
  u.cap isz c
  u.cap sz c
  a.upper t k

/-- src/coo/coo.rs:64-92 -/
def Coo.from_denseU [Zero T] [BEq T] (u : Usz) (isz sz : Nat) (t : IdxTy) (a : List (List T)) : M (Coo T) := do
  let m := a.length
  let n ← if m > 0 then do pure (← a.rd 0).length else pure 0
  let c ← u.mul m n
  u.cap isz c
  u.cap isz c
  u.cap sz c
  Coo.from_dense t a

/-- src/coo/coo.rs:295-317 -/
def Coo.to_csrU [Zero T] [Add T] (u : Usz) (isz : Nat) (t : IdxTy) (a : Coo T) : M (CSR T) := do
  let nnz := a.nnz
  let n ← u.add a.rows 1
  u.cap isz n
  let (rowptr, colidx, values) ← coo_tocsr t a.rows nnz a.rowidx a.colidx a.values
    (List.replicate n 0) (List.replicate nnz 0) (List.replicate nnz 0)
  let m ← unwrapR (CSR.newU u a.rows a.cols rowptr colidx values)
  unwrapR (m.sum_duplicates t)

/-- src/graph.rs:232-243, as `scc_pop` -/
def scc_popU (u : Usz) (fuel v : Nat) (label : Node) (labels0 ss0 : List Node) (ss_head0 : Node) (index0 : Nat) :
    M (List Node × List Node × Node × Nat) :=
  whileM fuel (labels0, ss0, ss_head0, index0) fun (labels, ss, ss_head, index) => do
    if ss_head = .fin then
      return .done (labels, ss, ss_head, index)
    let a ← labels.rd v
    let b ← labels.rd (← ss_head.unwrap)
    if a.le b = false then
      return .done (labels, ss, ss_head, index)
    let w ← ss_head.unwrap
    let ss_head' ← ss.rd w
    let ss' ← ss.wr w .void
    let labels' ← labels.wr w label
    let index' ← u.sub index 1
    return .yield (labels', ss', ss_head', index')

/-- src/graph.rs:179-265, as `scc_step`; `index += 1` counts the nodes that got a lowlink, at most `n` -/
def scc_stepU (u : Usz) (fuel : Nat) (indices indptr : List Int) (s : Scc) (stack_head : Node) : M (Scc × Node) := do
  let v ← stack_head.unwrap
  if (← s.labels.rd v) = .void then
    let labels ← s.labels.wr v (.label s.index)
    let (ss, stack_b, stack_head') ← scc_push v indices indptr labels s.ss s.stack_b stack_head
    return ({ s with labels, ss, stack_b, index := s.index + 1 }, stack_head')
  else
    let stack_head' ← s.ss.rd v
    let mut stack_b := s.stack_b
    if stack_head' ≠ .void ∧ stack_head' ≠ .fin then
      stack_b ← stack_b.wr (← stack_head'.unwrap) .fin
    let ss ← s.ss.wr v .void
    stack_b ← stack_b.wr v .void
    let (root, low_v) ← scc_low v indices indptr s.labels
    let labels ← s.labels.wr v low_v
    if root then
      let index ← u.sub s.index 1
      let (labels, ss, ss_head, index) ← scc_popU u fuel v s.label labels ss s.ss_head index
      let labels ← labels.wr v s.label
      let label ← scc_next s.label
      return ({ labels, ss, stack_b, ss_head, index, label }, stack_head')
    else
      let ss ← ss.wr v s.ss_head
      return ({ s with labels, ss, stack_b, ss_head := .label v }, stack_head')

/-- src/graph.rs:152-279 -/
def connected_components_directedU (u : Usz) (fuel n : Nat) (indices indptr : List Int) : M (Nat × List Nat) := do
  let mut s : Scc := ⟨List.replicate n .void, List.replicate n .void, List.replicate n .void, .fin, 0, .label (← u.sub n 1)⟩
  for v in rng 0 n do
    if (← s.labels.rd v) = .void then
      let ss ← s.ss.wr v .fin
      let stack_b ← s.stack_b.wr v .fin
      let r ← whileM fuel (({ s with ss, stack_b } : Scc), Node.label v) fun (s, stack_head) => do
        if stack_head = .fin then
          return .done (s, stack_head)
        let r ← scc_stepU u fuel indices indptr s stack_head
        return .yield r
      s := r.1
  let count ← match s.label with
    | .label l => do u.sub (← u.sub n 1) l
    | _ => pure n
  let mut out : List Nat := []
  for l in s.labels do
    out := out ++ [← u.sub (← u.sub n 1) (← l.unwrap)]
  return (count, out)

end
end Sparse

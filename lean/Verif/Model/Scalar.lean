import Verif.Model.Dok
/-!
The functions of the crate that compute with scalars, for a scalar type whose operations may panic: integers in a
build with overflow checks, where `+`, `-`, `*` and unary `-` panic when the result is not representable and `/`
panics on a zero divisor. Each definition is the one of the same name without `S`, with `x + y` replaced by a call
that may panic; operands are evaluated before the operation, left to right.
-/
namespace Sparse

/-- the arithmetic operations of a scalar type (src/traits.rs:73-91); a panic is an outcome -/
structure Ops (T : Type) where
  add : T → T → M T
  sub : T → T → M T
  mul : T → T → M T
  div : T → T → M T
  neg : T → M T

/-- the integer type `s` as scalar type, in a build with overflow checks. Integer division rounds towards zero. The
unsigned types have no unary `-`. -/
def IntTy.ops (s : IntTy) : Ops Int where
  add := (s : IdxTy).add
  sub := (s : IdxTy).sub
  mul a b := (s : IdxTy).arith (a * b)
  div a b := if b = 0 then throw (.panic .arith) else (s : IdxTy).arith (a.tdiv b)
  neg a := (s : IdxTy).arith (-a)

section
variable {T T2 : Type}

/-- src/coord.rs:92-113: as `coo_todense` -/
def coo_todenseS (o : Ops T) (n_row n_col nnz : Nat) (a_i a_j : List Int) (a_x : List T)
    (b_x0 : List T) (fortran : Bool) : M (List T) := do
  let mut b_x := b_x0
  if !fortran then
    for n in rng 0 nnz do
      let i := n_col * (← toUsize (← a_i.rd n)) + (← toUsize (← a_j.rd n))
      b_x ← b_x.wr i (← o.add (← b_x.rd i) (← a_x.rd n))
  else
    for n in rng 0 nnz do
      let i := n_row * (← toUsize (← a_j.rd n)) + (← toUsize (← a_i.rd n))
      b_x ← b_x.wr i (← o.add (← b_x.rd i) (← a_x.rd n))
  return b_x

/-- src/coord.rs:135-148: as `coo_matvec` -/
def coo_matvecS (o : Ops T) (nnz : Nat) (a_i a_j : List Int) (a_x x_x y_x0 : List T) :
    M (List T) := do
  let mut y_x := y_x0
  for n in rng 0 nnz do
    let i ← toUsize (← a_i.rd n)
    let j ← toUsize (← a_j.rd n)
    y_x ← y_x.wr i (← o.add (← y_x.rd i) (← o.mul (← a_x.rd n) (← x_x.rd j)))
  return y_x

/-- src/row.rs:30-58: as `csr_diagonal` -/
def csr_diagonalS (o : Ops T) [Zero T] (k : Int) (n_row n_col : Nat) (a_p a_j : List Int)
    (a_x : List T) (y_x0 : List T) : M (List T) := do
  let first_row : Nat := if k ≥ 0 then 0 else (-1 * k).toNat
  let first_col : Nat := if k ≥ 0 then k.toNat else 0
  let n := min (← usub n_row first_row) (← usub n_col first_col)
  let mut y_x := y_x0
  for i in rng 0 n do
    let row := first_row + i
    let col := first_col + i
    let row_begin ← toUsize (← a_p.rd row)
    let row_end ← toUsize (← a_p.rd (row + 1))
    let mut diag : T := 0
    for j in rng row_begin row_end do
      if (← toUsize (← a_j.rd j)) = col then
        diag ← o.add diag (← a_x.rd j)
    y_x ← y_x.wr i diag
  return y_x

/-- src/row.rs:90-105: as `csr_scale_rows` -/
def csr_scale_rowsS (o : Ops T) (n_row : Nat) (a_p : List Int) (a_x0 x_x : List T) : M (List T) := do
  let mut a_x := a_x0
  for i in rng 0 n_row do
    let start ← toUsize (← a_p.rd i)
    let stop ← toUsize (← a_p.rd (i + 1))
    for jj in rng start stop do
      a_x ← a_x.wr jj (← o.mul (← a_x.rd jj) (← x_x.rd i))
  return a_x

/-- src/row.rs:111-123: as `csr_scale_columns` -/
def csr_scale_columnsS (o : Ops T) (n_row : Nat) (a_p a_j : List Int) (a_x0 x_x : List T) :
    M (List T) := do
  let nnz ← toUsize (← a_p.rd n_row)
  let mut a_x := a_x0
  for i in rng 0 nnz do
    a_x ← a_x.wr i (← o.mul (← a_x.rd i) (← x_x.rd (← toUsize (← a_j.rd i))))
  return a_x

/-- src/row.rs:136-153: as `csr_todense` -/
def csr_todenseS (o : Ops T) (n_row : Nat) (a_p a_j : List Int) (a_x : List T)
    (b_x0 : List (List T)) : M (List (List T)) := do
  let mut b_x := b_x0
  for i in rng 0 n_row do
    let row_start ← toUsize (← a_p.rd i)
    let row_end ← toUsize (← a_p.rd (i + 1))
    for jj in rng row_start row_end do
      let j ← toUsize (← a_j.rd jj)
      let row ← b_x.rd i
      b_x ← b_x.wr i (← row.wr j (← o.add (← row.rd j) (← a_x.rd jj)))
  return b_x

/-- src/row.rs:455-466: as `matmat_accum` -/
def matmat_accumS (o : Ops T) (t : IdxTy) (kk_start kk_end : Nat) (v : T) (b_j : List Int)
    (b_x : List T) (next0 : List Int) (sums0 : List T) (head0 length0 : Int) :
    M (List Int × List T × Int × Int) := do
  let mut next := next0
  let mut sums := sums0
  let mut head := head0
  let mut length := length0
  for kk in rng kk_start kk_end do
    let k ← toUsize (← b_j.rd kk)
    sums ← sums.wr k (← o.add (← sums.rd k) (← o.mul v (← b_x.rd kk)))
    if (← next.rd k) = -1 then
      next ← next.wr k head
      head := (k : Int)
      length ← t.add length 1
  return (next, sums, head, length)

/-- src/row.rs:420-483: as `csr_matmat` -/
def csr_matmatS (o : Ops T) [Zero T] [BEq T] (t : IdxTy) (n_row n_col : Nat)
    (a_p a_j : List Int) (a_x : List T) (b_p b_j : List Int) (b_x : List T)
    (c_p0 c_j0 : List Int) (c_x0 : List T) : M (List Int × List Int × List T) := do
  let mut next : List Int := List.replicate n_col (-1)
  let mut sums : List T := List.replicate n_col 0
  let mut nnz : Int := 0
  let mut c_p ← c_p0.wr 0 0
  let mut c_j := c_j0
  let mut c_x := c_x0
  for i in rng 0 n_row do
    let mut head : Int := -2
    let mut length : Int := 0
    let jj_start ← toUsize (← a_p.rd i)
    let jj_end ← toUsize (← a_p.rd (i + 1))
    for jj in rng jj_start jj_end do
      let j ← toUsize (← a_j.rd jj)
      let v ← a_x.rd jj
      let kk_start ← toUsize (← b_p.rd j)
      let kk_end ← toUsize (← b_p.rd (j + 1))
      let r ← matmat_accumS o t kk_start kk_end v b_j b_x next sums head length
      next := r.1
      sums := r.2.1
      head := r.2.2.1
      length := r.2.2.2
    let r ← matmat_flush t length head next sums nnz c_j c_x
    next := r.1
    sums := r.2.1
    nnz := r.2.2.1
    c_j := r.2.2.2.1
    c_x := r.2.2.2.2
    c_p ← c_p.wr (i + 1) nnz
  return (c_p, c_j, c_x)

/-- src/row.rs:537-549 and 552-564: as `binop_accum` -/
def binop_accumS (o : Ops T) (t : IdxTy) (i_start i_end : Nat) (a_j : List Int) (a_x : List T)
    (next0 : List Int) (row0 : List T) (head0 length0 : Int) :
    M (List Int × List T × Int × Int) := do
  let mut next := next0
  let mut row := row0
  let mut head := head0
  let mut length := length0
  for jj in rng i_start i_end do
    let j ← toUsize (← a_j.rd jj)
    row ← row.wr j (← o.add (← row.rd j) (← a_x.rd jj))
    if (← next.rd j) = -1 then
      next ← next.wr j head
      head := (j : Int)
      length ← t.add length 1
  return (next, row, head, length)

/-- src/row.rs:568-582: as `binop_flush` -/
def binop_flushS [Zero T] (t : IdxTy) (op : T → T → M T2) (nz : T2 → Bool) (length head0 : Int)
    (next0 : List Int) (a_row0 b_row0 : List T) (nnz0 : Int) (c_j0 : List Int) (c_x0 : List T2) :
    M (List Int × List T × List T × Int × List Int × List T2) := do
  let mut head := head0
  let mut next := next0
  let mut a_row := a_row0
  let mut b_row := b_row0
  let mut nnz := nnz0
  let mut c_j := c_j0
  let mut c_x := c_x0
  for _jj in rng 0 (← toUsize length) do
    let result ← op (← a_row.rd (← asIdx head)) (← b_row.rd (← asIdx head))
    if nz result then
      c_j ← c_j.wr (← toUsize nnz) (← t.ofInt head)
      c_x ← c_x.wr (← toUsize nnz) result
      nnz ← t.add nnz 1
    let temp ← asIdx head
    head ← next.rd temp
    next ← next.wr temp (-1)
    a_row ← a_row.wr temp 0
    b_row ← b_row.wr temp 0
  return (next, a_row, b_row, nnz, c_j, c_x)

/-- src/row.rs:504-585, src/traits.rs:137-141: as `csr_binop_csr_general` -/
def csr_binop_csr_generalS (o : Ops T) [Zero T] (t : IdxTy) (n_row n_col : Nat)
    (a_p a_j : List Int) (a_x : List T) (b_p b_j : List Int) (b_x : List T)
    (c_p0 c_j0 : List Int) (c_x0 : List T2) (op : T → T → M T2) (nz : T2 → Bool) :
    M (List Int × List Int × List T2) := do
  let mut next : List Int := List.replicate n_col (-1)
  let mut a_row : List T := List.replicate n_col 0
  let mut b_row : List T := List.replicate n_col 0
  let mut nnz : Int := 0
  let mut c_p ← c_p0.wr 0 0
  let mut c_j := c_j0
  let mut c_x := c_x0
  for i in rng 0 n_row do
    let head : Int := -2
    let length : Int := 0
    let i_start ← toUsize (← a_p.rd i)
    let i_end ← toUsize (← a_p.rd (i + 1))
    let ra ← binop_accumS o t i_start i_end a_j a_x next a_row head length
    let i_start ← toUsize (← b_p.rd i)
    let i_end ← toUsize (← b_p.rd (i + 1))
    let rb ← binop_accumS o t i_start i_end b_j b_x ra.1 b_row ra.2.2.1 ra.2.2.2
    let r ← binop_flushS t op nz rb.2.2.2 rb.2.2.1 rb.1 ra.2.1 rb.2.1 nnz c_j c_x
    next := r.1
    a_row := r.2.1
    b_row := r.2.2.1
    nnz := r.2.2.2.1
    c_j := r.2.2.2.2.1
    c_x := r.2.2.2.2.2
    c_p ← c_p.wr (i + 1) nnz
  return (c_p, c_j, c_x)

/-- src/row.rs:627-658: as `canonical_merge` -/
def canonical_mergeS [Zero T] (a_j : List Int) (a_x : List T) (b_j : List Int) (b_x : List T)
    (op : T → T → M T2) (nz : T2 → Bool) (a_end b_end : Nat)
    (s : Nat × Nat × Nat × List Int × List T2) : M (Nat × Nat × Nat × List Int × List T2) :=
  whileM ((a_end - s.1) + (b_end - s.2.1) + 1) s fun (a_pos, b_pos, nnz, c_j, c_x) => do
    if a_pos < a_end ∧ b_pos < b_end then
      let aj ← a_j.rd a_pos
      let bj ← b_j.rd b_pos
      if aj = bj then
        let result ← op (← a_x.rd a_pos) (← b_x.rd b_pos)
        let (nnz, c_j, c_x) ← binop_emit nz aj result nnz c_j c_x
        return .yield (a_pos + 1, b_pos + 1, nnz, c_j, c_x)
      else if aj < bj then
        let result ← op (← a_x.rd a_pos) 0
        let (nnz, c_j, c_x) ← binop_emit nz aj result nnz c_j c_x
        return .yield (a_pos + 1, b_pos, nnz, c_j, c_x)
      else
        let result ← op 0 (← b_x.rd b_pos)
        let (nnz, c_j, c_x) ← binop_emit nz bj result nnz c_j c_x
        return .yield (a_pos, b_pos + 1, nnz, c_j, c_x)
    else
      return .done (a_pos, b_pos, nnz, c_j, c_x)

/-- src/row.rs:661-669 and 670-678: as `canonical_tail` -/
def canonical_tailS (a_j : List Int) (a_x : List T) (f : T → M T2) (nz : T2 → Bool) (a_end : Nat)
    (s : Nat × Nat × List Int × List T2) : M (Nat × Nat × List Int × List T2) :=
  whileM ((a_end - s.1) + 1) s fun (a_pos, nnz, c_j, c_x) => do
    if a_pos < a_end then
      let result ← f (← a_x.rd a_pos)
      let (nnz, c_j, c_x) ← tail_emit nz a_j a_pos result nnz c_j c_x
      return .yield (a_pos + 1, nnz, c_j, c_x)
    else
      return .done (a_pos, nnz, c_j, c_x)

/-- src/row.rs:600-681: as `csr_binop_csr_canonical` -/
def csr_binop_csr_canonicalS [Zero T] (t : IdxTy) (n_row : Nat)
    (a_p a_j : List Int) (a_x : List T) (b_p b_j : List Int) (b_x : List T)
    (c_p0 c_j0 : List Int) (c_x0 : List T2) (op : T → T → M T2) (nz : T2 → Bool) :
    M (List Int × List Int × List T2) := do
  let mut c_p ← c_p0.wr 0 0
  let mut nnz : Nat := 0
  let mut c_j := c_j0
  let mut c_x := c_x0
  for i in rng 0 n_row do
    let a_pos ← toUsize (← a_p.rd i)
    let b_pos ← toUsize (← b_p.rd i)
    let a_end ← toUsize (← a_p.rd (i + 1))
    let b_end ← toUsize (← b_p.rd (i + 1))
    let r ← canonical_mergeS a_j a_x b_j b_x op nz a_end b_end (a_pos, b_pos, nnz, c_j, c_x)
    let ra ← canonical_tailS a_j a_x (fun x => op x 0) nz a_end (r.1, r.2.2)
    let rb ← canonical_tailS b_j b_x (fun x => op 0 x) nz b_end (r.2.1, ra.2)
    nnz := rb.2.1
    c_j := rb.2.2.1
    c_x := rb.2.2.2
    c_p ← c_p.wr (i + 1) (← t.ofUsize nnz)
  return (c_p, c_j, c_x)

/-- src/row.rs:716-739: as `csr_binop_csr` -/
def csr_binop_csrS (o : Ops T) [Zero T] (t : IdxTy) (n_row n_col : Nat)
    (a_p a_j : List Int) (a_x : List T) (b_p b_j : List Int) (b_x : List T)
    (c_p c_j : List Int) (c_x : List T2) (op : T → T → M T2) (nz : T2 → Bool) :
    M (List Int × List Int × List T2) := do
  let ca ← csr_has_canonical_format t n_row a_p a_j
  let both ← if ca then csr_has_canonical_format t n_row b_p b_j else pure false
  if both then
    csr_binop_csr_canonicalS t n_row a_p a_j a_x b_p b_j b_x c_p c_j c_x op nz
  else
    csr_binop_csr_generalS o t n_row n_col a_p a_j a_x b_p b_j b_x c_p c_j c_x op nz

/-- src/row.rs:917-944: as `csr_mul_csr` -/
def csr_mul_csrS [Zero T] [BEq T] (o : Ops T) (t : IdxTy) (n_row n_col : Nat) (a_p a_j : List Int) (a_x : List T)
    (b_p b_j : List Int) (b_x : List T) (c_p c_j : List Int) (c_x : List T) :=
  csr_binop_csrS o t n_row n_col a_p a_j a_x b_p b_j b_x c_p c_j c_x o.mul nzT

/-- src/row.rs:946-973: as `csr_div_csr` -/
def csr_div_csrS [Zero T] [BEq T] (o : Ops T) (t : IdxTy) (n_row n_col : Nat) (a_p a_j : List Int) (a_x : List T)
    (b_p b_j : List Int) (b_x : List T) (c_p c_j : List Int) (c_x : List T) :=
  csr_binop_csrS o t n_row n_col a_p a_j a_x b_p b_j b_x c_p c_j c_x o.div nzT

/-- src/row.rs:975-1002: as `csr_add_csr` -/
def csr_add_csrS [Zero T] [BEq T] (o : Ops T) (t : IdxTy) (n_row n_col : Nat) (a_p a_j : List Int) (a_x : List T)
    (b_p b_j : List Int) (b_x : List T) (c_p c_j : List Int) (c_x : List T) :=
  csr_binop_csrS o t n_row n_col a_p a_j a_x b_p b_j b_x c_p c_j c_x o.add nzT

/-- src/row.rs:1004-1031: as `csr_sub_csr` -/
def csr_sub_csrS [Zero T] [BEq T] (o : Ops T) (t : IdxTy) (n_row n_col : Nat) (a_p a_j : List Int) (a_x : List T)
    (b_p b_j : List Int) (b_x : List T) (c_p c_j : List Int) (c_x : List T) :=
  csr_binop_csrS o t n_row n_col a_p a_j a_x b_p b_j b_x c_p c_j c_x o.sub nzT

/-- src/row.rs:1132-1135: as `sum_run` -/
def sum_runS (o : Ops T) (row_end : Nat) (j : Int) (a_j : List Int) (a_x : List T) (s : Nat × T) :
    M (Nat × T) :=
  whileM ((row_end - s.1) + 1) s fun (jj, x) => do
    if jj < row_end then
      if (← a_j.rd jj) = j then
        return .yield (jj + 1, ← o.add x (← a_x.rd jj))
      else
        return .done (jj, x)
    else
      return .done (jj, x)

/-- src/row.rs:1128-1139: as `sum_row` -/
def sum_rowS (o : Ops T) (row_end : Nat) (s : Nat × Nat × List Int × List T) :
    M (Nat × Nat × List Int × List T) :=
  whileM ((row_end - s.1) + 1) s fun (jj, nnz, a_j, a_x) => do
    if jj < row_end then
      let j ← a_j.rd jj
      let x ← a_x.rd jj
      let (jj, x) ← sum_runS o row_end j a_j a_x (jj + 1, x)
      let a_j ← a_j.wr nnz j
      let a_x ← a_x.wr nnz x
      return .yield (jj, nnz + 1, a_j, a_x)
    else
      return .done (jj, nnz, a_j, a_x)

/-- src/row.rs:1117-1143: as `csr_sum_duplicates` -/
def csr_sum_duplicatesS (o : Ops T) (t : IdxTy) (n_row : Nat) (a_p0 a_j0 : List Int) (a_x0 : List T) :
    M (List Int × List Int × List T) := do
  let mut a_p := a_p0
  let mut a_j := a_j0
  let mut a_x := a_x0
  let mut nnz : Nat := 0
  let mut row_end : Nat := 0
  for i in rng 0 n_row do
    let jj := row_end
    row_end ← toUsize (← a_p.rd (i + 1))
    let r ← sum_rowS o row_end (jj, nnz, a_j, a_x)
    nnz := r.2.1
    a_j := r.2.2.1
    a_x := r.2.2.2
    a_p ← a_p.wr (i + 1) (← t.ofUsize nnz)
  return (a_p, a_j, a_x)

/-- src/row.rs:1201-1219: as `csr_matvec` -/
def csr_matvecS (o : Ops T) (n_row : Nat) (a_p a_j : List Int) (a_x x_x y_x0 : List T) :
    M (List T) := do
  let mut y_x := y_x0
  for i in rng 0 n_row do
    let mut sum ← y_x.rd i
    let start ← toUsize (← a_p.rd i)
    let stop ← toUsize (← a_p.rd (i + 1))
    for jj in rng start stop do
      sum ← o.add sum (← o.mul (← a_x.rd jj) (← x_x.rd (← toUsize (← a_j.rd jj))))
    y_x ← y_x.wr i sum
  return y_x

/-- src/util.rs:9-13: as `axpy` -/
def axpyS (o : Ops T) (n : Nat) (a : T) (x : List T) (xo : Nat) (y0 : List T) (yo : Nat) :
    M (List T) := do
  let mut y := y0
  if xo > x.length ∨ yo > y0.length then
    throw (.panic .oob)
  for i in rng 0 n do
    y ← y.wr (yo + i) (← o.add (← y.rd (yo + i)) (← o.mul a (← x.rd (xo + i))))
  return y

/-- src/row.rs:1238-1260: as `csr_matvecs` -/
def csr_matvecsS (o : Ops T) (n_row n_vecs : Nat) (a_p a_j : List Int) (a_x x_x y_x0 : List T) :
    M (List T) := do
  let mut y_x := y_x0
  for i in rng 0 n_row do
    if n_vecs * i > y_x.length then
      throw (.panic .oob)
    let start ← toUsize (← a_p.rd i)
    let stop ← toUsize (← a_p.rd (i + 1))
    for jj in rng start stop do
      let j ← toUsize (← a_j.rd jj)
      let a ← a_x.rd jj
      y_x ← axpyS o n_vecs a x_x (n_vecs * j) y_x (n_vecs * i)
  return y_x

/-- src/col.rs:26-44: as `csc_matvec` -/
def csc_matvecS (o : Ops T) (n_col : Nat) (a_p a_i : List Int) (a_x x_x y_x0 : List T) :
    M (List T) := do
  let mut y_x := y_x0
  for j in rng 0 n_col do
    let col_start ← toUsize (← a_p.rd j)
    let col_end ← toUsize (← a_p.rd (j + 1))
    for ii in rng col_start col_end do
      let i ← toUsize (← a_i.rd ii)
      y_x ← y_x.wr i (← o.add (← y_x.rd i) (← o.mul (← a_x.rd ii) (← x_x.rd j)))
  return y_x

/-- src/col.rs:66-91: as `csc_matvecs` -/
def csc_matvecsS (o : Ops T) (n_col n_vecs : Nat) (a_p a_i : List Int) (a_x x_x y_x0 : List T) :
    M (List T) := do
  let mut y_x := y_x0
  for j in rng 0 n_col do
    let start ← toUsize (← a_p.rd j)
    let stop ← toUsize (← a_p.rd (j + 1))
    for ii in rng start stop do
      let i ← toUsize (← a_i.rd ii)
      y_x ← axpyS o n_vecs (← a_x.rd ii) x_x (n_vecs * j) y_x (n_vecs * i)
  return y_x

/-- src/col.rs:95-105: as `csc_diagonal` -/
def csc_diagonalS (o : Ops T) [Zero T] (k : Int) (n_row n_col : Nat) (a_p a_j : List Int)
    (a_x y_x : List T) : M (List T) :=
  csr_diagonalS o (-k) n_col n_row a_p a_j a_x y_x

/-- src/col.rs:132-146: as `csc_matmat` -/
def csc_matmatS (o : Ops T) [Zero T] [BEq T] (t : IdxTy) (n_row n_col : Nat)
    (a_p a_i : List Int) (a_x : List T) (b_p b_i : List Int) (b_x : List T)
    (c_p c_i : List Int) (c_x : List T) : M (List Int × List Int × List T) :=
  csr_matmatS o t n_col n_row b_p b_i b_x a_p a_i a_x c_p c_i c_x

/-- src/csr/csr.rs:199-214: as `CSR.sum_duplicates` -/
def CSR.sum_duplicatesS (o : Ops T) [Zero T] (t : IdxTy) (a : CSR T) : M (CSR T) := do
  if ← a.has_canonical_format t then
    return a
  let a ← a.sort_indexes
  let (rowptr, colidx, values) ← csr_sum_duplicatesS o t a.rows a.rowptr a.colidx a.values
  CSR.prune { a with rowptr, colidx, values }

/-- src/csr/csr.rs:239-258: as `CSR.mat_vec` -/
def CSR.mat_vecS (o : Ops T) [Zero T] (a : CSR T) (x : List T) : M (List T) := do
  if x.length ≠ a.cols then
    throw .err
  csr_matvecS o a.rows a.rowptr a.colidx a.values x (List.replicate a.rows 0)

/-- src/csr/csr.rs:262-295: as `CSR.mat_mat` -/
def CSR.mat_matS (o : Ops T) [Zero T] [BEq T] (t : IdxTy) (a x : CSR T) :
    M (CSR T) := do
  if a.cols ≠ x.rows then
    throw .err
  let rows := a.rows
  let cols := x.cols
  let rowptr := List.replicate (rows + 1) 0
  let nnz ← csr_matmat_maxnnz rows cols a.rowptr a.colidx x.rowptr x.colidx
  let (rowptr, colidx, values) ← csr_matmatS o t rows cols a.rowptr a.colidx a.values
    x.rowptr x.colidx x.values rowptr (List.replicate nnz 0) (List.replicate nnz 0)
  CSR.new rows cols rowptr colidx values

/-- src/csr/csr.rs:401-416: as `CSR.to_dense` -/
def CSR.to_denseS (o : Ops T) [Zero T] (a : CSR T) : M (List (List T)) :=
  csr_todenseS o a.rows a.rowptr a.colidx a.values (List.replicate a.rows (List.replicate a.cols 0))

/-- src/csr/csr.rs:419-432: as `CSR.diagonal` -/
def CSR.diagonalS (o : Ops T) [Zero T] (a : CSR T) : M (List T) :=
  csr_diagonalS o 0 a.rows a.cols a.rowptr a.colidx a.values
    (List.replicate (min a.rows a.cols) 0)

/-- src/csc/csc.rs:204-219: as `CSC.sum_duplicates` -/
def CSC.sum_duplicatesS (o : Ops T) [Zero T] (t : IdxTy) (a : CSC T) : M (CSC T) := do
  if ← a.has_canonical_format t then
    return a
  let a ← a.sort_indexes
  let (colptr, rowidx, values) ← csr_sum_duplicatesS o t a.cols a.colptr a.rowidx a.values
  unwrapR (CSC.prune { a with colptr, rowidx, values })

/-- src/csc/csc.rs:241-260: as `CSC.mat_vec` -/
def CSC.mat_vecS (o : Ops T) [Zero T] (a : CSC T) (x : List T) : M (List T) := do
  if x.length ≠ a.cols then
    throw .err
  csc_matvecS o a.cols a.colptr a.rowidx a.values x (List.replicate a.rows 0)

/-- src/csc/csc.rs:264-300: as `CSC.mat_mat` -/
def CSC.mat_matS (o : Ops T) [Zero T] [BEq T] (t : IdxTy) (a x : CSC T) :
    M (CSC T) := do
  if x.rows ≠ a.cols then
    throw .err
  let rows := a.rows
  let cols := x.cols
  let nnz ← csc_matmat_maxnnz rows cols a.colptr a.rowidx x.colptr x.rowidx
  let colptr := List.replicate (cols + 1) 0
  let (colptr, rowidx, values) ← csc_matmatS o t rows cols a.colptr a.rowidx a.values
    x.colptr x.rowidx x.values colptr (List.replicate nnz 0) (List.replicate nnz 0)
  CSC.new rows cols rowidx colptr values

/-- src/csc/csc.rs:374-415: as `CSC.add` -/
def CSC.addS (o : Ops T) [Zero T] [BEq T] (t : IdxTy) (a x : CSC T) : M (CSC T) := do
  if x.rows ≠ a.rows ∨ x.cols ≠ a.cols then
    throw .err
  let maxnnz := (← a.nnz) + (← x.nnz)
  let (colptr, rowidx, values) ← csr_add_csrS o t a.cols a.rows a.colptr a.rowidx a.values
    x.colptr x.rowidx x.values (List.replicate a.colptr.length 0) (List.replicate maxnnz 0)
    (List.replicate maxnnz 0)
  let newnnz ← toUsize (← colptr.rd a.cols)
  let rowidx ← rowidx.slice 0 newnnz
  let values ← values.slice 0 newnnz
  CSC.new a.rows a.cols rowidx colptr values

/-- src/csc/csc.rs:419-460: as `CSC.subtract` -/
def CSC.subtractS (o : Ops T) [Zero T] [BEq T] (t : IdxTy) (a x : CSC T) :
    M (CSC T) := do
  if x.rows ≠ a.rows ∨ x.cols ≠ a.cols then
    throw .err
  let maxnnz := (← a.nnz) + (← x.nnz)
  let (colptr, rowidx, values) ← csr_sub_csrS o t a.cols a.rows a.colptr a.rowidx a.values
    x.colptr x.rowidx x.values (List.replicate a.colptr.length 0) (List.replicate maxnnz 0)
    (List.replicate maxnnz 0)
  let newnnz ← toUsize (← colptr.rd a.cols)
  let rowidx ← rowidx.slice 0 newnnz
  let values ← values.slice 0 newnnz
  CSC.new a.rows a.cols rowidx colptr values

/-- src/csc/csc.rs:515-517: as `CSC.to_dense` -/
def CSC.to_denseS (o : Ops T) [Zero T] (t : IdxTy) (a : CSC T) : M (List (List T)) := do
  (← a.to_csr t).to_denseS o

/-- src/csc/csc.rs:520-533: as `CSC.diagonal` -/
def CSC.diagonalS (o : Ops T) [Zero T] (a : CSC T) : M (List T) :=
  csr_diagonalS o 0 a.cols a.rows a.colptr a.rowidx a.values
    (List.replicate (min a.rows a.cols) 0)

/-- src/coo/coo.rs:271-292: as `Coo.to_csc` -/
def Coo.to_cscS (o : Ops T) [Zero T] (t : IdxTy) (a : Coo T) : M (CSC T) := do
  let nnz := a.nnz
  let (colptr, rowidx, values) ← coo_tocsr t a.cols nnz a.colidx a.rowidx a.values
    (List.replicate (a.cols + 1) 0) (List.replicate nnz 0) (List.replicate nnz 0)
  let m ← unwrapR (CSC.new a.rows a.cols rowidx colptr values)
  m.sum_duplicatesS o t

/-- src/coo/coo.rs:296-317: as `Coo.to_csr` -/
def Coo.to_csrS (o : Ops T) [Zero T] (t : IdxTy) (a : Coo T) : M (CSR T) := do
  let nnz := a.nnz
  let (rowptr, colidx, values) ← coo_tocsr t a.rows nnz a.rowidx a.colidx a.values
    (List.replicate (a.rows + 1) 0) (List.replicate nnz 0) (List.replicate nnz 0)
  let m ← unwrapR (CSR.new a.rows a.cols rowptr colidx values)
  unwrapR (m.sum_duplicatesS o t)

/-- src/coo/coo.rs:320-333: as `Coo.to_dense` -/
def Coo.to_denseS (o : Ops T) [Zero T] (a : Coo T) : M (List (List T)) := do
  let mut dense := List.replicate a.rows (List.replicate a.cols (0 : T))
  for n in rng 0 a.nnz do
    let i ← toUsize (← a.rowidx.rd n)
    let j ← toUsize (← a.colidx.rd n)
    let row ← dense.rd i
    dense ← dense.wr i (← row.wr j (← o.add (← row.rd j) (← a.values.rd n)))
  return dense

/-- src/coo/coo.rs:361-372: as `Coo.diagonal` -/
def Coo.diagonalS (o : Ops T) [Zero T] (a : Coo T) : M (List T) := do
  let mut d : List T := List.replicate (min a.rows a.cols) 0
  for i in rng 0 a.values.length do
    let r ← a.rowidx.rd i
    if r = (← a.colidx.rd i) then
      let j ← toUsize r
      d ← d.wr j (← o.add (← d.rd j) (← a.values.rd i))
  return d

/-- src/csr/csr.rs:115-117: as `CSR.h_stack` -/
def CSR.h_stackS (o : Ops T) [Zero T] (t : IdxTy) (a b : CSR T) : M (CSR T) := do
  (← Coo.h_stack t (← a.to_coo t) (← b.to_coo t)).to_csrS o t

/-- src/csc/csc.rs:560-577: as `CSC.compose` -/
def CSC.composeS (o : Ops T) [Zero T] (t : IdxTy) (j11 j12 j21 j22 : CSC T) : M (CSC T) := do
  let j11coo ← j11.to_coo t
  let j12coo ← j12.to_coo t
  let j21coo ← j21.to_coo t
  let j22coo ← j22.to_coo t
  let j1x ← Coo.h_stack t j11coo j12coo
  let j2x ← Coo.h_stack t j21coo j22coo
  let j ← Coo.v_stack t j1x j2x
  j.to_cscS o t

/-- src/csr/std_ops.rs:7-17: as `CSR.neg` -/
def CSR.negS (o : Ops T) (a : CSR T) : M (CSR T) := do
  unwrapR (CSR.new a.rows a.cols a.rowptr a.colidx (← a.values.mapM o.neg))

/-- src/csr/std_ops.rs:19-41: as `CSR.add` -/
def CSR.addS (o : Ops T) [Zero T] [BEq T] (t : IdxTy) (a b : CSR T) : M (CSR T) := do
  let nnz := (← a.nnz) + (← b.nnz)
  let (rowptr, colidx, values) ← csr_add_csrS o t a.rows a.cols a.rowptr a.colidx a.values
    b.rowptr b.colidx b.values (List.replicate (a.rows + 1) 0) (List.replicate nnz 0)
    (List.replicate nnz 0)
  unwrapR (CSR.new a.rows a.cols rowptr colidx values)

/-- src/csr/std_ops.rs:43-65: as `CSR.sub` -/
def CSR.subS (o : Ops T) [Zero T] [BEq T] (t : IdxTy) (a b : CSR T) : M (CSR T) := do
  let nnz := (← a.nnz) + (← b.nnz)
  let (rowptr, colidx, values) ← csr_sub_csrS o t a.rows a.cols a.rowptr a.colidx a.values
    b.rowptr b.colidx b.values (List.replicate (a.rows + 1) 0) (List.replicate nnz 0)
    (List.replicate nnz 0)
  unwrapR (CSR.new a.rows a.cols rowptr colidx values)

/-- src/csr/std_ops.rs:67-70: as `CSR.mul` -/
def CSR.mulS (o : Ops T) [Zero T] [BEq T] (t : IdxTy) (a b : CSR T) : M (CSR T) :=
  unwrapR (a.mat_matS o t b)

/-- src/csr/std_ops.rs:72-81: as `CSR.mul_scalar` -/
def CSR.mul_scalarS (o : Ops T) (a : CSR T) (s : T) : M (CSR T) := do
  unwrapR (CSR.new a.rows a.cols a.rowptr a.colidx (← a.values.mapM fun v => o.mul v s))

/-- src/csr/std_ops.rs:83-96: as `CSR.scalar_mul` -/
def CSR.scalar_mulS (o : Ops T) (s : T) (a : CSR T) : M (CSR T) := do
  unwrapR (CSR.new a.rows a.cols a.rowptr a.colidx (← a.values.mapM fun v => o.mul s v))

/-- src/csr/std_ops.rs:97-104: as `CSR.mul_vec` -/
def CSR.mul_vecS (o : Ops T) [Zero T] (a : CSR T) (x : List T) : M (List T) :=
  unwrapR (a.mat_vecS o x)

/-- src/csc/std_ops.rs:8-18: as `CSC.neg` -/
def CSC.negS (o : Ops T) (a : CSC T) : M (CSC T) := do
  unwrapR (CSC.new a.rows a.cols a.rowidx a.colptr (← a.values.mapM o.neg))

/-- src/csc/std_ops.rs:20-42: as `CSC.add_op` -/
def CSC.add_opS (o : Ops T) [Zero T] [BEq T] (t : IdxTy) (a b : CSC T) : M (CSC T) := do
  let nnz := (← a.nnz) + (← b.nnz)
  let (colptr, rowidx, values) ← csr_add_csrS o t a.cols a.rows a.colptr a.rowidx a.values
    b.colptr b.rowidx b.values (List.replicate (a.cols + 1) 0) (List.replicate nnz 0)
    (List.replicate nnz 0)
  unwrapR (CSC.new a.rows a.cols rowidx colptr values)

/-- src/csc/std_ops.rs:44-66: as `CSC.sub_op` -/
def CSC.sub_opS (o : Ops T) [Zero T] [BEq T] (t : IdxTy) (a b : CSC T) : M (CSC T) := do
  let nnz := (← a.nnz) + (← b.nnz)
  let (colptr, rowidx, values) ← csr_sub_csrS o t a.cols a.rows a.colptr a.rowidx a.values
    b.colptr b.rowidx b.values (List.replicate (a.cols + 1) 0) (List.replicate nnz 0)
    (List.replicate nnz 0)
  unwrapR (CSC.new a.rows a.cols colptr rowidx values)

/-- src/csc/std_ops.rs:68-71: as `CSC.mul` -/
def CSC.mulS (o : Ops T) [Zero T] [BEq T] (t : IdxTy) (a b : CSC T) : M (CSC T) :=
  unwrapR (a.mat_matS o t b)

/-- src/csc/std_ops.rs:73-76: as `CSC.mul_csr` -/
def CSC.mul_csrS (o : Ops T) [Zero T] [BEq T] (t : IdxTy) (a : CSC T) (b : CSR T) :
    M (CSC T) := do
  unwrapR (a.mat_matS o t (← b.to_csc t))

/-- src/csc/std_ops.rs:78-87: as `CSC.mul_scalar` -/
def CSC.mul_scalarS (o : Ops T) (a : CSC T) (s : T) : M (CSC T) := do
  unwrapR (CSC.new a.rows a.cols a.colptr a.rowidx (← a.values.mapM fun v => o.mul v s))

/-- src/csc/std_ops.rs:89-102: as `CSC.scalar_mul` -/
def CSC.scalar_mulS (o : Ops T) (s : T) (a : CSC T) : M (CSC T) := do
  unwrapR (CSC.new a.rows a.cols a.colptr a.rowidx (← a.values.mapM fun v => o.mul s v))

/-- src/csc/std_ops.rs:103-110: as `CSC.mul_vec` -/
def CSC.mul_vecS (o : Ops T) [Zero T] (a : CSC T) (x : List T) : M (List T) :=
  unwrapR (a.mat_vecS o x)

/-- src/coo/std_ops.rs:6-28: as `Coo.add` -/
def Coo.addS (o : Ops T) [Zero T] (t : IdxTy) (a b : Coo T) : M (CSR T) := do
  if a.rows ≠ b.rows then
    throw (.panic .assert)
  if a.cols ≠ b.cols then
    throw (.panic .assert)
  let m ← unwrapR (Coo.new a.rows a.cols (a.rowidx ++ b.rowidx) (a.colidx ++ b.colidx)
    (a.values ++ b.values))
  m.to_csrS o t

/-- src/coo/std_ops.rs:30-40: as `Coo.neg` -/
def Coo.negS (o : Ops T) (a : Coo T) : M (Coo T) := do
  unwrapR (Coo.new a.rows a.cols a.rowidx a.colidx (← a.values.mapM o.neg))

/-- src/dok/dok.rs:86-88: as `DoK.add` -/
def DoK.addS (o : Ops T) [Zero T] [BEq T] (t : IdxTy) (d : DoK T) (i j : Int) (v : T) : M (DoK T × Bool) := do
  d.set t i j (← o.add (d.get i j) v)

/-- src/dok/dok.rs:90-92: as `DoK.sub` -/
def DoK.subS (o : Ops T) [Zero T] [BEq T] (t : IdxTy) (d : DoK T) (i j : Int) (v : T) : M (DoK T × Bool) := do
  d.set t i j (← o.sub (d.get i j) v)

/-- src/dok/dok.rs:118-120: as `DoK.to_csc` -/
def DoK.to_cscS (o : Ops T) [Zero T] (t : IdxTy) (d : DoK T) (es : KMap T) : M (CSC T) := do
  (← d.to_coo es).to_cscS o t

/-- src/dok/dok.rs:122-124: as `DoK.to_csr` -/
def DoK.to_csrS (o : Ops T) [Zero T] (t : IdxTy) (d : DoK T) (es : KMap T) : M (CSR T) := do
  (← d.to_coo es).to_csrS o t

end
end Sparse

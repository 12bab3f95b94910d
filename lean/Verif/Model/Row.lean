import Verif.Model.Coord
/-! Model of src/row.rs: kernels on CSR arrays (`a_p` row pointer, `a_j` column indices, `a_x` values). -/
namespace Sparse

section
variable {T T2 : Type}

/-- `head as usize` used as an array index: a negative `isize` becomes a value larger than the length
of any array, so the indexing that follows it panics. -/
def asIdx (h : Int) : M Nat :=
  if 0 ≤ h then pure h.toNat else throw (.panic .oob)

/-- src/row.rs:30-58 `csr_diagonal`. `k` is an `isize`; negating `isize::MIN` is modelled in `csr_diagonalU`. -/
def csr_diagonal [Zero T] [Add T] (k : Int) (n_row n_col : Nat) (a_p a_j : List Int)
    (a_x : List T) (y_x0 : List T) : M (List T) := do
  let first_row : Nat := if k ≥ 0 then 0 else (-1 * k).toNat
  let first_col : Nat := if k ≥ 0 then k.toNat else 0
  let n := min (← usub n_row first_row) (← usub n_col first_col)
  let mut y_x := y_x0
  for i in rng 0 n do
    let row := first_row + i
    let col := first_col + i
    let row_begin ← toUsize (← a_p.rd row)
    let row_end ← toUsize (← a_p.rd (row + 1))
    let mut diag : T := 0
    for j in rng row_begin row_end do
      if (← toUsize (← a_j.rd j)) = col then
        diag := diag + (← a_x.rd j)
    y_x ← y_x.wr i diag
  return y_x

/-- src/row.rs:76-84 `expandptr`. -/
def expandptr (t : IdxTy) (n_row : Nat) (a_p b_i0 : List Int) : M (List Int) := do
  let mut b_i := b_i0
  for i in rng 0 n_row do
    let start ← toUsize (← a_p.rd i)
    let stop ← toUsize (← a_p.rd (i + 1))
    for jj in rng start stop do
      b_i ← b_i.wr jj (← t.ofUsize i)
  return b_i

/-- src/row.rs:90-105 `csr_scale_rows`. -/
def csr_scale_rows [Mul T] (n_row : Nat) (a_p : List Int) (a_x0 x_x : List T) : M (List T) := do
  let mut a_x := a_x0
  for i in rng 0 n_row do
    let start ← toUsize (← a_p.rd i)
    let stop ← toUsize (← a_p.rd (i + 1))
    for jj in rng start stop do
      a_x ← a_x.wr jj ((← a_x.rd jj) * (← x_x.rd i))
  return a_x

/-- src/row.rs:111-123 `csr_scale_columns`. -/
def csr_scale_columns [Mul T] (n_row : Nat) (a_p a_j : List Int) (a_x0 x_x : List T) :
    M (List T) := do
  let nnz ← toUsize (← a_p.rd n_row)
  let mut a_x := a_x0
  for i in rng 0 nnz do
    a_x ← a_x.wr i ((← a_x.rd i) * (← x_x.rd (← toUsize (← a_j.rd i))))
  return a_x

/-- src/row.rs:136-153 `csr_todense` (`B += A`). -/
def csr_todense [Add T] (n_row : Nat) (a_p a_j : List Int) (a_x : List T)
    (b_x0 : List (List T)) : M (List (List T)) := do
  let mut b_x := b_x0
  for i in rng 0 n_row do
    let row_start ← toUsize (← a_p.rd i)
    let row_end ← toUsize (← a_p.rd (i + 1))
    for jj in rng row_start row_end do
      let j ← toUsize (← a_j.rd jj)
      let row ← b_x.rd i
      b_x ← b_x.wr i (← row.wr j ((← row.rd j) + (← a_x.rd jj)))
  return b_x

/-- src/row.rs:163-174 `csr_has_sorted_indices`. -/
def csr_has_sorted_indices (t : IdxTy) (n_row : Nat) (a_p a_j : List Int) : M Bool := do
  for i in rng 0 n_row do
    let start ← toUsize (← a_p.rd i)
    let stop ← toUsize (← t.sub (← a_p.rd (i + 1)) 1)
    for jj in rng start stop do
      if (← a_j.rd jj) > (← a_j.rd (jj + 1)) then
        return false
  return true

/-- src/row.rs:187-204 `csr_has_canonical_format`. -/
def csr_has_canonical_format (t : IdxTy) (n_row : Nat) (a_p a_j : List Int) : M Bool := do
  for i in rng 0 n_row do
    let start ← toUsize (← a_p.rd i)
    let stop ← toUsize (← a_p.rd (i + 1))
    if start > stop then
      return false
    let start ← toUsize (← t.add (← a_p.rd i) 1)
    let stop ← toUsize (← a_p.rd (i + 1))
    for jj in rng start stop do
      if ¬ ((← a_j.rd (← usub jj 1)) < (← a_j.rd jj)) then
        return false
  return true

/-- src/row.rs:215-244 `csr_sort_indices`. `temp.sort_by` is Rust's stable slice sort, modelled by
`List.mergeSort` on the key; `partial_cmp` on integers never returns `None`. -/
def csr_sort_indices [Zero T] (n_row : Nat) (a_p a_j0 : List Int) (a_x0 : List T) :
    M (List Int × List T) := do
  let mut a_j := a_j0
  let mut a_x := a_x0
  let mut temp : List (Int × T) := []
  for i in rng 0 n_row do
    let row_start ← toUsize (← a_p.rd i)
    let row_end ← toUsize (← a_p.rd (i + 1))
    temp := temp.resize (← usub row_end row_start) (0, 0)
    let mut n := 0
    for jj in rng row_start row_end do
      temp ← temp.wr n (← a_j.rd jj, (← temp.rd n).2)
      temp ← temp.wr n ((← temp.rd n).1, ← a_x.rd jj)
      n := n + 1
    temp := temp.mergeSort (fun a b => decide (a.1 ≤ b.1))
    n := 0
    for jj in rng row_start row_end do
      a_j ← a_j.wr jj (← temp.rd n).1
      a_x ← a_x.wr jj (← temp.rd n).2
      n := n + 1
  return (a_j, a_x)

/-- The scatter loop of `csr_tocsc` (src/row.rs:305-318). -/
def csr_scatter (t : IdxTy) (n_row : Nat) (a_p a_j : List Int) (a_x : List T)
    (b_p0 b_i0 : List Int) (b_x0 : List T) : M (List Int × List Int × List T) := do
  let mut b_p := b_p0
  let mut b_i := b_i0
  let mut b_x := b_x0
  for row in rng 0 n_row do
    let start ← toUsize (← a_p.rd row)
    let stop ← toUsize (← a_p.rd (row + 1))
    for jj in rng start stop do
      let col ← toUsize (← a_j.rd jj)
      let dest ← toUsize (← b_p.rd col)
      b_i ← b_i.wr dest (← t.ofUsize row)
      b_x ← b_x.wr dest (← a_x.rd jj)
      b_p ← b_p.wr col (← t.add (← b_p.rd col) 1)
  return (b_p, b_i, b_x)

/-- src/row.rs:277-326 `csr_tocsc`. -/
def csr_tocsc (t : IdxTy) (n_row n_col : Nat) (a_p a_j : List Int) (a_x : List T)
    (b_p b_i : List Int) (b_x : List T) : M (List Int × List Int × List T) := do
  let nnz ← a_p.rd n_row
  let b_p := b_p.map fun _ => (0 : Int)
  let b_p ← count_loop t (← toUsize nnz) a_j b_p
  let b_p ← cumsum_loop t n_col b_p
  let b_p ← b_p.wr n_col nnz
  let (b_p, b_i, b_x) ← csr_scatter t n_row a_p a_j a_x b_p b_i b_x
  let b_p ← shift_loop n_col b_p
  return (b_p, b_i, b_x)

/-- src/row.rs:373-417 `csr_matmat_maxnnz`. `usize` counters are unbounded here, so the check for
`row_nnz > usize::MAX - nnz` (lines 408-411) is omitted. -/
def csr_matmat_maxnnz (n_row n_col : Nat) (a_p a_j b_p b_j : List Int) : M Nat := do
  let mut mask : List Int := List.replicate n_col (-1)
  let mut nnz := 0
  for i in rng 0 n_row do
    let start ← toUsize (← a_p.rd i)
    let stop ← toUsize (← a_p.rd (i + 1))
    let mut row_nnz := 0
    for jj in rng start stop do
      let j ← toUsize (← a_j.rd jj)
      let b_start ← toUsize (← b_p.rd j)
      let b_end ← toUsize (← b_p.rd (j + 1))
      for kk in rng b_start b_end do
        let k ← toUsize (← b_j.rd kk)
        if (← mask.rd k) ≠ (i : Int) then
          mask ← mask.wr k (i : Int)
          row_nnz := row_nnz + 1
    nnz := nnz + row_nnz
  return nnz

/-- src/row.rs:455-466: the accumulation of row `j` of `B` scaled by `v`, in `csr_matmat`. -/
def matmat_accum [Add T] [Mul T] (t : IdxTy) (kk_start kk_end : Nat) (v : T) (b_j : List Int)
    (b_x : List T) (next0 : List Int) (sums0 : List T) (head0 length0 : Int) :
    M (List Int × List T × Int × Int) := do
  let mut next := next0
  let mut sums := sums0
  let mut head := head0
  let mut length := length0
  for kk in rng kk_start kk_end do
    let k ← toUsize (← b_j.rd kk)
    sums ← sums.wr k ((← sums.rd k) + v * (← b_x.rd kk))
    if (← next.rd k) = -1 then
      next ← next.wr k head
      head := (k : Int)
      length ← t.add length 1
  return (next, sums, head, length)

/-- src/row.rs:469-481: emptying the linked list of columns into the output row, in `csr_matmat`. -/
def matmat_flush [Zero T] [BEq T] (t : IdxTy) (length head0 : Int) (next0 : List Int)
    (sums0 : List T) (nnz0 : Int) (c_j0 : List Int) (c_x0 : List T) :
    M (List Int × List T × Int × List Int × List T) := do
  let mut head := head0
  let mut next := next0
  let mut sums := sums0
  let mut nnz := nnz0
  let mut c_j := c_j0
  let mut c_x := c_x0
  for _jj in rng 0 (← toUsize length) do
    if (← sums.rd (← asIdx head)) != 0 then
      c_j ← c_j.wr (← toUsize nnz) (← t.ofInt head)
      c_x ← c_x.wr (← toUsize nnz) (← sums.rd (← asIdx head))
      nnz ← t.add nnz 1
    let temp ← asIdx head
    head ← next.rd temp
    next ← next.wr temp (-1)
    sums ← sums.wr temp 0
  return (next, sums, nnz, c_j, c_x)

/-- src/row.rs:420-483 `csr_matmat`. -/
def csr_matmat [Zero T] [Add T] [Mul T] [BEq T] (t : IdxTy) (n_row n_col : Nat)
    (a_p a_j : List Int) (a_x : List T) (b_p b_j : List Int) (b_x : List T)
    (c_p0 c_j0 : List Int) (c_x0 : List T) : M (List Int × List Int × List T) := do
  let mut next : List Int := List.replicate n_col (-1)
  let mut sums : List T := List.replicate n_col 0
  let mut nnz : Int := 0
  let mut c_p ← c_p0.wr 0 0
  let mut c_j := c_j0
  let mut c_x := c_x0
  for i in rng 0 n_row do
    let mut head : Int := -2
    let mut length : Int := 0
    let jj_start ← toUsize (← a_p.rd i)
    let jj_end ← toUsize (← a_p.rd (i + 1))
    for jj in rng jj_start jj_end do
      let j ← toUsize (← a_j.rd jj)
      let v ← a_x.rd jj
      let kk_start ← toUsize (← b_p.rd j)
      let kk_end ← toUsize (← b_p.rd (j + 1))
      let r ← matmat_accum t kk_start kk_end v b_j b_x next sums head length
      next := r.1
      sums := r.2.1
      head := r.2.2.1
      length := r.2.2.2
    let r ← matmat_flush t length head next sums nnz c_j c_x
    next := r.1
    sums := r.2.1
    nnz := r.2.2.1
    c_j := r.2.2.2.1
    c_x := r.2.2.2.2
    c_p ← c_p.wr (i + 1) nnz
  return (c_p, c_j, c_x)

/-- src/row.rs:537-549 and 552-564: adding one row of an operand to its dense accumulator, in
`csr_binop_csr_general`. -/
def binop_accum [Add T] (t : IdxTy) (i_start i_end : Nat) (a_j : List Int) (a_x : List T)
    (next0 : List Int) (row0 : List T) (head0 length0 : Int) :
    M (List Int × List T × Int × Int) := do
  let mut next := next0
  let mut row := row0
  let mut head := head0
  let mut length := length0
  for jj in rng i_start i_end do
    let j ← toUsize (← a_j.rd jj)
    row ← row.wr j ((← row.rd j) + (← a_x.rd jj))
    if (← next.rd j) = -1 then
      next ← next.wr j head
      head := (j : Int)
      length ← t.add length 1
  return (next, row, head, length)

/-- src/row.rs:568-582: emptying the linked list of columns, in `csr_binop_csr_general`. -/
def binop_flush [Zero T] (t : IdxTy) (op : T → T → T2) (nz : T2 → Bool) (length head0 : Int)
    (next0 : List Int) (a_row0 b_row0 : List T) (nnz0 : Int) (c_j0 : List Int) (c_x0 : List T2) :
    M (List Int × List T × List T × Int × List Int × List T2) := do
  let mut head := head0
  let mut next := next0
  let mut a_row := a_row0
  let mut b_row := b_row0
  let mut nnz := nnz0
  let mut c_j := c_j0
  let mut c_x := c_x0
  for _jj in rng 0 (← toUsize length) do
    let result := op (← a_row.rd (← asIdx head)) (← b_row.rd (← asIdx head))
    if nz result then
      c_j ← c_j.wr (← toUsize nnz) (← t.ofInt head)
      c_x ← c_x.wr (← toUsize nnz) result
      nnz ← t.add nnz 1
    let temp ← asIdx head
    head ← next.rd temp
    next ← next.wr temp (-1)
    a_row ← a_row.wr temp 0
    b_row ← b_row.wr temp 0
  return (next, a_row, b_row, nnz, c_j, c_x)

/-- src/row.rs:504-585 `csr_binop_csr_general`. `nz` is `Nonzero::nonzero` of the result type
(src/traits.rs:137-141). -/
def csr_binop_csr_general [Zero T] [Add T] (t : IdxTy) (n_row n_col : Nat)
    (a_p a_j : List Int) (a_x : List T) (b_p b_j : List Int) (b_x : List T)
    (c_p0 c_j0 : List Int) (c_x0 : List T2) (op : T → T → T2) (nz : T2 → Bool) :
    M (List Int × List Int × List T2) := do
  let mut next : List Int := List.replicate n_col (-1)
  let mut a_row : List T := List.replicate n_col 0
  let mut b_row : List T := List.replicate n_col 0
  let mut nnz : Int := 0
  let mut c_p ← c_p0.wr 0 0
  let mut c_j := c_j0
  let mut c_x := c_x0
  for i in rng 0 n_row do
    let head : Int := -2
    let length : Int := 0
    let i_start ← toUsize (← a_p.rd i)
    let i_end ← toUsize (← a_p.rd (i + 1))
    let ra ← binop_accum t i_start i_end a_j a_x next a_row head length
    let i_start ← toUsize (← b_p.rd i)
    let i_end ← toUsize (← b_p.rd (i + 1))
    let rb ← binop_accum t i_start i_end b_j b_x ra.1 b_row ra.2.2.1 ra.2.2.2
    let r ← binop_flush t op nz rb.2.2.2 rb.2.2.1 rb.1 ra.2.1 rb.2.1 nnz c_j c_x
    next := r.1
    a_row := r.2.1
    b_row := r.2.2.1
    nnz := r.2.2.2.1
    c_j := r.2.2.2.2.1
    c_x := r.2.2.2.2.2
    c_p ← c_p.wr (i + 1) nnz
  return (c_p, c_j, c_x)

/-- One store of the merge loop of `csr_binop_csr_canonical`: `if result.nonzero() { c_j[nnz] = j; c_x[nnz] = result;
nnz += 1 }` (src/row.rs:633-637, 642-646, 651-655). -/
def binop_emit (nz : T2 → Bool) (j : Int) (result : T2) (nnz : Nat) (c_j : List Int)
    (c_x : List T2) : M (Nat × List Int × List T2) := do
  if nz result then
    let c_j ← c_j.wr nnz j
    let c_x ← c_x.wr nnz result
    return (nnz + 1, c_j, c_x)
  else
    return (nnz, c_j, c_x)

/-- src/row.rs:627-658: the merge loop of one row. State: `(a_pos, b_pos, nnz, c_j, c_x)`. -/
def canonical_merge [Zero T] (a_j : List Int) (a_x : List T) (b_j : List Int) (b_x : List T)
    (op : T → T → T2) (nz : T2 → Bool) (a_end b_end : Nat)
    (s : Nat × Nat × Nat × List Int × List T2) : M (Nat × Nat × Nat × List Int × List T2) :=
  whileM ((a_end - s.1) + (b_end - s.2.1) + 1) s fun (a_pos, b_pos, nnz, c_j, c_x) => do
    if a_pos < a_end ∧ b_pos < b_end then
      let aj ← a_j.rd a_pos
      let bj ← b_j.rd b_pos
      if aj = bj then
        let result := op (← a_x.rd a_pos) (← b_x.rd b_pos)
        let (nnz, c_j, c_x) ← binop_emit nz aj result nnz c_j c_x
        return .yield (a_pos + 1, b_pos + 1, nnz, c_j, c_x)
      else if aj < bj then
        let result := op (← a_x.rd a_pos) 0
        let (nnz, c_j, c_x) ← binop_emit nz aj result nnz c_j c_x
        return .yield (a_pos + 1, b_pos, nnz, c_j, c_x)
      else
        let result := op 0 (← b_x.rd b_pos)
        let (nnz, c_j, c_x) ← binop_emit nz bj result nnz c_j c_x
        return .yield (a_pos, b_pos + 1, nnz, c_j, c_x)
    else
      return .done (a_pos, b_pos, nnz, c_j, c_x)

/-- One store of a tail loop (src/row.rs:662-666 and 671-675): the column is read only if the result is nonzero. -/
def tail_emit (nz : T2 → Bool) (a_j : List Int) (a_pos : Nat) (result : T2) (nnz : Nat) (c_j : List Int)
    (c_x : List T2) : M (Nat × List Int × List T2) := do
  if nz result then
    let c_j ← c_j.wr nnz (← a_j.rd a_pos)
    let c_x ← c_x.wr nnz result
    return (nnz + 1, c_j, c_x)
  else
    return (nnz, c_j, c_x)

/-- src/row.rs:661-669 and 670-678: a tail loop of one row (`f` is the operation with the missing
operand zero). State: `(pos, nnz, c_j, c_x)`. -/
def canonical_tail (a_j : List Int) (a_x : List T) (f : T → T2) (nz : T2 → Bool) (a_end : Nat)
    (s : Nat × Nat × List Int × List T2) : M (Nat × Nat × List Int × List T2) :=
  whileM ((a_end - s.1) + 1) s fun (a_pos, nnz, c_j, c_x) => do
    if a_pos < a_end then
      let result := f (← a_x.rd a_pos)
      let (nnz, c_j, c_x) ← tail_emit nz a_j a_pos result nnz c_j c_x
      return .yield (a_pos + 1, nnz, c_j, c_x)
    else
      return .done (a_pos, nnz, c_j, c_x)

/-- src/row.rs:600-681 `csr_binop_csr_canonical`. -/
def csr_binop_csr_canonical [Zero T] (t : IdxTy) (n_row : Nat)
    (a_p a_j : List Int) (a_x : List T) (b_p b_j : List Int) (b_x : List T)
    (c_p0 c_j0 : List Int) (c_x0 : List T2) (op : T → T → T2) (nz : T2 → Bool) :
    M (List Int × List Int × List T2) := do
  let mut c_p ← c_p0.wr 0 0
  let mut nnz : Nat := 0
  let mut c_j := c_j0
  let mut c_x := c_x0
  for i in rng 0 n_row do
    let a_pos ← toUsize (← a_p.rd i)
    let b_pos ← toUsize (← b_p.rd i)
    let a_end ← toUsize (← a_p.rd (i + 1))
    let b_end ← toUsize (← b_p.rd (i + 1))
    let r ← canonical_merge a_j a_x b_j b_x op nz a_end b_end (a_pos, b_pos, nnz, c_j, c_x)
    let ra ← canonical_tail a_j a_x (fun x => op x 0) nz a_end (r.1, r.2.2)
    let rb ← canonical_tail b_j b_x (fun x => op 0 x) nz b_end (r.2.1, ra.2)
    nnz := rb.2.1
    c_j := rb.2.2.1
    c_x := rb.2.2.2
    c_p ← c_p.wr (i + 1) (← t.ofUsize nnz)
  return (c_p, c_j, c_x)

/-- src/row.rs:716-739 `csr_binop_csr` (the second format test runs only if the first succeeds). -/
def csr_binop_csr [Zero T] [Add T] (t : IdxTy) (n_row n_col : Nat)
    (a_p a_j : List Int) (a_x : List T) (b_p b_j : List Int) (b_x : List T)
    (c_p c_j : List Int) (c_x : List T2) (op : T → T → T2) (nz : T2 → Bool) :
    M (List Int × List Int × List T2) := do
  let ca ← csr_has_canonical_format t n_row a_p a_j
  let both ← if ca then csr_has_canonical_format t n_row b_p b_j else pure false
  if both then
    csr_binop_csr_canonical t n_row a_p a_j a_x b_p b_j b_x c_p c_j c_x op nz
  else
    csr_binop_csr_general t n_row n_col a_p a_j a_x b_p b_j b_x c_p c_j c_x op nz

/-- `Nonzero::nonzero` of a numeric type: `self != 0` (src/traits.rs:137-141). -/
def nzT [Zero T] [BEq T] (x : T) : Bool := x != 0

/-- `Nonzero::nonzero` of `bool`: `self != false` (src/traits.rs:137-141, 149). -/
def nzB (x : Bool) : Bool := decide (x ≠ false)

section binops
variable [Zero T] [Add T] [BEq T] (t : IdxTy) (n_row n_col : Nat)
    (a_p a_j : List Int) (a_x : List T) (b_p b_j : List Int) (b_x : List T)
    (c_p c_j : List Int)

/-- src/row.rs:743-770 -/
def csr_ne_csr (c_x : List Bool) :=
  csr_binop_csr t n_row n_col a_p a_j a_x b_p b_j b_x c_p c_j c_x (fun a b => a != b) nzB
/-- src/row.rs:772-799 -/
def csr_eq_csr (c_x : List Bool) :=
  csr_binop_csr t n_row n_col a_p a_j a_x b_p b_j b_x c_p c_j c_x (fun a b => a == b) nzB
/-- src/row.rs:801-828 -/
def csr_lt_csr [LT T] [DecidableRel (α := T) (· < ·)] (c_x : List Bool) :=
  csr_binop_csr t n_row n_col a_p a_j a_x b_p b_j b_x c_p c_j c_x (fun a b => decide (a < b)) nzB
/-- src/row.rs:830-857 -/
def csr_le_csr [LE T] [DecidableRel (α := T) (· ≤ ·)] (c_x : List Bool) :=
  csr_binop_csr t n_row n_col a_p a_j a_x b_p b_j b_x c_p c_j c_x (fun a b => decide (a ≤ b)) nzB
/-- src/row.rs:859-886 -/
def csr_gt_csr [LT T] [DecidableRel (α := T) (· < ·)] (c_x : List Bool) :=
  csr_binop_csr t n_row n_col a_p a_j a_x b_p b_j b_x c_p c_j c_x (fun a b => decide (b < a)) nzB
/-- src/row.rs:888-915 -/
def csr_ge_csr [LE T] [DecidableRel (α := T) (· ≤ ·)] (c_x : List Bool) :=
  csr_binop_csr t n_row n_col a_p a_j a_x b_p b_j b_x c_p c_j c_x (fun a b => decide (b ≤ a)) nzB
/-- src/row.rs:917-944 -/
def csr_mul_csr [Mul T] (c_x : List T) :=
  csr_binop_csr t n_row n_col a_p a_j a_x b_p b_j b_x c_p c_j c_x (fun a b => a * b) nzT
/-- src/row.rs:946-973. `/` is the scalar's division; integer division by zero panics in Rust and is
total here (floating-point division is total). -/
def csr_div_csr [Div T] (c_x : List T) :=
  csr_binop_csr t n_row n_col a_p a_j a_x b_p b_j b_x c_p c_j c_x (fun a b => a / b) nzT
/-- src/row.rs:975-1002 -/
def csr_add_csr (c_x : List T) :=
  csr_binop_csr t n_row n_col a_p a_j a_x b_p b_j b_x c_p c_j c_x (fun a b => a + b) nzT
/-- src/row.rs:1004-1031 -/
def csr_sub_csr [Sub T] (c_x : List T) :=
  csr_binop_csr t n_row n_col a_p a_j a_x b_p b_j b_x c_p c_j c_x (fun a b => a - b) nzT
/-- src/row.rs:1033-1066 -/
def csr_max_csr [LT T] [DecidableRel (α := T) (· < ·)] (c_x : List T) :=
  csr_binop_csr t n_row n_col a_p a_j a_x b_p b_j b_x c_p c_j c_x
    (fun a b => if b < a then a else b) nzT
/-- src/row.rs:1067-1100 -/
def csr_min_csr [LT T] [DecidableRel (α := T) (· < ·)] (c_x : List T) :=
  csr_binop_csr t n_row n_col a_p a_j a_x b_p b_j b_x c_p c_j c_x
    (fun a b => if a < b then a else b) nzT
end binops

/-- src/row.rs:1132-1135: the inner loop of `csr_sum_duplicates`. State: `(jj, x)`. -/
def sum_run [Add T] (row_end : Nat) (j : Int) (a_j : List Int) (a_x : List T) (s : Nat × T) :
    M (Nat × T) :=
  whileM ((row_end - s.1) + 1) s fun (jj, x) => do
    if jj < row_end then
      if (← a_j.rd jj) = j then
        return .yield (jj + 1, x + (← a_x.rd jj))
      else
        return .done (jj, x)
    else
      return .done (jj, x)

/-- src/row.rs:1128-1139: the loop over one row of `csr_sum_duplicates`. State: `(jj, nnz, a_j, a_x)`. -/
def sum_row [Add T] (row_end : Nat) (s : Nat × Nat × List Int × List T) :
    M (Nat × Nat × List Int × List T) :=
  whileM ((row_end - s.1) + 1) s fun (jj, nnz, a_j, a_x) => do
    if jj < row_end then
      let j ← a_j.rd jj
      let x ← a_x.rd jj
      let (jj, x) ← sum_run row_end j a_j a_x (jj + 1, x)
      let a_j ← a_j.wr nnz j
      let a_x ← a_x.wr nnz x
      return .yield (jj, nnz + 1, a_j, a_x)
    else
      return .done (jj, nnz, a_j, a_x)

/-- src/row.rs:1117-1143 `csr_sum_duplicates`. -/
def csr_sum_duplicates [Add T] (t : IdxTy) (n_row : Nat) (a_p0 a_j0 : List Int) (a_x0 : List T) :
    M (List Int × List Int × List T) := do
  let mut a_p := a_p0
  let mut a_j := a_j0
  let mut a_x := a_x0
  let mut nnz : Nat := 0
  let mut row_end : Nat := 0
  for i in rng 0 n_row do
    let jj := row_end
    row_end ← toUsize (← a_p.rd (i + 1))
    let r ← sum_row row_end (jj, nnz, a_j, a_x)
    nnz := r.2.1
    a_j := r.2.2.1
    a_x := r.2.2.2
    a_p ← a_p.wr (i + 1) (← t.ofUsize nnz)
  return (a_p, a_j, a_x)

/-- src/row.rs:1165-1176: the loop over one row of `csr_eliminate_zeros`. -/
def elim_row [Zero T] [BEq T] (row_end : Nat) (s : Nat × Nat × List Int × List T) :
    M (Nat × Nat × List Int × List T) :=
  whileM ((row_end - s.1) + 1) s fun (jj, nnz, a_j, a_x) => do
    if jj < row_end then
      let j ← a_j.rd jj
      let x ← a_x.rd jj
      if x != 0 then
        let a_j ← a_j.wr nnz j
        let a_x ← a_x.wr nnz x
        return .yield (jj + 1, nnz + 1, a_j, a_x)
      else
        return .yield (jj + 1, nnz, a_j, a_x)
    else
      return .done (jj, nnz, a_j, a_x)

/-- src/row.rs:1155-1179 `csr_eliminate_zeros`. -/
def csr_eliminate_zeros [Zero T] [BEq T] (t : IdxTy) (n_row : Nat) (a_p0 a_j0 : List Int)
    (a_x0 : List T) : M (List Int × List Int × List T) := do
  let mut a_p := a_p0
  let mut a_j := a_j0
  let mut a_x := a_x0
  let mut nnz : Nat := 0
  let mut row_end : Nat := 0
  for i in rng 0 n_row do
    let jj := row_end
    row_end ← toUsize (← a_p.rd (i + 1))
    let r ← elim_row row_end (jj, nnz, a_j, a_x)
    nnz := r.2.1
    a_j := r.2.2.1
    a_x := r.2.2.2
    a_p ← a_p.wr (i + 1) (← t.ofUsize nnz)
  return (a_p, a_j, a_x)

/-- src/row.rs:1201-1219 `csr_matvec` (`Y += A*X`). -/
def csr_matvec [Add T] [Mul T] (n_row : Nat) (a_p a_j : List Int) (a_x x_x y_x0 : List T) :
    M (List T) := do
  let mut y_x := y_x0
  for i in rng 0 n_row do
    let mut sum ← y_x.rd i
    let start ← toUsize (← a_p.rd i)
    let stop ← toUsize (← a_p.rd (i + 1))
    for jj in rng start stop do
      sum := sum + (← a_x.rd jj) * (← x_x.rd (← toUsize (← a_j.rd jj)))
    y_x ← y_x.wr i sum
  return y_x

/-- src/util.rs:9-13 `axpy` applied to the sub-slices `x[xo..]` and `y[yo..]`
(`&x_x[n_vecs*j..]` panics when the offset exceeds the length). -/
def axpy [Add T] [Mul T] (n : Nat) (a : T) (x : List T) (xo : Nat) (y0 : List T) (yo : Nat) :
    M (List T) := do
  let mut y := y0
  if xo > x.length ∨ yo > y0.length then
    throw (.panic .oob)
  for i in rng 0 n do
    y ← y.wr (yo + i) ((← y.rd (yo + i)) + a * (← x.rd (xo + i)))
  return y

/-- src/row.rs:1238-1260 `csr_matvecs` (`Y += A*X` with `n_vecs` columns stored row by row). -/
def csr_matvecs [Add T] [Mul T] (n_row n_vecs : Nat) (a_p a_j : List Int) (a_x x_x y_x0 : List T) :
    M (List T) := do
  let mut y_x := y_x0
  for i in rng 0 n_row do
    if n_vecs * i > y_x.length then
      throw (.panic .oob)
    let start ← toUsize (← a_p.rd i)
    let stop ← toUsize (← a_p.rd (i + 1))
    for jj in rng start stop do
      let j ← toUsize (← a_j.rd jj)
      let a ← a_x.rd jj
      y_x ← axpy n_vecs a x_x (n_vecs * j) y_x (n_vecs * i)
  return y_x

/-- src/row.rs:1276-1293: the counting pass of `csr_select`. The `HashSet` of a row's columns is the
list of the columns inserted (only membership is observed). -/
def select_count (a_p a_j : List Int) (rowidx colidx : List Int) : M Nat := do
  let mut new_nnz := 0
  for row in rowidx do
    let urow ← toUsize row
    let row_start ← toUsize (← a_p.rd urow)
    let row_end ← toUsize (← a_p.rd (urow + 1))
    let mut colptrs : List Nat := []
    for jj in rng row_start row_end do
      colptrs := (← toUsize (← a_j.rd jj)) :: colptrs
    for col in colidx do
      if (← toUsize col) ∈ colptrs then
        new_nnz := new_nnz + 1
  return new_nnz

/-- src/row.rs:1262-1322 `csr_select`. A `HashMap` is an association list whose first match is the
latest insertion. -/
def csr_select [Zero T] (t : IdxTy) (a_p a_j : List Int) (a_x : List T)
    (rowidx colidx : List Int) (b_p0 b_j0 : List Int) (b_x0 : List T) :
    M (List Int × List Int × List T) := do
  let new_n_row := rowidx.length
  let new_nnz ← select_count a_p a_j rowidx colidx
  let mut b_p := b_p0.resize (new_n_row + 1) 0
  let mut b_j := b_j0.resize new_nnz 0
  let mut b_x := b_x0.resize new_nnz 0
  b_p ← b_p.wr 0 0
  let mut kk : Nat := 0
  for r in rng 0 rowidx.length do
    let urow ← toUsize (← rowidx.rd r)
    let start ← toUsize (← a_p.rd urow)
    let stop ← toUsize (← a_p.rd (urow + 1))
    let mut colptrs : List (Nat × Nat) := []
    for jj in rng start stop do
      colptrs := ((← toUsize (← a_j.rd jj)), jj) :: colptrs
    for c in rng 0 colidx.length do
      match colptrs.lookup (← toUsize (← colidx.rd c)) with
      | some jj =>
        b_j ← b_j.wr kk (← t.ofUsize c)
        b_x ← b_x.wr kk (← a_x.rd jj)
        kk := kk + 1
      | none => pure ()
    b_p ← b_p.wr (r + 1) (← t.ofUsize kk)
  return (b_p, b_j, b_x)

/-- src/row.rs:1345-1356: the counting pass of `get_csr_submatrix`. -/
def submatrix_count (new_n_row uir0 : Nat) (a_p a_j : List Int) (ic0 ic1 : Int) : M Nat := do
  let mut new_nnz := 0
  for i in rng 0 new_n_row do
    let row_start ← toUsize (← a_p.rd (uir0 + i))
    let row_end ← toUsize (← a_p.rd (uir0 + i + 1))
    for jj in rng row_start row_end do
      if (← a_j.rd jj) ≥ ic0 ∧ (← a_j.rd jj) < ic1 then
        new_nnz := new_nnz + 1
  return new_nnz

/-- src/row.rs:1324-1381 `get_csr_submatrix`. -/
def get_csr_submatrix [Zero T] (t : IdxTy) (a_p a_j : List Int) (a_x : List T)
    (ir0 ir1 ic0 ic1 : Int) (b_p0 b_j0 : List Int) (b_x0 : List T) :
    M (List Int × List Int × List T) := do
  let uir0 ← toUsize ir0
  let new_n_row ← toUsize (← t.sub ir1 ir0)
  let new_nnz ← submatrix_count new_n_row uir0 a_p a_j ic0 ic1
  let mut kk : Nat := 0
  let mut b_p := b_p0.resize (new_n_row + 1) 0
  let mut b_j := b_j0.resize new_nnz 0
  let mut b_x := b_x0.resize new_nnz 0
  b_p ← b_p.wr 0 0
  for i in rng 0 new_n_row do
    let row_start ← toUsize (← a_p.rd (uir0 + i))
    let row_end ← toUsize (← a_p.rd (uir0 + i + 1))
    for jj in rng row_start row_end do
      if (← a_j.rd jj) ≥ ic0 ∧ (← a_j.rd jj) < ic1 then
        b_j ← b_j.wr kk (← t.sub (← a_j.rd jj) ic0)
        b_x ← b_x.wr kk (← a_x.rd jj)
        kk := kk + 1
    b_p ← b_p.wr (i + 1) (← t.ofUsize kk)
  return (b_p, b_j, b_x)

/-- src/row.rs:1398-1418 `csr_row_index`. -/
def csr_row_index (n_row_idx : Nat) (rows : List Nat) (a_p a_j : List Int) (a_x : List T)
    (b_j0 : List Int) (b_x0 : List T) : M (List Int × List T) := do
  let mut b_j := b_j0
  let mut b_x := b_x0
  for i in rng 0 n_row_idx do
    let row ← rows.rd i
    let row_start ← toUsize (← a_p.rd row)
    let row_end ← toUsize (← a_p.rd (row + 1))
    b_j := b_j ++ (← a_j.slice row_start row_end)
    b_x := b_x ++ (← a_x.slice row_start row_end)
  return (b_j, b_x)

/-- src/row.rs:1436-1473 `csr_row_slice`. The loops may not terminate (`step = 0`), so the fuel is an
argument. -/
def csr_row_slice (fuel : Nat) (start stop step : Nat) (a_p a_j : List Int) (a_x : List T)
    (b_j0 : List Int) (b_x0 : List T) : M (List Int × List T) := do
  if step > 0 then
    let r ← whileM fuel (start, b_j0, b_x0) fun (row, b_j, b_x) => do
      if row < stop then
        let row_start ← toUsize (← a_p.rd row)
        let row_end ← toUsize (← a_p.rd (row + 1))
        let sj ← a_j.slice row_start row_end
        let sx ← a_x.slice row_start row_end
        return .yield (row + step, b_j ++ sj, b_x ++ sx)
      else
        return .done (row, b_j, b_x)
    return r.2
  else
    let r ← whileM fuel (start, b_j0, b_x0) fun (row, b_j, b_x) => do
      if row > stop then
        let row_start ← toUsize (← a_p.rd row)
        let row_end ← toUsize (← a_p.rd (row + 1))
        let sj ← a_j.slice row_start row_end
        let sx ← a_x.slice row_start row_end
        return .yield (row + step, b_j ++ sj, b_x ++ sx)
      else
        return .done (row, b_j, b_x)
    return r.2

/-- src/row.rs:1492-1525 `csr_column_index1`. Returns `(col_offsets, b_p)`. -/
def csr_column_index1 (t : IdxTy) (n_idx : Nat) (col_idxs : List Nat) (n_row n_col : Nat)
    (a_p a_j : List Int) (col_offsets0 b_p0 : List Int) : M (List Int × List Int) := do
  let mut col_offsets := col_offsets0
  for jj in rng 0 n_idx do
    let j ← col_idxs.rd jj
    col_offsets ← col_offsets.wr j (← t.add (← col_offsets.rd j) 1)
  let mut new_nnz : Int := 0
  let mut b_p ← b_p0.wr 0 0
  for i in rng 0 n_row do
    let start ← toUsize (← a_p.rd i)
    let stop ← toUsize (← a_p.rd (i + 1))
    for jj in rng start stop do
      new_nnz ← t.add new_nnz (← col_offsets.rd (← toUsize (← a_j.rd jj)))
    b_p ← b_p.wr (i + 1) new_nnz
  for j in rng 1 n_col do
    col_offsets ← col_offsets.wr j (← t.add (← col_offsets.rd j) (← col_offsets.rd (← usub j 1)))
  return (col_offsets, b_p)

/-- src/row.rs:1544-1571 `csr_column_index2`. -/
def csr_column_index2 (col_order col_offsets : List Int) (nnz : Nat) (a_j : List Int)
    (a_x : List T) (b_j0 : List Int) (b_x0 : List T) : M (List Int × List T) := do
  let mut b_j := b_j0
  let mut b_x := b_x0
  let mut n : Nat := 0
  for jj in rng 0 nnz do
    let j ← toUsize (← a_j.rd jj)
    let offset ← toUsize (← col_offsets.rd j)
    let prev_offset ← if j = 0 then pure 0 else do toUsize (← col_offsets.rd (j - 1))
    if offset ≠ prev_offset then
      let v ← a_x.rd jj
      for k in rng prev_offset offset do
        b_j ← b_j.wr n (← col_order.rd k)
        b_x ← b_x.wr n v
        n := n + 1
  return (b_j, b_x)

/-- src/row.rs:1579-1591 `csr_count_diagonals`. The `HashSet<usize>` is a duplicate-free list. -/
def csr_count_diagonals (n_row : Nat) (a_p a_j : List Int) : M Nat := do
  let mut diagonals : List Nat := []
  for i in rng 0 n_row do
    let start ← toUsize (← a_p.rd i)
    let stop ← toUsize (← a_p.rd (i + 1))
    for jj in rng start stop do
      diagonals := diagonals.insert (← usub (← toUsize (← a_j.rd jj)) i)
  return diagonals.length

/-- src/row.rs:1671-1692 `csr_tocoo`. Returns `(a_i, b_j, b_x)`. -/
def csr_tocoo (t : IdxTy) (n_row : Nat) (a_p a_j : List Int) (a_x : List T)
    (a_i0 b_j0 : List Int) (b_x0 : List T) : M (List Int × List Int × List T) := do
  let mut a_i := a_i0
  let mut b_j := b_j0
  let mut b_x := b_x0
  let mut k : Nat := 0
  for i in rng 0 n_row do
    let start ← toUsize (← a_p.rd i)
    let stop ← toUsize (← a_p.rd (i + 1))
    for jj in rng start stop do
      a_i ← a_i.wr k (← t.ofUsize i)
      b_j ← b_j.wr k (← a_j.rd jj)
      b_x ← b_x.wr k (← a_x.rd jj)
      k := k + 1
  return (a_i, b_j, b_x)

end
end Sparse

import Verif.Model.Cost
/-!
Running times of the kernels without a documented running time, in the steps of `Model/Cost.lean`. An insertion into or a look-up in a
`HashSet` or `HashMap` counts one step, `resize` and `extend_from_slice` count one step for every element of the new vector or of the
slice. The definitions are those of `Model/Row.lean`, `Model/Col.lean` and `Model/Coord.lean` with the counter (`Lemmas/CostMore.lean`).
-/
namespace Sparse

/-- `v.resize(n, x)` -/
def _root_.List.resizeT (l : List α) (n : Nat) (x : α) : MT (List α) := .lift n (pure (l.resize n x))
/-- `&v[a..b]`, copied element by element -/
def _root_.List.sliceT (l : List α) (a b : Nat) : MT (List α) := .lift (b - a) (l.slice a b)

open MT
section
variable {T T2 : Type}

/-- src/row.rs:90-105 `csr_scale_rows`. -/
def csr_scale_rowsT [Mul T] (n_row : Nat) (a_p : List Int) (a_x0 x_x : List T) : MT (List T) := do
  let mut a_x := a_x0
  for i in rng 0 n_row do
    tick
    let start ← toUsize (← a_p.rdT i)
    let stop ← toUsize (← a_p.rdT (i + 1))
    for jj in rng start stop do
      tick
      a_x ← a_x.wrT jj ((← a_x.rdT jj) * (← x_x.rdT i))
  return a_x

/-- src/row.rs:111-123 `csr_scale_columns`. -/
def csr_scale_columnsT [Mul T] (n_row : Nat) (a_p a_j : List Int) (a_x0 x_x : List T) :
    MT (List T) := do
  let nnz ← toUsize (← a_p.rdT n_row)
  let mut a_x := a_x0
  for i in rng 0 nnz do
    tick
    a_x ← a_x.wrT i ((← a_x.rdT i) * (← x_x.rdT (← toUsize (← a_j.rdT i))))
  return a_x

/-- src/row.rs:136-153 `csr_todense` (`B += A`). -/
def csr_todenseT [Add T] (n_row : Nat) (a_p a_j : List Int) (a_x : List T)
    (b_x0 : List (List T)) : MT (List (List T)) := do
  let mut b_x := b_x0
  for i in rng 0 n_row do
    tick
    let row_start ← toUsize (← a_p.rdT i)
    let row_end ← toUsize (← a_p.rdT (i + 1))
    for jj in rng row_start row_end do
      tick
      let j ← toUsize (← a_j.rdT jj)
      let row ← b_x.rdT i
      b_x ← b_x.wrT i (← row.wrT j ((← row.rdT j) + (← a_x.rdT jj)))
  return b_x

/-- src/row.rs:163-174 `csr_has_sorted_indices`. -/
def csr_has_sorted_indicesT (t : IdxTy) (n_row : Nat) (a_p a_j : List Int) : MT Bool := do
  for i in rng 0 n_row do
    tick
    let start ← toUsize (← a_p.rdT i)
    let stop ← toUsize (← t.sub (← a_p.rdT (i + 1)) 1)
    for jj in rng start stop do
      tick
      if (← a_j.rdT jj) > (← a_j.rdT (jj + 1)) then
        return false
  return true

/-- src/row.rs:187-204 `csr_has_canonical_format`. -/
def csr_has_canonical_formatT (t : IdxTy) (n_row : Nat) (a_p a_j : List Int) : MT Bool := do
  for i in rng 0 n_row do
    tick
    let start ← toUsize (← a_p.rdT i)
    let stop ← toUsize (← a_p.rdT (i + 1))
    if start > stop then
      return false
    let start ← toUsize (← t.add (← a_p.rdT i) 1)
    let stop ← toUsize (← a_p.rdT (i + 1))
    for jj in rng start stop do
      tick
      if ¬ ((← a_j.rdT (← usub jj 1)) < (← a_j.rdT jj)) then
        return false
  return true

/-- src/row.rs:537-549 and 552-564: adding one row of an operand to its dense accumulator, in
`csr_binop_csr_general`. -/
def binop_accumT [Add T] (t : IdxTy) (i_start i_end : Nat) (a_j : List Int) (a_x : List T)
    (next0 : List Int) (row0 : List T) (head0 length0 : Int) :
    MT (List Int × List T × Int × Int) := do
  let mut next := next0
  let mut row := row0
  let mut head := head0
  let mut length := length0
  for jj in rng i_start i_end do
    tick
    let j ← toUsize (← a_j.rdT jj)
    row ← row.wrT j ((← row.rdT j) + (← a_x.rdT jj))
    if (← next.rdT j) = -1 then
      next ← next.wrT j head
      head := (j : Int)
      length ← t.add length 1
  return (next, row, head, length)

/-- src/row.rs:568-582: emptying the linked list of columns, in `csr_binop_csr_general`. -/
def binop_flushT [Zero T] (t : IdxTy) (op : T → T → T2) (nz : T2 → Bool) (length head0 : Int)
    (next0 : List Int) (a_row0 b_row0 : List T) (nnz0 : Int) (c_j0 : List Int) (c_x0 : List T2) :
    MT (List Int × List T × List T × Int × List Int × List T2) := do
  let mut head := head0
  let mut next := next0
  let mut a_row := a_row0
  let mut b_row := b_row0
  let mut nnz := nnz0
  let mut c_j := c_j0
  let mut c_x := c_x0
  for _jj in rng 0 (← toUsize length) do
    tick
    let result := op (← a_row.rdT (← asIdx head)) (← b_row.rdT (← asIdx head))
    if nz result then
      c_j ← c_j.wrT (← toUsize nnz) (← t.ofInt head)
      c_x ← c_x.wrT (← toUsize nnz) result
      nnz ← t.add nnz 1
    let temp ← asIdx head
    head ← next.rdT temp
    next ← next.wrT temp (-1)
    a_row ← a_row.wrT temp 0
    b_row ← b_row.wrT temp 0
  return (next, a_row, b_row, nnz, c_j, c_x)

/-- src/row.rs:504-585 `csr_binop_csr_general`. `nz` is `Nonzero::nonzero` of the result type
(src/traits.rs:137-141). -/
def csr_binop_csr_generalT [Zero T] [Add T] (t : IdxTy) (n_row n_col : Nat)
    (a_p a_j : List Int) (a_x : List T) (b_p b_j : List Int) (b_x : List T)
    (c_p0 c_j0 : List Int) (c_x0 : List T2) (op : T → T → T2) (nz : T2 → Bool) :
    MT (List Int × List Int × List T2) := do
  let mut next ← vecT (α := Int) n_col (-1)
  let mut a_row ← vecT (α := T) n_col 0
  let mut b_row ← vecT (α := T) n_col 0
  let mut nnz : Int := 0
  let mut c_p ← c_p0.wrT 0 0
  let mut c_j := c_j0
  let mut c_x := c_x0
  for i in rng 0 n_row do
    tick
    let head : Int := -2
    let length : Int := 0
    let i_start ← toUsize (← a_p.rdT i)
    let i_end ← toUsize (← a_p.rdT (i + 1))
    let ra ← binop_accumT t i_start i_end a_j a_x next a_row head length
    let i_start ← toUsize (← b_p.rdT i)
    let i_end ← toUsize (← b_p.rdT (i + 1))
    let rb ← binop_accumT t i_start i_end b_j b_x ra.1 b_row ra.2.2.1 ra.2.2.2
    let r ← binop_flushT t op nz rb.2.2.2 rb.2.2.1 rb.1 ra.2.1 rb.2.1 nnz c_j c_x
    next := r.1
    a_row := r.2.1
    b_row := r.2.2.1
    nnz := r.2.2.2.1
    c_j := r.2.2.2.2.1
    c_x := r.2.2.2.2.2
    c_p ← c_p.wrT (i + 1) nnz
  return (c_p, c_j, c_x)

/-- One store of the merge loop of `csr_binop_csr_canonical`: `if result.nonzero() { c_j[nnz] = j; c_x[nnz] = result;
nnz += 1 }` (src/row.rs:633-637, 642-646, 651-655). -/
def binop_emitT (nz : T2 → Bool) (j : Int) (result : T2) (nnz : Nat) (c_j : List Int)
    (c_x : List T2) : MT (Nat × List Int × List T2) := do
  if nz result then
    let c_j ← c_j.wrT nnz j
    let c_x ← c_x.wrT nnz result
    return (nnz + 1, c_j, c_x)
  else
    return (nnz, c_j, c_x)

/-- src/row.rs:627-658: the merge loop of one row. State: `(a_pos, b_pos, nnz, c_j, c_x)`. -/
def canonical_mergeT [Zero T] (a_j : List Int) (a_x : List T) (b_j : List Int) (b_x : List T)
    (op : T → T → T2) (nz : T2 → Bool) (a_end b_end : Nat)
    (s : Nat × Nat × Nat × List Int × List T2) : MT (Nat × Nat × Nat × List Int × List T2) :=
  whileT ((a_end - s.1) + (b_end - s.2.1) + 1) s fun (a_pos, b_pos, nnz, c_j, c_x) => do
    if a_pos < a_end ∧ b_pos < b_end then
      let aj ← a_j.rdT a_pos
      let bj ← b_j.rdT b_pos
      if aj = bj then
        let result := op (← a_x.rdT a_pos) (← b_x.rdT b_pos)
        let (nnz, c_j, c_x) ← binop_emitT nz aj result nnz c_j c_x
        return .yield (a_pos + 1, b_pos + 1, nnz, c_j, c_x)
      else if aj < bj then
        let result := op (← a_x.rdT a_pos) 0
        let (nnz, c_j, c_x) ← binop_emitT nz aj result nnz c_j c_x
        return .yield (a_pos + 1, b_pos, nnz, c_j, c_x)
      else
        let result := op 0 (← b_x.rdT b_pos)
        let (nnz, c_j, c_x) ← binop_emitT nz bj result nnz c_j c_x
        return .yield (a_pos, b_pos + 1, nnz, c_j, c_x)
    else
      return .done (a_pos, b_pos, nnz, c_j, c_x)

/-- One store of a tail loop (src/row.rs:662-666 and 671-675): the column is read only if the result is nonzero. -/
def tail_emitT (nz : T2 → Bool) (a_j : List Int) (a_pos : Nat) (result : T2) (nnz : Nat) (c_j : List Int)
    (c_x : List T2) : MT (Nat × List Int × List T2) := do
  if nz result then
    let c_j ← c_j.wrT nnz (← a_j.rdT a_pos)
    let c_x ← c_x.wrT nnz result
    return (nnz + 1, c_j, c_x)
  else
    return (nnz, c_j, c_x)

/-- src/row.rs:661-669 and 670-678: a tail loop of one row (`f` is the operation with the missing
operand zero). State: `(pos, nnz, c_j, c_x)`. -/
def canonical_tailT (a_j : List Int) (a_x : List T) (f : T → T2) (nz : T2 → Bool) (a_end : Nat)
    (s : Nat × Nat × List Int × List T2) : MT (Nat × Nat × List Int × List T2) :=
  whileT ((a_end - s.1) + 1) s fun (a_pos, nnz, c_j, c_x) => do
    if a_pos < a_end then
      let result := f (← a_x.rdT a_pos)
      let (nnz, c_j, c_x) ← tail_emitT nz a_j a_pos result nnz c_j c_x
      return .yield (a_pos + 1, nnz, c_j, c_x)
    else
      return .done (a_pos, nnz, c_j, c_x)

/-- src/row.rs:600-681 `csr_binop_csr_canonical`. -/
def csr_binop_csr_canonicalT [Zero T] (t : IdxTy) (n_row : Nat)
    (a_p a_j : List Int) (a_x : List T) (b_p b_j : List Int) (b_x : List T)
    (c_p0 c_j0 : List Int) (c_x0 : List T2) (op : T → T → T2) (nz : T2 → Bool) :
    MT (List Int × List Int × List T2) := do
  let mut c_p ← c_p0.wrT 0 0
  let mut nnz : Nat := 0
  let mut c_j := c_j0
  let mut c_x := c_x0
  for i in rng 0 n_row do
    tick
    let a_pos ← toUsize (← a_p.rdT i)
    let b_pos ← toUsize (← b_p.rdT i)
    let a_end ← toUsize (← a_p.rdT (i + 1))
    let b_end ← toUsize (← b_p.rdT (i + 1))
    let r ← canonical_mergeT a_j a_x b_j b_x op nz a_end b_end (a_pos, b_pos, nnz, c_j, c_x)
    let ra ← canonical_tailT a_j a_x (fun x => op x 0) nz a_end (r.1, r.2.2)
    let rb ← canonical_tailT b_j b_x (fun x => op 0 x) nz b_end (r.2.1, ra.2)
    nnz := rb.2.1
    c_j := rb.2.2.1
    c_x := rb.2.2.2
    c_p ← c_p.wrT (i + 1) (← t.ofUsize nnz)
  return (c_p, c_j, c_x)

/-- src/row.rs:716-739 `csr_binop_csr` (the second format test runs only if the first succeeds). -/
def csr_binop_csrT [Zero T] [Add T] (t : IdxTy) (n_row n_col : Nat)
    (a_p a_j : List Int) (a_x : List T) (b_p b_j : List Int) (b_x : List T)
    (c_p c_j : List Int) (c_x : List T2) (op : T → T → T2) (nz : T2 → Bool) :
    MT (List Int × List Int × List T2) := do
  let ca ← csr_has_canonical_formatT t n_row a_p a_j
  let both ← if ca then csr_has_canonical_formatT t n_row b_p b_j else pure false
  if both then
    csr_binop_csr_canonicalT t n_row a_p a_j a_x b_p b_j b_x c_p c_j c_x op nz
  else
    csr_binop_csr_generalT t n_row n_col a_p a_j a_x b_p b_j b_x c_p c_j c_x op nz

/-- src/row.rs:1132-1135: the inner loop of `csr_sum_duplicates`. State: `(jj, x)`. -/
def sum_runT [Add T] (row_end : Nat) (j : Int) (a_j : List Int) (a_x : List T) (s : Nat × T) :
    MT (Nat × T) :=
  whileT ((row_end - s.1) + 1) s fun (jj, x) => do
    if jj < row_end then
      if (← a_j.rdT jj) = j then
        return .yield (jj + 1, x + (← a_x.rdT jj))
      else
        return .done (jj, x)
    else
      return .done (jj, x)

/-- src/row.rs:1128-1139: the loop over one row of `csr_sum_duplicates`. State: `(jj, nnz, a_j, a_x)`. -/
def sum_rowT [Add T] (row_end : Nat) (s : Nat × Nat × List Int × List T) :
    MT (Nat × Nat × List Int × List T) :=
  whileT ((row_end - s.1) + 1) s fun (jj, nnz, a_j, a_x) => do
    if jj < row_end then
      let j ← a_j.rdT jj
      let x ← a_x.rdT jj
      let (jj, x) ← sum_runT row_end j a_j a_x (jj + 1, x)
      let a_j ← a_j.wrT nnz j
      let a_x ← a_x.wrT nnz x
      return .yield (jj, nnz + 1, a_j, a_x)
    else
      return .done (jj, nnz, a_j, a_x)

/-- src/row.rs:1117-1143 `csr_sum_duplicates`. -/
def csr_sum_duplicatesT [Add T] (t : IdxTy) (n_row : Nat) (a_p0 a_j0 : List Int) (a_x0 : List T) :
    MT (List Int × List Int × List T) := do
  let mut a_p := a_p0
  let mut a_j := a_j0
  let mut a_x := a_x0
  let mut nnz : Nat := 0
  let mut row_end : Nat := 0
  for i in rng 0 n_row do
    tick
    let jj := row_end
    row_end ← toUsize (← a_p.rdT (i + 1))
    let r ← sum_rowT row_end (jj, nnz, a_j, a_x)
    nnz := r.2.1
    a_j := r.2.2.1
    a_x := r.2.2.2
    a_p ← a_p.wrT (i + 1) (← t.ofUsize nnz)
  return (a_p, a_j, a_x)

/-- src/row.rs:1165-1176: the loop over one row of `csr_eliminate_zeros`. -/
def elim_rowT [Zero T] [BEq T] (row_end : Nat) (s : Nat × Nat × List Int × List T) :
    MT (Nat × Nat × List Int × List T) :=
  whileT ((row_end - s.1) + 1) s fun (jj, nnz, a_j, a_x) => do
    if jj < row_end then
      let j ← a_j.rdT jj
      let x ← a_x.rdT jj
      if x != 0 then
        let a_j ← a_j.wrT nnz j
        let a_x ← a_x.wrT nnz x
        return .yield (jj + 1, nnz + 1, a_j, a_x)
      else
        return .yield (jj + 1, nnz, a_j, a_x)
    else
      return .done (jj, nnz, a_j, a_x)

/-- src/row.rs:1155-1179 `csr_eliminate_zeros`. -/
def csr_eliminate_zerosT [Zero T] [BEq T] (t : IdxTy) (n_row : Nat) (a_p0 a_j0 : List Int)
    (a_x0 : List T) : MT (List Int × List Int × List T) := do
  let mut a_p := a_p0
  let mut a_j := a_j0
  let mut a_x := a_x0
  let mut nnz : Nat := 0
  let mut row_end : Nat := 0
  for i in rng 0 n_row do
    tick
    let jj := row_end
    row_end ← toUsize (← a_p.rdT (i + 1))
    let r ← elim_rowT row_end (jj, nnz, a_j, a_x)
    nnz := r.2.1
    a_j := r.2.2.1
    a_x := r.2.2.2
    a_p ← a_p.wrT (i + 1) (← t.ofUsize nnz)
  return (a_p, a_j, a_x)

/-- src/util.rs:9-13 `axpy` applied to the sub-slices `x[xo..]` and `y[yo..]`
(`&x_x[n_vecs*j..]` panics when the offset exceeds the length). -/
def axpyT [Add T] [Mul T] (n : Nat) (a : T) (x : List T) (xo : Nat) (y0 : List T) (yo : Nat) :
    MT (List T) := do
  let mut y := y0
  if xo > x.length ∨ yo > y0.length then
    liftM (throw (.panic .oob) : M Unit)
  for i in rng 0 n do
    tick
    y ← y.wrT (yo + i) ((← y.rdT (yo + i)) + a * (← x.rdT (xo + i)))
  return y

/-- src/row.rs:1238-1260 `csr_matvecs` (`Y += A*X` with `n_vecs` columns stored row by row). -/
def csr_matvecsT [Add T] [Mul T] (n_row n_vecs : Nat) (a_p a_j : List Int) (a_x x_x y_x0 : List T) :
    MT (List T) := do
  let mut y_x := y_x0
  for i in rng 0 n_row do
    tick
    if n_vecs * i > y_x.length then
      liftM (throw (.panic .oob) : M Unit)
    let start ← toUsize (← a_p.rdT i)
    let stop ← toUsize (← a_p.rdT (i + 1))
    for jj in rng start stop do
      tick
      let j ← toUsize (← a_j.rdT jj)
      let a ← a_x.rdT jj
      y_x ← axpyT n_vecs a x_x (n_vecs * j) y_x (n_vecs * i)
  return y_x

/-- src/col.rs:66-91 `csc_matvecs`. -/
def csc_matvecsT [Add T] [Mul T] (n_col n_vecs : Nat) (a_p a_i : List Int) (a_x x_x y_x0 : List T) :
    MT (List T) := do
  let mut y_x := y_x0
  for j in rng 0 n_col do
    tick
    let start ← toUsize (← a_p.rdT j)
    let stop ← toUsize (← a_p.rdT (j + 1))
    for ii in rng start stop do
      tick
      let i ← toUsize (← a_i.rdT ii)
      y_x ← axpyT n_vecs (← a_x.rdT ii) x_x (n_vecs * j) y_x (n_vecs * i)
  return y_x

/-- src/row.rs:1276-1293: the counting pass of `csr_select`. The `HashSet` of a row's columns is the
list of the columns inserted (only membership is observed). -/
def select_countT (a_p a_j : List Int) (rowidx colidx : List Int) : MT Nat := do
  let mut new_nnz := 0
  for row in rowidx do
    tick
    let urow ← toUsize row
    let row_start ← toUsize (← a_p.rdT urow)
    let row_end ← toUsize (← a_p.rdT (urow + 1))
    let mut colptrs : List Nat := []
    for jj in rng row_start row_end do
      tick
      tick
      colptrs := (← toUsize (← a_j.rdT jj)) :: colptrs
    for col in colidx do
      tick
      tick
      if (← toUsize col) ∈ colptrs then
        new_nnz := new_nnz + 1
  return new_nnz

/-- src/row.rs:1262-1322 `csr_select`. A `HashMap` is an association list whose first match is the
latest insertion. -/
def csr_selectT [Zero T] (t : IdxTy) (a_p a_j : List Int) (a_x : List T)
    (rowidx colidx : List Int) (b_p0 b_j0 : List Int) (b_x0 : List T) :
    MT (List Int × List Int × List T) := do
  let new_n_row := rowidx.length
  let new_nnz ← select_countT a_p a_j rowidx colidx
  let mut b_p ← b_p0.resizeT (new_n_row + 1) 0
  let mut b_j ← b_j0.resizeT new_nnz 0
  let mut b_x ← b_x0.resizeT new_nnz 0
  b_p ← b_p.wrT 0 0
  let mut kk : Nat := 0
  for r in rng 0 rowidx.length do
    tick
    let urow ← toUsize (← rowidx.rdT r)
    let start ← toUsize (← a_p.rdT urow)
    let stop ← toUsize (← a_p.rdT (urow + 1))
    let mut colptrs : List (Nat × Nat) := []
    for jj in rng start stop do
      tick
      tick
      colptrs := ((← toUsize (← a_j.rdT jj)), jj) :: colptrs
    for c in rng 0 colidx.length do
      tick
      tick
      match colptrs.lookup (← toUsize (← colidx.rdT c)) with
      | some jj =>
        b_j ← b_j.wrT kk (← t.ofUsize c)
        b_x ← b_x.wrT kk (← a_x.rdT jj)
        kk := kk + 1
      | none => pure ()
    b_p ← b_p.wrT (r + 1) (← t.ofUsize kk)
  return (b_p, b_j, b_x)

/-- src/row.rs:1345-1356: the counting pass of `get_csr_submatrix`. -/
def submatrix_countT (new_n_row uir0 : Nat) (a_p a_j : List Int) (ic0 ic1 : Int) : MT Nat := do
  let mut new_nnz := 0
  for i in rng 0 new_n_row do
    tick
    let row_start ← toUsize (← a_p.rdT (uir0 + i))
    let row_end ← toUsize (← a_p.rdT (uir0 + i + 1))
    for jj in rng row_start row_end do
      tick
      if (← a_j.rdT jj) ≥ ic0 ∧ (← a_j.rdT jj) < ic1 then
        new_nnz := new_nnz + 1
  return new_nnz

/-- src/row.rs:1324-1381 `get_csr_submatrix`. -/
def get_csr_submatrixT [Zero T] (t : IdxTy) (a_p a_j : List Int) (a_x : List T)
    (ir0 ir1 ic0 ic1 : Int) (b_p0 b_j0 : List Int) (b_x0 : List T) :
    MT (List Int × List Int × List T) := do
  let uir0 ← toUsize ir0
  let new_n_row ← toUsize (← t.sub ir1 ir0)
  let new_nnz ← submatrix_countT new_n_row uir0 a_p a_j ic0 ic1
  let mut kk : Nat := 0
  let mut b_p ← b_p0.resizeT (new_n_row + 1) 0
  let mut b_j ← b_j0.resizeT new_nnz 0
  let mut b_x ← b_x0.resizeT new_nnz 0
  b_p ← b_p.wrT 0 0
  for i in rng 0 new_n_row do
    tick
    let row_start ← toUsize (← a_p.rdT (uir0 + i))
    let row_end ← toUsize (← a_p.rdT (uir0 + i + 1))
    for jj in rng row_start row_end do
      tick
      if (← a_j.rdT jj) ≥ ic0 ∧ (← a_j.rdT jj) < ic1 then
        b_j ← b_j.wrT kk (← t.sub (← a_j.rdT jj) ic0)
        b_x ← b_x.wrT kk (← a_x.rdT jj)
        kk := kk + 1
    b_p ← b_p.wrT (i + 1) (← t.ofUsize kk)
  return (b_p, b_j, b_x)

/-- src/row.rs:1398-1418 `csr_row_index`. -/
def csr_row_indexT (n_row_idx : Nat) (rows : List Nat) (a_p a_j : List Int) (a_x : List T)
    (b_j0 : List Int) (b_x0 : List T) : MT (List Int × List T) := do
  let mut b_j := b_j0
  let mut b_x := b_x0
  for i in rng 0 n_row_idx do
    tick
    let row ← rows.rdT i
    let row_start ← toUsize (← a_p.rdT row)
    let row_end ← toUsize (← a_p.rdT (row + 1))
    b_j := b_j ++ (← a_j.sliceT row_start row_end)
    b_x := b_x ++ (← a_x.sliceT row_start row_end)
  return (b_j, b_x)

/-- src/row.rs:1492-1525 `csr_column_index1`. Returns `(col_offsets, b_p)`. -/
def csr_column_index1T (t : IdxTy) (n_idx : Nat) (col_idxs : List Nat) (n_row n_col : Nat)
    (a_p a_j : List Int) (col_offsets0 b_p0 : List Int) : MT (List Int × List Int) := do
  let mut col_offsets := col_offsets0
  for jj in rng 0 n_idx do
    tick
    let j ← col_idxs.rdT jj
    col_offsets ← col_offsets.wrT j (← t.add (← col_offsets.rdT j) 1)
  let mut new_nnz : Int := 0
  let mut b_p ← b_p0.wrT 0 0
  for i in rng 0 n_row do
    tick
    let start ← toUsize (← a_p.rdT i)
    let stop ← toUsize (← a_p.rdT (i + 1))
    for jj in rng start stop do
      tick
      new_nnz ← t.add new_nnz (← col_offsets.rdT (← toUsize (← a_j.rdT jj)))
    b_p ← b_p.wrT (i + 1) new_nnz
  for j in rng 1 n_col do
    tick
    col_offsets ← col_offsets.wrT j (← t.add (← col_offsets.rdT j) (← col_offsets.rdT (← usub j 1)))
  return (col_offsets, b_p)

/-- src/row.rs:1544-1571 `csr_column_index2`. -/
def csr_column_index2T (col_order col_offsets : List Int) (nnz : Nat) (a_j : List Int)
    (a_x : List T) (b_j0 : List Int) (b_x0 : List T) : MT (List Int × List T) := do
  let mut b_j := b_j0
  let mut b_x := b_x0
  let mut n : Nat := 0
  for jj in rng 0 nnz do
    tick
    let j ← toUsize (← a_j.rdT jj)
    let offset ← toUsize (← col_offsets.rdT j)
    let prev_offset ← if j = 0 then pure 0 else do toUsize (← col_offsets.rdT (j - 1))
    if offset ≠ prev_offset then
      let v ← a_x.rdT jj
      for k in rng prev_offset offset do
        tick
        b_j ← b_j.wrT n (← col_order.rdT k)
        b_x ← b_x.wrT n v
        n := n + 1
  return (b_j, b_x)

/-- src/row.rs:1671-1692 `csr_tocoo`. Returns `(a_i, b_j, b_x)`. -/
def csr_tocooT (t : IdxTy) (n_row : Nat) (a_p a_j : List Int) (a_x : List T)
    (a_i0 b_j0 : List Int) (b_x0 : List T) : MT (List Int × List Int × List T) := do
  let mut a_i := a_i0
  let mut b_j := b_j0
  let mut b_x := b_x0
  let mut k : Nat := 0
  for i in rng 0 n_row do
    tick
    let start ← toUsize (← a_p.rdT i)
    let stop ← toUsize (← a_p.rdT (i + 1))
    for jj in rng start stop do
      tick
      a_i ← a_i.wrT k (← t.ofUsize i)
      b_j ← b_j.wrT k (← a_j.rdT jj)
      b_x ← b_x.wrT k (← a_x.rdT jj)
      k := k + 1
  return (a_i, b_j, b_x)


/-- src/coord.rs:92-113 `coo_todense` (`B += A`, `B` a flat array). -/
def coo_todenseT [Add T] (n_row n_col nnz : Nat) (a_i a_j : List Int) (a_x : List T)
    (b_x0 : List T) (fortran : Bool) : MT (List T) := do
  let mut b_x := b_x0
  if !fortran then
    for n in rng 0 nnz do
      tick
      let i := n_col * (← toUsize (← a_i.rdT n)) + (← toUsize (← a_j.rdT n))
      b_x ← b_x.wrT i ((← b_x.rdT i) + (← a_x.rdT n))
  else
    for n in rng 0 nnz do
      tick
      let i := n_row * (← toUsize (← a_j.rdT n)) + (← toUsize (← a_i.rdT n))
      b_x ← b_x.wrT i ((← b_x.rdT i) + (← a_x.rdT n))
  return b_x

end
end Sparse

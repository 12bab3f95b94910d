import Verif.Model.Graph
/-!
Running times. The kernels whose documentation states a running time, with a counter: every read or write of one array element, every
round of a loop and every element of a newly created or filled vector counts one step; comparisons, arithmetic and moves between local
variables, of which there is a fixed number per step, are not counted. `Lemmas/Cost.lean` proves that without the counter these
definitions are those of `Model/Coord.lean`, `Model/Row.lean`, `Model/Col.lean` and `Model/Graph.lean`.
-/
namespace Sparse

/-- the outcome of a call and the number of steps it took (until it returned or panicked) -/
def MT (α : Type) := M α × Nat

namespace MT
def outcome (m : MT α) : M α := m.1
def steps (m : MT α) : Nat := m.2

instance : Monad MT where
  pure a := (.ok a, 0)
  bind m f := match m.1 with
    | .ok a => ((f a).1, m.2 + (f a).2)
    | .error e => (.error e, m.2)

/-- an operation that takes `n` steps -/
def lift (n : Nat) (m : M α) : MT α := (m, n)
/-- one step -/
def tick : MT Unit := lift 1 (pure ())
/-- `while` as in `whileM`; a round is a step -/
def whileT (fuel : Nat) (s : σ) (step : σ → MT (ForInStep σ)) : MT σ :=
  match fuel with
  | 0 => lift 0 (throw (.panic .fuel))
  | n + 1 => do
    tick
    match ← step s with
    | .done s' => pure s'
    | .yield s' => whileT n s' step
end MT

/-- operations without array access -/
instance : MonadLift M MT := ⟨MT.lift 0⟩

/-- `v[i]` -/
def _root_.List.rdT (l : List α) (i : Nat) : MT α := .lift 1 (l.rd i)
/-- `v[i] = x` -/
def _root_.List.wrT (l : List α) (i : Nat) (a : α) : MT (List α) := .lift 1 (l.wr i a)
/-- `vec![x; n]` -/
def vecT (n : Nat) (x : α) : MT (List α) := .lift n (pure (List.replicate n x))
/-- `v.fill(x)` -/
def _root_.List.fillT (l : List α) (x : α) : MT (List α) := .lift l.length (pure (l.map fun _ => x))

open MT
section
variable {T : Type}

/-- src/coord.rs:45-48 and src/row.rs:293-295 -/
def count_loopT (t : IdxTy) (nnz : Nat) (key : List Int) (b_p0 : List Int) : MT (List Int) := do
  let mut b_p := b_p0
  for n in rng 0 nnz do
    tick
    let i ← toUsize (← key.rdT n)
    b_p ← b_p.wrT i (← t.add (← b_p.rdT i) 1)
  return b_p

/-- src/coord.rs:51-56 and src/row.rs:298-303 -/
def cumsum_loopT (t : IdxTy) (n_row : Nat) (b_p0 : List Int) : MT (List Int) := do
  let mut b_p := b_p0
  let mut cumsum : Int := 0
  for i in rng 0 n_row do
    tick
    let temp ← b_p.rdT i
    b_p ← b_p.wrT i cumsum
    cumsum ← t.add cumsum temp
  return b_p

/-- src/coord.rs:70-75 and src/row.rs:320-325 -/
def shift_loopT (n_row : Nat) (b_p0 : List Int) : MT (List Int) := do
  let mut b_p := b_p0
  let mut last : Int := 0
  for i in rng 0 (n_row + 1) do
    tick
    let temp ← b_p.rdT i
    b_p ← b_p.wrT i last
    last := temp
  return b_p

/-- src/coord.rs:60-68 -/
def coo_scatterT (t : IdxTy) (nnz : Nat) (a_i a_j : List Int) (a_x : List T)
    (b_p0 b_j0 : List Int) (b_x0 : List T) : MT (List Int × List Int × List T) := do
  let mut b_p := b_p0
  let mut b_j := b_j0
  let mut b_x := b_x0
  for n in rng 0 nnz do
    tick
    let row ← toUsize (← a_i.rdT n)
    let dest ← toUsize (← b_p.rdT row)
    b_j ← b_j.wrT dest (← a_j.rdT n)
    b_x ← b_x.wrT dest (← a_x.rdT n)
    b_p ← b_p.wrT row (← t.add (← b_p.rdT row) 1)
  return (b_p, b_j, b_x)

/-- src/coord.rs:30-78 `coo_tocsr` -/
def coo_tocsrT (t : IdxTy) (n_row : Nat) (nnz : Nat) (a_i a_j : List Int) (a_x : List T)
    (b_p b_j : List Int) (b_x : List T) : MT (List Int × List Int × List T) := do
  let b_p ← b_p.fillT (0 : Int)
  let b_p ← count_loopT t nnz a_i b_p
  let b_p ← cumsum_loopT t n_row b_p
  let b_p ← b_p.wrT n_row (← t.ofUsize nnz)
  let (b_p, b_j, b_x) ← coo_scatterT t nnz a_i a_j a_x b_p b_j b_x
  let b_p ← shift_loopT n_row b_p
  return (b_p, b_j, b_x)

/-- src/coord.rs:135-148 `coo_matvec` -/
def coo_matvecT [Add T] [Mul T] (nnz : Nat) (a_i a_j : List Int) (a_x x_x y_x0 : List T) :
    MT (List T) := do
  let mut y_x := y_x0
  for n in rng 0 nnz do
    tick
    let i ← toUsize (← a_i.rdT n)
    let j ← toUsize (← a_j.rdT n)
    y_x ← y_x.wrT i ((← y_x.rdT i) + (← a_x.rdT n) * (← x_x.rdT j))
  return y_x

/-- src/row.rs:30-58 `csr_diagonal` -/
def csr_diagonalT [Zero T] [Add T] (k : Int) (n_row n_col : Nat) (a_p a_j : List Int)
    (a_x : List T) (y_x0 : List T) : MT (List T) := do
  let first_row : Nat := if k ≥ 0 then 0 else (-1 * k).toNat
  let first_col : Nat := if k ≥ 0 then k.toNat else 0
  let n := min (← usub n_row first_row) (← usub n_col first_col)
  let mut y_x := y_x0
  for i in rng 0 n do
    tick
    let row := first_row + i
    let col := first_col + i
    let row_begin ← toUsize (← a_p.rdT row)
    let row_end ← toUsize (← a_p.rdT (row + 1))
    let mut diag : T := 0
    for j in rng row_begin row_end do
      tick
      if (← toUsize (← a_j.rdT j)) = col then
        diag := diag + (← a_x.rdT j)
    y_x ← y_x.wrT i diag
  return y_x

/-- src/row.rs:76-84 `expandptr` -/
def expandptrT (t : IdxTy) (n_row : Nat) (a_p b_i0 : List Int) : MT (List Int) := do
  let mut b_i := b_i0
  for i in rng 0 n_row do
    tick
    let start ← toUsize (← a_p.rdT i)
    let stop ← toUsize (← a_p.rdT (i + 1))
    for jj in rng start stop do
      tick
      b_i ← b_i.wrT jj (← t.ofUsize i)
  return b_i

/-- src/row.rs:305-318 -/
def csr_scatterT (t : IdxTy) (n_row : Nat) (a_p a_j : List Int) (a_x : List T)
    (b_p0 b_i0 : List Int) (b_x0 : List T) : MT (List Int × List Int × List T) := do
  let mut b_p := b_p0
  let mut b_i := b_i0
  let mut b_x := b_x0
  for row in rng 0 n_row do
    tick
    let start ← toUsize (← a_p.rdT row)
    let stop ← toUsize (← a_p.rdT (row + 1))
    for jj in rng start stop do
      tick
      let col ← toUsize (← a_j.rdT jj)
      let dest ← toUsize (← b_p.rdT col)
      b_i ← b_i.wrT dest (← t.ofUsize row)
      b_x ← b_x.wrT dest (← a_x.rdT jj)
      b_p ← b_p.wrT col (← t.add (← b_p.rdT col) 1)
  return (b_p, b_i, b_x)

/-- src/row.rs:277-326 `csr_tocsc` -/
def csr_tocscT (t : IdxTy) (n_row n_col : Nat) (a_p a_j : List Int) (a_x : List T)
    (b_p b_i : List Int) (b_x : List T) : MT (List Int × List Int × List T) := do
  let nnz ← a_p.rdT n_row
  let b_p ← b_p.fillT (0 : Int)
  let b_p ← count_loopT t (← toUsize nnz) a_j b_p
  let b_p ← cumsum_loopT t n_col b_p
  let b_p ← b_p.wrT n_col nnz
  let (b_p, b_i, b_x) ← csr_scatterT t n_row a_p a_j a_x b_p b_i b_x
  let b_p ← shift_loopT n_col b_p
  return (b_p, b_i, b_x)

/-- src/row.rs:1201-1219 `csr_matvec` -/
def csr_matvecT [Add T] [Mul T] (n_row : Nat) (a_p a_j : List Int) (a_x x_x y_x0 : List T) :
    MT (List T) := do
  let mut y_x := y_x0
  for i in rng 0 n_row do
    tick
    let mut sum ← y_x.rdT i
    let start ← toUsize (← a_p.rdT i)
    let stop ← toUsize (← a_p.rdT (i + 1))
    for jj in rng start stop do
      tick
      sum := sum + (← a_x.rdT jj) * (← x_x.rdT (← toUsize (← a_j.rdT jj)))
    y_x ← y_x.wrT i sum
  return y_x

/-- src/col.rs:26-44 `csc_matvec` -/
def csc_matvecT [Add T] [Mul T] (n_col : Nat) (a_p a_i : List Int) (a_x x_x y_x0 : List T) :
    MT (List T) := do
  let mut y_x := y_x0
  for j in rng 0 n_col do
    tick
    let col_start ← toUsize (← a_p.rdT j)
    let col_end ← toUsize (← a_p.rdT (j + 1))
    for ii in rng col_start col_end do
      tick
      let i ← toUsize (← a_i.rdT ii)
      y_x ← y_x.wrT i ((← y_x.rdT i) + (← a_x.rdT ii) * (← x_x.rdT j))
  return y_x

/-- src/row.rs:455-466 -/
def matmat_accumT [Add T] [Mul T] (t : IdxTy) (kk_start kk_end : Nat) (v : T) (b_j : List Int)
    (b_x : List T) (next0 : List Int) (sums0 : List T) (head0 length0 : Int) :
    MT (List Int × List T × Int × Int) := do
  let mut next := next0
  let mut sums := sums0
  let mut head := head0
  let mut length := length0
  for kk in rng kk_start kk_end do
    tick
    let k ← toUsize (← b_j.rdT kk)
    sums ← sums.wrT k ((← sums.rdT k) + v * (← b_x.rdT kk))
    if (← next.rdT k) = -1 then
      next ← next.wrT k head
      head := (k : Int)
      length ← t.add length 1
  return (next, sums, head, length)

/-- src/row.rs:469-481 -/
def matmat_flushT [Zero T] [BEq T] (t : IdxTy) (length head0 : Int) (next0 : List Int)
    (sums0 : List T) (nnz0 : Int) (c_j0 : List Int) (c_x0 : List T) :
    MT (List Int × List T × Int × List Int × List T) := do
  let mut head := head0
  let mut next := next0
  let mut sums := sums0
  let mut nnz := nnz0
  let mut c_j := c_j0
  let mut c_x := c_x0
  for _jj in rng 0 (← toUsize length) do
    tick
    if (← sums.rdT (← asIdx head)) != 0 then
      c_j ← c_j.wrT (← toUsize nnz) (← t.ofInt head)
      c_x ← c_x.wrT (← toUsize nnz) (← sums.rdT (← asIdx head))
      nnz ← t.add nnz 1
    let temp ← asIdx head
    head ← next.rdT temp
    next ← next.wrT temp (-1)
    sums ← sums.wrT temp 0
  return (next, sums, nnz, c_j, c_x)

/-- src/row.rs:420-483 `csr_matmat` -/
def csr_matmatT [Zero T] [Add T] [Mul T] [BEq T] (t : IdxTy) (n_row n_col : Nat)
    (a_p a_j : List Int) (a_x : List T) (b_p b_j : List Int) (b_x : List T)
    (c_p0 c_j0 : List Int) (c_x0 : List T) : MT (List Int × List Int × List T) := do
  let mut next : List Int ← vecT n_col (-1)
  let mut sums : List T ← vecT n_col 0
  let mut nnz : Int := 0
  let mut c_p ← c_p0.wrT 0 0
  let mut c_j := c_j0
  let mut c_x := c_x0
  for i in rng 0 n_row do
    tick
    let mut head : Int := -2
    let mut length : Int := 0
    let jj_start ← toUsize (← a_p.rdT i)
    let jj_end ← toUsize (← a_p.rdT (i + 1))
    for jj in rng jj_start jj_end do
      tick
      let j ← toUsize (← a_j.rdT jj)
      let v ← a_x.rdT jj
      let kk_start ← toUsize (← b_p.rdT j)
      let kk_end ← toUsize (← b_p.rdT (j + 1))
      let r ← matmat_accumT t kk_start kk_end v b_j b_x next sums head length
      next := r.1
      sums := r.2.1
      head := r.2.2.1
      length := r.2.2.2
    let r ← matmat_flushT t length head next sums nnz c_j c_x
    next := r.1
    sums := r.2.1
    nnz := r.2.2.1
    c_j := r.2.2.2.1
    c_x := r.2.2.2.2
    c_p ← c_p.wrT (i + 1) nnz
  return (c_p, c_j, c_x)

/-- src/row.rs:373-417 `csr_matmat_maxnnz` -/
def csr_matmat_maxnnzT (n_row n_col : Nat) (a_p a_j b_p b_j : List Int) : MT Nat := do
  let mut mask : List Int ← vecT n_col (-1)
  let mut nnz := 0
  for i in rng 0 n_row do
    tick
    let start ← toUsize (← a_p.rdT i)
    let stop ← toUsize (← a_p.rdT (i + 1))
    let mut row_nnz := 0
    for jj in rng start stop do
      tick
      let j ← toUsize (← a_j.rdT jj)
      let b_start ← toUsize (← b_p.rdT j)
      let b_end ← toUsize (← b_p.rdT (j + 1))
      for kk in rng b_start b_end do
        tick
        let k ← toUsize (← b_j.rdT kk)
        if (← mask.rdT k) ≠ (i : Int) then
          mask ← mask.wrT k (i : Int)
          row_nnz := row_nnz + 1
    nnz := nnz + row_nnz
  return nnz

/-- src/graph.rs:185-208 -/
def scc_pushT (v : Nat) (indices indptr : List Int) (labels ss0 stack_b0 : List Node) (stack_head0 : Node) :
    MT (List Node × List Node × Node) := do
  let mut ss := ss0
  let mut stack_b := stack_b0
  let mut stack_head := stack_head0
  let start ← toUsize (← indptr.rdT v)
  let stop ← toUsize (← indptr.rdT (v + 1))
  for j in rng start stop do
    tick
    let w ← toUsize (← indices.rdT j)
    if (← labels.rdT w) = .void then
      if (← ss.rdT w) ≠ .void then
        let f ← ss.rdT w
        let b ← stack_b.rdT w
        if b ≠ .fin then
          ss ← ss.wrT (← b.unwrap) f
        if f ≠ .fin then
          stack_b ← stack_b.wrT (← f.unwrap) b
      ss ← ss.wrT w stack_head
      stack_b ← stack_b.wrT w .fin
      stack_b ← stack_b.wrT (← stack_head.unwrap) (.label w)
      stack_head := .label w
  return (ss, stack_b, stack_head)

/-- src/graph.rs:218-226 -/
def scc_lowT (v : Nat) (indices indptr : List Int) (labels : List Node) : MT (Bool × Node) := do
  let mut root := true
  let mut low_v ← labels.rdT v
  let start ← toUsize (← indptr.rdT v)
  let stop ← toUsize (← indptr.rdT (v + 1))
  for j in rng start stop do
    tick
    let low_w ← labels.rdT (← toUsize (← indices.rdT j))
    if low_w.lt low_v then
      low_v := low_w
      root := false
  return (root, low_v)

/-- src/graph.rs:232-243 -/
def scc_popT (fuel v : Nat) (label : Node) (labels0 ss0 : List Node) (ss_head0 : Node) (index0 : Nat) :
    MT (List Node × List Node × Node × Nat) :=
  whileT fuel (labels0, ss0, ss_head0, index0) fun (labels, ss, ss_head, index) => do
    if ss_head = .fin then
      return .done (labels, ss, ss_head, index)
    let a ← labels.rdT v
    let b ← labels.rdT (← ss_head.unwrap)
    if a.le b = false then
      return .done (labels, ss, ss_head, index)
    let w ← ss_head.unwrap
    let ss_head' ← ss.rdT w
    let ss' ← ss.wrT w .void
    let labels' ← labels.wrT w label
    let index' ← usub index 1
    return .yield (labels', ss', ss_head', index')

/-- src/graph.rs:179-265 -/
def scc_stepT (fuel : Nat) (indices indptr : List Int) (s : Scc) (stack_head : Node) : MT (Scc × Node) := do
  let v ← stack_head.unwrap
  if (← s.labels.rdT v) = .void then
    let labels ← s.labels.wrT v (.label s.index)
    let (ss, stack_b, stack_head') ← scc_pushT v indices indptr labels s.ss s.stack_b stack_head
    return ({ s with labels, ss, stack_b, index := s.index + 1 }, stack_head')
  else
    let stack_head' ← s.ss.rdT v
    let mut stack_b := s.stack_b
    if stack_head' ≠ .void ∧ stack_head' ≠ .fin then
      stack_b ← stack_b.wrT (← stack_head'.unwrap) .fin
    let ss ← s.ss.wrT v .void
    stack_b ← stack_b.wrT v .void
    let (root, low_v) ← scc_lowT v indices indptr s.labels
    let labels ← s.labels.wrT v low_v
    if root then
      let index ← usub s.index 1
      let (labels, ss, ss_head, index) ← scc_popT fuel v s.label labels ss s.ss_head index
      let labels ← labels.wrT v s.label
      let label ← scc_next s.label
      return ({ labels, ss, stack_b, ss_head, index, label }, stack_head')
    else
      let ss ← ss.wrT v s.ss_head
      return ({ s with labels, ss, stack_b, ss_head := .label v }, stack_head')

/-- src/graph.rs:152-279 (each `push` of the final conversion of the labels is a step) -/
def connected_components_directedT (fuel n : Nat) (indices indptr : List Int) : MT (Nat × List Nat) := do
  let labels ← vecT n Node.void
  let ss ← vecT n Node.void
  let stack_b ← vecT n Node.void
  let mut s : Scc := ⟨labels, ss, stack_b, .fin, 0, .label (← usub n 1)⟩
  for v in rng 0 n do
    tick
    if (← s.labels.rdT v) = .void then
      let ss ← s.ss.wrT v .fin
      let stack_b ← s.stack_b.wrT v .fin
      let r ← whileT fuel (({ s with ss, stack_b } : Scc), Node.label v) fun (s, stack_head) => do
        if stack_head = .fin then
          return .done (s, stack_head)
        let r ← scc_stepT fuel indices indptr s stack_head
        return .yield r
      s := r.1
  let count ← match s.label with
    | .label l => (do usub (← usub n 1) l : M Nat)
    | _ => pure n
  let mut out : List Nat := []
  for l in s.labels do
    tick
    out := out ++ [← usub (← usub n 1) (← l.unwrap)]
    tick
  return (count, out)

end
end Sparse

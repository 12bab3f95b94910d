import Verif.Model.Mat
/-!
Models of the calls that modify a matrix in place, with scalar operations that may panic (checked integer
overflow, a scalar type of the user) and with the state that such a panic leaves behind. `MX S` is a
computation on a mutable borrow of an `S`: a panic or `Err` keeps the modifications made so far.
-/
namespace Sparse

/-- a computation on a mutable borrow: the state is there also after a fault -/
def MX (S α : Type) := S → Except Fault α × S

instance {S : Type} : Monad (MX S) where
  pure a := fun s => (.ok a, s)
  bind m f := fun s => match m s with
    | (.ok a, s') => f a s'
    | (.error e, s') => (.error e, s')

section
variable {T S α σ : Type}

/-- a call that does not touch the borrowed state -/
def lift (m : M α) : MX S α := fun s => (m, s)
def getX : MX S S := fun s => (.ok s, s)
def setX (s : S) : MX S Unit := fun _ => (.ok (), s)
/-- the outcome of a scalar operation, `none` if it panics -/
def scalar : Option α → MX S α
  | some a => pure a
  | none => lift (.error (.panic .arith))

/-- `while`, as `whileM` -/
def whileX (fuel : Nat) (s : σ) (step : σ → MX S (ForInStep σ)) : MX S σ :=
  match fuel with
  | 0 => lift (.error (.panic .fuel))
  | n + 1 => do
    match ← step s with
    | .done s' => pure s'
    | .yield s' => whileX n s' step

/-- the mutable slices `a_p`, `a_j`, `a_x` lent to a kernel -/
structure Slices (T : Type) where
  p : List Int
  j : List Int
  x : List T
  deriving DecidableEq

/-- src/row.rs:1132-1135: the inner loop of `csr_sum_duplicates`; `+=` on scalars may panic. -/
def sum_runX (add : T → T → Option T) (row_end : Nat) (j : Int) (s : Nat × T) : MX (Slices T) (Nat × T) :=
  whileX ((row_end - s.1) + 1) s fun (jj, x) => do
    let a ← getX
    if jj < row_end then
      let jv ← lift (a.j.rd jj)
      if jv = j then
        let v ← lift (a.x.rd jj)
        let x ← scalar (add x v)
        return .yield (jj + 1, x)
      else
        return .done (jj, x)
    else
      return .done (jj, x)

/-- src/row.rs:1128-1139: the loop over one row of `csr_sum_duplicates`. State: `(jj, nnz)`. -/
def sum_rowX (add : T → T → Option T) (row_end : Nat) (s : Nat × Nat) : MX (Slices T) (Nat × Nat) :=
  whileX ((row_end - s.1) + 1) s fun (jj, nnz) => do
    if jj < row_end then
      let a ← getX
      let j ← lift (a.j.rd jj)
      let x ← lift (a.x.rd jj)
      let (jj, x) ← sum_runX add row_end j (jj + 1, x)
      let a ← getX
      let a_j ← lift (a.j.wr nnz j)
      setX { a with j := a_j }
      let a ← getX
      let a_x ← lift (a.x.wr nnz x)
      setX { a with x := a_x }
      return .yield (jj, nnz + 1)
    else
      return .done (jj, nnz)

/-- src/row.rs:1117-1143 `csr_sum_duplicates`. -/
def csr_sum_duplicatesX (add : T → T → Option T) (t : IdxTy) (n_row : Nat) : MX (Slices T) Unit := do
  let mut nnz : Nat := 0
  let mut row_end : Nat := 0
  for i in rng 0 n_row do
    let jj := row_end
    let a ← getX
    let v ← lift (a.p.rd (i + 1))
    row_end ← lift (toUsize v)
    let r ← sum_rowX add row_end (jj, nnz)
    nnz := r.2
    let v ← lift (t.ofUsize nnz)
    let a ← getX
    let a_p ← lift (a.p.wr (i + 1) v)
    setX { a with p := a_p }

/-- src/csr/csr.rs:199-214. The only scalar operations are the additions of `csr_sum_duplicates`; `sort_indexes` is
one step (it does not fail on a valid matrix, C08). -/
def CSR.sum_duplicatesX [Zero T] (add : T → T → Option T) (t : IdxTy) : MX (CSR T) Unit := fun a =>
  match a.has_canonical_format t with
  | .error e => (.error e, a)
  | .ok true => (.ok (), a)
  | .ok false =>
    match a.sort_indexes with
    | .error e => (.error e, a)
    | .ok a =>
      match csr_sum_duplicatesX add t a.rows ⟨a.rowptr, a.colidx, a.values⟩ with
      | (.error e, s) => (.error e, { a with rowptr := s.p, colidx := s.j, values := s.x })
      | (.ok _, s) =>
        let a := { a with rowptr := s.p, colidx := s.j, values := s.x }
        match a.prune with
        | .error e => (.error e, a)
        | .ok a => (.ok (), a)

/-- src/csc/csc.rs:204-219, as `CSR.sum_duplicatesX` -/
def CSC.sum_duplicatesX [Zero T] (add : T → T → Option T) (t : IdxTy) : MX (CSC T) Unit := fun a =>
  match a.has_canonical_format t with
  | .error e => (.error e, a)
  | .ok true => (.ok (), a)
  | .ok false =>
    match a.sort_indexes with
    | .error e => (.error e, a)
    | .ok a =>
      match csr_sum_duplicatesX add t a.cols ⟨a.colptr, a.rowidx, a.values⟩ with
      | (.error e, s) => (.error e, { a with colptr := s.p, rowidx := s.j, values := s.x })
      | (.ok _, s) =>
        let a := { a with colptr := s.p, rowidx := s.j, values := s.x }
        match unwrapR a.prune with
        | .error e => (.error e, a)
        | .ok a => (.ok (), a)

/-- src/row.rs:90-105 `csr_scale_rows`; `*=` on scalars may panic. The state is the slice `a_x`. -/
def csr_scale_rowsX (mul : T → T → Option T) (n_row : Nat) (a_p : List Int) (x_x : List T) : MX (List T) Unit := do
  for i in rng 0 n_row do
    let start ← lift (do toUsize (← a_p.rd i))
    let stop ← lift (do toUsize (← a_p.rd (i + 1)))
    for jj in rng start stop do
      let a_x ← getX
      let v ← lift (a_x.rd jj)
      let w ← lift (x_x.rd i)
      let r ← scalar (mul v w)
      let a_x ← lift (a_x.wr jj r)
      setX a_x

/-- src/row.rs:111-123 `csr_scale_columns`; `*=` on scalars may panic. The state is the slice `a_x`. -/
def csr_scale_columnsX (mul : T → T → Option T) (n_row : Nat) (a_p a_j : List Int) (x_x : List T) : MX (List T) Unit := do
  let nnz ← lift (do toUsize (← a_p.rd n_row))
  for i in rng 0 nnz do
    let a_x ← getX
    let v ← lift (a_x.rd i)
    let w ← lift (do x_x.rd (← toUsize (← a_j.rd i)))
    let r ← scalar (mul v w)
    let a_x ← lift (a_x.wr i r)
    setX a_x

end
end Sparse

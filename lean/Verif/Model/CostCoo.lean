import Verif.Model.CostMat
/-!
The constructors, the assembly methods and the remaining methods of `Coo` with the counter of `Model/Cost.lean`. Appending one element to
a vector counts one step (the amortised cost of `Vec::push`); reserving storage that is not written (`Vec::with_capacity`) counts none.
-/
namespace Sparse
open MT
section
variable {T : Type}

/-- `v.push(x)` -/
def pushT (l : List α) (x : α) : MT (List α) := .lift 1 (pure (l ++ [x]))
/-- src/coo/coo.rs:411-416, 481-486: `idx.iter().map(|&r| r + I::from(off).unwrap())` -/
def shiftT (t : IdxTy) (off : Nat) (idx : List Int) : MT (List Int) := .lift idx.length (shiftM t off idx)

/-- src/coo/coo.rs:22-42 -/
def Coo.newT (rows cols : Nat) (rowidx colidx : List Int) (values : List T) : MT (Coo T) := .lift 0 (Coo.new rows cols rowidx colidx values)

/-- src/coo/coo.rs:65-92 -/
def Coo.from_denseT [Zero T] [BEq T] (t : IdxTy) (a : List (List T)) : MT (Coo T) := do
  let m := a.length
  let n ← if m > 0 then do pure (← a.rdT 0).length else pure 0
  let mut rowidx : List Int := []
  let mut colidx : List Int := []
  let mut values : List T := []
  for i in rng 0 a.length do
    tick
    let r ← a.rdT i
    for j in rng 0 r.length do
      tick
      let v ← r.rdT j
      if v != 0 then
        rowidx ← pushT rowidx (← t.ofUsize i)
        colidx ← pushT colidx (← t.ofUsize j)
        values ← pushT values v
  return { rows := m, cols := n, rowidx, colidx, values }

/-- src/coo/coo.rs:95-112 -/
def Coo.with_diagonalT [Zero T] (t : IdxTy) (diag : List T) : MT (Coo T) := do
  let n := diag.length
  let mut rowidx ← vecT n (0 : Int)
  let mut colidx ← vecT n (0 : Int)
  let mut values ← vecT n (0 : T)
  for i in rng 0 n do
    tick
    rowidx ← rowidx.wrT i (← t.ofUsize i)
    colidx ← colidx.wrT i (← t.ofUsize i)
    values ← values.wrT i (← diag.rdT i)
  return { rows := n, cols := n, rowidx, colidx, values }

/-- src/coo/coo.rs:164-180 -/
def Coo.identityT [Zero T] [One T] (t : IdxTy) (n : Nat) : MT (Coo T) := do
  let mut rowidx ← vecT n (0 : Int)
  let mut colidx ← vecT n (0 : Int)
  let mut values ← vecT n (0 : T)
  for i in rng 0 n do
    tick
    rowidx ← rowidx.wrT i (← t.ofUsize i)
    colidx ← colidx.wrT i (← t.ofUsize i)
    values ← values.wrT i 1
  return { rows := n, cols := n, rowidx, colidx, values }

/-- src/coo/coo.rs:337-358 -/
def Coo.upperT (t : IdxTy) (a : Coo T) (k : Int) : MT (Coo T) := do
  let mut rowidx : List Int := []
  let mut colidx : List Int := []
  let mut values : List T := []
  for i in rng 0 a.nnz do
    tick
    if (← t.add (← a.rowidx.rdT i) k) ≤ (← a.colidx.rdT i) then
      rowidx ← pushT rowidx (← a.rowidx.rdT i)
      colidx ← pushT colidx (← a.colidx.rdT i)
      values ← pushT values (← a.values.rdT i)
  return { rows := a.rows, cols := a.cols, rowidx, colidx, values }

/-- src/coo/coo.rs:361-372 -/
def Coo.diagonalT [Zero T] [Add T] (a : Coo T) : MT (List T) := do
  let mut d ← vecT (min a.rows a.cols) (0 : T)
  for i in rng 0 a.values.length do
    tick
    let r ← a.rowidx.rdT i
    if r = (← a.colidx.rdT i) then
      let j ← toUsize r
      d ← d.wrT j ((← d.rdT j) + (← a.values.rdT i))
  return d

/-- src/coo/coo.rs:391-434 -/
def Coo.v_stackT (t : IdxTy) (a b : Coo T) : MT (Coo T) := do
  if a.cols ≠ b.cols then
    MT.lift 0 (throw .err)
  let r ← shiftT t a.rows b.rowidx
  return { rows := a.rows + b.rows, cols := a.cols, rowidx := ← copyT (a.rowidx ++ r),
           colidx := ← copyT (a.colidx ++ b.colidx), values := ← copyT (a.values ++ b.values) }

/-- src/coo/coo.rs:439-456 -/
def Coo.v_stack3T (t : IdxTy) (a b c : Coo T) : MT (Coo T) := do
  if a.cols ≠ b.cols then
    MT.lift 0 (throw .err)
  if a.cols ≠ c.cols then
    MT.lift 0 (throw .err)
  Coo.v_stackT t (← Coo.v_stackT t a b) c

/-- src/coo/coo.rs:461-498 -/
def Coo.h_stackT (t : IdxTy) (a b : Coo T) : MT (Coo T) := do
  if a.rows ≠ b.rows then
    MT.lift 0 (throw .err)
  let r ← shiftT t a.cols b.colidx
  Coo.newT a.rows (a.cols + b.cols) (← copyT (a.rowidx ++ b.rowidx)) (← copyT (a.colidx ++ r)) (← copyT (a.values ++ b.values))

/-- src/coo/coo.rs:503-520 -/
def Coo.h_stack3T (t : IdxTy) (a b c : Coo T) : MT (Coo T) := do
  if a.rows ≠ b.rows then
    MT.lift 0 (throw .err)
  if a.rows ≠ c.rows then
    MT.lift 0 (throw .err)
  Coo.h_stackT t (← Coo.h_stackT t a b) c

/-- src/coo/coo.rs:533-537 -/
def Coo.composeT (t : IdxTy) (j11 j12 j21 j22 : Coo T) : MT (Coo T) := do
  let j1x ← Coo.h_stackT t j11 j12
  let j2x ← Coo.h_stackT t j21 j22
  Coo.v_stackT t j1x j2x

/-- src/coo/coo.rs:552-557 -/
def Coo.compose3T (t : IdxTy) (j11 j12 j13 j21 j22 j23 j31 j32 j33 : Coo T) : MT (Coo T) := do
  let j1x ← Coo.h_stack3T t j11 j12 j13
  let j2x ← Coo.h_stack3T t j21 j22 j23
  let j3x ← Coo.h_stack3T t j31 j32 j33
  Coo.v_stack3T t j1x j2x j3x

/-- src/csr/csr.rs:115-117 -/
def CSR.h_stackT [Zero T] [Add T] (t : IdxTy) (a b : CSR T) : MT (CSR T) := do
  (← Coo.h_stackT t (← a.to_cooT t) (← b.to_cooT t)).to_csrT t

/-- src/csc/csc.rs:560-577 -/
def CSC.composeT [Zero T] [Add T] (t : IdxTy) (j11 j12 j21 j22 : CSC T) : MT (CSC T) := do
  let j11coo ← j11.to_cooT t
  let j12coo ← j12.to_cooT t
  let j21coo ← j21.to_cooT t
  let j22coo ← j22.to_cooT t
  let j1x ← Coo.h_stackT t j11coo j12coo
  let j2x ← Coo.h_stackT t j21coo j22coo
  let j ← Coo.v_stackT t j1x j2x
  j.to_cscT t

/-- src/csr/csr.rs:63-92 -/
def CSR.from_denseT [Zero T] [BEq T] (t : IdxTy) (a : List (List T)) : MT (CSR T) := do
  let rows := a.length
  let cols := (← a.rdT 0).length
  let mut rowptr : List Int := []
  let mut colidx : List Int := []
  let mut values : List T := []
  let mut idxptr : Nat := 0
  for i in rng 0 rows do
    tick
    rowptr ← pushT rowptr (← t.ofUsize idxptr)
    for j in rng 0 cols do
      tick
      if (← (← a.rdT i).rdT j) != 0 then
        values ← pushT values (← (← a.rdT i).rdT j)
        colidx ← pushT colidx (← t.ofUsize j)
        idxptr := idxptr + 1
  rowptr ← pushT rowptr (← t.ofUsize idxptr)
  unwrapT (CSR.pruneT { rows, cols, rowptr, colidx, values })

/-- src/csr/csr.rs:96-113 -/
def CSR.with_diagonalT (t : IdxTy) (values : List T) : MT (CSR T) := do
  let n := values.length
  let rowptr ← iotaT t (n + 1)
  let colidx ← iotaT t n
  return { rows := n, cols := n, rowptr, colidx, values }

/-- src/csc/csc.rs:51-80 -/
def CSC.from_denseT [Zero T] [BEq T] (t : IdxTy) (a : List (List T)) : MT (CSC T) := do
  let rows := a.length
  let cols := (← a.rdT 0).length
  let mut colptr : List Int := []
  let mut rowidx : List Int := []
  let mut values : List T := []
  let mut idxptr : Nat := 0
  for i in rng 0 cols do
    tick
    colptr ← pushT colptr (← t.ofUsize idxptr)
    for j in rng 0 rows do
      tick
      if (← (← a.rdT j).rdT i) != 0 then
        values ← pushT values (← (← a.rdT j).rdT i)
        rowidx ← pushT rowidx (← t.ofUsize j)
        idxptr := idxptr + 1
  colptr ← pushT colptr (← t.ofUsize idxptr)
  unwrapT (CSC.pruneT { rows, cols, rowidx, colptr, values })

/-- src/csc/csc.rs:84-101 -/
def CSC.with_diagonalT (t : IdxTy) (values : List T) : MT (CSC T) := do
  let n := values.length
  let rowidx ← iotaT t n
  let colptr ← iotaT t (n + 1)
  return { rows := n, cols := n, rowidx, colptr, values }

end
end Sparse

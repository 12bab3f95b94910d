import Verif.Base
/-! Model of src/coord.rs: kernels on coordinate arrays. `t` is the index type `I`. -/
namespace Sparse

section
variable {T : Type}

/-- The counting loop `for n in 0..nnz { b_p[key[n]] += 1 }`
(src/coord.rs:45-48 and src/row.rs:293-295). -/
def count_loop (t : IdxTy) (nnz : Nat) (key : List Int) (b_p0 : List Int) : M (List Int) := do
  let mut b_p := b_p0
  for n in rng 0 nnz do
    let i ← toUsize (← key.rd n)
    b_p ← b_p.wr i (← t.add (← b_p.rd i) 1)
  return b_p

/-- The exclusive prefix sum loop (src/coord.rs:51-56 and src/row.rs:298-303). -/
def cumsum_loop (t : IdxTy) (n_row : Nat) (b_p0 : List Int) : M (List Int) := do
  let mut b_p := b_p0
  let mut cumsum : Int := 0
  for i in rng 0 n_row do
    let temp ← b_p.rd i
    b_p ← b_p.wr i cumsum
    cumsum ← t.add cumsum temp
  return b_p

/-- The final pointer shift `for i in 0..=n_row { swap(b_p[i], last) }`
(src/coord.rs:70-75 and src/row.rs:320-325). -/
def shift_loop (n_row : Nat) (b_p0 : List Int) : M (List Int) := do
  let mut b_p := b_p0
  let mut last : Int := 0
  for i in rng 0 (n_row + 1) do
    let temp ← b_p.rd i
    b_p ← b_p.wr i last
    last := temp
  return b_p

/-- The scatter loop of `coo_tocsr` (src/coord.rs:60-68). -/
def coo_scatter (t : IdxTy) (nnz : Nat) (a_i a_j : List Int) (a_x : List T)
    (b_p0 b_j0 : List Int) (b_x0 : List T) : M (List Int × List Int × List T) := do
  let mut b_p := b_p0
  let mut b_j := b_j0
  let mut b_x := b_x0
  for n in rng 0 nnz do
    let row ← toUsize (← a_i.rd n)
    let dest ← toUsize (← b_p.rd row)
    b_j ← b_j.wr dest (← a_j.rd n)
    b_x ← b_x.wr dest (← a_x.rd n)
    b_p ← b_p.wr row (← t.add (← b_p.rd row) 1)
  return (b_p, b_j, b_x)

/-- src/coord.rs:30-78 `coo_tocsr`. The four loops are the four definitions above. -/
def coo_tocsr (t : IdxTy) (n_row : Nat) (nnz : Nat) (a_i a_j : List Int) (a_x : List T)
    (b_p b_j : List Int) (b_x : List T) : M (List Int × List Int × List T) := do
  let b_p := b_p.map fun _ => (0 : Int)
  let b_p ← count_loop t nnz a_i b_p
  let b_p ← cumsum_loop t n_row b_p
  let b_p ← b_p.wr n_row (← t.ofUsize nnz)
  let (b_p, b_j, b_x) ← coo_scatter t nnz a_i a_j a_x b_p b_j b_x
  let b_p ← shift_loop n_row b_p
  return (b_p, b_j, b_x)

/-- src/coord.rs:92-113 `coo_todense` (`B += A`, `B` a flat array). -/
def coo_todense [Add T] (n_row n_col nnz : Nat) (a_i a_j : List Int) (a_x : List T)
    (b_x0 : List T) (fortran : Bool) : M (List T) := do
  let mut b_x := b_x0
  if !fortran then
    for n in rng 0 nnz do
      let i := n_col * (← toUsize (← a_i.rd n)) + (← toUsize (← a_j.rd n))
      b_x ← b_x.wr i ((← b_x.rd i) + (← a_x.rd n))
  else
    for n in rng 0 nnz do
      let i := n_row * (← toUsize (← a_j.rd n)) + (← toUsize (← a_i.rd n))
      b_x ← b_x.wr i ((← b_x.rd i) + (← a_x.rd n))
  return b_x

/-- src/coord.rs:135-148 `coo_matvec` (`Y += A*X`). -/
def coo_matvec [Add T] [Mul T] (nnz : Nat) (a_i a_j : List Int) (a_x x_x y_x0 : List T) :
    M (List T) := do
  let mut y_x := y_x0
  for n in rng 0 nnz do
    let i ← toUsize (← a_i.rd n)
    let j ← toUsize (← a_j.rd n)
    y_x ← y_x.wr i ((← y_x.rd i) + (← a_x.rd n) * (← x_x.rd j))
  return y_x

end
end Sparse

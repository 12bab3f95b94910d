import Verif.Model.Row
/-! Model of src/col.rs: kernels on CSC arrays. -/
namespace Sparse

section
variable {T : Type}

/-- src/col.rs:26-44 `csc_matvec` (`Y += A*X`). -/
def csc_matvec [Add T] [Mul T] (n_col : Nat) (a_p a_i : List Int) (a_x x_x y_x0 : List T) :
    M (List T) := do
  let mut y_x := y_x0
  for j in rng 0 n_col do
    let col_start ← toUsize (← a_p.rd j)
    let col_end ← toUsize (← a_p.rd (j + 1))
    for ii in rng col_start col_end do
      let i ← toUsize (← a_i.rd ii)
      y_x ← y_x.wr i ((← y_x.rd i) + (← a_x.rd ii) * (← x_x.rd j))
  return y_x

/-- src/col.rs:66-91 `csc_matvecs`. -/
def csc_matvecs [Add T] [Mul T] (n_col n_vecs : Nat) (a_p a_i : List Int) (a_x x_x y_x0 : List T) :
    M (List T) := do
  let mut y_x := y_x0
  for j in rng 0 n_col do
    let start ← toUsize (← a_p.rd j)
    let stop ← toUsize (← a_p.rd (j + 1))
    for ii in rng start stop do
      let i ← toUsize (← a_i.rd ii)
      y_x ← axpy n_vecs (← a_x.rd ii) x_x (n_vecs * j) y_x (n_vecs * i)
  return y_x

/-- src/col.rs:95-105 `csc_diagonal`. -/
def csc_diagonal [Zero T] [Add T] (k : Int) (n_row n_col : Nat) (a_p a_j : List Int)
    (a_x y_x : List T) : M (List T) :=
  csr_diagonal (-k) n_col n_row a_p a_j a_x y_x

/-- src/col.rs:107-118 `csc_tocsr`. -/
def csc_tocsr (t : IdxTy) (n_row n_col : Nat) (a_p a_i : List Int) (a_x : List T)
    (b_p b_j : List Int) (b_x : List T) : M (List Int × List Int × List T) :=
  csr_tocsc t n_col n_row a_p a_i a_x b_p b_j b_x

/-- src/col.rs:120-130 `csc_matmat_maxnnz`. -/
def csc_matmat_maxnnz (n_row n_col : Nat) (a_p a_i b_p b_i : List Int) : M Nat :=
  csr_matmat_maxnnz n_col n_row b_p b_i a_p a_i

/-- src/col.rs:132-146 `csc_matmat`. -/
def csc_matmat [Zero T] [Add T] [Mul T] [BEq T] (t : IdxTy) (n_row n_col : Nat)
    (a_p a_i : List Int) (a_x : List T) (b_p b_i : List Int) (b_x : List T)
    (c_p c_i : List Int) (c_x : List T) : M (List Int × List Int × List T) :=
  csr_matmat t n_col n_row b_p b_i b_x a_p a_i a_x c_p c_i c_x

end
end Sparse

import Verif.Model.Complex
/-! Model of src/eigen/real.rs. The foreign ARPACK routines are parameters: any functions from the values of the
call's arguments to the values left in the variables passed by reference. -/
namespace Sparse

section
variable {T : Type}

/-- `x as i32` from `usize`: the low 32 bits, read as a signed number -/
def asI32 (n : Nat) : Int := if n % 2 ^ 32 < 2 ^ 31 then (n % 2 ^ 32 : Nat) else (n % 2 ^ 32 : Nat) - 2 ^ 32

/-- `x as usize` from `i32` (64-bit target): negative numbers wrap around -/
def asUsize (x : Int) : Nat := (x % 2 ^ 64).toNat

/-- arguments passed by value to `dnaupd_c` and `dneupd_c` (the constant strings, `tol` and the shifts are left out) -/
structure ArpackArgs where
  n : Int
  nev : Int
  ncv : Int
  ldv : Int
  lworkl : Int

/-- the variables of `eigs` passed by reference to `dnaupd_c` -/
structure Arpack (T : Type) where
  ido : Int
  resid : List T
  v : List T
  iparam : List Int
  ipntr : List Int
  workd : List T
  workl : List T
  info : Int

/-- the variables of `eigs` that only `dneupd_c` writes -/
structure Ritz (T : Type) where
  dr : List T
  di : List T
  z : List T

/-- The foreign routines. `naupd k` is the behaviour of the `k`-th call of `dnaupd_c`: the library keeps state
between calls. `neupd args ldz` is `dneupd_c`. -/
structure ArpackLib (T : Type) where
  naupd : Nat → ArpackArgs → Arpack T → Arpack T
  neupd : ArpackArgs → Int → Arpack T → Ritz T → Arpack T × Ritz T

/-- `v[k..].copy_from_slice(&y)`: panics unless the two slices have the same length -/
def copyFrom (v : List T) (k : Nat) (y : List T) : M (List T) := do
  let s ← v.sliceFrom k
  if s.length ≠ y.length then
    throw (.panic .assert)
  pure (v.take k ++ y)

/-- `m[(i, j)] = z` for a dense matrix kept as rows -/
def matSet (m : List (List α)) (i j : Nat) (z : α) : M (List (List α)) := do
  let r ← m.rd i
  m.wr i (← r.wr j z)

/-- `m[(i, j)]` -/
def matGet (m : List (List α)) (i j : Nat) : M α := do
  let r ← m.rd i
  r.rd j

/-- src/eigen/real.rs:33-47: the checks, `n` and `ncv` -/
def eigs_check (a : CSC T) (nev : Nat) : M (Nat × Nat) := do
  if a.rows ≠ a.cols then
    throw .err
  let n := a.rows
  if nev ≥ (← usub n 1) then
    throw .err
  pure (n, min n (2 * nev + 1))

/-- the arguments passed by value in src/eigen/real.rs:77-95, 103-122, 140-168 -/
def eigs_args (n ncv nev : Nat) : ArpackArgs :=
  ⟨asI32 n, asI32 nev, asI32 ncv, asI32 n, asI32 (3 * ncv * (ncv + 2))⟩

/-- src/eigen/real.rs:48-75: the variables before the first call -/
def eigs_init [Zero T] (n ncv : Nat) : M (Arpack T) := do
  let maxiter := n * 10
  let mut iparam : List Int := List.replicate 11 0
  iparam ← iparam.wr 0 1
  iparam ← iparam.wr 2 (asI32 maxiter)
  iparam ← iparam.wr 3 1
  iparam ← iparam.wr 6 1
  pure { ido := 0, resid := List.replicate n 0, v := List.replicate (n * ncv) 0, iparam := iparam,
         ipntr := List.replicate 14 0, workd := List.replicate (3 * n) 0,
         workl := List.replicate (3 * ncv * (ncv + 2)) 0, info := 0 }

/-- src/eigen/real.rs:100-101: one product requested by the library -/
def eigs_product [Zero T] [Add T] [Mul T] (a : CSC T) (n : Nat) (s : Arpack T) : M (Arpack T) := do
  let x0 ← usub (asUsize (← s.ipntr.rd 0)) 1
  let y ← a.mat_vec (← s.workd.slice x0 (x0 + n))
  let y0 ← usub (asUsize (← s.ipntr.rd 1)) 1
  pure { s with workd := ← copyFrom s.workd y0 y }

/-- src/eigen/real.rs:77-129: the reverse communication loop. The Rust loop has no bound; a run that needs more
than `fuel` requests ends in `fuel` here. -/
def eigs_iterate [Zero T] [Add T] [Mul T] (lib : ArpackLib T) (fuel : Nat) (a : CSC T) (n ncv nev : Nat) :
    M (Arpack T) := do
  let args := eigs_args n ncv nev
  let s := lib.naupd 0 args (← eigs_init n ncv)
  let r ← whileM fuel (1, s) fun (k, s) => do
    if s.ido = 1 then
      let s ← eigs_product a n s
      pure (.yield (k + 1, lib.naupd k args s))
    else
      pure (.done (k, s))
  if r.2.info < 0 then
    throw .err
  pure r.2

/-- src/eigen/real.rs:131-174: extraction of the Ritz values and vectors -/
def eigs_extract [Zero T] (lib : ArpackLib T) (n ncv nev : Nat) (s : Arpack T) : M (Arpack T × Ritz T) := do
  let ldz := n + 1
  let r := lib.neupd (eigs_args n ncv nev) (asI32 ldz) s
    ⟨List.replicate (nev + 1) 0, List.replicate (nev + 1) 0, List.replicate (n * (nev + 1)) 0⟩
  if r.1.info ≠ 0 then
    throw .err
  pure r

/-- src/eigen/real.rs:176-234: assembly of the result. `di[i].abs() == 0.0` is `di[i] == 0`. -/
def eigs_assemble [Zero T] [Neg T] [BEq T] (n nev : Nat) (s : Arpack T) (r : Ritz T) :
    M (List (Cx T) × List (List (Cx T))) := do
  let nconv := asUsize (← s.iparam.rd 4)
  let mut d : List (Cx T) := []
  for i in rng 0 (nev + 1) do
    let x ← r.dr.rd i
    d := d ++ [⟨x, x⟩]
  let zz : List (List (Cx T)) := List.replicate (nev + 1) (List.replicate n ⟨0, 0⟩)
  let (_, nconv, zz) ← whileM (nev + 2) (0, nconv, zz) fun (i, nconv, zz) => do
    if i < nev + 1 then
      if (← r.di.rd i) == 0 then
        let j := i * n
        let zr ← r.z.slice j (j + n)
        let mut zz := zz
        for j in rng 0 n do
          zz ← matSet zz i j ⟨← zr.rd i, 0⟩
        pure (.yield (i + 1, nconv, zz))
      else if i < nev then
        let j := i * n
        let zr ← r.z.slice j (j + n)
        let j := (i + 1) * n
        let zi ← r.z.slice j (j + n)
        let mut zz := zz
        for j in rng 0 n do
          zz ← matSet zz i j ⟨← zr.rd j, ← zi.rd j⟩
          zz ← matSet zz (i + 1) j (← matGet zz i j).conj
        pure (.yield (i + 2, nconv, zz))
      else
        let nconv ← usub nconv 1
        pure (.yield (i + 1, nconv, zz))
    else
      pure (.done (i, nconv, zz))
  if nconv ≤ nev then
    d ← d.slice 0 nconv
  pure (d, zz)

/-- src/eigen/real.rs:33-235 -/
def eigs [Zero T] [Add T] [Mul T] [Neg T] [BEq T] (lib : ArpackLib T) (fuel : Nat) (a : CSC T)
    (nev : Nat) : M (List (Cx T) × List (List (Cx T))) := do
  let (n, ncv) ← eigs_check a nev
  let s ← eigs_iterate lib fuel a n ncv nev
  let (s, r) ← eigs_extract lib n ncv nev s
  eigs_assemble n nev s r

end
end Sparse

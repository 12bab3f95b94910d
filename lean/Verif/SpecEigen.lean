import Verif.Model.Eigen
/-! Specification vocabulary for the eigenvalue driver: the documented layout and preconditions of ARPACK. -/
namespace Sparse

section
variable {T : Type}

/-- ARPACK's layout of the Ritz vectors: column `i` of the vector array starts an eigenvalue when it is the first
one, follows a real eigenvalue, or follows the two columns of a complex pair. -/
inductive RitzHead [Zero T] (di : List T) : Nat → Prop
  | first : RitzHead di 0
  | real {i : Nat} : RitzHead di i → di[i]? = some 0 → RitzHead di (i + 1)
  | pair {i : Nat} {x : T} : RitzHead di i → di[i]? = some x → x ≠ 0 → RitzHead di (i + 2)

/-- What ARPACK documents about the arguments of `dnaupd`: `0 < nev`, `nev + 2 ≤ ncv ≤ n`, `ldv ≥ n` and the sizes
of the work arrays. -/
structure NaupdPre (c : ArpackArgs) (s : Arpack T) : Prop where
  nev : 0 < c.nev
  ncv : c.nev + 2 ≤ c.ncv ∧ c.ncv ≤ c.n
  resid : (s.resid.length : Int) = c.n
  ldv : c.n ≤ c.ldv
  v : (s.v.length : Int) = c.ldv * c.ncv
  workd : (s.workd.length : Int) = 3 * c.n
  lworkl : 3 * (c.ncv * c.ncv) + 6 * c.ncv ≤ c.lworkl
  workl : (s.workl.length : Int) = c.lworkl
  iparam : s.iparam.length = 11
  ipntr : s.ipntr.length = 14

/-- What ARPACK documents about the array `z` of `dneupd`: it holds an `n` by `nev + 1` matrix with leading dimension
`ldz`. -/
def ZFits (c : ArpackArgs) (ldz : Int) (r : Ritz T) : Prop := ldz * c.nev + c.n ≤ r.z.length

/-- The foreign routines write into buffers owned by `eigs`: they do not change their lengths. -/
structure ArpackLib.Sized (lib : ArpackLib T) : Prop where
  resid : ∀ k c s, (lib.naupd k c s).resid.length = s.resid.length
  v : ∀ k c s, (lib.naupd k c s).v.length = s.v.length
  iparam : ∀ k c s, (lib.naupd k c s).iparam.length = s.iparam.length
  ipntr : ∀ k c s, (lib.naupd k c s).ipntr.length = s.ipntr.length
  workd : ∀ k c s, (lib.naupd k c s).workd.length = s.workd.length
  workl : ∀ k c s, (lib.naupd k c s).workl.length = s.workl.length
  iparam' : ∀ c ldz s r, (lib.neupd c ldz s r).1.iparam.length = s.iparam.length
  dr : ∀ c ldz s r, (lib.neupd c ldz s r).2.dr.length = r.dr.length
  di : ∀ c ldz s r, (lib.neupd c ldz s r).2.di.length = r.di.length
  z : ∀ c ldz s r, (lib.neupd c ldz s r).2.z.length = r.z.length

/-- A run that the driver survives, for matrices of size `n`: the library asks for products at positions the driver
can serve (the input inside `workd`, the output in its last third), stops asking within `fuel` calls, reports
no failure, and counts at least one converged value. -/
structure ArpackLib.Serves (lib : ArpackLib T) (n fuel : Nat) : Prop where
  request : ∀ k c s, s.ipntr.length = 14 → (lib.naupd k c s).ido = 1 → ∃ p : Int, (lib.naupd k c s).ipntr[0]? = some p ∧
    1 ≤ p ∧ p ≤ 2 * n + 1 ∧ (lib.naupd k c s).ipntr[1]? = some (2 * (n : Int) + 1)
  stops : ∃ k < fuel, ∀ c s, (lib.naupd k c s).ido ≠ 1
  info : ∀ k c s, 0 ≤ (lib.naupd k c s).info
  info' : ∀ c ldz s r, (lib.neupd c ldz s r).1.info = 0
  conv : ∀ c ldz s r, s.iparam.length = 11 → ∃ m, (lib.neupd c ldz s r).1.iparam[4]? = some m ∧ 1 ≤ m ∧ m < 2 ^ 31

end

end Sparse

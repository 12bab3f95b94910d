import Verif.Spec
import Verif.Model.Usize
/-! Which matrices can exist in memory: dimensions and lengths of arrays are values of `usize`. -/
namespace Sparse

section
variable {T : Type}

/-- a CSR value on a machine with word `u` -/
structure CSR.On (u : Usz) (a : CSR T) : Prop where
  rows : a.rows ≤ u.max
  cols : a.cols ≤ u.max
  rowptr : a.rowptr.length ≤ u.max
  colidx : a.colidx.length ≤ u.max
  values : a.values.length ≤ u.max

/-- a coordinate matrix on a machine with word `u` -/
structure Coo.On (u : Usz) (a : Coo T) : Prop where
  rows : a.rows ≤ u.max
  cols : a.cols ≤ u.max
  rowidx : a.rowidx.length ≤ u.max
  colidx : a.colidx.length ≤ u.max
  values : a.values.length ≤ u.max

/-- a call that returned `r` on a machine would have returned the same with unbounded numbers -/
def ReturnsAs (machine unbounded : M α) : Prop := ∀ r, machine = .ok r → unbounded = .ok r

end
end Sparse

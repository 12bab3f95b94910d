import Verif.Spec
import Verif.Model.Cost
/-! Specification of running times. -/
namespace Sparse

/-- `run` is the function `f` with a counter of steps, and takes at most `c * (size + 1)` steps, whether it returns or panics -/
def RunsWithin (run : MT α) (f : M α) (c size : Nat) : Prop := run.outcome = f ∧ run.steps ≤ c * (size + 1)

/-- no row delimited by the pointer array has more than `K` entries -/
def RowsLe (p : List Int) (K : Nat) : Prop := ∀ (i : Nat) (u v : Int), p[i]? = some u → p[i + 1]? = some v → v ≤ u + K

/-- how many of `n` rows or columns are selected: all of them if no list is given -/
def selLen (n : Nat) (idx : Option (List Int)) : Nat := match idx with | none => n | some l => l.length

end Sparse

import Verif.Spec
import Mathlib.Logic.Relation
/-!
Specification vocabulary for graphs: a square sparse matrix is a graph with an edge `u → v` for every stored
position `(u, v)` (whatever its value).
-/
namespace Sparse

section
variable {T : Type}

/-- `v` can be reached from `u` along the edges -/
def CSR.Reach (a : CSR T) (u v : Nat) : Prop := Relation.ReflTransGen a.has u v

/-- an edge in one direction or the other -/
def CSR.link (a : CSR T) (u v : Nat) : Prop := a.has u v ∨ a.has v u

/-- `u` and `v` are joined by a path whose edges may be used in both directions -/
def CSR.Joined (a : CSR T) (u v : Nat) : Prop := Relation.ReflTransGen a.link u v

end
end Sparse

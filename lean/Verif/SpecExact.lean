import Verif.Spec
/-!
Specification vocabulary for the theorems that assume nothing about the scalars: no commutativity, no
associativity, no neutral element. They therefore cover floating-point numbers, signed zeros and NaN
included. Instead of "the entry", which is a sum, they speak of the list of values stored for a position, and
of sums in a stated order.
-/
namespace Sparse

section
variable {T : Type}

/-- the values stored for position `(i, j)`, in storage order -/
def CSR.valuesAt (a : CSR T) (i j : Nat) : List T := valuesIn (a.row i) j
/-- the values stored for position `(i, j)`, in storage order -/
def CSC.valuesAt (a : CSC T) (i j : Nat) : List T := valuesIn (a.col j) i
/-- the values stored for position `(i, j)`, in storage order -/
def Coo.valuesAt (a : Coo T) (i j : Nat) : List T :=
  (a.triples.filter fun e => decide (e.1 = (i : Int) ∧ e.2.1 = (j : Int))).map (·.2.2)

/-- what merging duplicates makes of the values of one position: nothing stays nothing, and `v₁, v₂, …, vₙ`
becomes the single value `(…(v₁ + v₂) + …) + vₙ` -/
def collapse [Add T] : List T → List T
  | [] => []
  | v :: vs => [sumFrom v vs]

end
end Sparse

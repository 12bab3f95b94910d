import Verif.SpecGraph
/-!
Specification: recursive depth-first search.
-/
namespace Sparse

/-- Recursive depth-first search in the graph with adjacency lists `adj`. `V` lists the nodes visited so far in the order of
their visits, each with the node it was visited from. `Search adj p l V W`: looking at the neighbours `l` of the node `p`
one after the other leads from `V` to `W`. A neighbour that has been visited before is skipped; any other one is visited, and
the search goes on with all of its neighbours before the remaining neighbours of `p`. -/
inductive Search (adj : Nat → List Nat) : Nat → List Nat → List (Nat × Option Nat) → List (Nat × Option Nat) → Prop
  | done (p : Nat) (V : List (Nat × Option Nat)) : Search adj p [] V V
  | skip {p w : Nat} {l : List Nat} {V W : List (Nat × Option Nat)} :
      w ∈ V.map (·.1) → Search adj p l V W → Search adj p (w :: l) V W
  | visit {p w : Nat} {l : List Nat} {V U W : List (Nat × Option Nat)} :
      w ∉ V.map (·.1) → Search adj w (adj w) (V ++ [(w, some p)]) U → Search adj p l U W → Search adj p (w :: l) V W

section
variable {T : Type}

/-- the end points of the edges from `u`, in the order in which they are stored -/
def CSR.successors (a : CSR T) (u : Nat) : List Nat := (a.row u).map fun e => e.1.toNat

open Classical in
/-- the nodes with an edge to `u`, in ascending order -/
noncomputable def CSR.origins (a : CSR T) (u : Nat) : List Nat := (List.range a.rows).filter fun v => decide (a.has v u)

end
end Sparse

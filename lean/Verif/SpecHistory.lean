import Verif.Spec
/-!
Specification of histories of in-place calls on a compressed matrix: what is stored is a list of slices (the rows of a CSR matrix, the
columns of a CSC matrix), each a list of (minor index, value) pairs in storage order. No law of the scalars is assumed.
-/
namespace Sparse

/-- a call that changes a compressed matrix in place -/
inductive InPlace (T : Type) where
  /-- `sort_indexes()` -/
  | sort
  /-- `sum_duplicates()` -/
  | merge
  /-- `prune()` -/
  | prune
  /-- `values_mut()[k] = v` -/
  | write (k : Nat) (v : T)

/-- what is stored: the slices, and the number of values beyond the last stored one -/
structure Contents (T : Type) where
  slices : List (List (Int × T))
  unused : Nat

section
variable {T : Type}

/-- insert an entry into a sorted slice, behind the entries with the same index -/
def place (e : Int × T) : List (Int × T) → List (Int × T)
  | [] => [e]
  | f :: r => if f.1 ≤ e.1 then f :: place e r else e :: f :: r

/-- the entries sorted by index; entries with the same index stay in order -/
def stableSort (r : List (Int × T)) : List (Int × T) := r.foldl (fun s e => place e s) []

/-- add an entry to the one with the same index in a sorted slice, or insert it -/
def addTo [Add T] (e : Int × T) : List (Int × T) → List (Int × T)
  | [] => [e]
  | f :: r => if f.1 < e.1 then f :: addTo e r else if f.1 = e.1 then (f.1, f.2 + e.2) :: r else e :: f :: r

/-- one entry for every index, added up in storage order -/
def addUp [Add T] (r : List (Int × T)) : List (Int × T) := r.foldl (fun s e => addTo e s) []

/-- the value of the `k`-th entry of all is replaced -/
def setValue (k : Nat) (v : T) : List (List (Int × T)) → List (List (Int × T))
  | [] => []
  | r :: rs => if k < r.length then r.modify k (fun e => (e.1, v)) :: rs else r :: setValue (k - r.length) v rs

/-- strictly increasing indices -/
def StrictlyIncreasing (r : List (Int × T)) : Prop := r.Pairwise fun e f => e.1 < f.1

instance (r : List (Int × T)) : Decidable (StrictlyIncreasing r) := inferInstanceAs (Decidable (r.Pairwise _))

/-- what a call does; `none` is a panic (the position does not exist). Duplicates are only looked for in a matrix that is not canonical
already; if there is one, unused storage is given up. -/
def Contents.call [Add T] (s : Contents T) : InPlace T → Option (Contents T)
  | .sort => some { s with slices := s.slices.map stableSort }
  | .merge => if ∀ r ∈ s.slices, StrictlyIncreasing r then some s else some ⟨s.slices.map addUp, 0⟩
  | .prune => some { s with unused := 0 }
  | .write k v => if k < (s.slices.map List.length).sum + s.unused then some { s with slices := setValue k v s.slices } else none

/-- what is stored in a CSR matrix -/
def CSR.contents (a : CSR T) : Contents T := ⟨(List.range a.rows).map a.row, a.values.length - a.stored⟩
/-- what is stored in a CSC matrix -/
def CSC.contents (a : CSC T) : Contents T := ⟨(List.range a.cols).map a.col, a.values.length - a.stored⟩

end
end Sparse

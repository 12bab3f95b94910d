import Verif.Model.Mat
import Mathlib.Algebra.BigOperators.Group.List.Basic
import Mathlib.Algebra.BigOperators.Group.Finset.Basic
/-!
Specification vocabulary: what a matrix in each format *means*, and which stored arrays are valid.
Nothing here refers to the algorithms; only the data types of the model are used.
-/
namespace Sparse

section
variable {T : Type}

/-- Sum of the values of a row's stored `(column, value)` pairs whose column is `j`. -/
def rowSum [AddCommMonoid T] (r : List (Int × T)) (j : Int) : T :=
  ((r.filter fun e => decide (e.1 = j)).map (·.2)).sum

/-- The values of a row's stored `(column, value)` pairs whose column is `j`, in storage order. -/
def valuesIn (r : List (Int × T)) (j : Int) : List T :=
  (r.filter fun e => decide (e.1 = j)).map (·.2)

/-- `v + l₁ + l₂ + …`, added from left to right; no law of addition is assumed. -/
def sumFrom [Add T] (v : T) (l : List T) : T := l.foldl (· + ·) v

/-- The stored `(index, value)` pairs of major slice `i` (row of a CSR, column of a CSC matrix):
positions `p[i] .. p[i+1]` of the index and value arrays. -/
def rowOf (p j : List Int) (x : List T) (i : Nat) : List (Int × T) :=
  match p[i]?, p[i + 1]? with
  | some a, some b => ((j.zip x).drop a.toNat).take (b.toNat - a.toNat)
  | _, _ => []

/-- Validity of compressed arrays with `n` major slices and minor indices below `m`, index type `t`:
the pointer array has `n+1` entries, starts at 0, never decreases, its last entry (the number of stored
entries) fits the index type and both arrays, and every used minor index is in range. Unused trailing
storage in `j` and `x` is allowed. -/
structure WFptr (t : IntTy) (n m : Nat) (p j : List Int) (x : List T) : Prop where
  len : p.length = n + 1
  first : p[0]? = some 0
  mono : ∀ (i : Nat) (a b : Int), p[i]? = some a → p[i + 1]? = some b → a ≤ b
  last : ∀ c, p[n]? = some c → c ≤ t.hi ∧ c ≤ j.length ∧ c ≤ x.length
  idx : ∀ (c : Int) (k : Nat) (v : Int), p[n]? = some c → j[k]? = some v → (k : Int) < c → 0 ≤ v ∧ v < m ∧ v ≤ t.hi

/-- the pointer array alone is valid: it has `n+1` entries, starts at 0, never decreases, and its last entry fits
both arrays. Nothing is said about the minor indices. -/
structure Pointers (n : Nat) (p j : List Int) (x : List T) : Prop where
  len : p.length = n + 1
  first : p[0]? = some 0
  mono : ∀ (i : Nat) (a b : Int), p[i]? = some a → p[i + 1]? = some b → a ≤ b
  last : ∀ c, p[n]? = some c → c ≤ j.length ∧ c ≤ x.length

/-- the dense array (vector of rows) of `n` rows and `m` columns whose element `(i, j)` is `f i j` -/
def dense (n m : Nat) (f : Nat → Nat → T) : List (List T) :=
  (List.range n).map fun i => (List.range m).map fun j => f i j

/-- `[f g]`: `f` with `c` columns followed by `g` -/
def hcat (c : Nat) (f g : Nat → Nat → T) : Nat → Nat → T := fun i j => if j < c then f i j else g i (j - c)

/-- `[f; g]`: `f` with `r` rows above `g` -/
def vcat (r : Nat) (f g : Nat → Nat → T) : Nat → Nat → T := fun i j => if i < r then f i j else g (i - r) j

/-- the indices meant by an optional index list: `0, 1, …, n-1` when it is absent -/
def chosen (n : Nat) : Option (List Int) → List Int
  | none => (List.range n).map fun i : Nat => (i : Int)
  | some l => l

namespace CSR
/-- a valid CSR matrix over index type `t` -/
def WF (t : IntTy) (a : CSR T) : Prop := WFptr t a.rows a.cols a.rowptr a.colidx a.values
/-- stored `(column, value)` pairs of row `i` -/
def row (a : CSR T) (i : Nat) : List (Int × T) := rowOf a.rowptr a.colidx a.values i
/-- the matrix entry at `(i, j)`: the sum of the values stored for that position -/
def entry [AddCommMonoid T] (a : CSR T) (i j : Nat) : T := rowSum (a.row i) j
/-- every row's column indices strictly increase (sorted, no duplicates) -/
def Canonical (a : CSR T) : Prop := ∀ i < a.rows, (a.row i).Pairwise fun e f => e.1 < f.1
/-- the stored `(row, column, value)` triplets in storage order -/
def triples (a : CSR T) : List (Int × Int × T) :=
  (List.range a.rows).flatMap fun i => (a.row i).map fun e => ((i : Int), e.1, e.2)
/-- position `(i, j)` is stored (possibly with value zero) -/
def has (a : CSR T) (i j : Nat) : Prop := ∃ v, ((j : Int), v) ∈ a.row i
/-- no row stores a column twice -/
def NoDup (a : CSR T) : Prop := ∀ i < a.rows, ((a.row i).map (·.1)).Nodup
open Classical in
/-- the number of positions of `a * b` with at least one stored contribution `a(i,j) * b(j,k)` -/
noncomputable def productSlots (a b : CSR T) : Nat :=
  ∑ i ∈ Finset.range a.rows, ((Finset.range b.cols).filter fun k => ∃ j, a.has i j ∧ b.has j k).card
open Classical in
/-- the number of pairs of a requested row and a requested column that are stored positions -/
noncomputable def pickCount (a : CSR T) (rows cols : List Int) : Nat :=
  (rows.map fun i => cols.countP fun j => decide (a.has i.toNat j.toNat)).sum
/-- the number of stored entries -/
def stored (a : CSR T) : Nat := ((List.range a.rows).map fun i => (a.row i).length).sum
/-- unused trailing storage, if any, is filled with zeros (index zero, value zero) -/
def ZeroSlack [Zero T] (a : CSR T) : Prop :=
  a.colidx.length = a.values.length ∧ ∀ e ∈ (a.colidx.zip a.values).drop a.stored, e = (0, 0)
end CSR

namespace CSC
/-- a valid CSC matrix over index type `t` -/
def WF (t : IntTy) (a : CSC T) : Prop := WFptr t a.cols a.rows a.colptr a.rowidx a.values
/-- stored `(row, value)` pairs of column `j` -/
def col (a : CSC T) (j : Nat) : List (Int × T) := rowOf a.colptr a.rowidx a.values j
/-- the matrix entry at `(i, j)`: the sum of the values stored for that position -/
def entry [AddCommMonoid T] (a : CSC T) (i j : Nat) : T := rowSum (a.col j) i
/-- every column's row indices strictly increase -/
def Canonical (a : CSC T) : Prop := ∀ j < a.cols, (a.col j).Pairwise fun e f => e.1 < f.1
/-- the stored `(row, column, value)` triplets in storage order -/
def triples (a : CSC T) : List (Int × Int × T) :=
  (List.range a.cols).flatMap fun j => (a.col j).map fun e => (e.1, (j : Int), e.2)
/-- position `(i, j)` is stored (possibly with value zero) -/
def has (a : CSC T) (i j : Nat) : Prop := ∃ v, ((i : Int), v) ∈ a.col j
/-- no column stores a row twice -/
def NoDup (a : CSC T) : Prop := ∀ j < a.cols, ((a.col j).map (·.1)).Nodup
open Classical in
/-- the number of positions of `a * b` with at least one stored contribution `a(i,j) * b(j,k)` -/
noncomputable def productSlots (a b : CSC T) : Nat :=
  ∑ k ∈ Finset.range b.cols, ((Finset.range a.rows).filter fun i => ∃ j, a.has i j ∧ b.has j k).card
open Classical in
/-- the number of pairs of a requested row and a requested column that are stored positions -/
noncomputable def pickCount (a : CSC T) (rows cols : List Int) : Nat :=
  (cols.map fun j => rows.countP fun i => decide (a.has i.toNat j.toNat)).sum
/-- the number of stored entries -/
def stored (a : CSC T) : Nat := ((List.range a.cols).map fun j => (a.col j).length).sum
/-- unused trailing storage, if any, is filled with zeros (index zero, value zero) -/
def ZeroSlack [Zero T] (a : CSC T) : Prop :=
  a.rowidx.length = a.values.length ∧ ∀ e ∈ (a.rowidx.zip a.values).drop a.stored, e = (0, 0)
end CSC

namespace Coo
/-- the stored `(row, column, value)` triplets -/
def triples (a : Coo T) : List (Int × Int × T) := a.rowidx.zip (a.colidx.zip a.values)
/-- a valid coordinate matrix over index type `t`: arrays of equal length, all indices in range -/
structure WF (t : IntTy) (a : Coo T) : Prop where
  lenr : a.rowidx.length = a.values.length
  lenc : a.colidx.length = a.values.length
  row : ∀ r ∈ a.rowidx, 0 ≤ r ∧ r < a.rows ∧ r ≤ t.hi
  col : ∀ c ∈ a.colidx, 0 ≤ c ∧ c < a.cols ∧ c ≤ t.hi
/-- the matrix entry at `(i, j)`: the sum of the values stored for that position -/
def entry [AddCommMonoid T] (a : Coo T) (i j : Nat) : T :=
  ((a.triples.filter fun e => decide (e.1 = (i : Int) ∧ e.2.1 = (j : Int))).map (·.2.2)).sum
end Coo

end
end Sparse

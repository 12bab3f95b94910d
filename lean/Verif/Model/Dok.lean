import Verif.Model.Mat
/-!
src/dok/dok.rs: the dictionary-of-keys matrix.

`HashMap<(I, I), T>` is an association list with distinct keys. The order in which a hash map enumerates its
entries is unspecified, so every function that iterates over the map takes the enumeration `es` as an argument;
theorems quantify over all permutations of the stored entries. `insert` puts the new entry at the front; where it
is put cannot be observed, because enumeration order is arbitrary anyway. Hashing and capacity are not modelled.
-/
namespace Sparse

section
variable {T : Type}

/-- `HashMap<(I, I), T>` -/
abbrev KMap (T : Type) := List ((Int × Int) × T)

/-- `HashMap::get` -/
def KMap.get (m : KMap T) (k : Int × Int) : Option T := (m.find? fun e => decide (e.1 = k)).map (·.2)

/-- `HashMap::remove` -/
def KMap.remove (m : KMap T) (k : Int × Int) : KMap T := m.filter fun e => decide (e.1 ≠ k)

/-- `HashMap::insert` -/
def KMap.insert (m : KMap T) (k : Int × Int) (v : T) : KMap T := (k, v) :: m.remove k

/-- src/dok/dok.rs:11-15 -/
structure DoK (T : Type) where
  rows : Nat
  cols : Nat
  values : KMap T
  deriving DecidableEq

/-- src/dok/dok.rs:18-24 (and `with_capacity` 26-32: the capacity has no observable effect) -/
def DoK.new (rows cols : Nat) : DoK T := ⟨rows, cols, []⟩

/-- src/dok/dok.rs:51-53 -/
def DoK.rowsOf (d : DoK T) : Nat := d.rows

/-- src/dok/dok.rs:56-58 -/
def DoK.colsOf (d : DoK T) : Nat := d.cols

/-- src/dok/dok.rs:60-62 -/
def DoK.nnz (d : DoK T) : Nat := d.values.length

/-- src/dok/dok.rs:64-69 -/
def DoK.get [Zero T] (d : DoK T) (i j : Int) : T :=
  match d.values.get (i, j) with
  | none => 0
  | some v => v

/-- src/dok/dok.rs:71-84. `&mut self` and `Result<()>`: the state after the call and whether it returned `Ok(())`. -/
def DoK.set [Zero T] [BEq T] (t : IdxTy) (d : DoK T) (i j : Int) (v : T) : M (DoK T × Bool) := do
  if i < 0 then return (d, false)
  if i ≥ (← t.ofUsize d.rows) then return (d, false)
  if j < 0 then return (d, false)
  if j ≥ (← t.ofUsize d.cols) then return (d, false)
  if v == 0 then
    return ({ d with values := d.values.remove (i, j) }, true)
  else
    return ({ d with values := d.values.insert (i, j) v }, true)

/-- src/dok/dok.rs:86-88 -/
def DoK.add [Zero T] [Add T] [BEq T] (t : IdxTy) (d : DoK T) (i j : Int) (v : T) : M (DoK T × Bool) :=
  d.set t i j (d.get i j + v)

/-- src/dok/dok.rs:90-92 -/
def DoK.sub [Zero T] [Sub T] [BEq T] (t : IdxTy) (d : DoK T) (i j : Int) (v : T) : M (DoK T × Bool) :=
  d.set t i j (d.get i j - v)

/-- src/dok/dok.rs:34-48 -/
def DoK.from_dense [Zero T] [BEq T] (t : IdxTy) (a : List (List T)) : M (DoK T) := do
  let m := a.length
  let n ← if m > 0 then do pure (← a.rd 0).length else pure 0
  let mut mat : DoK T := DoK.new m n
  for i in rng 0 a.length do
    let r ← a.rd i
    for j in rng 0 r.length do
      let v ← r.rd j
      if v != 0 then
        let q ← mat.set t (← t.ofUsize i) (← t.ofUsize j) v
        if q.2 = false then throw (.panic .unwrap)
        mat := q.1
  return mat

/-- src/dok/dok.rs:94-100, enumerating the map as `es` -/
def DoK.to_dense [Zero T] (d : DoK T) (es : KMap T) : M (List (List T)) := do
  let mut r := List.replicate d.rows (List.replicate d.cols (0 : T))
  for e in es do
    let i ← toUsize e.1.1
    let j ← toUsize e.1.2
    r ← r.wr i (← (← r.rd i).wr j e.2)
  return r

/-- src/dok/dok.rs:102-116, enumerating the map as `es` -/
def DoK.to_coo (d : DoK T) (es : KMap T) : M (Coo T) := do
  let mut rowidx : List Int := []
  let mut colidx : List Int := []
  let mut values : List T := []
  for e in es do
    rowidx := rowidx ++ [e.1.1]
    colidx := colidx ++ [e.1.2]
    values := values ++ [e.2]
  unwrapR (Coo.new d.rows d.cols rowidx colidx values)

/-- src/dok/dok.rs:118-120 -/
def DoK.to_csc [Zero T] [Add T] (t : IdxTy) (d : DoK T) (es : KMap T) : M (CSC T) := do
  (← d.to_coo es).to_csc t

/-- src/dok/dok.rs:122-124 -/
def DoK.to_csr [Zero T] [Add T] (t : IdxTy) (d : DoK T) (es : KMap T) : M (CSR T) := do
  (← d.to_coo es).to_csr t

end
end Sparse

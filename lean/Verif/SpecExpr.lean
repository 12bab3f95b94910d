import Verif.Spec
import Mathlib.Algebra.Ring.Basic
/-!
Programs composed of matrix operations (C50): the syntax of expressions over the three formats, their
evaluation by the operations of the crate, and their meaning in matrix algebra. An operation is named by its
method or operator; evaluation stops at the first panic or `Err`.
-/
namespace Sparse

/-- the storage formats -/
inductive Fmt
  | coo | csr | csc

/-- a matrix value of the given format -/
abbrev Val (T : Type) : Fmt → Type
  | .coo => Coo T
  | .csr => CSR T
  | .csc => CSC T

/-- expressions whose value has the given format -/
inductive Expr (T : Type) : Fmt → Type
  /-- a given matrix -/
  | coo (a : Coo T) : Expr T .coo
  | csr (a : CSR T) : Expr T .csr
  | csc (a : CSC T) : Expr T .csc
  /-- `with_diagonal`, `identity` -/
  | cooDiag (d : List T) : Expr T .coo
  | csrDiag (d : List T) : Expr T .csr
  | cscDiag (d : List T) : Expr T .csc
  | cooEye (n : Nat) : Expr T .coo
  /-- `with_size` -/
  | cooZero (m n : Nat) : Expr T .coo
  | csrZero (m n : Nat) : Expr T .csr
  /-- `from_dense` -/
  | cooDense (A : List (List T)) : Expr T .coo
  | csrDense (A : List (List T)) : Expr T .csr
  | cscDense (A : List (List T)) : Expr T .csc
  /-- conversions -/
  | cooToCsr (e : Expr T .coo) : Expr T .csr
  | cooToCsc (e : Expr T .coo) : Expr T .csc
  | csrToCoo (e : Expr T .csr) : Expr T .coo
  | csrToCsc (e : Expr T .csr) : Expr T .csc
  | cscToCoo (e : Expr T .csc) : Expr T .coo
  | cscToCsr (e : Expr T .csc) : Expr T .csr
  /-- `transpose` -/
  | cooT (e : Expr T .coo) : Expr T .coo
  | csrT (e : Expr T .csr) : Expr T .csc
  | cscT (e : Expr T .csc) : Expr T .csr
  /-- unary `-` -/
  | cooNeg (e : Expr T .coo) : Expr T .coo
  | csrNeg (e : Expr T .csr) : Expr T .csr
  | cscNeg (e : Expr T .csc) : Expr T .csc
  /-- operators `+` and `-` -/
  | cooAdd (e f : Expr T .coo) : Expr T .csr
  | csrAdd (e f : Expr T .csr) : Expr T .csr
  | csrSub (e f : Expr T .csr) : Expr T .csr
  | cscAdd (e f : Expr T .csc) : Expr T .csc
  | cscSub (e f : Expr T .csc) : Expr T .csc
  /-- the methods `CSC::add` and `CSC::subtract` -/
  | cscAddMethod (e f : Expr T .csc) : Expr T .csc
  | cscSubMethod (e f : Expr T .csc) : Expr T .csc
  /-- operator `*` on matrices -/
  | csrMul (e f : Expr T .csr) : Expr T .csr
  | cscMul (e f : Expr T .csc) : Expr T .csc
  | cscMulCsr (e : Expr T .csc) (f : Expr T .csr) : Expr T .csc
  /-- operators `matrix * scalar` and `scalar * matrix` -/
  | csrScale (e : Expr T .csr) (s : T) : Expr T .csr
  | csrScaleL (s : T) (e : Expr T .csr) : Expr T .csr
  | cscScale (e : Expr T .csc) (s : T) : Expr T .csc
  | cscScaleL (s : T) (e : Expr T .csc) : Expr T .csc
  /-- `sort_indexes`, `sum_duplicates` -/
  | csrSort (e : Expr T .csr) : Expr T .csr
  | cscSort (e : Expr T .csc) : Expr T .csc
  | csrSum (e : Expr T .csr) : Expr T .csr
  | cscSum (e : Expr T .csc) : Expr T .csc
  /-- `upper` -/
  | cooUpper (e : Expr T .coo) (k : Int) : Expr T .coo
  /-- `v_stack`, `v_stack3`, `h_stack`, `h_stack3` -/
  | cooV (e f : Expr T .coo) : Expr T .coo
  | cooV3 (e f g : Expr T .coo) : Expr T .coo
  | cooH (e f : Expr T .coo) : Expr T .coo
  | cooH3 (e f g : Expr T .coo) : Expr T .coo
  | csrH (e f : Expr T .csr) : Expr T .csr
  /-- `compose` -/
  | cooBlock (e f g h : Expr T .coo) : Expr T .coo
  | cscBlock (e f g h : Expr T .csc) : Expr T .csc
  /-- `select` after `sum_duplicates` (`select` refuses a matrix that is not canonical) -/
  | csrSelect (e : Expr T .csr) (ri ci : Option (List Int)) : Expr T .csr
  | cscSelect (e : Expr T .csc) (ri ci : Option (List Int)) : Expr T .csc

section
variable {T : Type}

/-- a structurally valid value -/
def Val.WF (t : IntTy) : {f : Fmt} → Val T f → Prop
  | .coo, a => Coo.WF t a
  | .csr, a => CSR.WF t a
  | .csc, a => CSC.WF t a
def Val.rows : {f : Fmt} → Val T f → Nat
  | .coo, a => Coo.rows a
  | .csr, a => CSR.rows a
  | .csc, a => CSC.rows a
def Val.cols : {f : Fmt} → Val T f → Nat
  | .coo, a => Coo.cols a
  | .csr, a => CSR.cols a
  | .csc, a => CSC.cols a
def Val.entry [AddCommMonoid T] : {f : Fmt} → Val T f → Nat → Nat → T
  | .coo, a => Coo.entry a
  | .csr, a => CSR.entry a
  | .csc, a => CSC.entry a

/-- the nested array of a value by the crate's `to_dense` -/
def Val.to_dense [AddCommMonoid T] (t : IdxTy) : {f : Fmt} → Val T f → M (List (List T))
  | .coo, a => Coo.to_dense a
  | .csr, a => CSR.to_dense a
  | .csc, a => CSC.to_dense t a
/-- the main diagonal of a value by the crate's `diagonal` -/
def Val.diagonal [AddCommMonoid T] : {f : Fmt} → Val T f → M (List T)
  | .coo, a => Coo.diagonal a
  | .csr, a => CSR.diagonal a
  | .csc, a => CSC.diagonal a

namespace Expr

/-- evaluation by the operations of the crate, innermost first, left operand first -/
def eval [CommRing T] [DecidableEq T] (t : IdxTy) : {f : Fmt} → Expr T f → M (Val T f)
  | _, coo a => .ok a
  | _, csr a => .ok a
  | _, csc a => .ok a
  | _, cooDiag d => Coo.with_diagonal t d
  | _, csrDiag d => CSR.with_diagonal t d
  | _, cscDiag d => CSC.with_diagonal t d
  | _, cooEye n => Coo.identity t n
  | _, cooZero m n => .ok (Coo.with_size m n)
  | _, csrZero m n => .ok (CSR.with_size m n)
  | _, cooDense A => Coo.from_dense t A
  | _, csrDense A => CSR.from_dense t A
  | _, cscDense A => CSC.from_dense t A
  | _, cooToCsr e => do let a ← e.eval t; Coo.to_csr t a
  | _, cooToCsc e => do let a ← e.eval t; Coo.to_csc t a
  | _, csrToCoo e => do let a ← e.eval t; CSR.to_coo t a
  | _, csrToCsc e => do let a ← e.eval t; CSR.to_csc t a
  | _, cscToCoo e => do let a ← e.eval t; CSC.to_coo t a
  | _, cscToCsr e => do let a ← e.eval t; CSC.to_csr t a
  | _, cooT e => do let a ← e.eval t; pure (Coo.transpose a)
  | _, csrT e => do let a ← e.eval t; CSR.transpose a
  | _, cscT e => do let a ← e.eval t; CSC.transpose a
  | _, cooNeg e => do let a ← e.eval t; Coo.neg a
  | _, csrNeg e => do let a ← e.eval t; CSR.neg a
  | _, cscNeg e => do let a ← e.eval t; CSC.neg a
  | _, cooAdd e f => do let a ← e.eval t; let b ← f.eval t; Coo.add t a b
  | _, csrAdd e f => do let a ← e.eval t; let b ← f.eval t; CSR.add t a b
  | _, csrSub e f => do let a ← e.eval t; let b ← f.eval t; CSR.sub t a b
  | _, cscAdd e f => do let a ← e.eval t; let b ← f.eval t; CSC.add_op t a b
  | _, cscSub e f => do let a ← e.eval t; let b ← f.eval t; CSC.sub_op t a b
  | _, cscAddMethod e f => do let a ← e.eval t; let b ← f.eval t; CSC.add t a b
  | _, cscSubMethod e f => do let a ← e.eval t; let b ← f.eval t; CSC.subtract t a b
  | _, csrMul e f => do let a ← e.eval t; let b ← f.eval t; CSR.mul t a b
  | _, cscMul e f => do let a ← e.eval t; let b ← f.eval t; CSC.mul t a b
  | _, cscMulCsr e f => do let a ← e.eval t; let b ← f.eval t; CSC.mul_csr t a b
  | _, csrScale e s => do let a ← e.eval t; CSR.mul_scalar a s
  | _, csrScaleL s e => do let a ← e.eval t; CSR.scalar_mul s a
  | _, cscScale e s => do let a ← e.eval t; CSC.mul_scalar a s
  | _, cscScaleL s e => do let a ← e.eval t; CSC.scalar_mul s a
  | _, csrSort e => do let a ← e.eval t; CSR.sort_indexes a
  | _, cscSort e => do let a ← e.eval t; CSC.sort_indexes a
  | _, csrSum e => do let a ← e.eval t; CSR.sum_duplicates t a
  | _, cscSum e => do let a ← e.eval t; CSC.sum_duplicates t a
  | _, cooUpper e k => do let a ← e.eval t; Coo.upper t a k
  | _, cooV e f => do let a ← e.eval t; let b ← f.eval t; Coo.v_stack t a b
  | _, cooV3 e f g => do let a ← e.eval t; let b ← f.eval t; let c ← g.eval t; Coo.v_stack3 t a b c
  | _, cooH e f => do let a ← e.eval t; let b ← f.eval t; Coo.h_stack t a b
  | _, cooH3 e f g => do let a ← e.eval t; let b ← f.eval t; let c ← g.eval t; Coo.h_stack3 t a b c
  | _, csrH e f => do let a ← e.eval t; let b ← f.eval t; CSR.h_stack t a b
  | _, cooBlock e f g h => do
    let a ← e.eval t; let b ← f.eval t; let c ← g.eval t; let d ← h.eval t; Coo.compose t a b c d
  | _, cscBlock e f g h => do
    let a ← e.eval t; let b ← f.eval t; let c ← g.eval t; let d ← h.eval t; CSC.compose t a b c d
  | _, csrSelect e ri ci => do let a ← e.eval t; let b ← CSR.sum_duplicates t a; CSR.select t b ri ci
  | _, cscSelect e ri ci => do let a ← e.eval t; let b ← CSC.sum_duplicates t a; CSC.select t b ri ci

/-- rows and columns in matrix algebra -/
def shape : {f : Fmt} → Expr T f → Nat × Nat
  | _, coo a => (a.rows, a.cols)
  | _, csr a => (a.rows, a.cols)
  | _, csc a => (a.rows, a.cols)
  | _, cooDiag d | _, csrDiag d | _, cscDiag d => (d.length, d.length)
  | _, cooEye n => (n, n)
  | _, cooZero m n | _, csrZero m n => (m, n)
  | _, cooDense A | _, csrDense A | _, cscDense A => (A.length, (A.headD []).length)
  | _, cooToCsr e | _, cooToCsc e | _, cooNeg e => e.shape
  | _, csrToCoo e | _, csrToCsc e | _, csrNeg e | _, csrScale e _ | _, csrScaleL _ e | _, csrSort e | _, csrSum e => e.shape
  | _, cscToCoo e | _, cscToCsr e | _, cscNeg e | _, cscScale e _ | _, cscScaleL _ e | _, cscSort e | _, cscSum e => e.shape
  | _, cooT e | _, csrT e | _, cscT e => e.shape.swap
  | _, cooAdd e _ | _, csrAdd e _ | _, csrSub e _ => e.shape
  | _, cscAdd e _ | _, cscSub e _ | _, cscAddMethod e _ | _, cscSubMethod e _ => e.shape
  | _, csrMul e f => (e.shape.1, f.shape.2)
  | _, cscMul e f => (e.shape.1, f.shape.2)
  | _, cscMulCsr e f => (e.shape.1, f.shape.2)
  | _, cooUpper e _ => e.shape
  | _, cooV e f => (e.shape.1 + f.shape.1, e.shape.2)
  | _, cooV3 e f g => (e.shape.1 + f.shape.1 + g.shape.1, e.shape.2)
  | _, cooH e f | _, csrH e f => (e.shape.1, e.shape.2 + f.shape.2)
  | _, cooH3 e f g => (e.shape.1, e.shape.2 + f.shape.2 + g.shape.2)
  | _, cooBlock e f g _ | _, cscBlock e f g _ => (e.shape.1 + g.shape.1, e.shape.2 + f.shape.2)
  | _, csrSelect e ri ci | _, cscSelect e ri ci => ((chosen e.shape.1 ri).length, (chosen e.shape.2 ci).length)

/-- the matrix of the chosen rows and columns, `z` outside of it -/
def pick {α : Type} (z : α) (rows cols : List Int) (f : Nat → Nat → α) : Nat → Nat → α := fun r c =>
  match rows[r]?, cols[c]? with
  | some i, some j => f i.toNat j.toNat
  | _, _ => z

/-- the block matrix `[f g; h k]` whose first block is `m × n` -/
def block {α : Type} (m n : Nat) (f g h k : Nat → Nat → α) : Nat → Nat → α := vcat m (hcat n f g) (hcat n h k)

/-- the entries in matrix algebra -/
def denote [CommRing T] : {f : Fmt} → Expr T f → Nat → Nat → T
  | _, coo a => a.entry
  | _, csr a => a.entry
  | _, csc a => a.entry
  | _, cooDiag d | _, csrDiag d | _, cscDiag d => fun i j => if i = j then (d[i]?).getD 0 else 0
  | _, cooEye n => fun i j => if i = j ∧ i < n then 1 else 0
  | _, cooZero _ _ | _, csrZero _ _ => fun _ _ => 0
  | _, cooDense A | _, csrDense A | _, cscDense A => fun i j => ((A[i]?).bind (·[j]?)).getD 0
  | _, cooToCsr e | _, cooToCsc e => e.denote
  | _, csrToCoo e | _, csrToCsc e | _, csrSort e | _, csrSum e => e.denote
  | _, cscToCoo e | _, cscToCsr e | _, cscSort e | _, cscSum e => e.denote
  | _, cooT e | _, csrT e | _, cscT e => fun i j => e.denote j i
  | _, cooNeg e | _, csrNeg e | _, cscNeg e => fun i j => -e.denote i j
  | _, cooAdd e f | _, csrAdd e f | _, cscAdd e f | _, cscAddMethod e f => fun i j => e.denote i j + f.denote i j
  | _, csrSub e f | _, cscSub e f | _, cscSubMethod e f => fun i j => e.denote i j - f.denote i j
  | _, csrMul e f | _, cscMul e f | _, cscMulCsr e f =>
    fun i k => ∑ j ∈ Finset.range e.shape.2, e.denote i j * f.denote j k
  | _, csrScale e s | _, cscScale e s => fun i j => e.denote i j * s
  | _, csrScaleL s e | _, cscScaleL s e => fun i j => s * e.denote i j
  | _, cooUpper e k => fun i j => if (i : Int) + k ≤ j then e.denote i j else 0
  | _, cooV e f => vcat e.shape.1 e.denote f.denote
  | _, cooV3 e f g => vcat (e.shape.1 + f.shape.1) (vcat e.shape.1 e.denote f.denote) g.denote
  | _, cooH e f | _, csrH e f => hcat e.shape.2 e.denote f.denote
  | _, cooH3 e f g => hcat (e.shape.2 + f.shape.2) (hcat e.shape.2 e.denote f.denote) g.denote
  | _, cooBlock e f g h | _, cscBlock e f g h => block e.shape.1 e.shape.2 e.denote f.denote g.denote h.denote
  | _, csrSelect e ri ci | _, cscSelect e ri ci => pick 0 (chosen e.shape.1 ri) (chosen e.shape.2 ci) e.denote

/-- the positions at which an entry may be stored: those of the operands, and for a product those with a
possible contribution. `CSR::to_coo`, and with it `CSR::h_stack`, may store explicit zeros at `(0, 0)`. -/
def pos [Zero T] : {f : Fmt} → Expr T f → Nat → Nat → Prop
  | _, coo a => fun i j => ∃ v, ((i : Int), (j : Int), v) ∈ a.triples
  | _, csr a => a.has
  | _, csc a => a.has
  | _, cooDiag d | _, csrDiag d | _, cscDiag d => fun i j => i = j ∧ i < d.length
  | _, cooEye n => fun i j => i = j ∧ i < n
  | _, cooZero _ _ | _, csrZero _ _ => fun _ _ => False
  | _, cooDense A | _, csrDense A | _, cscDense A => fun i j => ((A[i]?).bind (·[j]?)).getD 0 ≠ 0
  | _, csrToCoo e => fun i j => e.pos i j ∨ i = 0 ∧ j = 0
  | _, cooToCsr e | _, cooToCsc e | _, cooNeg e => e.pos
  | _, csrToCsc e | _, csrNeg e | _, csrScale e _ | _, csrScaleL _ e | _, csrSort e | _, csrSum e => e.pos
  | _, cscToCoo e | _, cscToCsr e | _, cscNeg e | _, cscScale e _ | _, cscScaleL _ e | _, cscSort e | _, cscSum e => e.pos
  | _, cooT e | _, csrT e | _, cscT e => fun i j => e.pos j i
  | _, cooAdd e f | _, csrAdd e f | _, csrSub e f => fun i j => e.pos i j ∨ f.pos i j
  | _, cscAdd e f | _, cscSub e f | _, cscAddMethod e f | _, cscSubMethod e f => fun i j => e.pos i j ∨ f.pos i j
  | _, csrMul e f | _, cscMul e f | _, cscMulCsr e f => fun i k => ∃ j, e.pos i j ∧ f.pos j k
  | _, cooUpper e k => fun i j => e.pos i j ∧ (i : Int) + k ≤ j
  | _, cooV e f => vcat e.shape.1 e.pos f.pos
  | _, cooV3 e f g => vcat (e.shape.1 + f.shape.1) (vcat e.shape.1 e.pos f.pos) g.pos
  | _, cooH e f => hcat e.shape.2 e.pos f.pos
  | _, cooH3 e f g => hcat (e.shape.2 + f.shape.2) (hcat e.shape.2 e.pos f.pos) g.pos
  | _, csrH e f => hcat e.shape.2 (fun i j => e.pos i j ∨ i = 0 ∧ j = 0) fun i j => f.pos i j ∨ i = 0 ∧ j = 0
  | _, cooBlock e f g h | _, cscBlock e f g h => block e.shape.1 e.shape.2 e.pos f.pos g.pos h.pos
  | _, csrSelect e ri ci | _, cscSelect e ri ci => pick False (chosen e.shape.1 ri) (chosen e.shape.2 ci) e.pos

open Classical in
/-- the number of positions of an `m × n` pattern -/
noncomputable def count (m n : Nat) (p : Nat → Nat → Prop) : Nat :=
  ∑ i ∈ Finset.range m, ((Finset.range n).filter fun j => p i j).card

open Classical in
/-- the number of chosen positions of a pattern, a position chosen repeatedly counting as often -/
noncomputable def picks (rows cols : List Int) (p : Nat → Nat → Prop) : Nat :=
  (rows.map fun i => cols.countP fun j => decide (p i.toNat j.toNat)).sum

open Classical in
/-- the number of nonzero elements of a nested array -/
noncomputable def nonzeros [Zero T] (A : List (List T)) : Nat := A.flatten.countP fun v => decide (v ≠ 0)

/-- storage that suffices for the value: a sum needs the storage of both operands, a product one slot for each
position with a possible contribution -/
noncomputable def size [Zero T] : {f : Fmt} → Expr T f → Nat
  | _, coo a => a.values.length
  | _, csr a => a.values.length
  | _, csc a => a.values.length
  | _, cooDiag d | _, csrDiag d | _, cscDiag d => d.length
  | _, cooEye n => n
  | _, cooZero _ _ | _, csrZero _ _ => 0
  | _, cooDense A | _, csrDense A | _, cscDense A => nonzeros A
  | _, cooToCsr e | _, cooToCsc e | _, cooNeg e => e.size
  | _, csrToCoo e | _, csrToCsc e | _, csrNeg e | _, csrScale e _ | _, csrScaleL _ e | _, csrSort e | _, csrSum e => e.size
  | _, cscToCoo e | _, cscToCsr e | _, cscNeg e | _, cscScale e _ | _, cscScaleL _ e | _, cscSort e | _, cscSum e => e.size
  | _, cooT e | _, csrT e | _, cscT e => e.size
  | _, cooAdd e f | _, csrAdd e f | _, csrSub e f => e.size + f.size
  | _, cscAdd e f | _, cscSub e f | _, cscAddMethod e f | _, cscSubMethod e f => e.size + f.size
  | _, csrMul e f => count e.shape.1 f.shape.2 fun i k => ∃ j, e.pos i j ∧ f.pos j k
  | _, cscMul e f => count e.shape.1 f.shape.2 fun i k => ∃ j, e.pos i j ∧ f.pos j k
  | _, cscMulCsr e f => count e.shape.1 f.shape.2 fun i k => ∃ j, e.pos i j ∧ f.pos j k
  | _, cooUpper e _ => e.size
  | _, cooV e f | _, cooH e f | _, csrH e f => e.size + f.size
  | _, cooV3 e f g | _, cooH3 e f g => e.size + f.size + g.size
  | _, cooBlock e f g h | _, cscBlock e f g h => e.size + f.size + (g.size + h.size)
  | _, csrSelect e ri ci | _, cscSelect e ri ci => picks (chosen e.shape.1 ri) (chosen e.shape.2 ci) e.pos

/-- a shape whose row and column numbers are values of the index type -/
def Dims (t : IntTy) (m n : Nat) : Prop := (m : Int) ≤ t.hi + 1 ∧ (n : Int) ≤ t.hi + 1

instance (t : IntTy) (m n : Nat) : Decidable (Dims t m n) := inferInstanceAs (Decidable (_ ∧ _))

/-- every chosen index is in range -/
def InRange (n : Nat) (idx : Option (List Int)) : Prop := ∀ i ∈ chosen n idx, 0 ≤ i ∧ i < (n : Int)

/-- the given matrices are valid and have no unused storage, given arrays are rectangular, shapes agree, and
dimensions and storage sizes are representable. `CSR` and `CSC::from_dense` need a row; `select` needs indices in range;
the comparison of `upper` must not overflow. -/
def Fits [Zero T] (t : IntTy) : {f : Fmt} → Expr T f → Prop
  | _, coo a => a.WF t ∧ Dims t a.rows a.cols ∧ (a.values.length : Int) < t.hi
  | _, csr a => a.WF t ∧ a.colidx.length = a.stored ∧ a.values.length = a.stored ∧ Dims t a.rows a.cols ∧
      (a.values.length : Int) < t.hi
  | _, csc a => a.WF t ∧ a.rowidx.length = a.stored ∧ a.values.length = a.stored ∧ Dims t a.rows a.cols ∧
      (a.values.length : Int) < t.hi
  | _, cooDiag d | _, csrDiag d | _, cscDiag d => (d.length : Int) < t.hi
  | _, cooEye n => (n : Int) < t.hi
  | _, cooZero m n | _, csrZero m n => Dims t m n
  | _, cooDense A => (∀ r ∈ A, r.length = (A.headD []).length) ∧ Dims t A.length (A.headD []).length ∧
      (nonzeros A : Int) < t.hi
  | _, csrDense A | _, cscDense A => A ≠ [] ∧ (∀ r ∈ A, r.length = (A.headD []).length) ∧
      Dims t A.length (A.headD []).length ∧ (nonzeros A : Int) < t.hi
  | _, cooToCsr e | _, cooToCsc e | _, cooNeg e | _, cooT e => e.Fits t
  | _, csrToCoo e | _, csrToCsc e | _, csrNeg e | _, csrScale e _ | _, csrScaleL _ e | _, csrSort e | _, csrSum e
  | _, csrT e => e.Fits t
  | _, cscToCoo e | _, cscToCsr e | _, cscNeg e | _, cscScale e _ | _, cscScaleL _ e | _, cscSort e | _, cscSum e
  | _, cscT e => e.Fits t
  | _, cooAdd e f | _, csrAdd e f | _, csrSub e f =>
    e.Fits t ∧ f.Fits t ∧ e.shape = f.shape ∧ ((e.size + f.size : Nat) : Int) < t.hi
  | _, cscAdd e f | _, cscSub e f | _, cscAddMethod e f | _, cscSubMethod e f =>
    e.Fits t ∧ f.Fits t ∧ e.shape = f.shape ∧ ((e.size + f.size : Nat) : Int) < t.hi
  | _, csrMul e f => e.Fits t ∧ f.Fits t ∧ e.shape.2 = f.shape.1 ∧ ((csrMul e f).size : Int) < t.hi
  | _, cscMul e f => e.Fits t ∧ f.Fits t ∧ e.shape.2 = f.shape.1 ∧ ((cscMul e f).size : Int) < t.hi
  | _, cscMulCsr e f => e.Fits t ∧ f.Fits t ∧ e.shape.2 = f.shape.1 ∧ ((cscMulCsr e f).size : Int) < t.hi
  | _, cooUpper e k => e.Fits t ∧ t.lo ≤ k ∧ (e.shape.1 : Int) + k ≤ t.hi + 1
  | _, cooV e f => e.Fits t ∧ f.Fits t ∧ e.shape.2 = f.shape.2 ∧ ((e.shape.1 + f.shape.1 : Nat) : Int) ≤ t.hi + 1 ∧
      ((e.size + f.size : Nat) : Int) < t.hi
  | _, cooV3 e f g => e.Fits t ∧ f.Fits t ∧ g.Fits t ∧ e.shape.2 = f.shape.2 ∧ e.shape.2 = g.shape.2 ∧
      ((e.shape.1 + f.shape.1 + g.shape.1 : Nat) : Int) ≤ t.hi + 1 ∧ ((e.size + f.size + g.size : Nat) : Int) < t.hi
  | _, cooH e f => e.Fits t ∧ f.Fits t ∧ e.shape.1 = f.shape.1 ∧ ((e.shape.2 + f.shape.2 : Nat) : Int) ≤ t.hi + 1 ∧
      ((e.size + f.size : Nat) : Int) < t.hi
  | _, cooH3 e f g => e.Fits t ∧ f.Fits t ∧ g.Fits t ∧ e.shape.1 = f.shape.1 ∧ e.shape.1 = g.shape.1 ∧
      ((e.shape.2 + f.shape.2 + g.shape.2 : Nat) : Int) ≤ t.hi + 1 ∧ ((e.size + f.size + g.size : Nat) : Int) < t.hi
  | _, csrH e f => e.Fits t ∧ f.Fits t ∧ e.shape.1 = f.shape.1 ∧ ((e.shape.2 + f.shape.2 : Nat) : Int) ≤ t.hi + 1 ∧
      ((e.size + f.size : Nat) : Int) < t.hi
  | _, cooBlock e f g h => e.Fits t ∧ f.Fits t ∧ g.Fits t ∧ h.Fits t ∧ e.shape.1 = f.shape.1 ∧ g.shape.1 = h.shape.1 ∧
      e.shape.2 = g.shape.2 ∧ f.shape.2 = h.shape.2 ∧ Dims t (e.shape.1 + g.shape.1) (e.shape.2 + f.shape.2) ∧
      ((e.size + f.size + (g.size + h.size) : Nat) : Int) < t.hi
  | _, cscBlock e f g h => e.Fits t ∧ f.Fits t ∧ g.Fits t ∧ h.Fits t ∧ e.shape.1 = f.shape.1 ∧ g.shape.1 = h.shape.1 ∧
      e.shape.2 = g.shape.2 ∧ f.shape.2 = h.shape.2 ∧ Dims t (e.shape.1 + g.shape.1) (e.shape.2 + f.shape.2) ∧
      ((e.size + f.size + (g.size + h.size) : Nat) : Int) < t.hi
  | _, csrSelect e ri ci => e.Fits t ∧ (e.shape.1 : Int) ≤ t.hi ∧ (e.shape.2 : Int) ≤ t.hi ∧ InRange e.shape.1 ri ∧
      InRange e.shape.2 ci ∧ Dims t (chosen e.shape.1 ri).length (chosen e.shape.2 ci).length ∧
      ((csrSelect e ri ci).size : Int) < t.hi
  | _, cscSelect e ri ci => e.Fits t ∧ (e.shape.1 : Int) ≤ t.hi ∧ (e.shape.2 : Int) ≤ t.hi ∧ InRange e.shape.1 ri ∧
      InRange e.shape.2 ci ∧ Dims t (chosen e.shape.1 ri).length (chosen e.shape.2 ci).length ∧
      ((cscSelect e ri ci).size : Int) < t.hi

/-- the expression uses neither the operator `-` on CSC matrices nor a scalar multiple of a CSC matrix (C19, C20) -/
def AvoidsCscSubScale : {f : Fmt} → Expr T f → Prop
  | _, coo _ | _, csr _ | _, csc _ | _, cooDiag _ | _, csrDiag _ | _, cscDiag _ | _, cooEye _ => True
  | _, cooZero _ _ | _, csrZero _ _ | _, cooDense _ | _, csrDense _ | _, cscDense _ => True
  | _, cooToCsr e | _, cooToCsc e | _, cooNeg e | _, cooT e => e.AvoidsCscSubScale
  | _, csrToCoo e | _, csrToCsc e | _, csrNeg e | _, csrScale e _ | _, csrScaleL _ e | _, csrSort e | _, csrSum e
  | _, csrT e => e.AvoidsCscSubScale
  | _, cscToCoo e | _, cscToCsr e | _, cscNeg e | _, cscSort e | _, cscSum e | _, cscT e => e.AvoidsCscSubScale
  | _, cooAdd e f | _, csrAdd e f | _, csrSub e f | _, csrMul e f
  | _, cscAdd e f | _, cscAddMethod e f | _, cscSubMethod e f | _, cscMul e f | _, cscMulCsr e f =>
    e.AvoidsCscSubScale ∧ f.AvoidsCscSubScale
  | _, cooUpper e _ => e.AvoidsCscSubScale
  | _, cooV e f | _, cooH e f | _, csrH e f => e.AvoidsCscSubScale ∧ f.AvoidsCscSubScale
  | _, cooV3 e f g | _, cooH3 e f g => e.AvoidsCscSubScale ∧ f.AvoidsCscSubScale ∧ g.AvoidsCscSubScale
  | _, cooBlock e f g h | _, cscBlock e f g h =>
    e.AvoidsCscSubScale ∧ f.AvoidsCscSubScale ∧ g.AvoidsCscSubScale ∧ h.AvoidsCscSubScale
  | _, csrSelect e _ _ | _, cscSelect e _ _ => e.AvoidsCscSubScale
  | _, cscSub _ _ | _, cscScale _ _ | _, cscScaleL _ _ => False

end Expr
end
end Sparse

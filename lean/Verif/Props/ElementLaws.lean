import Verif.Props.Elementwise
import Verif.Props.Laws
import Mathlib.Algebra.Order.Ring.Int
import Mathlib.Algebra.Field.Basic
import Mathlib.Data.Rat.Defs
/-!
C103: programs built of the element-wise kernels compute the element-wise expression, so every identity between such
expressions holds between the results; the six comparison kernels divide the stored positions consistently.
-/
namespace Sparse

section
variable {T T2 : Type}

/-- the type of the element-wise kernels (index type, shape, two matrices as arrays, three output arrays) -/
abbrev BinKernel (T T2 : Type) :=
  IdxTy → Nat → Nat → List Int → List Int → List T → List Int → List Int → List T → List Int → List Int → List T2 →
    M (List Int × List Int × List T2)

/-- Specification: a caller of an element-wise kernel, which allocates output arrays long enough for all entries of both operands
(as `CSR::add` does, src/csr/std_ops.rs) and wraps the result. -/
def callBin (k : BinKernel T T2) (z : T2) (t : IntTy) (a b : CSR T) : M (CSR T2) := do
  let (p, j, x) ← k t a.rows a.cols a.rowptr a.colidx a.values b.rowptr b.colidx b.values
    (List.replicate (a.rows + 1) 0) (List.replicate (a.stored + b.stored) 0) (List.replicate (a.stored + b.stored) z)
  return ⟨a.rows, a.cols, p, j, x⟩

/-- a call of `csr_add_csr` -/
def elemAdd [Zero T] [Add T] [BEq T] (t : IntTy) (a b : CSR T) : M (CSR T) :=
  callBin (fun t n m ap aj ax bp bj bx cp cj cx => csr_add_csr t n m ap aj ax bp bj bx cp cj cx) 0 t a b

/-- a call of `csr_sub_csr` -/
def elemSub [Zero T] [Add T] [Sub T] [BEq T] (t : IntTy) (a b : CSR T) : M (CSR T) :=
  callBin (fun t n m ap aj ax bp bj bx cp cj cx => csr_sub_csr t n m ap aj ax bp bj bx cp cj cx) 0 t a b

/-- a call of `csr_mul_csr` -/
def elemMul [Zero T] [Add T] [Mul T] [BEq T] (t : IntTy) (a b : CSR T) : M (CSR T) :=
  callBin (fun t n m ap aj ax bp bj bx cp cj cx => csr_mul_csr t n m ap aj ax bp bj bx cp cj cx) 0 t a b

/-- a call of `csr_max_csr` -/
def elemMax [Zero T] [Add T] [BEq T] [LT T] [DecidableRel (α := T) (· < ·)] (t : IntTy) (a b : CSR T) : M (CSR T) :=
  callBin (fun t n m ap aj ax bp bj bx cp cj cx => csr_max_csr t n m ap aj ax bp bj bx cp cj cx) 0 t a b

/-- a call of `csr_min_csr` -/
def elemMin [Zero T] [Add T] [BEq T] [LT T] [DecidableRel (α := T) (· < ·)] (t : IntTy) (a b : CSR T) : M (CSR T) :=
  callBin (fun t n m ap aj ax bp bj bx cp cj cx => csr_min_csr t n m ap aj ax bp bj bx cp cj cx) 0 t a b

/-- Element-wise expressions over numbered matrices. -/
inductive ElemExpr
  | leaf (n : Nat)
  | add (e f : ElemExpr)
  | sub (e f : ElemExpr)
  | mul (e f : ElemExpr)
  | max (e f : ElemExpr)
  | min (e f : ElemExpr)

/-- The expression computed with the kernels of the crate. -/
def ElemExpr.run [Ring T] [LinearOrder T] (t : IntTy) (env : Nat → CSR T) : ElemExpr → M (CSR T)
  | .leaf n => .ok (env n)
  | .add e f => do elemAdd t (← e.run t env) (← f.run t env)
  | .sub e f => do elemSub t (← e.run t env) (← f.run t env)
  | .mul e f => do elemMul t (← e.run t env) (← f.run t env)
  | .max e f => do elemMax t (← e.run t env) (← f.run t env)
  | .min e f => do elemMin t (← e.run t env) (← f.run t env)

/-- Specification: the same expression of numbers. -/
def ElemExpr.eval [Ring T] [LinearOrder T] (v : Nat → T) : ElemExpr → T
  | .leaf n => v n
  | .add e f => e.eval v + f.eval v
  | .sub e f => e.eval v - f.eval v
  | .mul e f => e.eval v * f.eval v
  | .max e f => Max.max (e.eval v) (f.eval v)
  | .min e f => Min.min (e.eval v) (f.eval v)

/-- the number of stored entries of the operands, each counted as often as it occurs -/
def ElemExpr.size (env : Nat → CSR T) : ElemExpr → Nat
  | .leaf n => (env n).stored
  | .add e f | .sub e f | .mul e f | .max e f | .min e f => e.size env + f.size env

/-- the expression contains an operation -/
def ElemExpr.IsOp : ElemExpr → Prop
  | .leaf _ => False
  | _ => True

/-- a kernel with operator `op`, called on valid matrices -/
theorem callBin_facts [AddCommMonoid T] [DecidableEq T] {k : BinKernel T T} {op : T → T → T}
    (hk : ∀ t n m ap aj ax bp bj bx cp cj cx, k t n m ap aj ax bp bj bx cp cj cx = csr_binop_csr t n m ap aj ax bp bj bx cp cj cx op nzT)
    (h0 : op 0 0 = 0) {t : IntTy} {a b : CSR T} (ha : a.WF t) (hb : b.WF t) (hr : b.rows = a.rows) (hc : b.cols = a.cols)
    (hfit : ((a.stored + b.stored : Nat) : Int) < t.hi) :
    ∃ c, callBin k 0 t a b = .ok c ∧ c.WF t ∧ c.rows = a.rows ∧ c.cols = a.cols ∧ c.NoDup ∧
      (∀ i < c.rows, ∀ e ∈ c.row i, e.2 ≠ 0) ∧ c.stored ≤ a.stored + b.stored ∧
      ∀ i j, c.entry i j = op (a.entry i j) (b.entry i j) := by
  obtain ⟨p, j, x, h1, -, -, h2, h3, h4, -⟩ := C17_binop t op nzT a b ha hb hr hc hfit (List.replicate (a.rows + 1) 0)
    (List.replicate (a.stored + b.stored) 0) (List.replicate (a.stored + b.stored) 0) (by simp) (by simp) (by simp)
  refine ⟨⟨a.rows, a.cols, p, j, x⟩, ?_, h2, rfl, rfl, h3.1, ?_, h4, fun i j => h3.entry ha hb hr h2 rfl h0 i j⟩
  · unfold callBin
    rw [hk, h1]
    rfl
  · rintro i hi ⟨q, v⟩ he
    obtain ⟨q, rfl⟩ := Int.eq_ofNat_of_zero_le (h2.mem hi he).1
    simpa [nzT] using ((h3.2 i hi q v).1 he).2.2

/-- C103: every expression of the element-wise kernels computes the expression of the entries. -/
theorem C103_elementwise [Ring T] [LinearOrder T] (t : IntTy) (env : Nat → CSR T) (n m : Nat) (hw : ∀ k, (env k).WF t)
    (hr : ∀ k, (env k).rows = n) (hc : ∀ k, (env k).cols = m) (e : ElemExpr) (hfit : (e.size env : Int) < t.hi) :
    ∃ c, e.run t env = .ok c ∧ c.WF t ∧ c.rows = n ∧ c.cols = m ∧ c.stored ≤ e.size env ∧
      (∀ i j, c.entry i j = e.eval fun k => (env k).entry i j) ∧
      (e.IsOp → c.NoDup ∧ ∀ i < n, ∀ f ∈ c.row i, f.2 ≠ 0) := by
  induction e with
  | leaf k => exact ⟨env k, rfl, hw k, hr k, hc k, le_refl _, fun _ _ => rfl, fun h => h.elim⟩
  | add e f he hf =>
    simp only [ElemExpr.size] at hfit ⊢
    obtain ⟨a, a1, a2, a3, a4, a5, a6, -⟩ := he (by push_cast at hfit; omega)
    obtain ⟨b, b1, b2, b3, b4, b5, b6, -⟩ := hf (by push_cast at hfit; omega)
    obtain ⟨c, c1, c2, c3, c4, c5, c6, c7, c8⟩ := callBin_facts (op := fun x y => x + y) (k := fun t n m ap aj ax bp bj bx cp cj cx => csr_add_csr t n m ap aj ax bp bj bx cp cj cx)
      (fun _ _ _ _ _ _ _ _ _ _ _ _ => rfl) (by simp) a2 b2 (by omega) (by omega) (by push_cast at hfit ⊢; omega)
    refine ⟨c, by simp only [ElemExpr.run, a1, b1]; exact c1, c2, by omega, by omega, by omega, fun i j => ?_, fun _ => ⟨c5, ?_⟩⟩
    · rw [c8, a6, b6]; rfl
    · intro i hi; exact c6 i (by omega)
  | sub e f he hf =>
    simp only [ElemExpr.size] at hfit ⊢
    obtain ⟨a, a1, a2, a3, a4, a5, a6, -⟩ := he (by push_cast at hfit; omega)
    obtain ⟨b, b1, b2, b3, b4, b5, b6, -⟩ := hf (by push_cast at hfit; omega)
    obtain ⟨c, c1, c2, c3, c4, c5, c6, c7, c8⟩ := callBin_facts (op := fun x y => x - y) (k := fun t n m ap aj ax bp bj bx cp cj cx => csr_sub_csr t n m ap aj ax bp bj bx cp cj cx)
      (fun _ _ _ _ _ _ _ _ _ _ _ _ => rfl) (by simp) a2 b2 (by omega) (by omega) (by push_cast at hfit ⊢; omega)
    refine ⟨c, by simp only [ElemExpr.run, a1, b1]; exact c1, c2, by omega, by omega, by omega, fun i j => ?_, fun _ => ⟨c5, ?_⟩⟩
    · rw [c8, a6, b6]; rfl
    · intro i hi; exact c6 i (by omega)
  | mul e f he hf =>
    simp only [ElemExpr.size] at hfit ⊢
    obtain ⟨a, a1, a2, a3, a4, a5, a6, -⟩ := he (by push_cast at hfit; omega)
    obtain ⟨b, b1, b2, b3, b4, b5, b6, -⟩ := hf (by push_cast at hfit; omega)
    obtain ⟨c, c1, c2, c3, c4, c5, c6, c7, c8⟩ := callBin_facts (op := fun x y => x * y) (k := fun t n m ap aj ax bp bj bx cp cj cx => csr_mul_csr t n m ap aj ax bp bj bx cp cj cx)
      (fun _ _ _ _ _ _ _ _ _ _ _ _ => rfl) (by simp) a2 b2 (by omega) (by omega) (by push_cast at hfit ⊢; omega)
    refine ⟨c, by simp only [ElemExpr.run, a1, b1]; exact c1, c2, by omega, by omega, by omega, fun i j => ?_, fun _ => ⟨c5, ?_⟩⟩
    · rw [c8, a6, b6]; rfl
    · intro i hi; exact c6 i (by omega)
  | max e f he hf =>
    simp only [ElemExpr.size] at hfit ⊢
    obtain ⟨a, a1, a2, a3, a4, a5, a6, -⟩ := he (by push_cast at hfit; omega)
    obtain ⟨b, b1, b2, b3, b4, b5, b6, -⟩ := hf (by push_cast at hfit; omega)
    obtain ⟨c, c1, c2, c3, c4, c5, c6, c7, c8⟩ := callBin_facts (op := fun x y => if y < x then x else y) (k := fun t n m ap aj ax bp bj bx cp cj cx => csr_max_csr t n m ap aj ax bp bj bx cp cj cx)
      (fun _ _ _ _ _ _ _ _ _ _ _ _ => rfl) (by simp) a2 b2 (by omega) (by omega) (by push_cast at hfit ⊢; omega)
    refine ⟨c, by simp only [ElemExpr.run, a1, b1]; exact c1, c2, by omega, by omega, by omega, fun i j => ?_, fun _ => ⟨c5, ?_⟩⟩
    · rw [c8, a6, b6]
      simp only [ElemExpr.eval]
      split
      · rename_i hlt; rw [max_eq_left hlt.le]
      · rename_i hlt; rw [max_eq_right (not_lt.1 hlt)]
    · intro i hi; exact c6 i (by omega)
  | min e f he hf =>
    simp only [ElemExpr.size] at hfit ⊢
    obtain ⟨a, a1, a2, a3, a4, a5, a6, -⟩ := he (by push_cast at hfit; omega)
    obtain ⟨b, b1, b2, b3, b4, b5, b6, -⟩ := hf (by push_cast at hfit; omega)
    obtain ⟨c, c1, c2, c3, c4, c5, c6, c7, c8⟩ := callBin_facts (op := fun x y => if x < y then x else y) (k := fun t n m ap aj ax bp bj bx cp cj cx => csr_min_csr t n m ap aj ax bp bj bx cp cj cx)
      (fun _ _ _ _ _ _ _ _ _ _ _ _ => rfl) (by simp) a2 b2 (by omega) (by omega) (by push_cast at hfit ⊢; omega)
    refine ⟨c, by simp only [ElemExpr.run, a1, b1]; exact c1, c2, by omega, by omega, by omega, fun i j => ?_, fun _ => ⟨c5, ?_⟩⟩
    · rw [c8, a6, b6]
      simp only [ElemExpr.eval]
      split
      · rename_i hlt; rw [min_eq_left hlt.le]
      · rename_i hlt; rw [min_eq_right (not_lt.1 hlt)]
    · intro i hi; exact c6 i (by omega)

/-- C103: two expressions that agree for numbers store the same entries. -/
theorem C103_identities [Ring T] [LinearOrder T] (t : IntTy) (env : Nat → CSR T) (n m : Nat) (hw : ∀ k, (env k).WF t)
    (hr : ∀ k, (env k).rows = n) (hc : ∀ k, (env k).cols = m) (e f : ElemExpr) (he : e.IsOp) (hf : f.IsOp)
    (fe : (e.size env : Int) < t.hi) (ff : (f.size env : Int) < t.hi) (h : ∀ v : Nat → T, e.eval v = f.eval v) :
    ∃ c d, e.run t env = .ok c ∧ f.run t env = .ok d ∧ c.SameStored t d := by
  obtain ⟨c, c1, c2, c3, c4, c5, c6, c7⟩ := C103_elementwise t env n m hw hr hc e fe
  obtain ⟨d, d1, d2, d3, d4, d5, d6, d7⟩ := C103_elementwise t env n m hw hr hc f ff
  refine ⟨c, d, c1, d1, CSR.SameStored.of c2 d2 (by omega) (by omega) (by omega) (by omega) (c7 he).1 (d7 hf).1 ?_ ?_ ?_⟩
  · rw [c3]; exact (c7 he).2
  · rw [d3]; exact (d7 hf).2
  · intro i j; rw [c6, d6, h]

/-- C103: identities of ordered commutative rings hold between the stored results of the kernels: commutativity, associativity,
distributivity, the lattice laws, `max + min = a + b`, `max * min = a * b`, `a + max(b, c) = max(a + b, a + c)`, `(a - b) + b = a`. -/
theorem C103_laws [CommRing T] [LinearOrder T] [IsStrictOrderedRing T] (t : IntTy) (a b c : CSR T) (ha : a.WF t) (hb : b.WF t)
    (hc : c.WF t) (h1 : b.rows = a.rows) (h2 : b.cols = a.cols) (h3 : c.rows = a.rows) (h4 : c.cols = a.cols)
    (hfit : ((2 * a.stored + 2 * b.stored + 2 * c.stored : Nat) : Int) < t.hi) :
    (∃ r s, (elemMul t a b) = .ok r ∧ (elemMul t b a) = .ok s ∧
      r.SameStored t s) ∧
    (∃ r s, (elemMax t a b) = .ok r ∧ (elemMax t b a) = .ok s ∧
      r.SameStored t s) ∧
    (∃ r s, (elemMin t a b) = .ok r ∧ (elemMin t b a) = .ok s ∧
      r.SameStored t s) ∧
    (∃ r s, (do let x ← elemMul t a b; elemMul t x c) = .ok r ∧ (do let x ← elemMul t b c; elemMul t a x) = .ok s ∧
      r.SameStored t s) ∧
    (∃ r s, (do let x ← elemMax t a b; elemMax t x c) = .ok r ∧ (do let x ← elemMax t b c; elemMax t a x) = .ok s ∧
      r.SameStored t s) ∧
    (∃ r s, (do let x ← elemMin t a b; elemMin t x c) = .ok r ∧ (do let x ← elemMin t b c; elemMin t a x) = .ok s ∧
      r.SameStored t s) ∧
    (∃ r s, (do let x ← elemAdd t b c; elemMul t a x) = .ok r ∧ (do let x ← elemMul t a b; let y ← elemMul t a c; elemAdd t x y) = .ok s ∧
      r.SameStored t s) ∧
    (∃ r s, (do let x ← elemSub t b c; elemMul t a x) = .ok r ∧ (do let x ← elemMul t a b; let y ← elemMul t a c; elemSub t x y) = .ok s ∧
      r.SameStored t s) ∧
    (∃ r s, (do let x ← elemMax t a b; let y ← elemMin t a b; elemAdd t x y) = .ok r ∧ (elemAdd t a b) = .ok s ∧
      r.SameStored t s) ∧
    (∃ r s, (do let x ← elemMax t a b; let y ← elemMin t a b; elemMul t x y) = .ok r ∧ (elemMul t a b) = .ok s ∧
      r.SameStored t s) ∧
    (∃ r s, (do let x ← elemMin t b c; elemMax t a x) = .ok r ∧ (do let x ← elemMax t a b; let y ← elemMax t a c; elemMin t x y) = .ok s ∧
      r.SameStored t s) ∧
    (∃ r s, (do let x ← elemMax t b c; elemMin t a x) = .ok r ∧ (do let x ← elemMin t a b; let y ← elemMin t a c; elemMax t x y) = .ok s ∧
      r.SameStored t s) ∧
    (∃ r s, (do let x ← elemMin t a b; elemMax t a x) = .ok r ∧ (elemMax t a a) = .ok s ∧
      r.SameStored t s) ∧
    (∃ r s, (do let x ← elemMax t b c; elemAdd t a x) = .ok r ∧ (do let x ← elemAdd t a b; let y ← elemAdd t a c; elemMax t x y) = .ok s ∧
      r.SameStored t s) ∧
    (∃ r s, (do let x ← elemSub t a b; elemAdd t x b) = .ok r ∧ (elemMax t a a) = .ok s ∧
      r.SameStored t s) := by
  have key := fun e f he hf fe ff h => C103_identities t (fun k => if k = 0 then a else if k = 1 then b else c) a.rows a.cols
    (fun k => by split; exact ha; split; exact hb; exact hc)
    (fun k => by split; rfl; split; exact h1; exact h3)
    (fun k => by split; rfl; split; exact h2; exact h4) e f he hf fe ff h
  refine ⟨?_, ?_, ?_, ?_, ?_, ?_, ?_, ?_, ?_, ?_, ?_, ?_, ?_, ?_, ?_⟩
  · exact key (.mul (.leaf 0) (.leaf 1)) (.mul (.leaf 1) (.leaf 0)) trivial trivial
      (by simp only [ElemExpr.size]; push_cast at hfit ⊢; omega) (by simp only [ElemExpr.size]; push_cast at hfit ⊢; omega)
      fun v => mul_comm _ _
  · exact key (.max (.leaf 0) (.leaf 1)) (.max (.leaf 1) (.leaf 0)) trivial trivial
      (by simp only [ElemExpr.size]; push_cast at hfit ⊢; omega) (by simp only [ElemExpr.size]; push_cast at hfit ⊢; omega)
      fun v => max_comm _ _
  · exact key (.min (.leaf 0) (.leaf 1)) (.min (.leaf 1) (.leaf 0)) trivial trivial
      (by simp only [ElemExpr.size]; push_cast at hfit ⊢; omega) (by simp only [ElemExpr.size]; push_cast at hfit ⊢; omega)
      fun v => min_comm _ _
  · exact key (.mul (.mul (.leaf 0) (.leaf 1)) (.leaf 2)) (.mul (.leaf 0) (.mul (.leaf 1) (.leaf 2))) trivial trivial
      (by simp only [ElemExpr.size]; push_cast at hfit ⊢; omega) (by simp only [ElemExpr.size]; push_cast at hfit ⊢; omega)
      fun v => mul_assoc _ _ _
  · exact key (.max (.max (.leaf 0) (.leaf 1)) (.leaf 2)) (.max (.leaf 0) (.max (.leaf 1) (.leaf 2))) trivial trivial
      (by simp only [ElemExpr.size]; push_cast at hfit ⊢; omega) (by simp only [ElemExpr.size]; push_cast at hfit ⊢; omega)
      fun v => max_assoc _ _ _
  · exact key (.min (.min (.leaf 0) (.leaf 1)) (.leaf 2)) (.min (.leaf 0) (.min (.leaf 1) (.leaf 2))) trivial trivial
      (by simp only [ElemExpr.size]; push_cast at hfit ⊢; omega) (by simp only [ElemExpr.size]; push_cast at hfit ⊢; omega)
      fun v => min_assoc _ _ _
  · exact key (.mul (.leaf 0) (.add (.leaf 1) (.leaf 2))) (.add (.mul (.leaf 0) (.leaf 1)) (.mul (.leaf 0) (.leaf 2))) trivial trivial
      (by simp only [ElemExpr.size]; push_cast at hfit ⊢; omega) (by simp only [ElemExpr.size]; push_cast at hfit ⊢; omega)
      fun v => mul_add _ _ _
  · exact key (.mul (.leaf 0) (.sub (.leaf 1) (.leaf 2))) (.sub (.mul (.leaf 0) (.leaf 1)) (.mul (.leaf 0) (.leaf 2))) trivial trivial
      (by simp only [ElemExpr.size]; push_cast at hfit ⊢; omega) (by simp only [ElemExpr.size]; push_cast at hfit ⊢; omega)
      fun v => mul_sub _ _ _
  · exact key (.add (.max (.leaf 0) (.leaf 1)) (.min (.leaf 0) (.leaf 1))) (.add (.leaf 0) (.leaf 1)) trivial trivial
      (by simp only [ElemExpr.size]; push_cast at hfit ⊢; omega) (by simp only [ElemExpr.size]; push_cast at hfit ⊢; omega)
      fun v => max_add_min _ _
  · exact key (.mul (.max (.leaf 0) (.leaf 1)) (.min (.leaf 0) (.leaf 1))) (.mul (.leaf 0) (.leaf 1)) trivial trivial
      (by simp only [ElemExpr.size]; push_cast at hfit ⊢; omega) (by simp only [ElemExpr.size]; push_cast at hfit ⊢; omega)
      fun v => max_mul_min _ _
  · exact key (.max (.leaf 0) (.min (.leaf 1) (.leaf 2))) (.min (.max (.leaf 0) (.leaf 1)) (.max (.leaf 0) (.leaf 2))) trivial trivial
      (by simp only [ElemExpr.size]; push_cast at hfit ⊢; omega) (by simp only [ElemExpr.size]; push_cast at hfit ⊢; omega)
      fun v => max_min_distrib_left _ _ _
  · exact key (.min (.leaf 0) (.max (.leaf 1) (.leaf 2))) (.max (.min (.leaf 0) (.leaf 1)) (.min (.leaf 0) (.leaf 2))) trivial trivial
      (by simp only [ElemExpr.size]; push_cast at hfit ⊢; omega) (by simp only [ElemExpr.size]; push_cast at hfit ⊢; omega)
      fun v => min_max_distrib_left _ _ _
  · exact key (.max (.leaf 0) (.min (.leaf 0) (.leaf 1))) (.max (.leaf 0) (.leaf 0)) trivial trivial
      (by simp only [ElemExpr.size]; push_cast at hfit ⊢; omega) (by simp only [ElemExpr.size]; push_cast at hfit ⊢; omega)
      fun v => by simp [ElemExpr.eval]
  · exact key (.add (.leaf 0) (.max (.leaf 1) (.leaf 2))) (.max (.add (.leaf 0) (.leaf 1)) (.add (.leaf 0) (.leaf 2))) trivial trivial
      (by simp only [ElemExpr.size]; push_cast at hfit ⊢; omega) (by simp only [ElemExpr.size]; push_cast at hfit ⊢; omega)
      fun v => (max_add_add_left _ _ _).symm
  · exact key (.add (.sub (.leaf 0) (.leaf 1)) (.leaf 1)) (.max (.leaf 0) (.leaf 0)) trivial trivial
      (by simp only [ElemExpr.size]; push_cast at hfit ⊢; omega) (by simp only [ElemExpr.size]; push_cast at hfit ⊢; omega)
      fun v => by simp [ElemExpr.eval]
/-- a call of `csr_ne_csr` -/
def elemNe [Zero T] [Add T] [BEq T] (t : IntTy) (a b : CSR T) : M (CSR Bool) :=
  callBin (fun t n m ap aj ax bp bj bx cp cj cx => csr_ne_csr t n m ap aj ax bp bj bx cp cj cx) false t a b

/-- a call of `csr_eq_csr` -/
def elemEq [Zero T] [Add T] [BEq T] (t : IntTy) (a b : CSR T) : M (CSR Bool) :=
  callBin (fun t n m ap aj ax bp bj bx cp cj cx => csr_eq_csr t n m ap aj ax bp bj bx cp cj cx) false t a b

/-- a call of `csr_lt_csr` -/
def elemLt [Zero T] [Add T] [BEq T] [LT T] [DecidableRel (α := T) (· < ·)] (t : IntTy) (a b : CSR T) : M (CSR Bool) :=
  callBin (fun t n m ap aj ax bp bj bx cp cj cx => csr_lt_csr t n m ap aj ax bp bj bx cp cj cx) false t a b

/-- a call of `csr_le_csr` -/
def elemLe [Zero T] [Add T] [BEq T] [LE T] [DecidableRel (α := T) (· ≤ ·)] (t : IntTy) (a b : CSR T) : M (CSR Bool) :=
  callBin (fun t n m ap aj ax bp bj bx cp cj cx => csr_le_csr t n m ap aj ax bp bj bx cp cj cx) false t a b

/-- a call of `csr_gt_csr` -/
def elemGt [Zero T] [Add T] [BEq T] [LT T] [DecidableRel (α := T) (· < ·)] (t : IntTy) (a b : CSR T) : M (CSR Bool) :=
  callBin (fun t n m ap aj ax bp bj bx cp cj cx => csr_gt_csr t n m ap aj ax bp bj bx cp cj cx) false t a b

/-- a call of `csr_ge_csr` -/
def elemGe [Zero T] [Add T] [BEq T] [LE T] [DecidableRel (α := T) (· ≤ ·)] (t : IntTy) (a b : CSR T) : M (CSR Bool) :=
  callBin (fun t n m ap aj ax bp bj bx cp cj cx => csr_ge_csr t n m ap aj ax bp bj bx cp cj cx) false t a b

/-- Specification: position `(i, j)` is stored in one of the two matrices. -/
def StoredIn (a b : CSR T) (i j : Nat) : Prop :=
  ∃ v, ((i : Int), (j : Int), v) ∈ a.triples ∨ ((i : Int), (j : Int), v) ∈ b.triples

theorem StoredIn.swap {a b : CSR T} {i j : Nat} : StoredIn b a i j ↔ StoredIn a b i j := by
  unfold StoredIn
  simp only [or_comm]

theorem callBin_compare [AddCommMonoid T] {k : BinKernel T Bool} {op : T → T → Bool} {cmp : T → T → Prop}
    (hk : ∀ t n m ap aj ax bp bj bx cp cj cx, k t n m ap aj ax bp bj bx cp cj cx = csr_binop_csr t n m ap aj ax bp bj bx cp cj cx op nzB)
    (hop : ∀ x y, op x y = true ↔ cmp x y) {t : IntTy} {a b : CSR T} (ha : a.WF t) (hb : b.WF t) (hr : b.rows = a.rows)
    (hc : b.cols = a.cols) (hfit : ((a.stored + b.stored : Nat) : Int) < t.hi) :
    ∃ c, callBin k false t a b = .ok c ∧ c.NoDup ∧
      ∀ e, e ∈ c.triples ↔ ∃ i k : Nat, e = ((i : Int), (k : Int), true) ∧ StoredIn a b i k ∧ cmp (a.entry i k) (b.entry i k) := by
  obtain ⟨p, j, x, h1, -, -, h2, h3, h4, -⟩ := C17_binop t op nzB a b ha hb hr hc hfit (List.replicate (a.rows + 1) 0)
    (List.replicate (a.stored + b.stored) 0) (List.replicate (a.stored + b.stored) false) (by simp) (by simp) (by simp)
  have h5 := h3.compare hop
  have hs : ∀ i k : Nat, StoredIn a b i k ↔ a.has i k ∨ b.has i k := by
    intro i k
    rw [ha.has_triples, hb.has_triples]
    unfold StoredIn
    rw [exists_or]
  refine ⟨⟨a.rows, a.cols, p, j, x⟩, ?_, h3.1, fun e => ?_⟩
  · unfold callBin
    rw [hk, h1]
    rfl
  · constructor
    · intro he
      unfold CSR.triples at he
      obtain ⟨i, hi, he⟩ := List.mem_flatMap.1 he
      obtain ⟨⟨f1, f2⟩, hf, rfl⟩ := List.mem_map.1 he
      have hi := List.mem_range.1 hi
      obtain ⟨q, rfl⟩ := Int.eq_ofNat_of_zero_le (h2.mem hi hf).1
      obtain ⟨g1, g2⟩ := h5.2 i hi q
      cases f2
      · exact absurd hf g2
      · obtain ⟨u1, u2⟩ := g1.1 hf
        exact ⟨i, q, rfl, (hs i q).2 u1, u2⟩
    · rintro ⟨i, q, rfl, u1, u2⟩
      have hu := (hs i q).1 u1
      have hi : i < a.rows := by
        rcases hu with hu | hu
        · exact ha.has_rows hu
        · have := hb.has_rows hu; omega
      exact (h2.mem_triples (i := i) (e := ((q : Int), true)) hi).1 ((h5.2 i hi q).1.2 ⟨hu, u2⟩)

/-- C103: the six comparison kernels on the same operands. At every position stored in an operand exactly one of `lt`, `eq`, `gt` reports
true; `ne` is `lt` or `gt`, `le` is `lt` or `eq`, `ge` is `gt` or `eq`; at positions stored in no operand nothing is reported; all values
stored are true, no position is stored twice; exchanging the operands exchanges `lt` and `gt`, `le` and `ge`, and keeps `eq` and `ne`. -/
theorem C103_comparisons [AddCommMonoid T] [LinearOrder T] (t : IntTy) (a b : CSR T) (ha : a.WF t) (hb : b.WF t)
    (hr : b.rows = a.rows) (hc : b.cols = a.cols) (hfit : ((a.stored + b.stored : Nat) : Int) < t.hi) :
    ∃ lt eq gt ne le ge lt' eq' gt' ne' le' ge', elemLt t a b = .ok lt ∧ elemEq t a b = .ok eq ∧ elemGt t a b = .ok gt ∧
      elemNe t a b = .ok ne ∧ elemLe t a b = .ok le ∧ elemGe t a b = .ok ge ∧
      elemLt t b a = .ok lt' ∧ elemEq t b a = .ok eq' ∧ elemGt t b a = .ok gt' ∧
      elemNe t b a = .ok ne' ∧ elemLe t b a = .ok le' ∧ elemGe t b a = .ok ge' ∧
      (∀ c ∈ [lt, eq, gt, ne, le, ge, lt', eq', gt', ne', le', ge'], c.NoDup ∧ (∀ e ∈ c.triples, e.2.2 = true) ∧
        ∀ e ∈ c.triples, ∃ i j : Nat, e.1 = (i : Int) ∧ e.2.1 = (j : Int) ∧ StoredIn a b i j) ∧
      (∀ i j : Nat, StoredIn a b i j →
        ((i : Int), (j : Int), true) ∈ lt.triples ∧ ((i : Int), (j : Int), true) ∉ eq.triples ∧ ((i : Int), (j : Int), true) ∉ gt.triples ∨
        ((i : Int), (j : Int), true) ∉ lt.triples ∧ ((i : Int), (j : Int), true) ∈ eq.triples ∧ ((i : Int), (j : Int), true) ∉ gt.triples ∨
        ((i : Int), (j : Int), true) ∉ lt.triples ∧ ((i : Int), (j : Int), true) ∉ eq.triples ∧ ((i : Int), (j : Int), true) ∈ gt.triples) ∧
      (∀ e, (e ∈ ne.triples ↔ e ∈ lt.triples ∨ e ∈ gt.triples) ∧ (e ∈ le.triples ↔ e ∈ lt.triples ∨ e ∈ eq.triples) ∧
        (e ∈ ge.triples ↔ e ∈ gt.triples ∨ e ∈ eq.triples)) ∧
      (∀ e, (e ∈ lt'.triples ↔ e ∈ gt.triples) ∧ (e ∈ gt'.triples ↔ e ∈ lt.triples) ∧ (e ∈ le'.triples ↔ e ∈ ge.triples) ∧
        (e ∈ ge'.triples ↔ e ∈ le.triples) ∧ (e ∈ eq'.triples ↔ e ∈ eq.triples) ∧ (e ∈ ne'.triples ↔ e ∈ ne.triples)) := by
  have hfit' : ((b.stored + a.stored : Nat) : Int) < t.hi := by rw [Nat.add_comm]; exact hfit
  obtain ⟨lt, lt1, lt2, lt3⟩ := callBin_compare (op := fun x y => decide (x < y)) (cmp := fun x y => x < y)
    (k := fun t n m ap aj ax bp bj bx cp cj cx => csr_lt_csr t n m ap aj ax bp bj bx cp cj cx) (fun _ _ _ _ _ _ _ _ _ _ _ _ => rfl) (by simp) ha hb hr hc hfit
  obtain ⟨eq, eq1, eq2, eq3⟩ := callBin_compare (op := fun x y => x == y) (cmp := fun x y => x = y)
    (k := fun t n m ap aj ax bp bj bx cp cj cx => csr_eq_csr t n m ap aj ax bp bj bx cp cj cx) (fun _ _ _ _ _ _ _ _ _ _ _ _ => rfl) (by simp) ha hb hr hc hfit
  obtain ⟨gt, gt1, gt2, gt3⟩ := callBin_compare (op := fun x y => decide (y < x)) (cmp := fun x y => x > y)
    (k := fun t n m ap aj ax bp bj bx cp cj cx => csr_gt_csr t n m ap aj ax bp bj bx cp cj cx) (fun _ _ _ _ _ _ _ _ _ _ _ _ => rfl) (by simp) ha hb hr hc hfit
  obtain ⟨ne, ne1, ne2, ne3⟩ := callBin_compare (op := fun x y => x != y) (cmp := fun x y => x ≠ y)
    (k := fun t n m ap aj ax bp bj bx cp cj cx => csr_ne_csr t n m ap aj ax bp bj bx cp cj cx) (fun _ _ _ _ _ _ _ _ _ _ _ _ => rfl) (by simp) ha hb hr hc hfit
  obtain ⟨le, le1, le2, le3⟩ := callBin_compare (op := fun x y => decide (x ≤ y)) (cmp := fun x y => x ≤ y)
    (k := fun t n m ap aj ax bp bj bx cp cj cx => csr_le_csr t n m ap aj ax bp bj bx cp cj cx) (fun _ _ _ _ _ _ _ _ _ _ _ _ => rfl) (by simp) ha hb hr hc hfit
  obtain ⟨ge, ge1, ge2, ge3⟩ := callBin_compare (op := fun x y => decide (y ≤ x)) (cmp := fun x y => x ≥ y)
    (k := fun t n m ap aj ax bp bj bx cp cj cx => csr_ge_csr t n m ap aj ax bp bj bx cp cj cx) (fun _ _ _ _ _ _ _ _ _ _ _ _ => rfl) (by simp) ha hb hr hc hfit
  obtain ⟨lt', lt'1, lt'2, lt'3⟩ := callBin_compare (op := fun x y => decide (x < y)) (cmp := fun x y => x < y)
    (k := fun t n m ap aj ax bp bj bx cp cj cx => csr_lt_csr t n m ap aj ax bp bj bx cp cj cx) (fun _ _ _ _ _ _ _ _ _ _ _ _ => rfl) (by simp) hb ha hr.symm hc.symm hfit'
  obtain ⟨eq', eq'1, eq'2, eq'3⟩ := callBin_compare (op := fun x y => x == y) (cmp := fun x y => x = y)
    (k := fun t n m ap aj ax bp bj bx cp cj cx => csr_eq_csr t n m ap aj ax bp bj bx cp cj cx) (fun _ _ _ _ _ _ _ _ _ _ _ _ => rfl) (by simp) hb ha hr.symm hc.symm hfit'
  obtain ⟨gt', gt'1, gt'2, gt'3⟩ := callBin_compare (op := fun x y => decide (y < x)) (cmp := fun x y => x > y)
    (k := fun t n m ap aj ax bp bj bx cp cj cx => csr_gt_csr t n m ap aj ax bp bj bx cp cj cx) (fun _ _ _ _ _ _ _ _ _ _ _ _ => rfl) (by simp) hb ha hr.symm hc.symm hfit'
  obtain ⟨ne', ne'1, ne'2, ne'3⟩ := callBin_compare (op := fun x y => x != y) (cmp := fun x y => x ≠ y)
    (k := fun t n m ap aj ax bp bj bx cp cj cx => csr_ne_csr t n m ap aj ax bp bj bx cp cj cx) (fun _ _ _ _ _ _ _ _ _ _ _ _ => rfl) (by simp) hb ha hr.symm hc.symm hfit'
  obtain ⟨le', le'1, le'2, le'3⟩ := callBin_compare (op := fun x y => decide (x ≤ y)) (cmp := fun x y => x ≤ y)
    (k := fun t n m ap aj ax bp bj bx cp cj cx => csr_le_csr t n m ap aj ax bp bj bx cp cj cx) (fun _ _ _ _ _ _ _ _ _ _ _ _ => rfl) (by simp) hb ha hr.symm hc.symm hfit'
  obtain ⟨ge', ge'1, ge'2, ge'3⟩ := callBin_compare (op := fun x y => decide (y ≤ x)) (cmp := fun x y => x ≥ y)
    (k := fun t n m ap aj ax bp bj bx cp cj cx => csr_ge_csr t n m ap aj ax bp bj bx cp cj cx) (fun _ _ _ _ _ _ _ _ _ _ _ _ => rfl) (by simp) hb ha hr.symm hc.symm hfit'
  have lt4 : ∀ e, e ∈ lt'.triples ↔ ∃ i k : Nat, e = ((i : Int), (k : Int), true) ∧ StoredIn a b i k ∧ a.entry i k > b.entry i k := by
    intro e
    rw [lt'3]
    simp only [StoredIn.swap, gt_iff_lt]
  have eq4 : ∀ e, e ∈ eq'.triples ↔ ∃ i k : Nat, e = ((i : Int), (k : Int), true) ∧ StoredIn a b i k ∧ a.entry i k = b.entry i k := by
    intro e
    rw [eq'3]
    simp only [StoredIn.swap, eq_comm (a := b.entry _ _)]
  have gt4 : ∀ e, e ∈ gt'.triples ↔ ∃ i k : Nat, e = ((i : Int), (k : Int), true) ∧ StoredIn a b i k ∧ a.entry i k < b.entry i k := by
    intro e
    rw [gt'3]
    simp only [StoredIn.swap, gt_iff_lt]
  have ne4 : ∀ e, e ∈ ne'.triples ↔ ∃ i k : Nat, e = ((i : Int), (k : Int), true) ∧ StoredIn a b i k ∧ a.entry i k ≠ b.entry i k := by
    intro e
    rw [ne'3]
    simp only [StoredIn.swap, ne_comm (a := b.entry _ _)]
  have le4 : ∀ e, e ∈ le'.triples ↔ ∃ i k : Nat, e = ((i : Int), (k : Int), true) ∧ StoredIn a b i k ∧ a.entry i k ≥ b.entry i k := by
    intro e
    rw [le'3]
    simp only [StoredIn.swap, ge_iff_le]
  have ge4 : ∀ e, e ∈ ge'.triples ↔ ∃ i k : Nat, e = ((i : Int), (k : Int), true) ∧ StoredIn a b i k ∧ a.entry i k ≤ b.entry i k := by
    intro e
    rw [ge'3]
    simp only [StoredIn.swap, ge_iff_le]
  have hin : ∀ (c : CSR Bool) (cmp : T → T → Prop), (∀ e, e ∈ c.triples ↔ ∃ i k : Nat, e = ((i : Int), (k : Int), true) ∧ StoredIn a b i k ∧
      cmp (a.entry i k) (b.entry i k)) → (∀ e ∈ c.triples, e.2.2 = true) ∧
        ∀ e ∈ c.triples, ∃ i j : Nat, e.1 = (i : Int) ∧ e.2.1 = (j : Int) ∧ StoredIn a b i j := by
    intro c cmp h
    refine ⟨fun e he => ?_, fun e he => ?_⟩
    · obtain ⟨i, k, rfl, -⟩ := (h e).1 he; rfl
    · obtain ⟨i, k, rfl, hs, -⟩ := (h e).1 he; exact ⟨i, k, rfl, rfl, hs⟩
  have hat : ∀ (c : CSR Bool) (cmp : T → T → Prop), (∀ e, e ∈ c.triples ↔ ∃ i k : Nat, e = ((i : Int), (k : Int), true) ∧ StoredIn a b i k ∧
      cmp (a.entry i k) (b.entry i k)) → ∀ i j : Nat, StoredIn a b i j →
      (((i : Int), (j : Int), true) ∈ c.triples ↔ cmp (a.entry i j) (b.entry i j)) := by
    intro c cmp h i j hs
    rw [h]
    constructor
    · rintro ⟨i', k', he, -, hc⟩
      simp only [Prod.mk.injEq, Int.natCast_inj] at he
      obtain ⟨rfl, rfl, -⟩ := he
      exact hc
    · intro hc; exact ⟨i, j, rfl, hs, hc⟩
  have hor : ∀ (c d e : CSR Bool) (c1 c2 c3 : T → T → Prop),
      (∀ e, e ∈ c.triples ↔ ∃ i k : Nat, e = ((i : Int), (k : Int), true) ∧ StoredIn a b i k ∧ c1 (a.entry i k) (b.entry i k)) →
      (∀ e, e ∈ d.triples ↔ ∃ i k : Nat, e = ((i : Int), (k : Int), true) ∧ StoredIn a b i k ∧ c2 (a.entry i k) (b.entry i k)) →
      (∀ f, f ∈ e.triples ↔ ∃ i k : Nat, f = ((i : Int), (k : Int), true) ∧ StoredIn a b i k ∧ c3 (a.entry i k) (b.entry i k)) →
      (∀ x y, c1 x y ↔ c2 x y ∨ c3 x y) → ∀ f, f ∈ c.triples ↔ f ∈ d.triples ∨ f ∈ e.triples := by
    intro c d e c1 c2 c3 h1 h2 h3 h f
    rw [h1, h2, h3]
    constructor
    · rintro ⟨i, k, rfl, hs, hc⟩
      rcases (h _ _).1 hc with hc | hc
      · exact .inl ⟨i, k, rfl, hs, hc⟩
      · exact .inr ⟨i, k, rfl, hs, hc⟩
    · rintro (⟨i, k, rfl, hs, hc⟩ | ⟨i, k, rfl, hs, hc⟩)
      · exact ⟨i, k, rfl, hs, (h _ _).2 (.inl hc)⟩
      · exact ⟨i, k, rfl, hs, (h _ _).2 (.inr hc)⟩
  refine ⟨lt, eq, gt, ne, le, ge, lt', eq', gt', ne', le', ge', lt1, eq1, gt1, ne1, le1, ge1, lt'1, eq'1, gt'1, ne'1, le'1, ge'1, ?_, ?_, ?_, ?_⟩
  · intro c hc
    simp only [List.mem_cons, List.not_mem_nil, or_false] at hc
    rcases hc with rfl | rfl | rfl | rfl | rfl | rfl | rfl | rfl | rfl | rfl | rfl | rfl
    · exact ⟨lt2, hin _ (· < ·) lt3⟩
    · exact ⟨eq2, hin _ (· = ·) eq3⟩
    · exact ⟨gt2, hin _ (· > ·) gt3⟩
    · exact ⟨ne2, hin _ (· ≠ ·) ne3⟩
    · exact ⟨le2, hin _ (· ≤ ·) le3⟩
    · exact ⟨ge2, hin _ (· ≥ ·) ge3⟩
    · exact ⟨lt'2, hin _ (· > ·) lt4⟩
    · exact ⟨eq'2, hin _ (· = ·) eq4⟩
    · exact ⟨gt'2, hin _ (· < ·) gt4⟩
    · exact ⟨ne'2, hin _ (· ≠ ·) ne4⟩
    · exact ⟨le'2, hin _ (· ≥ ·) le4⟩
    · exact ⟨ge'2, hin _ (· ≤ ·) ge4⟩
  · intro i j hs
    rw [hat lt (· < ·) lt3 i j hs, hat eq (· = ·) eq3 i j hs, hat gt (· > ·) gt3 i j hs]
    rcases lt_trichotomy (a.entry i j) (b.entry i j) with h | h | h
    · exact .inl ⟨h, h.ne, h.not_gt⟩
    · exact .inr (.inl ⟨h.not_lt, h, h.not_gt⟩)
    · exact .inr (.inr ⟨h.not_gt, h.ne', h⟩)
  · intro e
    exact ⟨hor ne lt gt (· ≠ ·) (· < ·) (· > ·) ne3 lt3 gt3 (fun x y => lt_or_lt_iff_ne.symm) e,
      hor le lt eq (· ≤ ·) (· < ·) (· = ·) le3 lt3 eq3 (fun x y => le_iff_lt_or_eq) e,
      hor ge gt eq (· ≥ ·) (· > ·) (· = ·) ge3 gt3 eq3 (fun x y => by rw [ge_iff_le, le_iff_lt_or_eq, eq_comm]) e⟩
  · intro e
    rw [lt4, gt4, le4, ge4, eq4, ne4, lt3, gt3, le3, ge3, eq3, ne3]
    exact ⟨Iff.rfl, Iff.rfl, Iff.rfl, Iff.rfl, Iff.rfl, Iff.rfl⟩

/-- a call of `csr_div_csr` -/
def elemDiv [Zero T] [Add T] [Div T] [BEq T] (t : IntTy) (a b : CSR T) : M (CSR T) :=
  callBin (fun t n m ap aj ax bp bj bx cp cj cx => csr_div_csr t n m ap aj ax bp bj bx cp cj cx) 0 t a b

/-- C103: if no divisor is zero (the entry of `b` is not zero at the positions stored in an operand) the quotient times the divisor is the
dividend, and the quotient of the product is the dividend. The entries `a` denotes are compared without stored zeros (`max(a, a)`). -/
theorem C103_division [Field T] [LinearOrder T] (t : IntTy) (a b : CSR T) (ha : a.WF t) (hb : b.WF t)
    (hr : b.rows = a.rows) (hc : b.cols = a.cols) (hfit : ((2 * a.stored + 2 * b.stored : Nat) : Int) < t.hi)
    (hz : ∀ i j, StoredIn a b i j → b.entry i j ≠ 0) :
    ∃ r s u, (do let x ← elemDiv t a b; elemMul t x b) = .ok r ∧ (do let x ← elemMul t a b; elemDiv t x b) = .ok s ∧
      elemMax t a a = .ok u ∧ r.SameStored t u ∧ s.SameStored t u := by
  obtain ⟨q, q1, q2, q3, q4, -, -, q5, q6⟩ := callBin_facts (op := fun x y => x / y)
    (k := fun t n m ap aj ax bp bj bx cp cj cx => csr_div_csr t n m ap aj ax bp bj bx cp cj cx)
    (fun _ _ _ _ _ _ _ _ _ _ _ _ => rfl) (by simp) ha hb hr hc (by push_cast at hfit ⊢; omega)
  obtain ⟨p, p1, p2, p3, p4, -, -, p5, p6⟩ := callBin_facts (op := fun x y => x * y)
    (k := fun t n m ap aj ax bp bj bx cp cj cx => csr_mul_csr t n m ap aj ax bp bj bx cp cj cx)
    (fun _ _ _ _ _ _ _ _ _ _ _ _ => rfl) (by simp) ha hb hr hc (by push_cast at hfit ⊢; omega)
  obtain ⟨r, r1, r2, r3, r4, r5, r6, r7, r8⟩ := callBin_facts (op := fun x y => x * y)
    (k := fun t n m ap aj ax bp bj bx cp cj cx => csr_mul_csr t n m ap aj ax bp bj bx cp cj cx)
    (fun _ _ _ _ _ _ _ _ _ _ _ _ => rfl) (by simp) q2 hb (by omega) (by omega) (by push_cast at hfit ⊢; omega)
  obtain ⟨s, s1, s2, s3, s4, s5, s6, s7, s8⟩ := callBin_facts (op := fun x y => x / y)
    (k := fun t n m ap aj ax bp bj bx cp cj cx => csr_div_csr t n m ap aj ax bp bj bx cp cj cx)
    (fun _ _ _ _ _ _ _ _ _ _ _ _ => rfl) (by simp) p2 hb (by omega) (by omega) (by push_cast at hfit ⊢; omega)
  obtain ⟨u, u1, u2, u3, u4, u5, u6, u7, u8⟩ := callBin_facts (op := fun x y => if y < x then x else y)
    (k := fun t n m ap aj ax bp bj bx cp cj cx => csr_max_csr t n m ap aj ax bp bj bx cp cj cx)
    (fun _ _ _ _ _ _ _ _ _ _ _ _ => rfl) (by simp) ha ha rfl rfl (by push_cast at hfit ⊢; omega)
  have ez : ∀ i j, b.entry i j = 0 → a.entry i j = 0 := by
    intro i j h0
    by_contra hne
    have hh : a.has i j := by
      by_contra hn
      rw [has_iff] at hn
      exact hne (rowSum_eq_zero fun e he hk => absurd ⟨e, he, hk⟩ hn)
    obtain ⟨v, hv⟩ := ha.has_triples.1 hh
    exact hz i j ⟨v, .inl hv⟩ h0
  refine ⟨r, s, u, ?_, ?_, u1, CSR.SameStored.of r2 u2 (by omega) (by omega) ?_ ?_ r5 u5 r6 u6 ?_,
    CSR.SameStored.of s2 u2 (by omega) (by omega) ?_ ?_ s5 u5 s6 u6 ?_⟩
  · unfold elemDiv
    rw [q1]
    exact r1
  · unfold elemMul
    rw [p1]
    exact s1
  · push_cast at hfit ⊢; omega
  · push_cast at hfit ⊢; omega
  · intro i j
    rw [r8, q6, u8]
    simp only [lt_self_iff_false, if_false]
    by_cases h0 : b.entry i j = 0
    · rw [h0, mul_zero, ez i j h0]
    · rw [div_mul_cancel₀ _ h0]
  · push_cast at hfit ⊢; omega
  · push_cast at hfit ⊢; omega
  · intro i j
    rw [s8, p6, u8]
    simp only [lt_self_iff_false, if_false]
    by_cases h0 : b.entry i j = 0
    · rw [h0, mul_zero, ez i j h0, zero_div]
    · rw [mul_div_cancel_right₀ _ h0]

/-! The hypotheses are met by matrices with unordered and repeated entries and stored zeros. -/

example : ∃ a b c : CSR Int, a.WF .i8 ∧ b.WF .i8 ∧ c.WF .i8 ∧ b.rows = a.rows ∧ b.cols = a.cols ∧ c.rows = a.rows ∧ c.cols = a.cols ∧
    ((2 * a.stored + 2 * b.stored + 2 * c.stored : Nat) : Int) < IntTy.i8.hi ∧ a.entry 0 1 = 12 ∧ b.entry 1 0 = -4 ∧ c.entry 0 1 = 0 :=
  ⟨⟨2, 2, [0, 2, 2], [1, 1], [5, 7]⟩, ⟨2, 2, [0, 1, 3], [0, 1, 0], [1, 2, -4]⟩, ⟨2, 2, [0, 1, 1], [1], [0]⟩,
    CSR.wf_of (by decide), CSR.wf_of (by decide), CSR.wf_of (by decide), rfl, rfl, rfl, rfl, by decide, by decide, by decide, by decide⟩

example : ∃ a b : CSR ℚ, a.WF .i8 ∧ b.WF .i8 ∧ b.rows = a.rows ∧ b.cols = a.cols ∧
    ((2 * a.stored + 2 * b.stored : Nat) : Int) < IntTy.i8.hi ∧ (∀ i j, StoredIn a b i j → b.entry i j ≠ 0) ∧ a.entry 0 1 = 12 := by
  refine ⟨⟨1, 2, [0, 2], [1, 1], [5, 7]⟩, ⟨1, 2, [0, 2], [1, 0], [2, 3]⟩, CSR.wf_of (by decide), CSR.wf_of (by decide), rfl, rfl, by decide,
    ?_, by decide +kernel⟩
  rintro i j ⟨v, h⟩
  have h1 : i = 0 ∧ (j = 0 ∨ j = 1) := by
    rcases h with h | h <;> simp [CSR.triples, CSR.row, rowOf] at h <;> omega
  obtain ⟨rfl, rfl | rfl⟩ := h1 <;> decide +kernel

end

end Sparse

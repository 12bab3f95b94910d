import Verif.Props.Backward
import Verif.Props.GraphLaws
import Verif.Props.Blocks
/-!
C110: rounding errors of whole programs of CSR matrices. A program computes with floating-point numbers `F`; the exact program
computes the same expression with the numbers they stand for.
-/
open scoped BigOperators
namespace Sparse

/-- A program: given matrices, sums, differences, products, multiples. -/
inductive FProg (F : Type)
  | given (a : CSR F)
  | add (p q : FProg F)
  | sub (p q : FProg F)
  | mul (p q : FProg F)
  | scale (p : FProg F) (s : F)

namespace FProg
variable {F K : Type}

/-- number of rows of the result -/
def rows : FProg F → Nat
  | given a => a.rows
  | add p _ => p.rows
  | sub p _ => p.rows
  | mul p _ => p.rows
  | scale p _ => p.rows

/-- number of columns of the result -/
def cols : FProg F → Nat
  | given a => a.cols
  | add p _ => p.cols
  | sub p _ => p.cols
  | mul _ q => q.cols
  | scale p _ => p.cols

/-- The given matrices are valid and store no position twice, the shapes fit, and the number of cells of every result (twice, for
sums and differences) fits the index type. -/
def Fits (t : IntTy) : FProg F → Prop
  | given a => a.WF t ∧ a.NoDup
  | add p q => p.Fits t ∧ q.Fits t ∧ q.rows = p.rows ∧ q.cols = p.cols ∧ ((2 * (p.rows * p.cols) : Nat) : Int) < t.hi
  | sub p q => p.Fits t ∧ q.Fits t ∧ q.rows = p.rows ∧ q.cols = p.cols ∧ ((2 * (p.rows * p.cols) : Nat) : Int) < t.hi
  | mul p q => p.Fits t ∧ q.Fits t ∧ p.cols = q.rows ∧ ((p.rows * q.cols : Nat) : Int) ≤ t.hi
  | scale p _ => p.Fits t

/-- The program run with the operators of the crate. -/
def run [Zero F] [Add F] [Sub F] [Mul F] [BEq F] (t : IntTy) : FProg F → M (CSR F)
  | given a => .ok a
  | add p q => do (← p.run t).add t (← q.run t)
  | sub p q => do (← p.run t).sub t (← q.run t)
  | mul p q => do (← p.run t).mul t (← q.run t)
  | scale p s => do (← p.run t).mul_scalar s

/-- all the values stored in a result are finite -/
def finiteResult (fin : F → Prop) (m : M (CSR F)) : Prop := ∀ r, m = .ok r → ∀ i j, ∀ v ∈ r.valuesAt i j, fin v

/-- no intermediate result overflows -/
def Finite [Zero F] [Add F] [Sub F] [Mul F] [BEq F] (t : IntTy) (fin : F → Prop) : FProg F → Prop
  | given _ => True
  | add p q => p.Finite t fin ∧ q.Finite t fin ∧ finiteResult fin ((add p q).run t)
  | sub p q => p.Finite t fin ∧ q.Finite t fin ∧ finiteResult fin ((sub p q).run t)
  | mul p q => p.Finite t fin ∧ q.Finite t fin ∧ finiteResult fin ((mul p q).run t)
  | scale p s => p.Finite t fin ∧ finiteResult fin ((scale p s).run t)

variable [Field K] [LinearOrder K]

/-- the exact result -/
def exactly (val : F → K) : FProg F → Nat → Nat → K
  | given a => fun i j => exact val (a.valuesAt i j)
  | add p q => fun i j => p.exactly val i j + q.exactly val i j
  | sub p q => fun i j => p.exactly val i j - q.exactly val i j
  | mul p q => fun i j => ∑ k ∈ Finset.range p.cols, p.exactly val i k * q.exactly val k j
  | scale p s => fun i j => p.exactly val i j * val s

/-- the exact result for the absolute values, with differences replaced by sums -/
def absolute (val : F → K) : FProg F → Nat → Nat → K
  | given a => fun i j => |exact val (a.valuesAt i j)|
  | add p q => fun i j => p.absolute val i j + q.absolute val i j
  | sub p q => fun i j => p.absolute val i j + q.absolute val i j
  | mul p q => fun i j => ∑ k ∈ Finset.range p.cols, p.absolute val i k * q.absolute val k j
  | scale p s => fun i j => p.absolute val i j * |val s|

/-- the error bound: the errors of the operands carried on, plus the error of the operation on values of at most
`absolute + bound` -/
def bound (val : F → K) (u η : K) : FProg F → Nat → Nat → K
  | given _ => fun _ _ => 0
  | add p q => fun i j => p.bound val u η i j + q.bound val u η i j +
      u * (p.absolute val i j + p.bound val u η i j + (q.absolute val i j + q.bound val u η i j))
  | sub p q => fun i j => p.bound val u η i j + q.bound val u η i j +
      u * (p.absolute val i j + p.bound val u η i j + (q.absolute val i j + q.bound val u η i j))
  | mul p q => fun i j => ∑ k ∈ Finset.range p.cols, (p.absolute val i k * q.bound val u η k j +
        p.bound val u η i k * (q.absolute val k j + q.bound val u η k j)) +
      errBound u η p.cols (∑ k ∈ Finset.range p.cols, (p.absolute val i k + p.bound val u η i k) *
        (q.absolute val k j + q.bound val u η k j))
  | scale p s => fun i j => p.bound val u η i j * |val s| + (u * ((p.absolute val i j + p.bound val u η i j) * |val s|) + η)

/-- the number of roundings on the longest way to a value -/
def depth : FProg F → Nat
  | given _ => 0
  | add p q => max p.depth q.depth + 1
  | sub p q => max p.depth q.depth + 1
  | mul p q => p.depth + q.depth + p.cols
  | scale p _ => p.depth + 1

end FProg

variable {F K : Type} [Field K] [LinearOrder K] [IsStrictOrderedRing K]
variable {val : F → K} {fin : F → Prop} {u η : K}

theorem mag_one {l : List F} (h : l.length ≤ 1) : mag val l = |exact val l| := by
  match l, h with
  | [], _ => simp [mag, exact]
  | [v], _ => simp [mag, exact]

theorem errBound_mono (hu : 0 ≤ u) (he : 0 ≤ η) {n m : Nat} (h : n ≤ m) {s s' : K} (hs : 0 ≤ s) (hss : s ≤ s') :
    errBound u η n s ≤ errBound u η m s' := by
  unfold errBound
  have h1 : (1 + u) ^ n ≤ (1 + u) ^ m := pow_le_pow_right₀ (by linarith) h
  have h2 := one_le_pow_u hu n
  have h3 : (n : K) ≤ m := by exact_mod_cast h
  have h4 : (0 : K) ≤ n := Nat.cast_nonneg n
  refine add_le_add (mul_le_mul (by linarith) hss hs (by linarith)) (mul_le_mul_of_nonneg_right ?_ he)
  exact mul_le_mul h3 h1 (by linarith) (by linarith)

theorem elementBound_le (hu : 0 ≤ u) {can : Prop} {e : K} {la lb : List F} (h1 : la.length ≤ 1) (h2 : lb.length ≤ 1)
    (he : |e| ≤ |exact val la| + |exact val lb|) : elementBound val u can e la lb ≤ u * (|exact val la| + |exact val lb|) := by
  unfold elementBound
  split
  · exact mul_le_mul_of_nonneg_left he hu
  · rw [mag_one h1, mag_one h2]
    refine mul_le_mul_of_nonneg_right ?_ (add_nonneg (abs_nonneg _) (abs_nonneg _))
    have : (1 + u) ^ max la.length lb.length ≤ (1 + u) ^ 1 := pow_le_pow_right₀ (by linarith) (by omega)
    linarith

namespace FProg

theorem absolute_nonneg (p : FProg F) (i j : Nat) : 0 ≤ p.absolute val i j := by
  induction p generalizing i j with
  | given a => exact abs_nonneg _
  | add p q hp hq => exact add_nonneg (hp i j) (hq i j)
  | sub p q hp hq => exact add_nonneg (hp i j) (hq i j)
  | mul p q hp hq => exact Finset.sum_nonneg fun k _ => mul_nonneg (hp i k) (hq k j)
  | scale p s hp => exact mul_nonneg (hp i j) (abs_nonneg _)

theorem exactly_le (p : FProg F) (i j : Nat) : |p.exactly val i j| ≤ p.absolute val i j := by
  induction p generalizing i j with
  | given a => exact le_refl _
  | add p q hp hq => exact (abs_add_le _ _).trans (add_le_add (hp i j) (hq i j))
  | sub p q hp hq => exact (abs_sub _ _).trans (add_le_add (hp i j) (hq i j))
  | mul p q hp hq =>
    refine (Finset.abs_sum_le_sum_abs _ _).trans (Finset.sum_le_sum fun k _ => ?_)
    rw [abs_mul]
    exact mul_le_mul (hp i k) (hq k j) (abs_nonneg _) (absolute_nonneg p i k)
  | scale p s hp =>
    show |p.exactly val i j * val s| ≤ _
    rw [abs_mul]
    exact mul_le_mul_of_nonneg_right (hp i j) (abs_nonneg _)

theorem bound_nonneg (hu : 0 ≤ u) (he : 0 ≤ η) (p : FProg F) (i j : Nat) : 0 ≤ p.bound val u η i j := by
  induction p generalizing i j with
  | given a => exact le_refl _
  | add p q hp hq =>
    have := hp i j; have := hq i j
    have := absolute_nonneg (val := val) p i j; have := absolute_nonneg (val := val) q i j
    simp only [bound]; positivity
  | sub p q hp hq =>
    have := hp i j; have := hq i j
    have := absolute_nonneg (val := val) p i j; have := absolute_nonneg (val := val) q i j
    simp only [bound]; positivity
  | mul p q hp hq =>
    simp only [bound]
    refine add_nonneg (Finset.sum_nonneg fun k _ => ?_) (errBound_nonneg hu he _ (Finset.sum_nonneg fun k _ => ?_)) <;>
    · have := hp i k; have := hq k j
      have := absolute_nonneg (val := val) p i k; have := absolute_nonneg (val := val) q k j
      positivity
  | scale p s hp =>
    have := hp i j
    have := absolute_nonneg (val := val) p i j
    simp only [bound]; positivity

end FProg

/-- `x` near `e`, `e` at most `a`: `x` at most `a` plus the distance -/
theorem abs_le_of_near {x e a d : K} (h1 : |x - e| ≤ d) (h2 : |e| ≤ a) : |x| ≤ a + d := by
  have := abs_add_le (x - e) e
  rw [sub_add_cancel] at this
  linarith

theorem near_of_near {x y z d d' : K} (h1 : |x - y| ≤ d) (h2 : |y - z| ≤ d') : |x - z| ≤ d' + d := by
  have := abs_add_le (x - y) (y - z)
  rw [sub_add_sub_cancel] at this
  linarith

theorem sum_mul_near (n : Nat) {x y x' y' ax ay dx dy : Nat → K} (h1 : ∀ k < n, |x k - x' k| ≤ dx k) (h2 : ∀ k < n, |y k - y' k| ≤ dy k)
    (h3 : ∀ k, |x' k| ≤ ax k) (h4 : ∀ k, |y' k| ≤ ay k) :
    |∑ k ∈ Finset.range n, x k * y k - ∑ k ∈ Finset.range n, x' k * y' k| ≤
      ∑ k ∈ Finset.range n, (ax k * dy k + dx k * (ay k + dy k)) := by
  rw [← Finset.sum_sub_distrib]
  refine (Finset.abs_sum_le_sum_abs _ _).trans (Finset.sum_le_sum fun k hk => ?_)
  have hk := Finset.mem_range.1 hk
  have e : x k * y k - x' k * y' k = x' k * (y k - y' k) + (x k - x' k) * y k := by ring
  rw [e]
  refine (abs_add_le _ _).trans (add_le_add ?_ ?_) <;> rw [abs_mul]
  · exact mul_le_mul (h3 k) (h2 k hk) (abs_nonneg _) ((abs_nonneg _).trans (h3 k))
  · exact mul_le_mul (h1 k hk) (abs_le_of_near (h2 k hk) (h4 k)) (abs_nonneg _) ((abs_nonneg _).trans (h1 k hk))

section
variable [Zero F] [Add F] [Sub F] [Mul F] [BEq F]

/-- C110: rounding errors of programs. A program whose given matrices are valid and store no position twice and whose results fit the
index type returns a valid matrix without duplicates; if no intermediate result overflows, every entry of it differs from the exact
result by at most the bound. -/
theorem C110_bound (h : FloatLaws val fin u η) (t : IntTy) (p : FProg F) (hp : p.Fits t) :
    ∃ r, p.run t = .ok r ∧ r.WF t ∧ r.NoDup ∧ r.rows = p.rows ∧ r.cols = p.cols ∧
      (p.Finite t fin → ∀ i < p.rows, ∀ j < p.cols,
        |exact val (r.valuesAt i j) - p.exactly val i j| ≤ p.bound val u η i j) := by
  have hu := h.u_nonneg
  have he := h.eta_nonneg
  induction p with
  | given a => exact ⟨a, rfl, hp.1, hp.2, rfl, rfl, fun _ i _ j _ => by simp [FProg.exactly, FProg.bound]⟩
  | add p q ihp ihq =>
    obtain ⟨f1, f2, f3, f4, f5⟩ := hp
    obtain ⟨a, a1, a2, a3, a4, a5, a6⟩ := ihp f1
    obtain ⟨b, b1, b2, b3, b4, b5, b6⟩ := ihq f2
    have s1 := a2.stored_le_cells a3
    have s2 := b2.stored_le_cells b3
    rw [a4, a5] at s1
    rw [b4, b5, f3, f4] at s2
    have hfit : ((a.stored + b.stored : Nat) : Int) < t.hi := by omega
    obtain ⟨⟨r, r1, r2, r3, r4, r5, -⟩, -⟩ := C58_csr_add_sub t a b a2 b2 (by omega) (by omega) hfit
    obtain ⟨⟨r', r1', r6⟩, -⟩ := C78_csr_add_sub h t a b a2 b2 (by omega) (by omega) hfit
    obtain rfl : r = r' := by rw [r1] at r1'; exact Except.ok.inj r1'
    have hrun : (FProg.add p q).run t = .ok r := by simp only [FProg.run, a1, b1]; exact r1
    refine ⟨r, hrun, r2, r5, r3.trans a4, r4.trans a5, ?_⟩
    rintro ⟨g1, g2, g3⟩ i hi j hj
    have hi' : i < p.rows := hi
    have hj' : j < p.cols := hj
    have e1 := a6 g1 i hi' j hj'
    have e2 := b6 g2 i (by omega) j (by omega)
    have e3 := r6 i (by omega) j (by omega) (g3 r hrun i j)
    have m1 := abs_le_of_near e1 (FProg.exactly_le p i j)
    have m2 := abs_le_of_near e2 (FProg.exactly_le q i j)
    have e4 := e3.trans (elementBound_le hu (CSR.NoDup.one a2 a3 i j) (CSR.NoDup.one b2 b3 i j) (abs_add_le _ _))
    have e5 := e4.trans (mul_le_mul_of_nonneg_left (add_le_add m1 m2) hu)
    refine near_of_near e5 ?_
    simp only [FProg.exactly]
    rw [add_sub_add_comm]
    exact (abs_add_le _ _).trans (add_le_add e1 e2)
  | sub p q ihp ihq =>
    obtain ⟨f1, f2, f3, f4, f5⟩ := hp
    obtain ⟨a, a1, a2, a3, a4, a5, a6⟩ := ihp f1
    obtain ⟨b, b1, b2, b3, b4, b5, b6⟩ := ihq f2
    have s1 := a2.stored_le_cells a3
    have s2 := b2.stored_le_cells b3
    rw [a4, a5] at s1
    rw [b4, b5, f3, f4] at s2
    have hfit : ((a.stored + b.stored : Nat) : Int) < t.hi := by omega
    obtain ⟨-, r, r1, r2, r3, r4, r5, -⟩ := C58_csr_add_sub t a b a2 b2 (by omega) (by omega) hfit
    obtain ⟨-, r', r1', r6⟩ := C78_csr_add_sub h t a b a2 b2 (by omega) (by omega) hfit
    obtain rfl : r = r' := by rw [r1] at r1'; exact Except.ok.inj r1'
    have hrun : (FProg.sub p q).run t = .ok r := by simp only [FProg.run, a1, b1]; exact r1
    refine ⟨r, hrun, r2, r5, r3.trans a4, r4.trans a5, ?_⟩
    rintro ⟨g1, g2, g3⟩ i hi j hj
    have hi' : i < p.rows := hi
    have hj' : j < p.cols := hj
    have e1 := a6 g1 i hi' j hj'
    have e2 := b6 g2 i (by omega) j (by omega)
    have e3 := r6 i (by omega) j (by omega) (g3 r hrun i j)
    have m1 := abs_le_of_near e1 (FProg.exactly_le p i j)
    have m2 := abs_le_of_near e2 (FProg.exactly_le q i j)
    have e4 := e3.trans (elementBound_le hu (CSR.NoDup.one a2 a3 i j) (CSR.NoDup.one b2 b3 i j) (abs_sub _ _))
    have e5 := e4.trans (mul_le_mul_of_nonneg_left (add_le_add m1 m2) hu)
    refine near_of_near e5 ?_
    simp only [FProg.exactly]
    rw [sub_sub_sub_comm]
    exact (abs_sub _ _).trans (add_le_add e1 e2)
  | mul p q ihp ihq =>
    obtain ⟨f1, f2, f3, f4⟩ := hp
    obtain ⟨a, a1, a2, a3, a4, a5, a6⟩ := ihp f1
    obtain ⟨b, b1, b2, b3, b4, b5, b6⟩ := ihq f2
    have s1 := C13_slots_le a b
    rw [a4, b5] at s1
    obtain ⟨r, -, r1, r2, r3, r4, r5, r6⟩ := C78_csr_mat_mat h t a b a2 b2 (by omega) (by omega)
    have hrun : (FProg.mul p q).run t = .ok r := by simp only [FProg.run, a1, b1]; exact r1
    refine ⟨r, hrun, r2, r5, r3.trans a4, r4.trans b5, ?_⟩
    rintro ⟨g1, g2, g3⟩ i hi j hj
    have hi' : i < p.rows := hi
    have hj' : j < q.cols := hj
    have e1 : ∀ k < p.cols, |exact val (a.valuesAt i k) - p.exactly val i k| ≤ p.bound val u η i k := fun k hk => a6 g1 i hi' k hk
    have e2 : ∀ k < p.cols, |exact val (b.valuesAt k j) - q.exactly val k j| ≤ q.bound val u η k j :=
      fun k hk => b6 g2 k (by omega) j hj'
    have e3 := r6 i (by omega) j (by omega) (g3 r hrun i j)
    rw [a5] at e3
    refine near_of_near (e3.trans (errBound_mono hu he ?_ ?_ ?_)) ?_
    · calc _ ≤ ∑ _k ∈ Finset.range p.cols, 1 := Finset.sum_le_sum fun k _ => by
            have := CSR.NoDup.one a2 a3 i k
            have := CSR.NoDup.one b2 b3 k j
            calc _ ≤ 1 * 1 := Nat.mul_le_mul (by assumption) (by assumption)
              _ = 1 := rfl
        _ = p.cols := by simp
    · exact Finset.sum_nonneg fun k _ => mul_nonneg (mag_nonneg _) (mag_nonneg _)
    · refine Finset.sum_le_sum fun k hk => ?_
      have hk := Finset.mem_range.1 hk
      have m1 := abs_le_of_near (e1 k hk) (FProg.exactly_le p i k)
      have m2 := abs_le_of_near (e2 k hk) (FProg.exactly_le q k j)
      rw [mag_one (CSR.NoDup.one a2 a3 i k), mag_one (CSR.NoDup.one b2 b3 k j)]
      exact mul_le_mul m1 m2 (abs_nonneg _) ((abs_nonneg _).trans m1)
    · exact sum_mul_near _ e1 e2 (fun k => FProg.exactly_le p i k) (fun k => FProg.exactly_le q k j)
  | scale p s ihp =>
    obtain ⟨a, a1, a2, a3, a4, a5, a6⟩ := ihp hp
    obtain ⟨⟨r, r1, r2, r3, r4, -, -, r7⟩, -⟩ := C68_csr_scalar t a a2 s
    obtain ⟨r', r1', r6⟩ := C78_csr_scale h t a a2 s
    obtain rfl : r = r' := by rw [r1] at r1'; exact Except.ok.inj r1'
    have hrun : (FProg.scale p s).run t = .ok r := by simp only [FProg.run, a1]; exact r1
    refine ⟨r, hrun, r2, ?_, r3.trans a4, r4.trans a5, ?_⟩
    · rw [CSR.WF.nodup_iff r2]
      intro i _ j
      rw [r7, List.length_map]
      exact CSR.NoDup.one a2 a3 i j
    · rintro ⟨g1, g3⟩ i hi j hj
      have e1 := a6 g1 i hi j hj
      have m1 := abs_le_of_near e1 (FProg.exactly_le p i j)
      have e3 := r6 i j (g3 r hrun i j)
      have hl := CSR.NoDup.one a2 a3 i j
      rw [mag_one hl] at e3
      have e4 : u * (|exact val (a.valuesAt i j)| * |val s|) + (a.valuesAt i j).length * η ≤
          u * ((p.absolute val i j + p.bound val u η i j) * |val s|) + η := by
        refine add_le_add (mul_le_mul_of_nonneg_left (mul_le_mul_of_nonneg_right m1 (abs_nonneg _)) hu) ?_
        have : ((a.valuesAt i j).length : K) ≤ 1 := by exact_mod_cast hl
        calc _ ≤ 1 * η := mul_le_mul_of_nonneg_right this he
          _ = η := one_mul _
      refine near_of_near (e3.trans e4) ?_
      simp only [FProg.exactly]
      rw [← sub_mul, abs_mul]
      exact mul_le_mul_of_nonneg_right e1 (abs_nonneg _)

/-- C110: without underflow the relative error, measured against the result for the absolute values, is at most
`(1 + u) ^ d - 1` where `d` is the largest number of roundings on the way to a value. -/
theorem C110_relative (h : FloatLaws val fin u 0) (t : IntTy) (p : FProg F) (hp : p.Fits t) (hf : p.Finite t fin) :
    ∃ r, p.run t = .ok r ∧ r.rows = p.rows ∧ r.cols = p.cols ∧ ∀ i < p.rows, ∀ j < p.cols,
      |exact val (r.valuesAt i j) - p.exactly val i j| ≤ ((1 + u) ^ p.depth - 1) * p.absolute val i j := by
  obtain ⟨r, r1, -, -, r2, r3, r4⟩ := C110_bound h t p hp
  have hu := h.u_nonneg
  have key : ∀ (p : FProg F) i j, p.bound val u 0 i j ≤ ((1 + u) ^ p.depth - 1) * p.absolute val i j := by
    intro p
    have hadd : ∀ (p q : FProg F) (i j : Nat), (∀ i j, p.bound val u 0 i j ≤ ((1 + u) ^ p.depth - 1) * p.absolute val i j) →
        (∀ i j, q.bound val u 0 i j ≤ ((1 + u) ^ q.depth - 1) * q.absolute val i j) →
        p.bound val u 0 i j + q.bound val u 0 i j +
          u * (p.absolute val i j + p.bound val u 0 i j + (q.absolute val i j + q.bound val u 0 i j)) ≤
        ((1 + u) ^ (max p.depth q.depth + 1) - 1) * (p.absolute val i j + q.absolute val i j) := by
      intro p q i j hp hq
      have h1 := hp i j
      have h2 := hq i j
      have n1 := FProg.absolute_nonneg (val := val) p i j
      have n2 := FProg.absolute_nonneg (val := val) q i j
      have g1 : (1 + u) ^ p.depth ≤ (1 + u) ^ max p.depth q.depth := pow_le_pow_right₀ (by linarith) (le_max_left _ _)
      have g2 : (1 + u) ^ q.depth ≤ (1 + u) ^ max p.depth q.depth := pow_le_pow_right₀ (by linarith) (le_max_right _ _)
      rw [pow_succ]
      generalize (1 + u) ^ max p.depth q.depth = P at *
      have k1 : p.bound val u 0 i j ≤ (P - 1) * p.absolute val i j := h1.trans (mul_le_mul_of_nonneg_right (by linarith) n1)
      have k2 : q.bound val u 0 i j ≤ (P - 1) * q.absolute val i j := h2.trans (mul_le_mul_of_nonneg_right (by linarith) n2)
      have k3 : u * (p.absolute val i j + p.bound val u 0 i j + (q.absolute val i j + q.bound val u 0 i j)) ≤
          u * (P * p.absolute val i j + P * q.absolute val i j) := mul_le_mul_of_nonneg_left (by linarith) hu
      nlinarith
    induction p with
    | given a => intro i j; simp [FProg.bound, FProg.depth]
    | add p q hp hq => exact fun i j => hadd p q i j hp hq
    | sub p q hp hq => exact fun i j => hadd p q i j hp hq
    | scale p s hp =>
      intro i j
      have h1 := mul_le_mul_of_nonneg_right (hp i j) (abs_nonneg (val s))
      simp only [FProg.bound, FProg.depth, FProg.absolute, pow_succ]
      have := mul_le_mul_of_nonneg_left h1 hu
      nlinarith
    | mul p q hp hq =>
      intro i j
      simp only [FProg.bound, FProg.depth, FProg.absolute, errBound, mul_zero, add_zero]
      rw [pow_add, pow_add, Finset.mul_sum, Finset.mul_sum, ← Finset.sum_add_distrib]
      refine Finset.sum_le_sum fun k _ => ?_
      have h1 := hp i k
      have h2 := hq k j
      have n1 := FProg.absolute_nonneg (val := val) p i k
      have n2 := FProg.absolute_nonneg (val := val) q k j
      have b1 := FProg.bound_nonneg (val := val) hu (le_refl (0 : K)) p i k
      have b2 := FProg.bound_nonneg (val := val) hu (le_refl (0 : K)) q k j
      have c1 := one_le_pow_u hu p.depth
      have c2 := one_le_pow_u hu q.depth
      have c3 := one_le_pow_u hu p.cols
      generalize (1 + u) ^ p.depth = P at *
      generalize (1 + u) ^ q.depth = Q at *
      generalize (1 + u) ^ p.cols = N at *
      generalize p.absolute val i k = A at *
      generalize q.absolute val k j = B at *
      generalize p.bound val u 0 i k = E at *
      generalize q.bound val u 0 k j = D at *
      have m1 : A + E ≤ P * A := by linarith
      have m2 : B + D ≤ Q * B := by linarith
      have m3 : (A + E) * (B + D) ≤ (P * A) * (Q * B) := mul_le_mul m1 m2 (by linarith) (by nlinarith)
      have m4 := mul_le_mul_of_nonneg_left m3 (show 0 ≤ N by linarith)
      have e : A * D + E * (B + D) + (N - 1) * ((A + E) * (B + D)) = N * ((A + E) * (B + D)) - A * B := by ring
      rw [e]
      linarith
  exact ⟨r, r1, r2, r3, fun i hi j hj => (r4 hf i hi j hj).trans (key p i j)⟩

/-- C110: the result of a program applied to a vector. -/
theorem C110_apply (h : FloatLaws val fin u η) (t : IntTy) (p : FProg F) (hp : p.Fits t) (hf : p.Finite t fin) (x : List F)
    (hx : x.length = p.cols) :
    ∃ r y, p.run t = .ok r ∧ r.mat_vec x = .ok y ∧ y.length = p.rows ∧ ∀ i v, y[i]? = some v → fin v →
      |val v - ∑ k ∈ Finset.range p.cols, p.exactly val i k * val (x.getD k 0)| ≤
        ∑ k ∈ Finset.range p.cols, p.bound val u η i k * |val (x.getD k 0)| +
          errBound u η p.cols (∑ k ∈ Finset.range p.cols, (p.absolute val i k + p.bound val u η i k) * |val (x.getD k 0)|) := by
  obtain ⟨r, r1, r2, r3, r4, r5, r6⟩ := C110_bound h t p hp
  obtain ⟨y, y1, y2, y3⟩ := C78_csr_mat_vec h t r r2 x (by omega)
  refine ⟨r, y, r1, y1, by omega, fun i v hv hfv => ?_⟩
  have hi : i < p.rows := by
    have := (List.getElem?_eq_some_iff.1 hv).1
    omega
  have e1 : ∀ k < p.cols, |exact val (r.valuesAt i k) - p.exactly val i k| ≤ p.bound val u η i k := fun k hk => r6 hf i hi k hk
  have e3 := y3 i v hv hfv
  rw [r5] at e3
  refine near_of_near (e3.trans (errBound_mono h.u_nonneg h.eta_nonneg ?_ ?_ ?_)) ?_
  · calc _ ≤ ∑ _k ∈ Finset.range p.cols, 1 := Finset.sum_le_sum fun k _ => CSR.NoDup.one r2 r3 i k
      _ = p.cols := by simp
  · exact Finset.sum_nonneg fun k _ => mul_nonneg (mag_nonneg _) (abs_nonneg _)
  · refine Finset.sum_le_sum fun k hk => ?_
    rw [mag_one (CSR.NoDup.one r2 r3 i k)]
    exact mul_le_mul_of_nonneg_right (abs_le_of_near (e1 k (Finset.mem_range.1 hk)) (FProg.exactly_le p i k)) (abs_nonneg _)
  · have := sum_mul_near p.cols (y := fun k => val (x.getD k 0)) (y' := fun k => val (x.getD k 0)) (dy := fun _ => 0)
      (ay := fun k => |val (x.getD k 0)|) e1 (by simp) (fun k => FProg.exactly_le p i k) (fun _ => le_refl _)
    simpa using this

theorem FProg.finite_of {m : M (CSR F)} {r : CSR F} (hm : m = .ok r) (h : ∀ v ∈ r.values, fin v) : FProg.finiteResult fin m := by
  intro r' hr i j v hv
  obtain rfl : r = r' := by rw [hm] at hr; exact Except.ok.inj hr
  unfold CSR.valuesAt valuesIn at hv
  obtain ⟨e, he, rfl⟩ := List.mem_map.1 hv
  have he := (List.mem_filter.1 he).1
  unfold CSR.row rowOf at he
  split at he
  · exact h _ (List.of_mem_zip (List.mem_of_mem_drop (List.mem_of_mem_take he))).2
  · simp at he

end

/-- two significant bits: `(A + A) * A` with `A = (3 1; 0 2)` -/
def exRoundA : CSR (Chopped 1 64) := ⟨2, 2, [0, 2, 3], [0, 1, 1], [.round 3, .round 1, .round 2]⟩
def exRoundProg : FProg (Chopped 1 64) := .mul (.add (.given exRoundA) (.given exRoundA)) (.given exRoundA)
def exRoundSum : CSR (Chopped 1 64) := ⟨2, 2, [0, 2, 3], [0, 1, 1, 0, 0, 0], [.round 6, .round 2, .round 4, 0, 0, 0]⟩
def exRoundResult : CSR (Chopped 1 64) := ⟨2, 2, [0, 2, 3], [1, 0, 1], [.round 8, .round 16, .round 8]⟩

example : exRoundProg.Fits .u8 :=
  ⟨⟨⟨CSR.wf_of (by decide), by unfold CSR.NoDup; decide⟩, ⟨CSR.wf_of (by decide), by unfold CSR.NoDup; decide⟩, rfl, rfl, by decide⟩,
    ⟨CSR.wf_of (by decide), by unfold CSR.NoDup; decide⟩, rfl, by decide⟩

instance {p : Nat} {M : ℚ} : DecidableEq (Chopped p M) := fun a b => match a, b with
  | .nan, .nan => isTrue rfl
  | .nan, .num _ _ => isFalse (by simp)
  | .num _ _, .nan => isFalse (by simp)
  | .num x _, .num y _ => if h : x = y then isTrue (by subst h; rfl) else isFalse (by simpa using h)

instance {p : Nat} {M : ℚ} (x : Chopped p M) : Decidable x.Fin := match x with
  | .nan => isFalse (fun h => h)
  | .num _ _ => isTrue trivial

/-- 6 * 3 = 18 is rounded to 16 and 6 * 1 + 2 * 2 = 10 to 8 -/
example : exRoundProg.Finite .u8 Chopped.Fin ∧ exRoundProg.run .u8 = .ok exRoundResult ∧ exRoundProg.depth = 3 :=
  ⟨⟨⟨trivial, trivial, FProg.finite_of (r := exRoundSum) (by decide +kernel) (by decide +kernel)⟩, trivial,
    FProg.finite_of (r := exRoundResult) (by decide +kernel) (by decide +kernel)⟩, by decide +kernel, rfl⟩

end Sparse

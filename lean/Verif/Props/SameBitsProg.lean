import Verif.Props.SameBits
import Verif.Props.Blocks
/-!
Whole programs in the two compressed formats agree to the last bit (C114).
-/
namespace Sparse

section
variable {T : Type}

/-- a program of sums, differences, products and transposes of given matrices -/
inductive BitProg
  | inp (k : Nat)
  | add (p q : BitProg)
  | sub (p q : BitProg)
  | mul (p q : BitProg)
  | transpose (p : BitProg)

/-- The program in CSR format: the operators, each result brought into canonical order with `sort_indexes`; `transpose` gives a
CSC matrix, which `to_csr` converts back. -/
def BitProg.onCSR [Zero T] [Add T] [Sub T] [Mul T] [BEq T] (t : IntTy) (inp : Nat → CSR T) : BitProg → M (CSR T)
  | .inp k => .ok (inp k)
  | .add p q => do
    let a ← p.onCSR t inp
    let b ← q.onCSR t inp
    let r ← a.add t b
    r.sort_indexes
  | .sub p q => do
    let a ← p.onCSR t inp
    let b ← q.onCSR t inp
    let r ← a.sub t b
    r.sort_indexes
  | .mul p q => do
    let a ← p.onCSR t inp
    let b ← q.onCSR t inp
    let r ← a.mul t b
    r.sort_indexes
  | .transpose p => do
    let a ← p.onCSR t inp
    let s ← a.transpose
    s.to_csr t

/-- The same program in CSC format, on the converted matrices; differences with `CSC::subtract`. -/
def BitProg.onCSC [Zero T] [Add T] [Sub T] [Mul T] [BEq T] (t : IntTy) (inp : Nat → CSR T) : BitProg → M (CSC T)
  | .inp k => (inp k).to_csc t
  | .add p q => do
    let a ← p.onCSC t inp
    let b ← q.onCSC t inp
    let r ← a.add_op t b
    r.sort_indexes
  | .sub p q => do
    let a ← p.onCSC t inp
    let b ← q.onCSC t inp
    let r ← a.subtract t b
    r.sort_indexes
  | .mul p q => do
    let a ← p.onCSC t inp
    let b ← q.onCSC t inp
    let r ← a.mul t b
    r.sort_indexes
  | .transpose p => do
    let a ← p.onCSC t inp
    let s ← a.transpose
    s.to_csc t

/-- rows and columns of the result -/
def BitProg.shape (inp : Nat → CSR T) : BitProg → Nat × Nat
  | .inp k => ((inp k).rows, (inp k).cols)
  | .add p _ => p.shape inp
  | .sub p _ => p.shape inp
  | .mul p q => ((p.shape inp).1, (q.shape inp).2)
  | .transpose p => ((p.shape inp).2, (p.shape inp).1)

/-- the index type holds the dimensions and twice the number of cells -/
def Room (t : IntTy) (s : Nat × Nat) : Prop := (s.1 : Int) ≤ t.hi ∧ (s.2 : Int) ≤ t.hi ∧ ((s.1 * s.2 + s.1 * s.2 : Nat) : Int) < t.hi

/-- the given matrices are valid and canonical, the shapes fit each other and the index type -/
def BitProg.Fits (t : IntTy) (inp : Nat → CSR T) : BitProg → Prop
  | .inp k => (inp k).WF t ∧ (inp k).Canonical ∧ Room t ((inp k).rows, (inp k).cols)
  | .add p q | .sub p q => p.Fits t inp ∧ q.Fits t inp ∧ q.shape inp = p.shape inp
  | .mul p q => p.Fits t inp ∧ q.Fits t inp ∧ (p.shape inp).2 = (q.shape inp).1 ∧ Room t ((p.shape inp).1, (q.shape inp).2)
  | .transpose p => p.Fits t inp

theorem valuesIn_nodup_length : ∀ {l : List (Int × T)}, (l.map (·.1)).Nodup → ∀ j, (valuesIn l j).length ≤ 1
  | [], _, _ => by simp
  | e :: l, h, j => by
    rw [List.map_cons, List.nodup_cons] at h
    rw [valuesIn_cons]
    by_cases he : e.1 = j
    · rw [if_pos he, valuesIn_eq_nil (fun f hf hfj => h.1 (List.mem_map.2 ⟨f, hf, by omega⟩))]
      simp
    · rw [if_neg he, List.nil_append]
      exact valuesIn_nodup_length h.2 j

theorem strict_of_sorted : ∀ {l : List (Int × T)}, (l.Pairwise fun e f => e.1 ≤ f.1) → (∀ j, (valuesIn l j).length ≤ 1) →
    l.Pairwise fun e f => e.1 < f.1
  | [], _, _ => .nil
  | e :: l, h, hn => by
    obtain ⟨h1, h2⟩ := List.pairwise_cons.1 h
    refine List.pairwise_cons.2 ⟨fun f hf => ?_, strict_of_sorted h2 fun j => ?_⟩
    · rcases lt_or_eq_of_le (h1 f hf) with hlt | heq
      · exact hlt
      · have h3 := hn e.1
        rw [valuesIn_cons, if_pos rfl, List.length_append] at h3
        have h4 : f.2 ∈ valuesIn l e.1 := mem_valuesIn.2 (by rw [heq]; exact hf)
        have := List.length_pos_of_mem h4
        simp at h3
        simp [h3] at this
    · have h3 := hn j
      rw [valuesIn_cons, List.length_append] at h3
      omega

theorem eq_of_short {x y : List T} (hx : x.length ≤ 1) (hy : y.length ≤ 1) (h : ∀ v, v ∈ x ↔ v ∈ y) : x = y := by
  match x, y, hx, hy with
  | [], [], _, _ => rfl
  | [], [b], _, _ => have := (h b).2 (by simp); simp at this
  | [a], [], _, _ => have := (h a).1 (by simp); simp at this
  | [a], [b], _, _ => have := (h a).1 (by simp); simp at this; rw [this]

/-- the two results belong together -/
structure SameBits (t : IntTy) (a : CSR T) (c : CSC T) (s : Nat × Nat) : Prop where
  wfa : a.WF t
  wfc : c.WF t
  ra : a.rows = s.1
  ca : a.cols = s.2
  rc : c.rows = s.1
  cc : c.cols = s.2
  cana : a.Canonical
  canc : c.Canonical
  vals : ∀ i j, a.valuesAt i j = c.valuesAt i j

theorem SameBits.finish [Zero T] {t : IntTy} {r : CSR T} {r' : CSC T} {m n : Nat} (h1 : r.WF t) (h2 : r'.WF t) (h3 : r.rows = m)
    (h4 : r.cols = n) (h5 : r'.rows = m) (h6 : r'.cols = n) (h7 : r.NoDup) (h8 : r'.NoDup)
    (h : ∀ i < m, ∀ k < n, ∀ v, ((k : Int), v) ∈ r.row i ↔ ((i : Int), v) ∈ r'.col k) :
    ∃ a c, r.sort_indexes = .ok a ∧ r'.sort_indexes = .ok c ∧ SameBits t a c (m, n) := by
  obtain ⟨a, a1, a2, a3, a4, a5, -, -, -, a6⟩ := C53_csr_sort_indexes t r h1
  obtain ⟨c, c1, c2, c3, c4, c5, -, -, -, c6⟩ := C53_csc_sort_indexes t r' h2
  have l1 : ∀ i < r.rows, ∀ j, (valuesIn (r.row i) j).length ≤ 1 := fun i hi => valuesIn_nodup_length (h7 i hi)
  have l2 : ∀ i < r'.cols, ∀ j, (valuesIn (r'.col i) j).length ≤ 1 := fun i hi => valuesIn_nodup_length (h8 i hi)
  refine ⟨a, c, a1, c1, a2, c2, by omega, by omega, by omega, by omega, fun i hi => ?_, fun j hj => ?_, fun i j => ?_⟩
  · refine strict_of_sorted (a5 i (by omega)) fun j => ?_
    rcases Int.lt_or_le j 0 with hj | hj
    · rw [valuesIn_eq_nil fun e he h => by have := a2.mem hi he; omega]; simp
    · have := l1 i (by omega) j.toNat
      have e := a6 i j.toNat
      unfold CSR.valuesAt at e
      rw [← e, Int.toNat_of_nonneg hj] at this
      exact this
  · refine strict_of_sorted (c5 j (by omega)) fun i => ?_
    rcases Int.lt_or_le i 0 with hi | hi
    · rw [valuesIn_eq_nil fun e he h => by have := c2.mem hj he; omega]; simp
    · have := l2 j (by omega) i.toNat
      have e := c6 i.toNat j
      unfold CSC.valuesAt at e
      rw [← e, Int.toNat_of_nonneg hi] at this
      exact this
  · rw [a6, c6]
    by_cases hij : i < m ∧ j < n
    · exact eq_of_short (l1 i (by omega) j) (l2 j (by omega) i) fun v => by
        unfold CSR.valuesAt CSC.valuesAt
        rw [mem_valuesIn, mem_valuesIn]
        exact h i hij.1 j hij.2 v
    · rw [CSR.valuesAt_out h1 (by omega), CSC.valuesAt_out h2 (by omega)]

theorem BitProg.same [Zero T] [Add T] [Sub T] [Mul T] [BEq T] (hm : ∀ x y : T, x * y = y * x) {t : IntTy} (inp : Nat → CSR T) :
    (p : BitProg) → p.Fits t inp →
      ∃ a c, p.onCSR t inp = .ok a ∧ p.onCSC t inp = .ok c ∧ SameBits t a c (p.shape inp) ∧ Room t (p.shape inp)
  | .inp k, ⟨h1, h2, h3⟩ => by
    have h3' := h3
    obtain ⟨g1, -, -⟩ := h3
    simp only at g1
    obtain ⟨c, c1, c2, c3, c4, c6, -, -, c5⟩ := C53_csr_to_csc t (inp k) h1 (by omega)
    exact ⟨inp k, c, rfl, c1, ⟨h1, c2, rfl, rfl, c3, c4, h2,
      fun j hj => CSR.to_csc_col_sorted h1 (by omega) h2 c1 (by omega), fun i j => (c5 i j).symm⟩, h3'⟩
  | .add p q, ⟨hp, hq, hs⟩ => by
    obtain ⟨a, c, a1, c1, s1, R⟩ := BitProg.same hm inp p hp
    obtain ⟨b, d, b1, d1, s2, -⟩ := BitProg.same hm inp q hq
    rw [hs] at s2
    obtain ⟨g1, g2, g3⟩ := R
    have k1 := s1.wfa.stored_le_cells s1.cana.noDup
    have k2 := s2.wfa.stored_le_cells s2.cana.noDup
    have k3 := s1.wfc.stored_le_cells s1.canc.noDup
    have k4 := s2.wfc.stored_le_cells s2.canc.noDup
    rw [s1.ra, s1.ca] at k1
    rw [s2.ra, s2.ca] at k2
    rw [s1.rc, s1.cc] at k3
    rw [s2.rc, s2.cc] at k4
    obtain ⟨r, r1, r2, r3, r4, r5, r6⟩ := (C58_csr_add_sub t a b s1.wfa s2.wfa (by rw [s1.ra, s2.ra]) (by rw [s1.ca, s2.ca]) (by omega)).1
    obtain ⟨r', q1, q2, q3, q4, q5, q6⟩ :=
      (C58_csc_add_subtract t c d s1.wfc s2.wfc (by rw [s1.rc, s2.rc]) (by rw [s1.cc, s2.cc]) (by omega)).2.2
    have key : ∀ (b : CSC T) (i j : Nat), b.has i j ↔ b.valuesAt i j ≠ [] := fun b i j => CSR.has_valuesAt b.asCSR j i
    obtain ⟨x, y, x1, y1, S⟩ := SameBits.finish (m := (p.shape inp).1) (n := (p.shape inp).2) r2 q2 (by rw [r3, s1.ra]) (by rw [r4, s1.ca])
      (by rw [q3, s1.rc]) (by rw [q4, s1.cc]) r5 q5 (fun i hi k hk v => by
        rw [r6 i (by rw [s1.ra]; exact hi), q6 k (by rw [s1.cc]; exact hk), key, key, CSR.has_valuesAt, CSR.has_valuesAt, s1.vals, s2.vals]
        unfold elementwise
        rw [if_pos ⟨s1.cana, s2.cana⟩, if_pos ⟨s1.canc, s2.canc⟩])
    refine ⟨x, y, ?_, ?_, S, g1, g2, g3⟩
    · simp only [BitProg.onCSR, a1, b1, bind, Except.bind, r1]; exact x1
    · simp only [BitProg.onCSC, c1, d1, bind, Except.bind, q1]; exact y1
  | .sub p q, ⟨hp, hq, hs⟩ => by
    obtain ⟨a, c, a1, c1, s1, R⟩ := BitProg.same hm inp p hp
    obtain ⟨b, d, b1, d1, s2, -⟩ := BitProg.same hm inp q hq
    rw [hs] at s2
    obtain ⟨g1, g2, g3⟩ := R
    have k1 := s1.wfa.stored_le_cells s1.cana.noDup
    have k2 := s2.wfa.stored_le_cells s2.cana.noDup
    have k3 := s1.wfc.stored_le_cells s1.canc.noDup
    have k4 := s2.wfc.stored_le_cells s2.canc.noDup
    rw [s1.ra, s1.ca] at k1
    rw [s2.ra, s2.ca] at k2
    rw [s1.rc, s1.cc] at k3
    rw [s2.rc, s2.cc] at k4
    obtain ⟨r, r1, r2, r3, r4, r5, r6⟩ := (C58_csr_add_sub t a b s1.wfa s2.wfa (by rw [s1.ra, s2.ra]) (by rw [s1.ca, s2.ca]) (by omega)).2
    obtain ⟨r', q1, q2, q3, q4, q5, q6⟩ :=
      (C58_csc_add_subtract t c d s1.wfc s2.wfc (by rw [s1.rc, s2.rc]) (by rw [s1.cc, s2.cc]) (by omega)).2.1
    have key : ∀ (b : CSC T) (i j : Nat), b.has i j ↔ b.valuesAt i j ≠ [] := fun b i j => CSR.has_valuesAt b.asCSR j i
    obtain ⟨x, y, x1, y1, S⟩ := SameBits.finish (m := (p.shape inp).1) (n := (p.shape inp).2) r2 q2 (by rw [r3, s1.ra]) (by rw [r4, s1.ca])
      (by rw [q3, s1.rc]) (by rw [q4, s1.cc]) r5 q5 (fun i hi k hk v => by
        rw [r6 i (by rw [s1.ra]; exact hi), q6 k (by rw [s1.cc]; exact hk), key, key, CSR.has_valuesAt, CSR.has_valuesAt, s1.vals, s2.vals]
        unfold elementwise
        rw [if_pos ⟨s1.cana, s2.cana⟩, if_pos ⟨s1.canc, s2.canc⟩])
    refine ⟨x, y, ?_, ?_, S, g1, g2, g3⟩
    · simp only [BitProg.onCSR, a1, b1, bind, Except.bind, r1]; exact x1
    · simp only [BitProg.onCSC, c1, d1, bind, Except.bind, q1]; exact y1
  | .mul p q, ⟨hp, hq, hs, R⟩ => by
    obtain ⟨a, c, a1, c1, s1, -⟩ := BitProg.same hm inp p hp
    obtain ⟨b, d, b1, d1, s2, -⟩ := BitProg.same hm inp q hq
    obtain ⟨g1, g2, g3⟩ := R
    simp only at g1 g2 g3
    obtain ⟨r, -, r1, r2, r3, r4, r5, r6⟩ := C57_csr_mat_mat t a b s1.wfa s2.wfa (by rw [s1.ca, s2.ra, hs]) (by
      have := C13_slots_le a b
      rw [s1.ra, s2.ca] at this
      omega)
    obtain ⟨r', -, q1, q2, q3, q4, q5, q6⟩ := C57_csc_mat_mat t c d s1.wfc s2.wfc (by rw [s1.cc, s2.rc, hs]) (by
      have h1 := CSC.productSlots_asCSR c d
      have h2 := C13_slots_le d.asCSR c.asCSR
      have h3 : d.asCSR.rows * c.asCSR.cols = (p.shape inp).1 * (q.shape inp).2 := by
        show d.cols * c.rows = _
        rw [s2.cc, s1.rc, Nat.mul_comm]
      omega)
    obtain ⟨x, y, x1, y1, S⟩ := SameBits.finish (m := (p.shape inp).1) (n := (q.shape inp).2) r2 q2 (by rw [r3, s1.ra]) (by rw [r4, s2.ca])
      (by rw [q3, s1.rc]) (by rw [q4, s2.cc]) r5 q5 (fun i hi k hk v => by
        have hi' : i < a.rows := by rw [s1.ra]; exact hi
        have hk' : k < d.cols := by rw [s2.cc]; exact hk
        rw [r6 i hi', q6 k hk']
        have e1 : a.contributions b i k = (a.row i).flatMap fun e => (valuesIn (d.col k) e.1).map fun w => e.2 * w := by
          refine flatMap_congr_mem fun e he => ?_
          have := s1.wfa.mem hi' he
          rw [s2.vals]
          unfold CSC.valuesAt
          rw [Int.toNat_of_nonneg this.1]
        have e2 : c.contributions d i k = (d.col k).flatMap fun e => (valuesIn (a.row i) e.1).map fun w => e.2 * w := by
          refine flatMap_congr_mem fun e he => ?_
          have := s2.wfc.mem hk' he
          rw [← s1.vals]
          unfold CSR.valuesAt
          rw [Int.toNat_of_nonneg this.1]
        rw [e1, e2, products_swap hm _ _ (s1.cana i hi') (s2.canc k hk')])
    refine ⟨x, y, ?_, ?_, S, g1, g2, g3⟩
    · simp only [BitProg.onCSR, a1, b1, bind, Except.bind, r1]; exact x1
    · simp only [BitProg.onCSC, c1, d1, bind, Except.bind, q1]; exact y1
  | .transpose p, hp => by
    obtain ⟨a, c, a1, c1, s1, g1, g2, g3⟩ := BitProg.same hm inp p hp
    obtain ⟨s, u1, u2, u3, u4, u5⟩ := (C53_transpose (T := T) t).1 a s1.wfa
    obtain ⟨s', v1, v2, v3, v4, v5⟩ := (C53_transpose (T := T) t).2.1 c s1.wfc
    obtain ⟨x, x1, x2, x3, x4, x6, -, -, x5⟩ := C53_csc_to_csr t s u2 (by rw [u4, s1.ra]; omega)
    obtain ⟨y, y1, y2, y3, y4, y6, -, -, y5⟩ := C53_csr_to_csc t s' v2 (by rw [v3, s1.cc]; omega)
    have n1 : ∀ i j, (a.valuesAt i j).length ≤ 1 := fun i j => by
      by_cases hi : i < a.rows
      · exact valuesIn_nodup_length (s1.cana.noDup i hi) j
      · rw [CSR.valuesAt_out s1.wfa (by omega)]; simp
    have vx : ∀ i j, x.valuesAt i j = a.valuesAt j i := fun i j => by rw [x5, u5]
    have vy : ∀ i j, y.valuesAt i j = a.valuesAt j i := fun i j => by rw [y5, v5, s1.vals]
    refine ⟨x, y, ?_, ?_, ⟨x2, y2, by rw [x3, u3, s1.ca]; rfl, by rw [x4, u4, s1.ra]; rfl, by rw [y3, v3, s1.cc]; rfl,
      by rw [y4, v4, s1.rc]; rfl, fun i hi => ?_, fun j hj => ?_, fun i j => by rw [vx, vy]⟩, g2, g1, ?_⟩
    · simp only [BitProg.onCSR, a1, bind, Except.bind, u1]; exact x1
    · simp only [BitProg.onCSC, c1, bind, Except.bind, v1]; exact y1
    · refine strict_of_sorted (x6 i hi) fun j => ?_
      rcases Int.lt_or_le j 0 with hj | hj
      · rw [valuesIn_eq_nil fun e he h => by have := x2.mem hi he; omega]; simp
      · have := n1 j.toNat i
        rw [← vx] at this
        unfold CSR.valuesAt at this
        rw [Int.toNat_of_nonneg hj] at this
        exact this
    · refine strict_of_sorted (y6 j hj) fun i => ?_
      rcases Int.lt_or_le i 0 with hi | hi
      · rw [valuesIn_eq_nil fun e he h => by have := y2.mem hj he; omega]; simp
      · have := n1 j i.toNat
        rw [← vy] at this
        unfold CSC.valuesAt at this
        rw [Int.toNat_of_nonneg hi] at this
        exact this
    · show (((p.shape inp).2 * (p.shape inp).1 + (p.shape inp).2 * (p.shape inp).1 : Nat) : Int) < t.hi
      rw [Nat.mul_comm (p.shape inp).2]
      exact g3

/-- C114: a program of sums, differences, products and transposes of canonical matrices, with `sort_indexes` after every operator,
gives the same matrix bit for bit whether it runs in CSR format or, on the converted matrices, in CSC format: both results are
canonical and store the same values at the same positions, and their products with any vector agree to the last bit. Of the
scalars only the commutativity of the multiplication is assumed. -/
theorem C114_programs [Zero T] [Add T] [Sub T] [Mul T] [BEq T] (hm : ∀ x y : T, x * y = y * x) (t : IntTy) (inp : Nat → CSR T)
    (p : BitProg) (hp : p.Fits t inp) :
    ∃ a c, p.onCSR t inp = .ok a ∧ p.onCSC t inp = .ok c ∧ a.rows = (p.shape inp).1 ∧ a.cols = (p.shape inp).2 ∧
      c.rows = (p.shape inp).1 ∧ c.cols = (p.shape inp).2 ∧ a.Canonical ∧ c.Canonical ∧
      (∀ i j, a.valuesAt i j = c.valuesAt i j) ∧
      ∀ x : List T, x.length = (p.shape inp).2 → ∃ y, a.mat_vec x = .ok y ∧ c.mat_vec x = .ok y := by
  obtain ⟨a, c, h1, h2, S, -⟩ := BitProg.same hm inp p hp
  refine ⟨a, c, h1, h2, S.ra, S.ca, S.rc, S.cc, S.cana, S.canc, S.vals, fun x hx => ?_⟩
  refine ⟨_, C56_csr_mat_vec t a S.wfa x (by rw [S.ca, hx]), ?_⟩
  rw [C56_csc_mat_vec t c S.wfc x (by rw [S.cc, hx]), S.rc, S.cc, S.ra]
  congr 1
  refine List.map_congr_left fun i hi => ?_
  have hi' : i < a.rows := by rw [S.ra]; exact List.mem_range.1 hi
  rw [← S.wfa.row_products hi' ((S.cana i hi').imp fun h => by omega), S.ca]
  simp only [S.vals]

/-- the hypotheses of `C114_programs` hold of `(A * Aᵀ - A) * A + A` over scalars whose addition is not associative -/
example : ∃ (inp : Nat → CSR Sat) (p : BitProg), (∀ x y : Sat, x * y = y * x) ∧ p.Fits .i8 inp ∧ p.shape inp = (2, 2) ∧ (inp 0).stored = 3 := by
  have h : BitProg.Fits .i8 (fun _ => (⟨2, 2, [0, 2, 3], [0, 1, 1], [⟨9⟩, ⟨-90⟩, ⟨7⟩]⟩ : CSR Sat)) (.inp 0) :=
    ⟨CSR.wf_of (by decide), by unfold CSR.Canonical; decide, by decide, by decide, by decide⟩
  have R : Room .i8 (2, 2) := ⟨by decide, by decide, by decide⟩
  exact ⟨_, .add (.mul (.sub (.mul (.inp 0) (.transpose (.inp 0))) (.inp 0)) (.inp 0)) (.inp 0), fun x y => (Sat.comm x y).1,
    ⟨⟨⟨⟨h, h, rfl, R⟩, h, rfl⟩, h, rfl, R⟩, h, rfl⟩, rfl, by decide⟩

end
end Sparse

import Verif.Props.Diagram
import Verif.Props.Expr
import Verif.Lemmas.Typed
import Mathlib.Algebra.BigOperators.Ring.Finset
/-!
C93: the laws of matrix algebra hold between the results of the operations, down to what is stored. The results of two
sides of a law may list the entries of a row in different orders and may leave different amounts of unused storage;
after `sum_duplicates` they have the same row pointers and the same stored triplets.
-/
namespace Sparse

section
variable {T : Type}

/-- Specification: two CSR matrices have the same shape, and after `sum_duplicates` the same row pointers and the same
stored triplets. -/
def CSR.SameStored [Zero T] [Add T] (t : IntTy) (r s : CSR T) : Prop :=
  r.rows = s.rows ∧ r.cols = s.cols ∧
  ∃ r' s', r.sum_duplicates t = .ok r' ∧ s.sum_duplicates t = .ok s' ∧ r'.rowptr = s'.rowptr ∧ r'.triples = s'.triples

theorem CSR.WF.mem_triples {a : CSR T} {t : IntTy} (_ : a.WF t) {i : Nat} (hi : i < a.rows) {e : Int × T} :
    e ∈ a.row i ↔ ((i : Int), e.1, e.2) ∈ a.triples := by
  unfold CSR.triples
  simp only [List.mem_flatMap, List.mem_range, List.mem_map, Prod.mk.injEq]
  constructor
  · intro h; exact ⟨i, hi, e, h, rfl, rfl, rfl⟩
  · rintro ⟨k, hk, f, hf, h1, h2, h3⟩
    have : k = i := by omega
    subst this
    rwa [← Prod.ext h2 h3]

theorem CSC.mem_triples' {a : CSC T} {j : Nat} {e : Int × T} : (j < a.cols ∧ e ∈ a.col j) ↔ (e.1, (j : Int), e.2) ∈ a.triples := by
  unfold CSC.triples
  simp only [List.mem_flatMap, List.mem_range, List.mem_map, Prod.mk.injEq]
  constructor
  · intro h; exact ⟨j, h.1, e, h.2, rfl, rfl, rfl⟩
  · rintro ⟨k, hk, f, hf, h1, h2, h3⟩
    have : k = j := by omega
    subst this
    exact ⟨hk, by rwa [← Prod.ext h1 h3]⟩

/-- what `sum_duplicates` leaves of a matrix without repeated positions and without stored zeros -/
theorem CSR.sum_duplicates_nonzero [AddCommMonoid T] {t : IntTy} {a : CSR T} (ha : a.WF t) (hn : (a.stored : Int) < t.hi)
    (hd : a.NoDup) (hz : ∀ i < a.rows, ∀ e ∈ a.row i, e.2 ≠ 0) :
    ∃ r, a.sum_duplicates t = .ok r ∧ r.WF t ∧ r.rows = a.rows ∧ r.cols = a.cols ∧ r.Canonical ∧
      (∀ i j, r.entry i j = a.entry i j) ∧ ∀ i < r.rows, ∀ e ∈ r.row i, e.2 ≠ 0 := by
  obtain ⟨r, h1, h2, h3, h4, h5, h6, h7, -⟩ := C07_csr_sum_duplicates t a ha hn
  refine ⟨r, h1, h2, h3, h4, h5, h6, fun i hi e he => ?_⟩
  have hi' : i < a.rows := by omega
  obtain ⟨v, hv⟩ := (h7 i e.1).1 ⟨e.2, (h2.mem_triples hi).1 he⟩
  have hv' : (e.1, v) ∈ a.row i := (ha.mem_triples hi' (e := (e.1, v))).2 hv
  have e1 : rowSum (a.row i) e.1 = v := rowSum_nodup (hd i hi') hv'
  have e2 : rowSum (r.row i) e.1 = e.2 :=
    rowSum_nodup (List.pairwise_map.2 ((h5 i hi).imp fun h => ne_of_lt h)) he
  have h0 := (h2.mem hi he).1
  have := h6 i e.1.toNat
  unfold CSR.entry at this
  rw [Int.toNat_of_nonneg h0, e1, e2] at this
  rw [this]
  exact hz i hi' _ hv'

theorem CSR.SameStored.of [AddCommMonoid T] {t : IntTy} {r s : CSR T} (hr : r.WF t) (hs : s.WF t) (h1 : r.rows = s.rows)
    (h2 : r.cols = s.cols) (hnr : (r.stored : Int) < t.hi) (hns : (s.stored : Int) < t.hi) (hdr : r.NoDup) (hds : s.NoDup)
    (hzr : ∀ i < r.rows, ∀ e ∈ r.row i, e.2 ≠ 0) (hzs : ∀ i < s.rows, ∀ e ∈ s.row i, e.2 ≠ 0)
    (h : ∀ i j, r.entry i j = s.entry i j) : r.SameStored t s := by
  obtain ⟨r', r1, r2, r3, r4, r5, r6, r7⟩ := CSR.sum_duplicates_nonzero hr hnr hdr hzr
  obtain ⟨s', s1, s2, s3, s4, s5, s6, s7⟩ := CSR.sum_duplicates_nonzero hs hns hds hzs
  obtain ⟨e1, -, e2⟩ := C63_unique t r' s' r2 s2 (by omega) r5 s5 r7 s7 fun i j => by rw [r6, s6, h]
  exact ⟨h1, h2, r', s', r1, s1, e1, e2⟩

theorem CSR.WF.stored_le_values {t : IntTy} {a : CSR T} (ha : a.WF t) : a.stored ≤ a.values.length := by
  have := ha.rep.len_x
  rw [ha.stored_eq]
  omega

/-- the facts about a product used below -/
theorem CSR.mul_facts [NonUnitalNonAssocSemiring T] [DecidableEq T] {t : IntTy} {a b : CSR T} (ha : a.WF t) (hb : b.WF t)
    (hd : a.cols = b.rows) (hfit : ((a.rows * b.cols : Nat) : Int) < t.hi) :
    ∃ r, a.mul t b = .ok r ∧ r.WF t ∧ r.rows = a.rows ∧ r.cols = b.cols ∧
      (∀ i k, r.entry i k = ∑ j ∈ Finset.range a.cols, a.entry i j * b.entry j k) ∧ r.NoDup ∧
      (∀ i < r.rows, ∀ e ∈ r.row i, e.2 ≠ 0) ∧ r.stored ≤ a.rows * b.cols := by
  have hs := C13_slots_le a b
  obtain ⟨r, -, h1, h2, h3, h4, h5, h6, h7, -, h8, -⟩ := C13_csr_mat_mat t a b ha hb hd (by omega)
  exact ⟨r, h1, h2, h3, h4, h5, h6, fun i hi => h7 i (by omega), by have := h2.stored_le_values; omega⟩

/-- the facts about a sum used below -/
theorem CSR.add_facts [AddCommMonoid T] [DecidableEq T] {t : IntTy} {a b : CSR T} (ha : a.WF t) (hb : b.WF t)
    (hr : b.rows = a.rows) (hc : b.cols = a.cols) (hfit : ((a.stored + b.stored : Nat) : Int) < t.hi) :
    ∃ r, a.add t b = .ok r ∧ r.WF t ∧ r.rows = a.rows ∧ r.cols = a.cols ∧
      (∀ i j, r.entry i j = a.entry i j + b.entry i j) ∧ r.NoDup ∧
      (∀ i < r.rows, ∀ e ∈ r.row i, e.2 ≠ 0) ∧ r.stored ≤ a.stored + b.stored := by
  obtain ⟨r, h1, h2, h3, h4, h5, h6, h7, -, h8, -⟩ := C15_csr_add t a b ha hb hr hc hfit
  exact ⟨r, h1, h2, h3, h4, h5, h6, fun i hi => h7 i (by omega), by have := h2.stored_le_values; omega⟩

/-- the facts about a difference used below -/
theorem CSR.sub_facts [AddCommGroup T] [DecidableEq T] {t : IntTy} {a b : CSR T} (ha : a.WF t) (hb : b.WF t)
    (hr : b.rows = a.rows) (hc : b.cols = a.cols) (hfit : ((a.stored + b.stored : Nat) : Int) < t.hi) :
    ∃ r, a.sub t b = .ok r ∧ r.WF t ∧ r.rows = a.rows ∧ r.cols = a.cols ∧
      (∀ i j, r.entry i j = a.entry i j - b.entry i j) ∧ r.NoDup ∧
      (∀ i < r.rows, ∀ e ∈ r.row i, e.2 ≠ 0) ∧ r.stored ≤ a.stored + b.stored := by
  obtain ⟨r, h1, h2, h3, h4, h5, h6, h7, -, h8, -⟩ := C15_csr_sub t a b ha hb hr hc hfit
  exact ⟨r, h1, h2, h3, h4, h5, h6, fun i hi => h7 i (by omega), by have := h2.stored_le_values; omega⟩

/-- C93. The product is associative: `(a * b) * c` and `a * (b * c)` store the same entries. -/
theorem C93_mul_assoc [NonUnitalSemiring T] [DecidableEq T] (t : IntTy) (a b c : CSR T) (ha : a.WF t) (hb : b.WF t)
    (hc : c.WF t) (h1 : a.cols = b.rows) (h2 : b.cols = c.rows) (f1 : ((a.rows * b.cols : Nat) : Int) < t.hi)
    (f2 : ((b.rows * c.cols : Nat) : Int) < t.hi) (f3 : ((a.rows * c.cols : Nat) : Int) < t.hi) :
    ∃ ab bc r s, a.mul t b = .ok ab ∧ ab.mul t c = .ok r ∧ b.mul t c = .ok bc ∧ a.mul t bc = .ok s ∧ r.SameStored t s := by
  obtain ⟨ab, g1, g2, g3, g4, g5, -⟩ := CSR.mul_facts ha hb h1 f1
  obtain ⟨bc, k1, k2, k3, k4, k5, -⟩ := CSR.mul_facts hb hc h2 f2
  obtain ⟨r, r1, r2, r3, r4, r5, r6, r7, r8⟩ := CSR.mul_facts g2 hc (by omega) (by rw [g3]; exact f3)
  obtain ⟨s, s1, s2, s3, s4, s5, s6, s7, s8⟩ := CSR.mul_facts ha k2 (by omega) (by rw [k4]; exact f3)
  refine ⟨ab, bc, r, s, g1, r1, k1, s1, .of r2 s2 (by omega) (by omega) ?_ ?_ r6 s6 r7 s7 fun i k => ?_⟩
  · rw [g3] at r8; omega
  · rw [k4] at s8; omega
  rw [r5, s5, g4]
  simp only [g5, k5, Finset.sum_mul, Finset.mul_sum, mul_assoc]
  exact Finset.sum_comm

/-- C93. The product distributes over sums of right factors. -/
theorem C93_mul_add [NonUnitalNonAssocSemiring T] [DecidableEq T] (t : IntTy) (a b c : CSR T) (ha : a.WF t) (hb : b.WF t)
    (hc : c.WF t) (h1 : a.cols = b.rows) (h2 : c.rows = b.rows) (h3 : c.cols = b.cols)
    (f1 : ((b.stored + c.stored : Nat) : Int) < t.hi) (f2 : ((a.rows * b.cols + a.rows * b.cols : Nat) : Int) < t.hi) :
    ∃ bc ab ac r s, b.add t c = .ok bc ∧ a.mul t bc = .ok r ∧ a.mul t b = .ok ab ∧ a.mul t c = .ok ac ∧
      ab.add t ac = .ok s ∧ r.SameStored t s := by
  obtain ⟨bc, g1, g2, g3, g4, g5, -⟩ := CSR.add_facts hb hc h2 h3 f1
  obtain ⟨ab, k1, k2, k3, k4, k5, -, -, k8⟩ := CSR.mul_facts (t := t) ha hb h1 (by omega)
  obtain ⟨ac, l1, l2, l3, l4, l5, -, -, l8⟩ := CSR.mul_facts (t := t) ha hc (by omega) (by rw [h3]; omega)
  rw [h3] at l8
  obtain ⟨r, r1, r2, r3, r4, r5, r6, r7, r8⟩ := CSR.mul_facts (t := t) ha g2 (by omega) (by rw [g4]; omega)
  rw [g4] at r8
  obtain ⟨s, s1, s2, s3, s4, s5, s6, s7, s8⟩ := CSR.add_facts (t := t) k2 l2 (by omega) (by omega) (by omega)
  refine ⟨bc, ab, ac, r, s, g1, r1, k1, l1, s1, .of r2 s2 (by omega) (by omega) (by omega) (by omega) r6 s6 r7 s7 fun i k => ?_⟩
  rw [r5, s5, k5, l5]
  simp only [g5, mul_add, Finset.sum_add_distrib]

/-- C93. The product distributes over sums of left factors. -/
theorem C93_add_mul [NonUnitalNonAssocSemiring T] [DecidableEq T] (t : IntTy) (a b c : CSR T) (ha : a.WF t) (hb : b.WF t)
    (hc : c.WF t) (h1 : b.rows = a.rows) (h2 : b.cols = a.cols) (h3 : a.cols = c.rows)
    (f1 : ((a.stored + b.stored : Nat) : Int) < t.hi) (f2 : ((a.rows * c.cols + a.rows * c.cols : Nat) : Int) < t.hi) :
    ∃ ab ac bc r s, a.add t b = .ok ab ∧ ab.mul t c = .ok r ∧ a.mul t c = .ok ac ∧ b.mul t c = .ok bc ∧
      ac.add t bc = .ok s ∧ r.SameStored t s := by
  obtain ⟨ab, g1, g2, g3, g4, g5, -⟩ := CSR.add_facts ha hb h1 h2 f1
  obtain ⟨ac, k1, k2, k3, k4, k5, -, -, k8⟩ := CSR.mul_facts (t := t) ha hc h3 (by omega)
  obtain ⟨bc, l1, l2, l3, l4, l5, -, -, l8⟩ := CSR.mul_facts (t := t) hb hc (by omega) (by rw [h1]; omega)
  rw [h1] at l8
  obtain ⟨r, r1, r2, r3, r4, r5, r6, r7, r8⟩ := CSR.mul_facts (t := t) g2 hc (by omega) (by rw [g3]; omega)
  rw [g3] at r8
  obtain ⟨s, s1, s2, s3, s4, s5, s6, s7, s8⟩ := CSR.add_facts (t := t) k2 l2 (by omega) (by omega) (by omega)
  refine ⟨ab, ac, bc, r, s, g1, r1, k1, l1, s1, .of r2 s2 (by omega) (by omega) (by omega) (by omega) r6 s6 r7 s7 fun i k => ?_⟩
  rw [r5, s5, k5, l5, g4, h2]
  simp only [g5, add_mul, Finset.sum_add_distrib]

/-- C93. The product distributes over differences of right factors. -/
theorem C93_mul_sub [NonUnitalNonAssocRing T] [DecidableEq T] (t : IntTy) (a b c : CSR T) (ha : a.WF t) (hb : b.WF t)
    (hc : c.WF t) (h1 : a.cols = b.rows) (h2 : c.rows = b.rows) (h3 : c.cols = b.cols)
    (f1 : ((b.stored + c.stored : Nat) : Int) < t.hi) (f2 : ((a.rows * b.cols + a.rows * b.cols : Nat) : Int) < t.hi) :
    ∃ bc ab ac r s, b.sub t c = .ok bc ∧ a.mul t bc = .ok r ∧ a.mul t b = .ok ab ∧ a.mul t c = .ok ac ∧
      ab.sub t ac = .ok s ∧ r.SameStored t s := by
  obtain ⟨bc, g1, g2, g3, g4, g5, -⟩ := CSR.sub_facts hb hc h2 h3 f1
  obtain ⟨ab, k1, k2, k3, k4, k5, -, -, k8⟩ := CSR.mul_facts (t := t) ha hb h1 (by omega)
  obtain ⟨ac, l1, l2, l3, l4, l5, -, -, l8⟩ := CSR.mul_facts (t := t) ha hc (by omega) (by rw [h3]; omega)
  rw [h3] at l8
  obtain ⟨r, r1, r2, r3, r4, r5, r6, r7, r8⟩ := CSR.mul_facts (t := t) ha g2 (by omega) (by rw [g4]; omega)
  rw [g4] at r8
  obtain ⟨s, s1, s2, s3, s4, s5, s6, s7, s8⟩ := CSR.sub_facts (t := t) k2 l2 (by omega) (by omega) (by omega)
  refine ⟨bc, ab, ac, r, s, g1, r1, k1, l1, s1, .of r2 s2 (by omega) (by omega) (by omega) (by omega) r6 s6 r7 s7 fun i k => ?_⟩
  rw [r5, s5, k5, l5]
  simp only [g5, mul_sub, Finset.sum_sub_distrib]

/-- C93. The product distributes over differences of left factors. -/
theorem C93_sub_mul [NonUnitalNonAssocRing T] [DecidableEq T] (t : IntTy) (a b c : CSR T) (ha : a.WF t) (hb : b.WF t)
    (hc : c.WF t) (h1 : b.rows = a.rows) (h2 : b.cols = a.cols) (h3 : a.cols = c.rows)
    (f1 : ((a.stored + b.stored : Nat) : Int) < t.hi) (f2 : ((a.rows * c.cols + a.rows * c.cols : Nat) : Int) < t.hi) :
    ∃ ab ac bc r s, a.sub t b = .ok ab ∧ ab.mul t c = .ok r ∧ a.mul t c = .ok ac ∧ b.mul t c = .ok bc ∧
      ac.sub t bc = .ok s ∧ r.SameStored t s := by
  obtain ⟨ab, g1, g2, g3, g4, g5, -⟩ := CSR.sub_facts ha hb h1 h2 f1
  obtain ⟨ac, k1, k2, k3, k4, k5, -, -, k8⟩ := CSR.mul_facts (t := t) ha hc h3 (by omega)
  obtain ⟨bc, l1, l2, l3, l4, l5, -, -, l8⟩ := CSR.mul_facts (t := t) hb hc (by omega) (by rw [h1]; omega)
  rw [h1] at l8
  obtain ⟨r, r1, r2, r3, r4, r5, r6, r7, r8⟩ := CSR.mul_facts (t := t) g2 hc (by omega) (by rw [g3]; omega)
  rw [g3] at r8
  obtain ⟨s, s1, s2, s3, s4, s5, s6, s7, s8⟩ := CSR.sub_facts (t := t) k2 l2 (by omega) (by omega) (by omega)
  refine ⟨ab, ac, bc, r, s, g1, r1, k1, l1, s1, .of r2 s2 (by omega) (by omega) (by omega) (by omega) r6 s6 r7 s7 fun i k => ?_⟩
  rw [r5, s5, k5, l5, g4, h2]
  simp only [g5, sub_mul, Finset.sum_sub_distrib]

/-- C93. Addition is associative and commutative whatever the order of the entries in the rows and however often a
position is stored. -/
theorem C93_add_comm_assoc [AddCommMonoid T] [DecidableEq T] (t : IntTy) (a b c : CSR T) (ha : a.WF t) (hb : b.WF t) (hc : c.WF t)
    (h1 : b.rows = a.rows) (h2 : b.cols = a.cols) (h3 : c.rows = a.rows) (h4 : c.cols = a.cols)
    (hfit : ((a.stored + b.stored + c.stored : Nat) : Int) < t.hi) :
    ∃ ab ba bc r s, a.add t b = .ok ab ∧ b.add t a = .ok ba ∧ ab.SameStored t ba ∧ ab.add t c = .ok r ∧
      b.add t c = .ok bc ∧ a.add t bc = .ok s ∧ r.SameStored t s := by
  obtain ⟨ab, g1, g2, g3, g4, g5, g6, g7, g8⟩ := CSR.add_facts (t := t) ha hb h1 h2 (by omega)
  obtain ⟨ba, l1, l2, l3, l4, l5, l6, l7, l8⟩ := CSR.add_facts (t := t) hb ha h1.symm h2.symm (by omega)
  obtain ⟨bc, k1, k2, k3, k4, k5, k6, k7, k8⟩ := CSR.add_facts (t := t) hb hc (by omega) (by omega) (by omega)
  obtain ⟨r, r1, r2, r3, r4, r5, r6, r7, r8⟩ := CSR.add_facts (t := t) g2 hc (by omega) (by omega) (by omega)
  obtain ⟨s, s1, s2, s3, s4, s5, s6, s7, s8⟩ := CSR.add_facts (t := t) ha k2 (by omega) (by omega) (by omega)
  exact ⟨ab, ba, bc, r, s, g1, l1,
    .of g2 l2 (by omega) (by omega) (by omega) (by omega) g6 l6 g7 l7 fun i j => by rw [g5, l5, add_comm], r1, k1, s1,
    .of r2 s2 (by omega) (by omega) (by omega) (by omega) r6 s6 r7 s7 fun i j => by rw [r5, g5, s5, k5, add_assoc]⟩

theorem CSR.triples_nil [AddCommMonoid T] {t : IntTy} {r : CSR T} (hr : r.WF t) (hd : r.NoDup)
    (hz : ∀ i < r.rows, ∀ e ∈ r.row i, e.2 ≠ 0) (h : ∀ i j, r.entry i j = 0) : r.triples = [] := by
  rw [List.eq_nil_iff_forall_not_mem]
  intro e he
  unfold CSR.triples at he
  simp only [List.mem_flatMap, List.mem_range, List.mem_map] at he
  obtain ⟨i, hi, f, hf, -⟩ := he
  have h0 := (hr.mem hi hf).1
  have := h i f.1.toNat
  unfold CSR.entry at this
  rw [Int.toNat_of_nonneg h0, rowSum_nodup (hd i hi) hf] at this
  exact hz i hi f hf this

/-- C93. `a - a`, `a + (-a)` and `a * 0` store nothing at all. -/
theorem C93_cancel [NonUnitalNonAssocRing T] [DecidableEq T] (t : IntTy) (a : CSR T) (ha : a.WF t)
    (hfit : ((a.stored + a.stored : Nat) : Int) < t.hi) :
    (∃ r, a.sub t a = .ok r ∧ r.triples = []) ∧
    (∃ n r, a.neg = .ok n ∧ a.add t n = .ok r ∧ r.triples = []) ∧
    ∀ k : Nat, ((a.rows * k : Nat) : Int) < t.hi → ∃ r, a.mul t (CSR.with_size a.cols k) = .ok r ∧ r.triples = [] := by
  refine ⟨?_, ?_, fun k hk => ?_⟩
  · obtain ⟨r, h1, h2, h3, h4, h5, h6, h7, -⟩ := CSR.sub_facts ha ha rfl rfl hfit
    exact ⟨r, h1, CSR.triples_nil h2 h6 h7 fun i j => by rw [h5, sub_self]⟩
  · obtain ⟨n, n1, n2, n3, n4, n5, n6, n7, -⟩ := C21_csr_neg t a ha
    have hs : n.stored = a.stored := by
      have e1 := ha.rep.ptr a.rows le_rfl
      have e2 := n2.rep.ptr n.rows le_rfl
      rw [n5, n3, e1] at e2
      rw [n2.stored_eq, ha.stored_eq, n3]
      have := Option.some.inj e2
      omega
    obtain ⟨r, h1, h2, h3, h4, h5, h6, h7, -⟩ := CSR.add_facts ha n2 n3 n4 (by rw [hs]; exact hfit)
    exact ⟨n, r, n1, h1, CSR.triples_nil h2 h6 h7 fun i j => by rw [h5, n7, add_neg_cancel]⟩
  · obtain ⟨z1, z2, -⟩ := C47_with_size (T := T) t a.cols k
    obtain ⟨r, h1, h2, h3, h4, h5, h6, h7, -⟩ := CSR.mul_facts (b := CSR.with_size a.cols k) ha z1 rfl hk
    exact ⟨r, h1, CSR.triples_nil h2 h6 h7 fun i j => by rw [h5]; simp [z2]⟩

/-- C93. The diagonal matrix of ones is neutral: for a matrix without repeated positions and stored zeros, the products
with it store the same entries; so does adding the matrix without entries. -/
theorem C93_neutral [NonAssocSemiring T] [DecidableEq T] (t : IntTy) (a : CSR T) (ha : a.WF t) (hd : a.NoDup)
    (hz : ∀ i < a.rows, ∀ e ∈ a.row i, e.2 ≠ 0) (hfit : ((a.rows * a.cols : Nat) : Int) < t.hi)
    (hs : (a.stored : Int) < t.hi) (hr : (a.rows : Int) ≤ t.hi) (hc : (a.cols : Int) ≤ t.hi) :
    (∃ e r, CSR.with_diagonal t (List.replicate a.cols 1) = .ok e ∧ a.mul t e = .ok r ∧ r.SameStored t a) ∧
    (∃ e r, CSR.with_diagonal t (List.replicate a.rows 1) = .ok e ∧ e.mul t a = .ok r ∧ r.SameStored t a) ∧
    ∃ r, a.add t (CSR.with_size a.rows a.cols) = .ok r ∧ r.SameStored t a := by
  refine ⟨?_, ?_, ?_⟩
  · obtain ⟨e, e1, e2, -, e3, e4, e5, -⟩ := C47_csr_with_diagonal t (List.replicate a.cols (1 : T)) (by simpa using hc)
    simp only [List.length_replicate] at e3 e4
    obtain ⟨r, r1, r2, r3, r4, r5, r6, r7, r8⟩ := CSR.mul_facts (t := t) ha e2 e3.symm (by rw [e4]; exact hfit)
    rw [e4] at r8
    refine ⟨e, r, e1, r1, .of r2 ha r3 (by omega) (by omega) hs r6 hd r7 hz fun i k => ?_⟩
    rw [r5]
    by_cases hk : k < a.cols
    · rw [Finset.sum_eq_single k]
      · rw [e5]; simp [diagEntry, hk]
      · intro j _ hj; rw [e5]; simp [diagEntry, hj]
      · simp [hk]
    · rw [Finset.sum_eq_zero]
      · symm
        by_cases hi : i < a.rows
        · exact rowSum_eq_zero fun e he hh => by have := (ha.mem hi he).2.1; omega
        · unfold CSR.entry; rw [ha.row_out (by omega)]; rfl
      · intro j hj
        rw [e5, diagEntry, if_neg (by simp at hj; omega), mul_zero]
  · obtain ⟨e, e1, e2, -, e3, e4, e5, -⟩ := C47_csr_with_diagonal t (List.replicate a.rows (1 : T)) (by simpa using hr)
    simp only [List.length_replicate] at e3 e4
    obtain ⟨r, r1, r2, r3, r4, r5, r6, r7, r8⟩ := CSR.mul_facts (t := t) e2 ha e4 (by rw [e3]; exact hfit)
    rw [e3] at r8
    refine ⟨e, r, e1, r1, .of r2 ha (by omega) r4 (by omega) hs r6 hd r7 hz fun i k => ?_⟩
    rw [r5, e4]
    by_cases hi : i < a.rows
    · rw [Finset.sum_eq_single i]
      · rw [e5]; simp [diagEntry, hi]
      · intro j _ hj; rw [e5]; simp [diagEntry, Ne.symm hj]
      · simp [hi]
    · rw [Finset.sum_eq_zero]
      · unfold CSR.entry; rw [ha.row_out (by omega)]; rfl
      · intro j hj
        rw [e5, diagEntry, if_neg (by simp at hj; omega), zero_mul]
  · obtain ⟨z1, z2, -⟩ := C47_with_size (T := T) t a.rows a.cols
    have z3 : (CSR.with_size a.rows a.cols : CSR T).stored = 0 := by
      have := z1.stored_le_values
      simpa [CSR.with_size] using this
    obtain ⟨r, r1, r2, r3, r4, r5, r6, r7, r8⟩ := CSR.add_facts (t := t) ha z1 rfl rfl (by rw [z3]; exact hs)
    rw [z3] at r8
    exact ⟨r, r1, .of r2 ha r3 r4 (by omega) hs r6 hd r7 hz fun i j => by rw [r5, z2, add_zero]⟩

/-- Specification: the same of two CSC matrices. -/
def CSC.SameStored [Zero T] [Add T] (t : IntTy) (r s : CSC T) : Prop :=
  r.rows = s.rows ∧ r.cols = s.cols ∧
  ∃ r' s', r.sum_duplicates t = .ok r' ∧ s.sum_duplicates t = .ok s' ∧ r'.colptr = s'.colptr ∧ r'.triples = s'.triples

theorem CSC.sum_duplicates_nonzero [AddCommMonoid T] {t : IntTy} {a : CSC T} (ha : a.WF t) (hn : (a.stored : Int) < t.hi)
    (hd : a.NoDup) (hz : ∀ j < a.cols, ∀ e ∈ a.col j, e.2 ≠ 0) :
    ∃ r, a.sum_duplicates t = .ok r ∧ r.WF t ∧ r.rows = a.rows ∧ r.cols = a.cols ∧ r.Canonical ∧
      (∀ i j, r.entry i j = a.entry i j) ∧ ∀ j < r.cols, ∀ e ∈ r.col j, e.2 ≠ 0 := by
  obtain ⟨r, h1, h2, h3, h4, h5, h6, h7, -⟩ := C07_csc_sum_duplicates t a ha hn
  refine ⟨r, h1, h2, h3, h4, h5, h6, fun j hj e he => ?_⟩
  have hj' : j < a.cols := by omega
  obtain ⟨v, hv⟩ := (h7 e.1 j).1 ⟨e.2, CSC.mem_triples'.1 ⟨hj, he⟩⟩
  have hv' : (e.1, v) ∈ a.col j := (CSC.mem_triples'.2 hv).2
  have e1 : rowSum (a.col j) e.1 = v := rowSum_nodup (hd j hj') hv'
  have e2 : rowSum (r.col j) e.1 = e.2 :=
    rowSum_nodup (List.pairwise_map.2 ((h5 j hj).imp fun h => ne_of_lt h)) he
  have h0 := (CSR.WF.mem (a := r.asCSR) h2 hj he).1
  have := h6 e.1.toNat j
  unfold CSC.entry at this
  rw [Int.toNat_of_nonneg h0, e1, e2] at this
  rw [this]
  exact hz j hj' _ hv'

theorem CSC.SameStored.of [AddCommMonoid T] {t : IntTy} {r s : CSC T} (hr : r.WF t) (hs : s.WF t) (h1 : r.rows = s.rows)
    (h2 : r.cols = s.cols) (hnr : (r.stored : Int) < t.hi) (hns : (s.stored : Int) < t.hi) (hdr : r.NoDup) (hds : s.NoDup)
    (hzr : ∀ i < r.cols, ∀ e ∈ r.col i, e.2 ≠ 0) (hzs : ∀ i < s.cols, ∀ e ∈ s.col i, e.2 ≠ 0)
    (h : ∀ i j, r.entry i j = s.entry i j) : r.SameStored t s := by
  obtain ⟨r', r1, r2, r3, r4, r5, r6, r7⟩ := CSC.sum_duplicates_nonzero hr hnr hdr hzr
  obtain ⟨s', s1, s2, s3, s4, s5, s6, s7⟩ := CSC.sum_duplicates_nonzero hs hns hds hzs
  obtain ⟨e1, e2, -⟩ := C63_unique t r'.asCSR s'.asCSR r2 s2 (by show s'.cols = r'.cols; omega) r5 s5 r7 s7
    fun i j => by show r'.entry j i = s'.entry j i; rw [r6, s6, h]
  refine ⟨h1, h2, r', s', r1, s1, e1, ?_⟩
  unfold CSC.triples
  rw [show r'.cols = s'.cols by omega]
  simp only [show ∀ j, r'.col j = s'.col j from e2]

theorem CSC.WF.stored_le_values {t : IntTy} {a : CSC T} (ha : a.WF t) : a.stored ≤ a.values.length :=
  CSR.WF.stored_le_values (a := a.asCSR) ha

/-- the facts about a product of CSC matrices used below -/
theorem CSC.mul_facts [NonUnitalNonAssocCommSemiring T] [DecidableEq T] {t : IntTy} {a b : CSC T} (ha : a.WF t) (hb : b.WF t)
    (hd : a.cols = b.rows) (hfit : ((a.rows * b.cols : Nat) : Int) < t.hi) :
    ∃ r, a.mul t b = .ok r ∧ r.WF t ∧ r.rows = a.rows ∧ r.cols = b.cols ∧
      (∀ i k, r.entry i k = ∑ j ∈ Finset.range a.cols, a.entry i j * b.entry j k) ∧ r.NoDup ∧
      (∀ i < r.cols, ∀ e ∈ r.col i, e.2 ≠ 0) ∧ r.stored ≤ a.rows * b.cols := by
  have hs := C14_slots_le a b
  obtain ⟨r, -, h1, h2, h3, h4, h5, h6, h7, -, h8, -⟩ := C14_csc_mat_mat t a b ha hb hd.symm (by omega)
  exact ⟨r, h1, h2, h3, h4, h5, h6, fun i hi => h7 i (by omega), by have := h2.stored_le_values; omega⟩

/-- the facts about a sum of CSC matrices used below -/
theorem CSC.add_facts [AddCommMonoid T] [DecidableEq T] {t : IntTy} {a b : CSC T} (ha : a.WF t) (hb : b.WF t)
    (hr : b.rows = a.rows) (hc : b.cols = a.cols) (hfit : ((a.stored + b.stored : Nat) : Int) < t.hi) :
    ∃ r, a.add_op t b = .ok r ∧ r.WF t ∧ r.rows = a.rows ∧ r.cols = a.cols ∧
      (∀ i j, r.entry i j = a.entry i j + b.entry i j) ∧ r.NoDup ∧
      (∀ i < r.cols, ∀ e ∈ r.col i, e.2 ≠ 0) ∧ r.stored ≤ a.stored + b.stored := by
  obtain ⟨r, h1, h2, h3, h4, h5, h6, h7, -, h8, -⟩ := C18_csc_add_op t a b ha hb hr hc hfit
  exact ⟨r, h1, h2, h3, h4, h5, h6, fun i hi => h7 i (by omega), by have := h2.stored_le_values; omega⟩

/-- C93. The product of CSC matrices over a commutative semiring is associative. -/
theorem C93_csc_mul_assoc [NonUnitalCommSemiring T] [DecidableEq T] (t : IntTy) (a b c : CSC T) (ha : a.WF t) (hb : b.WF t)
    (hc : c.WF t) (h1 : a.cols = b.rows) (h2 : b.cols = c.rows) (f1 : ((a.rows * b.cols : Nat) : Int) < t.hi)
    (f2 : ((b.rows * c.cols : Nat) : Int) < t.hi) (f3 : ((a.rows * c.cols : Nat) : Int) < t.hi) :
    ∃ ab bc r s, a.mul t b = .ok ab ∧ ab.mul t c = .ok r ∧ b.mul t c = .ok bc ∧ a.mul t bc = .ok s ∧ r.SameStored t s := by
  obtain ⟨ab, g1, g2, g3, g4, g5, -⟩ := CSC.mul_facts ha hb h1 f1
  obtain ⟨bc, k1, k2, k3, k4, k5, -⟩ := CSC.mul_facts hb hc h2 f2
  obtain ⟨r, r1, r2, r3, r4, r5, r6, r7, r8⟩ := CSC.mul_facts g2 hc (by omega) (by rw [g3]; exact f3)
  obtain ⟨s, s1, s2, s3, s4, s5, s6, s7, s8⟩ := CSC.mul_facts ha k2 (by omega) (by rw [k4]; exact f3)
  refine ⟨ab, bc, r, s, g1, r1, k1, s1, .of r2 s2 (by omega) (by omega) ?_ ?_ r6 s6 r7 s7 fun i k => ?_⟩
  · rw [g3] at r8; omega
  · rw [k4] at s8; omega
  rw [r5, s5, g4]
  simp only [g5, k5, Finset.sum_mul, Finset.mul_sum, mul_assoc]
  exact Finset.sum_comm

/-- C93. The product of CSC matrices over a commutative semiring distributes over sums of right and of left factors. -/
theorem C93_csc_distrib [NonUnitalNonAssocCommSemiring T] [DecidableEq T] (t : IntTy) (a b c d : CSC T) (ha : a.WF t) (hb : b.WF t)
    (hc : c.WF t) (hd : d.WF t) (h1 : a.cols = b.rows) (h2 : c.rows = b.rows) (h3 : c.cols = b.cols) (h4 : b.cols = d.rows)
    (f1 : ((b.stored + c.stored : Nat) : Int) < t.hi) (f2 : ((a.rows * b.cols + a.rows * b.cols : Nat) : Int) < t.hi)
    (f3 : ((b.rows * d.cols + b.rows * d.cols : Nat) : Int) < t.hi) :
    ∃ bc ab ac bd cd r s r' s', b.add_op t c = .ok bc ∧ a.mul t bc = .ok r ∧ a.mul t b = .ok ab ∧ a.mul t c = .ok ac ∧
      ab.add_op t ac = .ok s ∧ r.SameStored t s ∧ bc.mul t d = .ok r' ∧ b.mul t d = .ok bd ∧ c.mul t d = .ok cd ∧
      bd.add_op t cd = .ok s' ∧ r'.SameStored t s' := by
  obtain ⟨bc, g1, g2, g3, g4, g5, -⟩ := CSC.add_facts hb hc h2 h3 f1
  obtain ⟨ab, k1, k2, k3, k4, k5, -, -, k8⟩ := CSC.mul_facts (t := t) ha hb h1 (by omega)
  obtain ⟨ac, l1, l2, l3, l4, l5, -, -, l8⟩ := CSC.mul_facts (t := t) ha hc (by omega) (by rw [h3]; omega)
  rw [h3] at l8
  obtain ⟨r, r1, r2, r3, r4, r5, r6, r7, r8⟩ := CSC.mul_facts (t := t) ha g2 (by omega) (by rw [g4]; omega)
  rw [g4] at r8
  obtain ⟨s, s1, s2, s3, s4, s5, s6, s7, s8⟩ := CSC.add_facts (t := t) k2 l2 (by omega) (by omega) (by omega)
  obtain ⟨bd, m1, m2, m3, m4, m5, -, -, m8⟩ := CSC.mul_facts (t := t) hb hd h4 (by omega)
  obtain ⟨cd, n1, n2, n3, n4, n5, -, -, n8⟩ := CSC.mul_facts (t := t) hc hd (by omega) (by rw [h2]; omega)
  rw [h2] at n8
  obtain ⟨u, u1, u2, u3, u4, u5, u6, u7, u8⟩ := CSC.mul_facts (t := t) g2 hd (by omega) (by rw [g3]; omega)
  rw [g3] at u8
  obtain ⟨v, v1, v2, v3, v4, v5, v6, v7, v8⟩ := CSC.add_facts (t := t) m2 n2 (by omega) (by omega) (by omega)
  refine ⟨bc, ab, ac, bd, cd, r, s, u, v, g1, r1, k1, l1, s1,
    .of r2 s2 (by omega) (by omega) (by omega) (by omega) r6 s6 r7 s7 fun i k => ?_, u1, m1, n1, v1,
    .of u2 v2 (by omega) (by omega) (by omega) (by omega) u6 v6 u7 v7 fun i k => ?_⟩
  · rw [r5, s5, k5, l5]
    simp only [g5, mul_add, Finset.sum_add_distrib]
  · rw [u5, v5, m5, n5, g4, h3]
    simp only [g5, add_mul, Finset.sum_add_distrib]

/-- C93. Addition of CSC matrices is associative and commutative. -/
theorem C93_csc_add_comm_assoc [AddCommMonoid T] [DecidableEq T] (t : IntTy) (a b c : CSC T) (ha : a.WF t) (hb : b.WF t) (hc : c.WF t)
    (h1 : b.rows = a.rows) (h2 : b.cols = a.cols) (h3 : c.rows = a.rows) (h4 : c.cols = a.cols)
    (hfit : ((a.stored + b.stored + c.stored : Nat) : Int) < t.hi) :
    ∃ ab ba bc r s, a.add_op t b = .ok ab ∧ b.add_op t a = .ok ba ∧ ab.SameStored t ba ∧ ab.add_op t c = .ok r ∧
      b.add_op t c = .ok bc ∧ a.add_op t bc = .ok s ∧ r.SameStored t s := by
  obtain ⟨ab, g1, g2, g3, g4, g5, g6, g7, g8⟩ := CSC.add_facts (t := t) ha hb h1 h2 (by omega)
  obtain ⟨ba, l1, l2, l3, l4, l5, l6, l7, l8⟩ := CSC.add_facts (t := t) hb ha h1.symm h2.symm (by omega)
  obtain ⟨bc, k1, k2, k3, k4, k5, k6, k7, k8⟩ := CSC.add_facts (t := t) hb hc (by omega) (by omega) (by omega)
  obtain ⟨r, r1, r2, r3, r4, r5, r6, r7, r8⟩ := CSC.add_facts (t := t) g2 hc (by omega) (by omega) (by omega)
  obtain ⟨s, s1, s2, s3, s4, s5, s6, s7, s8⟩ := CSC.add_facts (t := t) ha k2 (by omega) (by omega) (by omega)
  exact ⟨ab, ba, bc, r, s, g1, l1,
    .of g2 l2 (by omega) (by omega) (by omega) (by omega) g6 l6 g7 l7 fun i j => by rw [g5, l5, add_comm], r1, k1, s1,
    .of r2 s2 (by omega) (by omega) (by omega) (by omega) r6 s6 r7 s7 fun i j => by rw [r5, g5, s5, k5, add_assoc]⟩

/-- C93. Scalars move freely through products: `(a * s) * b`, `(a * b) * s` and `a * (b * s)` have the same entries over a
commutative ring, and so the same `to_dense`. -/
theorem C93_scale_mul [CommRing T] [DecidableEq T] (t : IntTy) (a b : CSR T) (s : T) (ha : a.WF t) (hb : b.WF t)
    (hd : a.cols = b.rows) (hfit : ((a.rows * b.cols : Nat) : Int) < t.hi) :
    ∃ as bs ab u v w D, a.mul_scalar s = .ok as ∧ b.mul_scalar s = .ok bs ∧ a.mul t b = .ok ab ∧ as.mul t b = .ok u ∧
      a.mul t bs = .ok v ∧ ab.mul_scalar s = .ok w ∧ u.to_dense = .ok D ∧ v.to_dense = .ok D ∧ w.to_dense = .ok D ∧
      u.SameStored t v := by
  obtain ⟨as, a1, a2, a3, a4, -, -, a7⟩ := C20_csr_mul_scalar t a ha s
  obtain ⟨bs, b1, b2, b3, b4, -, -, b7⟩ := C20_csr_mul_scalar t b hb s
  obtain ⟨ab, g1, g2, g3, g4, g5, -⟩ := CSR.mul_facts ha hb hd hfit
  obtain ⟨u, u1, u2, u3, u4, u5, u6, u7, u8⟩ := CSR.mul_facts a2 hb (by omega) (by rw [a3]; exact hfit)
  obtain ⟨v, v1, v2, v3, v4, v5, v6, v7, v8⟩ := CSR.mul_facts ha b2 (by omega) (by rw [b4]; exact hfit)
  obtain ⟨w, w1, w2, w3, w4, -, -, w7⟩ := C20_csr_mul_scalar t ab g2 s
  rw [a3] at u8
  rw [b4] at v8
  have e1 : ∀ i k, u.entry i k = w.entry i k := fun i k => by
    rw [u5, w7, g5, a4, Finset.sum_mul]
    exact Finset.sum_congr rfl fun j _ => by rw [a7, mul_right_comm]
  have e2 : ∀ i k, v.entry i k = w.entry i k := fun i k => by
    rw [v5, w7, g5, Finset.sum_mul]
    exact Finset.sum_congr rfl fun j _ => by rw [b7, mul_assoc]
  refine ⟨as, bs, ab, u, v, w, dense w.rows w.cols w.entry, a1, b1, g1, u1, v1, w1, ?_, ?_, C06_csr_to_dense t w w2,
    .of u2 v2 (by omega) (by omega) (by omega) (by omega) u6 v6 u7 v7 fun i k => by rw [e1, e2]⟩
  · rw [C06_csr_to_dense t u u2, u3, u4, a3, w3, w4, g3, g4, show u.entry = w.entry from funext fun i => funext (e1 i)]
  · rw [C06_csr_to_dense t v v2, v3, v4, b4, w3, w4, g3, g4, show v.entry = w.entry from funext fun i => funext (e2 i)]

end

section
variable {T : Type}

theorem CSC.new_eq_map (n m : Nat) (p j : List Int) (x : List T) :
    CSC.new m n j p x = (CSR.new n m p j x).map fun r => ⟨r.cols, r.rows, r.colidx, r.rowptr, r.values⟩ := by
  unfold CSC.new CSR.new
  by_cases h1 : p.length ≠ n + 1
  · rw [if_pos h1, if_pos h1]; rfl
  rw [if_neg h1, if_neg h1]
  cases h2 : usub p.length 1 with
  | error e => rfl
  | ok k =>
    cases h3 : p.rd k with
    | error e => simp [bind, Except.bind, h3, Except.map, pure, Except.pure]
    | ok v =>
      cases h4 : toUsize v with
      | error e => simp [bind, Except.bind, h3, h4, Except.map, pure, Except.pure]
      | ok w =>
        by_cases h5 : j.length < w
        · simp [bind, Except.bind, h3, h4, h5, Except.map, pure, Except.pure, throw, throwThe, MonadExceptOf.throw]
        · by_cases h6 : x.length < w <;>
            simp [bind, Except.bind, h3, h4, h5, h6, Except.map, pure, Except.pure, throw, throwThe, MonadExceptOf.throw]

theorem CSR.new_transpose (n m : Nat) (p j : List Int) (x : List T) :
    (unwrapR (CSR.new n m p j x) >>= CSR.transpose) = unwrapR (CSC.new m n j p x) := by
  cases h : CSR.new n m p j x with
  | error e => rw [CSC.new_eq_map, h]; cases e <;> rfl
  | ok r =>
    have hr : r = ⟨n, m, p, j, x⟩ := by
      have e1 := CSC.new_eq_map n m p j x
      rw [h] at e1
      have : Ret (CSR.new n m p j x) fun r => r = ⟨n, m, p, j, x⟩ := by
        unfold CSR.new
        refine Ret.ite (Ret.bind' Ret.true fun _ _ => ?_) ?_
        all_goals
          refine Ret.bind' Ret.true fun _ _ => ?_
          refine Ret.bind' Ret.true fun _ _ => ?_
          refine Ret.bind' Ret.true fun _ _ => ?_
          refine Ret.ite (Ret.bind' Ret.true fun _ _ => ?_) ?_
          all_goals
            refine Ret.ite (Ret.bind' Ret.true fun _ _ => ?_) ?_
            all_goals exact Ret.pure rfl
      exact this r h
    subst hr
    rfl

/-- C93. The transpose of a product is the product of the transposes in reverse order, array by array, whatever the
scalars and even when the product panics. -/
theorem C93_transpose_mul [Zero T] [Add T] [Mul T] [BEq T] (t : IntTy) (a b : CSR T) (ha : a.WF t) (hb : b.WF t) :
    ∃ a' b', a.transpose = .ok a' ∧ b.transpose = .ok b' ∧ b'.mul t a' = (a.mul t b >>= CSR.transpose) := by
  refine ⟨_, _, by unfold CSR.transpose; rw [CSC.new_ok ha.rep]; rfl, by unfold CSR.transpose; rw [CSC.new_ok hb.rep]; rfl, ?_⟩
  unfold CSC.mul CSR.mul CSC.mat_mat CSR.mat_mat csc_matmat_maxnnz csc_matmat
  simp only
  by_cases h : a.cols ≠ b.rows
  · rw [if_pos h, if_pos h]; rfl
  rw [if_neg h, if_neg h]
  cases h1 : csr_matmat_maxnnz a.rows b.cols a.rowptr a.colidx b.rowptr b.colidx with
  | error e => cases e <;> rfl
  | ok k =>
    cases h2 : csr_matmat t a.rows b.cols a.rowptr a.colidx a.values b.rowptr b.colidx b.values (List.replicate (a.rows + 1) 0)
        (List.replicate k 0) (List.replicate k 0) with
    | error e =>
      simp only [bind, Except.bind, h2]
      cases e <;> rfl
    | ok v =>
      obtain ⟨p, j, x⟩ := v
      simp only [bind, Except.bind, h2]
      exact (CSR.new_transpose a.rows b.cols p j x).symm

/-- C93. The transpose of a sum is the sum of the transposes, array by array, whatever the scalars and even when the
sum panics. -/
theorem C93_transpose_add [Zero T] [Add T] [BEq T] (t : IntTy) (a b : CSR T) (ha : a.WF t) (hb : b.WF t) :
    ∃ a' b', a.transpose = .ok a' ∧ b.transpose = .ok b' ∧ a'.add_op t b' = (a.add t b >>= CSR.transpose) := by
  refine ⟨_, _, by unfold CSR.transpose; rw [CSC.new_ok ha.rep]; rfl, by unfold CSR.transpose; rw [CSC.new_ok hb.rep]; rfl, ?_⟩
  have ea := CSR.nnz_ok ha.rep
  have eb := CSR.nnz_ok hb.rep
  have ea' := CSC.nnz_ok (a := ⟨a.cols, a.rows, a.colidx, a.rowptr, a.values⟩) ha.rep
  have eb' := CSC.nnz_ok (a := ⟨b.cols, b.rows, b.colidx, b.rowptr, b.values⟩) hb.rep
  unfold CSC.add_op CSR.add
  rw [ea, eb, ea', eb']
  simp only [bind, Except.bind]
  split
  · rfl
  · exact (CSR.new_transpose _ _ _ _ _).symm

/-- C93. Multiplying a vector by a product of matrices is multiplying it by one factor after the other; by a sum of
matrices, adding the two products; by a difference, subtracting them; and a matrix maps sums of vectors to sums. -/
theorem C93_vectors [NonUnitalRing T] [DecidableEq T] (t : IntTy) (a b c : CSR T) (ha : a.WF t) (hb : b.WF t) (hc : c.WF t)
    (h1 : a.cols = b.rows) (h2 : c.rows = b.rows) (h3 : c.cols = b.cols) (f1 : ((a.rows * b.cols : Nat) : Int) < t.hi)
    (f2 : ((b.stored + c.stored : Nat) : Int) < t.hi) (x y : List T) (hx : x.length = b.cols) (hy : y.length = b.cols) :
    ∃ ab bpc bmc bx cx by' u, a.mul t b = .ok ab ∧ b.add t c = .ok bpc ∧ b.sub t c = .ok bmc ∧
      b.mat_vec x = .ok bx ∧ c.mat_vec x = .ok cx ∧ b.mat_vec y = .ok by' ∧ bx.length = b.rows ∧ cx.length = b.rows ∧
      ab.mat_vec x = .ok u ∧ a.mat_vec bx = .ok u ∧
      bpc.mat_vec x = .ok (bx.zipWith (· + ·) cx) ∧ bmc.mat_vec x = .ok (bx.zipWith (· - ·) cx) ∧
      b.mat_vec (x.zipWith (· + ·) y) = .ok (bx.zipWith (· + ·) by') := by
  obtain ⟨ab, g1, g2, g3, g4, g5, -⟩ := CSR.mul_facts ha hb h1 f1
  obtain ⟨p, p1, p2, p3, p4, p5, -⟩ := CSR.add_facts hb hc h2 h3 f2
  obtain ⟨q, q1, q2, q3, q4, q5, -⟩ := CSR.sub_facts hb hc h2 h3 f2
  have zw : ∀ (f : T → T → T) (u v : Nat → T) (n : Nat),
      ((List.range n).map u).zipWith f ((List.range n).map v) = (List.range n).map fun i => f (u i) (v i) := by
    intro f u v n
    rw [List.zipWith_map, List.zipWith_self]
  refine ⟨ab, p, q, _, _, _, _, g1, p1, q1, (C11_csr_mat_vec t b hb x).2 hx, (C11_csr_mat_vec t c hc x).2 (by omega),
    (C11_csr_mat_vec t b hb y).2 hy, by simp, by simp [h2], (C11_csr_mat_vec t ab g2 x).2 (by omega), ?_, ?_, ?_, ?_⟩
  · rw [(C11_csr_mat_vec t a ha _).2 (by simp [h1]), g3, g4]
    congr 1
    refine List.map_congr_left fun i _ => ?_
    simp only [g5, Finset.sum_mul, mul_assoc]
    rw [Finset.sum_comm]
    refine Finset.sum_congr rfl fun k hk => ?_
    rw [Finset.mem_range, h1] at hk
    rw [← Finset.mul_sum]
    congr 1
    simp [List.getD_eq_getElem?_getD, hk]
  · rw [(C11_csr_mat_vec t p p2 _).2 (by omega), p3, p4, h2, h3, zw]
    simp only [p5, add_mul, Finset.sum_add_distrib]
  · rw [(C11_csr_mat_vec t q q2 _).2 (by omega), q3, q4, h2, h3, zw]
    simp only [q5, sub_mul, Finset.sum_sub_distrib]
  · rw [(C11_csr_mat_vec t b hb _).2 (by simp [hx, hy]), zw]
    congr 1
    refine List.map_congr_left fun i _ => ?_
    rw [← Finset.sum_add_distrib]
    refine Finset.sum_congr rfl fun k hk => ?_
    rw [Finset.mem_range] at hk
    rw [← mul_add]
    congr 1
    have e1 : x[k]? = some x[k] := List.getElem?_eq_getElem (by omega)
    have e2 : y[k]? = some y[k] := List.getElem?_eq_getElem (by omega)
    rw [List.getD_eq_getElem?_getD, List.getElem?_zipWith, List.getD_eq_getElem?_getD, List.getD_eq_getElem?_getD, e1, e2]
    rfl

/-- the outermost operation is the operator `+`, `-` or `*` on CSR matrices -/
inductive Expr.EndsInOperator : Expr T .csr → Prop
  | add (e f) : EndsInOperator (.csrAdd e f)
  | sub (e f) : EndsInOperator (.csrSub e f)
  | mul (e f) : EndsInOperator (.csrMul e f)

theorem Expr.operator_facts [CommRing T] [DecidableEq T] {t : IntTy} {e : Expr T .csr} (he : e.EndsInOperator) (hf : e.Fits t)
    (hb : e.AvoidsCscSubScale) : ∃ r : CSR T, e.eval t = .ok r ∧ r.WF t ∧ r.rows = e.shape.1 ∧ r.cols = e.shape.2 ∧
      (∀ i j, r.entry i j = e.denote i j) ∧ r.NoDup ∧ (∀ i < r.rows, ∀ e ∈ r.row i, e.2 ≠ 0) ∧ (r.stored : Int) < t.hi := by
  obtain ⟨r, h1, h2⟩ := e.good hf hb
  have h2 : GoodR t r e.shape.1 e.shape.2 e.denote e.pos e.size := h2
  have hs : (r.stored : Int) < t.hi := by
    have := h2.wf.stored_le_values
    have := h2.len
    have := h2.fit
    omega
  suffices h : CSR.NoDup r ∧ ∀ i < CSR.rows r, ∀ e ∈ CSR.row r i, e.2 ≠ 0 from
    ⟨r, h1, h2.wf, h2.rows, h2.cols, h2.ent, h.1, h.2, hs⟩
  cases he with
  | add e f =>
    obtain ⟨f1, f2, f3, f4⟩ := hf
    obtain ⟨a, h5, h6⟩ := e.good f1 hb.1
    obtain ⟨b, h7, h8⟩ := f.good f2 hb.2
    have h6 : GoodR t a e.shape.1 e.shape.2 e.denote e.pos e.size := h6
    have h8 : GoodR t b f.shape.1 f.shape.2 f.denote f.pos f.size := h8
    rw [← f3] at h8
    have l1 := h6.wf.stored_le
    have l2 := h8.wf.stored_le
    have l3 := h6.len
    have l4 := h8.len
    obtain ⟨s, g1, g2, g3, g4, g5, g6, g7, -⟩ := CSR.add_facts (t := t) h6.wf h8.wf (h8.rows.trans h6.rows.symm)
      (h8.cols.trans h6.cols.symm) (by omega)
    have : (Expr.csrAdd e f).eval t = .ok s := by simp only [Expr.eval, h5, h7]; exact g1
    cases this.symm.trans h1
    exact ⟨g6, g7⟩
  | sub e f =>
    obtain ⟨f1, f2, f3, f4⟩ := hf
    obtain ⟨a, h5, h6⟩ := e.good f1 hb.1
    obtain ⟨b, h7, h8⟩ := f.good f2 hb.2
    have h6 : GoodR t a e.shape.1 e.shape.2 e.denote e.pos e.size := h6
    have h8 : GoodR t b f.shape.1 f.shape.2 f.denote f.pos f.size := h8
    rw [← f3] at h8
    have l1 := h6.wf.stored_le
    have l2 := h8.wf.stored_le
    have l3 := h6.len
    have l4 := h8.len
    obtain ⟨s, g1, g2, g3, g4, g5, g6, g7, -⟩ := CSR.sub_facts (t := t) h6.wf h8.wf (h8.rows.trans h6.rows.symm)
      (h8.cols.trans h6.cols.symm) (by omega)
    have : (Expr.csrSub e f).eval t = .ok s := by simp only [Expr.eval, h5, h7]; exact g1
    cases this.symm.trans h1
    exact ⟨g6, g7⟩
  | mul e f =>
    obtain ⟨f1, f2, f3, f4⟩ := hf
    obtain ⟨a, h5, h6⟩ := e.good f1 hb.1
    obtain ⟨b, h7, h8⟩ := f.good f2 hb.2
    have h6 : GoodR t a e.shape.1 e.shape.2 e.denote e.pos e.size := h6
    have h8 : GoodR t b f.shape.1 f.shape.2 f.denote f.pos f.size := h8
    rw [← f3] at h8
    obtain ⟨s, -, g1, g2, g3, g4, g5, g6, g7, -⟩ := C13_csr_mat_mat t a b h6.wf h8.wf (h6.cols.trans h8.rows.symm)
      (h6.slots_fit h8 f4)
    have : (Expr.csrMul e f).eval t = .ok s := by simp only [Expr.eval, h5, h7]; exact g1
    cases this.symm.trans h1
    exact ⟨g6, fun i hi => g7 i (g3 ▸ hi)⟩

/-- C93 (all identities of matrix algebra). Two programs that end in the operator `+`, `-` or `*` on CSR matrices and mean
the same matrix store the same entries: after `sum_duplicates`, the same row pointers and the same triplets. -/
theorem C93_programs [CommRing T] [DecidableEq T] (t : IntTy) (e e' : Expr T .csr) (he : e.EndsInOperator) (he' : e'.EndsInOperator)
    (hf : e.Fits t) (hf' : e'.Fits t) (hb : e.AvoidsCscSubScale) (hb' : e'.AvoidsCscSubScale) (hs : e.shape = e'.shape)
    (h : ∀ i j, e.denote i j = e'.denote i j) :
    ∃ r r', e.eval t = .ok r ∧ e'.eval t = .ok r' ∧ CSR.SameStored t r r' := by
  obtain ⟨r, r1, r2, r3, r4, r5, r6, r7, r8⟩ := Expr.operator_facts he hf hb
  obtain ⟨s, s1, s2, s3, s4, s5, s6, s7, s8⟩ := Expr.operator_facts he' hf' hb'
  exact ⟨r, s, r1, s1, .of r2 s2 (by rw [r3, s3, hs]) (by rw [r4, s4, hs]) r8 s8 r6 s6 r7 s7 fun i j => by rw [r5, s5, h]⟩

end

section
/-- the hypotheses of the laws hold of matrices with unsorted rows, repeated positions and stored zeros -/
example : ∃ a b c : CSR Int, a.WF .i8 ∧ b.WF .i8 ∧ c.WF .i8 ∧ a.cols = b.rows ∧ c.rows = b.rows ∧ c.cols = b.cols ∧ b.cols = c.rows ∧
    b.rows = a.rows ∧ b.cols = a.cols ∧ ((a.rows * b.cols + a.rows * b.cols : Nat) : Int) < IntTy.i8.hi ∧
    ((a.stored + b.stored + c.stored : Nat) : Int) < IntTy.i8.hi ∧ ¬ a.NoDup ∧ ¬ b.Canonical ∧ a.entry 0 1 ≠ 0 :=
  ⟨⟨2, 2, [0, 2, 3], [1, 1, 0], [5, 7, -3]⟩, ⟨2, 2, [0, 2, 3], [1, 0, 1], [2, 0, 4]⟩, ⟨2, 2, [0, 1, 2], [1, 0], [1, 6]⟩,
    CSR.wf_of (by decide), CSR.wf_of (by decide), CSR.wf_of (by decide), rfl, rfl, rfl, rfl, rfl, rfl, by decide, by decide,
    by unfold CSR.NoDup; decide, by unfold CSR.Canonical; decide, by decide⟩

/-- two programs as in `C93_programs`: `A + Bᵀᵀ` and `B + A` -/
example : ∃ e e' : Expr Int .csr, e.EndsInOperator ∧ e'.EndsInOperator ∧ e.Fits .i8 ∧ e'.Fits .i8 ∧ e.AvoidsCscSubScale ∧
    e'.AvoidsCscSubScale ∧ e.shape = e'.shape ∧ (∀ i j, e.denote i j = e'.denote i j) ∧ e.denote 0 1 ≠ 0 := by
  have ha : (Expr.csr (⟨2, 2, [0, 2, 3], [1, 1, 0], [5, 7, -3]⟩ : CSR Int)).Fits .i8 :=
    ⟨CSR.wf_of (by decide), by decide, by decide, by decide, by decide⟩
  have hb : (Expr.csr (⟨2, 2, [0, 2, 3], [1, 0, 1], [2, 0, 4]⟩ : CSR Int)).Fits .i8 :=
    ⟨CSR.wf_of (by decide), by decide, by decide, by decide, by decide⟩
  exact ⟨.csrAdd (.csr ⟨2, 2, [0, 2, 3], [1, 1, 0], [5, 7, -3]⟩) (.cscT (.csrT (.csr ⟨2, 2, [0, 2, 3], [1, 0, 1], [2, 0, 4]⟩))),
    .csrAdd (.csr ⟨2, 2, [0, 2, 3], [1, 0, 1], [2, 0, 4]⟩) (.csr ⟨2, 2, [0, 2, 3], [1, 1, 0], [5, 7, -3]⟩), .add _ _, .add _ _, ⟨ha, hb, rfl, by decide⟩,
    by refine And.intro hb ⟨ha, rfl, ?_⟩; decide, ⟨trivial, trivial⟩, by exact And.intro trivial trivial, rfl, fun i j => add_comm _ _, by decide⟩

/-- the hypotheses of the laws of CSC matrices hold of matrices with unsorted columns, repeated positions and stored zeros -/
example : ∃ a b c : CSC Int, a.WF .i8 ∧ b.WF .i8 ∧ c.WF .i8 ∧ a.cols = b.rows ∧ c.rows = b.rows ∧ c.cols = b.cols ∧ b.cols = c.rows ∧
    b.rows = a.rows ∧ b.cols = a.cols ∧ ((a.rows * b.cols + a.rows * b.cols : Nat) : Int) < IntTy.i8.hi ∧
    ((a.stored + b.stored + c.stored : Nat) : Int) < IntTy.i8.hi ∧ ¬ a.NoDup ∧ ¬ b.Canonical ∧ a.entry 1 0 ≠ 0 :=
  ⟨⟨2, 2, [1, 1, 0], [0, 2, 3], [5, 7, -3]⟩, ⟨2, 2, [1, 0, 1], [0, 2, 3], [2, 0, 4]⟩, ⟨2, 2, [1, 0], [0, 1, 2], [1, 6]⟩,
    CSC.wf_of (by decide), CSC.wf_of (by decide), CSC.wf_of (by decide), rfl, rfl, rfl, rfl, rfl, rfl, by decide, by decide,
    by unfold CSC.NoDup; decide, by unfold CSC.Canonical; decide, by decide⟩

/-- the hypotheses of `C93_neutral` hold of a matrix with an unsorted row -/
example : ∃ a : CSR Int, a.WF .i8 ∧ a.NoDup ∧ (∀ i < a.rows, ∀ e ∈ a.row i, e.2 ≠ 0) ∧ ¬ a.Canonical ∧
    ((a.rows * a.cols : Nat) : Int) < IntTy.i8.hi ∧ (a.stored : Int) < IntTy.i8.hi :=
  ⟨⟨2, 3, [0, 2, 3], [1, 0, 2], [2, 9, 4]⟩, CSR.wf_of (by decide), by unfold CSR.NoDup; decide, by decide,
    by unfold CSR.Canonical; decide, by decide, by decide⟩

/-- the two sides of a law do list entries in different orders, so that the comparison after `sum_duplicates` is needed -/
example : ∃ a b c ab bc r s : CSR Int, a.WF .i8 ∧ b.WF .i8 ∧ c.WF .i8 ∧ a.mul .i8 b = .ok ab ∧ ab.mul .i8 c = .ok r ∧
    b.mul .i8 c = .ok bc ∧ a.mul .i8 bc = .ok s ∧ r.SameStored .i8 s ∧ r.triples ≠ s.triples := by
  have wa : CSR.WF .i8 (⟨2, 2, [0, 1, 1], [0], [1]⟩ : CSR Int) := CSR.wf_of (by decide)
  have wc : CSR.WF .i8 (⟨2, 2, [0, 2, 2], [0, 1], [1, 1]⟩ : CSR Int) := CSR.wf_of (by decide)
  obtain ⟨ab, bc, r, s, h1, h2, h3, h4, h5⟩ := C93_mul_assoc .i8 _ _ _ wa wa wc rfl rfl (by decide) (by decide) (by decide)
  refine ⟨_, _, _, ab, bc, r, s, wa, wa, wc, h1, h2, h3, h4, h5, ?_⟩
  have e1 : CSR.mul IntTy.i8 (⟨2, 2, [0, 1, 1], [0], [1]⟩ : CSR Int) ⟨2, 2, [0, 1, 1], [0], [1]⟩ =
    .ok ⟨2, 2, [0, 1, 1], [0], [1]⟩ := by decide
  rw [e1] at h1
  obtain rfl := Except.ok.inj h1
  have e2 : CSR.mul IntTy.i8 (⟨2, 2, [0, 1, 1], [0], [1]⟩ : CSR Int) ⟨2, 2, [0, 2, 2], [0, 1], [1, 1]⟩ =
    .ok ⟨2, 2, [0, 2, 2], [1, 0], [1, 1]⟩ := by decide
  rw [e2] at h2 h3
  obtain rfl := Except.ok.inj h2
  obtain rfl := Except.ok.inj h3
  have e3 : CSR.mul IntTy.i8 (⟨2, 2, [0, 1, 1], [0], [1]⟩ : CSR Int) ⟨2, 2, [0, 2, 2], [1, 0], [1, 1]⟩ =
    .ok ⟨2, 2, [0, 2, 2], [0, 1], [1, 1]⟩ := by decide
  rw [e3] at h4
  obtain rfl := Except.ok.inj h4
  decide

end
end Sparse

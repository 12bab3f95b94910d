import Verif.Lemmas.MatMat
import Verif.Props.Elementwise
import Mathlib.Algebra.Order.BigOperators.Group.Finset
/-! Properties C13 and C14: matrix products. -/
namespace Sparse

section
variable {T : Type}

theorem rowSum_mul_map [NonUnitalNonAssocSemiring T] (r : List (Int × T)) (s : T) (k : Int) :
    rowSum (r.map fun e => (e.1, s * e.2)) k = s * rowSum r k := by
  induction r with
  | nil => simp
  | cons e r ih =>
    rw [List.map_cons, rowSum_cons, rowSum_cons, ih, mul_add]
    split <;> simp

theorem rowSum_prodItems [NonUnitalNonAssocSemiring T] {m : Nat} (B : Nat → List (Int × T)) {A : List (Int × T)}
    (hA : ∀ e ∈ A, 0 ≤ e.1 ∧ e.1 < m) (k : Int) :
    rowSum (prodItems B A) k = ∑ j ∈ Finset.range m, rowSum A j * rowSum (B j) k := by
  rw [← rowDot hA fun j => rowSum (B j) k]
  clear hA
  induction A with
  | nil => simp
  | cons e A ih =>
    rw [show e :: A = [e] ++ A from rfl, prodItems_append, rowSum_append, ih, prodItems_one, rowSum_mul_map]
    simp

theorem prodRow_binRow [NonUnitalNonAssocSemiring T] [DecidableEq T] (B : Nat → List (Int × T)) {A : List (Int × T)}
    (h : ∀ e ∈ prodItems B A, 0 ≤ e.1) : BinRow (fun a _ => a) nzT (prodItems B A) [] (prodRow B A) :=
  genRow_binRow (fun a _ => a) nzT h (by simp)

theorem mem_prodItems' [Mul T] {B : Nat → List (Int × T)} {A : List (Int × T)} {k : Int} :
    (∃ g ∈ prodItems B A, g.1 = k) ↔ ∃ e ∈ A, ∃ f ∈ B e.1.toNat, f.1 = k := by
  constructor
  · rintro ⟨g, hg, rfl⟩
    obtain ⟨e, he, f, hf, h⟩ := mem_prodItems hg
    exact ⟨e, he, f, hf, h.symm⟩
  · rintro ⟨e, he, f, hf, rfl⟩
    exact ⟨(f.1, e.2 * f.2), List.mem_flatMap.2 ⟨e, he, List.mem_map.2 ⟨f, hf, rfl⟩⟩, rfl⟩

theorem prodItems_bound [Mul T] {t : IntTy} {a b : CSR T} (ha : a.WF t) (hb : b.WF t) (hd : a.cols = b.rows) {i : Nat}
    (hi : i < a.rows) : ∀ g ∈ prodItems b.row (a.row i), 0 ≤ g.1 ∧ g.1 < b.cols ∧ g.1 ≤ t.hi := by
  intro g hg
  obtain ⟨e, he, f, hf, h⟩ := mem_prodItems hg
  have := ha.mem hi he
  have := hb.mem (i := e.1.toNat) (by omega) hf
  rw [h]; exact this

theorem exists_prod [Mul T] {t : IntTy} {a b : CSR T} (ha : a.WF t) {i : Nat} (hi : i < a.rows) (k : Nat) :
    (∃ g ∈ prodItems b.row (a.row i), g.1 = (k : Int)) ↔ ∃ j, a.has i j ∧ b.has j k := by
  rw [mem_prodItems']
  constructor
  · rintro ⟨⟨j, v⟩, he, ⟨k', w⟩, hf, rfl⟩
    have := ha.mem hi he
    refine ⟨j.toNat, ⟨v, ?_⟩, w, hf⟩
    rw [Int.toNat_of_nonneg this.1]; exact he
  · rintro ⟨j, ⟨v, hv⟩, w, hw⟩
    exact ⟨_, hv, _, hw, rfl⟩

theorem CSR.productSlots_eq [Mul T] {t : IntTy} {a b : CSR T} (ha : a.WF t) (hb : b.WF t) (hd : a.cols = b.rows) :
    a.productSlots b = (flat (fun i => prodCols b.row (a.row i)) a.rows).length := by
  classical
  unfold CSR.productSlots
  suffices h : ∀ n ≤ a.rows, (∑ i ∈ Finset.range n, ((Finset.range b.cols).filter fun k => ∃ j, a.has i j ∧ b.has j k).card) =
      (flat (fun i => prodCols b.row (a.row i)) n).length by
    convert h a.rows (le_refl _)
  intro n
  induction n with
  | zero => simp
  | succ n ih =>
    intro hn
    rw [Finset.sum_range_succ, ih (by omega), flat_length_succ]
    congr 1
    have hb' := prodItems_bound ha hb hd (i := n) (by omega)
    have hnd : (prodCols b.row (a.row n)).Nodup := pushAll_nodup List.nodup_nil _
    rw [← List.toFinset_card_of_nodup hnd]
    congr 1
    ext k
    simp only [Finset.mem_filter, Finset.mem_range, List.mem_toFinset]
    rw [← exists_prod ha (by omega) k, prodCols, mem_pushAll]
    simp only [List.not_mem_nil, false_or]
    constructor
    · rintro ⟨-, g, hg, h⟩
      exact ⟨g, hg, by omega⟩
    · rintro ⟨g, hg, h⟩
      have := hb' g hg
      exact ⟨by omega, g, hg, by omega⟩

theorem CSR.WF.row_out {t : IntTy} {a : CSR T} (ha : a.WF t) {i : Nat} (hi : a.rows ≤ i) : a.row i = [] := by
  have hl : a.rowptr.length = a.rows + 1 := ha.len
  unfold CSR.row rowOf
  rw [List.getElem?_eq_none (l := a.rowptr) (i := i + 1) (by omega)]
  split <;> simp_all

theorem entry_rows [AddCommMonoid T] {t : IntTy} {a : CSR T} (ha : a.WF t) {i : Nat} (hi : a.rows ≤ i) (j : Nat) :
    a.entry i j = 0 := by
  unfold CSR.entry
  rw [ha.row_out hi]
  simp

/-- what the product is: shape, entries, stored positions -/
theorem csr_matmat_wf [NonUnitalNonAssocSemiring T] [DecidableEq T] {t : IntTy} {a b : CSR T} (ha : a.WF t) (hb : b.WF t)
    (hd : a.cols = b.rows) (hfit : (a.productSlots b : Int) ≤ t.hi) :
    csr_matmat_maxnnz a.rows b.cols a.rowptr a.colidx b.rowptr b.colidx = .ok (a.productSlots b) ∧
    ∃ p j x, csr_matmat t a.rows b.cols a.rowptr a.colidx a.values b.rowptr b.colidx b.values
        (List.replicate (a.rows + 1) 0) (List.replicate (a.productSlots b) 0) (List.replicate (a.productSlots b) 0) =
          .ok (p, j, x) ∧
      (let c : CSR T := ⟨a.rows, b.cols, p, j, x⟩
       c.WF t ∧ (∀ i k, c.entry i k = ∑ j ∈ Finset.range a.cols, a.entry i j * b.entry j k) ∧ c.NoDup ∧
       (∀ i < a.rows, ∀ e ∈ c.row i, e.2 ≠ 0) ∧
       (∀ i < a.rows, ∀ k, c.has i k ↔ (∃ j, a.has i j ∧ b.has j k) ∧ c.entry i k ≠ 0) ∧
       c.values.length = a.productSlots b ∧ c.ZeroSlack) := by
  have hma : ∀ i < a.rows, ∀ e ∈ a.row i, 0 ≤ e.1 ∧ e.1 < (b.rows : Nat) := by
    intro i hi e he
    have := ha.mem hi he
    omega
  have hs := CSR.productSlots_eq ha hb hd
  have h1 := maxnnz_ok (nc := b.cols) ha.rep hb.rep hma (fun i hi e he => by have := hb.mem hi he; omega)
  rw [← hs] at h1
  refine ⟨h1, ?_⟩
  obtain ⟨⟨p, j, x⟩, h2, h3, hlj, hlx, htl⟩ := csr_matmat_ok (t := t) (nc := b.cols)
    (cp := List.replicate (a.rows + 1) 0) (cj := List.replicate (a.productSlots b) 0)
    (cx := List.replicate (a.productSlots b) 0) ha.rep hb.rep hma
    (fun i hi e he => hb.mem hi he) (by simp) rfl rfl (by simp; omega) (by simp; omega) (by omega)
  simp only at h3
  have hbr : ∀ i < a.rows, BinRow (fun a _ => a) nzT (prodItems b.row (a.row i)) [] (prodRow b.row (a.row i)) :=
    fun i hi => prodRow_binRow _ fun e he => (prodItems_bound ha hb hd hi e he).1
  have hmem : ∀ i < a.rows, ∀ e ∈ prodRow b.row (a.row i), 0 ≤ e.1 ∧ e.1 < b.cols ∧ e.1 ≤ t.hi := by
    rintro i hi ⟨k, v⟩ he
    obtain ⟨h, -⟩ := ((hbr i hi).mem k v).1 he
    simp only [List.not_mem_nil, false_and, exists_false, or_false] at h
    obtain ⟨g, hg, rfl⟩ := h
    exact prodItems_bound ha hb hd hi g hg
  have hle : (flat (fun i => prodRow b.row (a.row i)) a.rows).length ≤ a.productSlots b := by
    rw [hs]
    exact flat_length_le fun i _ => emitRow_length_le _ _ _
  have hwf : (⟨a.rows, b.cols, p, j, x⟩ : CSR T).WF t := h3.wf hmem (by omega)
  have hrow : ∀ i < a.rows, (⟨a.rows, b.cols, p, j, x⟩ : CSR T).row i = prodRow b.row (a.row i) :=
    fun i hi => CSR.row_of_rep (a := ⟨a.rows, b.cols, p, j, x⟩) h3 hi
  have hent : ∀ i < a.rows, ∀ k : Nat, (⟨a.rows, b.cols, p, j, x⟩ : CSR T).entry i k = rowSum (prodItems b.row (a.row i)) k := by
    intro i hi k
    unfold CSR.entry
    rw [hrow i hi, (hbr i hi).rowSum rfl]
  refine ⟨p, j, x, h2, hwf, ?_, ?_, ?_, ?_, by simpa using hlx, hlj.trans (by simpa using hlx.symm), ?_⟩
  · intro i k
    by_cases hi : i < a.rows
    · rw [hent i hi, rowSum_prodItems b.row (m := a.cols)]
      · rfl
      · intro e he
        have := ha.mem hi he
        exact ⟨this.1, this.2.1⟩
    · rw [entry_rows hwf (by simpa using hi)]
      symm
      apply Finset.sum_eq_zero
      intro q _
      rw [entry_rows ha (by omega), zero_mul]
  · intro i hi
    simp only at hi
    rw [hrow i hi]
    exact (hbr i hi).nodup
  · rintro i hi ⟨k, v⟩ he
    rw [hrow i hi, (hbr i hi).mem] at he
    simpa [nzT] using he.2.2
  · intro i hi k
    unfold CSR.has
    rw [hrow i hi, hent i hi]
    simp only [(hbr i hi).mem, List.not_mem_nil, false_and, exists_false, or_false, exists_prod ha hi, nzT, bne_iff_ne]
    constructor
    · rintro ⟨v, g1, rfl, g3⟩
      exact ⟨g1, g3⟩
    · rintro ⟨g1, g3⟩
      exact ⟨_, g1, rfl, g3⟩
  · rw [CSR.stored_of_rep (a := ⟨a.rows, b.cols, p, j, x⟩) h3]
    exact zero_tail htl

/-! ### C13 -/

/-- C13. For valid matrices with matching inner dimension, in any order and with any duplicates, whose product
has a representable number of positions with stored contributions, `mat_mat` (and the operator `*`) returns
normally a valid matrix of shape `a.rows × b.cols` denoting the matrix product. No row stores a column twice
and no zero is stored; the stored positions are those with a stored contribution and a nonzero entry. The unused
rest of the result arrays holds zeros. -/
theorem C13_csr_mat_mat [NonUnitalNonAssocSemiring T] [DecidableEq T] (t : IntTy) (a b : CSR T) (ha : a.WF t) (hb : b.WF t)
    (hd : a.cols = b.rows) (hfit : (a.productSlots b : Int) ≤ t.hi) :
    ∃ r, a.mat_mat t b = .ok r ∧ a.mul t b = .ok r ∧ r.WF t ∧ r.rows = a.rows ∧ r.cols = b.cols ∧
      (∀ i k, r.entry i k = ∑ j ∈ Finset.range a.cols, a.entry i j * b.entry j k) ∧
      r.NoDup ∧ (∀ i < a.rows, ∀ e ∈ r.row i, e.2 ≠ 0) ∧
      (∀ i < a.rows, ∀ k, r.has i k ↔ (∃ j, a.has i j ∧ b.has j k) ∧ r.entry i k ≠ 0) ∧
      r.values.length = a.productSlots b ∧ r.ZeroSlack := by
  obtain ⟨h1, p, j, x, h2, h3, h4, h5, h6, h7⟩ := csr_matmat_wf ha hb hd hfit
  have hok : a.mat_mat t b = .ok ⟨a.rows, b.cols, p, j, x⟩ := by
    unfold CSR.mat_mat
    rw [if_neg (not_not.2 hd)]
    simp only [bind, Except.bind]
    rw [h1]
    simp only
    rw [h2]
    exact CSR.new_ok (CSR.WF.rep h3)
  exact ⟨_, hok, by unfold CSR.mul; rw [hok]; rfl, h3, rfl, rfl, h4, h5, h6, h7⟩

/-- C13 (`Err`). `mat_mat` returns `Err` whenever the inner dimensions differ, and then the operator panics. -/
theorem C13_csr_mat_mat_err [NonUnitalNonAssocSemiring T] [DecidableEq T] (t : IntTy) (a b : CSR T) (h : a.cols ≠ b.rows) :
    a.mat_mat t b = .error .err ∧ a.mul t b = .error (.panic .unwrap) := by
  have : a.mat_mat t b = .error .err := by
    unfold CSR.mat_mat
    rw [if_pos h]
    rfl
  exact ⟨this, by unfold CSR.mul; rw [this]; rfl⟩

/-- C13 (size). The size hypothesis of C13_csr_mat_mat holds whenever `rows * cols` of the product fits the index type. -/
theorem C13_slots_le (a b : CSR T) : a.productSlots b ≤ a.rows * b.cols := by
  classical
  unfold CSR.productSlots
  calc _ ≤ ∑ i ∈ Finset.range a.rows, b.cols := by
        refine Finset.sum_le_sum fun i _ => ?_
        exact (Finset.card_filter_le _ _).trans (by simp)
    _ = a.rows * b.cols := by simp

example : ∃ a b : CSR Int, a.WF .i8 ∧ b.WF .i8 ∧ a.cols = b.rows ∧ (a.productSlots b : Int) ≤ IntTy.i8.hi ∧
    a.stored = 5 ∧ b.stored = 4 ∧ ∑ j ∈ Finset.range a.cols, a.entry 0 j * b.entry j 1 = 10 := by
  refine ⟨⟨2, 2, [0, 3, 5], [1, 0, 1, 0, 1], [1, 2, 3, 1, -1]⟩, ⟨2, 3, [0, 2, 4], [1, 0, 1, 2], [1, 5, 2, 7]⟩,
    CSR.wf_of (by decide), CSR.wf_of (by decide), rfl, ?_, by decide, by decide, by decide⟩
  have := C13_slots_le (⟨2, 2, [0, 3, 5], [1, 0, 1, 0, 1], [1, 2, 3, 1, -1]⟩ : CSR Int) ⟨2, 3, [0, 2, 4], [1, 0, 1, 2], [1, 5, 2, 7]⟩
  simp only at this
  simp only [IntTy.i8]
  omega

/-! ### C14 -/

theorem CSC.productSlots_asCSR (a b : CSC T) : a.productSlots b = b.asCSR.productSlots a.asCSR := by
  classical
  unfold CSC.productSlots CSR.productSlots
  refine Finset.sum_congr rfl fun k _ => ?_
  congr 1
  ext i
  simp only [Finset.mem_filter]
  refine and_congr_right fun _ => exists_congr fun j => ?_
  rw [and_comm]
  rfl

/-- C14. For valid CSC matrices with matching inner dimension whose product has a representable number of
positions with stored contributions, `CSC::mat_mat` (and the operator `*`) returns normally a valid CSC matrix
denoting the product, which stores no zero and no row twice in a column. (The scalar product is formed with its
factors exchanged, hence commutativity.) -/
theorem C14_csc_mat_mat [NonUnitalNonAssocCommSemiring T] [DecidableEq T] (t : IntTy) (a b : CSC T) (ha : a.WF t) (hb : b.WF t)
    (hd : b.rows = a.cols) (hfit : (a.productSlots b : Int) ≤ t.hi) :
    ∃ r, a.mat_mat t b = .ok r ∧ a.mul t b = .ok r ∧ r.WF t ∧ r.rows = a.rows ∧ r.cols = b.cols ∧
      (∀ i k, r.entry i k = ∑ j ∈ Finset.range a.cols, a.entry i j * b.entry j k) ∧
      r.NoDup ∧ (∀ k < b.cols, ∀ e ∈ r.col k, e.2 ≠ 0) ∧
      (∀ k < b.cols, ∀ i, r.has i k ↔ (∃ j, a.has i j ∧ b.has j k) ∧ r.entry i k ≠ 0) ∧
      r.values.length = a.productSlots b ∧ r.ZeroSlack := by
  have ha' : a.asCSR.WF t := ha
  have hb' : b.asCSR.WF t := hb
  have hs := CSC.productSlots_asCSR a b
  obtain ⟨h1, p, j, x, h2, h3, h4, h5, h6, h7, h8, h9⟩ := csr_matmat_wf hb' ha' hd (by rw [← hs]; exact hfit)
  rw [← hs] at h1 h2
  have h3' : (⟨a.rows, b.cols, j, p, x⟩ : CSC T).WF t := h3
  have hok : a.mat_mat t b = .ok ⟨a.rows, b.cols, j, p, x⟩ := by
    unfold CSC.mat_mat csc_matmat_maxnnz csc_matmat
    rw [if_neg (not_not.2 hd)]
    simp only [bind, Except.bind]
    simp only [CSC.asCSR] at h1 h2
    rw [h1]
    simp only
    rw [h2]
    exact CSC.new_ok (CSC.WF.rep h3')
  refine ⟨_, hok, by unfold CSC.mul; rw [hok]; rfl, h3', rfl, rfl, ?_, h5, h6, ?_, h8.trans hs.symm, h9⟩
  · intro i k
    rw [show (⟨a.rows, b.cols, j, p, x⟩ : CSC T).entry i k = _ from h4 k i, show b.asCSR.cols = a.cols from hd]
    exact Finset.sum_congr rfl fun j _ => mul_comm _ _
  · intro k hk i
    refine (h7 k hk i).trans (and_congr_left fun _ => exists_congr fun j => ?_)
    rw [and_comm]
    rfl

/-- C14 (`Err`). `CSC::mat_mat` returns `Err` whenever the inner dimensions differ, and then the operator panics. -/
theorem C14_csc_mat_mat_err [NonUnitalNonAssocSemiring T] [DecidableEq T] (t : IntTy) (a b : CSC T) (h : b.rows ≠ a.cols) :
    a.mat_mat t b = .error .err ∧ a.mul t b = .error (.panic .unwrap) := by
  have : a.mat_mat t b = .error .err := by
    unfold CSC.mat_mat
    rw [if_pos h]
    rfl
  exact ⟨this, by unfold CSC.mul; rw [this]; rfl⟩

theorem CSR.mem_triples {a : CSR T} {i j : Nat} {v : T} :
    ((i : Int), (j : Int), v) ∈ a.triples ↔ i < a.rows ∧ ((j : Int), v) ∈ a.row i := by
  unfold CSR.triples
  simp only [List.mem_flatMap, List.mem_range, List.mem_map, Prod.mk.injEq, Int.natCast_inj]
  constructor
  · rintro ⟨q, hq, ⟨k, w⟩, he, rfl, h2, h3⟩
    simp only at h2 h3
    subst h2 h3
    exact ⟨hq, he⟩
  · rintro ⟨h1, h2⟩
    exact ⟨i, h1, _, h2, rfl, rfl, rfl⟩

theorem CSC.mem_triples {a : CSC T} {i j : Nat} {v : T} :
    ((i : Int), (j : Int), v) ∈ a.triples ↔ j < a.cols ∧ ((i : Int), v) ∈ a.col j := by
  unfold CSC.triples
  simp only [List.mem_flatMap, List.mem_range, List.mem_map, Prod.mk.injEq, Int.natCast_inj]
  constructor
  · rintro ⟨q, hq, ⟨k, w⟩, he, h2, rfl, h3⟩
    simp only at h2 h3
    subst h2 h3
    exact ⟨hq, he⟩
  · rintro ⟨h1, h2⟩
    exact ⟨j, h1, _, h2, rfl, rfl, rfl⟩

open Classical in
/-- C14 (operator `CSC * CSR`). The right operand is converted first, so its row indices must be representable;
otherwise as C14_csc_mat_mat. -/
theorem C14_csc_mul_csr [NonUnitalNonAssocCommSemiring T] [DecidableEq T] (t : IntTy) (a : CSC T) (b : CSR T) (ha : a.WF t)
    (hb : b.WF t) (hd : b.rows = a.cols) (hr : (b.rows : Int) ≤ t.hi + 1)
    (hfit : ((∑ k ∈ Finset.range b.cols, ((Finset.range a.rows).filter fun i => ∃ j, a.has i j ∧ b.has j k).card : Nat) : Int) ≤ t.hi) :
    ∃ r, a.mul_csr t b = .ok r ∧ r.WF t ∧ r.rows = a.rows ∧ r.cols = b.cols ∧
      (∀ i k, r.entry i k = ∑ j ∈ Finset.range a.cols, a.entry i j * b.entry j k) ∧
      r.NoDup ∧ (∀ k < b.cols, ∀ e ∈ r.col k, e.2 ≠ 0) ∧
      (∀ k < b.cols, ∀ i, r.has i k ↔ (∃ j, a.has i j ∧ b.has j k) ∧ r.entry i k ≠ 0) ∧
      r.values.length = ∑ k ∈ Finset.range b.cols, ((Finset.range a.rows).filter fun i => ∃ j, a.has i j ∧ b.has j k).card ∧
      r.ZeroSlack := by
  obtain ⟨c, hc1, hwf, e1, e2, hent, hperm, -⟩ := C03_csr_to_csc t b hb hr
  have hhas : ∀ k < b.cols, ∀ j, c.has j k ↔ b.has j k := by
    intro k hk j
    unfold CSC.has CSR.has
    refine exists_congr fun v => ?_
    have := hperm.mem_iff (a := ((j : Int), (k : Int), v))
    rw [CSC.mem_triples, CSR.mem_triples] at this
    simp only [show k < c.cols by omega, true_and] at this
    rw [this]
    constructor
    · exact fun h => h.2
    · intro h
      refine ⟨?_, h⟩
      by_contra hj
      rw [hb.row_out (by omega)] at h
      simp at h
  have hslots : a.productSlots c = ∑ k ∈ Finset.range b.cols, ((Finset.range a.rows).filter fun i => ∃ j, a.has i j ∧ b.has j k).card := by
    unfold CSC.productSlots
    rw [e2]
    refine Finset.sum_congr rfl fun k hk => ?_
    congr 1
    ext i
    simp only [Finset.mem_filter]
    refine and_congr_right fun _ => exists_congr fun j => and_congr_right fun _ => hhas k (by simpa using hk) j
  obtain ⟨r, -, h1, h2, h3, h4, h5, h6, h7, h8, h9, h10⟩ := C14_csc_mat_mat t a c ha hwf (by omega) (by rw [hslots]; exact hfit)
  rw [e2] at h4 h7 h8
  refine ⟨r, ?_, h2, h3, h4, ?_, h6, h7, ?_, h9.trans hslots, h10⟩
  · unfold CSC.mul_csr
    rw [hc1]
    exact h1
  · intro i k
    rw [h5]
    simp only [hent]
  · intro k hk i
    rw [h8 k hk i]
    simp only [hhas k hk]

/-- C14 (size), as C13_slots_le. -/
theorem C14_slots_le (a b : CSC T) : a.productSlots b ≤ a.rows * b.cols := by
  rw [CSC.productSlots_asCSR, Nat.mul_comm]
  exact C13_slots_le _ _

example : ∃ a b : CSC Int, a.WF .i8 ∧ b.WF .i8 ∧ b.rows = a.cols ∧ (a.productSlots b : Int) ≤ IntTy.i8.hi ∧
    a.stored = 5 ∧ b.stored = 4 ∧ ∑ j ∈ Finset.range a.cols, a.entry 0 j * b.entry j 0 = 27 := by
  refine ⟨⟨3, 2, [1, 0, 1, 0, 1], [0, 3, 5], [1, 2, 3, 1, -1]⟩, ⟨2, 2, [1, 0, 1, 0], [0, 2, 4], [17, 5, 2, 7]⟩,
    CSC.wf_of (by decide), CSC.wf_of (by decide), rfl, ?_, by decide, by decide, by decide⟩
  have := C14_slots_le (⟨3, 2, [1, 0, 1, 0, 1], [0, 3, 5], [1, 2, 3, 1, -1]⟩ : CSC Int) ⟨2, 2, [1, 0, 1, 0], [0, 2, 4], [17, 5, 2, 7]⟩
  simp only at this
  simp only [IntTy.i8]
  omega

open Classical in
example : ∃ (a : CSC Int) (b : CSR Int), a.WF .i8 ∧ b.WF .i8 ∧ b.rows = a.cols ∧ (b.rows : Int) ≤ IntTy.i8.hi + 1 ∧
    ((∑ k ∈ Finset.range b.cols, ((Finset.range a.rows).filter fun i => ∃ j, a.has i j ∧ b.has j k).card : Nat) : Int) ≤
      IntTy.i8.hi ∧ ∑ j ∈ Finset.range a.cols, a.entry 0 j * b.entry j 1 = 4 := by
  refine ⟨⟨3, 2, [1, 0, 1, 0, 1], [0, 3, 5], [1, 2, 3, 1, -1]⟩, ⟨2, 3, [0, 2, 4], [1, 0, 1, 2], [1, 5, 2, 7]⟩,
    CSC.wf_of (by decide), CSR.wf_of (by decide), rfl, by decide, ?_, by decide⟩
  have h : ∀ k ∈ Finset.range 3, ((Finset.range 3).filter fun i => ∃ j,
      (⟨3, 2, [1, 0, 1, 0, 1], [0, 3, 5], [1, 2, 3, 1, -1]⟩ : CSC Int).has i j ∧
      (⟨2, 3, [0, 2, 4], [1, 0, 1, 2], [1, 5, 2, 7]⟩ : CSR Int).has j k).card ≤ 3 :=
    fun k _ => (Finset.card_filter_le _ _).trans (by simp)
  have := Finset.sum_le_sum h
  simp only [Finset.sum_const, Finset.card_range] at this ⊢
  rw [show (3 : Nat) • 3 = 9 from rfl] at this
  simp only [IntTy.i8]
  omega

end
end Sparse

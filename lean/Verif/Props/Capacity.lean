import Verif.Lemmas.Capacity
import Verif.Props.Product
import Verif.Props.Widen
import Verif.Props.Typed
/-! C97: sums and products fail only when the result itself does not fit the index type. -/
namespace Sparse
variable {T : Type}

/-! ### Specification -/

/-- the number of non-zero elements of the `m × n` matrix `f` -/
def nonzeros [Zero T] [DecidableEq T] (m n : Nat) (f : Nat → Nat → T) : Nat :=
  ∑ i ∈ Finset.range m, ((Finset.range n).filter fun j => f i j ≠ 0).card

/-! ### Lemmas -/

theorem length_le_card {S : Type} {R : List (Int × S)} (hn : (R.map (·.1)).Nodup) {n : Nat} {p : Nat → Prop} [DecidablePred p]
    (hm : ∀ e ∈ R, 0 ≤ e.1 ∧ e.1 < n ∧ p e.1.toNat) : R.length ≤ ((Finset.range n).filter p).card := by
  have hn' : (R.map fun e => e.1.toNat).Nodup := by
    rw [List.nodup_map_iff_inj_on (List.Nodup.of_map _ hn)]
    intro x hx y hy h
    have h1 := hm x hx
    have h2 := hm y hy
    exact (List.nodup_map_iff_inj_on (List.Nodup.of_map _ hn)).1 hn x hx y hy (by omega)
  have : R.length = (R.map fun e => e.1.toNat).toFinset.card := by
    rw [List.toFinset_card_of_nodup hn', List.length_map]
  rw [this]
  refine Finset.card_le_card fun k hk => ?_
  obtain ⟨e, he, rfl⟩ := List.mem_map.1 (List.mem_toFinset.1 hk)
  have := hm e he
  exact Finset.mem_filter.2 ⟨Finset.mem_range.2 (by omega), this.2.2⟩

theorem card_le_length {S : Type} {R : List (Int × S)} {n : Nat} {p : Nat → Prop} [DecidablePred p]
    (h : ∀ k < n, p k → ∃ v, ((k : Int), v) ∈ R) : ((Finset.range n).filter p).card ≤ R.length := by
  have : (Finset.range n).filter p ⊆ (R.map fun e => e.1.toNat).toFinset := by
    intro k hk
    obtain ⟨h1, h2⟩ := Finset.mem_filter.1 hk
    obtain ⟨v, hv⟩ := h k (Finset.mem_range.1 h1) h2
    exact List.mem_toFinset.2 (List.mem_map.2 ⟨_, hv, by simp⟩)
  refine (Finset.card_le_card this).trans ((List.toFinset_card_le _).trans ?_)
  rw [List.length_map]

theorem flat_length_finset {S : Type} (R : Nat → List S) (n : Nat) :
    (flat R n).length = ∑ i ∈ Finset.range n, (R i).length := by
  induction n with
  | zero => simp
  | succ n ih => rw [flat_length_succ, Finset.sum_range_succ, ih]

theorem nonzeros_congr [Zero T] [DecidableEq T] {m n : Nat} {f g : Nat → Nat → T} (h : ∀ i j, f i j = g i j) :
    nonzeros m n f = nonzeros m n g := by
  unfold nonzeros
  simp only [h]

/-- a matrix without duplicates and stored zeros stores its non-zero elements -/
theorem CSR.stored_nonzeros [AddCommMonoid T] [DecidableEq T] {t : IntTy} {r : CSR T} (hr : r.WF t) (hn : r.NoDup)
    (hz : ∀ i < r.rows, ∀ e ∈ r.row i, e.2 ≠ 0) : r.stored = nonzeros r.rows r.cols r.entry := by
  rw [hr.stored_eq, flat_length_finset]
  unfold nonzeros
  refine Finset.sum_congr rfl fun i hi => ?_
  have hi := Finset.mem_range.1 hi
  refine le_antisymm (length_le_card (hn i hi) ?_) (card_le_length ?_)
  · rintro ⟨k, v⟩ he
    obtain ⟨h1, h2, -⟩ := hr.mem hi he
    refine ⟨h1, h2, ?_⟩
    unfold CSR.entry
    have : ((k.toNat : Nat) : Int) = k := by simp only at h1; omega
    simp only [this]
    rw [rowSum_nodup (hn i hi) he]
    exact hz i hi _ he
  · intro k _ hk
    by_contra hc
    refine hk (rowSum_eq_zero fun e he hek => absurd ⟨e.2, ?_⟩ hc)
    rw [← hek]
    exact he

theorem CSC.stored_nonzeros [AddCommMonoid T] [DecidableEq T] {t : IntTy} {r : CSC T} (hr : r.WF t) (hn : r.NoDup)
    (hz : ∀ j < r.cols, ∀ e ∈ r.col j, e.2 ≠ 0) : r.stored = nonzeros r.cols r.rows fun j i => r.entry i j :=
  CSR.stored_nonzeros (r := r.asCSR) hr hn hz

theorem SameOrOverflow.eq_of_ok {α : Type} {m m' : M α} {Q : α → Prop} (h : SameOrOverflow m m') (hk : Ok m Q) : m = m' := by
  obtain ⟨v, hv, -⟩ := hk
  rcases h with h | h | h
  · exact h
  · rw [h] at hv
    cases hv
  · rw [h] at hv
    cases hv

theorem SameOrOverflow.panics {α : Type} {m m' : M α} {r : α} (h : SameOrOverflow m m') (h' : m' = .ok r) (hn : m ≠ .ok r) :
    m = .error (.panic .unwrap) ∨ m = .error (.panic .arith) := by
  rcases h with h | h | h
  · exact absurd (h.trans h') hn
  · exact .inl h
  · exact .inr h

theorem pushAll_le {S : Type} {L : List Nat} (hL : L.Nodup) {nc : Nat} (hl : ∀ k ∈ L, k < nc) {r : List (Int × S)}
    (hr : ∀ e ∈ r, 0 ≤ e.1 ∧ e.1 < nc) : (pushAll L r).length ≤ nc := by
  have h := List.subperm_of_subset (pushAll_nodup hL r)
    (fun k hk => List.mem_range.2 (pushAll_mem_lt hl hr k hk))
  simpa using h.length_le

/-- the kernel at a narrow index type does what it does at a wide one when the result fits -/
theorem binop_capacity [AddCommMonoid T] [DecidableEq T] {t t' : IntTy} (hs : t.Sub t') (op : T → T → T)
    (a b : CSR T) (ha : a.WF t) (hb : b.WF t) (hr : b.rows = a.rows) (hc : b.cols = a.cols) (hcol : (a.cols : Int) ≤ t.hi)
    (hsa : (a.stored : Int) < t.hi) (hsb : (b.stored : Int) < t.hi)
    (hfit : (nonzeros a.rows a.cols (fun i j => op (a.entry i j) (b.entry i j)) : Int) ≤ t.hi)
    (cp cj : List Int) (cx : List T) (hcp : cp.length = a.rows + 1) (hcj : a.stored + b.stored ≤ cj.length)
    (hcx : a.stored + b.stored ≤ cx.length) :
    csr_binop_csr t a.rows a.cols a.rowptr a.colidx a.values b.rowptr b.colidx b.values cp cj cx op nzT =
      csr_binop_csr t' a.rows a.cols a.rowptr a.colidx a.values b.rowptr b.colidx b.values cp cj cx op nzT := by
  have hrb := hb.rep
  rw [hr] at hrb
  have hsa' := ha.stored_eq
  have hsb' := hb.stored_eq
  rw [hr] at hsb'
  have hma : ∀ i < a.rows, ∀ e ∈ a.row i, 0 ≤ e.1 ∧ e.1 < a.cols ∧ e.1 ≤ t.hi := fun i hi e he => ha.mem hi he
  have hmb : ∀ i < a.rows, ∀ e ∈ b.row i, 0 ≤ e.1 ∧ e.1 < a.cols ∧ e.1 ≤ t.hi :=
    fun i hi e he => by rw [← hc]; exact hb.mem (by omega) he
  refine (csr_binop_csr_wd hs.idx ..).eq_of_ok (binop_exact_fit op nzT ha.rep hrb (nc := a.cols) hma hmb hcp rfl rfl
    (lj := cj) (lx := cx) (by omega) (by omega) ?_ ?_ ?_ ?_)
  · intro i hi
    have := flat_length_mono a.row (Nat.le_of_lt hi)
    omega
  · intro i hi
    have := flat_length_mono b.row (Nat.le_of_lt hi)
    omega
  · intro i hi
    have h1 : ∀ k ∈ pushAll [] (a.row i), k < a.cols :=
      pushAll_mem_lt (by simp) fun e he => ⟨(hma i hi e he).1, (hma i hi e he).2.1⟩
    have := pushAll_le (pushAll_nodup List.nodup_nil (a.row i)) h1 (r := b.row i)
      fun e he => ⟨(hmb i hi e he).1, (hmb i hi e he).2.1⟩
    omega
  · intro R hR
    rw [flat_length_finset]
    refine le_trans ?_ hfit
    rw [Int.ofNat_le]
    unfold nonzeros
    refine Finset.sum_le_sum fun i hi => ?_
    have hi := Finset.mem_range.1 hi
    refine length_le_card (hR i hi).nodup ?_
    rintro ⟨k, v⟩ he
    obtain ⟨h1, h2, h3⟩ := ((hR i hi).mem k v).1 he
    have hk : 0 ≤ k ∧ k < a.cols := by
      rcases h1 with ⟨e, h, rfl⟩ | ⟨e, h, rfl⟩
      · exact ⟨(hma i hi e h).1, (hma i hi e h).2.1⟩
      · exact ⟨(hmb i hi e h).1, (hmb i hi e h).2.1⟩
    refine ⟨hk.1, hk.2, ?_⟩
    have hv : v = op (a.entry i k.toNat) (b.entry i k.toNat) := by
      have hkk : ((k.toNat : Nat) : Int) = k := by omega
      rw [h2, binVal]
      unfold CSR.entry
      rw [hkk]
      split
      · rename_i h
        rw [(h.1 i hi).rowSum_eq, (h.2 i hi).rowSum_eq]
      · rw [sumFrom_zero, sumFrom_zero]
    change op (a.entry i k.toNat) (b.entry i k.toNat) ≠ 0
    rw [← hv]
    simpa [nzT] using h3

theorem matmat_capacity [NonUnitalNonAssocSemiring T] [DecidableEq T] {t t' : IntTy} (hs : t.Sub t') (a b : CSR T)
    (ha : a.WF t) (hb : b.WF t) (hd : a.cols = b.rows) (hcol : (b.cols : Int) ≤ t.hi)
    (hfit : (nonzeros a.rows b.cols (fun i k => ∑ j ∈ Finset.range a.cols, a.entry i j * b.entry j k) : Int) ≤ t.hi)
    (cp cj : List Int) (cx : List T) (hcp : cp.length = a.rows + 1) (hcj : a.productSlots b ≤ cj.length)
    (hcx : a.productSlots b ≤ cx.length) :
    csr_matmat t a.rows b.cols a.rowptr a.colidx a.values b.rowptr b.colidx b.values cp cj cx =
      csr_matmat t' a.rows b.cols a.rowptr a.colidx a.values b.rowptr b.colidx b.values cp cj cx := by
  have hma : ∀ i < a.rows, ∀ e ∈ a.row i, 0 ≤ e.1 ∧ e.1 < (b.rows : Nat) := by
    intro i hi e he
    have := ha.mem hi he
    omega
  have hps := CSR.productSlots_eq ha hb hd
  have e : ∀ B A, prodRow (T := T) B A = prodRowX B A := by
    intro B A
    unfold prodRow prodRowX
    simp only [sumFrom_zero]
  refine (csr_matmat_wd hs.idx ..).eq_of_ok (csr_matmat_fit (lj := cj) (lx := cx) ha.rep hb.rep hma
    (fun i hi e he => hb.mem hi he) hcp rfl rfl (by omega) (by omega) ?_ ?_)
  · intro i hi
    have := pushAll_le List.nodup_nil (nc := b.cols) (by simp) (r := prodItems b.row (a.row i))
      fun e he => ⟨(prodItems_bound ha hb hd hi e he).1, (prodItems_bound ha hb hd hi e he).2.1⟩
    unfold prodCols
    omega
  · rw [flat_length_finset]
    refine le_trans ?_ hfit
    rw [Int.ofNat_le]
    unfold nonzeros
    refine Finset.sum_le_sum fun i hi => ?_
    have hi := Finset.mem_range.1 hi
    have hbr := prodRow_binRow b.row fun e he => (prodItems_bound ha hb hd hi e he).1
    rw [← e]
    refine length_le_card hbr.nodup ?_
    rintro ⟨k, v⟩ he
    obtain ⟨h1, h2, h3⟩ := (hbr.mem k v).1 he
    simp only [List.not_mem_nil, false_and, exists_false, or_false] at h1
    obtain ⟨g, hg, rfl⟩ := h1
    have hk := prodItems_bound ha hb hd hi g hg
    refine ⟨hk.1, hk.2.1, ?_⟩
    have hkk : ((g.1.toNat : Nat) : Int) = g.1 := by omega
    have : ∑ j ∈ Finset.range a.cols, a.entry i j * b.entry j g.1.toNat = v := by
      rw [h2, ← hkk, rowSum_prodItems b.row (m := a.cols)]
      · rfl
      · intro e he
        have := ha.mem hi he
        exact ⟨this.1, this.2.1⟩
    simp only [ne_eq]
    rw [this]
    simpa [nzT] using h3

theorem WFptr.narrow {t t' : IntTy} {n m : Nat} {p j : List Int} {x : List T} (h : WFptr t' n m p j x) (hm : (m : Int) ≤ t.hi)
    (hn : ((flat (rowOf p j x) n).length : Int) ≤ t.hi) : WFptr t n m p j x :=
  h.rep.wf (fun i hi e he => by have := h.mem hi he; omega) hn

theorem CSR.WF.narrow {t t' : IntTy} {r : CSR T} (h : r.WF t') (hc : (r.cols : Int) ≤ t.hi) (hn : (r.stored : Int) ≤ t.hi) : r.WF t :=
  WFptr.narrow h hc (by rw [h.stored_eq] at hn; exact hn)
theorem CSC.WF.narrow {t t' : IntTy} {r : CSC T} (h : r.WF t') (hc : (r.rows : Int) ≤ t.hi) (hn : (r.stored : Int) ≤ t.hi) : r.WF t :=
  WFptr.narrow h hc (by rw [h.stored_eq] at hn; exact hn)

theorem WFptr.ptr_le {t t' : IntTy} {n m : Nat} {p j : List Int} {x : List T} (h : WFptr t' n m p j x) (hp : t.HasAll p) :
    ((flat (rowOf p j x) n).length : Int) ≤ t.hi :=
  (hp _ (List.mem_of_getElem? (h.rep.ptr n (le_refl _)))).2
theorem CSR.HasType.stored_le {t t' : IntTy} {r : CSR T} (ht : r.HasType t) (h : r.WF t') : (r.stored : Int) ≤ t.hi := by
  rw [h.stored_eq]; exact WFptr.ptr_le h ht.1
theorem CSC.HasType.stored_le {t t' : IntTy} {r : CSC T} (ht : r.HasType t) (h : r.WF t') : (r.stored : Int) ≤ t.hi := by
  rw [h.stored_eq]; exact WFptr.ptr_le h ht.2

/-! ### C97 -/

/-- **C97** for `a + b` of compressed sparse rows. Whether the sum of two valid matrices can be formed depends on the number of
non-zero elements of the sum alone: if the index type can count them the operator returns the sum, which stores exactly these
elements; if not, the operator panics. The conditions on the operands are that the number of columns fits and that neither fills the
index type completely. -/
theorem C97_csr_add [AddCommMonoid T] [DecidableEq T] (t : IntTy) (a b : CSR T) (ha : a.WF t) (hb : b.WF t) (hr : b.rows = a.rows)
    (hc : b.cols = a.cols) (hcol : (a.cols : Int) ≤ t.hi) (hsa : (a.stored : Int) < t.hi) (hsb : (b.stored : Int) < t.hi) :
    ((nonzeros a.rows a.cols (fun i j => a.entry i j + b.entry i j) : Int) ≤ t.hi →
      ∃ r, a.add t b = .ok r ∧ r.WF t ∧ r.rows = a.rows ∧ r.cols = a.cols ∧
        (∀ i j, r.entry i j = a.entry i j + b.entry i j) ∧ r.NoDup ∧ (∀ i < a.rows, ∀ e ∈ r.row i, e.2 ≠ 0) ∧
        (a.Canonical → b.Canonical → r.Canonical) ∧
        r.stored = nonzeros a.rows a.cols fun i j => a.entry i j + b.entry i j) ∧
    (t.hi < (nonzeros a.rows a.cols (fun i j => a.entry i j + b.entry i j) : Int) → a.HasType t → b.HasType t →
      a.add t b = .error (.panic .unwrap) ∨ a.add t b = .error (.panic .arith)) := by
  set t' := t.extend (a.stored + b.stored + 1) with ht'
  have hs : t.Sub t' := t.sub_extend _
  obtain ⟨r, h1, h2, h3, h4, h5, h6, h7, h8, -⟩ := C15_csr_add t' a b (ha.widen hs) (hb.widen hs) hr hc
    (by rw [ht']; unfold IntTy.extend; dsimp only; omega)
  have hst := CSR.stored_nonzeros h2 h6 (by rw [h3]; exact h7)
  rw [h3, h4, nonzeros_congr h5] at hst
  constructor
  · intro hfit
    refine ⟨r, ?_, h2.narrow (by omega) (by omega), h3, h4, h5, h6, h7, h8, hst⟩
    rw [← h1]
    have e1 := CSR.nnz_ok ha.rep
    have e2 := CSR.nnz_ok hb.rep
    rw [← ha.stored_eq] at e1
    rw [← hb.stored_eq] at e2
    unfold CSR.add csr_add_csr
    rw [e1]
    simp only [bind, Except.bind]
    rw [e2]
    simp only
    rw [binop_capacity hs _ a b ha hb hr hc hcol hsa hsb hfit _ _ _ (by simp) (by simp) (by simp)]
  · intro hfit hta htb
    refine (CSR_add_wd hs.idx a b).panics h1 fun h => ?_
    have : (r.stored : Int) ≤ t.hi := CSR.HasType.stored_le (CSR_add_ty (t := t) hta htb r h) h2
    omega

/-- **C97** for `a - b` of compressed sparse rows -/
theorem C97_csr_sub [AddCommGroup T] [DecidableEq T] (t : IntTy) (a b : CSR T) (ha : a.WF t) (hb : b.WF t) (hr : b.rows = a.rows)
    (hc : b.cols = a.cols) (hcol : (a.cols : Int) ≤ t.hi) (hsa : (a.stored : Int) < t.hi) (hsb : (b.stored : Int) < t.hi) :
    ((nonzeros a.rows a.cols (fun i j => a.entry i j - b.entry i j) : Int) ≤ t.hi →
      ∃ r, a.sub t b = .ok r ∧ r.WF t ∧ r.rows = a.rows ∧ r.cols = a.cols ∧
        (∀ i j, r.entry i j = a.entry i j - b.entry i j) ∧ r.NoDup ∧ (∀ i < a.rows, ∀ e ∈ r.row i, e.2 ≠ 0) ∧
        (a.Canonical → b.Canonical → r.Canonical) ∧
        r.stored = nonzeros a.rows a.cols fun i j => a.entry i j - b.entry i j) ∧
    (t.hi < (nonzeros a.rows a.cols (fun i j => a.entry i j - b.entry i j) : Int) → a.HasType t → b.HasType t →
      a.sub t b = .error (.panic .unwrap) ∨ a.sub t b = .error (.panic .arith)) := by
  set t' := t.extend (a.stored + b.stored + 1) with ht'
  have hs : t.Sub t' := t.sub_extend _
  obtain ⟨r, h1, h2, h3, h4, h5, h6, h7, h8, -⟩ := C15_csr_sub t' a b (ha.widen hs) (hb.widen hs) hr hc
    (by rw [ht']; unfold IntTy.extend; dsimp only; omega)
  have hst := CSR.stored_nonzeros h2 h6 (by rw [h3]; exact h7)
  rw [h3, h4, nonzeros_congr h5] at hst
  constructor
  · intro hfit
    refine ⟨r, ?_, h2.narrow (by omega) (by omega), h3, h4, h5, h6, h7, h8, hst⟩
    rw [← h1]
    have e1 := CSR.nnz_ok ha.rep
    have e2 := CSR.nnz_ok hb.rep
    rw [← ha.stored_eq] at e1
    rw [← hb.stored_eq] at e2
    unfold CSR.sub csr_sub_csr
    rw [e1]
    simp only [bind, Except.bind]
    rw [e2]
    simp only
    rw [binop_capacity hs _ a b ha hb hr hc hcol hsa hsb hfit _ _ _ (by simp) (by simp) (by simp)]
  · intro hfit hta htb
    refine (CSR_sub_wd hs.idx a b).panics h1 fun h => ?_
    have : (r.stored : Int) ≤ t.hi := CSR.HasType.stored_le (CSR_sub_ty (t := t) hta htb r h) h2
    omega

/-- **C97** for the method `add` of compressed sparse columns -/
theorem C97_csc_add [AddCommMonoid T] [DecidableEq T] (t : IntTy) (a b : CSC T) (ha : a.WF t) (hb : b.WF t) (hr : b.rows = a.rows)
    (hc : b.cols = a.cols) (hrow : (a.rows : Int) ≤ t.hi) (hsa : (a.stored : Int) < t.hi) (hsb : (b.stored : Int) < t.hi) :
    ((nonzeros a.cols a.rows (fun j i => a.entry i j + b.entry i j) : Int) ≤ t.hi →
      ∃ r, a.add t b = .ok r ∧ r.WF t ∧ r.rows = a.rows ∧ r.cols = a.cols ∧
        (∀ i j, r.entry i j = a.entry i j + b.entry i j) ∧ r.NoDup ∧ (∀ j < a.cols, ∀ e ∈ r.col j, e.2 ≠ 0) ∧
        r.rowidx.length = r.stored ∧ r.values.length = r.stored ∧ (a.Canonical → b.Canonical → r.Canonical) ∧
        r.stored = nonzeros a.cols a.rows fun j i => a.entry i j + b.entry i j) ∧
    (t.hi < (nonzeros a.cols a.rows (fun j i => a.entry i j + b.entry i j) : Int) → a.HasType t → b.HasType t →
      a.add t b = .error (.panic .unwrap) ∨ a.add t b = .error (.panic .arith)) := by
  set t' := t.extend (a.stored + b.stored + 1) with ht'
  have hs : t.Sub t' := t.sub_extend _
  obtain ⟨r, h1, h2, h3, h4, h5, h6, h7, hl1, hl2, h8, -⟩ := C18_csc_add t' a b (ha.widen hs) (hb.widen hs) hr hc
    (by rw [ht']; unfold IntTy.extend; dsimp only; omega)
  have hst := CSC.stored_nonzeros h2 h6 (by rw [h4]; exact h7)
  rw [h3, h4, nonzeros_congr fun j i => h5 i j] at hst
  constructor
  · intro hfit
    refine ⟨r, ?_, CSC.WF.narrow h2 (by omega) (by omega), h3, h4, h5, h6, h7, hl1, hl2, h8, hst⟩
    rw [← h1]
    have e1 := CSC.nnz_ok ha.rep
    have e2 := CSC.nnz_ok hb.rep
    rw [← ha.stored_eq] at e1
    rw [← hb.stored_eq] at e2
    have hk := binop_capacity hs (fun x y => x + y) a.asCSR b.asCSR ha hb hc hr hrow hsa hsb hfit
      (List.replicate (a.cols + 1) 0) (List.replicate (a.stored + b.stored) 0) (List.replicate (a.stored + b.stored) 0)
      (by simp [CSC.asCSR]) (by rw [List.length_replicate]; rfl) (by rw [List.length_replicate]; rfl)
    simp only [CSC.asCSR] at hk
    unfold CSC.add csr_add_csr
    rw [if_neg (by omega), if_neg (by omega)]
    rw [show a.colptr.length = a.cols + 1 from ha.len]
    rw [e1]
    simp only [bind, Except.bind]
    rw [e2]
    simp only
    rw [hk]
  · intro hfit hta htb
    refine (CSC_add_wd hs.idx a b).panics h1 fun h => ?_
    have : (r.stored : Int) ≤ t.hi := CSC.HasType.stored_le (CSC_add_ty (t := t) hta htb r h) h2
    omega

/-- **C97** for the method `subtract` of compressed sparse columns -/
theorem C97_csc_subtract [AddCommGroup T] [DecidableEq T] (t : IntTy) (a b : CSC T) (ha : a.WF t) (hb : b.WF t) (hr : b.rows = a.rows)
    (hc : b.cols = a.cols) (hrow : (a.rows : Int) ≤ t.hi) (hsa : (a.stored : Int) < t.hi) (hsb : (b.stored : Int) < t.hi) :
    ((nonzeros a.cols a.rows (fun j i => a.entry i j - b.entry i j) : Int) ≤ t.hi →
      ∃ r, a.subtract t b = .ok r ∧ r.WF t ∧ r.rows = a.rows ∧ r.cols = a.cols ∧
        (∀ i j, r.entry i j = a.entry i j - b.entry i j) ∧ r.NoDup ∧ (∀ j < a.cols, ∀ e ∈ r.col j, e.2 ≠ 0) ∧
        r.rowidx.length = r.stored ∧ r.values.length = r.stored ∧ (a.Canonical → b.Canonical → r.Canonical) ∧
        r.stored = nonzeros a.cols a.rows fun j i => a.entry i j - b.entry i j) ∧
    (t.hi < (nonzeros a.cols a.rows (fun j i => a.entry i j - b.entry i j) : Int) → a.HasType t → b.HasType t →
      a.subtract t b = .error (.panic .unwrap) ∨ a.subtract t b = .error (.panic .arith)) := by
  set t' := t.extend (a.stored + b.stored + 1) with ht'
  have hs : t.Sub t' := t.sub_extend _
  obtain ⟨r, h1, h2, h3, h4, h5, h6, h7, hl1, hl2, h8, -⟩ := C18_csc_subtract t' a b (ha.widen hs) (hb.widen hs) hr hc
    (by rw [ht']; unfold IntTy.extend; dsimp only; omega)
  have hst := CSC.stored_nonzeros h2 h6 (by rw [h4]; exact h7)
  rw [h3, h4, nonzeros_congr fun j i => h5 i j] at hst
  constructor
  · intro hfit
    refine ⟨r, ?_, CSC.WF.narrow h2 (by omega) (by omega), h3, h4, h5, h6, h7, hl1, hl2, h8, hst⟩
    rw [← h1]
    have e1 := CSC.nnz_ok ha.rep
    have e2 := CSC.nnz_ok hb.rep
    rw [← ha.stored_eq] at e1
    rw [← hb.stored_eq] at e2
    have hk := binop_capacity hs (fun x y => x - y) a.asCSR b.asCSR ha hb hc hr hrow hsa hsb hfit
      (List.replicate (a.cols + 1) 0) (List.replicate (a.stored + b.stored) 0) (List.replicate (a.stored + b.stored) 0)
      (by simp [CSC.asCSR]) (by rw [List.length_replicate]; rfl) (by rw [List.length_replicate]; rfl)
    simp only [CSC.asCSR] at hk
    unfold CSC.subtract csr_sub_csr
    rw [if_neg (by omega), if_neg (by omega)]
    rw [show a.colptr.length = a.cols + 1 from ha.len]
    rw [e1]
    simp only [bind, Except.bind]
    rw [e2]
    simp only
    rw [hk]
  · intro hfit hta htb
    refine (CSC_subtract_wd hs.idx a b).panics h1 fun h => ?_
    have : (r.stored : Int) ≤ t.hi := CSC.HasType.stored_le (CSC_subtract_ty (t := t) hta htb r h) h2
    omega

/-- **C97** for `a + b` of compressed sparse columns -/
theorem C97_csc_add_op [AddCommMonoid T] [DecidableEq T] (t : IntTy) (a b : CSC T) (ha : a.WF t) (hb : b.WF t) (hr : b.rows = a.rows)
    (hc : b.cols = a.cols) (hrow : (a.rows : Int) ≤ t.hi) (hsa : (a.stored : Int) < t.hi) (hsb : (b.stored : Int) < t.hi) :
    ((nonzeros a.cols a.rows (fun j i => a.entry i j + b.entry i j) : Int) ≤ t.hi →
      ∃ r, a.add_op t b = .ok r ∧ r.WF t ∧ r.rows = a.rows ∧ r.cols = a.cols ∧
        (∀ i j, r.entry i j = a.entry i j + b.entry i j) ∧ r.NoDup ∧ (∀ j < a.cols, ∀ e ∈ r.col j, e.2 ≠ 0) ∧
        (a.Canonical → b.Canonical → r.Canonical) ∧
        r.stored = nonzeros a.cols a.rows fun j i => a.entry i j + b.entry i j) ∧
    (t.hi < (nonzeros a.cols a.rows (fun j i => a.entry i j + b.entry i j) : Int) → a.HasType t → b.HasType t →
      a.add_op t b = .error (.panic .unwrap) ∨ a.add_op t b = .error (.panic .arith)) := by
  set t' := t.extend (a.stored + b.stored + 1) with ht'
  have hs : t.Sub t' := t.sub_extend _
  obtain ⟨r, h1, h2, h3, h4, h5, h6, h7, h8, -⟩ := C18_csc_add_op t' a b (ha.widen hs) (hb.widen hs) hr hc
    (by rw [ht']; unfold IntTy.extend; dsimp only; omega)
  have hst := CSC.stored_nonzeros h2 h6 (by rw [h4]; exact h7)
  rw [h3, h4, nonzeros_congr fun j i => h5 i j] at hst
  constructor
  · intro hfit
    refine ⟨r, ?_, CSC.WF.narrow h2 (by omega) (by omega), h3, h4, h5, h6, h7, h8, hst⟩
    rw [← h1]
    have e1 := CSC.nnz_ok ha.rep
    have e2 := CSC.nnz_ok hb.rep
    rw [← ha.stored_eq] at e1
    rw [← hb.stored_eq] at e2
    have hk := binop_capacity hs (fun x y => x + y) a.asCSR b.asCSR ha hb hc hr hrow hsa hsb hfit
      (List.replicate (a.cols + 1) 0) (List.replicate (a.stored + b.stored) 0) (List.replicate (a.stored + b.stored) 0)
      (by simp [CSC.asCSR]) (by rw [List.length_replicate]; rfl) (by rw [List.length_replicate]; rfl)
    simp only [CSC.asCSR] at hk
    unfold CSC.add_op csr_add_csr
    rw [e1]
    simp only [bind, Except.bind]
    rw [e2]
    simp only
    rw [hk]
  · intro hfit hta htb
    refine (CSC_add_op_wd hs.idx a b).panics h1 fun h => ?_
    have : (r.stored : Int) ≤ t.hi := CSC.HasType.stored_le (CSC_add_op_ty (t := t) hta htb r h) h2
    omega

/-- **C97** for the product of compressed sparse rows, method and operator. Intermediate cancellations do not count: the product is formed if
and only if the index type can count its non-zero elements. -/
theorem C97_csr_mat_mat [NonUnitalNonAssocSemiring T] [DecidableEq T] (t : IntTy) (a b : CSR T) (ha : a.WF t) (hb : b.WF t)
    (hd : a.cols = b.rows) (hcol : (b.cols : Int) ≤ t.hi) :
    ((nonzeros a.rows b.cols (fun i k => ∑ j ∈ Finset.range a.cols, a.entry i j * b.entry j k) : Int) ≤ t.hi →
      ∃ r, a.mat_mat t b = .ok r ∧ a.mul t b = .ok r ∧ r.WF t ∧ r.rows = a.rows ∧ r.cols = b.cols ∧
        (∀ i k, r.entry i k = ∑ j ∈ Finset.range a.cols, a.entry i j * b.entry j k) ∧ r.NoDup ∧
        (∀ i < a.rows, ∀ e ∈ r.row i, e.2 ≠ 0) ∧
        r.stored = nonzeros a.rows b.cols fun i k => ∑ j ∈ Finset.range a.cols, a.entry i j * b.entry j k) ∧
    (t.hi < (nonzeros a.rows b.cols (fun i k => ∑ j ∈ Finset.range a.cols, a.entry i j * b.entry j k) : Int) →
      (a.mat_mat t b = .error (.panic .unwrap) ∨ a.mat_mat t b = .error (.panic .arith)) ∧
      (a.mul t b = .error (.panic .unwrap) ∨ a.mul t b = .error (.panic .arith))) := by
  set t' := t.extend (a.productSlots b + 1) with ht'
  have hs : t.Sub t' := t.sub_extend _
  obtain ⟨r, h1, h1', h2, h3, h4, h5, h6, h7, -⟩ := C13_csr_mat_mat t' a b (ha.widen hs) (hb.widen hs) hd
    (by rw [ht']; unfold IntTy.extend; dsimp only; omega)
  have hst := CSR.stored_nonzeros h2 h6 (by rw [h3]; exact h7)
  rw [h3, h4, nonzeros_congr h5] at hst
  have hmul : ∀ m, a.mat_mat t b = m → a.mul t b = unwrapR m := fun m h => by unfold CSR.mul; rw [h]
  constructor
  · intro hfit
    have hok : a.mat_mat t b = .ok r := by
      rw [← h1]
      have e1 := (csr_matmat_wf (ha.widen hs) (hb.widen hs) hd (by rw [ht']; unfold IntTy.extend; dsimp only; omega)).1
      unfold CSR.mat_mat
      rw [if_neg (not_not.2 hd), if_neg (not_not.2 hd)]
      simp only [bind, Except.bind]
      rw [e1]
      simp only
      rw [matmat_capacity hs a b ha hb hd hcol hfit _ _ _ (by simp) (by simp) (by simp)]
    exact ⟨r, hok, hmul _ hok, h2.narrow (by omega) (by omega), h3, h4, h5, h6, h7, hst⟩
  · intro hfit
    have := (CSR_mat_mat_wd hs.idx a b).panics h1 fun h => by
      have : (r.stored : Int) ≤ t.hi := CSR.HasType.stored_le (CSR_mat_mat_ty (t := t) r h) h2
      omega
    exact ⟨this, this.imp (hmul _) (hmul _)⟩

/-- **C97** for the product of compressed sparse columns, method and operator -/
theorem C97_csc_mat_mat [NonUnitalNonAssocCommSemiring T] [DecidableEq T] (t : IntTy) (a b : CSC T) (ha : a.WF t) (hb : b.WF t)
    (hd : b.rows = a.cols) (hrow : (a.rows : Int) ≤ t.hi) :
    ((nonzeros b.cols a.rows (fun k i => ∑ j ∈ Finset.range a.cols, a.entry i j * b.entry j k) : Int) ≤ t.hi →
      ∃ r, a.mat_mat t b = .ok r ∧ a.mul t b = .ok r ∧ r.WF t ∧ r.rows = a.rows ∧ r.cols = b.cols ∧
        (∀ i k, r.entry i k = ∑ j ∈ Finset.range a.cols, a.entry i j * b.entry j k) ∧ r.NoDup ∧
        (∀ k < b.cols, ∀ e ∈ r.col k, e.2 ≠ 0) ∧
        r.stored = nonzeros b.cols a.rows fun k i => ∑ j ∈ Finset.range a.cols, a.entry i j * b.entry j k) ∧
    (t.hi < (nonzeros b.cols a.rows (fun k i => ∑ j ∈ Finset.range a.cols, a.entry i j * b.entry j k) : Int) →
      (a.mat_mat t b = .error (.panic .unwrap) ∨ a.mat_mat t b = .error (.panic .arith)) ∧
      (a.mul t b = .error (.panic .unwrap) ∨ a.mul t b = .error (.panic .arith))) := by
  set t' := t.extend (a.productSlots b + 1) with ht'
  have hs : t.Sub t' := t.sub_extend _
  have hps := CSC.productSlots_asCSR a b
  obtain ⟨r, h1, h1', h2, h3, h4, h5, h6, h7, -⟩ := C14_csc_mat_mat t' a b (ha.widen hs) (hb.widen hs) hd
    (by rw [ht']; unfold IntTy.extend; dsimp only; omega)
  have hst := CSC.stored_nonzeros h2 h6 (by rw [h4]; exact h7)
  rw [h3, h4, nonzeros_congr fun k i => h5 i k] at hst
  have hmul : ∀ m, a.mat_mat t b = m → a.mul t b = unwrapR m := fun m h => by unfold CSC.mul; rw [h]
  constructor
  · intro hfit
    have hok : a.mat_mat t b = .ok r := by
      rw [← h1]
      have e1 := (csr_matmat_wf (a := b.asCSR) (b := a.asCSR) (hb.widen hs) (ha.widen hs) hd
        (by rw [← hps, ht']; unfold IntTy.extend; dsimp only; omega)).1
      have hfit' : (nonzeros b.asCSR.rows a.asCSR.cols (fun i k => ∑ j ∈ Finset.range b.asCSR.cols, b.asCSR.entry i j * a.asCSR.entry j k) : Int)
          ≤ t.hi := by
        rw [nonzeros_congr (g := fun k i => ∑ j ∈ Finset.range a.cols, a.entry i j * b.entry j k)]
        · exact hfit
        · intro k i
          rw [show b.asCSR.cols = a.cols from hd]
          exact Finset.sum_congr rfl fun j _ => mul_comm _ _
      have hk := matmat_capacity hs b.asCSR a.asCSR hb ha hd hrow hfit' (List.replicate (b.cols + 1) 0)
        (List.replicate (a.productSlots b) 0) (List.replicate (a.productSlots b) 0) (by simp [CSC.asCSR]) (by simp [hps]) (by simp [hps])
      rw [← hps] at e1
      simp only [CSC.asCSR] at e1 hk
      unfold CSC.mat_mat csc_matmat_maxnnz csc_matmat
      rw [if_neg (not_not.2 hd), if_neg (not_not.2 hd)]
      simp only [bind, Except.bind]
      rw [e1]
      simp only
      rw [hk]
    exact ⟨r, hok, hmul _ hok, CSC.WF.narrow h2 (by omega) (by omega), h3, h4, h5, h6, h7, hst⟩
  · intro hfit
    have := (CSC_mat_mat_wd hs.idx a b).panics h1 fun h => by
      have : (r.stored : Int) ≤ t.hi := CSC.HasType.stored_le (CSC_mat_mat_ty (t := t) r h) h2
      omega
    exact ⟨this, this.imp (hmul _) (hmul _)⟩

/-! ### The hypotheses are met -/

namespace CapacityEx

/-- two rows of 100 elements; the first row is full -/
def top : CSR Int := ⟨2, 100, [0, 100, 100], (List.range 100).map fun (k : Nat) => (k : Int), List.replicate 100 1⟩
/-- the second row is full -/
def bottom : CSR Int := ⟨2, 100, [0, 0, 100], (List.range 100).map fun (k : Nat) => (k : Int), List.replicate 100 1⟩

theorem full_idx {c : Int} {k : Nat} {v : Int} (hv : ((List.range 100).map fun (k : Nat) => (k : Int))[k]? = some v) :
    0 ≤ v ∧ v < 100 ∧ v ≤ IntTy.i8.hi := by
  rw [List.getElem?_map, Option.map_eq_some_iff] at hv
  obtain ⟨q, hq, rfl⟩ := hv
  have := List.mem_range.1 (List.mem_of_getElem? hq)
  simp only [IntTy.i8]
  omega

theorem top_wf : top.WF IntTy.i8 := by
  refine ⟨rfl, rfl, ?_, ?_, fun c k v _ hv _ => full_idx (c := 0) hv⟩
  · intro i a b h1 h2
    match i with
    | 0 | 1 => simp [top] at h1 h2; omega
    | i + 2 => simp [top] at h2
  · intro c hc
    simp [top] at hc
    subst hc
    simp [top, IntTy.i8]

theorem bottom_wf : bottom.WF IntTy.i8 := by
  refine ⟨rfl, rfl, ?_, ?_, fun c k v _ hv _ => full_idx (c := 0) hv⟩
  · intro i a b h1 h2
    match i with
    | 0 | 1 => simp [bottom] at h1 h2; omega
    | i + 2 => simp [bottom] at h2
  · intro c hc
    simp [bottom] at hc
    subst hc
    simp [bottom, IntTy.i8]

/-- the operands store 200 entries together, more than an `i8` can count, and the sum has 100 -/
example : ∃ r, top.add IntTy.i8 top = .ok r ∧ r.stored = 100 ∧ ¬ ((top.stored + top.stored : Nat) : Int) < IntTy.i8.hi := by
  have hn : nonzeros 2 100 (fun i j => top.entry i j + top.entry i j) = 100 := by decide +kernel
  have hst : top.stored = 100 := by decide +kernel
  obtain ⟨r, h, -, -, -, -, -, -, -, hr⟩ := (C97_csr_add IntTy.i8 top top top_wf top_wf rfl rfl (by decide) (by rw [hst]; decide)
    (by rw [hst]; decide)).1 (by rw [show top.rows = 2 from rfl, show top.cols = 100 from rfl, hn]; decide)
  exact ⟨r, h, hr.trans hn, by rw [hst]; decide⟩

/-- the sum has 200 non-zero elements -/
example : top.add IntTy.i8 bottom = .error (.panic .unwrap) ∨ top.add IntTy.i8 bottom = .error (.panic .arith) := by
  have hn : nonzeros 2 100 (fun i j => top.entry i j + bottom.entry i j) = 200 := by decide +kernel
  have h1 : top.stored = 100 := by decide +kernel
  have h2 : bottom.stored = 100 := by decide +kernel
  exact (C97_csr_add IntTy.i8 top bottom top_wf bottom_wf rfl rfl (by decide) (by rw [h1]; decide) (by rw [h2]; decide)).2
    (by rw [show top.rows = 2 from rfl, show top.cols = 100 from rfl, hn]; decide)
    ⟨by unfold IntTy.HasAll IntTy.Has; decide +kernel, by unfold IntTy.HasAll IntTy.Has; decide +kernel⟩
    ⟨by unfold IntTy.HasAll IntTy.Has; decide +kernel, by unfold IntTy.HasAll IntTy.Has; decide +kernel⟩

/-- three rows `[1 -1]` -/
def differ : CSR Int := ⟨3, 2, [0, 2, 4, 6], [0, 1, 0, 1, 0, 1], [1, -1, 1, -1, 1, -1]⟩
/-- two full rows of 60 ones -/
def wide : CSR Int := ⟨2, 60, [0, 60, 120], (List.range 60 ++ List.range 60).map fun (k : Nat) => (k : Int), List.replicate 120 1⟩

theorem differ_wf : differ.WF IntTy.i8 := by
  refine ⟨rfl, rfl, ?_, ?_, ?_⟩
  · intro i a b h1 h2
    match i with
    | 0 | 1 | 2 => simp [differ] at h1 h2; omega
    | i + 3 => simp [differ] at h2
  · intro c hc
    simp [differ] at hc
    subst hc
    simp [differ, IntTy.i8]
  · intro c k v _ hv _
    match k with
    | 0 | 1 | 2 | 3 | 4 | 5 => simp [differ] at hv; simp [differ, IntTy.i8]; omega
    | k + 6 => simp [differ] at hv

theorem wide_wf : wide.WF IntTy.i8 := by
  refine ⟨rfl, rfl, ?_, ?_, ?_⟩
  · intro i a b h1 h2
    match i with
    | 0 | 1 => simp [wide] at h1 h2; omega
    | i + 2 => simp [wide] at h2
  · intro c hc
    simp [wide] at hc
    subst hc
    simp [wide, IntTy.i8]
  · intro c k v _ hv _
    simp only [wide] at hv ⊢
    rw [List.getElem?_map, Option.map_eq_some_iff] at hv
    obtain ⟨q, hq, rfl⟩ := hv
    have := List.mem_of_getElem? hq
    simp only [List.mem_append, List.mem_range, or_self] at this
    simp only [IntTy.i8]
    omega

/-- 180 positions of the product have contributions, more than an `i8` can count, but all of them cancel -/
example : ∃ r, differ.mat_mat IntTy.i8 wide = .ok r ∧ r.stored = 0 := by
  have hn : nonzeros 3 60 (fun i k => ∑ j ∈ Finset.range 2, differ.entry i j * wide.entry j k) = 0 := by decide +kernel
  obtain ⟨r, h, -, -, -, -, -, -, -, hr⟩ := (C97_csr_mat_mat IntTy.i8 differ wide differ_wf wide_wf rfl (by decide)).1
    (by rw [show differ.rows = 3 from rfl, show wide.cols = 60 from rfl, show differ.cols = 2 from rfl, hn]; decide)
  exact ⟨r, h, hr.trans hn⟩

/-- three rows `[1 1]` -/
def same : CSR Int := ⟨3, 2, [0, 2, 4, 6], [0, 1, 0, 1, 0, 1], [1, 1, 1, 1, 1, 1]⟩

/-- here nothing cancels -/
example : same.mat_mat IntTy.i8 wide = .error (.panic .unwrap) ∨ same.mat_mat IntTy.i8 wide = .error (.panic .arith) := by
  have hn : nonzeros 3 60 (fun i k => ∑ j ∈ Finset.range 2, same.entry i j * wide.entry j k) = 180 := by decide +kernel
  have hw : same.WF IntTy.i8 := ⟨differ_wf.len, differ_wf.first, differ_wf.mono, differ_wf.last, differ_wf.idx⟩
  exact ((C97_csr_mat_mat IntTy.i8 same wide hw wide_wf rfl (by decide)).2
    (by rw [show same.rows = 3 from rfl, show wide.cols = 60 from rfl, show same.cols = 2 from rfl, hn]; decide)).1

/-- the same for compressed sparse columns -/
example : ∃ r, CSC.add IntTy.i8 ⟨100, 2, top.colidx, top.rowptr, top.values⟩ ⟨100, 2, top.colidx, top.rowptr, top.values⟩ = .ok r ∧
    r.stored = 100 := by
  set a : CSC Int := ⟨100, 2, top.colidx, top.rowptr, top.values⟩ with ha
  have hn : nonzeros 2 100 (fun j i => a.entry i j + a.entry i j) = 100 := by rw [ha]; decide +kernel
  have hst : a.stored = 100 := by rw [ha]; decide +kernel
  have hw : a.WF IntTy.i8 := top_wf
  obtain ⟨r, h, -, -, -, -, -, -, -, -, -, hr⟩ := (C97_csc_add IntTy.i8 a a hw hw rfl rfl (by rw [ha]; decide) (by rw [hst]; decide)
    (by rw [hst]; decide)).1 (by rw [show a.rows = 100 from rfl, show a.cols = 2 from rfl, hn]; decide)
  exact ⟨r, h, hr.trans hn⟩

/-- a full row of 127 elements and an empty one -/
def brim : CSR Int := ⟨2, 127, [0, 127, 127], (List.range 127).map fun (k : Nat) => (k : Int), List.replicate 127 1⟩

theorem brim_wf : brim.WF IntTy.i8 := by
  refine ⟨rfl, rfl, ?_, ?_, ?_⟩
  · intro i a b h1 h2
    match i with
    | 0 | 1 => simp [brim] at h1 h2; omega
    | i + 2 => simp [brim] at h2
  · intro c hc
    simp [brim] at hc
    subst hc
    simp [brim, IntTy.i8]
  · intro c k v _ hv _
    simp only [brim] at hv ⊢
    rw [List.getElem?_map, Option.map_eq_some_iff] at hv
    obtain ⟨q, hq, rfl⟩ := hv
    have := List.mem_range.1 (List.mem_of_getElem? hq)
    simp only [IntTy.i8]
    omega

end CapacityEx

/-- **C97**, the condition on the operands is needed: a valid matrix can store as many entries as the index type can count and still not be
added to itself, although the sum has the same number of non-zero elements. (The check for canonical form looks one position past an
empty row.) -/
theorem C97_full_operand : ∃ a : CSR Int, a.WF IntTy.i8 ∧ (a.cols : Int) ≤ IntTy.i8.hi ∧ (a.stored : Int) = IntTy.i8.hi ∧
    (nonzeros a.rows a.cols (fun i j => a.entry i j + a.entry i j) : Int) ≤ IntTy.i8.hi ∧
    a.add IntTy.i8 a = .error (.panic .arith) := by
  refine ⟨CapacityEx.brim, CapacityEx.brim_wf, by decide, by decide +kernel, by decide +kernel, by decide +kernel⟩

end Sparse

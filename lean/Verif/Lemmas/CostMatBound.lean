import Verif.Lemmas.CostMat
import Verif.Lemmas.Release
import Verif.Lemmas.Typed
import Verif.Props.Convert
/-! Bounds on the number of steps of the methods. -/
namespace Sparse
open MT
section
variable {T : Type}

theorem log2_mono {a b : Nat} (h : a ≤ b) : Nat.log2 a ≤ Nat.log2 b := by
  by_cases ha : a = 0
  · subst ha
    simp
  · exact (Nat.le_log2 (by omega)).2 (Nat.le_trans (Nat.log2_self_le ha) h)

theorem csr_sort_indicesT_tc [Zero T] {n K : Nat} {p j : List Int} {x : List T} (h : Pointers n p j x) (hK : RowsLe p K) :
    TC (csr_sort_indicesT n p j x) (3 * n + (14 + Nat.log2 K) * ptrAt p n) fun s _ => s.1.length = j.length ∧ s.2.length = x.length := by
  unfold csr_sort_indicesT
  have e0 : (14 + Nat.log2 K) * (ptrAt p n - ptrAt p 0) ≤ (14 + Nat.log2 K) * ptrAt p n := Nat.mul_le_mul_left _ (by omega)
  refine TC.bind (TC.forR (fun i s r => (s.1.length = j.length ∧ s.2.1.length = x.length) ∧
    3 * (n - i) + (14 + Nat.log2 K) * (ptrAt p n - ptrAt p i) ≤ r) ⟨⟨rfl, rfl⟩, by omega⟩ ?_ fun _ _ h => TC.pure h.1)
  intro i s r _ hi hr
  have hst := h.step hi
  have e1 : (14 + Nat.log2 K) * (ptrAt p n - ptrAt p i) = (14 + Nat.log2 K) * (ptrAt p n - ptrAt p (i + 1)) +
      (13 * (ptrAt p (i + 1) - ptrAt p i) + (ptrAt p (i + 1) - ptrAt p i) * (Nat.log2 K + 1)) := by
    rw [mul_sub_split _ hst.1 hst.2]
    congr 1
    generalize ptrAt p (i + 1) - ptrAt p i = k
    rw [Nat.add_mul 14, Nat.mul_add k, Nat.mul_comm k]
    omega
  generalize (14 + Nat.log2 K) * (ptrAt p n - ptrAt p (i + 1)) = R at e1
  tc
  rename_i v hv hv0 v' hv' hv0' d hd
  have hk := hK.toNat hv hv' hv0
  rw [ptrAt_of hv, ptrAt_of hv'] at hk
  rw [ptrAt_of hv, ptrAt_of hv'] at hd ⊢
  have hd : d = ptrAt p (i + 1) - ptrAt p i := by
    unfold usub at hd
    split at hd
    · cases hd; rfl
    · cases hd
  have hsort : (ptrAt p (i + 1) - ptrAt p i) * (Nat.log2 (ptrAt p (i + 1) - ptrAt p i) + 1) ≤
      (ptrAt p (i + 1) - ptrAt p i) * (Nat.log2 K + 1) := Nat.mul_le_mul_left _ (Nat.add_le_add_right (log2_mono hk) 1)
  generalize hX : (ptrAt p (i + 1) - ptrAt p i) * (Nat.log2 K + 1) = X at *
  refine TC.resize_bind (by omega) ?_
  refine TC.bind (TC.forR (fun k s r => s.1.length = d ∧ 3 * (n - (i + 1)) + R + X + 5 * (ptrAt p (i + 1) - ptrAt p i) +
    7 * (ptrAt p (i + 1) - k) ≤ r) ⟨by simp [List.resize]; omega, by omega⟩ ?_ fun s r hs => ?_)
  · intro k s r _ hk hs
    tc
    exact TC.pure (by dsimp only; simp; omega)
  · dsimp only at hs ⊢
    have hl := hs.1
    refine TC.bind (TC.lift (by rw [hl, hd]; omega) fun l hl' => ?_)
    rw [hl, hd]
    refine TC.bind (TC.forR (fun k s r => (s.1.length = j.length ∧ s.2.1.length = x.length) ∧
      3 * (n - (i + 1)) + R + 5 * (ptrAt p (i + 1) - k) ≤ r) ⟨hr.1, by omega⟩ ?_ fun s r hs => TC.pure ?_)
    · intro k s r _ hk hr
      tc
      exact TC.pure (by dsimp only; simp only [List.length_set]; omega)
    · dsimp only at hs ⊢
      omega

theorem TB.out {m : MT α} {f : M α} {B : Nat} (h : m.outcome = f) (hB : m.steps ≤ B) : TB m B fun a => f = .ok a :=
  ⟨hB, fun a e => by rw [← h, e]⟩

theorem TB.unwrap {m : MT α} {B : Nat} {Q : α → Prop} (h : TB m B Q) : TB (unwrapT m) B Q := by
  obtain ⟨m, c⟩ := m
  refine ⟨h.1, fun a e => h.2 a ?_⟩
  revert e
  show unwrapR m = .ok a → m = .ok a
  cases m with
  | ok b => exact id
  | error e => cases e <;> exact fun h => by cases h

/-- a check that fails ends the run -/
theorem TB.check {c : Prop} [Decidable c] {e : Fault} {m : MT β} {B : Nat} {Q : β → Prop} (h : ¬ c → TB m B Q) :
    TB (if c then (MT.lift 0 (throw e) : MT Unit) >>= fun _ => m else m) B Q := by
  split
  · exact TB.lift_bind (Nat.zero_le _) fun _ e => by cases e
  · exact h ‹_›

theorem last_ptr {p : List Int} {k n : Nat} (l : p.length = k + 1)
    (e : (do toUsize (← p.rd (← usub p.length 1)) : M Nat) = .ok n) : n = ptrAt p k := by
  have h1 : p[k]? = some p[k] := List.getElem?_eq_getElem (by omega)
  have h2 : usub p.length 1 = .ok k := by
    unfold usub
    rw [if_pos (by omega), l]
    rfl
  have h3 : p.rd k = .ok p[k] := by
    unfold List.rd
    rw [h1]
    rfl
  rw [h2] at e
  change (p.rd k >>= toUsize) = .ok n at e
  rw [h3] at e
  change toUsize p[k] = .ok n at e
  unfold toUsize at e
  split at e
  · cases e
    exact ptrAt_of h1
  · cases e

theorem CSR.nnzT_tb {a : CSR T} (h : Pointers a.rows a.rowptr a.colidx a.values) : TB a.nnzT 1 fun n => n = ptrAt a.rowptr a.rows := by
  refine TB.lift (Nat.le_refl _) fun n e => last_ptr h.len ?_
  unfold CSR.nnz at e
  have l := h.len
  split at e
  · simp_all
  · exact e

theorem CSC.nnzT_tb {a : CSC T} (h : Pointers a.cols a.colptr a.rowidx a.values) : TB a.nnzT 1 fun n => n = ptrAt a.colptr a.cols := by
  refine TB.lift (Nat.le_refl _) fun n e => last_ptr h.len ?_
  unfold CSC.nnz at e
  have l := h.len
  split at e
  · simp_all
  · exact e

theorem usubT_len {α : Type} {l : List Int} {n : Nat} (h : l.length = n + 1) (f : Nat → MT α) :
    ((liftM (usub l.length 1) : MT Nat) >>= f) = f n := by
  have h2 : usub l.length 1 = .ok n := by
    unfold usub
    rw [if_pos (by omega), h]
    rfl
  rw [h2]
  exact Prod.ext rfl (Nat.zero_add _)

theorem mul_log_le {P L c : Nat} (k : Nat) (hc : 1 ≤ c) (h : P ≤ L) : (c + k) * P ≤ c * (L * (k + 1)) := by
  have : k ≤ c * k := Nat.le_mul_of_pos_left _ hc
  calc (c + k) * P ≤ (c * (k + 1)) * P := by
        refine Nat.mul_le_mul_right _ ?_
        rw [Nat.mul_add, Nat.mul_one]
        omega
    _ ≤ (c * (k + 1)) * L := Nat.mul_le_mul_left _ h
    _ = c * (L * (k + 1)) := by rw [Nat.mul_assoc, Nat.mul_comm L]

theorem le_mul_log (L k : Nat) : L ≤ L * (k + 1) := Nat.le_mul_of_pos_right _ (by omega)

/-! ### CSR -/

theorem CSR.mat_vecT_tb [Zero T] [Add T] [Mul T] {a : CSR T} (x : List T) (h : Pointers a.rows a.rowptr a.colidx a.values) :
    TB (a.mat_vecT x) (6 * a.rows + 4 * ptrAt a.rowptr a.rows) fun _ => True := by
  unfold CSR.mat_vecT
  refine TB.check fun _ => TB.vec_bind (by omega) ?_
  exact (csr_matvecT_tb x _ h).mono (by omega) fun _ h => h

theorem CSR.has_canonical_formatT_tb (t : IdxTy) {a : CSR T} (h : Pointers a.rows a.rowptr a.colidx a.values)
    (hj : (a.colidx.length : Int) ≤ t.hi) : TB (a.has_canonical_formatT t) (6 * a.rows + 3 * ptrAt a.rowptr a.rows) fun _ => True := by
  unfold CSR.has_canonical_formatT
  rw [usubT_len h.len]
  exact ⟨(csr_has_canonical_formatT_tc t h hj).1, fun _ _ => trivial⟩

theorem CSR.has_sorted_indexesT_tb (t : IdxTy) {a : CSR T} (h : Pointers a.rows a.rowptr a.colidx a.values)
    (hj : (a.colidx.length : Int) ≤ t.hi) : (a.has_sorted_indexesT t).steps ≤ 6 * (a.colidx.length + a.rows + 1) := by
  unfold CSR.has_sorted_indexesT
  rw [usubT_len h.len]
  refine Nat.le_trans (csr_has_sorted_indicesT_tc t h hj).1 ?_
  have := h.ptrAt_le
  omega

theorem CSR.sort_indexesT_tb [Zero T] {a : CSR T} (h : Pointers a.rows a.rowptr a.colidx a.values) {K : Nat} (hK : RowsLe a.rowptr K) :
    TB a.sort_indexesT (3 * a.rows + (14 + Nat.log2 K) * ptrAt a.rowptr a.rows) fun r => r.rows = a.rows ∧ r.cols = a.cols ∧
      r.rowptr = a.rowptr ∧ r.colidx.length = a.colidx.length ∧ r.values.length = a.values.length := by
  unfold CSR.sort_indexesT
  rw [usubT_len h.len]
  have := csr_sort_indicesT_tc h hK
  exact TB.bind ⟨this.1, this.2⟩ (Nat.le_refl _) fun r hr => TB.pure ⟨rfl, rfl, rfl, hr.1, hr.2⟩

theorem CSR.pruneT_tb [Zero T] (a : CSR T) : TB a.pruneT (1 + 2 * a.colidx.length) fun _ => True := by
  unfold CSR.pruneT
  refine TB.check fun _ => TB.bind (TB.lift (Nat.le_refl _) fun _ _ => trivial) (by omega) fun nnz _ => ?_
  refine TB.check fun _ => TB.check fun _ => ?_
  refine TB.lift_bind (by omega) fun _ _ => TB.lift_bind (by omega) fun _ _ => TB.pure trivial

theorem CSR.sum_duplicatesT_tb [Zero T] [Add T] (t : IdxTy) {a : CSR T} (h : Pointers a.rows a.rowptr a.colidx a.values)
    (hj : (a.colidx.length : Int) ≤ t.hi) {K : Nat} (hK : RowsLe a.rowptr K) :
    TB (a.sum_duplicatesT t) (13 * a.rows + (24 + Nat.log2 K) * ptrAt a.rowptr a.rows + 1 + 2 * a.colidx.length) fun _ => True := by
  unfold CSR.sum_duplicatesT
  have e : (24 + Nat.log2 K) * ptrAt a.rowptr a.rows = 10 * ptrAt a.rowptr a.rows + (14 + Nat.log2 K) * ptrAt a.rowptr a.rows := by
    rw [← Nat.add_mul]
    congr 1
    omega
  rw [e]
  refine TB.bind (CSR.has_canonical_formatT_tb t h hj) (by omega) fun b _ => ?_
  split
  · exact TB.pure trivial
  · refine TB.bind (CSR.sort_indexesT_tb h hK) (by omega) fun r hr => ?_
    have hp : Pointers r.rows r.rowptr r.colidx r.values := by
      rw [hr.1, hr.2.2.1]
      exact ⟨h.len, h.first, h.mono, by rw [hr.2.2.2.1, hr.2.2.2.2]; exact h.last⟩
    have := csr_sum_duplicatesT_tc t hp
    rw [hr.1, hr.2.2.1] at this
    rw [hr.1, hr.2.2.1]
    refine TB.bind ⟨this.1, this.2⟩ (by omega) fun q hq => ?_
    refine (CSR.pruneT_tb _).mono ?_ fun _ h => h
    dsimp only
    rw [hq, hr.2.2.2.1]
    omega

theorem CSR.to_cscT_tb [Zero T] (t : IdxTy) {a : CSR T} (h : Pointers a.rows a.rowptr a.colidx a.values) :
    TB (a.to_cscT t) (14 * ptrAt a.rowptr a.rows + 3 * a.rows + 8 * a.cols + 10) fun _ => True := by
  unfold CSR.to_cscT
  refine TB.bind (CSR.nnzT_tb h) (by omega) fun n1 h1 => TB.bind (CSR.nnzT_tb h) (by omega) fun n2 h2 => ?_
  refine TB.vec_bind (by omega) (TB.vec_bind (by omega) (TB.vec_bind (by omega) ?_))
  refine TB.bind (csr_tocscT_tb t a.cols _ _ _ h) (by simp; omega) fun r _ => ?_
  refine TB.unwrap (TB.lift ?_ fun _ _ => trivial)
  simp
  omega

theorem CSR.to_denseT_tb [Zero T] [Add T] {a : CSR T} (h : Pointers a.rows a.rowptr a.colidx a.values) :
    TB a.to_denseT (a.rows * (a.cols + 1) + 3 * a.rows + 7 * ptrAt a.rowptr a.rows) fun _ => True := by
  unfold CSR.to_denseT
  refine TB.lift_bind (by omega) fun _ _ => ?_
  exact ⟨Nat.le_trans (csr_todenseT_tc _ h).1 (by omega), fun _ _ => trivial⟩

theorem CSR.diagonalT_tb [Zero T] [Add T] {a : CSR T} (h : Pointers a.rows a.rowptr a.colidx a.values) :
    TB a.diagonalT (3 * ptrAt a.rowptr a.rows + 5 * min a.rows a.cols) fun _ => True := by
  unfold CSR.diagonalT
  refine TB.vec_bind (by omega) ?_
  exact (csr_diagonalT_tb 0 _ h).mono (by omega) fun _ h => h

theorem CSR.getT_tb [Zero T] {a : CSR T} (i j : Int) {K : Nat} (hK : RowsLe a.rowptr K) : TB (a.getT i j) (2 * K + 3) fun _ => True := by
  unfold CSR.getT
  tb
  rename_i u hu hu0 v hv hv0
  have hk := hK.toNat hu hv hu0
  have : TC (forIn (rng u.toNat v.toNat) ((none, ()) : Option T × Unit) fun k _ => (do
      tick
      if (← toUsize (← a.colidx.rdT k)) = j.toNat then
        pure (ForInStep.done (some (← a.values.rdT k), ()))
      else pure (ForInStep.yield (none, ())) : MT (ForInStep (Option T × Unit)))) (2 * K + 1) fun _ _ => True := by
    refine TC.forR (fun k _ r => 2 * (v.toNat - k) + 1 ≤ r) (by omega) ?_ fun _ _ _ => trivial
    intro k s r _ hk hr
    tc
    split
    · tc
      exact TC.pure trivial
    · exact TC.pure (by dsimp only; omega)
  refine TB.bind ⟨this.1, fun _ _ => trivial⟩ (by omega) fun r _ => ?_
  dsimp only
  split <;> exact TB.pure trivial

theorem CSR.transposeT_tb (a : CSR T) : TB a.transposeT (a.colidx.length + a.rowptr.length + a.values.length + 1) fun _ => True := by
  unfold CSR.transposeT copyT
  refine TB.lift_bind (by omega) fun _ _ => TB.lift_bind (by omega) fun _ _ => TB.lift_bind (by omega) fun _ _ => ?_
  exact TB.unwrap (TB.lift (by omega) fun _ _ => trivial)

theorem CSR.negT_tb [Neg T] (a : CSR T) : TB a.negT (a.colidx.length + a.rowptr.length + a.values.length + 1) fun _ => True := by
  unfold CSR.negT copyT mapT
  refine TB.lift_bind (by omega) fun _ _ => TB.lift_bind (by omega) fun _ _ => TB.lift_bind (by omega) fun _ _ => ?_
  exact TB.unwrap (TB.lift (by omega) fun _ _ => trivial)

theorem CSR.mul_scalarT_tb [Mul T] (a : CSR T) (s : T) :
    TB (a.mul_scalarT s) (a.colidx.length + a.rowptr.length + a.values.length + 1) fun _ => True := by
  unfold CSR.mul_scalarT copyT mapT
  refine TB.lift_bind (by omega) fun _ _ => TB.lift_bind (by omega) fun _ _ => TB.lift_bind (by omega) fun _ _ => ?_
  exact TB.unwrap (TB.lift (by omega) fun _ _ => trivial)

theorem CSR.to_cooT_tb (t : IdxTy) {a : CSR T} (h : Pointers a.rows a.rowptr a.colidx a.values) :
    TB (a.to_cooT t) (3 * a.rows + 2 * ptrAt a.rowptr a.rows + 2 * a.colidx.length + a.values.length) fun _ => True := by
  unfold CSR.to_cooT copyT
  refine TB.vec_bind (by omega) (TB.bind (expandptrT_tb t _ h) (by omega) fun _ _ => ?_)
  refine TB.lift_bind (by omega) fun _ _ => TB.lift_bind (by omega) fun _ _ => ?_
  exact TB.unwrap (TB.lift (by omega) fun _ _ => trivial)

theorem CSR.mat_matT_tb [Zero T] [Add T] [Mul T] [BEq T] (t : IdxTy) (a b : CSR T) {K : Nat} (ha : RowsLe a.rowptr K)
    (hb : RowsLe b.rowptr K) :
    TB (a.mat_matT t b) (30 * (a.rows * (K * K)) + 8 * a.rows + 3 * b.cols + 3) fun _ => True := by
  unfold CSR.mat_matT
  refine TB.check fun _ => TB.vec_bind (by omega) ?_
  refine TB.bind (csr_matmat_maxnnzT_tb a.rows b.cols a.colidx b.colidx ha hb) (by omega) fun n hn => ?_
  refine TB.vec_bind (by omega) (TB.vec_bind (by omega) ?_)
  refine TB.bind (csr_matmatT_tb t a.rows b.cols a.colidx a.values b.colidx b.values _ _ _ ha hb) (by omega) fun r _ => ?_
  exact TB.lift (by omega) fun _ _ => trivial

theorem iotaT_tb (t : IdxTy) (n : Nat) : TB (iotaT t n) (3 * n) fun r => r.length = n := by
  unfold iotaT
  refine TB.vec_bind (by omega) ?_
  refine TB.bind (TB.forConst (fun _ s => s.length = n) 2 (by simp) ?_ (Nat.le_refl _) fun _ h => h) (by omega) fun _ h => TB.pure h
  intro i s _ _ h
  tb
  exact TB.pure ⟨_, rfl, by simpa using h⟩

theorem select_idxT_tb (t : IdxTy) (n : Nat) (idx : Option (List Int)) :
    TB (select_idxT t n idx) (3 * selLen n idx) fun r => r.length = selLen n idx := by
  unfold select_idxT
  cases idx with
  | none => exact iotaT_tb t n
  | some l =>
    have : TC (forIn l PUnit.unit fun ri _ => (do
        tick
        if ri < 0 then
          MT.lift 0 (throw .err)
        if ri ≥ (← t.ofUsize n) then
          MT.lift 0 (throw .err)
        pure (ForInStep.yield PUnit.unit) : MT (ForInStep PUnit))) l.length fun _ _ => True := by
      refine TC.forL (fun k _ r => k ≤ r) (Nat.le_refl _) ?_ fun _ _ _ => trivial
      intro x k s r _ hr
      tc
      split
      · exact TC.bind (TC.lift (Nat.zero_le _) fun _ e => by cases e)
      · tc
        split
        · exact TC.bind (TC.lift (Nat.zero_le _) fun _ e => by cases e)
        · exact TC.pure (by dsimp only; omega)
    refine TB.bind ⟨this.1, fun _ _ => trivial⟩ ?_ fun _ _ => TB.pure rfl
    show l.length ≤ 3 * l.length
    omega

theorem CSR.selectT_tb [Zero T] (t : IdxTy) {a : CSR T} (ri ci : Option (List Int)) (h : Pointers a.rows a.rowptr a.colidx a.values)
    (hj : (a.colidx.length : Int) ≤ t.hi) {K : Nat} (hK : RowsLe a.rowptr K) :
    TB (a.selectT t ri ci) (6 * a.rows + 3 * ptrAt a.rowptr a.rows + 3 * selLen a.cols ci + 3 * selLen a.rows ri +
      (9 + 6 * K + 10 * selLen a.cols ci) * selLen a.rows ri + 3) fun _ => True := by
  unfold CSR.selectT
  refine TB.bind (CSR.has_canonical_formatT_tb t h hj) (by omega) fun b _ => ?_
  refine TB.check fun _ => ?_
  refine TB.bind (select_idxT_tb t a.rows ri) (by omega) fun r hr => ?_
  refine TB.bind (select_idxT_tb t a.cols ci) (by omega) fun c hc => ?_
  have := csr_selectT_tc t a.rowptr a.colidx a.values r c [] [] [] hK
  rw [hr, hc] at this
  refine TB.bind ⟨this.1, fun _ _ => trivial⟩ (by omega) fun q hq => ?_
  exact TB.lift (by omega) fun _ _ => trivial

theorem binop_tb [Zero T] [Add T] [BEq T] (t : IdxTy) (op : T → T → T) {n m : Nat} {a_p a_j b_p b_j : List Int} {a_x b_x : List T}
    (ha : Pointers n a_p a_j a_x) (hb : Pointers n b_p b_j b_x) (hja : (a_j.length : Int) ≤ t.hi) (hjb : (b_j.length : Int) ≤ t.hi)
    {f : List Int × List Int × List T → MT β} (hf : ∀ r, (f r).steps ≤ 1) :
    TB (do f (← csr_binop_csrT t n m a_p a_j a_x b_p b_j b_x (← vecT (n + 1) 0) (← vecT (ptrAt a_p n + ptrAt b_p n) 0)
      (← vecT (ptrAt a_p n + ptrAt b_p n) 0) op nzT))
      (3 * m + 3 + 22 * n + 21 * (ptrAt a_p n + ptrAt b_p n)) fun _ => True := by
  refine TB.vec_bind (by omega) (TB.vec_bind (by omega) (TB.vec_bind (by omega) ?_))
  have := csr_binop_csrT_tc t n m a_p a_j a_x b_p b_j b_x (List.replicate (n + 1) 0) (List.replicate (ptrAt a_p n + ptrAt b_p n) 0)
    (List.replicate (ptrAt a_p n + ptrAt b_p n) 0) op nzT ha hb hja hjb
  exact TB.bind ⟨this.1, fun _ _ => trivial⟩ (by omega) fun r _ => ⟨Nat.le_trans (hf r) (by omega), fun _ _ => trivial⟩

theorem CSR.addT_tb [Zero T] [Add T] [BEq T] (t : IdxTy) {a b : CSR T} (ha : Pointers a.rows a.rowptr a.colidx a.values)
    (hb : Pointers b.rows b.rowptr b.colidx b.values) (hr : a.rows = b.rows) (hja : (a.colidx.length : Int) ≤ t.hi)
    (hjb : (b.colidx.length : Int) ≤ t.hi) :
    TB (a.addT t b) (3 * a.cols + 5 + 22 * a.rows + 21 * (ptrAt a.rowptr a.rows + ptrAt b.rowptr b.rows)) fun _ => True := by
  unfold CSR.addT
  refine TB.bind (CSR.nnzT_tb ha) (by omega) fun n1 h1 => TB.bind (CSR.nnzT_tb hb) (by omega) fun n2 h2 => ?_
  subst h1 h2
  rw [hr]
  rw [hr] at ha
  exact (binop_tb t (fun a b => a + b) ha hb hja hjb fun r => by rw [MT.steps_unwrapT]; exact Nat.le_refl _).mono (by omega) fun _ h => h

theorem CSR.subT_tb [Zero T] [Add T] [Sub T] [BEq T] (t : IdxTy) {a b : CSR T} (ha : Pointers a.rows a.rowptr a.colidx a.values)
    (hb : Pointers b.rows b.rowptr b.colidx b.values) (hr : a.rows = b.rows) (hja : (a.colidx.length : Int) ≤ t.hi)
    (hjb : (b.colidx.length : Int) ≤ t.hi) :
    TB (a.subT t b) (3 * a.cols + 5 + 22 * a.rows + 21 * (ptrAt a.rowptr a.rows + ptrAt b.rowptr b.rows)) fun _ => True := by
  unfold CSR.subT
  refine TB.bind (CSR.nnzT_tb ha) (by omega) fun n1 h1 => TB.bind (CSR.nnzT_tb hb) (by omega) fun n2 h2 => ?_
  subst h1 h2
  rw [hr]
  rw [hr] at ha
  exact (binop_tb t (fun a b => a - b) ha hb hja hjb fun r => by rw [MT.steps_unwrapT]; exact Nat.le_refl _).mono (by omega) fun _ h => h

theorem Rep.pointers {p j : List Int} {x : List T} {n : Nat} {R : Nat → List (Int × T)} (h : Rep p j x n R) : Pointers n p j x := by
  refine ⟨h.len, h.ptr 0 (Nat.zero_le _), ?_, ?_⟩
  · intro i a b ha hb
    have hl := (List.getElem?_eq_some_iff.1 hb).1
    have := h.len
    rw [h.ptr i (by omega)] at ha
    rw [h.ptr_succ (by omega)] at hb
    cases ha
    cases hb
    omega
  · intro c hc
    rw [h.ptr n (Nat.le_refl _)] at hc
    cases hc
    have := h.len_j
    have := h.len_x
    omega

/-! ### CSC -/

theorem CSC.mat_vecT_tb [Zero T] [Add T] [Mul T] {a : CSC T} (x : List T) (h : Pointers a.cols a.colptr a.rowidx a.values) :
    TB (a.mat_vecT x) (a.rows + 3 * a.cols + 6 * ptrAt a.colptr a.cols) fun _ => True := by
  unfold CSC.mat_vecT
  refine TB.check fun _ => TB.vec_bind (by omega) ?_
  exact (csc_matvecT_tb x _ h).mono (by omega) fun _ h => h

theorem CSC.has_canonical_formatT_tb (t : IdxTy) {a : CSC T} (h : Pointers a.cols a.colptr a.rowidx a.values)
    (hj : (a.rowidx.length : Int) ≤ t.hi) : TB (a.has_canonical_formatT t) (6 * a.cols + 3 * ptrAt a.colptr a.cols) fun _ => True := by
  unfold CSC.has_canonical_formatT
  rw [usubT_len h.len]
  exact ⟨(csr_has_canonical_formatT_tc t h hj).1, fun _ _ => trivial⟩

theorem CSC.has_sorted_indexesT_tb (t : IdxTy) {a : CSC T} (h : Pointers a.cols a.colptr a.rowidx a.values)
    (hj : (a.rowidx.length : Int) ≤ t.hi) : (a.has_sorted_indexesT t).steps ≤ 6 * (a.rowidx.length + a.cols + 1) := by
  unfold CSC.has_sorted_indexesT
  rw [usubT_len h.len]
  refine Nat.le_trans (csr_has_sorted_indicesT_tc t h hj).1 ?_
  have := h.ptrAt_le
  omega

theorem CSC.sort_indexesT_tb [Zero T] {a : CSC T} (h : Pointers a.cols a.colptr a.rowidx a.values) {K : Nat} (hK : RowsLe a.colptr K) :
    TB a.sort_indexesT (3 * a.cols + (14 + Nat.log2 K) * ptrAt a.colptr a.cols) fun r => r.rows = a.rows ∧ r.cols = a.cols ∧
      r.colptr = a.colptr ∧ r.rowidx.length = a.rowidx.length ∧ r.values.length = a.values.length := by
  unfold CSC.sort_indexesT
  rw [usubT_len h.len]
  have := csr_sort_indicesT_tc h hK
  exact TB.bind ⟨this.1, this.2⟩ (Nat.le_refl _) fun r hr => TB.pure ⟨rfl, rfl, rfl, hr.1, hr.2⟩

theorem CSC.pruneT_tb (a : CSC T) : TB a.pruneT (1 + 2 * a.rowidx.length) fun _ => True := by
  unfold CSC.pruneT
  refine TB.check fun _ => TB.bind (TB.lift (Nat.le_refl _) fun _ _ => trivial) (by omega) fun nnz _ => ?_
  refine TB.check fun _ => TB.check fun _ => ?_
  refine TB.lift_bind (by omega) fun _ _ => TB.lift_bind (by omega) fun _ _ => TB.pure trivial

theorem CSC.sum_duplicatesT_tb [Zero T] [Add T] (t : IdxTy) {a : CSC T} (h : Pointers a.cols a.colptr a.rowidx a.values)
    (hj : (a.rowidx.length : Int) ≤ t.hi) {K : Nat} (hK : RowsLe a.colptr K) :
    TB (a.sum_duplicatesT t) (13 * a.cols + (24 + Nat.log2 K) * ptrAt a.colptr a.cols + 1 + 2 * a.rowidx.length) fun _ => True := by
  unfold CSC.sum_duplicatesT
  have e : (24 + Nat.log2 K) * ptrAt a.colptr a.cols = 10 * ptrAt a.colptr a.cols + (14 + Nat.log2 K) * ptrAt a.colptr a.cols := by
    rw [← Nat.add_mul]
    congr 1
    omega
  rw [e]
  refine TB.bind (CSC.has_canonical_formatT_tb t h hj) (by omega) fun b _ => ?_
  split
  · exact TB.pure trivial
  · refine TB.bind (CSC.sort_indexesT_tb h hK) (by omega) fun r hr => ?_
    have hp : Pointers r.cols r.colptr r.rowidx r.values := by
      rw [hr.2.1, hr.2.2.1]
      exact ⟨h.len, h.first, h.mono, by rw [hr.2.2.2.1, hr.2.2.2.2]; exact h.last⟩
    have := csr_sum_duplicatesT_tc t hp
    rw [hr.2.1, hr.2.2.1] at this
    rw [hr.2.1, hr.2.2.1]
    refine TB.bind ⟨this.1, this.2⟩ (by omega) fun q hq => ?_
    refine TB.unwrap ((CSC.pruneT_tb _).mono ?_ fun _ h => h)
    dsimp only
    rw [hq, hr.2.2.2.1]
    omega

theorem CSC.to_csrT_tb [Zero T] (t : IdxTy) {a : CSC T} (h : Pointers a.cols a.colptr a.rowidx a.values) :
    TB (a.to_csrT t) (14 * ptrAt a.colptr a.cols + 3 * a.cols + 8 * a.rows + 10) fun _ => True := by
  unfold CSC.to_csrT
  refine TB.bind (CSC.nnzT_tb h) (by omega) fun n1 h1 => TB.bind (CSC.nnzT_tb h) (by omega) fun n2 h2 => ?_
  refine TB.vec_bind (by omega) (TB.vec_bind (by omega) (TB.vec_bind (by omega) ?_))
  refine TB.bind (csr_tocscT_tb t a.rows _ _ _ h) (by simp; omega) fun r _ => ?_
  refine TB.unwrap (TB.lift ?_ fun _ _ => trivial)
  simp
  omega

theorem CSC.to_denseT_tb [Zero T] [Add T] {t : IntTy} {a : CSC T} (h : a.WF t) (hc : (a.cols : Int) ≤ t.hi + 1) :
    TB (a.to_denseT t) (a.rows * (a.cols + 1) + 11 * a.rows + 3 * a.cols + 14 * ptrAt a.colptr a.cols + 7 * a.rowidx.length + 10)
      fun _ => True := by
  unfold CSC.to_denseT
  refine TB.bind (TB.out (CSC.to_csrT_outcome t a) (CSC.to_csrT_tb t h.pointers).1) (by omega) fun r hr => ?_
  obtain ⟨r', e, h1, h2, h3, h4, h5⟩ := CSC.to_csr_ok h hc
  rw [hr] at e
  cases e
  have hp : Pointers r.rows r.rowptr r.colidx r.values := by
    rw [h1]
    exact h3.pointers
  have h6 := hp.ptrAt_le
  have h7 : r.colidx.length ≤ a.rowidx.length := by
    rw [h4]
    exact h.rep.len_j
  have := CSR.to_denseT_tb hp
  rw [h1, h2] at this
  rw [h1] at h6
  exact this.mono (by omega) fun _ h => h

theorem CSC.diagonalT_tb [Zero T] [Add T] {a : CSC T} (h : Pointers a.cols a.colptr a.rowidx a.values) :
    TB a.diagonalT (3 * ptrAt a.colptr a.cols + 5 * min a.rows a.cols) fun _ => True := by
  unfold CSC.diagonalT
  refine TB.vec_bind (by omega) ?_
  exact (csr_diagonalT_tb 0 _ h).mono (by omega) fun _ h => h

theorem CSC.transposeT_tb (a : CSC T) : TB a.transposeT (a.rowidx.length + a.colptr.length + a.values.length + 1) fun _ => True := by
  unfold CSC.transposeT copyT
  refine TB.lift_bind (by omega) fun _ _ => TB.lift_bind (by omega) fun _ _ => TB.lift_bind (by omega) fun _ _ => ?_
  exact TB.unwrap (TB.lift (by omega) fun _ _ => trivial)

theorem CSC.to_cooT_tb [Zero T] (t : IdxTy) {a : CSC T} (h : Pointers a.cols a.colptr a.rowidx a.values) :
    TB (a.to_cooT t) (1 + 3 * a.cols + 9 * ptrAt a.colptr a.cols) fun _ => True := by
  unfold CSC.to_cooT
  refine TB.bind (CSC.nnzT_tb h) (by omega) fun n hn => ?_
  refine TB.vec_bind (by omega) (TB.vec_bind (by omega) (TB.vec_bind (by omega) ?_))
  refine TB.bind ⟨(csr_tocooT_tc t _ _ _ h).1, fun _ _ => trivial⟩ (by omega) fun _ _ => ?_
  exact TB.unwrap (TB.lift (by omega) fun _ _ => trivial)

theorem CSC.mat_matT_tb [Zero T] [Add T] [Mul T] [BEq T] (t : IdxTy) (a b : CSC T) {K : Nat} (ha : RowsLe a.colptr K)
    (hb : RowsLe b.colptr K) :
    TB (a.mat_matT t b) (30 * (b.cols * (K * K)) + 8 * b.cols + 3 * a.rows + 3) fun _ => True := by
  unfold CSC.mat_matT
  refine TB.check fun _ => ?_
  refine TB.bind (csr_matmat_maxnnzT_tb b.cols a.rows b.rowidx a.rowidx hb ha) (by omega) fun n hn => ?_
  refine TB.vec_bind (by omega) (TB.vec_bind (by omega) (TB.vec_bind (by omega) ?_))
  refine TB.bind (csr_matmatT_tb t b.cols a.rows b.rowidx b.values a.rowidx a.values _ _ _ hb ha) (by omega) fun r _ => ?_
  exact TB.lift (by omega) fun _ _ => trivial

theorem CSC.selectT_tb [Zero T] (t : IdxTy) {a : CSC T} (ri ci : Option (List Int)) (h : Pointers a.cols a.colptr a.rowidx a.values)
    (hj : (a.rowidx.length : Int) ≤ t.hi) {K : Nat} (hK : RowsLe a.colptr K) :
    TB (a.selectT t ri ci) (6 * a.cols + 3 * ptrAt a.colptr a.cols + 3 * selLen a.cols ci + 3 * selLen a.rows ri +
      (9 + 6 * K + 10 * selLen a.rows ri) * selLen a.cols ci + 2) fun _ => True := by
  unfold CSC.selectT
  refine TB.bind (CSC.has_canonical_formatT_tb t h hj) (by omega) fun b _ => ?_
  refine TB.check fun _ => ?_
  refine TB.bind (select_idxT_tb t a.rows ri) (by omega) fun r hr => ?_
  refine TB.bind (select_idxT_tb t a.cols ci) (by omega) fun c hc => ?_
  have := csr_selectT_tc t a.colptr a.rowidx a.values c r [] [] [] hK
  rw [hr, hc] at this
  exact TB.bind ⟨this.1, fun _ _ => trivial⟩ (by omega) fun q hq => TB.pure trivial

theorem CSC.add_opT_tb [Zero T] [Add T] [BEq T] (t : IdxTy) {a b : CSC T} (ha : Pointers a.cols a.colptr a.rowidx a.values)
    (hb : Pointers b.cols b.colptr b.rowidx b.values) (hr : a.cols = b.cols) (hja : (a.rowidx.length : Int) ≤ t.hi)
    (hjb : (b.rowidx.length : Int) ≤ t.hi) :
    TB (a.add_opT t b) (3 * a.rows + 5 + 22 * a.cols + 21 * (ptrAt a.colptr a.cols + ptrAt b.colptr b.cols)) fun _ => True := by
  unfold CSC.add_opT
  refine TB.bind (CSC.nnzT_tb ha) (by omega) fun n1 h1 => TB.bind (CSC.nnzT_tb hb) (by omega) fun n2 h2 => ?_
  subst h1 h2
  rw [hr]
  rw [hr] at ha
  exact (binop_tb t (fun a b => a + b) ha hb hja hjb fun r => by rw [MT.steps_unwrapT]; exact Nat.le_refl _).mono (by omega) fun _ h => h

/-! ### Coo -/

theorem Pointers.rowsLe {n : Nat} {p j : List Int} {x : List T} (h : Pointers n p j x) : RowsLe p j.length := by
  intro i u v hu hv
  have hl := (List.getElem?_eq_some_iff.1 hv).1
  have h1 := h.step (i := i) (by have := h.len; omega)
  have h2 := h.ptrAt_le
  have h3 := ptrAt_of hu
  have h4 := ptrAt_of hv
  have h5 := h.mono i u v hu hv
  have h6 : ∀ (k : Nat) (w : Int), p[k]? = some w → 0 ≤ w := by
    intro k
    induction k with
    | zero => intro w hw; rw [h.first] at hw; cases hw; exact Int.le_refl _
    | succ k ih =>
      intro w hw
      have hl := (List.getElem?_eq_some_iff.1 hw).1
      have e : p[k]? = some p[k] := List.getElem?_eq_getElem (by omega)
      have := ih _ e
      have := h.mono k _ _ e hw
      omega
  have := h6 i u hu
  have := h6 (i + 1) v hv
  omega

theorem CSR.new_inv {rows cols : Nat} {p j : List Int} {x : List T} {r : CSR T} (h : CSR.new rows cols p j x = .ok r) :
    r = ⟨rows, cols, p, j, x⟩ := by
  have : Ret (CSR.new rows cols p j x) fun r => r = ⟨rows, cols, p, j, x⟩ := by
    unfold CSR.new
    refine Ret.ite (Ret.bind' Ret.true fun _ _ => ?_) ?_
    all_goals
      refine Ret.bind' Ret.true fun _ _ => Ret.bind' Ret.true fun _ _ => Ret.bind' Ret.true fun _ _ => ?_
      refine Ret.ite (Ret.bind' Ret.true fun _ _ => ?_) ?_
      all_goals exact Ret.ite (Ret.bind' Ret.true fun _ _ => Ret.pure rfl) (Ret.pure rfl)
  exact this r h

theorem CSC.new_inv {rows cols : Nat} {p j : List Int} {x : List T} {r : CSC T} (h : CSC.new rows cols j p x = .ok r) :
    r = ⟨rows, cols, j, p, x⟩ := by
  have : Ret (CSC.new rows cols j p x) fun r => r = ⟨rows, cols, j, p, x⟩ := by
    unfold CSC.new
    refine Ret.ite (Ret.bind' Ret.true fun _ _ => ?_) ?_
    all_goals
      refine Ret.bind' Ret.true fun _ _ => Ret.bind' Ret.true fun _ _ => Ret.bind' Ret.true fun _ _ => ?_
      refine Ret.ite (Ret.bind' Ret.true fun _ _ => ?_) ?_
      all_goals exact Ret.ite (Ret.bind' Ret.true fun _ _ => Ret.pure rfl) (Ret.pure rfl)
  exact this r h

theorem Coo.to_csrT_tb [Zero T] [Add T] {t : IntTy} {a : Coo T} (h : a.WF t) :
    TB (a.to_csrT t) (21 * a.rows + (41 + Nat.log2 a.values.length) * a.values.length + 8) fun _ => True := by
  unfold Coo.to_csrT Coo.nnz
  have e : (41 + Nat.log2 a.values.length) * a.values.length = 17 * a.values.length + (24 + Nat.log2 a.values.length) * a.values.length := by
    rw [← Nat.add_mul]
    congr 1
    omega
  rw [e]
  refine TB.vec_bind (by omega) (TB.vec_bind (by omega) (TB.vec_bind (by omega) ?_))
  refine TB.bind (TB.out (coo_tocsrT_outcome ..) (coo_tocsrT_tb ..).1) (by simp; omega) fun r hr => ?_
  refine TB.bind (Q1 := fun m => m = ⟨a.rows, a.cols, r.1, r.2.1, r.2.2⟩) (TB.unwrap (TB.lift (Nat.le_refl 1) fun m hm => CSR.new_inv hm))
    (by simp; omega) fun m hm => ?_
  subst hm
  obtain ⟨hlen, hall, hcol, hget⟩ := Coo.items_facts h
  rw [← hlen] at hr
  by_cases hn : (a.items.length : Int) ≤ t.hi
  · obtain ⟨r', e1, h1, hlj, hlx⟩ := coo_tocsr_ok (t := t) (bp := List.replicate (a.rows + 1) 0)
      (bj := List.replicate a.items.length 0) (bx := List.replicate a.items.length 0) hget hall hn (by simp) (by simp) (by simp)
    rw [hr] at e1
    cases e1
    have hp := h1.pointers
    rw [List.length_replicate, hlen] at hlj
    have hk := hp.rowsLe
    rw [hlj] at hk
    have hle := hp.ptrAt_le
    rw [hlj] at hle
    refine TB.unwrap ((CSR.sum_duplicatesT_tb (a := ⟨a.rows, a.cols, r.1, r.2.1, r.2.2⟩) t hp (by dsimp only; rw [hlj, ← hlen]; exact hn) hk).mono ?_
      fun _ h => h)
    dsimp only
    have h7 : (24 + Nat.log2 a.values.length) * ptrAt r.1 a.rows ≤ (24 + Nat.log2 a.values.length) * a.values.length :=
      Nat.mul_le_mul_left _ hle
    rw [hlj]
    simp
    omega
  · obtain ⟨p, hp⟩ := coo_tocsr_too_many t a.rows a.items.length a.rowidx a.colidx a.values (List.replicate (a.rows + 1) 0)
      (List.replicate a.items.length 0) (List.replicate a.items.length 0) (by change t.hi < _; omega)
    rw [hr] at hp
    cases hp

theorem Coo.to_cscT_tb [Zero T] [Add T] {t : IntTy} {a : Coo T} (h : a.WF t) :
    TB (a.to_cscT t) (21 * a.cols + (41 + Nat.log2 a.values.length) * a.values.length + 8) fun _ => True := by
  unfold Coo.to_cscT Coo.nnz
  have e : (41 + Nat.log2 a.values.length) * a.values.length = 17 * a.values.length + (24 + Nat.log2 a.values.length) * a.values.length := by
    rw [← Nat.add_mul]
    congr 1
    omega
  rw [e]
  refine TB.vec_bind (by omega) (TB.vec_bind (by omega) (TB.vec_bind (by omega) ?_))
  refine TB.bind (TB.out (coo_tocsrT_outcome ..) (coo_tocsrT_tb ..).1) (by simp; omega) fun r hr => ?_
  refine TB.bind (Q1 := fun m => m = ⟨a.rows, a.cols, r.2.1, r.1, r.2.2⟩) (TB.unwrap (TB.lift (Nat.le_refl 1) fun m hm => CSC.new_inv hm))
    (by simp; omega) fun m hm => ?_
  subst hm
  obtain ⟨hlen, hall, hcol, hget⟩ := Coo.itemsT_facts h
  rw [← hlen] at hr
  by_cases hn : (a.itemsT.length : Int) ≤ t.hi
  · obtain ⟨r', e1, h1, hlj, hlx⟩ := coo_tocsr_ok (t := t) (bp := List.replicate (a.cols + 1) 0)
      (bj := List.replicate a.itemsT.length 0) (bx := List.replicate a.itemsT.length 0) hget hall hn (by simp) (by simp) (by simp)
    rw [hr] at e1
    cases e1
    have hp := h1.pointers
    rw [List.length_replicate, hlen] at hlj
    have hk := hp.rowsLe
    rw [hlj] at hk
    have hle := hp.ptrAt_le
    rw [hlj] at hle
    refine ((CSC.sum_duplicatesT_tb (a := ⟨a.rows, a.cols, r.2.1, r.1, r.2.2⟩) t hp (by dsimp only; rw [hlj, ← hlen]; exact hn) hk).mono ?_
      fun _ h => h)
    dsimp only
    have h7 : (24 + Nat.log2 a.values.length) * ptrAt r.1 a.cols ≤ (24 + Nat.log2 a.values.length) * a.values.length :=
      Nat.mul_le_mul_left _ hle
    rw [hlj]
    simp
    omega
  · obtain ⟨p, hp⟩ := coo_tocsr_too_many t a.cols a.itemsT.length a.colidx a.rowidx a.values (List.replicate (a.cols + 1) 0)
      (List.replicate a.itemsT.length 0) (List.replicate a.itemsT.length 0) (by change t.hi < _; omega)
    rw [hr] at hp
    cases hp

theorem Coo.addT_tb [Zero T] [Add T] {t : IntTy} {a b : Coo T} (ha : a.WF t) (hb : b.WF t) :
    TB (a.addT t b) (21 * a.rows + (44 + Nat.log2 (a.values.length + b.values.length)) * (a.values.length + b.values.length) + 8)
      fun _ => True := by
  unfold Coo.addT copyT
  refine TB.check fun hr => TB.check fun hc => ?_
  have e : (44 + Nat.log2 (a.values.length + b.values.length)) * (a.values.length + b.values.length) =
      3 * (a.values.length + b.values.length) +
      (41 + Nat.log2 (a.values.length + b.values.length)) * (a.values.length + b.values.length) := by
    rw [← Nat.add_mul]
    congr 1
    omega
  rw [e]
  have h1 := ha.lenr
  have h2 := ha.lenc
  have h3 := hb.lenr
  have h4 := hb.lenc
  refine TB.lift_bind (by simp; omega) fun x1 e1 => TB.lift_bind (by simp; omega) fun x2 e2 => TB.lift_bind (by simp; omega) fun x3 e3 => ?_
  cases e1
  cases e2
  cases e3
  refine TB.bind (Q1 := fun m => m = ⟨a.rows, a.cols, a.rowidx ++ b.rowidx, a.colidx ++ b.colidx, a.values ++ b.values⟩)
    (TB.unwrap (TB.lift (Nat.le_refl 0) fun m hm => ?_)) (by omega) fun m hm => ?_
  · have : Ret (Coo.new a.rows a.cols (a.rowidx ++ b.rowidx) (a.colidx ++ b.colidx) (a.values ++ b.values)) fun m =>
        m = ⟨a.rows, a.cols, a.rowidx ++ b.rowidx, a.colidx ++ b.colidx, a.values ++ b.values⟩ := by
      unfold Coo.new
      exact Ret.ite (Ret.bind' Ret.true fun _ _ => Ret.pure rfl) (Ret.pure rfl)
    exact this m hm
  · subst hm
    have hw : (⟨a.rows, a.cols, a.rowidx ++ b.rowidx, a.colidx ++ b.colidx, a.values ++ b.values⟩ : Coo T).WF t := by
      refine ⟨by simp [h1, h3], by simp [h2, h4], ?_, ?_⟩
      · intro r hr'
        rcases List.mem_append.1 hr' with h | h
        · exact ha.row r h
        · have := hb.row r h
          dsimp only
          omega
      · intro r hr'
        rcases List.mem_append.1 hr' with h | h
        · exact ha.col r h
        · have := hb.col r h
          dsimp only
          omega
    refine (Coo.to_csrT_tb hw).mono ?_ fun _ h => h
    simp only [List.length_append, h1, h2, h3, h4]
    omega

theorem Coo.to_denseT_tb [Zero T] [Add T] (a : Coo T) : TB a.to_denseT (a.rows * (a.cols + 1) + 8 * a.values.length) fun _ => True := by
  unfold Coo.to_denseT Coo.nnz
  refine TB.lift_bind (by omega) fun _ _ => ?_
  refine TB.bind (TB.forConst (fun _ _ => True) 8 trivial ?_ (Nat.le_refl _) fun _ h => h) (by omega) fun _ _ => TB.pure trivial
  intro i s _ _ _
  tb
  exact TB.pure ⟨_, rfl, trivial⟩

theorem Coo.transposeT_tb (a : Coo T) : TB a.transposeT (a.rowidx.length + a.colidx.length + a.values.length) fun _ => True := by
  unfold Coo.transposeT copyT
  exact TB.lift_bind (by omega) fun _ _ => TB.lift_bind (by omega) fun _ _ => TB.lift_bind (by omega) fun _ _ => TB.pure trivial

end
end Sparse

import Verif.Lemmas.CostCoo
import Verif.Props.CostMat
import Verif.Props.Moves
/-! C92, continued: running times of the constructors and of assembling matrices. -/
namespace Sparse
open MT
section
variable {T : Type}

theorem TB.push_bind {l : List α} {x : α} {f : List α → MT β} {B : Nat} {Q : β → Prop} (hB : 1 ≤ B) (h : TB (f (l ++ [x])) (B - 1) Q) :
    TB (pushT l x >>= f) B Q := TB.lift_bind hB fun b e => by cases e; exact h

theorem shiftM_length {t : IdxTy} {o : Nat} {l r : List Int} (h : shiftM t o l = .ok r) : r.length = l.length := by
  unfold shiftM at h
  induction l generalizing r with
  | nil => cases h; rfl
  | cons x l ih =>
    rw [List.mapM_cons] at h
    cases h1 : (do t.add x (← t.ofUsize o)) with
    | error e => rw [h1] at h; cases h
    | ok y =>
      rw [h1] at h
      cases h2 : (List.mapM (fun r => do t.add r (← t.ofUsize o)) l) with
      | error e => simp only [bind, Except.bind] at h2 h; rw [h2] at h; cases h
      | ok z =>
        have h3 := ih h2
        simp only [bind, Except.bind] at h2 h
        rw [h2] at h
        cases h
        simp [h3]

/-- all three arrays have `n` elements -/
def Coo.Even (a : Coo T) (n : Nat) : Prop := a.rowidx.length = n ∧ a.colidx.length = n ∧ a.values.length = n

theorem Coo.WF.even {t : IntTy} {a : Coo T} (h : a.WF t) : a.Even a.nnz := ⟨h.lenr, h.lenc, rfl⟩

theorem Coo.v_stackT_tb (t : IdxTy) {a b : Coo T} {m n : Nat} (ha : a.Even m) (hb : b.Even n) :
    TB (Coo.v_stackT t a b) (3 * m + 4 * n) fun r => r.Even (m + n) := by
  obtain ⟨a1, a2, a3⟩ := ha
  obtain ⟨b1, b2, b3⟩ := hb
  unfold Coo.v_stackT copyT shiftT
  refine TB.check fun _ => TB.lift_bind (by omega) fun r hr => ?_
  have := shiftM_length hr
  refine TB.lift_bind (by simp; omega) fun x hx => TB.lift_bind (by simp; omega) fun y hy => TB.lift_bind (by simp; omega) fun z hz => ?_
  cases hx; cases hy; cases hz
  exact TB.pure ⟨by simp; omega, by simp; omega, by simp; omega⟩

theorem Coo.h_stackT_tb (t : IdxTy) {a b : Coo T} {m n : Nat} (ha : a.Even m) (hb : b.Even n) :
    TB (Coo.h_stackT t a b) (3 * m + 4 * n) fun r => r.Even (m + n) := by
  obtain ⟨a1, a2, a3⟩ := ha
  obtain ⟨b1, b2, b3⟩ := hb
  unfold Coo.h_stackT copyT shiftT
  refine TB.check fun _ => TB.lift_bind (by omega) fun r hr => ?_
  have := shiftM_length hr
  refine TB.lift_bind (by simp; omega) fun x hx => TB.lift_bind (by simp; omega) fun y hy => TB.lift_bind (by simp; omega) fun z hz => ?_
  cases hx; cases hy; cases hz
  refine TB.lift (by omega) fun q hq => ?_
  have : Ret (Coo.new a.rows (a.cols + b.cols) (a.rowidx ++ b.rowidx) (a.colidx ++ r) (a.values ++ b.values)) fun m =>
      m = ⟨a.rows, a.cols + b.cols, a.rowidx ++ b.rowidx, a.colidx ++ r, a.values ++ b.values⟩ := by
    unfold Coo.new
    exact Ret.ite (Ret.bind' Ret.true fun _ _ => Ret.pure rfl) (Ret.pure rfl)
  rw [this q hq]
  exact ⟨by simp; omega, by simp; omega, by simp; omega⟩

theorem Coo.v_stack3T_tb (t : IdxTy) {a b c : Coo T} {m n k : Nat} (ha : a.Even m) (hb : b.Even n) (hc : c.Even k) :
    TB (Coo.v_stack3T t a b c) (6 * m + 7 * n + 4 * k) fun r => r.Even (m + n + k) := by
  unfold Coo.v_stack3T
  exact TB.check fun _ => TB.check fun _ => TB.bind (Coo.v_stackT_tb t ha hb) (by omega) fun r hr =>
    (Coo.v_stackT_tb t hr hc).mono (by omega) fun _ h => h

theorem Coo.h_stack3T_tb (t : IdxTy) {a b c : Coo T} {m n k : Nat} (ha : a.Even m) (hb : b.Even n) (hc : c.Even k) :
    TB (Coo.h_stack3T t a b c) (6 * m + 7 * n + 4 * k) fun r => r.Even (m + n + k) := by
  unfold Coo.h_stack3T
  exact TB.check fun _ => TB.check fun _ => TB.bind (Coo.h_stackT_tb t ha hb) (by omega) fun r hr =>
    (Coo.h_stackT_tb t hr hc).mono (by omega) fun _ h => h

/-- C92: stacking two or three coordinate matrices is linear in the number of their entries. -/
theorem C92_coo_stack (t : IntTy) (a b c : Coo T) (ha : a.WF t) (hb : b.WF t) (hc : c.WF t) :
    RunsWithin (Coo.v_stackT t a b) (Coo.v_stack t a b) 4 (a.nnz + b.nnz) ∧
    RunsWithin (Coo.h_stackT t a b) (Coo.h_stack t a b) 4 (a.nnz + b.nnz) ∧
    RunsWithin (Coo.v_stack3T t a b c) (Coo.v_stack3 t a b c) 7 (a.nnz + b.nnz + c.nnz) ∧
    RunsWithin (Coo.h_stack3T t a b c) (Coo.h_stack3 t a b c) 7 (a.nnz + b.nnz + c.nnz) :=
  ⟨⟨Coo.v_stackT_outcome .., Nat.le_trans (Coo.v_stackT_tb t ha.even hb.even).1 (by omega)⟩,
    ⟨Coo.h_stackT_outcome .., Nat.le_trans (Coo.h_stackT_tb t ha.even hb.even).1 (by omega)⟩,
    ⟨Coo.v_stack3T_outcome .., Nat.le_trans (Coo.v_stack3T_tb t ha.even hb.even hc.even).1 (by omega)⟩,
    ⟨Coo.h_stack3T_outcome .., Nat.le_trans (Coo.h_stack3T_tb t ha.even hb.even hc.even).1 (by omega)⟩⟩

/-- C92: composing four or nine blocks is linear in the number of their entries. -/
theorem C92_coo_compose (t : IntTy) (j : Fin 3 → Fin 3 → Coo T) (h : ∀ p q, (j p q).WF t) :
    RunsWithin (Coo.composeT t (j 0 0) (j 0 1) (j 1 0) (j 1 1)) (Coo.compose t (j 0 0) (j 0 1) (j 1 0) (j 1 1)) 8
      ((j 0 0).nnz + (j 0 1).nnz + (j 1 0).nnz + (j 1 1).nnz) ∧
    RunsWithin (Coo.compose3T t (j 0 0) (j 0 1) (j 0 2) (j 1 0) (j 1 1) (j 1 2) (j 2 0) (j 2 1) (j 2 2))
      (Coo.compose3 t (j 0 0) (j 0 1) (j 0 2) (j 1 0) (j 1 1) (j 1 2) (j 2 0) (j 2 1) (j 2 2)) 14
      ((j 0 0).nnz + (j 0 1).nnz + (j 0 2).nnz + (j 1 0).nnz + (j 1 1).nnz + (j 1 2).nnz + (j 2 0).nnz + (j 2 1).nnz + (j 2 2).nnz) := by
  refine ⟨⟨Coo.composeT_outcome .., ?_⟩, ⟨Coo.compose3T_outcome .., ?_⟩⟩
  · have : TB (Coo.composeT t (j 0 0) (j 0 1) (j 1 0) (j 1 1)) (8 * ((j 0 0).nnz + (j 0 1).nnz + (j 1 0).nnz + (j 1 1).nnz)) fun _ => True := by
      unfold Coo.composeT
      exact TB.bind (Coo.h_stackT_tb t (h _ _).even (h _ _).even) (by omega) fun _ h1 =>
        TB.bind (Coo.h_stackT_tb t (h _ _).even (h _ _).even) (by omega) fun _ h2 =>
        (Coo.v_stackT_tb t h1 h2).mono (by omega) fun _ _ => trivial
    exact Nat.le_trans this.1 (by omega)
  · have : TB (Coo.compose3T t (j 0 0) (j 0 1) (j 0 2) (j 1 0) (j 1 1) (j 1 2) (j 2 0) (j 2 1) (j 2 2)) (14 * ((j 0 0).nnz + (j 0 1).nnz +
        (j 0 2).nnz + (j 1 0).nnz + (j 1 1).nnz + (j 1 2).nnz + (j 2 0).nnz + (j 2 1).nnz + (j 2 2).nnz)) fun _ => True := by
      unfold Coo.compose3T
      exact TB.bind (Coo.h_stack3T_tb t (h _ _).even (h _ _).even (h _ _).even) (by omega) fun _ h1 =>
        TB.bind (Coo.h_stack3T_tb t (h _ _).even (h _ _).even (h _ _).even) (by omega) fun _ h2 =>
        TB.bind (Coo.h_stack3T_tb t (h _ _).even (h _ _).even (h _ _).even) (by omega) fun _ h3 =>
        (Coo.v_stack3T_tb t h1 h2 h3).mono (by omega) fun _ _ => trivial
    exact Nat.le_trans this.1 (by omega)

/-- C92: `Coo::upper` and `Coo::diagonal` are linear in the number of entries (and the length of the diagonal), whatever the
arrays hold. -/
theorem C92_coo_upper_diagonal [Zero T] [Add T] (t : IdxTy) (a : Coo T) (k : Int) :
    RunsWithin (a.upperT t k) (a.upper t k) 9 a.nnz ∧
    RunsWithin a.diagonalT a.diagonal 6 (a.nnz + min a.rows a.cols) := by
  refine ⟨⟨Coo.upperT_outcome .., ?_⟩, ⟨Coo.diagonalT_outcome .., ?_⟩⟩
  · have : TB (a.upperT t k) (9 * a.nnz) fun _ => True := by
      unfold Coo.upperT
      refine TB.bind (TB.forConst (fun _ _ => True) 9 trivial ?_ (Nat.le_refl _) fun _ h => h) (by omega) fun _ _ => TB.pure trivial
      intro i s _ _ _
      tb
      split
      · refine TB.rd_bind (by omega) fun _ _ => TB.push_bind (by omega) ?_
        refine TB.rd_bind (by omega) fun _ _ => TB.push_bind (by omega) ?_
        refine TB.rd_bind (by omega) fun _ _ => TB.push_bind (by omega) ?_
        exact TB.pure ⟨_, rfl, trivial⟩
      · exact TB.pure ⟨_, rfl, trivial⟩
    exact Nat.le_trans this.1 (by omega)
  · have : TB a.diagonalT (6 * a.nnz + min a.rows a.cols) fun _ => True := by
      unfold Coo.diagonalT
      refine TB.vec_bind (by omega) ?_
      refine TB.bind (TB.forConst (fun _ _ => True) 6 trivial ?_ (Nat.le_refl _) fun _ h => h) (by unfold Coo.nnz; omega) fun _ _ =>
        TB.pure trivial
      intro i s _ _ _
      tb
      split
      · tb
        exact TB.pure ⟨_, rfl, trivial⟩
      · exact TB.pure ⟨_, rfl, trivial⟩
    exact Nat.le_trans this.1 (by omega)

/-- C92: `with_diagonal` and `identity` are linear in the size of the matrix. -/
theorem C92_with_diagonal [Zero T] [One T] (t : IdxTy) (d : List T) (n : Nat) :
    RunsWithin (Coo.with_diagonalT t d) (Coo.with_diagonal t d) 8 d.length ∧
    RunsWithin (Coo.identityT t n : MT (Coo T)) (Coo.identity t n) 7 n ∧
    RunsWithin (CSR.with_diagonalT t d) (CSR.with_diagonal t d) 6 d.length ∧
    RunsWithin (CSC.with_diagonalT t d) (CSC.with_diagonal t d) 6 d.length := by
  refine ⟨⟨Coo.with_diagonalT_outcome .., ?_⟩, ⟨Coo.identityT_outcome .., ?_⟩, ⟨CSR.with_diagonalT_outcome .., ?_⟩,
    ⟨CSC.with_diagonalT_outcome .., ?_⟩⟩
  · have : TB (Coo.with_diagonalT t d) (8 * d.length) fun _ => True := by
      unfold Coo.with_diagonalT
      refine TB.vec_bind (by omega) (TB.vec_bind (by omega) (TB.vec_bind (by omega) ?_))
      refine TB.bind (TB.forConst (fun _ _ => True) 5 trivial ?_ (Nat.le_refl _) fun _ h => h) (by omega) fun _ _ => TB.pure trivial
      intro i s _ _ _
      tb
      exact TB.pure ⟨_, rfl, trivial⟩
    exact Nat.le_trans this.1 (by omega)
  · have : TB (Coo.identityT t n : MT (Coo T)) (7 * n) fun _ => True := by
      unfold Coo.identityT
      refine TB.vec_bind (by omega) (TB.vec_bind (by omega) (TB.vec_bind (by omega) ?_))
      refine TB.bind (TB.forConst (fun _ _ => True) 4 trivial ?_ (Nat.le_refl _) fun _ h => h) (by omega) fun _ _ => TB.pure trivial
      intro i s _ _ _
      tb
      exact TB.pure ⟨_, rfl, trivial⟩
    exact Nat.le_trans this.1 (by omega)
  · have : TB (CSR.with_diagonalT t d) (6 * d.length + 3) fun _ => True := by
      unfold CSR.with_diagonalT
      exact TB.bind (iotaT_tb t _) (by omega) fun _ _ => TB.bind (iotaT_tb t _) (by omega) fun _ _ => TB.pure trivial
    exact Nat.le_trans this.1 (by omega)
  · have : TB (CSC.with_diagonalT t d) (6 * d.length + 3) fun _ => True := by
      unfold CSC.with_diagonalT
      exact TB.bind (iotaT_tb t _) (by omega) fun _ _ => TB.bind (iotaT_tb t _) (by omega) fun _ _ => TB.pure trivial
    exact Nat.le_trans this.1 (by omega)

theorem sum_row_lengths (a : List (List T)) (c d : Nat) :
    ((rng 0 a.length).map fun i => c + d * (a.getD i []).length).sum = c * a.length + d * (a.map List.length).sum := by
  have h : ((rng 0 a.length).map fun i => c + d * (a.getD i []).length) = a.map fun r => c + d * r.length := by
    apply List.ext_getElem
    · simp [rng]
    · intro i h1 h2
      simp at h2
      simp [rng, List.getD_eq_getElem?_getD, h2]
  rw [h]
  clear h
  induction a with
  | nil => rfl
  | cons r a ih =>
    simp only [List.map_cons, List.sum_cons, List.length_cons, Nat.mul_add, ih]
    omega

theorem TB_head_length {a : List (List T)} {c : Prop} [Decidable c] {f : Nat → MT β} {B : Nat} {Q : β → Prop} (hB : 1 ≤ B)
    (h : ∀ n, TB (f n) (B - 1) Q) : TB (if c then do let y ← a.rdT 0; let n ← Pure.pure y.length; f n else do let n ← Pure.pure 0; f n) B Q := by
  split
  · exact TB.rd_bind hB fun _ _ => by tb; exact h _
  · tb
    exact (h _).mono (Nat.sub_le _ _) fun _ h => h

/-- C92: `Coo::from_dense` is linear in the number of elements and rows given, whatever the lengths of the rows. -/
theorem C92_coo_from_dense [Zero T] [BEq T] (t : IdxTy) (a : List (List T)) :
    RunsWithin (Coo.from_denseT t a) (Coo.from_dense t a) 5 (a.length + (a.map List.length).sum) := by
  refine ⟨Coo.from_denseT_outcome .., ?_⟩
  have : TB (Coo.from_denseT t a) (1 + (2 * a.length + 5 * (a.map List.length).sum)) fun _ => True := by
    unfold Coo.from_denseT
    refine TB_head_length (Nat.le_add_right _ _) fun n => ?_
    refine TB.bind (TB.forRange (fun _ _ => True) (fun i => 2 + 5 * (a.getD i []).length) trivial ?_
      (Nat.le_of_eq (sum_row_lengths a 2 5)) fun _ h => h) (by omega) fun _ _ => TB.pure trivial
    intro i s _ hi _
    tb
    rename_i r hr
    have hr : r = a.getD i [] := by
      unfold List.rd at hr
      simp [hi] at hr
      cases hr
      simp [List.getD_eq_getElem?_getD, hi]
    subst hr
    refine TB.bind (TB.forConst (fun _ _ => True) 5 trivial ?_ (Nat.le_refl _) fun _ h => h) (by omega) fun _ _ => TB.pure ⟨_, rfl, trivial⟩
    intro j s _ _ _
    tb
    split
    · tb
      refine TB.push_bind (by omega) ?_
      tb
      refine TB.push_bind (by omega) (TB.push_bind (by omega) (TB.pure ⟨_, rfl, trivial⟩))
    · exact TB.pure ⟨_, rfl, trivial⟩
  exact Nat.le_trans this.1 (by omega)

/-- C92: `CSR::from_dense` and `CSC::from_dense` are linear in the number of elements. -/
theorem C92_from_dense [Zero T] [BEq T] (t : IdxTy) (a : List (List T)) (n : Nat) (hn : ∀ r ∈ a.head?, r.length = n) :
    RunsWithin (CSR.from_denseT t a) (CSR.from_dense t a) 10 (a.length * n + a.length) ∧
    RunsWithin (CSC.from_denseT t a) (CSC.from_dense t a) 10 (a.length * n + n) := by
  refine ⟨⟨CSR.from_denseT_outcome .., ?_⟩, ⟨CSC.from_denseT_outcome .., ?_⟩⟩
  · have : TB (CSR.from_denseT t a) (1 + (2 + 7 * n) * a.length + 1 + (1 + 2 * (n * a.length))) fun _ => True := by
      unfold CSR.from_denseT
      refine TB.rd_bind (by omega) fun r0 h0 => ?_
      have h0 : r0.length = n := by
        cases a with
        | nil => cases h0
        | cons x a => cases h0; exact hn _ rfl
      rw [h0]
      refine TB.bind (TB.forConst (fun i s => s.2.1.length ≤ n * i) (2 + 7 * n) (by simp) ?_ (by rw [Nat.sub_zero]) fun _ h => h)
        (by omega) fun s hs => ?_
      · intro i s _ hi hs
        tb
        refine TB.push_bind (by omega) ?_
        refine TB.bind (TB.forConst (fun j s => s.1.length ≤ n * i + j) 7 (by simpa using hs) ?_ (Nat.le_refl _) fun _ h => h)
          (by omega) fun q hq => TB.pure ⟨_, rfl, ?_⟩
        · intro j s _ _ hs
          tb
          split
          · tb
            refine TB.push_bind (by omega) ?_
            tb
            refine TB.push_bind (by omega) (TB.pure ⟨_, rfl, ?_⟩)
            dsimp only
            rw [List.length_append]
            exact Nat.succ_le_succ hs
          · exact TB.pure ⟨_, rfl, Nat.le_succ_of_le hs⟩
        · rw [Nat.mul_succ]
          simpa using hq
      · tb
        refine TB.push_bind (by omega) (TB.unwrap ((CSR.pruneT_tb _).mono ?_ fun _ h => h))
        dsimp only
        simp at hs
        omega
    refine Nat.le_trans this.1 ?_
    rw [Nat.add_mul, Nat.mul_comm n, Nat.mul_assoc, Nat.mul_comm n]
    omega
  · have : TB (CSC.from_denseT t a) (1 + (2 + 7 * a.length) * n + 1 + (1 + 2 * (a.length * n))) fun _ => True := by
      unfold CSC.from_denseT
      refine TB.rd_bind (by omega) fun r0 h0 => ?_
      have h0 : r0.length = n := by
        cases a with
        | nil => cases h0
        | cons x a => cases h0; exact hn _ rfl
      rw [h0]
      refine TB.bind (TB.forConst (fun i s => s.2.1.length ≤ a.length * i) (2 + 7 * a.length) (by simp) ?_ (by rw [Nat.sub_zero]) fun _ h => h)
        (by omega) fun s hs => ?_
      · intro i s _ hi hs
        tb
        refine TB.push_bind (by omega) ?_
        refine TB.bind (TB.forConst (fun j s => s.1.length ≤ a.length * i + j) 7 (by simpa using hs) ?_ (Nat.le_refl _) fun _ h => h)
          (by omega) fun q hq => TB.pure ⟨_, rfl, ?_⟩
        · intro j s _ _ hs
          tb
          split
          · tb
            refine TB.push_bind (by omega) ?_
            tb
            refine TB.push_bind (by omega) (TB.pure ⟨_, rfl, ?_⟩)
            dsimp only
            rw [List.length_append]
            exact Nat.succ_le_succ hs
          · exact TB.pure ⟨_, rfl, Nat.le_succ_of_le hs⟩
        · rw [Nat.mul_succ]
          simpa using hq
      · tb
        refine TB.push_bind (by omega) (TB.unwrap ((CSC.pruneT_tb _).mono ?_ fun _ h => h))
        dsimp only
        simp at hs
        omega
    refine Nat.le_trans this.1 ?_
    rw [Nat.add_mul, Nat.mul_assoc]
    omega

theorem CSC.WF.ptr_stored_col {t : IntTy} {a : CSC T} (ha : a.WF t) : ptrAt a.colptr a.cols = a.stored := by
  rw [ha.stored_eq, ← ptrAt_of (ha.rep.ptr a.cols (Nat.le_refl _))]
  simp

/-- C92: stacking two CSR matrices side by side takes `O(E log E + rows)` for the `E` entries of both. -/
theorem C92_csr_h_stack [Zero T] [Add T] (t : IntTy) (a b : CSR T) (ha : a.WF t) (hb : b.WF t)
    (ea : a.colidx.length = a.stored ∧ a.values.length = a.stored) (eb : b.colidx.length = b.stored ∧ b.values.length = b.stored)
    (h : a.rows = b.rows) (hr : (a.rows : Int) ≤ t.hi + 1) (hc : ((a.cols + b.cols : Nat) : Int) ≤ t.hi + 1) :
    RunsWithin (CSR.h_stackT t a b) (CSR.h_stack t a b) 60
      ((a.stored + b.stored) * (Nat.log2 (a.stored + b.stored) + 1) + a.rows) := by
  refine ⟨CSR.h_stackT_outcome .., ?_⟩
  have pa := ha.pointers.ptrAt_le
  have pb := hb.pointers.ptrAt_le
  obtain ⟨p, hp, hpw, hpr, hpc, hpl, -⟩ := C53_csr_to_coo t a ha hr ea.1 ea.2
  obtain ⟨q, hq, hqw, hqr, hqc, hql, -⟩ := C53_csr_to_coo t b hb (by omega) eb.1 eb.2
  obtain ⟨r, hs, hsw, hsr, -⟩ := C66_h_stack t p q hpw hqw (by omega) (by rw [hpc, hqc]; exact hc)
  have hl : r.values.length = a.stored + b.stored := by
    have h1 := (Coo.h_stackT_tb (T := T) t hpw.even hqw.even).2 r (by rw [Coo.h_stackT_outcome]; exact hs)
    rw [h1.2.2]
    unfold Coo.nnz
    omega
  have : TB (CSR.h_stackT t a b) ((3 * a.rows + 5 * a.stored) + (3 * b.rows + 5 * b.stored) + 4 * (a.stored + b.stored) +
      (21 * a.rows + (41 + Nat.log2 (a.stored + b.stored)) * (a.stored + b.stored) + 8)) fun _ => True := by
    unfold CSR.h_stackT
    refine TB.bind (TB.out (CSR.to_cooT_outcome ..) (CSR.to_cooT_tb t ha.pointers).1) (by omega) fun p' hp' => ?_
    refine TB.bind (TB.out (CSR.to_cooT_outcome ..) (CSR.to_cooT_tb t hb.pointers).1) (by omega) fun q' hq' => ?_
    cases hp.symm.trans hp'
    cases hq.symm.trans hq'
    have h2 := (Coo.h_stackT_tb (T := T) t hpw.even hqw.even).1
    unfold Coo.nnz at h2
    refine TB.bind (TB.out (Coo.h_stackT_outcome ..) h2) (by omega) fun r' hr' => ?_
    cases hs.symm.trans hr'
    refine (Coo.to_csrT_tb hsw).mono ?_ fun _ h => h
    rw [hl, hsr, hpr]
    omega
  refine Nat.le_trans this.1 ?_
  have := mul_log_le (c := 50) (Nat.log2 (a.stored + b.stored)) (by decide) (Nat.le_refl (a.stored + b.stored))
  have e : (50 + Nat.log2 (a.stored + b.stored)) * (a.stored + b.stored) = 9 * (a.stored + b.stored) +
      (41 + Nat.log2 (a.stored + b.stored)) * (a.stored + b.stored) := by
    rw [← Nat.add_mul]
    congr 1
    omega
  omega

/-- C92: composing four CSC blocks takes `O(E log E + cols)` for the `E` entries of all. -/
theorem C92_csc_compose [Zero T] [Add T] (t : IntTy) (j11 j12 j21 j22 : CSC T) (h11 : j11.WF t) (h12 : j12.WF t) (h21 : j21.WF t)
    (h22 : j22.WF t) (r1 : j11.rows = j12.rows) (r2 : j21.rows = j22.rows) (c1 : j11.cols = j21.cols) (c2 : j12.cols = j22.cols)
    (hr : ((j11.rows + j21.rows : Nat) : Int) ≤ t.hi + 1) (hc : ((j11.cols + j12.cols : Nat) : Int) ≤ t.hi + 1) (E : Nat)
    (hE : E = j11.stored + j12.stored + j21.stored + j22.stored) :
    RunsWithin (CSC.composeT t j11 j12 j21 j22) (CSC.compose t j11 j12 j21 j22) 60
      (E * (Nat.log2 E + 1) + j11.cols + j12.cols) := by
  refine ⟨CSC.composeT_outcome .., ?_⟩
  obtain ⟨p, hp, hpw, hpr, hpc, hpl, -⟩ := C53_csc_to_coo t j11 h11 (by omega)
  obtain ⟨q, hq, hqw, hqr, hqc, hql, -⟩ := C53_csc_to_coo t j12 h12 (by omega)
  obtain ⟨u, hu, huw, hur, huc, hul, -⟩ := C53_csc_to_coo t j21 h21 (by omega)
  obtain ⟨v, hv, hvw, hvr, hvc, hvl, -⟩ := C53_csc_to_coo t j22 h22 (by omega)
  obtain ⟨x, hx, hxw, hxr, hxc, -⟩ := C66_h_stack t p q hpw hqw (by omega) (by rw [hpc, hqc]; exact hc)
  obtain ⟨y, hy, hyw, hyr, hyc, -⟩ := C66_h_stack t u v huw hvw (by omega) (by rw [huc, hvc, ← c1, ← c2]; exact hc)
  obtain ⟨z, hz, hzw, hzr, hzc, -⟩ := C66_v_stack t x y hxw hyw (by omega) (by rw [hxr, hyr, hpr, hur]; exact hr)
  have sx := Coo.h_stackT_tb (T := T) t hpw.even hqw.even
  have sy := Coo.h_stackT_tb (T := T) t huw.even hvw.even
  have sz := Coo.v_stackT_tb (T := T) t hxw.even hyw.even
  have lx := (sx.2 x (by rw [Coo.h_stackT_outcome]; exact hx)).2.2
  have ly := (sy.2 y (by rw [Coo.h_stackT_outcome]; exact hy)).2.2
  have lz := (sz.2 z (by rw [Coo.v_stackT_outcome]; exact hz)).2.2
  unfold Coo.nnz at sx sy sz lx ly lz
  have hl : z.values.length = E := by omega
  have : TB (CSC.composeT t j11 j12 j21 j22) (4 + 6 * (j11.cols + j12.cols) + 9 * E + 8 * E +
      (21 * (j11.cols + j12.cols) + (41 + Nat.log2 E) * E + 8)) fun _ => True := by
    unfold CSC.composeT
    have e1 := h11.ptr_stored_col
    have e2 := h12.ptr_stored_col
    have e3 := h21.ptr_stored_col
    have e4 := h22.ptr_stored_col
    refine TB.bind (TB.out (CSC.to_cooT_outcome ..) (CSC.to_cooT_tb t h11.pointers).1) (by omega) fun p' hp' => ?_
    refine TB.bind (TB.out (CSC.to_cooT_outcome ..) (CSC.to_cooT_tb t h12.pointers).1) (by omega) fun q' hq' => ?_
    refine TB.bind (TB.out (CSC.to_cooT_outcome ..) (CSC.to_cooT_tb t h21.pointers).1) (by omega) fun u' hu' => ?_
    refine TB.bind (TB.out (CSC.to_cooT_outcome ..) (CSC.to_cooT_tb t h22.pointers).1) (by omega) fun v' hv' => ?_
    cases hp.symm.trans hp'
    cases hq.symm.trans hq'
    cases hu.symm.trans hu'
    cases hv.symm.trans hv'
    refine TB.bind (TB.out (Coo.h_stackT_outcome ..) sx.1) (by omega) fun x' hx' => ?_
    refine TB.bind (TB.out (Coo.h_stackT_outcome ..) sy.1) (by omega) fun y' hy' => ?_
    cases hx.symm.trans hx'
    cases hy.symm.trans hy'
    refine TB.bind (TB.out (Coo.v_stackT_outcome ..) sz.1) (by omega) fun z' hz' => ?_
    cases hz.symm.trans hz'
    refine (Coo.to_cscT_tb hzw).mono ?_ fun _ h => h
    rw [hl, hzc, hxc, hpc, hqc]
    omega
  refine Nat.le_trans this.1 ?_
  have := mul_log_le (c := 58) (Nat.log2 E) (by decide) (Nat.le_refl E)
  have e : (58 + Nat.log2 E) * E = 17 * E + (41 + Nat.log2 E) * E := by
    rw [← Nat.add_mul]
    congr 1
    omega
  omega

/-- the hypotheses are met, the bounds are of the order of the steps taken -/
example : RunsWithin (Coo.v_stackT .u8 exCMo exCMo) (Coo.v_stack .u8 exCMo exCMo) 4 6 ∧ (Coo.v_stackT .u8 exCMo exCMo).steps = 21 ∧
    (Coo.v_stack .u8 exCMo exCMo).isOk = true :=
  ⟨(C92_coo_stack .u8 _ _ _ exCMo_wf exCMo_wf exCMo_wf).1, by decide +kernel, by decide +kernel⟩

example : RunsWithin (Coo.composeT .u8 exCMo exCMo exCMo exCMo) (Coo.compose .u8 exCMo exCMo exCMo exCMo) 8 12 ∧
    (Coo.composeT .u8 exCMo exCMo exCMo exCMo).steps = 84 :=
  ⟨(C92_coo_compose .u8 (fun _ _ => exCMo) fun _ _ => exCMo_wf).1, by decide +kernel⟩

example : (exCMo.upperT .u8 0).steps = 15 ∧ exCMo.diagonalT.steps = 11 ∧ (Coo.with_diagonalT .u8 [(5 : Int), 6, 7]).steps = 24 ∧
    (CSR.with_diagonalT .u8 [(5 : Int), 6, 7]).steps = 21 := by decide +kernel

example : (Coo.from_denseT .u8 [[(1 : Int), 0], [], [2, 3, 0]]).steps = 26 ∧
    RunsWithin (CSC.from_denseT .u8 [[(1 : Int), 0, 3], [0, 5, 0]]) (CSC.from_dense .u8 [[1, 0, 3], [0, 5, 0]]) 10 9 ∧
    (CSC.from_denseT .u8 [[(1 : Int), 0, 3], [0, 5, 0]]).steps = 45 :=
  ⟨by decide +kernel, (C92_from_dense _ _ 3 (by simp)).2, by decide +kernel⟩

example : RunsWithin (CSC.composeT .u8 exCMc exCMc exCMc exCMc) (CSC.compose .u8 exCMc exCMc exCMc exCMc) 60 106 :=
  C92_csc_compose .u8 _ _ _ _ exCMc_wf exCMc_wf exCMc_wf exCMc_wf rfl rfl rfl rfl (by decide) (by decide) 20 rfl

theorem exCM_wf : exCM.WF .u8 := by
  refine ⟨exCM_ptr.len, exCM_ptr.first, exCM_ptr.mono, ?_, ?_⟩
  · intro c hc
    cases hc
    decide
  · intro c k v hc hk hlt
    have : ∀ v ∈ exCM.colidx, 0 ≤ v ∧ v < (exCM.cols : Int) ∧ v ≤ IntTy.u8.hi := by decide
    exact this v (List.mem_of_getElem? hk)

example : RunsWithin (CSR.h_stackT .u8 exCM exCM) (CSR.h_stack .u8 exCM exCM) 60 43 :=
  C92_csr_h_stack .u8 _ _ exCM_wf exCM_wf ⟨rfl, rfl⟩ ⟨rfl, rfl⟩ rfl (by decide) (by decide)

end
end Sparse

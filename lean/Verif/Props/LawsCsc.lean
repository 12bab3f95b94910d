import Verif.Props.Laws
/-!
C93 for programs whose result is a CSC matrix.
-/
namespace Sparse

section
variable {T : Type}

/-- the outermost operation is `+` or `*` on CSC matrices, CSC times CSR, or one of the methods `CSC::add` and `CSC::subtract` -/
inductive Expr.EndsInCscOperator : Expr T .csc → Prop
  | add (e f) : EndsInCscOperator (.cscAdd e f)
  | addMethod (e f) : EndsInCscOperator (.cscAddMethod e f)
  | subMethod (e f) : EndsInCscOperator (.cscSubMethod e f)
  | mul (e f) : EndsInCscOperator (.cscMul e f)
  | mulCsr (e f) : EndsInCscOperator (.cscMulCsr e f)

theorem GoodC.mul_entries [CommRing T] [DecidableEq T] {t : IntTy} {a b r : CSC T} {m q n size size' : Nat} {ent ent' : Nat → Nat → T}
    {pos pos' : Nat → Nat → Prop} (ha : GoodC t a m q ent pos size) (hb : GoodC t b q n ent' pos' size')
    (hfit : (Expr.count m n (fun i k => ∃ j, pos i j ∧ pos' j k) : Int) < t.hi) (hr : a.mul t b = .ok r) :
    r.NoDup ∧ ∀ j < r.cols, ∀ e ∈ r.col j, e.2 ≠ 0 := by
  rw [count_swap] at hfit
  have hfun : (fun i j => ∃ k, pos j k ∧ pos' k i) = fun i k => ∃ j, pos' j i ∧ pos k j := by
    funext i j; simp only [and_comm]
  rw [hfun] at hfit
  have hs := CSC.productSlots_asCSR a b
  have hfit' := GoodR.slots_fit hb ha hfit
  obtain ⟨s, -, h1, h2, h3, h4, h5, h6, h7, -⟩ := C14_csc_mat_mat t a b ha.wf hb.wf (hb.cols.trans ha.rows.symm)
    (by rw [hs]; exact hfit')
  cases h1.symm.trans hr
  exact ⟨h6, fun j hj => h7 j (h4 ▸ hj)⟩

theorem Expr.csc_operator_facts [CommRing T] [DecidableEq T] {t : IntTy} {e : Expr T .csc} (he : e.EndsInCscOperator) (hf : e.Fits t)
    (hb : e.AvoidsCscSubScale) : ∃ r : CSC T, e.eval t = .ok r ∧ r.WF t ∧ r.rows = e.shape.1 ∧ r.cols = e.shape.2 ∧
      (∀ i j, r.entry i j = e.denote i j) ∧ r.NoDup ∧ (∀ j < r.cols, ∀ e ∈ r.col j, e.2 ≠ 0) ∧ (r.stored : Int) < t.hi := by
  obtain ⟨r, h1, h2⟩ := e.good hf hb
  have h2 : GoodC t r e.shape.1 e.shape.2 e.denote e.pos e.size := h2
  suffices h : CSC.NoDup r ∧ ∀ j < CSC.cols r, ∀ e ∈ CSC.col r j, e.2 ≠ 0 from
    ⟨r, h1, h2.wf, GoodR.cols h2, GoodR.rows h2, fun i j => GoodR.ent h2 j i, h.1, h.2, GoodR.stored_fit h2⟩
  cases he with
  | add e f =>
    obtain ⟨f1, f2, f3, f4⟩ := hf
    obtain ⟨a, h5, h6⟩ := e.good f1 hb.1
    obtain ⟨b, h7, h8⟩ := f.good f2 hb.2
    have h6 : GoodC t a e.shape.1 e.shape.2 e.denote e.pos e.size := h6
    have h8 : GoodC t b f.shape.1 f.shape.2 f.denote f.pos f.size := h8
    rw [← f3] at h8
    have l1 : a.stored ≤ a.values.length := h6.wf.stored_le
    have l2 : b.stored ≤ b.values.length := h8.wf.stored_le
    have l3 : a.values.length ≤ _ := GoodR.len h6
    have l4 : b.values.length ≤ _ := GoodR.len h8
    obtain ⟨s, g1, -, g3, g4, g5, g6, g7, -⟩ := C18_csc_add_op t a b h6.wf h8.wf ((GoodR.cols h8).trans (GoodR.cols h6).symm)
      ((GoodR.rows h8).trans (GoodR.rows h6).symm) (by omega)
    have : (Expr.cscAdd e f).eval t = .ok s := by simp only [Expr.eval, h5, h7]; exact g1
    cases this.symm.trans h1
    exact ⟨g6, fun j hj => g7 j (g4 ▸ hj)⟩
  | addMethod e f =>
    obtain ⟨f1, f2, f3, f4⟩ := hf
    obtain ⟨a, h5, h6⟩ := e.good f1 hb.1
    obtain ⟨b, h7, h8⟩ := f.good f2 hb.2
    have h6 : GoodC t a e.shape.1 e.shape.2 e.denote e.pos e.size := h6
    have h8 : GoodC t b f.shape.1 f.shape.2 f.denote f.pos f.size := h8
    rw [← f3] at h8
    have l1 : a.stored ≤ a.values.length := h6.wf.stored_le
    have l2 : b.stored ≤ b.values.length := h8.wf.stored_le
    have l3 : a.values.length ≤ _ := GoodR.len h6
    have l4 : b.values.length ≤ _ := GoodR.len h8
    obtain ⟨s, g1, -, g3, g4, g5, g6, g7, -⟩ := C18_csc_add t a b h6.wf h8.wf ((GoodR.cols h8).trans (GoodR.cols h6).symm)
      ((GoodR.rows h8).trans (GoodR.rows h6).symm) (by omega)
    have : (Expr.cscAddMethod e f).eval t = .ok s := by simp only [Expr.eval, h5, h7]; exact g1
    cases this.symm.trans h1
    exact ⟨g6, fun j hj => g7 j (g4 ▸ hj)⟩
  | subMethod e f =>
    obtain ⟨f1, f2, f3, f4⟩ := hf
    obtain ⟨a, h5, h6⟩ := e.good f1 hb.1
    obtain ⟨b, h7, h8⟩ := f.good f2 hb.2
    have h6 : GoodC t a e.shape.1 e.shape.2 e.denote e.pos e.size := h6
    have h8 : GoodC t b f.shape.1 f.shape.2 f.denote f.pos f.size := h8
    rw [← f3] at h8
    have l1 : a.stored ≤ a.values.length := h6.wf.stored_le
    have l2 : b.stored ≤ b.values.length := h8.wf.stored_le
    have l3 : a.values.length ≤ _ := GoodR.len h6
    have l4 : b.values.length ≤ _ := GoodR.len h8
    obtain ⟨s, g1, -, g3, g4, g5, g6, g7, -⟩ := C18_csc_subtract t a b h6.wf h8.wf ((GoodR.cols h8).trans (GoodR.cols h6).symm)
      ((GoodR.rows h8).trans (GoodR.rows h6).symm) (by omega)
    have : (Expr.cscSubMethod e f).eval t = .ok s := by simp only [Expr.eval, h5, h7]; exact g1
    cases this.symm.trans h1
    exact ⟨g6, fun j hj => g7 j (g4 ▸ hj)⟩
  | mul e f =>
    obtain ⟨f1, f2, f3, f4⟩ := hf
    obtain ⟨a, h5, h6⟩ := e.good f1 hb.1
    obtain ⟨b, h7, h8⟩ := f.good f2 hb.2
    have h6 : GoodC t a e.shape.1 e.shape.2 e.denote e.pos e.size := h6
    have h8 : GoodC t b f.shape.1 f.shape.2 f.denote f.pos f.size := h8
    rw [← f3] at h8
    have : CSC.mul t a b = .ok r := by simp only [Expr.eval, h5, h7] at h1; exact h1
    exact GoodC.mul_entries h6 h8 f4 this
  | mulCsr e f =>
    obtain ⟨f1, f2, f3, f4⟩ := hf
    obtain ⟨a, h5, h6⟩ := e.good f1 hb.1
    obtain ⟨b, h7, h8⟩ := f.good f2 hb.2
    have h6 : GoodC t a e.shape.1 e.shape.2 e.denote e.pos e.size := h6
    have h8 : GoodR t b f.shape.1 f.shape.2 f.denote f.pos f.size := h8
    rw [← f3] at h8
    obtain ⟨c, c1, c2⟩ := h8.to_csc
    have : CSC.mul_csr t a b = .ok r := by simp only [Expr.eval, h5, h7] at h1; exact h1
    unfold CSC.mul_csr at this
    rw [c1] at this
    exact GoodC.mul_entries h6 c2 f4 this

/-- C93 (all identities of matrix algebra, CSC). Two programs that end in one of the operations on CSC matrices above and mean the same
matrix store the same entries: after `sum_duplicates`, the same column pointers and the same triplets. -/
theorem C93_csc_programs [CommRing T] [DecidableEq T] (t : IntTy) (e e' : Expr T .csc) (he : e.EndsInCscOperator)
    (he' : e'.EndsInCscOperator) (hf : e.Fits t) (hf' : e'.Fits t) (hb : e.AvoidsCscSubScale) (hb' : e'.AvoidsCscSubScale)
    (hs : e.shape = e'.shape) (h : ∀ i j, e.denote i j = e'.denote i j) :
    ∃ r r', e.eval t = .ok r ∧ e'.eval t = .ok r' ∧ CSC.SameStored t r r' := by
  obtain ⟨r, r1, r2, r3, r4, r5, r6, r7, r8⟩ := Expr.csc_operator_facts he hf hb
  obtain ⟨s, s1, s2, s3, s4, s5, s6, s7, s8⟩ := Expr.csc_operator_facts he' hf' hb'
  exact ⟨r, s, r1, s1, .of r2 s2 (by rw [r3, s3, hs]) (by rw [r4, s4, hs]) r8 s8 r6 s6 r7 s7 fun i j => by rw [r5, s5, h]⟩

/-- C93 (all identities of matrix algebra, CSR against CSC). If a program that ends in an operator on CSR matrices means the transpose of one
that ends in an operation on CSC matrices, then its result and the transpose of the other result store the same entries: after
`sum_duplicates`, the same row pointers and the same triplets. -/
theorem C93_mixed_programs [CommRing T] [DecidableEq T] (t : IntTy) (e : Expr T .csr) (e' : Expr T .csc) (he : e.EndsInOperator)
    (he' : e'.EndsInCscOperator) (hf : e.Fits t) (hf' : e'.Fits t) (hb : e.AvoidsCscSubScale) (hb' : e'.AvoidsCscSubScale)
    (hs : e.shape = e'.shape.swap) (h : ∀ i j, e.denote i j = e'.denote j i) :
    ∃ (r : CSR T) (c : CSC T) (r' : CSR T), e.eval t = .ok r ∧ e'.eval t = .ok c ∧ c.transpose = .ok r' ∧ CSR.SameStored t r r' := by
  obtain ⟨r, r1, r2, r3, r4, r5, r6, r7, r8⟩ := Expr.operator_facts he hf hb
  obtain ⟨s, s1, s2, s3, s4, s5, s6, s7, s8⟩ := Expr.csc_operator_facts he' hf' hb'
  have c1 : s.transpose = .ok s.asCSR := by
    unfold CSC.transpose
    rw [CSR.new_ok s2.rep]
    rfl
  exact ⟨r, s, _, r1, s1, c1, .of r2 s2 (by rw [r3]; show _ = s.cols; rw [s4, hs]; rfl) (by rw [r4]; show _ = s.rows; rw [s3, hs]; rfl)
    r8 s8 r6 s6 r7 s7 fun i j => by show _ = s.entry j i; rw [r5, s5, h]⟩

end

section
/-- programs as in `C93_csc_programs` and `C93_mixed_programs`: `A * B` as CSC and as CSC times CSR, and `Bᵀ * Aᵀ` as CSR -/
example : ∃ (e e' : Expr Int .csc) (f : Expr Int .csr), e.EndsInCscOperator ∧ e'.EndsInCscOperator ∧ f.EndsInOperator ∧ e.Fits .i8 ∧
    e'.Fits .i8 ∧ f.Fits .i8 ∧ e.AvoidsCscSubScale ∧ e'.AvoidsCscSubScale ∧ f.AvoidsCscSubScale ∧ e.shape = e'.shape ∧
    f.shape = e'.shape.swap ∧ (∀ i j, e.denote i j = e'.denote i j) ∧ (∀ i j, f.denote i j = e'.denote j i) ∧ e.denote 0 1 ≠ 0 := by
  have ha : (Expr.csc (⟨2, 2, [1, 1, 0], [0, 2, 3], [5, 7, -3]⟩ : CSC Int)).Fits .i8 :=
    ⟨CSC.wf_of (by decide), by decide, by decide, by decide, by decide⟩
  have hb : (Expr.csc (⟨2, 2, [1, 0, 1], [0, 2, 3], [2, 0, 4]⟩ : CSC Int)).Fits .i8 :=
    ⟨CSC.wf_of (by decide), by decide, by decide, by decide, by decide⟩
  have hl : ∀ p : Nat → Nat → Prop, ((Expr.count 2 2 p : Nat) : Int) < IntTy.i8.hi := by
    intro p
    have h : Expr.count 2 2 p ≤ 4 := by
      classical
      unfold Expr.count
      refine (Finset.sum_le_card_nsmul _ _ 2 fun i _ => (Finset.card_filter_le _ _).trans (by simp)).trans (by simp)
    have e : IntTy.i8.hi = 127 := rfl
    omega
  refine ⟨.cscMul (.csc ⟨2, 2, [1, 1, 0], [0, 2, 3], [5, 7, -3]⟩) (.csc ⟨2, 2, [1, 0, 1], [0, 2, 3], [2, 0, 4]⟩),
    .cscMulCsr (.csc ⟨2, 2, [1, 1, 0], [0, 2, 3], [5, 7, -3]⟩) (.cscToCsr (.csc ⟨2, 2, [1, 0, 1], [0, 2, 3], [2, 0, 4]⟩)),
    .csrMul (.cscT (.csc ⟨2, 2, [1, 0, 1], [0, 2, 3], [2, 0, 4]⟩)) (.cscT (.csc ⟨2, 2, [1, 1, 0], [0, 2, 3], [5, 7, -3]⟩)),
    .mul _ _, .mulCsr _ _, .mul _ _, ⟨ha, hb, rfl, hl _⟩, ⟨ha, hb, rfl, hl _⟩, by simp only [Expr.Fits]; exact ⟨hb, ha, rfl, hl _⟩, ⟨trivial, trivial⟩,
    ⟨trivial, trivial⟩, by simp only [Expr.AvoidsCscSubScale]; trivial, rfl, rfl, fun i j => rfl, fun i j => ?_, by decide⟩
  exact Finset.sum_congr rfl fun k _ => mul_comm _ _

end
end Sparse

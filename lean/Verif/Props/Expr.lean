import Verif.Lemmas.Expr
/-! C50: programs composed of matrix operations. -/
namespace Sparse
section
variable {T : Type} [CommRing T] [DecidableEq T] {t : IntTy}

/-- the invariant of the value of an expression -/
def Expr.Good (t : IntTy) : {f : Fmt} → Expr T f → Val T f → Prop
  | .coo, e, r => GoodO t r e.shape.1 e.shape.2 e.denote e.pos e.size
  | .csr, e, r => GoodR t r e.shape.1 e.shape.2 e.denote e.pos e.size
  | .csc, e, r => GoodC t r e.shape.1 e.shape.2 e.denote e.pos e.size

theorem diagEntry_swap (d : List T) (i j : Nat) : diagEntry d i j = diagEntry d j i := by
  unfold diagEntry
  by_cases h : i = j
  · rw [h]
  · rw [if_neg h, if_neg (Ne.symm h)]

theorem GoodR.diag {r : CSR T} {d : List T} (h2 : r.WF t) (h3 : r.rows = d.length) (h4 : r.cols = d.length)
    (h5 : ∀ i j, r.entry i j = diagEntry d i j) (h6 : ∀ (i : Nat) v, d[i]? = some v → r.row i = [((i : Int), v)])
    (h7 : r.colidx.length = d.length) (h8 : r.values = d) (h : (d.length : Int) < t.hi) :
    GoodR t r d.length d.length (diagEntry d) (fun i j => i = j ∧ i < d.length) d.length := by
  have hs : r.stored = d.length := by
    unfold CSR.stored
    rw [h3, List.map_congr_left (g := fun _ => 1)]
    · simp
    · intro i hi
      rw [h6 i (d[i]'(by simpa using hi)) (by simp)]
      rfl
  refine .tight h2 h3 h4 h5 (fun i j hh => ?_) (h7.trans hs.symm) ((congrArg List.length h8).trans hs.symm) hs.le
    ⟨by omega, by omega⟩ h
  have hi := h2.has_rows hh
  obtain ⟨v, hv⟩ := hh
  rw [h6 i (d[i]'(by omega)) (by simp)] at hv
  simp at hv
  exact ⟨hv.1.symm, by omega⟩

theorem Expr.nonzeros_eq (A : List (List T)) : Expr.nonzeros A = denseNnz A := by
  unfold Expr.nonzeros denseNnz
  refine List.countP_congr fun v _ => ?_
  simp

/-- the element of the array, filtered as `from_dense` does -/
theorem dense_filter (A : List (List T)) (i j : Nat) :
    ((A.getD i [])[j]?.toList).filter (· != 0) =
      if ((A[i]?).bind (·[j]?)).getD 0 = 0 then [] else [((A[i]?).bind (·[j]?)).getD 0] := by
  have e : (A.getD i [])[j]? = (A[i]?).bind (·[j]?) := by
    rw [List.getD_eq_getElem?_getD]
    cases A[i]? <;> simp
  rw [e]
  cases (A[i]?).bind (·[j]?) with
  | none => simp
  | some v =>
    by_cases h : v = 0 <;> simp [h]

theorem dense_sum (A : List (List T)) (i j : Nat) :
    (((A.getD i [])[j]?.toList).filter (· != 0)).sum = ((A[i]?).bind (·[j]?)).getD 0 := by
  rw [dense_filter]
  split
  · rename_i h; rw [h]; rfl
  · simp

theorem dense_pos {A : List (List T)} {i j : Nat} {l : List T} (h : l = ((A.getD i [])[j]?.toList).filter (· != 0))
    (hl : l ≠ []) : ((A[i]?).bind (·[j]?)).getD 0 ≠ 0 := by
  rw [dense_filter] at h
  intro hc
  rw [if_pos hc] at h
  exact hl h

theorem Expr.good : {f : Fmt} → (e : Expr T f) → e.Fits t → e.AvoidsCscSubScale → ∃ r, e.eval t = .ok r ∧ e.Good t r
  | _, .coo a, h, _ => by
    obtain ⟨h1, h2, h3⟩ := h
    exact ⟨a, rfl, h1, rfl, rfl, fun _ _ => rfl, fun i j v hv => ⟨v, hv⟩, le_refl _, h2, h3⟩
  | _, .csr a, h, _ => by
    obtain ⟨h1, h2, h3, h4, h5⟩ := h
    exact ⟨a, rfl, GoodR.tight h1 rfl rfl (fun _ _ => rfl) (fun _ _ h => h) h2 h3 h3.ge h4 h5⟩
  | _, .csc a, h, _ => by
    obtain ⟨h1, h2, h3, h4, h5⟩ := h
    exact ⟨a, rfl, GoodR.tight (r := a.asCSR) h1 rfl rfl (fun _ _ => rfl) (fun _ _ h => h) h2 h3 h3.ge ⟨h4.2, h4.1⟩ h5⟩
  | _, .cooDiag d, h, _ => by
    have h : (d.length : Int) < t.hi := h
    obtain ⟨r, h1, h2, h3, h4, h5, h6, h7⟩ := C47_coo_with_diagonal t d (by omega)
    refine ⟨r, h1, h2, h3, h4, fun i j => (h5 i j).trans ?_, ?_, ?_, ⟨?_, ?_⟩, h⟩
    · rfl
    · intro i j v hv
      obtain ⟨rfl, hv'⟩ := (h7 i j v).1 hv
      exact ⟨rfl, (List.getElem?_eq_some_iff.1 hv').1⟩
    · exact (congrArg List.length h6).le
    · simp only [Expr.shape]; omega
    · simp only [Expr.shape]; omega
  | _, .csrDiag d, h, _ => by
    have h : (d.length : Int) < t.hi := h
    obtain ⟨r, h1, h2, -, h3, h4, h5, h6, h7, h8⟩ := C47_csr_with_diagonal t d (by omega)
    exact ⟨r, h1, GoodR.diag h2 h3 h4 h5 h6 h7 h8 h⟩
  | _, .cscDiag d, h, _ => by
    have h : (d.length : Int) < t.hi := h
    obtain ⟨r, h1, h2, -, h3, h4, h5, h6, h7, h8⟩ := C47_csc_with_diagonal t d (by omega)
    refine ⟨r, h1, ?_⟩
    have h9 := GoodR.diag (r := r.asCSR) h2 h4 h3 (fun i j => (h5 j i).trans (diagEntry_swap d j i)) h6 h7 h8 h
    show GoodR t r.asCSR d.length d.length (fun i j => diagEntry d j i) (fun i j => j = i ∧ j < d.length) d.length
    have e1 : (fun i j => j = i ∧ j < d.length) = fun i j => i = j ∧ i < d.length := by
      funext i j
      exact propext ⟨fun h => ⟨h.1.symm, h.1 ▸ h.2⟩, fun h => ⟨h.1.symm, h.1 ▸ h.2⟩⟩
    rw [show (fun i j => diagEntry d j i) = diagEntry d from funext fun i => funext fun j => diagEntry_swap d j i, e1]
    exact h9
  | _, .cooEye d, h, _ => by
    have h : (d : Int) < t.hi := h
    obtain ⟨r, h1, h2, h3, h4, h5, h6, h7⟩ := C47_coo_identity (T := T) t d (by omega)
    refine ⟨r, h1, h2, h3, h4, h5, ?_, ?_, ⟨?_, ?_⟩, h⟩
    · intro i j v hv
      have := (h7 i j v).1 hv
      exact ⟨this.1, this.2.1⟩
    · rw [h6]; simp [Expr.size]
    · simp only [Expr.shape]; omega
    · simp only [Expr.shape]; omega
  | _, .cooZero m n, h, _ => by
    have h : Expr.Dims t m n := h
    have hhi := t.hi_ge
    obtain ⟨-, -, h1, h2, -⟩ := C47_with_size (T := T) t m n
    exact ⟨_, rfl, h1, rfl, rfl, h2, fun i j v hv => by simp [Coo.triples, Coo.with_size] at hv, le_refl _, h,
      by change ((0 : Nat) : Int) < t.hi; omega⟩
  | _, .csrZero m n, h, _ => by
    have h : Expr.Dims t m n := h
    have hhi := t.hi_ge
    obtain ⟨h1, h2, -, -⟩ := C47_with_size (T := T) t m n
    have hrow : ∀ i, (CSR.with_size m n : CSR T).row i = [] := fun i => by
      simp only [CSR.row, rowOf, CSR.with_size, List.zip_nil_left, List.drop_nil, List.take_nil]
      split <;> rfl
    have hs : (CSR.with_size m n : CSR T).stored = 0 := by
      unfold CSR.stored
      simp [hrow]
    exact ⟨_, rfl, GoodR.tight h1 rfl rfl h2 (fun i j hh => by
      obtain ⟨v, hv⟩ := hh
      rw [hrow] at hv
      simp at hv) hs.symm hs.symm hs.le h (by change ((0 : Nat) : Int) < t.hi; omega)⟩
  | _, .cooDense A, h, _ => by
    obtain ⟨h1, h2, h3⟩ := h
    obtain ⟨r, g1, g2, g3, g4, g5, -, g6⟩ := coo_from_dense_ok t A (A.headD []).length (by rintro rfl; rfl) h1 h2.1 h2.2
    refine ⟨r, g1, g2, g3, g4, fun i j => ?_, fun i j v hv => ?_, ?_, h2, h3⟩
    · exact (congrArg List.sum (g6 i j)).trans (dense_sum A i j)
    · refine dense_pos (A := A) (l := r.valuesAt i j) (g6 i j) (List.ne_nil_of_mem (a := v) ?_)
      exact List.mem_map.2 ⟨_, List.mem_filter.2 ⟨hv, by simp⟩, rfl⟩
    · exact g5.le.trans (Expr.nonzeros_eq A).ge
  | _, .csrDense A, h, _ => by
    obtain ⟨h0, h1, h2, h3⟩ := h
    obtain ⟨r, g1, g2, -, g3, g4, g5, g6, g7, -, g8⟩ := csr_from_dense_ok t A (A.headD []).length h0 h1 h2.2
      (by rw [← Expr.nonzeros_eq]; omega)
    refine ⟨r, g1, GoodR.tight g2 g3 g4 (fun i j => ?_) (fun i j hh => ?_) g6 g7 ?_ h2 h3⟩
    · exact (congrArg List.sum (g8 i j)).trans (dense_sum A i j)
    · obtain ⟨v, hv⟩ := hh
      refine dense_pos (A := A) (l := r.valuesAt i j) (g8 i j) (List.ne_nil_of_mem (a := v) ?_)
      exact List.mem_map.2 ⟨_, List.mem_filter.2 ⟨hv, by simp⟩, rfl⟩
    · rw [g5]; exact (Expr.nonzeros_eq A).ge
  | _, .cscDense A, h, _ => by
    obtain ⟨h0, h1, h2, h3⟩ := h
    obtain ⟨r, g1, g2, -, g3, g4, g5, g6, g7, -, g8⟩ := csc_from_dense_ok t A (A.headD []).length h0 h1 h2.1 h2.2
      (by rw [← Expr.nonzeros_eq]; omega)
    refine ⟨r, g1, GoodR.tight (r := r.asCSR) g2 g4 g3 (fun j i => ?_) (fun j i hh => ?_) g6 g7 ?_ ⟨h2.2, h2.1⟩ h3⟩
    · exact (congrArg List.sum (g8 i j)).trans (dense_sum A i j)
    · obtain ⟨v, hv⟩ := hh
      refine dense_pos (A := A) (l := r.valuesAt i j) (g8 i j) (List.ne_nil_of_mem (a := v) ?_)
      exact List.mem_map.2 ⟨_, List.mem_filter.2 ⟨hv, by simp⟩, rfl⟩
    · exact g5.le.trans (Expr.nonzeros_eq A).ge
  | _, .cooToCsr e, h, ha => by
    obtain ⟨a, h1, h2⟩ := e.good h ha
    obtain ⟨r, h3, h4⟩ := GoodO.to_csr h2
    exact ⟨r, by simp only [Expr.eval, h1]; exact h3, h4⟩
  | _, .cooToCsc e, h, ha => by
    obtain ⟨a, h1, h2⟩ := e.good h ha
    obtain ⟨r, h3, h4⟩ := GoodO.to_csc h2
    exact ⟨r, by simp only [Expr.eval, h1]; exact h3, h4⟩
  | _, .csrToCoo e, h, ha => by
    obtain ⟨a, h1, h2⟩ := e.good h ha
    obtain ⟨r, h3, h4⟩ := GoodR.to_coo h2
    exact ⟨r, by simp only [Expr.eval, h1]; exact h3, h4⟩
  | _, .csrToCsc e, h, ha => by
    obtain ⟨a, h1, h2⟩ := e.good h ha
    obtain ⟨r, h3, h4⟩ := GoodR.to_csc h2
    exact ⟨r, by simp only [Expr.eval, h1]; exact h3, h4⟩
  | _, .cscToCoo e, h, ha => by
    obtain ⟨a, h1, h2⟩ := e.good h ha
    obtain ⟨r, h3, h4⟩ := GoodC.to_coo h2
    exact ⟨r, by simp only [Expr.eval, h1]; exact h3, h4⟩
  | _, .cscToCsr e, h, ha => by
    obtain ⟨a, h1, h2⟩ := e.good h ha
    obtain ⟨r, h3, h4⟩ := GoodC.to_csr h2
    exact ⟨r, by simp only [Expr.eval, h1]; exact h3, h4⟩
  | _, .cooT e, h, ha => by
    obtain ⟨a, h1, h2⟩ := e.good h ha
    exact ⟨_, by simp only [Expr.eval, h1]; rfl, GoodO.transpose h2⟩
  | _, .csrT e, h, ha => by
    obtain ⟨a, h1, h2⟩ := e.good h ha
    refine ⟨⟨a.cols, a.rows, a.colidx, a.rowptr, a.values⟩, ?_, h2⟩
    simp only [Expr.eval, h1]
    show CSR.transpose a = _
    unfold CSR.transpose
    rw [CSC.new_ok (GoodR.wf h2).rep]
    rfl
  | _, .cscT e, h, ha => by
    obtain ⟨a, h1, h2⟩ := e.good h ha
    refine ⟨⟨a.cols, a.rows, a.colptr, a.rowidx, a.values⟩, ?_, h2⟩
    simp only [Expr.eval, h1]
    show CSC.transpose a = _
    unfold CSC.transpose
    have h3 : CSC.WF t a := GoodR.wf h2
    rw [CSR.new_ok h3.rep]
    rfl
  | _, .cooNeg e, h, ha => by
    obtain ⟨a, h1, h2⟩ := e.good h ha
    refine ⟨a.mapV (- ·), ?_, GoodO.mapV h2 negAddMonoidHom⟩
    simp only [Expr.eval, h1]
    show Coo.neg a = _
    unfold Coo.neg
    rw [Coo.new_mapV _ (GoodO.wf h2)]
    rfl
  | _, .csrNeg e, h, ha => by
    obtain ⟨a, h1, h2⟩ := e.good h ha
    refine ⟨a.mapV (- ·), ?_, GoodR.mapV h2 negAddMonoidHom⟩
    simp only [Expr.eval, h1]
    show CSR.neg a = _
    unfold CSR.neg
    rw [CSR.new_mapV _ (GoodR.wf h2)]
    rfl
  | _, .cscNeg e, h, ha => by
    obtain ⟨a, h1, h2⟩ := e.good h ha
    refine ⟨a.mapV (- ·), ?_, GoodR.mapV h2 negAddMonoidHom⟩
    simp only [Expr.eval, h1]
    show CSC.neg a = _
    unfold CSC.neg
    rw [CSC.new_mapV _ (GoodR.wf h2)]
    rfl
  | _, .cooAdd e f, h, ha => by
    obtain ⟨h1, h2, h3, h4⟩ := h
    obtain ⟨a, h5, h6⟩ := e.good h1 ha.1
    obtain ⟨b, h7, h8⟩ := f.good h2 ha.2
    have h8 : GoodO t b f.shape.1 f.shape.2 f.denote f.pos f.size := h8
    rw [← h3] at h8
    obtain ⟨r, h9, h10⟩ := GoodO.add h6 h8 h4
    exact ⟨r, by simp only [Expr.eval, h5, h7]; exact h9, h10⟩
  | _, .csrAdd e f, h, ha => by
    obtain ⟨h1, h2, h3, h4⟩ := h
    obtain ⟨a, h5, h6⟩ := e.good h1 ha.1
    obtain ⟨b, h7, h8⟩ := f.good h2 ha.2
    have h6 : GoodR t a e.shape.1 e.shape.2 e.denote e.pos e.size := h6
    have h8 : GoodR t b f.shape.1 f.shape.2 f.denote f.pos f.size := h8
    rw [← h3] at h8
    have l1 := h6.wf.stored_le
    have l2 := h8.wf.stored_le
    have l3 := h6.len
    have l4 := h8.len
    obtain ⟨r, g1, g2, g3, g4, g5, g6, g7, -, g8, g9⟩ := C15_csr_add t a b h6.wf h8.wf (h8.rows.trans h6.rows.symm)
      (h8.cols.trans h6.cols.symm) (by omega)
    refine ⟨r, by simp only [Expr.eval, h5, h7]; exact g1, ?_⟩
    exact h6.op h8 (· + ·) (add_zero 0) h4 g2 g3 g4 g5 g6 g7 g8.le g9
  | _, .csrSub e f, h, ha => by
    obtain ⟨h1, h2, h3, h4⟩ := h
    obtain ⟨a, h5, h6⟩ := e.good h1 ha.1
    obtain ⟨b, h7, h8⟩ := f.good h2 ha.2
    have h6 : GoodR t a e.shape.1 e.shape.2 e.denote e.pos e.size := h6
    have h8 : GoodR t b f.shape.1 f.shape.2 f.denote f.pos f.size := h8
    rw [← h3] at h8
    have l1 := h6.wf.stored_le
    have l2 := h8.wf.stored_le
    have l3 := h6.len
    have l4 := h8.len
    obtain ⟨r, g1, g2, g3, g4, g5, g6, g7, -, g8, g9⟩ := C15_csr_sub t a b h6.wf h8.wf (h8.rows.trans h6.rows.symm)
      (h8.cols.trans h6.cols.symm) (by omega)
    refine ⟨r, by simp only [Expr.eval, h5, h7]; exact g1, ?_⟩
    exact h6.op h8 (· - ·) (sub_zero 0) h4 g2 g3 g4 g5 g6 g7 g8.le g9
  | _, .cscAdd e f, h, ha => by
    obtain ⟨h1, h2, h3, h4⟩ := h
    obtain ⟨a, h5, h6⟩ := e.good h1 ha.1
    obtain ⟨b, h7, h8⟩ := f.good h2 ha.2
    have h6 : GoodC t a e.shape.1 e.shape.2 e.denote e.pos e.size := h6
    have h8 : GoodC t b f.shape.1 f.shape.2 f.denote f.pos f.size := h8
    rw [← h3] at h8
    have l1 : a.stored ≤ a.values.length := h6.wf.stored_le
    have l2 : b.stored ≤ b.values.length := h8.wf.stored_le
    have l3 : a.values.length ≤ _ := h6.len
    have l4 : b.values.length ≤ _ := h8.len
    obtain ⟨r, g1, g2, g3, g4, g5, g6, g7, -, g8, g9⟩ := C18_csc_add_op t a b h6.wf h8.wf (h8.cols.trans h6.cols.symm)
      (h8.rows.trans h6.rows.symm) (by omega)
    refine ⟨r, by simp only [Expr.eval, h5, h7]; exact g1, ?_⟩
    exact GoodR.op (r := r.asCSR) h6 h8 (· + ·) (add_zero 0) h4 g2 g4 g3 (fun i j => g5 j i) g6 g7 g8.le g9
  | _, .cscAddMethod e f, h, ha => by
    obtain ⟨h1, h2, h3, h4⟩ := h
    obtain ⟨a, h5, h6⟩ := e.good h1 ha.1
    obtain ⟨b, h7, h8⟩ := f.good h2 ha.2
    have h6 : GoodC t a e.shape.1 e.shape.2 e.denote e.pos e.size := h6
    have h8 : GoodC t b f.shape.1 f.shape.2 f.denote f.pos f.size := h8
    rw [← h3] at h8
    have l1 : a.stored ≤ a.values.length := h6.wf.stored_le
    have l2 : b.stored ≤ b.values.length := h8.wf.stored_le
    have l3 : a.values.length ≤ _ := h6.len
    have l4 : b.values.length ≤ _ := h8.len
    obtain ⟨r, g1, g2, g3, g4, g5, g6, g7, g8, g9, -, g10⟩ := C18_csc_add t a b h6.wf h8.wf (h8.cols.trans h6.cols.symm)
      (h8.rows.trans h6.rows.symm) (by omega)
    refine ⟨r, by simp only [Expr.eval, h5, h7]; exact g1, ?_⟩
    exact GoodR.op (r := r.asCSR) h6 h8 (· + ·) (add_zero 0) h4 g2 g4 g3 (fun i j => g5 j i) g6 g7 (g9.le.trans g10)
      (CSR.zeroSlack_of_tight g8 g9)
  | _, .cscSubMethod e f, h, ha => by
    obtain ⟨h1, h2, h3, h4⟩ := h
    obtain ⟨a, h5, h6⟩ := e.good h1 ha.1
    obtain ⟨b, h7, h8⟩ := f.good h2 ha.2
    have h6 : GoodC t a e.shape.1 e.shape.2 e.denote e.pos e.size := h6
    have h8 : GoodC t b f.shape.1 f.shape.2 f.denote f.pos f.size := h8
    rw [← h3] at h8
    have l1 : a.stored ≤ a.values.length := h6.wf.stored_le
    have l2 : b.stored ≤ b.values.length := h8.wf.stored_le
    have l3 : a.values.length ≤ _ := h6.len
    have l4 : b.values.length ≤ _ := h8.len
    obtain ⟨r, g1, g2, g3, g4, g5, g6, g7, g8, g9, -, g10⟩ := C18_csc_subtract t a b h6.wf h8.wf (h8.cols.trans h6.cols.symm)
      (h8.rows.trans h6.rows.symm) (by omega)
    refine ⟨r, by simp only [Expr.eval, h5, h7]; exact g1, ?_⟩
    exact GoodR.op (r := r.asCSR) h6 h8 (· - ·) (sub_zero 0) h4 g2 g4 g3 (fun i j => g5 j i) g6 g7 (g9.le.trans g10)
      (CSR.zeroSlack_of_tight g8 g9)
  | _, .csrMul e f, h, ha => by
    obtain ⟨h1, h2, h3, h4⟩ := h
    obtain ⟨a, h5, h6⟩ := e.good h1 ha.1
    obtain ⟨b, h7, h8⟩ := f.good h2 ha.2
    have h8 : GoodR t b f.shape.1 f.shape.2 f.denote f.pos f.size := h8
    rw [← h3] at h8
    obtain ⟨r, h9, h10⟩ := GoodR.mul h6 h8 h4
    exact ⟨r, by simp only [Expr.eval, h5, h7]; exact h9, h10⟩
  | _, .cscMul e f, h, ha => by
    obtain ⟨h1, h2, h3, h4⟩ := h
    obtain ⟨a, h5, h6⟩ := e.good h1 ha.1
    obtain ⟨b, h7, h8⟩ := f.good h2 ha.2
    have h8 : GoodC t b f.shape.1 f.shape.2 f.denote f.pos f.size := h8
    rw [← h3] at h8
    obtain ⟨r, h9, h10⟩ := GoodC.mul h6 h8 h4
    exact ⟨r, by simp only [Expr.eval, h5, h7]; exact h9, h10⟩
  | _, .cscMulCsr e f, h, ha => by
    obtain ⟨h1, h2, h3, h4⟩ := h
    obtain ⟨a, h5, h6⟩ := e.good h1 ha.1
    obtain ⟨b, h7, h8⟩ := f.good h2 ha.2
    have h8 : GoodR t b f.shape.1 f.shape.2 f.denote f.pos f.size := h8
    rw [← h3] at h8
    obtain ⟨r, h9, h10⟩ := GoodC.mul_csr h6 h8 h4
    exact ⟨r, by simp only [Expr.eval, h5, h7]; exact h9, h10⟩
  | _, .csrScale e s, h, ha => by
    obtain ⟨a, h1, h2⟩ := e.good h ha
    refine ⟨a.mapV (· * s), ?_, GoodR.mapV h2 (AddMonoidHom.mulRight s)⟩
    simp only [Expr.eval, h1]
    show CSR.mul_scalar a s = _
    unfold CSR.mul_scalar
    rw [CSR.new_mapV _ (GoodR.wf h2)]
    rfl
  | _, .csrScaleL s e, h, ha => by
    obtain ⟨a, h1, h2⟩ := e.good h ha
    refine ⟨a.mapV (s * ·), ?_, GoodR.mapV h2 (AddMonoidHom.mulLeft s)⟩
    simp only [Expr.eval, h1]
    show CSR.scalar_mul s a = _
    unfold CSR.scalar_mul
    rw [CSR.new_mapV _ (GoodR.wf h2)]
    rfl
  | _, .csrSort e, h, ha => by
    obtain ⟨a, h1, h2⟩ := e.good h ha
    obtain ⟨r, h3, h4⟩ := GoodR.sort h2
    exact ⟨r, by simp only [Expr.eval, h1]; exact h3, h4⟩
  | _, .cscSort e, h, ha => by
    obtain ⟨a, h1, h2⟩ := e.good h ha
    obtain ⟨r, h3, h4⟩ := GoodC.sort h2
    exact ⟨r, by simp only [Expr.eval, h1]; exact h3, h4⟩
  | _, .csrSum e, h, ha => by
    obtain ⟨a, h1, h2⟩ := e.good h ha
    obtain ⟨r, h3, h4⟩ := GoodR.sum h2
    exact ⟨r, by simp only [Expr.eval, h1]; exact h3, h4⟩
  | _, .cscSum e, h, ha => by
    obtain ⟨a, h1, h2⟩ := e.good h ha
    obtain ⟨r, h3, h4⟩ := GoodC.sum h2
    exact ⟨r, by simp only [Expr.eval, h1]; exact h3, h4⟩
  | _, .cooUpper e k, h, ha => by
    obtain ⟨h0, h3, h4⟩ := h
    obtain ⟨a, h1, h2⟩ := e.good h0 ha
    obtain ⟨r, h5, h6⟩ := GoodO.upper h2 h3 h4
    exact ⟨r, by simp only [Expr.eval, h1]; exact h5, h6⟩
  | _, .cooV e f, h, ha => by
    obtain ⟨h1, h2, h3, h4, h11⟩ := h
    obtain ⟨a, h5, h6⟩ := e.good h1 ha.1
    obtain ⟨b, h7, h8⟩ := f.good h2 ha.2
    have h8 : GoodO t b f.shape.1 f.shape.2 f.denote f.pos f.size := h8
    rw [← h3] at h8
    obtain ⟨r, h9, h10⟩ := GoodO.v_stack h6 h8 h4 h11
    exact ⟨r, by simp only [Expr.eval, h5, h7]; exact h9, h10⟩
  | _, .cooH e f, h, ha => by
    obtain ⟨h1, h2, h3, h4, h11⟩ := h
    obtain ⟨a, h5, h6⟩ := e.good h1 ha.1
    obtain ⟨b, h7, h8⟩ := f.good h2 ha.2
    have h8 : GoodO t b f.shape.1 f.shape.2 f.denote f.pos f.size := h8
    rw [← h3] at h8
    obtain ⟨r, h9, h10⟩ := GoodO.h_stack h6 h8 h4 h11
    exact ⟨r, by simp only [Expr.eval, h5, h7]; exact h9, h10⟩
  | _, .csrH e f, h, ha => by
    obtain ⟨h1, h2, h3, h4, h11⟩ := h
    obtain ⟨a, h5, h6⟩ := e.good h1 ha.1
    obtain ⟨b, h7, h8⟩ := f.good h2 ha.2
    have h8 : GoodR t b f.shape.1 f.shape.2 f.denote f.pos f.size := h8
    rw [← h3] at h8
    obtain ⟨r, h9, h10⟩ := GoodR.h_stack h6 h8 h4 h11
    exact ⟨r, by simp only [Expr.eval, h5, h7]; exact h9, h10⟩
  | _, .cooV3 e f g, h, ha => by
    obtain ⟨h1, h2, h3, h4, h5, h6, h7⟩ := h
    obtain ⟨a, a1, a2⟩ := e.good h1 ha.1
    obtain ⟨b, b1, b2⟩ := f.good h2 ha.2.1
    obtain ⟨c, c1, c2⟩ := g.good h3 ha.2.2
    have b2 : GoodO t b f.shape.1 f.shape.2 f.denote f.pos f.size := b2
    have c2 : GoodO t c g.shape.1 g.shape.2 g.denote g.pos g.size := c2
    rw [← h4] at b2
    rw [← h5] at c2
    obtain ⟨r, h9, h10⟩ := GoodO.v_stack3 a2 b2 c2 h6 h7
    exact ⟨r, by simp only [Expr.eval, a1, b1, c1]; exact h9, h10⟩
  | _, .cooH3 e f g, h, ha => by
    obtain ⟨h1, h2, h3, h4, h5, h6, h7⟩ := h
    obtain ⟨a, a1, a2⟩ := e.good h1 ha.1
    obtain ⟨b, b1, b2⟩ := f.good h2 ha.2.1
    obtain ⟨c, c1, c2⟩ := g.good h3 ha.2.2
    have b2 : GoodO t b f.shape.1 f.shape.2 f.denote f.pos f.size := b2
    have c2 : GoodO t c g.shape.1 g.shape.2 g.denote g.pos g.size := c2
    rw [← h4] at b2
    rw [← h5] at c2
    obtain ⟨r, h9, h10⟩ := GoodO.h_stack3 a2 b2 c2 h6 h7
    exact ⟨r, by simp only [Expr.eval, a1, b1, c1]; exact h9, h10⟩
  | _, .cooBlock e f g k, h, ha => by
    obtain ⟨h1, h2, h3, h4, h5, h6, h7, h8, h9, h10⟩ := h
    obtain ⟨a, a1, a2⟩ := e.good h1 ha.1
    obtain ⟨b, b1, b2⟩ := f.good h2 ha.2.1
    obtain ⟨c, c1, c2⟩ := g.good h3 ha.2.2.1
    obtain ⟨d, d1, d2⟩ := k.good h4 ha.2.2.2
    have b2 : GoodO t b f.shape.1 f.shape.2 f.denote f.pos f.size := b2
    have c2 : GoodO t c g.shape.1 g.shape.2 g.denote g.pos g.size := c2
    have d2 : GoodO t d k.shape.1 k.shape.2 k.denote k.pos k.size := d2
    rw [← h5] at b2
    rw [← h7] at c2
    rw [← h6, ← h8] at d2
    obtain ⟨r, h11, h12⟩ := GoodO.compose a2 b2 c2 d2 h9 h10
    exact ⟨r, by simp only [Expr.eval, a1, b1, c1, d1]; exact h11, h12⟩
  | _, .cscBlock e f g k, h, ha => by
    obtain ⟨h1, h2, h3, h4, h5, h6, h7, h8, h9, h10⟩ := h
    obtain ⟨a, a1, a2⟩ := e.good h1 ha.1
    obtain ⟨b, b1, b2⟩ := f.good h2 ha.2.1
    obtain ⟨c, c1, c2⟩ := g.good h3 ha.2.2.1
    obtain ⟨d, d1, d2⟩ := k.good h4 ha.2.2.2
    have b2 : GoodC t b f.shape.1 f.shape.2 f.denote f.pos f.size := b2
    have c2 : GoodC t c g.shape.1 g.shape.2 g.denote g.pos g.size := c2
    have d2 : GoodC t d k.shape.1 k.shape.2 k.denote k.pos k.size := d2
    rw [← h5] at b2
    rw [← h7] at c2
    rw [← h6, ← h8] at d2
    obtain ⟨r, h11, h12⟩ := GoodC.compose a2 b2 c2 d2 h9 h10
    exact ⟨r, by simp only [Expr.eval, a1, b1, c1, d1]; exact h11, h12⟩
  | _, .csrSelect e ri ci, h, ha => by
    obtain ⟨h0, h1, h2, h3, h4, h5, h6⟩ := h
    obtain ⟨a, a1, a2⟩ := e.good h0 ha
    obtain ⟨b, r, h7, h8, h9⟩ := GoodR.select a2 ri ci h1 h2 h3 h4 h5 h6
    refine ⟨r, ?_, h9⟩
    simp only [Expr.eval, a1]
    show (CSR.sum_duplicates t a >>= fun b => CSR.select t b ri ci) = _
    rw [h7]
    exact h8
  | _, .cscSelect e ri ci, h, ha => by
    obtain ⟨h0, h1, h2, h3, h4, h5, h6⟩ := h
    obtain ⟨a, a1, a2⟩ := e.good h0 ha
    obtain ⟨b, r, h7, h8, h9⟩ := GoodC.select a2 ri ci h1 h2 h3 h4 h5 h6
    refine ⟨r, ?_, h9⟩
    simp only [Expr.eval, a1]
    show (CSC.sum_duplicates t a >>= fun b => CSC.select t b ri ci) = _
    rw [h7]
    exact h8
  | _, .cscSub _ _, _, ha => ha.elim
  | _, .cscScale _ _, _, ha => ha.elim
  | _, .cscScaleL _ _, _, ha => ha.elim

/-- C50 (partial: without the operator `-` on CSC matrices and without scalar multiples of CSC matrices, which are
broken, C19 and C20; no unused storage in the given CSR and CSC matrices, C05). Every expression whose given
matrices are valid, whose shapes agree and whose dimensions and storage sizes are representable evaluates without
panic or `Err` to a valid matrix with the shape and the entries of matrix algebra. -/
theorem C50_compositions_partial {f : Fmt} (e : Expr T f) (hf : e.Fits t) (hb : e.AvoidsCscSubScale) :
    ∃ r, e.eval t = .ok r ∧ r.WF t ∧ r.rows = e.shape.1 ∧ r.cols = e.shape.2 ∧ ∀ i j, r.entry i j = e.denote i j := by
  obtain ⟨r, h1, h2⟩ := e.good hf hb
  refine ⟨r, h1, ?_⟩
  match f, e, r, h2 with
  | .coo, e, r, h => exact ⟨GoodO.wf h, GoodO.rows h, GoodO.cols h, GoodO.ent h⟩
  | .csr, e, r, h => exact ⟨GoodR.wf h, GoodR.rows h, GoodR.cols h, GoodR.ent h⟩
  | .csc, e, r, h => exact ⟨GoodR.wf h, GoodR.cols h, GoodR.rows h, fun i j => GoodR.ent h j i⟩

/-- C50 (what a user sees of the result). For such an expression `to_dense` of the value returns the matrix of
matrix algebra as a nested array, and `diagonal` returns its main diagonal. -/
theorem C50_observed_partial {f : Fmt} (e : Expr T f) (hf : e.Fits t) (hb : e.AvoidsCscSubScale) :
    ∃ r, e.eval t = .ok r ∧ r.to_dense t = .ok (dense e.shape.1 e.shape.2 e.denote) ∧
      r.diagonal = .ok ((List.range (min e.shape.1 e.shape.2)).map fun i => e.denote i i) := by
  obtain ⟨r, h1, h2⟩ := e.good hf hb
  refine ⟨r, h1, ?_⟩
  match f, e, r, h2 with
  | .coo, e, r, h =>
    refine ⟨(C06_coo_to_dense t r (GoodO.wf h)).trans ?_, (C24_coo_diagonal t r (GoodO.wf h)).trans ?_⟩ <;>
      rw [GoodO.rows h, GoodO.cols h]
    · rw [show Coo.entry r = e.denote from funext fun i => funext fun j => GoodO.ent h i j]
    · simp only [GoodO.ent h]
  | .csr, e, r, h =>
    refine ⟨(C06_csr_to_dense t r (GoodR.wf h)).trans ?_, (C24_csr_diagonal t r (GoodR.wf h)).trans ?_⟩ <;>
      rw [GoodR.rows h, GoodR.cols h]
    · rw [show CSR.entry r = e.denote from funext fun i => funext fun j => GoodR.ent h i j]
    · simp only [GoodR.ent h]
  | .csc, e, r, h =>
    have h3 : CSC.rows r = e.shape.1 := GoodR.cols h
    have h4 : CSC.cols r = e.shape.2 := GoodR.rows h
    have h5 : CSC.entry r = e.denote := funext fun i => funext fun j => GoodR.ent h j i
    have h6 : Expr.Dims t e.shape.2 e.shape.1 := GoodR.dims h
    refine ⟨(C06_csc_to_dense t r (GoodR.wf h) (h4 ▸ h6.1)).trans ?_, (C24_csc_diagonal t r (GoodR.wf h)).trans ?_⟩ <;>
      rw [h3, h4, h5]

/-- C50 (products with vectors). For such an expression of CSR or CSC format, `mat_vec` of the value returns the
product of the matrix of matrix algebra with the vector. -/
theorem C50_mat_vec_partial (x : List T) :
    (∀ e : Expr T .csr, e.Fits t → e.AvoidsCscSubScale → x.length = e.shape.2 → ∃ r : CSR T, e.eval t = .ok r ∧
      r.mat_vec x = .ok ((List.range e.shape.1).map fun i => ∑ k ∈ Finset.range e.shape.2, e.denote i k * x.getD k 0)) ∧
    (∀ e : Expr T .csc, e.Fits t → e.AvoidsCscSubScale → x.length = e.shape.2 → ∃ r : CSC T, e.eval t = .ok r ∧
      r.mat_vec x = .ok ((List.range e.shape.1).map fun i => ∑ k ∈ Finset.range e.shape.2, e.denote i k * x.getD k 0)) := by
  refine ⟨fun e hf hb hx => ?_, fun e hf hb hx => ?_⟩
  · obtain ⟨r, h1, h2⟩ := e.good hf hb
    refine ⟨r, h1, ((C11_csr_mat_vec t r (GoodR.wf h2) x).2 (hx.trans (GoodR.cols h2).symm)).trans ?_⟩
    rw [GoodR.rows h2, GoodR.cols h2]
    simp only [GoodR.ent h2]
  · obtain ⟨r, h1, h2⟩ := e.good hf hb
    have h3 : CSC.rows r = e.shape.1 := GoodR.cols h2
    have h4 : CSC.cols r = e.shape.2 := GoodR.rows h2
    have h5 : CSC.entry r = e.denote := funext fun i => funext fun j => GoodR.ent h2 j i
    refine ⟨r, h1, ((C12_csc_mat_vec t r (GoodR.wf h2) x).2 (hx.trans h4.symm)).trans ?_⟩
    rw [h3, h4, h5]

/-- C50 (any two ways of computing the same matrix agree). Two such expressions, of whatever formats, that mean the
same matrix evaluate to matrices with the same entries. -/
theorem C50_agree_partial {f g : Fmt} (e : Expr T f) (e' : Expr T g) (hf : e.Fits t) (hf' : e'.Fits t)
    (hb : e.AvoidsCscSubScale) (hb' : e'.AvoidsCscSubScale) (h : ∀ i j, e.denote i j = e'.denote i j) :
    ∃ r r', e.eval t = .ok r ∧ e'.eval t = .ok r' ∧ ∀ i j, r.entry i j = r'.entry i j := by
  obtain ⟨r, h1, -, -, -, h2⟩ := C50_compositions_partial e hf hb
  obtain ⟨r', h3, -, -, -, h4⟩ := C50_compositions_partial e' hf' hb'
  exact ⟨r, r', h1, h3, fun i j => by rw [h2, h4, h]⟩

end

/-- `(A + Bᵀ) * A - 3 * A` in which `A` is given with a duplicate entry and `B` is in coordinate format -/
def exExpr : Expr Int .csr :=
  .csrSub (.csrMul (.csrAdd (.csr ⟨2, 2, [0, 2, 3], [1, 1, 0], [5, 7, -3]⟩)
      (.cooToCsr (.cooT (.coo ⟨2, 2, [0, 1, 0], [1, 1, 1], [4, 2, -1]⟩))))
    (.csr ⟨2, 2, [0, 2, 3], [1, 1, 0], [5, 7, -3]⟩))
    (.csrScaleL 3 (.csr ⟨2, 2, [0, 2, 3], [1, 1, 0], [5, 7, -3]⟩))

theorem count_le {p : Nat → Nat → Prop} (m n : Nat) : Expr.count m n p ≤ m * n := by
  classical
  unfold Expr.count
  calc _ ≤ ∑ _i ∈ Finset.range m, n := Finset.sum_le_sum fun i _ => by
        refine (Finset.card_le_card (Finset.filter_subset _ _)).trans ?_
        simp
    _ = m * n := by simp

example : exExpr.Fits .i8 ∧ exExpr.AvoidsCscSubScale ∧ exExpr.shape = (2, 2) ∧ exExpr.denote 0 1 = -36 ∧
    exExpr.denote 0 0 = -36 := by
  have hc := fun p => count_le (p := p) 2 2
  refine ⟨⟨⟨⟨⟨CSR.wf_of (by decide), by decide, by decide, by decide, by decide⟩, ⟨Coo.wf_of (by decide), by decide, by decide⟩, rfl,
    by decide⟩, ⟨CSR.wf_of (by decide), by decide, by decide, by decide, by decide⟩, rfl, ?_⟩,
    ⟨CSR.wf_of (by decide), by decide, by decide, by decide, by decide⟩, rfl, ?_⟩, ⟨⟨⟨trivial, trivial⟩, trivial⟩, trivial⟩, rfl,
    by decide, by decide⟩
  · refine lt_of_le_of_lt (Int.ofNat_le.2 (hc _)) (by decide)
  · refine lt_of_le_of_lt (Int.ofNat_le.2 (Nat.add_le_add_right (hc _) _)) (by decide)

/-- rows 1, 0, 1 of the block matrix `[A Aᵀ; 0 I]`, whose `A` is given as a nested array, above the strict upper
triangle of `A` next to an empty block -/
def exExprBlock : Expr Int .coo :=
  .cooV
    (.cscToCoo (.cscSelect (.cscBlock (.cscDense [[5, 0], [-3, 7]]) (.csrT (.csrDense [[5, 0], [-3, 7]]))
      (.cooToCsc (.cooZero 2 2)) (.cooToCsc (.cooEye 2))) (some [1, 0, 1]) none))
    (.cooH (.cooUpper (.cooDense [[5, 4], [-3, 7]]) 1) (.cooZero 2 2))

theorem picks_le {p : Nat → Nat → Prop} (rows cols : List Int) : Expr.picks rows cols p ≤ rows.length * cols.length := by
  classical
  unfold Expr.picks
  induction rows with
  | nil => simp
  | cons r rows ih =>
    rw [List.map_cons, List.sum_cons, List.length_cons, Nat.add_mul, Nat.one_mul, Nat.add_comm]
    exact Nat.add_le_add ih List.countP_le_length

example : exExprBlock.Fits .i8 ∧ exExprBlock.AvoidsCscSubScale ∧ exExprBlock.shape = (5, 4) ∧
    exExprBlock.denote 0 0 = -3 ∧ exExprBlock.denote 0 2 = 0 ∧ exExprBlock.denote 1 2 = 5 ∧ exExprBlock.denote 3 1 = 4 := by
  have hc := fun p => picks_le (p := p) [1, 0, 1] [0, 1, 2, 3]
  have e : ∀ A : List (List Int), Expr.nonzeros A = denseNnz A := Expr.nonzeros_eq
  refine ⟨?_, ⟨⟨trivial, trivial, trivial, trivial⟩, trivial, trivial⟩, rfl, by decide, by decide, by decide, by decide⟩
  have e1 : Expr.nonzeros [[(5 : Int), 0], [-3, 7]] = 3 := e _
  have e2 : Expr.nonzeros [[(5 : Int), 4], [-3, 7]] = 4 := e _
  have hr : Expr.InRange 4 (some [1, 0, 1]) := by intro i hi; simp [chosen] at hi; omega
  have hr' : Expr.InRange 4 none := by intro i hi; simp [chosen] at hi; omega
  have hz : Expr.Dims .i8 2 2 := by decide
  have hi : ((2 : Nat) : Int) < IntTy.i8.hi := by decide
  refine ⟨⟨⟨⟨by decide, by decide, by decide, ?_⟩, ⟨by decide, by decide, by decide, ?_⟩, hz, hi, rfl, rfl, rfl, rfl,
    by decide, ?_⟩, by decide, by decide, hr, hr', by decide, ?_⟩, ⟨⟨⟨by decide, by decide, ?_⟩, by decide, by decide⟩, hz, rfl,
    by decide, ?_⟩, rfl, by decide, ?_⟩
  · rw [e1]; decide
  · rw [e1]; decide
  · simp only [Expr.size, e1]; decide
  · exact lt_of_le_of_lt (Int.ofNat_le.2 (hc _)) (by decide)
  · rw [e2]; decide
  · simp only [Expr.size, e2]; decide
  · refine lt_of_le_of_lt (Int.ofNat_le.2 (Nat.add_le_add_right (hc _) _)) ?_
    simp only [Expr.size, e2]; decide

/-- C50 (negation of the full statement): expressions that fit but panic, through the operator `-` and the scalar
multiple of CSC matrices. -/
theorem C50_csc_counterexample :
    (let e : Expr Int .csc := .cscSub (.csrToCsc (.csr ⟨2, 2, [0, 1, 2], [1, 0], [5, 7]⟩)) (.cscDiag [1, 1])
     e.Fits .u8 ∧ e.eval .u8 = .error (.panic .unwrap)) ∧
    (let e : Expr Int .csc := .cscScale (.csrToCsc (.csr ⟨2, 2, [0, 1, 2], [1, 0], [5, 7]⟩)) 2
     e.Fits .u8 ∧ e.eval .u8 = .error (.panic .unwrap)) := by
  refine ⟨⟨⟨⟨CSR.wf_of (by decide), by decide, by decide, by decide, by decide⟩, by simp [Expr.Fits, IntTy.u8], rfl, ?_⟩, ?_⟩,
    ⟨CSR.wf_of (by decide), by decide, by decide, by decide, by decide⟩, ?_⟩
  · simp [Expr.size, IntTy.u8]
  · decide +kernel
  · decide +kernel

end Sparse

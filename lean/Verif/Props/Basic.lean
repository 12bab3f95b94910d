import Verif.Props.Dense
import Verif.Lemmas.Fail
/-! Properties C20, C21, C25, C44, C45, C47: constructors, element access, scalar multiplication,
negation, transposition. -/
namespace Sparse

section
variable {T : Type}

/-! ### mapping the values -/

theorem rowOf_map {U : Type} (f : T → U) (p j : List Int) (x : List T) (i : Nat) :
    rowOf p j (x.map f) i = (rowOf p j x i).map fun e => (e.1, f e.2) := by
  unfold rowOf
  split
  · rw [List.zip_map_right, ← List.map_drop, ← List.map_take]
    rfl
  · rfl

theorem WFptr.mapValues {U : Type} {t : IntTy} {n m : Nat} {p j : List Int} {x : List T} (h : WFptr t n m p j x)
    (f : T → U) : WFptr t n m p j (x.map f) :=
  ⟨h.len, h.first, h.mono, fun c hc => by simpa using h.last c hc, h.idx⟩

theorem rowSum_map_hom {U : Type} [AddCommMonoid T] [AddCommMonoid U] (f : T →+ U) (r : List (Int × T)) (j : Int) :
    rowSum (r.map fun e => (e.1, f e.2)) j = f (rowSum r j) := by
  induction r with
  | nil => simp
  | cons e r ih =>
    rw [List.map_cons, rowSum_cons, rowSum_cons, ih, map_add]
    congr 1
    split <;> simp

/-- a CSR matrix with its values replaced by their images under `f` -/
def CSR.mapV {U : Type} (f : T → U) (a : CSR T) : CSR U := ⟨a.rows, a.cols, a.rowptr, a.colidx, a.values.map f⟩
/-- a CSC matrix with its values replaced by their images under `f` -/
def CSC.mapV {U : Type} (f : T → U) (a : CSC T) : CSC U := ⟨a.rows, a.cols, a.rowidx, a.colptr, a.values.map f⟩
/-- a coordinate matrix with its values replaced by their images under `f` -/
def Coo.mapV {U : Type} (f : T → U) (a : Coo T) : Coo U := ⟨a.rows, a.cols, a.rowidx, a.colidx, a.values.map f⟩

theorem CSR.mapV_wf {U : Type} (f : T → U) {t : IntTy} {a : CSR T} (h : a.WF t) : (a.mapV f).WF t := h.mapValues f
theorem CSC.mapV_wf {U : Type} (f : T → U) {t : IntTy} {a : CSC T} (h : a.WF t) : (a.mapV f).WF t := h.mapValues f
theorem Coo.mapV_wf {U : Type} (f : T → U) {t : IntTy} {a : Coo T} (h : a.WF t) : (a.mapV f).WF t :=
  ⟨by simpa [Coo.mapV] using h.lenr, by simpa [Coo.mapV] using h.lenc, h.row, h.col⟩

theorem CSR.mapV_entry {U : Type} [AddCommMonoid T] [AddCommMonoid U] (f : T →+ U) (a : CSR T) (i j : Nat) :
    (a.mapV f).entry i j = f (a.entry i j) := by
  unfold CSR.entry CSR.row CSR.mapV
  rw [rowOf_map, rowSum_map_hom]
theorem CSC.mapV_entry {U : Type} [AddCommMonoid T] [AddCommMonoid U] (f : T →+ U) (a : CSC T) (i j : Nat) :
    (a.mapV f).entry i j = f (a.entry i j) := by
  unfold CSC.entry CSC.col CSC.mapV
  rw [rowOf_map, rowSum_map_hom]

theorem Coo.mapV_triples {U : Type} (f : T → U) (a : Coo T) :
    (a.mapV f).triples = a.triples.map fun e => (e.1, e.2.1, f e.2.2) := by
  unfold Coo.triples Coo.mapV
  rw [List.zip_map_right, List.zip_map_right]
  rfl

theorem Coo.mapV_entry {U : Type} [AddCommMonoid T] [AddCommMonoid U] (f : T →+ U) (a : Coo T) (i j : Nat) :
    (a.mapV f).entry i j = f (a.entry i j) := by
  rw [Coo.entry_eq_tripSum, Coo.entry_eq_tripSum, Coo.mapV_triples]
  generalize a.triples = E
  induction E with
  | nil => simp [tripSum]
  | cons e E ih =>
    rw [List.map_cons, tripSum_cons, tripSum_cons, ih, map_add]
    congr 1
    split <;> simp

theorem CSR.new_mapV {U : Type} (f : T → U) {t : IntTy} {a : CSR T} (h : a.WF t) :
    CSR.new a.rows a.cols a.rowptr a.colidx (a.values.map f) = .ok (a.mapV f) := CSR.new_ok (CSR.mapV_wf f h).rep
theorem CSC.new_mapV {U : Type} (f : T → U) {t : IntTy} {a : CSC T} (h : a.WF t) :
    CSC.new a.rows a.cols a.rowidx a.colptr (a.values.map f) = .ok (a.mapV f) := CSC.new_ok (CSC.mapV_wf f h).rep
theorem Coo.new_mapV {U : Type} (f : T → U) {t : IntTy} {a : Coo T} (h : a.WF t) :
    Coo.new a.rows a.cols a.rowidx a.colidx (a.values.map f) = .ok (a.mapV f) := by
  unfold Coo.new
  rw [if_neg]
  · rfl
  · simp [h.lenr, h.lenc]

/-! ### C20 -/

/-- C20 (CSR). `A * s` multiplies every entry by `s` and keeps shape and pattern. -/
theorem C20_csr_mul_scalar [NonUnitalNonAssocSemiring T] (t : IntTy) (a : CSR T) (ha : a.WF t) (s : T) :
    ∃ r, a.mul_scalar s = .ok r ∧ r.WF t ∧ r.rows = a.rows ∧ r.cols = a.cols ∧ r.rowptr = a.rowptr ∧
      r.colidx = a.colidx ∧ ∀ i j, r.entry i j = a.entry i j * s := by
  refine ⟨a.mapV (· * s), ?_, CSR.mapV_wf _ ha, rfl, rfl, rfl, rfl, fun i j => CSR.mapV_entry (AddMonoidHom.mulRight s) a i j⟩
  unfold CSR.mul_scalar
  rw [CSR.new_mapV _ ha]
  rfl

/-- C20 (CSR). `s * A`. -/
theorem C20_csr_scalar_mul [NonUnitalNonAssocSemiring T] (t : IntTy) (a : CSR T) (ha : a.WF t) (s : T) :
    ∃ r, CSR.scalar_mul s a = .ok r ∧ r.WF t ∧ r.rows = a.rows ∧ r.cols = a.cols ∧ r.rowptr = a.rowptr ∧
      r.colidx = a.colidx ∧ ∀ i j, r.entry i j = s * a.entry i j := by
  refine ⟨a.mapV (s * ·), ?_, CSR.mapV_wf _ ha, rfl, rfl, rfl, rfl, fun i j => CSR.mapV_entry (AddMonoidHom.mulLeft s) a i j⟩
  unfold CSR.scalar_mul
  rw [CSR.new_mapV _ ha]
  rfl

example : ∃ a : CSR Int, a.WF .u8 ∧ a.stored = 4 := ⟨_, exCsr_wf, by decide⟩

/-- C20 (CSC, the statement is false). Unless the index array happens to have `cols + 1` elements, both
products with a scalar panic, because the arrays are passed to the constructor in the wrong order. -/
theorem C20_csc_scalar_panics [Mul T] (a : CSC T) (s : T) (h : a.rowidx.length ≠ a.cols + 1) :
    a.mul_scalar s = .error (.panic .unwrap) ∧ CSC.scalar_mul s a = .error (.panic .unwrap) := by
  unfold CSC.mul_scalar CSC.scalar_mul CSC.new
  rw [if_pos h, if_pos h]
  exact ⟨rfl, rfl⟩

/-- C20 (CSC, negation): a valid matrix for which the product panics, and one for which a wrong matrix is
returned without any error. -/
theorem C20_csc_scalar_counterexample :
    (let a : CSC Int := ⟨2, 2, [0, 1], [0, 1, 2], [5, 7]⟩
     a.WF .u8 ∧ a.mul_scalar 2 = .error (.panic .unwrap) ∧ CSC.scalar_mul 2 a = .error (.panic .unwrap)) ∧
    (let a : CSC Int := ⟨2, 1, [0, 1], [0, 2], [5, 7]⟩
     a.WF .u8 ∧ (∃ r, a.mul_scalar 2 = .ok r ∧ r.entry 1 0 ≠ a.entry 1 0 * 2) ∧
       (∃ r, CSC.scalar_mul 2 a = .ok r ∧ r.entry 1 0 ≠ 2 * a.entry 1 0)) :=
  ⟨⟨CSC.wf_of (by decide), by decide, by decide⟩, CSC.wf_of (by decide), ⟨_, rfl, by decide⟩, ⟨_, rfl, by decide⟩⟩

/-! ### C21 -/

/-- C21 (CSR). `-A`. -/
theorem C21_csr_neg [AddCommGroup T] (t : IntTy) (a : CSR T) (ha : a.WF t) :
    ∃ r, a.neg = .ok r ∧ r.WF t ∧ r.rows = a.rows ∧ r.cols = a.cols ∧ r.rowptr = a.rowptr ∧
      r.colidx = a.colidx ∧ (∀ i j, r.entry i j = -a.entry i j) ∧ r.neg = .ok a := by
  have h : ∀ b : CSR T, b.WF t → b.neg = .ok (b.mapV (- ·)) := by
    intro b hb
    unfold CSR.neg
    rw [CSR.new_mapV _ hb]
    rfl
  refine ⟨_, h a ha, CSR.mapV_wf _ ha, rfl, rfl, rfl, rfl, fun i j => CSR.mapV_entry negAddMonoidHom a i j, ?_⟩
  rw [h _ (CSR.mapV_wf _ ha)]
  simp [CSR.mapV]

/-- C21 (CSC). `-A`. -/
theorem C21_csc_neg [AddCommGroup T] (t : IntTy) (a : CSC T) (ha : a.WF t) :
    ∃ r, a.neg = .ok r ∧ r.WF t ∧ r.rows = a.rows ∧ r.cols = a.cols ∧ r.rowidx = a.rowidx ∧
      r.colptr = a.colptr ∧ (∀ i j, r.entry i j = -a.entry i j) ∧ r.neg = .ok a := by
  have h : ∀ b : CSC T, b.WF t → b.neg = .ok (b.mapV (- ·)) := by
    intro b hb
    unfold CSC.neg
    rw [CSC.new_mapV _ hb]
    rfl
  refine ⟨_, h a ha, CSC.mapV_wf _ ha, rfl, rfl, rfl, rfl, fun i j => CSC.mapV_entry negAddMonoidHom a i j, ?_⟩
  rw [h _ (CSC.mapV_wf _ ha)]
  simp [CSC.mapV]

/-- C21 (Coo). `-A`. -/
theorem C21_coo_neg [AddCommGroup T] (t : IntTy) (a : Coo T) (ha : a.WF t) :
    ∃ r, a.neg = .ok r ∧ r.WF t ∧ r.rows = a.rows ∧ r.cols = a.cols ∧ r.rowidx = a.rowidx ∧
      r.colidx = a.colidx ∧ (∀ i j, r.entry i j = -a.entry i j) ∧ r.neg = .ok a := by
  have h : ∀ b : Coo T, b.WF t → b.neg = .ok (b.mapV (- ·)) := by
    intro b hb
    unfold Coo.neg
    rw [Coo.new_mapV _ hb]
    rfl
  refine ⟨_, h a ha, Coo.mapV_wf _ ha, rfl, rfl, rfl, rfl, fun i j => Coo.mapV_entry negAddMonoidHom a i j, ?_⟩
  rw [h _ (Coo.mapV_wf _ ha)]
  simp [Coo.mapV]

example : (∃ a : CSR Int, a.WF .u8 ∧ a.stored = 4) ∧ exCsc.WF .u8 ∧ exCoo.WF .u8 :=
  ⟨⟨_, exCsr_wf, by decide⟩, exCsc_wf, exCoo_wf⟩

/-! ### C25 -/

/-- C25 (CSR). -/
theorem C25_csr_transpose [AddCommMonoid T] (t : IntTy) (a : CSR T) (ha : a.WF t) :
    ∃ r, a.transpose = .ok r ∧ r.WF t ∧ r.rows = a.cols ∧ r.cols = a.rows ∧ (∀ i j, r.entry i j = a.entry j i) ∧
      r.transpose = .ok a := by
  refine ⟨⟨a.cols, a.rows, a.colidx, a.rowptr, a.values⟩, ?_, ha, rfl, rfl, fun i j => rfl, ?_⟩
  · unfold CSR.transpose
    rw [CSC.new_ok ha.rep]
    rfl
  · unfold CSC.transpose
    rw [CSR.new_ok ha.rep]
    rfl

/-- C25 (CSC). -/
theorem C25_csc_transpose [AddCommMonoid T] (t : IntTy) (a : CSC T) (ha : a.WF t) :
    ∃ r, a.transpose = .ok r ∧ r.WF t ∧ r.rows = a.cols ∧ r.cols = a.rows ∧ (∀ i j, r.entry i j = a.entry j i) ∧
      r.transpose = .ok a := by
  refine ⟨⟨a.cols, a.rows, a.colptr, a.rowidx, a.values⟩, ?_, ha, rfl, rfl, fun i j => rfl, ?_⟩
  · unfold CSC.transpose
    rw [CSR.new_ok ha.rep]
    rfl
  · unfold CSR.transpose
    rw [CSC.new_ok ha.rep]
    rfl

theorem Coo.transpose_triples {t : IntTy} {a : Coo T} (ha : a.WF t) :
    a.transpose.triples = a.triples.map fun e => (e.2.1, e.1, e.2.2) := by
  apply List.ext_getElem?
  intro k
  have h1 := ha.lenr
  have h2 := ha.lenc
  unfold Coo.triples Coo.transpose
  rw [List.getElem?_map]
  by_cases hk : k < a.values.length
  · have e1 : (a.rowidx.zip (a.colidx.zip a.values))[k]? = some (a.rowidx[k], a.colidx[k], a.values[k]) := by
      rw [List.getElem?_zip_eq_some, List.getElem?_zip_eq_some]
      simp
    have e2 : (a.colidx.zip (a.rowidx.zip a.values))[k]? = some (a.colidx[k], a.rowidx[k], a.values[k]) := by
      rw [List.getElem?_zip_eq_some, List.getElem?_zip_eq_some]
      simp
    rw [e1, e2]
    rfl
  · rw [List.getElem?_eq_none (by simp; omega), List.getElem?_eq_none (by simp; omega)]
    rfl

/-- C25 (Coo). -/
theorem C25_coo_transpose [AddCommMonoid T] (t : IntTy) (a : Coo T) (ha : a.WF t) :
    a.transpose.WF t ∧ a.transpose.rows = a.cols ∧ a.transpose.cols = a.rows ∧
      (∀ i j, a.transpose.entry i j = a.entry j i) ∧ a.transpose.transpose = a := by
  refine ⟨⟨ha.lenc, ha.lenr, ha.col, ha.row⟩, rfl, rfl, fun i j => ?_, rfl⟩
  rw [Coo.entry_eq_tripSum, Coo.entry_eq_tripSum, Coo.transpose_triples ha]
  generalize a.triples = E
  induction E with
  | nil => simp [tripSum]
  | cons e E ih =>
    rw [List.map_cons, tripSum_cons, tripSum_cons, ih]
    simp only [and_comm]

example : (∃ a : CSR Int, a.WF .u8 ∧ a.entry 0 2 ≠ a.entry 2 0) ∧ exCsc.WF .u8 ∧ exCoo.WF .u8 :=
  ⟨⟨_, exCsr_wf, by decide⟩, exCsc_wf, exCoo_wf⟩

/-! ### C44 -/

/-- C44 (CSR). `CSR::new` accepts exactly the arguments of the documented lengths and keeps them. -/
theorem C44_csr_new (rows cols : Nat) (rowptr colidx : List Int) (values : List T) :
    (rowptr.length ≠ rows + 1 → CSR.new rows cols rowptr colidx values = .error .err) ∧
    ∀ last, rowptr.length = rows + 1 → rowptr[rows]? = some last →
      (0 ≤ last → last ≤ colidx.length → last ≤ values.length →
        CSR.new rows cols rowptr colidx values = .ok ⟨rows, cols, rowptr, colidx, values⟩) ∧
      (0 ≤ last → colidx.length < last ∨ values.length < last →
        CSR.new rows cols rowptr colidx values = .error .err) ∧
      (last < 0 → CSR.new rows cols rowptr colidx values = .error (.panic .unwrap)) := by
  constructor
  · intro h
    unfold CSR.new
    rw [if_pos h]
    rfl
  · intro last h1 h2
    have e1 : usub rowptr.length 1 = .ok rows := by
      unfold usub; rw [if_pos (by omega), h1]; rfl
    have e2 : rowptr.rd rows = .ok last := by unfold List.rd; rw [h2]; rfl
    have e3 : ∀ Q : M (CSR T), (0 ≤ last → (if colidx.length < last.toNat then .error .err else
        if values.length < last.toNat then .error .err else .ok ⟨rows, cols, rowptr, colidx, values⟩) = Q) →
        0 ≤ last → CSR.new rows cols rowptr colidx values = Q := by
      intro Q h h0
      rw [← h h0]
      unfold CSR.new toUsize
      rw [if_neg (by simpa using h1), e1]
      simp only [bind, Except.bind, e2, if_pos h0, pure, Except.pure]
      split
      · rfl
      · split <;> rfl
    refine ⟨fun h0 h3 h4 => ?_, fun h0 h3 => ?_, fun h0 => ?_⟩
    · exact e3 _ (fun _ => by rw [if_neg (by omega), if_neg (by omega)]) h0
    · refine e3 _ (fun _ => ?_) h0
      by_cases h5 : colidx.length < last.toNat
      · rw [if_pos h5]
      · rw [if_neg h5, if_pos (by omega)]
    · unfold CSR.new toUsize
      rw [if_neg (by simpa using h1), e1]
      simp only [bind, Except.bind, e2, if_neg (show ¬ 0 ≤ last by omega)]
      rfl

/-- C44 (CSC). -/
theorem C44_csc_new (rows cols : Nat) (rowidx colptr : List Int) (values : List T) :
    (colptr.length ≠ cols + 1 → CSC.new rows cols rowidx colptr values = .error .err) ∧
    ∀ last, colptr.length = cols + 1 → colptr[cols]? = some last →
      (0 ≤ last → last ≤ rowidx.length → last ≤ values.length →
        CSC.new rows cols rowidx colptr values = .ok ⟨rows, cols, rowidx, colptr, values⟩) ∧
      (0 ≤ last → rowidx.length < last ∨ values.length < last →
        CSC.new rows cols rowidx colptr values = .error .err) ∧
      (last < 0 → CSC.new rows cols rowidx colptr values = .error (.panic .unwrap)) := by
  constructor
  · intro h
    unfold CSC.new
    rw [if_pos h]
    rfl
  · intro last h1 h2
    have e1 : usub colptr.length 1 = .ok cols := by
      unfold usub; rw [if_pos (by omega), h1]; rfl
    have e2 : colptr.rd cols = .ok last := by unfold List.rd; rw [h2]; rfl
    have e3 : ∀ Q : M (CSC T), (0 ≤ last → (if rowidx.length < last.toNat then .error .err else
        if values.length < last.toNat then .error .err else .ok ⟨rows, cols, rowidx, colptr, values⟩) = Q) →
        0 ≤ last → CSC.new rows cols rowidx colptr values = Q := by
      intro Q h h0
      rw [← h h0]
      unfold CSC.new toUsize
      rw [if_neg (by simpa using h1), e1]
      simp only [bind, Except.bind, e2, if_pos h0, pure, Except.pure]
      split
      · rfl
      · split <;> rfl
    refine ⟨fun h0 h3 h4 => ?_, fun h0 h3 => ?_, fun h0 => ?_⟩
    · exact e3 _ (fun _ => by rw [if_neg (by omega), if_neg (by omega)]) h0
    · refine e3 _ (fun _ => ?_) h0
      by_cases h5 : rowidx.length < last.toNat
      · rw [if_pos h5]
      · rw [if_neg h5, if_pos (by omega)]
    · unfold CSC.new toUsize
      rw [if_neg (by simpa using h1), e1]
      simp only [bind, Except.bind, e2, if_neg (show ¬ 0 ≤ last by omega)]
      rfl

/-- C44 (Coo). -/
theorem C44_coo_new (rows cols : Nat) (rowidx colidx : List Int) (values : List T) :
    (rowidx.length = values.length ∧ colidx.length = values.length →
      Coo.new rows cols rowidx colidx values = .ok ⟨rows, cols, rowidx, colidx, values⟩) ∧
    (rowidx.length ≠ values.length ∨ colidx.length ≠ values.length →
      Coo.new rows cols rowidx colidx values = .error .err) := by
  constructor
  · intro h
    unfold Coo.new
    rw [if_neg (by omega)]
    rfl
  · intro h
    unfold Coo.new
    rw [if_pos (by omega)]
    rfl

example : [0, 1, (1 : Int)].length = 2 + 1 ∧ [0, 1, (1 : Int)][2]? = some 1 ∧ (0 : Int) ≤ 1 := by decide

/-! ### C45 -/

/-- C45 (general form). `get(i, j)` returns the first value stored for column `j` in row `i`, or zero. -/
theorem C45_csr_get_first [Zero T] (t : IntTy) (a : CSR T) (ha : a.WF t) (i j : Nat) (hi : i < a.rows) :
    a.get i j = .ok (((a.row i).find? fun e => decide (e.1 = (j : Int))).elim 0 (·.2)) := by
  suffices h : Ok (a.get i j) fun r => r = ((a.row i).find? fun e => decide (e.1 = (j : Int))).elim 0 (·.2) by
    obtain ⟨r, h1, h2⟩ := h
    rw [h1, h2]
  unfold CSR.get
  wp
  refine ⟨by omega, by omega, _, ha.rep.ptr i (by omega), by omega, _, ha.rep.ptr_succ hi, by omega, ?_⟩
  simp only [Int.toNat_natCast]
  have hget : ∀ k, (flat a.row i).length ≤ k → k < (flat a.row i).length + (a.row i).length →
      ∃ e, (a.row i)[k - (flat a.row i).length]? = some e ∧ a.colidx[k]? = some e.1 ∧ a.values[k]? = some e.2 := by
    intro k h1 h2
    refine ⟨(a.row i)[k - (flat a.row i).length]'(by omega), by simp, ?_⟩
    have := ha.rep.get hi (m := k - (flat a.row i).length) (e := (a.row i)[k - (flat a.row i).length]'(by omega)) (by simp)
    rw [show (flat a.row i).length + (k - (flat a.row i).length) = k by omega] at this
    exact this
  refine Ok_forRange' (fun k s => s = (none, ()) ∧ ∀ m e, m < k - (flat a.row i).length → (a.row i)[m]? = some e → e.1 ≠ (j : Int))
    (fun s => s = (some (((a.row i).find? fun e => decide (e.1 = (j : Int))).elim 0 (·.2)), ())) (by omega)
    ⟨rfl, by omega⟩ ?_ ?_ ?_
  · rintro k s h1 h2 ⟨rfl, hP⟩
    obtain ⟨e, g1, g2, g3⟩ := hget k h1 h2
    have hem : e ∈ a.row i := List.mem_of_getElem? g1
    wp
    rds [g2]
    refine ⟨(ha.mem hi hem).1, ?_⟩
    have h0 := (ha.mem hi hem).1
    rw [Ok_ite]
    constructor
    · intro h
      wp
      rds [g3]
      have : (a.row i).find? (fun e => decide (e.1 = (j : Int))) = some e := by
        rw [List.find?_eq_some_iff_getElem]
        refine ⟨by simp; omega, k - (flat a.row i).length, ?_⟩
        obtain ⟨g4, g5⟩ := List.getElem?_eq_some_iff.1 g1
        refine ⟨g4, g5, ?_⟩
        intro m hm
        have := hP m ((a.row i)[m]'(by omega)) hm (by simp)
        simpa using this
      rw [this]
      rfl
    · intro h
      wp
      refine ⟨trivial, ?_⟩
      intro m e' hm he'
      by_cases hm' : m < k - (flat a.row i).length
      · exact hP m e' hm' he'
      · have : m = k - (flat a.row i).length := by omega
        subst this
        rw [g1] at he'
        cases he'
        omega
  · rintro s rfl
    wp
  · rintro s ⟨rfl, hP⟩
    wp
    have : (a.row i).find? (fun e => decide (e.1 = (j : Int))) = none := by
      rw [List.find?_eq_none]
      intro e he
      obtain ⟨m, hm⟩ := List.mem_iff_getElem?.1 he
      obtain ⟨h4, -⟩ := List.getElem?_eq_some_iff.1 hm
      have := hP m e (by omega) hm
      simpa using this
    rw [this]
    rfl

theorem find_rowSum [AddCommMonoid T] {r : List (Int × T)} (h : (r.map (·.1)).Nodup) (j : Int) :
    (r.find? fun e => decide (e.1 = j)).elim 0 (·.2) = rowSum r j := by
  induction r with
  | nil => simp
  | cons e r ih =>
    rw [List.map_cons, List.nodup_cons] at h
    rw [rowSum_cons, List.find?_cons]
    by_cases he : e.1 = j
    · simp only [he, decide_true, if_true, Option.elim]
      rw [rowSum_eq_zero, add_zero]
      intro f hf hfj
      exact absurd (by rw [he, ← hfj]; exact List.mem_map_of_mem hf) h.1
    · simp only [he, decide_false, if_false, zero_add]
      exact ih h.2

/-- C45 (partial: no column is stored twice in the row, in particular canonical matrices). -/
theorem C45_csr_get_partial [AddCommMonoid T] (t : IntTy) (a : CSR T) (ha : a.WF t) (i j : Nat) (hi : i < a.rows)
    (hd : ((a.row i).map (·.1)).Nodup) : a.get i j = .ok (a.entry i j) := by
  rw [C45_csr_get_first t a ha i j hi, find_rowSum hd]
  rfl

theorem C45_csr_get_canonical_partial [AddCommMonoid T] (t : IntTy) (a : CSR T) (ha : a.WF t) (hc : a.Canonical)
    (i j : Nat) (hi : i < a.rows) : a.get i j = .ok (a.entry i j) := by
  refine C45_csr_get_partial t a ha i j hi ?_
  rw [List.Nodup, List.pairwise_map]
  exact (hc i hi).imp fun h => by omega

example : exCan.WF .i8 ∧ exCan.Canonical ∧ exCan.stored > 2 := ⟨exCan_wf, by unfold CSR.Canonical; decide, by decide⟩

/-- C45 (negation of the full statement): with a duplicate only its first value is returned. -/
theorem C45_csr_get_counterexample :
    let a : CSR Int := ⟨1, 1, [0, 2], [0, 0], [5, 7]⟩
    a.WF .u8 ∧ a.get 0 0 = .ok 5 ∧ a.entry 0 0 = 12 :=
  ⟨CSR.wf_of (by decide), by decide, by decide⟩

/-- C45: a row beyond the matrix panics. -/
theorem C45_csr_get_out_of_range [Zero T] (t : IntTy) (a : CSR T) (ha : a.WF t) (i j : Nat) (hi : a.rows ≤ i) :
    a.get i j = .error (.panic .oob) := by
  unfold CSR.get toUsize
  have hl := ha.rep.len
  rw [if_pos (by omega), if_pos (by omega)]
  simp only [bind, Except.bind, pure, Except.pure, Int.toNat_natCast]
  by_cases h : i = a.rows
  · subst h
    have e1 : a.rowptr.rd a.rows = .ok ((flat a.row a.rows).length : Int) := by
      unfold List.rd; rw [ha.rep.ptr _ (le_refl _)]; rfl
    have e2 : a.rowptr.rd (a.rows + 1) = .error (.panic .oob) := by
      unfold List.rd; rw [List.getElem?_eq_none (by omega)]; rfl
    rw [e1]
    simp only [e2]
    rw [if_pos (by omega)]
  · have e1 : a.rowptr.rd i = .error (.panic .oob) := by
      unfold List.rd; rw [List.getElem?_eq_none (by omega)]; rfl
    rw [e1]

/-! ### C47 -/

theorem iotaM_ok (t : IntTy) (n : Nat) (h : (n : Int) ≤ t.hi + 1) :
    iotaM t n = .ok ((List.range n).map fun i : Nat => (i : Int)) := by
  suffices h : Ok (iotaM t n) fun r => r = (List.range n).map fun i : Nat => (i : Int) by
    obtain ⟨r, h1, h2⟩ := h
    rw [h1, h2]
  unfold iotaM
  wp
  refine Ok_forRange (fun i s => s = ((List.range i).map fun i : Nat => (i : Int)) ++ List.replicate (n - i) 0) (by omega)
    (by simp) ?_ ?_
  · rintro i s - hi rfl
    wp
    refine ⟨by omega, by simp; omega, _, rfl, ?_⟩
    rw [List.range_succ, List.map_append, List.append_assoc, List.set_append, if_neg (by simp),
      show n - i = (n - (i + 1)) + 1 by omega, List.replicate_succ]
    simp
  · rintro s rfl
    simp

/-- the diagonal matrix's entry -/
def diagEntry [Zero T] (d : List T) (i j : Nat) : T := if i = j then d.getD i 0 else 0

theorem diag_rep (d : List T) :
    Rep ((List.range (d.length + 1)).map fun i : Nat => (i : Int)) ((List.range d.length).map fun i : Nat => (i : Int)) d d.length
      (fun i => (d[i]?).elim [] fun v => [((i : Int), v)]) := by
  have hf : ∀ i ≤ d.length, flat (fun i => (d[i]?).elim [] fun v => [((i : Int), v)]) i =
      (((List.range d.length).map fun i : Nat => (i : Int)).zip d).take i := by
    intro i
    induction i with
    | zero => simp
    | succ i ih =>
      intro hi
      rw [flat_succ, ih (by omega), List.take_add_one]
      congr 1
      rw [List.getElem?_eq_getElem (l := d) (by omega)]
      rw [List.getElem?_eq_getElem (by simp; omega)]
      simp
  refine ⟨by simp, fun i hi => ?_, ?_⟩
  · rw [hf i hi, List.getElem?_map, List.getElem?_range (by omega)]
    simp [hi]
  · rw [hf _ (le_refl _)]
    exact List.take_prefix _ _

theorem diag_wf (t : IntTy) (d : List T) (h : (d.length : Int) ≤ t.hi) :
    WFptr t d.length d.length ((List.range (d.length + 1)).map fun i : Nat => (i : Int))
      ((List.range d.length).map fun i : Nat => (i : Int)) d := by
  refine (diag_rep d).wf ?_ ?_
  · intro i hi e he
    rw [List.getElem?_eq_getElem hi] at he
    simp at he
    subst he
    simp only
    omega
  · have := (diag_rep d).len_x
    omega

theorem diag_rowSum [AddCommMonoid T] (d : List T) (i j : Nat) :
    (if i < d.length then rowSum ((d[i]?).elim [] fun v => [((i : Int), v)]) j else 0) = diagEntry d i j := by
  unfold diagEntry
  by_cases hi : i < d.length
  · rw [if_pos hi, List.getElem?_eq_getElem hi, List.getD_eq_getElem?_getD, List.getElem?_eq_getElem hi]
    simp only [Option.elim, rowSum_cons]
    simp
  · rw [if_neg hi, List.getD_eq_getElem?_getD, List.getElem?_eq_none (by omega)]
    simp

/-- C47 (CSR). -/
theorem C47_csr_with_diagonal [AddCommMonoid T] (t : IntTy) (d : List T) (h : (d.length : Int) ≤ t.hi) :
    ∃ r, CSR.with_diagonal t d = .ok r ∧ r.WF t ∧ r.Canonical ∧ r.rows = d.length ∧ r.cols = d.length ∧
      (∀ i j, r.entry i j = diagEntry d i j) ∧ (∀ i v, d[i]? = some v → r.row i = [((i : Int), v)]) ∧
      r.colidx.length = d.length ∧ r.values = d := by
  have e : CSR.with_diagonal t d = .ok ⟨d.length, d.length, (List.range (d.length + 1)).map fun i : Nat => (i : Int),
      (List.range d.length).map fun i : Nat => (i : Int), d⟩ := by
    unfold CSR.with_diagonal
    simp only
    rw [iotaM_ok t d.length (by omega), iotaM_ok t (d.length + 1) (by push_cast; omega)]
    rfl
  refine ⟨_, e, diag_wf t d h, ?_, rfl, rfl, ?_, ?_, by simp, rfl⟩
  · intro i hi
    rw [CSR.row_of_rep (R := fun i => (d[i]?).elim [] fun v => [((i : Int), v)]) (diag_rep d) hi]
    cases d[i]? <;> simp
  · intro i j
    rw [CSR.entry_of_rep (R := fun i => (d[i]?).elim [] fun v => [((i : Int), v)]) (diag_rep d), diag_rowSum]
  · intro i v hv
    have hi : i < d.length := by
      by_contra hc
      rw [List.getElem?_eq_none (by omega)] at hv
      cases hv
    rw [CSR.row_of_rep (R := fun i => (d[i]?).elim [] fun v => [((i : Int), v)]) (diag_rep d) hi, hv]
    rfl

/-- C47 (CSC). -/
theorem C47_csc_with_diagonal [AddCommMonoid T] (t : IntTy) (d : List T) (h : (d.length : Int) ≤ t.hi) :
    ∃ r, CSC.with_diagonal t d = .ok r ∧ r.WF t ∧ r.Canonical ∧ r.rows = d.length ∧ r.cols = d.length ∧
      (∀ i j, r.entry i j = diagEntry d i j) ∧ (∀ i v, d[i]? = some v → r.col i = [((i : Int), v)]) ∧
      r.rowidx.length = d.length ∧ r.values = d := by
  have e : CSC.with_diagonal t d = .ok ⟨d.length, d.length, (List.range d.length).map fun i : Nat => (i : Int),
      (List.range (d.length + 1)).map fun i : Nat => (i : Int), d⟩ := by
    unfold CSC.with_diagonal
    simp only
    rw [iotaM_ok t d.length (by omega), iotaM_ok t (d.length + 1) (by push_cast; omega)]
    rfl
  refine ⟨_, e, diag_wf t d h, ?_, rfl, rfl, ?_, ?_, by simp, rfl⟩
  · intro i hi
    rw [CSC.col_of_rep (R := fun i => (d[i]?).elim [] fun v => [((i : Int), v)]) (diag_rep d) hi]
    cases d[i]? <;> simp
  · intro i j
    rw [CSC.entry_of_rep (R := fun i => (d[i]?).elim [] fun v => [((i : Int), v)]) (diag_rep d), diag_rowSum]
    unfold diagEntry
    by_cases hij : i = j
    · simp [hij]
    · rw [if_neg hij, if_neg (Ne.symm hij)]
  · intro i v hv
    have hi : i < d.length := by
      by_contra hc
      rw [List.getElem?_eq_none (by omega)] at hv
      cases hv
    rw [CSC.col_of_rep (R := fun i => (d[i]?).elim [] fun v => [((i : Int), v)]) (diag_rep d) hi, hv]
    rfl

theorem iotaM_too_big (t : IntTy) (n : Nat) (h : t.hi + 1 < (n : Int)) : iotaM t n = .error (.panic .unwrap) := by
  apply WP.fails_eq
  unfold iotaM
  have := t.hi_ge
  wpe
  refine WP_forRange (fun i s => (i : Int) ≤ t.hi + 1 ∧ s.length = n) (fun _ => False) (by omega)
    ⟨by omega, by simp⟩ ?_ (fun _ h => h) (fun s h => by have := h.1; omega)
  rintro i s - hi ⟨h1, h2⟩
  wpe
  refine ⟨fun h3 => ⟨fun _ => ⟨by push_cast; omega, by simpa using h2⟩, fun h4 => by omega⟩, fun _ => trivial⟩

/-- C47 (sizes the index type cannot represent): the call panics. -/
theorem C47_with_diagonal_too_big [Zero T] [One T] (t : IntTy) (d : List T) :
    (t.hi < (d.length : Int) → CSR.with_diagonal t d = .error (.panic .unwrap)) ∧
    (t.hi < (d.length : Int) → CSC.with_diagonal t d = .error (.panic .unwrap)) ∧
    (t.hi + 1 < (d.length : Int) → Coo.with_diagonal t d = .error (.panic .unwrap)) ∧
    ∀ n : Nat, t.hi + 1 < (n : Int) → (Coo.identity t n : M (Coo T)) = .error (.panic .unwrap) := by
  have := t.hi_ge
  refine ⟨fun h => ?_, fun h => ?_, fun h => ?_, fun n h => ?_⟩
  · unfold CSR.with_diagonal
    simp only [iotaM_too_big t (d.length + 1) (by push_cast; omega)]
    rfl
  · unfold CSC.with_diagonal
    simp only [iotaM_too_big t (d.length + 1) (by push_cast; omega)]
    by_cases h' : t.hi + 1 < (d.length : Int)
    · rw [iotaM_too_big t d.length h']
      rfl
    · rw [iotaM_ok t d.length (by omega)]
      rfl
  · apply WP.fails_eq
    unfold Coo.with_diagonal
    wpe
    refine WP_forRange (fun i s => (i : Int) ≤ t.hi + 1 ∧ s.fst.length = d.length ∧ s.snd.fst.length = d.length ∧
      s.snd.snd.length = d.length) (fun _ => False) (by omega) ⟨by omega, by simp⟩ ?_ (fun _ h => h) (fun s h => by have := h.1; omega)
    rintro i s - hi ⟨h1, h2, h3, h4⟩
    wpe
    refine ⟨fun h5 => ⟨fun _ => ⟨fun _ => ⟨fun _ => ?_, fun h => by omega⟩, fun _ => trivial⟩, fun h => by omega⟩, fun _ => trivial⟩
    refine ⟨fun a _ => ⟨fun _ => ⟨by push_cast; omega, by simpa using h2, by simpa using h3, by simpa using h4⟩,
      fun h => by omega⟩, fun h => ?_⟩
    rw [List.getElem?_eq_none_iff] at h
    omega
  · apply WP.fails_eq
    unfold Coo.identity
    wpe
    refine WP_forRange (fun i s => (i : Int) ≤ t.hi + 1 ∧ s.fst.length = n ∧ s.snd.fst.length = n ∧
      s.snd.snd.length = n) (fun _ => False) (by omega) ⟨by omega, by simp⟩ ?_ (fun _ h => h)
      (fun s h => by have := h.1; omega)
    rintro i s - hi ⟨h1, h2, h3, h4⟩
    wpe
    refine ⟨fun h5 => ⟨fun _ => ⟨fun _ => ⟨fun _ => ?_, fun h => by omega⟩, fun _ => trivial⟩, fun h => by omega⟩, fun _ => trivial⟩
    exact ⟨fun _ => ⟨by push_cast; omega, by simpa using h2, by simpa using h3, by simpa using h4⟩, fun h => by omega⟩

example : IntTy.u8.hi + 1 < ((List.replicate 300 (0 : Int)).length : Int) := by
  rw [List.length_replicate]
  decide

theorem coo_diag_triples (d : List T) :
    (⟨d.length, d.length, (List.range d.length).map fun i : Nat => (i : Int), (List.range d.length).map fun i : Nat => (i : Int), d⟩ :
      Coo T).triples = flat (fun k => ((d[k]?).elim [] fun v => [((k : Int), v)]).map fun e => ((k : Int), e.1, e.2)) d.length := by
  rw [← zip3_rows]
  obtain ⟨g1, g2⟩ := (diag_rep d).arrays (by
    have := (diag_rep d).ptr d.length (le_refl _)
    rw [List.getElem?_map, List.getElem?_range (by omega)] at this
    simp at this ⊢; omega) (by
    have := (diag_rep d).ptr d.length (le_refl _)
    rw [List.getElem?_map, List.getElem?_range (by omega)] at this
    simp at this ⊢; omega)
  unfold Coo.triples
  simp only
  conv_rhs => rw [← g1, ← g2]
  congr 1
  unfold rowNums
  rw [show flat (fun i => List.map (fun _ => (i : Int)) ((d[i]?).elim [] fun v => [((i : Int), v)])) d.length =
    flat (fun i => ((d[i]?).elim [] fun v => [((i : Int), v)]).map (·.1)) d.length from
    flat_congr fun i hi => by rw [List.getElem?_eq_getElem hi]; rfl, flat_map]
  exact g1

theorem coo_diag_mem (d : List T) (i j : Nat) (v : T) :
    ((i : Int), (j : Int), v) ∈ (⟨d.length, d.length, (List.range d.length).map fun i : Nat => (i : Int),
      (List.range d.length).map fun i : Nat => (i : Int), d⟩ : Coo T).triples ↔ i = j ∧ d[i]? = some v := by
  rw [coo_diag_triples, mem_flat]
  constructor
  · rintro ⟨k, hk, h⟩
    rw [List.getElem?_eq_getElem hk] at h
    simp at h
    obtain ⟨rfl, rfl, rfl⟩ := h
    exact ⟨rfl, by rw [List.getElem?_eq_getElem hk]⟩
  · rintro ⟨rfl, h⟩
    have hi : i < d.length := by
      by_contra hc
      rw [List.getElem?_eq_none (by omega)] at h
      cases h
    exact ⟨i, hi, by rw [h]; simp⟩

theorem coo_diag_entry [AddCommMonoid T] (d : List T) (i j : Nat) :
    (⟨d.length, d.length, (List.range d.length).map fun i : Nat => (i : Int), (List.range d.length).map fun i : Nat => (i : Int), d⟩ :
      Coo T).entry i j = diagEntry d i j := by
  rw [Coo.entry_eq_tripSum, coo_diag_triples, tripSum_rows, diag_rowSum]

theorem Coo.with_diagonal_ok [Zero T] (t : IntTy) (d : List T) (h : (d.length : Int) ≤ t.hi + 1) :
    Ok (Coo.with_diagonal t d) fun r => r = ⟨d.length, d.length, (List.range d.length).map fun i : Nat => (i : Int),
      (List.range d.length).map fun i : Nat => (i : Int), d⟩ := by
  unfold Coo.with_diagonal
  wp
  refine Ok_forRange (fun i s => s = ⟨((List.range i).map fun i : Nat => (i : Int)) ++ List.replicate (d.length - i) 0,
    ((List.range i).map fun i : Nat => (i : Int)) ++ List.replicate (d.length - i) 0,
    d.take i ++ List.replicate (d.length - i) 0⟩) (by omega) (by simp) ?_ ?_
  · rintro i s - hi rfl
    wp
    refine ⟨by omega, by simp; omega, by omega, by simp; omega, d[i], by simp, by simp; omega, _, rfl, ?_⟩
    rw [List.range_succ, List.map_append, List.append_assoc, List.set_append, if_neg (by simp),
      List.set_append, if_neg (by simp), List.take_add_one, List.getElem?_eq_getElem hi,
      show d.length - i = (d.length - (i + 1)) + 1 by omega, List.replicate_succ, List.replicate_succ]
    simp only [List.length_take, Nat.min_eq_left hi.le]
    simp
    rw [← List.take_concat_get' _ _ hi, List.append_assoc]
    rfl
  · rintro s rfl
    simp

/-- C47 (Coo). -/
theorem C47_coo_with_diagonal [AddCommMonoid T] (t : IntTy) (d : List T) (h : (d.length : Int) ≤ t.hi + 1) :
    ∃ r, Coo.with_diagonal t d = .ok r ∧ r.WF t ∧ r.rows = d.length ∧ r.cols = d.length ∧
      (∀ i j, r.entry i j = diagEntry d i j) ∧ r.values = d ∧
      ∀ (i j : Nat) v, ((i : Int), (j : Int), v) ∈ r.triples ↔ i = j ∧ d[i]? = some v := by
  obtain ⟨r, hr, rfl⟩ := Coo.with_diagonal_ok t d h
  refine ⟨_, hr, ⟨by simp, by simp, ?_, ?_⟩, rfl, rfl, coo_diag_entry d, rfl, coo_diag_mem d⟩
  · intro v hv
    simp only [List.mem_map, List.mem_range] at hv
    obtain ⟨i, hi, rfl⟩ := hv
    simp only
    omega
  · intro v hv
    simp only [List.mem_map, List.mem_range] at hv
    obtain ⟨i, hi, rfl⟩ := hv
    simp only
    omega

theorem Coo.identity_ok [Zero T] [One T] (t : IntTy) (n : Nat) (h : (n : Int) ≤ t.hi + 1) :
    Ok (Coo.identity t n : M (Coo T)) fun r => r = ⟨(List.replicate n (1 : T)).length, (List.replicate n (1 : T)).length,
      (List.range (List.replicate n (1 : T)).length).map fun i : Nat => (i : Int),
      (List.range (List.replicate n (1 : T)).length).map fun i : Nat => (i : Int), List.replicate n 1⟩ := by
  unfold Coo.identity
  wp
  refine Ok_forRange (fun i s => s = ⟨((List.range i).map fun i : Nat => (i : Int)) ++ List.replicate (n - i) 0,
    ((List.range i).map fun i : Nat => (i : Int)) ++ List.replicate (n - i) 0,
    List.replicate i 1 ++ List.replicate (n - i) 0⟩) (by omega) (by simp) ?_ ?_
  · rintro i s - hi rfl
    wp
    refine ⟨by omega, by simp; omega, by omega, by simp; omega, by simp; omega, _, rfl, ?_⟩
    rw [List.range_succ, List.map_append, List.append_assoc, List.set_append, if_neg (by simp),
      List.set_append, if_neg (by simp), List.replicate_succ',
      show n - i = (n - (i + 1)) + 1 by omega, List.replicate_succ, List.replicate_succ]
    simp
  · rintro s rfl
    simp

/-- C47 (Coo). -/
theorem C47_coo_identity [AddCommMonoid T] [One T] (t : IntTy) (n : Nat) (h : (n : Int) ≤ t.hi + 1) :
    ∃ r, (Coo.identity t n : M (Coo T)) = .ok r ∧ r.WF t ∧ r.rows = n ∧ r.cols = n ∧
      (∀ i j, r.entry i j = if i = j ∧ i < n then 1 else 0) ∧ r.values = List.replicate n 1 ∧
      ∀ (i j : Nat) v, ((i : Int), (j : Int), v) ∈ r.triples ↔ i = j ∧ i < n ∧ v = 1 := by
  obtain ⟨r, hr, rfl⟩ := Coo.identity_ok (T := T) t n h
  refine ⟨_, hr, ⟨by simp, by simp, ?_, ?_⟩, by simp, by simp, ?_, rfl, ?_⟩
  · intro v hv
    simp only [List.mem_map, List.mem_range, List.length_replicate] at hv ⊢
    obtain ⟨i, hi, rfl⟩ := hv
    omega
  · intro v hv
    simp only [List.mem_map, List.mem_range, List.length_replicate] at hv ⊢
    obtain ⟨i, hi, rfl⟩ := hv
    omega
  · intro i j
    rw [coo_diag_entry]
    unfold diagEntry
    by_cases hi : i < n
    · simp [hi]
    · simp [hi]
  · intro i j v
    rw [coo_diag_mem, List.getElem?_replicate]
    by_cases hi : i < n
    · simp [hi, eq_comm]
    · simp [hi]

/-- C47 (zero matrices). -/
theorem C47_with_size [AddCommMonoid T] (t : IntTy) (rows cols : Nat) :
    (CSR.with_size rows cols : CSR T).WF t ∧ (∀ i j, (CSR.with_size rows cols : CSR T).entry i j = 0) ∧
    (Coo.with_size rows cols : Coo T).WF t ∧ (∀ i j, (Coo.with_size rows cols : Coo T).entry i j = 0) ∧
    (CSR.with_size rows cols : CSR T).rows = rows ∧ (CSR.with_size rows cols : CSR T).cols = cols ∧
    (Coo.with_size rows cols : Coo T).rows = rows ∧ (Coo.with_size rows cols : Coo T).cols = cols ∧
    (CSR.with_size rows cols : CSR T).triples = [] ∧ (Coo.with_size rows cols : Coo T).triples = [] := by
  have hr : Rep (List.replicate (rows + 1) (0 : Int)) [] ([] : List T) rows (fun _ => []) := by
    have hf : ∀ i, flat (fun _ => ([] : List (Int × T))) i = [] := by
      intro i
      induction i with
      | zero => simp
      | succ i ih => rw [flat_succ, ih]; rfl
    refine ⟨by simp, fun i hi => ?_, by rw [hf]; simp⟩
    rw [hf, List.getElem?_replicate, if_pos (by omega)]
    rfl
  refine ⟨hr.wf (by simp) ?_, ?_, ⟨rfl, rfl, by simp [Coo.with_size], by simp [Coo.with_size]⟩, fun i j => rfl, rfl, rfl, rfl,
    rfl, ?_, rfl⟩
  · have h1 := hr.len_x
    have h2 := t.hi_ge
    rw [List.length_nil] at h1
    omega
  · intro i j
    rw [CSR.entry_of_rep (a := CSR.with_size rows cols) hr]
    simp
  · simp only [CSR.triples, CSR.row, rowOf, CSR.with_size, List.zip_nil_left, List.drop_nil, List.take_nil]
    refine List.flatMap_eq_nil_iff.2 fun i _ => ?_
    split <;> rfl

example : ([3, 0, -5] : List Int).length ≤ IntTy.i8.hi := by decide

end
end Sparse

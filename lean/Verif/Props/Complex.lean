import Verif.Model.Complex
import Verif.Props.Basic
import Verif.Props.Elementwise
/-! Property C46: the complex views. -/
namespace Sparse

section
variable {F : Type}

/-! ### complex numbers: `num_complex` adds and multiplies as usual -/

theorem Cx.ext' {x y : Cx F} (h : x.re = y.re) (h' : x.im = y.im) : x = y := by
  cases x; cases y; cases h; cases h'; rfl

instance [Zero F] : Zero (Cx F) := ⟨⟨0, 0⟩⟩
instance [Add F] : Add (Cx F) := ⟨fun x y => ⟨x.re + y.re, x.im + y.im⟩⟩
instance [Neg F] : Neg (Cx F) := ⟨fun x => ⟨-x.re, -x.im⟩⟩

instance [AddCommMonoid F] : AddCommMonoid (Cx F) where
  add_assoc x y z := Cx.ext' (add_assoc ..) (add_assoc ..)
  zero_add x := Cx.ext' (zero_add _) (zero_add _)
  add_zero x := Cx.ext' (add_zero _) (add_zero _)
  add_comm x y := Cx.ext' (add_comm ..) (add_comm ..)
  nsmul := nsmulRec

/-- conjugation as an additive map -/
def Cx.conjHom [AddCommGroup F] : Cx F →+ Cx F where
  toFun := Cx.conj
  map_zero' := Cx.ext' rfl neg_zero
  map_add' x y := Cx.ext' rfl (neg_add x.im y.im)
/-- the real part as an additive map -/
def Cx.reHom [AddCommMonoid F] : Cx F →+ F := ⟨⟨Cx.re, rfl⟩, fun _ _ => rfl⟩
/-- the imaginary part as an additive map -/
def Cx.imHom [AddCommMonoid F] : Cx F →+ F := ⟨⟨Cx.im, rfl⟩, fun _ _ => rfl⟩
/-- `x + 0 i` as an additive map -/
def Cx.ofReHom [AddCommMonoid F] : F →+ Cx F := ⟨⟨fun v => ⟨v, 0⟩, rfl⟩, fun _ _ => Cx.ext' rfl (add_zero 0).symm⟩
/-- `0 + y i` as an additive map -/
def Cx.ofImHom [AddCommMonoid F] : F →+ Cx F := ⟨⟨fun v => ⟨0, v⟩, rfl⟩, fun _ _ => Cx.ext' (add_zero 0).symm rfl⟩

theorem Cx.conj_conj [AddCommGroup F] (z : Cx F) : z.conj.conj = z := Cx.ext' rfl (neg_neg _)

theorem Cx.conj_comp_conj [AddCommGroup F] : (Cx.conj ∘ Cx.conj : Cx F → Cx F) = id := funext Cx.conj_conj

theorem CSR.conj_ok [Neg F] {t : IntTy} {a : CSR (Cx F)} (h : a.WF t) : a.conj = .ok (a.mapV Cx.conj) := by
  unfold CSR.conj
  rw [CSR.new_mapV _ h]
  rfl
theorem CSC.conj_ok [Neg F] {t : IntTy} {a : CSC (Cx F)} (h : a.WF t) : a.conj = .ok (a.mapV Cx.conj) := by
  unfold CSC.conj
  rw [CSC.new_mapV _ h]
  rfl
theorem Coo.conj_ok [Neg F] {t : IntTy} {a : Coo (Cx F)} (h : a.WF t) : a.conj = .ok (a.mapV Cx.conj) := by
  unfold Coo.conj
  rw [Coo.new_mapV _ h]
  rfl

/-- C46 (CSR). `conj`, `real`, `imag` and `h` of a valid matrix never panic; the first three keep the shape, the
pattern and the number of stored values; entries are conjugated, projected, and transposed and conjugated; `conj` and
`h` undo themselves. -/
theorem C46_csr_views [AddCommGroup F] (t : IntTy) (a : CSR (Cx F)) (ha : a.WF t) :
    (∃ r, a.conj = .ok r ∧ r.WF t ∧ r.rows = a.rows ∧ r.cols = a.cols ∧ r.rowptr = a.rowptr ∧ r.colidx = a.colidx ∧
      r.values.length = a.values.length ∧ (∀ i j, r.entry i j = ⟨(a.entry i j).re, -(a.entry i j).im⟩) ∧
      r.conj = .ok a) ∧
    (∃ r, a.real = .ok r ∧ r.WF t ∧ r.rows = a.rows ∧ r.cols = a.cols ∧ r.rowptr = a.rowptr ∧ r.colidx = a.colidx ∧
      r.values.length = a.values.length ∧ ∀ i j, r.entry i j = (a.entry i j).re) ∧
    (∃ r, a.imag = .ok r ∧ r.WF t ∧ r.rows = a.rows ∧ r.cols = a.cols ∧ r.rowptr = a.rowptr ∧ r.colidx = a.colidx ∧
      r.values.length = a.values.length ∧ ∀ i j, r.entry i j = (a.entry i j).im) ∧
    (∃ r, a.h = .ok r ∧ r.WF t ∧ r.rows = a.cols ∧ r.cols = a.rows ∧
      (∀ i j, r.entry i j = ⟨(a.entry j i).re, -(a.entry j i).im⟩) ∧ r.h = .ok a) := by
  have hc := CSR.conj_ok ha
  have hcc : (a.mapV Cx.conj).conj = .ok a := by
    rw [CSR.conj_ok (CSR.mapV_wf _ ha)]
    simp [CSR.mapV, Cx.conj_comp_conj]
  have he : ∀ i j, (a.mapV Cx.conj).entry i j = ⟨(a.entry i j).re, -(a.entry i j).im⟩ :=
    fun i j => CSR.mapV_entry Cx.conjHom a i j
  refine ⟨⟨_, hc, CSR.mapV_wf _ ha, rfl, rfl, rfl, rfl, by simp [CSR.mapV], he, hcc⟩,
    ⟨a.mapV Cx.re, ?_, CSR.mapV_wf _ ha, rfl, rfl, rfl, rfl, by simp [CSR.mapV], fun i j => CSR.mapV_entry Cx.reHom a i j⟩,
    ⟨a.mapV Cx.im, ?_, CSR.mapV_wf _ ha, rfl, rfl, rfl, rfl, by simp [CSR.mapV], fun i j => CSR.mapV_entry Cx.imHom a i j⟩,
    ?_⟩
  · unfold CSR.real
    rw [CSR.new_mapV _ ha]
    rfl
  · unfold CSR.imag
    rw [CSR.new_mapV _ ha]
    rfl
  · obtain ⟨r, hr, hw, h1, h2, h3, h4⟩ := C25_csr_transpose t _ (CSR.mapV_wf Cx.conj ha)
    refine ⟨r, ?_, hw, h1, h2, fun i j => by rw [h3, he], ?_⟩
    · unfold CSR.h
      rw [hc]
      exact hr
    · unfold CSC.h
      rw [CSC.conj_ok hw]
      have : r = ⟨a.cols, a.rows, a.colidx, a.rowptr, a.values.map Cx.conj⟩ := by
        unfold CSR.transpose at hr
        rw [CSC.new_ok (CSR.mapV_wf Cx.conj ha).rep] at hr
        exact (Except.ok.inj hr).symm
      subst this
      show CSC.transpose ⟨_, _, _, _, (a.values.map Cx.conj).map Cx.conj⟩ = _
      unfold CSC.transpose
      simp only [List.map_map, Function.comp_def, Cx.conj_conj, List.map_id']
      rw [CSR.new_ok ha.rep]
      rfl

/-- C46 (CSC). The same views of a valid CSC matrix. -/
theorem C46_csc_views [AddCommGroup F] (t : IntTy) (a : CSC (Cx F)) (ha : a.WF t) :
    (∃ r, a.conj = .ok r ∧ r.WF t ∧ r.rows = a.rows ∧ r.cols = a.cols ∧ r.rowidx = a.rowidx ∧ r.colptr = a.colptr ∧
      r.values.length = a.values.length ∧ (∀ i j, r.entry i j = ⟨(a.entry i j).re, -(a.entry i j).im⟩) ∧
      r.conj = .ok a) ∧
    (∃ r, a.real = .ok r ∧ r.WF t ∧ r.rows = a.rows ∧ r.cols = a.cols ∧ r.rowidx = a.rowidx ∧ r.colptr = a.colptr ∧
      r.values.length = a.values.length ∧ ∀ i j, r.entry i j = (a.entry i j).re) ∧
    (∃ r, a.imag = .ok r ∧ r.WF t ∧ r.rows = a.rows ∧ r.cols = a.cols ∧ r.rowidx = a.rowidx ∧ r.colptr = a.colptr ∧
      r.values.length = a.values.length ∧ ∀ i j, r.entry i j = (a.entry i j).im) ∧
    (∃ r, a.h = .ok r ∧ r.WF t ∧ r.rows = a.cols ∧ r.cols = a.rows ∧
      (∀ i j, r.entry i j = ⟨(a.entry j i).re, -(a.entry j i).im⟩) ∧ r.h = .ok a) := by
  have hc := CSC.conj_ok ha
  have hcc : (a.mapV Cx.conj).conj = .ok a := by
    rw [CSC.conj_ok (CSC.mapV_wf _ ha)]
    simp [CSC.mapV, Cx.conj_comp_conj]
  have he : ∀ i j, (a.mapV Cx.conj).entry i j = ⟨(a.entry i j).re, -(a.entry i j).im⟩ :=
    fun i j => CSC.mapV_entry Cx.conjHom a i j
  refine ⟨⟨_, hc, CSC.mapV_wf _ ha, rfl, rfl, rfl, rfl, by simp [CSC.mapV], he, hcc⟩,
    ⟨a.mapV Cx.re, ?_, CSC.mapV_wf _ ha, rfl, rfl, rfl, rfl, by simp [CSC.mapV], fun i j => CSC.mapV_entry Cx.reHom a i j⟩,
    ⟨a.mapV Cx.im, ?_, CSC.mapV_wf _ ha, rfl, rfl, rfl, rfl, by simp [CSC.mapV], fun i j => CSC.mapV_entry Cx.imHom a i j⟩,
    ?_⟩
  · unfold CSC.real
    rw [CSC.new_mapV _ ha]
    rfl
  · unfold CSC.imag
    rw [CSC.new_mapV _ ha]
    rfl
  · obtain ⟨r, hr, hw, h1, h2, h3, h4⟩ := C25_csc_transpose t _ (CSC.mapV_wf Cx.conj ha)
    refine ⟨r, ?_, hw, h1, h2, fun i j => by rw [h3, he], ?_⟩
    · unfold CSC.h
      rw [hc]
      exact hr
    · unfold CSR.h
      rw [CSR.conj_ok hw]
      have : r = ⟨a.cols, a.rows, a.colptr, a.rowidx, a.values.map Cx.conj⟩ := by
        unfold CSC.transpose at hr
        rw [CSR.new_ok (CSC.mapV_wf Cx.conj ha).rep] at hr
        exact (Except.ok.inj hr).symm
      subst this
      show CSR.transpose ⟨_, _, _, _, (a.values.map Cx.conj).map Cx.conj⟩ = _
      unfold CSR.transpose
      simp only [List.map_map, Function.comp_def, Cx.conj_conj, List.map_id']
      rw [CSC.new_ok ha.rep]
      rfl

/-- C46 (Coo). The same views of a valid coordinate matrix. -/
theorem C46_coo_views [AddCommGroup F] (t : IntTy) (a : Coo (Cx F)) (ha : a.WF t) :
    (∃ r, a.conj = .ok r ∧ r.WF t ∧ r.rows = a.rows ∧ r.cols = a.cols ∧ r.rowidx = a.rowidx ∧ r.colidx = a.colidx ∧
      (∀ i j, r.entry i j = ⟨(a.entry i j).re, -(a.entry i j).im⟩) ∧ r.conj = .ok a) ∧
    (∃ r, a.real = .ok r ∧ r.WF t ∧ r.rows = a.rows ∧ r.cols = a.cols ∧ r.rowidx = a.rowidx ∧ r.colidx = a.colidx ∧
      ∀ i j, r.entry i j = (a.entry i j).re) ∧
    (∃ r, a.imag = .ok r ∧ r.WF t ∧ r.rows = a.rows ∧ r.cols = a.cols ∧ r.rowidx = a.rowidx ∧ r.colidx = a.colidx ∧
      ∀ i j, r.entry i j = (a.entry i j).im) ∧
    (∃ r, a.h = .ok r ∧ r.WF t ∧ r.rows = a.cols ∧ r.cols = a.rows ∧
      (∀ i j, r.entry i j = ⟨(a.entry j i).re, -(a.entry j i).im⟩) ∧ r.h = .ok a) := by
  have hc := Coo.conj_ok ha
  have hcc : (a.mapV Cx.conj).conj = .ok a := by
    rw [Coo.conj_ok (Coo.mapV_wf _ ha)]
    simp [Coo.mapV, Cx.conj_comp_conj]
  have he : ∀ i j, (a.mapV Cx.conj).entry i j = ⟨(a.entry i j).re, -(a.entry i j).im⟩ :=
    fun i j => Coo.mapV_entry Cx.conjHom a i j
  have ht := C25_coo_transpose t _ (Coo.mapV_wf Cx.conj ha)
  refine ⟨⟨_, hc, Coo.mapV_wf _ ha, rfl, rfl, rfl, rfl, he, hcc⟩,
    ⟨a.mapV Cx.re, ?_, Coo.mapV_wf _ ha, rfl, rfl, rfl, rfl, fun i j => Coo.mapV_entry Cx.reHom a i j⟩,
    ⟨a.mapV Cx.im, ?_, Coo.mapV_wf _ ha, rfl, rfl, rfl, rfl, fun i j => Coo.mapV_entry Cx.imHom a i j⟩,
    ⟨(a.mapV Cx.conj).transpose, ?_, ht.1, rfl, rfl, fun i j => by rw [ht.2.2.2.1, he], ?_⟩⟩
  · unfold Coo.real
    rw [Coo.new_mapV _ ha]
    rfl
  · unfold Coo.imag
    rw [Coo.new_mapV _ ha]
    rfl
  · unfold Coo.h
    rw [hc]
    rfl
  · unfold Coo.h
    rw [Coo.conj_ok ht.1]
    show Except.ok _ = _
    simp [Coo.mapV, Coo.transpose, Cx.conj_comp_conj]

/-- C46. `with_real` and `with_imag` build the complex matrices `re` and `i * im`, and any valid complex CSR matrix is
`with_real(real) + with_imag(imag)`, computed with the crate's own `+`. -/
theorem C46_real_plus_imag [AddCommGroup F] [DecidableEq F] (t : IntTy) :
    (∀ m : CSR F, m.WF t →
      (∃ r, m.with_real = .ok r ∧ r.WF t ∧ r.rows = m.rows ∧ r.cols = m.cols ∧ r.rowptr = m.rowptr ∧
        r.colidx = m.colidx ∧ (∀ i j, r.entry i j = ⟨m.entry i j, 0⟩) ∧ r.real = .ok m) ∧
      (∃ r, m.with_imag = .ok r ∧ r.WF t ∧ r.rows = m.rows ∧ r.cols = m.cols ∧ r.rowptr = m.rowptr ∧
        r.colidx = m.colidx ∧ (∀ i j, r.entry i j = ⟨0, m.entry i j⟩) ∧ r.imag = .ok m)) ∧
    (∀ a : CSR (Cx F), a.WF t → 2 * (a.stored : Int) < t.hi →
      ∃ re im cr ci s, a.real = .ok re ∧ a.imag = .ok im ∧ re.with_real = .ok cr ∧ im.with_imag = .ok ci ∧
        CSR.add t cr ci = .ok s ∧ s.WF t ∧ s.rows = a.rows ∧ s.cols = a.cols ∧
        ∀ i j, s.entry i j = a.entry i j) := by
  have hre : ∀ m : CSR F, m.WF t → m.with_real = .ok (m.mapV fun v => ⟨v, 0⟩) := by
    intro m hm
    unfold CSR.with_real
    rw [CSR.new_mapV _ hm]
    rfl
  have him : ∀ m : CSR F, m.WF t → m.with_imag = .ok (m.mapV fun v => ⟨0, v⟩) := by
    intro m hm
    unfold CSR.with_imag
    rw [CSR.new_mapV _ hm]
    rfl
  refine ⟨fun m hm => ⟨⟨_, hre m hm, CSR.mapV_wf _ hm, rfl, rfl, rfl, rfl, fun i j => CSR.mapV_entry Cx.ofReHom m i j, ?_⟩,
      ⟨_, him m hm, CSR.mapV_wf _ hm, rfl, rfl, rfl, rfl, fun i j => CSR.mapV_entry Cx.ofImHom m i j, ?_⟩⟩,
    fun a ha hsz => ?_⟩
  · unfold CSR.real
    rw [CSR.new_mapV _ (CSR.mapV_wf _ hm)]
    simp [CSR.mapV, unwrapR_ok, Function.comp_def]
  · unfold CSR.imag
    rw [CSR.new_mapV _ (CSR.mapV_wf _ hm)]
    simp [CSR.mapV, unwrapR_ok, Function.comp_def]
  · obtain ⟨re, hre1, hrew, hr1, hc1, hre2⟩ : ∃ re : CSR F, a.real = .ok re ∧ re.WF t ∧ re.rows = a.rows ∧
        re.cols = a.cols ∧ re = a.mapV Cx.re := by
      refine ⟨_, ?_, CSR.mapV_wf _ ha, rfl, rfl, rfl⟩
      unfold CSR.real
      rw [CSR.new_mapV _ ha]
      rfl
    obtain ⟨im, him1, himw, hr2, hc2, him2⟩ : ∃ im : CSR F, a.imag = .ok im ∧ im.WF t ∧ im.rows = a.rows ∧
        im.cols = a.cols ∧ im = a.mapV Cx.im := by
      refine ⟨_, ?_, CSR.mapV_wf _ ha, rfl, rfl, rfl⟩
      unfold CSR.imag
      rw [CSR.new_mapV _ ha]
      rfl
    have hst : ∀ {U V : Type} (f : U → V) (m : CSR U), (m.mapV f).stored = m.stored := by
      intro U V f m
      unfold CSR.stored CSR.row CSR.mapV
      simp [rowOf_map]
    obtain ⟨s, hs, hsw, hsr, hsc, hse, -⟩ := C15_csr_add t (re.mapV fun v => (⟨v, 0⟩ : Cx F)) (im.mapV fun v => (⟨0, v⟩ : Cx F))
      (CSR.mapV_wf _ hrew) (CSR.mapV_wf _ himw) (hr2.trans hr1.symm) (hc2.trans hc1.symm)
      (by rw [hst, hst, hre2, him2, hst, hst]; push_cast; omega)
    refine ⟨re, im, _, _, s, hre1, him1, hre re hrew, him im himw, hs, hsw, hsr.trans hr1, hsc.trans hc1, fun i j => ?_⟩
    have q1 : (re.mapV fun v => (⟨v, 0⟩ : Cx F)).entry i j = ⟨re.entry i j, 0⟩ := CSR.mapV_entry Cx.ofReHom re i j
    have q2 : (im.mapV fun v => (⟨0, v⟩ : Cx F)).entry i j = ⟨0, im.entry i j⟩ := CSR.mapV_entry Cx.ofImHom im i j
    have q3 : re.entry i j = (a.entry i j).re := by rw [hre2]; exact CSR.mapV_entry Cx.reHom a i j
    have q4 : im.entry i j = (a.entry i j).im := by rw [him2]; exact CSR.mapV_entry Cx.imHom a i j
    rw [hse, q1, q2, q3, q4]
    exact Cx.ext' (add_zero _) (zero_add _)

/-- a complex matrix with a duplicate entry, entries of all signs and unused trailing storage -/
def exCx : CSR (Cx Int) := ⟨2, 3, [0, 3, 4], [2, 0, 2, 1, 1], [⟨1, -2⟩, ⟨0, 3⟩, ⟨4, 5⟩, ⟨-6, 0⟩, ⟨9, 9⟩]⟩
/-- the coordinate form of such a matrix -/
def exCxCoo : Coo (Cx Int) := ⟨2, 3, [0, 0, 1], [2, 0, 1], [⟨1, -2⟩, ⟨0, 3⟩, ⟨-6, 0⟩]⟩

example : exCx.WF .u8 ∧ 2 * (exCx.stored : Int) < IntTy.u8.hi ∧ exCx.entry 0 2 = ⟨5, 3⟩ ∧
    (⟨3, 2, exCx.colidx, exCx.rowptr, exCx.values⟩ : CSC (Cx Int)).WF .u8 ∧ exCxCoo.WF .u8 ∧
    (∃ r, exCx.h = .ok r ∧ r.entry 2 0 = ⟨5, -3⟩) :=
  ⟨CSR.wf_of (by decide), by decide, by decide, CSC.wf_of (by decide), Coo.wf_of (by decide), ⟨_, rfl, by decide⟩⟩

end
end Sparse

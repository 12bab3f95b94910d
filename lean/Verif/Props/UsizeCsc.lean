import Verif.Props.Usize
import Verif.Props.Capacity
import Verif.Lemmas.UsizeCsc
/-!
Machine words (C83, C84), second part: the column format, the conversions between the compressed formats, three blocks, and composing
compressed matrices.
-/
namespace Sparse

/-- a CSC value on a machine with word `u` -/
structure CSC.On {T : Type} (u : Usz) (a : CSC T) : Prop where
  rows : a.rows ≤ u.max
  cols : a.cols ≤ u.max
  colptr : a.colptr.length ≤ u.max
  rowidx : a.rowidx.length ≤ u.max
  values : a.values.length ≤ u.max

section
variable {T : Type}

/-- C83: `CSC::new` has the outcome it has with unbounded numbers, unless the number of columns is `usize::MAX`. -/
theorem C83_csc_new (u : Usz) (rows cols : Nat) (j p : List Int) (x : List T) (h : cols < u.max) :
    CSC.newU u rows cols j p x = CSC.new rows cols j p x := cscNewU_eq h ..

/-- C83: the transposes, unless a dimension is `usize::MAX`. -/
theorem C83_transpose (u : Usz) :
    (∀ a : CSR T, a.rows < u.max → a.transposeU u = a.transpose) ∧ (∀ a : CSC T, a.cols < u.max → a.transposeU u = a.transpose) := by
  refine ⟨fun a h => ?_, fun a h => ?_⟩
  · unfold CSR.transposeU CSR.transpose
    rw [cscNewU_eq h]
  · unfold CSC.transposeU CSC.transpose
    rw [newU_eq h]

/-- C83: the product of valid matrices in the column format, when the result fits in memory. -/
theorem C83_csc_product [Zero T] [Add T] [Mul T] [BEq T] (u : Usz) (isz sz : Nat) (t : IntTy) (a b : CSC T)
    (ha : a.WF t) (hb : b.WF t) (hua : a.On u) (hub : b.On u) (hd : b.rows = a.cols) (hisz : 0 < isz)
    (hcols : isz * (b.cols + 1) ≤ u.imax) (hi : isz * a.productSlots b ≤ u.imax) (hv : sz * a.productSlots b ≤ u.imax) :
    a.mat_matU u isz sz t b = a.mat_mat t b := by
  have hma : ∀ i < b.cols, ∀ e ∈ b.col i, 0 ≤ e.1 ∧ e.1 < (a.cols : Nat) := by
    intro i hi e he
    have := CSC.WF.mem hb hi he
    omega
  have hs := CSR.productSlots_eq (t := t) (a := b.asCSR) (b := a.asCSR) hb ha hd
  rw [← CSC.productSlots_asCSR] at hs
  have h1 := maxnnz_ok (nc := a.rows) (CSC.WF.rep hb) (CSC.WF.rep ha) hma (fun i hi e he => by have := CSC.WF.mem ha hi he; omega)
  replace h1 := h1.trans (congrArg Except.ok hs.symm)
  have him := imax_le u
  have h2 : b.cols + 1 ≤ isz * (b.cols + 1) := Nat.le_mul_of_pos_left _ hisz
  have h3 : a.productSlots b ≤ isz * a.productSlots b := Nat.le_mul_of_pos_left _ hisz
  refine csc_mat_matU_eq (by omega) hcols hua.rows hua.colptr (fun k hk' => ?_) ⟨_, h1⟩
  rw [h1] at hk'
  cases hk'
  exact ⟨by omega, hi, hv⟩

/-- C83: `Coo::to_csc`, when the column pointers fit in memory. -/
theorem C83_to_csc [Zero T] [Add T] (u : Usz) (isz : Nat) (t : IdxTy) (a : Coo T) (hr : a.cols < u.max)
    (hi : isz * (a.cols + 1) ≤ u.imax) : Coo.to_cscU u isz t a = a.to_csc t := to_cscU_eq hr hi

/-- C83: the conversions between the compressed formats of valid matrices, when the pointers and the stored entries fit in memory. -/
theorem C83_convert [Zero T] (u : Usz) (isz sz : Nat) (t : IntTy) :
    (∀ a : CSR T, a.WF t → a.cols < u.max → isz * (a.cols + 1) ≤ u.imax → isz * a.stored ≤ u.imax → sz * a.stored ≤ u.imax →
      a.to_cscU u isz sz t = a.to_csc t) ∧
    (∀ a : CSC T, a.WF t → a.rows < u.max → isz * (a.rows + 1) ≤ u.imax → isz * a.stored ≤ u.imax → sz * a.stored ≤ u.imax →
      a.to_csrU u isz sz t = a.to_csr t) := by
  refine ⟨fun a ha hr hi h1 h2 => csr_to_cscU_eq hr hi fun n hn => ?_, fun a ha hr hi h1 h2 => csc_to_csrU_eq hr hi fun n hn => ?_⟩
  · rw [CSR.nnz_ok ha.rep, ← ha.stored_eq] at hn
    cases hn
    exact ⟨h1, h2⟩
  · rw [CSC.nnz_ok (CSC.WF.rep ha), ← CSC.WF.stored_eq ha] at hn
    cases hn
    exact ⟨h1, h2⟩

/-- C83: stacking three blocks, when the dimension of the result is a value of `usize`. -/
theorem C83_stack3 (u : Usz) (t : IdxTy) (a b c : Coo T) :
    (a.rows + b.rows + c.rows ≤ u.max → Coo.v_stack3U u t a b c = Coo.v_stack3 t a b c) ∧
    (a.cols + b.cols + c.cols ≤ u.max → Coo.h_stack3U u t a b c = Coo.h_stack3 t a b c) := ⟨v_stack3U_eq, h_stack3U_eq⟩

/-- C83: composing nine blocks, when the dimensions of the result are values of `usize`. -/
theorem C83_compose3 (u : Usz) (t : IdxTy) (a b c d e f g h i : Coo T) (h1 : a.cols + b.cols + c.cols ≤ u.max)
    (h2 : d.cols + e.cols + f.cols ≤ u.max) (h3 : g.cols + h.cols + i.cols ≤ u.max) (h4 : a.rows + d.rows + g.rows ≤ u.max) :
    Coo.compose3U u t a b c d e f g h i = Coo.compose3 t a b c d e f g h i := compose3U_eq h1 h2 h3 h4

/-- C83: `CSR::h_stack`, when the columns are a value of `usize` and the row pointers fit in memory. -/
theorem C83_csr_h_stack [Zero T] [Add T] (u : Usz) (isz : Nat) (t : IdxTy) (a b : CSR T) (h1 : a.cols + b.cols ≤ u.max) (hr : a.rows < u.max)
    (hi : isz * (a.rows + 1) ≤ u.imax) : CSR.h_stackU u isz t a b = CSR.h_stack t a b := csr_h_stackU_eq h1 hr hi

/-- C83: composing four matrices in the column format. -/
theorem C83_csc_compose [Zero T] [Add T] (u : Usz) (isz : Nat) (t : IdxTy) (a b c d : CSC T) (h1 : a.cols + b.cols < u.max)
    (h2 : c.cols + d.cols ≤ u.max) (h3 : a.rows + c.rows ≤ u.max) (hi : isz * (a.cols + b.cols + 1) ≤ u.imax) :
    CSC.composeU u isz t a b c d = CSC.compose t a b c d := csc_composeU_eq h1 h2 h3 hi

/-- C84, builds with overflow checks: stacking and composing more blocks return only what they would return with unbounded numbers. -/
theorem C84_checked_blocks [Zero T] [Add T] (u : Usz) (hu : u.wraps = false) (isz : Nat) (t : IdxTy) :
    (∀ a b c : Coo T, ReturnsAs (Coo.v_stack3U u t a b c) (Coo.v_stack3 t a b c) ∧ ReturnsAs (Coo.h_stack3U u t a b c) (Coo.h_stack3 t a b c)) ∧
    (∀ a b c d e f g h i : Coo T, ReturnsAs (Coo.compose3U u t a b c d e f g h i) (Coo.compose3 t a b c d e f g h i)) ∧
    (∀ a b : CSR T, a.On u → ReturnsAs (CSR.h_stackU u isz t a b) (CSR.h_stack t a b)) ∧
    (∀ a b c d : CSC T, ReturnsAs (CSC.composeU u isz t a b c d) (CSC.compose t a b c d)) :=
  ⟨fun _ _ _ => ⟨v_stack3U_refi hu, h_stack3U_refi hu⟩, fun _ _ _ _ _ _ _ _ _ => compose3U_refi hu, fun _ _ ha => csr_h_stackU_refi hu ha.rows,
    fun _ _ _ _ => csc_composeU_refi hu⟩

/-- C84, both build profiles: the constructor of the column format, the transposes, the conversions to and from it and its product
return only what they would return with unbounded numbers. -/
theorem C84_columns [Zero T] [Add T] [Mul T] [BEq T] (u : Usz) (isz sz : Nat) (t : IdxTy) :
    (∀ (rows cols : Nat) (j p : List Int) (x : List T), cols ≤ u.max → ReturnsAs (CSC.newU u rows cols j p x) (CSC.new rows cols j p x)) ∧
    (∀ a : CSR T, a.On u → ReturnsAs (a.transposeU u) a.transpose ∧ ReturnsAs (a.to_cscU u isz sz t) (a.to_csc t)) ∧
    (∀ a : CSC T, a.On u → ReturnsAs (a.transposeU u) a.transpose ∧ ReturnsAs (a.to_csrU u isz sz t) (a.to_csr t)) ∧
    (∀ a : Coo T, a.On u → ReturnsAs (a.to_cscU u isz t) (a.to_csc t)) ∧
    (∀ a b : CSC T, a.On u → b.On u → ReturnsAs (a.mat_matU u isz sz t b) (a.mat_mat t b)) :=
  ⟨fun _ _ _ _ _ h => cscNewU_refi h _ _ _ _,
    fun _ ha => ⟨unwrapR_refi (cscNewU_refi ha.rows _ _ _ _), csr_to_cscU_refi ha.cols⟩,
    fun _ ha => ⟨unwrapR_refi (newU_refi ha.cols _ _ _ _), csc_to_csrU_refi ha.rows⟩,
    fun _ ha => to_cscU_refi ha.cols, fun _ _ ha hb => csc_mat_matU_refi hb.cols ha.rows ha.colptr⟩

/-- C84 (false without overflow checks): stacking a matrix with `2^63` columns and an entry and another matrix with `2^63` columns with
`CSR::h_stack` returns a matrix without columns that stores an entry. With overflow checks the call panics. -/
theorem C84_csr_h_stack_counterexample :
    (⟨1, 2 ^ 63, [0, 1], [5], [7]⟩ : CSR Int).WF .i8 ∧ (⟨1, 2 ^ 63, [0, 0], [], []⟩ : CSR Int).WF .i8 ∧
    (∃ c, Coo.h_stackU .release64 IntTy.i8.unchecked (⟨1, 2 ^ 63, [0], [5], [7]⟩ : Coo Int) ⟨1, 2 ^ 63, [], [], []⟩ = .ok c ∧
      (⟨1, 2 ^ 63, [0, 1], [5], [7]⟩ : CSR Int).to_coo IntTy.i8.unchecked = .ok ⟨1, 2 ^ 63, [0], [5], [7]⟩ ∧ c.cols = 0 ∧ c.colidx = [5]) ∧
    CSR.h_stackU .debug64 8 IntTy.i8 (⟨1, 2 ^ 63, [0, 1], [5], [7]⟩ : CSR Int) ⟨1, 2 ^ 63, [0, 0], [], []⟩ = .error (.panic .arith) :=
  ⟨CSR.wf_of (by decide +kernel), CSR.wf_of (by decide +kernel), ⟨⟨1, 0, [0], [5], [7]⟩, by decide +kernel, by decide +kernel, rfl, rfl⟩, by decide +kernel⟩

/-! ### Examples -/

def exCscA : CSC Int := ⟨2, 3, [0, 1, 0], [0, 1, 2, 3], [1, 3, 2]⟩
def exCscB : CSC Int := ⟨3, 2, [1, 2, 0, 2], [0, 2, 4], [5, 6, 4, 7]⟩

example : exCscA.WF .i8 ∧ exCscB.WF .i8 ∧ exCscA.On .release64 ∧ exCscB.On .release64 ∧ exCscB.rows = exCscA.cols ∧
    exCscA.mat_matU .release64 8 8 IntTy.i8.unchecked exCscB = exCscA.mat_mat IntTy.i8.unchecked exCscB ∧
    (exCscA.mat_matU .debug64 8 8 IntTy.i8 exCscB).toOption.isSome ∧
    exCscA.mat_matU ⟨255, false⟩ 8 64 IntTy.i8 exCscB = .error (.panic .assert) :=
  ⟨CSC.wf_of (by decide), CSC.wf_of (by decide),
    ⟨by decide +kernel, by decide +kernel, by decide +kernel, by decide +kernel, by decide +kernel⟩,
    ⟨by decide +kernel, by decide +kernel, by decide +kernel, by decide +kernel, by decide +kernel⟩, rfl,
    by decide +kernel, by decide +kernel, by decide +kernel⟩

example : CSC.newU Usz.release64 3 1 [0, 2] [0, 2] [(5 : Int), 6] = .ok ⟨3, 1, [0, 2], [0, 2], [5, 6]⟩ ∧
    exProdA.to_cscU .release64 8 8 IntTy.i8 = .ok exCscA ∧ exCscA.to_csrU .debug64 8 8 IntTy.i8 = .ok exProdA ∧
    exProdA.transposeU .debug64 = .ok ⟨3, 2, [0, 2, 1], [0, 2, 3], [1, 2, 3]⟩ ∧
    exProdA.to_cscU ⟨31, false⟩ 8 8 IntTy.i8 = .error (.panic .assert) ∧
    Coo.v_stack3U .release64 IntTy.i8 (⟨1, 1, [0], [0], [(1 : Int)]⟩ : Coo Int) ⟨1, 1, [0], [0], [2]⟩ ⟨1, 1, [0], [0], [3]⟩ =
      .ok ⟨3, 1, [0, 1, 2], [0, 0, 0], [1, 2, 3]⟩ ∧
    Coo.v_stack3U ⟨2, false⟩ IntTy.i8 (⟨1, 1, [0], [0], [(1 : Int)]⟩ : Coo Int) ⟨1, 1, [0], [0], [2]⟩ ⟨1, 1, [0], [0], [3]⟩ =
      .error (.panic .arith) := by
  decide +kernel

end
end Sparse

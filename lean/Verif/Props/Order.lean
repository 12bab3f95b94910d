import Verif.Props.Exact
import Verif.Props.Complex
/-!
Properties C67 and C68, in the setting of C53–C58: `+`, `*` and negation are arbitrary functions and `0` an
arbitrary constant. C67 fixes the order of the sums in `diagonal` and in the products with several vectors; C68
says that the operations acting on the values one by one apply the operation to every stored value and do
nothing else.
-/
namespace Sparse

section
variable {T S F : Type}

/-! ### C67 -/

/-- C67. `CSR::diagonal`: element `i` is the sum from zero of the values stored at `(i, i)`, in storage order. -/
theorem C67_csr_diagonal [Zero T] [Add T] (t : IntTy) (a : CSR T) (ha : a.WF t) :
    a.diagonal = .ok ((List.range (min a.rows a.cols)).map fun i => sumFrom 0 (a.valuesAt i i)) := by
  unfold CSR.diagonal
  obtain ⟨r, h1, h2, h3, h4⟩ := csr_diagonal_exact (k := 0) (m := a.cols) (y := List.replicate (min a.rows a.cols) 0)
    ha.rep (fun i hi e he => (ha.mem hi he).1) (by simp) (by simp) (by simp)
  rw [h1]
  congr 1
  apply List.ext_getElem?
  intro i
  simp only [Int.neg_zero, Int.toNat_zero, Nat.sub_zero, Nat.zero_add] at h3 h4
  by_cases hi : i < min a.rows a.cols
  · rw [h3 i hi, List.getElem?_map, List.getElem?_range hi, Option.map_some]
    rfl
  · rw [h4 i (by omega), List.getElem?_eq_none (by simp; omega), List.getElem?_eq_none (by simp; omega)]

/-- C67. `CSC::diagonal`, likewise. -/
theorem C67_csc_diagonal [Zero T] [Add T] (t : IntTy) (a : CSC T) (ha : a.WF t) :
    a.diagonal = .ok ((List.range (min a.rows a.cols)).map fun i => sumFrom 0 (a.valuesAt i i)) := by
  unfold CSC.diagonal
  obtain ⟨r, h1, h2, h3, h4⟩ := csr_diagonal_exact (k := 0) (m := a.rows) (y := List.replicate (min a.rows a.cols) 0)
    ha.rep (fun i hi e he => (ha.mem hi he).1) (by simp) (by simp) (by simp)
  rw [h1]
  congr 1
  apply List.ext_getElem?
  intro i
  simp only [Int.neg_zero, Int.toNat_zero, Nat.sub_zero, Nat.zero_add] at h3 h4
  by_cases hi : i < min a.rows a.cols
  · rw [h3 i (by omega), List.getElem?_map, List.getElem?_range hi, Option.map_some]
    rfl
  · rw [h4 i (by omega), List.getElem?_eq_none (by simp; omega), List.getElem?_eq_none (by simp; omega)]

/-- C67. `Coo::diagonal`, likewise. -/
theorem C67_coo_diagonal [Zero T] [Add T] (t : IntTy) (a : Coo T) (ha : a.WF t) :
    a.diagonal = .ok ((List.range (min a.rows a.cols)).map fun i => sumFrom 0 (a.valuesAt i i)) := by
  obtain ⟨r, h1, h2⟩ := Coo.diagonal_exact ha
  rw [h1, h2]
  congr 1
  apply List.ext_getElem?
  intro i
  rw [accum_get_fold, List.getElem?_map]
  · by_cases hi : i < min a.rows a.cols
    · rw [List.getElem?_replicate, if_pos hi, List.getElem?_range hi]
      simp only [Option.map_some, Option.some.injEq]
      congr 1
      unfold valuesIn Coo.valuesAt
      rw [List.filter_map, List.map_map, List.filter_filter]
      congr 1
      apply List.filter_congr
      intro e _
      rw [Bool.eq_iff_iff]
      simp only [Bool.and_eq_true, Function.comp_apply, decide_eq_true_eq]
      omega
    · rw [List.getElem?_replicate, if_neg hi, List.getElem?_eq_none (by simp; omega)]
      simp
  · intro e he
    rw [List.mem_map] at he
    obtain ⟨f, hf, rfl⟩ := he
    exact (Coo.triples_mem ha (List.mem_of_mem_filter hf)).1.1

/-- 2×2 with the values 90, 50, −50 at (1, 1), among others -/
def exSatDiag : Coo Sat := ⟨2, 2, [1, 0, 1, 1, 1], [1, 0, 1, 0, 1], [⟨90⟩, ⟨7⟩, ⟨50⟩, ⟨3⟩, ⟨-50⟩]⟩

example : exSatDiag.WF .u8 ∧ exSatDiag.diagonal = .ok [⟨7⟩, ⟨50⟩] := ⟨Coo.wf_of (by decide), by decide⟩
example : (let a : CSR Sat := ⟨2, 2, [0, 1, 5], [0, 1, 1, 0, 1], [⟨7⟩, ⟨90⟩, ⟨50⟩, ⟨3⟩, ⟨-50⟩]⟩
    a.WF .u8 ∧ a.diagonal = .ok [⟨7⟩, ⟨50⟩]) := ⟨CSR.wf_of (by decide), by decide⟩
example : (let a : CSC Sat := ⟨2, 2, [0, 1, 1, 0, 1], [0, 1, 5], [⟨7⟩, ⟨90⟩, ⟨50⟩, ⟨3⟩, ⟨-50⟩]⟩
    a.WF .u8 ∧ a.diagonal = .ok [⟨7⟩, ⟨50⟩]) := ⟨CSC.wf_of (by decide), by decide⟩

/-- C67. `csr_diagonal` and `csc_diagonal` with an offset inside the matrix: the same on the `k`-th diagonal. -/
theorem C67_diagonal_kernels [Zero T] [Add T] (t : IntTy) (k : Int) (y : List T) :
    (∀ a : CSR T, a.WF t → (-k).toNat ≤ a.rows → k.toNat ≤ a.cols →
      y.length = min (a.rows - (-k).toNat) (a.cols - k.toNat) →
      csr_diagonal k a.rows a.cols a.rowptr a.colidx a.values y =
        .ok ((List.range y.length).map fun i => sumFrom 0 (a.valuesAt (i + (max 0 (-k)).toNat) (i + (max 0 k).toNat)))) ∧
    (∀ a : CSC T, a.WF t → (-k).toNat ≤ a.rows → k.toNat ≤ a.cols →
      y.length = min (a.rows - (-k).toNat) (a.cols - k.toNat) →
      csc_diagonal k a.rows a.cols a.colptr a.rowidx a.values y =
        .ok ((List.range y.length).map fun i => sumFrom 0 (a.valuesAt (i + (max 0 (-k)).toNat) (i + (max 0 k).toNat)))) := by
  constructor
  · intro a ha h1 h2 hy
    obtain ⟨r, g1, g2, g3, g4⟩ := csr_diagonal_exact (m := a.cols) (y := y) ha.rep
      (fun i hi e he => (ha.mem hi he).1) h1 h2 hy.ge
    rw [g1]
    congr 1
    apply List.ext_getElem?
    intro i
    by_cases hi : i < y.length
    · rw [g3 i (by omega), List.getElem?_map, List.getElem?_range hi, Option.map_some,
        show (-k).toNat + i = i + (max 0 (-k)).toNat by omega, show k.toNat + i = i + (max 0 k).toNat by omega]
      rfl
    · rw [List.getElem?_eq_none (by omega), List.getElem?_eq_none (by simp; omega)]
  · intro a ha h1 h2 hy
    unfold csc_diagonal
    obtain ⟨r, g1, g2, g3, g4⟩ := csr_diagonal_exact (k := -k) (m := a.rows) (y := y) ha.rep
      (fun i hi e he => (ha.mem hi he).1) (by simpa using h2) h1 (by rw [Int.neg_neg]; omega)
    rw [g1]
    congr 1
    apply List.ext_getElem?
    intro i
    rw [Int.neg_neg] at g3
    by_cases hi : i < y.length
    · rw [g3 i (by omega), List.getElem?_map, List.getElem?_range hi, Option.map_some,
        show (-k).toNat + i = i + (max 0 (-k)).toNat by omega, show k.toNat + i = i + (max 0 k).toNat by omega]
      rfl
    · rw [List.getElem?_eq_none (by omega), List.getElem?_eq_none (by simp; omega)]

example : exSatCsr.WF .u8 ∧ (-1 : Int).toNat ≤ exSatCsr.rows ∧ (1 : Int).toNat ≤ exSatCsr.cols ∧
    csr_diagonal 1 2 3 exSatCsr.rowptr exSatCsr.colidx exSatCsr.values [0, 0] = .ok [0, ⟨50⟩] ∧
    exSatCsc.WF .u8 ∧ csc_diagonal (-1) 3 2 exSatCsc.colptr exSatCsc.rowidx exSatCsc.values [0, 0] = .ok [0, ⟨50⟩] :=
  ⟨exSatCsr_wf, by decide, by decide, by decide, exSatCsc_wf, by decide⟩

theorem valuesIn_flatMap {α : Type} (l : List α) (f : α → List (Int × T)) (k : Int) :
    valuesIn (l.flatMap f) k = l.flatMap fun e => valuesIn (f e) k := by
  unfold valuesIn
  rw [List.filter_flatMap, List.map_flatMap]

theorem flatMap_range_single {α : Type} {i n : Nat} (h : i < n) (l : List α) :
    ((List.range n).flatMap fun c => if c = i then l else []) = l := by
  obtain ⟨k, rfl⟩ : ∃ k, n = i + 1 + k := ⟨n - (i + 1), by omega⟩
  induction k with
  | zero =>
    rw [Nat.add_zero, List.range_succ, List.flatMap_append, List.flatMap_eq_nil_iff.2, List.nil_append]
    · simp
    · intro c hc
      rw [List.mem_range] at hc
      rw [if_neg (by omega)]
  | succ k ih =>
    rw [← Nat.add_assoc, List.range_succ, List.flatMap_append, ih (by omega), List.flatMap_cons, if_neg (by omega)]
    simp

/-- C67. `csr_matvecs`: for every vector `q`, element `(i, q)` of `y` receives the products of the entries of row
`i` in storage order. -/
theorem C67_csr_matvecs [Zero T] [Add T] [Mul T] (t : IntTy) (a : CSR T) (ha : a.WF t) (nv : Nat) (x y : List T)
    (hx : nv * a.cols ≤ x.length) (hy : nv * a.rows ≤ y.length) :
    ∃ r, csr_matvecs a.rows nv a.rowptr a.colidx a.values x y = .ok r ∧ r.length = y.length ∧
      (∀ i < a.rows, ∀ q < nv, r[nv * i + q]? = y[nv * i + q]?.map fun v =>
        sumFrom v ((a.row i).map fun e => e.2 * x.getD (nv * e.1.toNat + q) 0)) ∧
      ∀ k, nv * a.rows ≤ k → r[k]? = y[k]? := by
  have hm : ∀ i < a.rows, ∀ e ∈ a.row i, 0 ≤ e.1 ∧ e.1 < a.cols := fun i hi e he =>
    ⟨(ha.mem hi he).1, (ha.mem hi he).2.1⟩
  obtain ⟨r, h1, h2⟩ := csr_matvecs_exact ha.rep hm hx hy
  have hmul : ∀ b c : Nat, b < c → nv * b + nv ≤ nv * c := by
    intro b c h
    calc nv * b + nv = nv * (b + 1) := by rw [Nat.mul_succ]
      _ ≤ nv * c := Nat.mul_le_mul_left _ h
  have hpos : ∀ e ∈ flat (fun i => (a.row i).flatMap fun e => axpyL nv e.2 x (nv * e.1.toNat) (nv * i)) a.rows,
      0 ≤ e.1 ∧ e.1 < ((nv * a.rows : Nat) : Int) := by
    intro e he
    obtain ⟨i, hi, he⟩ := mem_flat.1 he
    obtain ⟨f, hf, he⟩ := List.mem_flatMap.1 he
    have h1 := axpyL_nonneg he
    have := hmul i a.rows hi
    exact ⟨h1.1, by omega⟩
  refine ⟨r, h1, by rw [h2]; simp, fun i hi q hq => ?_, fun k hk => ?_⟩
  · rw [h2, accum_get_fold _ fun e he => (hpos e he).1]
    congr 1
    funext v
    congr 1
    rw [valuesIn_flat]
    have hone : ∀ c, (valuesIn ((a.row c).flatMap fun e => axpyL nv e.2 x (nv * e.1.toNat) (nv * c)) ((nv * i + q : Nat) : Int)) =
        if c = i then (a.row i).map (fun e => e.2 * x.getD (nv * e.1.toNat + q) 0) else [] := by
      intro c
      rw [valuesIn_flatMap]
      simp only [valuesIn_axpyL hq]
      by_cases hc : c = i
      · subst hc
        simp only [if_true]
        generalize a.row c = l
        induction l with
        | nil => rfl
        | cons e l ih => rw [List.flatMap_cons, ih]; rfl
      · simp [hc]
    simp only [hone]
    exact flatMap_range_single hi _
  · rw [h2, accum_get_fold _ fun e he => (hpos e he).1]
    rw [show valuesIn _ (k : Int) = [] from valuesIn_eq_nil fun e he => by have := hpos e he; omega]
    simp [sumFrom]

/-- C67. `csc_matvecs`: element `(i, q)` of `y` receives, column after column, the values stored for `(i, k)` in
storage order times element `(k, q)` of `x`. -/
theorem C67_csc_matvecs [Zero T] [Add T] [Mul T] (t : IntTy) (a : CSC T) (ha : a.WF t) (nv : Nat) (x y : List T)
    (hx : nv * a.cols ≤ x.length) (hy : nv * a.rows ≤ y.length) :
    ∃ r, csc_matvecs a.cols nv a.colptr a.rowidx a.values x y = .ok r ∧ r.length = y.length ∧
      (∀ i < a.rows, ∀ q < nv, r[nv * i + q]? = y[nv * i + q]?.map fun v =>
        sumFrom v ((List.range a.cols).flatMap fun k => (a.valuesAt i k).map fun w => w * x.getD (nv * k + q) 0)) ∧
      ∀ k, nv * a.rows ≤ k → r[k]? = y[k]? := by
  have hm : ∀ i < a.cols, ∀ e ∈ a.col i, 0 ≤ e.1 ∧ e.1 < a.rows := fun i hi e he =>
    ⟨(ha.mem hi he).1, (ha.mem hi he).2.1⟩
  obtain ⟨r, h1, h2⟩ := csc_matvecs_exact ha.rep hm hx hy
  have hmul : ∀ b c : Nat, b < c → nv * b + nv ≤ nv * c := by
    intro b c h
    calc nv * b + nv = nv * (b + 1) := by rw [Nat.mul_succ]
      _ ≤ nv * c := Nat.mul_le_mul_left _ h
  have hpos : ∀ e ∈ flat (fun i => (a.col i).flatMap fun e => axpyL nv e.2 x (nv * i) (nv * e.1.toNat)) a.cols,
      0 ≤ e.1 ∧ e.1 < ((nv * a.rows : Nat) : Int) := by
    intro e he
    obtain ⟨i, hi, he⟩ := mem_flat.1 he
    obtain ⟨f, hf, he⟩ := List.mem_flatMap.1 he
    have h1 := axpyL_nonneg he
    have h2 := hm i hi f hf
    have := hmul f.1.toNat a.rows (by omega)
    exact ⟨h1.1, by omega⟩
  refine ⟨r, h1, by rw [h2]; simp, fun i hi q hq => ?_, fun k hk => ?_⟩
  · rw [h2, accum_get_fold _ fun e he => (hpos e he).1]
    congr 1
    funext v
    congr 1
    rw [valuesIn_flat, List.flatMap_def, List.flatMap_def]
    congr 1
    apply List.map_congr_left
    intro c hc
    have hmc := hm c (List.mem_range.1 hc)
    rw [valuesIn_flatMap]
    simp only [valuesIn_axpyL hq]
    unfold CSC.valuesAt valuesIn
    generalize a.col c = l at hmc
    induction l with
    | nil => rfl
    | cons e l ih =>
      have := (hmc e (by simp)).1
      rw [List.flatMap_cons, ih fun f hf => hmc f (by simp [hf]), List.filter_cons]
      by_cases h : e.1 = (i : Int)
      · simp [h]
      · have : ¬ e.1.toNat = i := by omega
        simp [h, this]
  · rw [h2, accum_get_fold _ fun e he => (hpos e he).1]
    rw [show valuesIn _ (k : Int) = [] from valuesIn_eq_nil fun e he => by have := hpos e he; omega]
    simp [sumFrom]

example : exSatCsr.WF .u8 ∧ csr_matvecs 2 2 exSatCsr.rowptr exSatCsr.colidx exSatCsr.values
      [⟨1⟩, ⟨2⟩, ⟨1⟩, ⟨2⟩, ⟨1⟩, ⟨2⟩] [0, 0, 0, ⟨1⟩, ⟨9⟩] = .ok [⟨7⟩, ⟨14⟩, ⟨50⟩, 0, ⟨9⟩] ∧
    exSatCsc.WF .u8 ∧ csc_matvecs 2 2 exSatCsc.colptr exSatCsc.rowidx exSatCsc.values
      [⟨1⟩, ⟨2⟩, ⟨1⟩, ⟨2⟩] [0, 0, 0, 0, 0, ⟨1⟩, ⟨9⟩] = .ok [⟨7⟩, ⟨14⟩, 0, 0, ⟨50⟩, 0, ⟨9⟩] :=
  ⟨exSatCsr_wf, by decide, exSatCsc_wf, by decide⟩

/-! ### C68 -/

theorem CSR.valuesAt_mapV (f : T → S) (a : CSR T) (i j : Nat) : (a.mapV f).valuesAt i j = (a.valuesAt i j).map f := by
  unfold CSR.valuesAt CSR.row CSR.mapV
  rw [rowOf_map, valuesIn_map_snd]

theorem CSC.valuesAt_mapV (f : T → S) (a : CSC T) (i j : Nat) : (a.mapV f).valuesAt i j = (a.valuesAt i j).map f := by
  unfold CSC.valuesAt CSC.col CSC.mapV
  rw [rowOf_map, valuesIn_map_snd]

theorem Coo.valuesAt_mapV (f : T → S) (a : Coo T) (i j : Nat) : (a.mapV f).valuesAt i j = (a.valuesAt i j).map f := by
  unfold Coo.valuesAt
  rw [Coo.mapV_triples, List.filter_map, List.map_map, List.map_map]
  rfl

/-- C68. Multiplication of a CSR matrix by a scalar from the right and from the left. -/
theorem C68_csr_scalar [Mul T] (t : IntTy) (a : CSR T) (ha : a.WF t) (s : T) :
    (∃ r, a.mul_scalar s = .ok r ∧ r.WF t ∧ r.rows = a.rows ∧ r.cols = a.cols ∧ r.rowptr = a.rowptr ∧
      r.colidx = a.colidx ∧ ∀ i j, r.valuesAt i j = (a.valuesAt i j).map fun v => v * s) ∧
    (∃ r, CSR.scalar_mul s a = .ok r ∧ r.WF t ∧ r.rows = a.rows ∧ r.cols = a.cols ∧ r.rowptr = a.rowptr ∧
      r.colidx = a.colidx ∧ ∀ i j, r.valuesAt i j = (a.valuesAt i j).map fun v => s * v) := by
  refine ⟨⟨a.mapV (· * s), ?_, CSR.mapV_wf _ ha, rfl, rfl, rfl, rfl, CSR.valuesAt_mapV _ a⟩,
    ⟨a.mapV (s * ·), ?_, CSR.mapV_wf _ ha, rfl, rfl, rfl, rfl, CSR.valuesAt_mapV _ a⟩⟩
  · unfold CSR.mul_scalar
    rw [CSR.new_mapV _ ha]
    rfl
  · unfold CSR.scalar_mul
    rw [CSR.new_mapV _ ha]
    rfl

/-- C68. Negation in the three formats. -/
theorem C68_neg [Neg T] (t : IntTy) :
    (∀ a : CSR T, a.WF t → ∃ r, a.neg = .ok r ∧ r.WF t ∧ r.rows = a.rows ∧ r.cols = a.cols ∧ r.rowptr = a.rowptr ∧
      r.colidx = a.colidx ∧ ∀ i j, r.valuesAt i j = (a.valuesAt i j).map fun v => -v) ∧
    (∀ a : CSC T, a.WF t → ∃ r, a.neg = .ok r ∧ r.WF t ∧ r.rows = a.rows ∧ r.cols = a.cols ∧ r.rowidx = a.rowidx ∧
      r.colptr = a.colptr ∧ ∀ i j, r.valuesAt i j = (a.valuesAt i j).map fun v => -v) ∧
    (∀ a : Coo T, a.WF t → ∃ r, a.neg = .ok r ∧ r.WF t ∧ r.rows = a.rows ∧ r.cols = a.cols ∧ r.rowidx = a.rowidx ∧
      r.colidx = a.colidx ∧ ∀ i j, r.valuesAt i j = (a.valuesAt i j).map fun v => -v) := by
  refine ⟨fun a ha => ⟨a.mapV (- ·), ?_, CSR.mapV_wf _ ha, rfl, rfl, rfl, rfl, CSR.valuesAt_mapV _ a⟩,
    fun a ha => ⟨a.mapV (- ·), ?_, CSC.mapV_wf _ ha, rfl, rfl, rfl, rfl, CSC.valuesAt_mapV _ a⟩,
    fun a ha => ⟨a.mapV (- ·), ?_, Coo.mapV_wf _ ha, rfl, rfl, rfl, rfl, Coo.valuesAt_mapV _ a⟩⟩
  · unfold CSR.neg
    rw [CSR.new_mapV _ ha]
    rfl
  · unfold CSC.neg
    rw [CSC.new_mapV _ ha]
    rfl
  · unfold Coo.neg
    rw [Coo.new_mapV _ ha]
    rfl

example : exSatCsr.WF .u8 ∧ exSatCsc.WF .u8 ∧ exSatCoo.WF .u8 ∧
    (exSatCsr.mul_scalar ⟨2⟩).toOption.map (·.valuesAt 1 2) = some [⟨100⟩, ⟨100⟩, ⟨-100⟩] :=
  ⟨exSatCsr_wf, exSatCsc_wf, exSatCoo_wf, by decide⟩

/-- C68. `conj`, `real`, `imag` and `h` of complex matrices, and the complex matrices made from a real one. -/
theorem C68_complex [Zero F] [Neg F] (t : IntTy) :
    (∀ a : CSR (Cx F), a.WF t →
      (∃ r, a.conj = .ok r ∧ r.WF t ∧ r.rows = a.rows ∧ r.cols = a.cols ∧ r.rowptr = a.rowptr ∧ r.colidx = a.colidx ∧
        ∀ i j, r.valuesAt i j = (a.valuesAt i j).map fun z => ⟨z.re, -z.im⟩) ∧
      (∃ r, a.real = .ok r ∧ r.WF t ∧ r.rows = a.rows ∧ r.cols = a.cols ∧ r.rowptr = a.rowptr ∧ r.colidx = a.colidx ∧
        ∀ i j, r.valuesAt i j = (a.valuesAt i j).map fun z => z.re) ∧
      (∃ r, a.imag = .ok r ∧ r.WF t ∧ r.rows = a.rows ∧ r.cols = a.cols ∧ r.rowptr = a.rowptr ∧ r.colidx = a.colidx ∧
        ∀ i j, r.valuesAt i j = (a.valuesAt i j).map fun z => z.im) ∧
      (∃ r, a.h = .ok r ∧ r.WF t ∧ r.rows = a.cols ∧ r.cols = a.rows ∧
        ∀ i j, r.valuesAt i j = (a.valuesAt j i).map fun z => ⟨z.re, -z.im⟩)) ∧
    (∀ a : CSC (Cx F), a.WF t →
      (∃ r, a.conj = .ok r ∧ r.WF t ∧ r.rows = a.rows ∧ r.cols = a.cols ∧ r.rowidx = a.rowidx ∧ r.colptr = a.colptr ∧
        ∀ i j, r.valuesAt i j = (a.valuesAt i j).map fun z => ⟨z.re, -z.im⟩) ∧
      (∃ r, a.real = .ok r ∧ r.WF t ∧ r.rows = a.rows ∧ r.cols = a.cols ∧ r.rowidx = a.rowidx ∧ r.colptr = a.colptr ∧
        ∀ i j, r.valuesAt i j = (a.valuesAt i j).map fun z => z.re) ∧
      (∃ r, a.imag = .ok r ∧ r.WF t ∧ r.rows = a.rows ∧ r.cols = a.cols ∧ r.rowidx = a.rowidx ∧ r.colptr = a.colptr ∧
        ∀ i j, r.valuesAt i j = (a.valuesAt i j).map fun z => z.im) ∧
      (∃ r, a.h = .ok r ∧ r.WF t ∧ r.rows = a.cols ∧ r.cols = a.rows ∧
        ∀ i j, r.valuesAt i j = (a.valuesAt j i).map fun z => ⟨z.re, -z.im⟩)) ∧
    (∀ a : Coo (Cx F), a.WF t →
      (∃ r, a.conj = .ok r ∧ r.WF t ∧ r.rows = a.rows ∧ r.cols = a.cols ∧ r.rowidx = a.rowidx ∧ r.colidx = a.colidx ∧
        ∀ i j, r.valuesAt i j = (a.valuesAt i j).map fun z => ⟨z.re, -z.im⟩) ∧
      (∃ r, a.real = .ok r ∧ r.WF t ∧ r.rows = a.rows ∧ r.cols = a.cols ∧ r.rowidx = a.rowidx ∧ r.colidx = a.colidx ∧
        ∀ i j, r.valuesAt i j = (a.valuesAt i j).map fun z => z.re) ∧
      (∃ r, a.imag = .ok r ∧ r.WF t ∧ r.rows = a.rows ∧ r.cols = a.cols ∧ r.rowidx = a.rowidx ∧ r.colidx = a.colidx ∧
        ∀ i j, r.valuesAt i j = (a.valuesAt i j).map fun z => z.im) ∧
      (∃ r, a.h = .ok r ∧ r.WF t ∧ r.rows = a.cols ∧ r.cols = a.rows ∧
        ∀ i j, r.valuesAt i j = (a.valuesAt j i).map fun z => ⟨z.re, -z.im⟩)) ∧
    (∀ m : CSR F, m.WF t →
      (∃ r, m.with_real = .ok r ∧ r.WF t ∧ r.rows = m.rows ∧ r.cols = m.cols ∧ r.rowptr = m.rowptr ∧
        r.colidx = m.colidx ∧ ∀ i j, r.valuesAt i j = (m.valuesAt i j).map fun v => ⟨v, 0⟩) ∧
      (∃ r, m.with_imag = .ok r ∧ r.WF t ∧ r.rows = m.rows ∧ r.cols = m.cols ∧ r.rowptr = m.rowptr ∧
        r.colidx = m.colidx ∧ ∀ i j, r.valuesAt i j = (m.valuesAt i j).map fun v => ⟨0, v⟩)) := by
  refine ⟨fun a ha => ⟨⟨_, CSR.conj_ok ha, CSR.mapV_wf _ ha, rfl, rfl, rfl, rfl, CSR.valuesAt_mapV _ a⟩,
      ⟨a.mapV Cx.re, ?_, CSR.mapV_wf _ ha, rfl, rfl, rfl, rfl, CSR.valuesAt_mapV _ a⟩,
      ⟨a.mapV Cx.im, ?_, CSR.mapV_wf _ ha, rfl, rfl, rfl, rfl, CSR.valuesAt_mapV _ a⟩, ?_⟩,
    fun a ha => ⟨⟨_, CSC.conj_ok ha, CSC.mapV_wf _ ha, rfl, rfl, rfl, rfl, CSC.valuesAt_mapV _ a⟩,
      ⟨a.mapV Cx.re, ?_, CSC.mapV_wf _ ha, rfl, rfl, rfl, rfl, CSC.valuesAt_mapV _ a⟩,
      ⟨a.mapV Cx.im, ?_, CSC.mapV_wf _ ha, rfl, rfl, rfl, rfl, CSC.valuesAt_mapV _ a⟩, ?_⟩,
    fun a ha => ⟨⟨_, Coo.conj_ok ha, Coo.mapV_wf _ ha, rfl, rfl, rfl, rfl, Coo.valuesAt_mapV _ a⟩,
      ⟨a.mapV Cx.re, ?_, Coo.mapV_wf _ ha, rfl, rfl, rfl, rfl, Coo.valuesAt_mapV _ a⟩,
      ⟨a.mapV Cx.im, ?_, Coo.mapV_wf _ ha, rfl, rfl, rfl, rfl, Coo.valuesAt_mapV _ a⟩, ?_⟩,
    fun m hm => ⟨⟨m.mapV fun v => ⟨v, 0⟩, ?_, CSR.mapV_wf _ hm, rfl, rfl, rfl, rfl, CSR.valuesAt_mapV _ m⟩,
      ⟨m.mapV fun v => ⟨0, v⟩, ?_, CSR.mapV_wf _ hm, rfl, rfl, rfl, rfl, CSR.valuesAt_mapV _ m⟩⟩⟩
  · unfold CSR.real; rw [CSR.new_mapV _ ha]; rfl
  · unfold CSR.imag; rw [CSR.new_mapV _ ha]; rfl
  · obtain ⟨r, h1, h2, h3, h4, h5⟩ := (C53_transpose t).1 _ (CSR.mapV_wf Cx.conj ha)
    refine ⟨r, ?_, h2, h3, h4, fun i j => by rw [h5, CSR.valuesAt_mapV]; rfl⟩
    unfold CSR.h
    rw [CSR.conj_ok ha]
    exact h1
  · unfold CSC.real; rw [CSC.new_mapV _ ha]; rfl
  · unfold CSC.imag; rw [CSC.new_mapV _ ha]; rfl
  · obtain ⟨r, h1, h2, h3, h4, h5⟩ := (C53_transpose t).2.1 _ (CSC.mapV_wf Cx.conj ha)
    refine ⟨r, ?_, h2, h3, h4, fun i j => by rw [h5, CSC.valuesAt_mapV]; rfl⟩
    unfold CSC.h
    rw [CSC.conj_ok ha]
    exact h1
  · unfold Coo.real; rw [Coo.new_mapV _ ha]; rfl
  · unfold Coo.imag; rw [Coo.new_mapV _ ha]; rfl
  · obtain ⟨h2, h3, h4, h5⟩ := (C53_transpose t).2.2 _ (Coo.mapV_wf Cx.conj ha)
    refine ⟨_, ?_, h2, h3, h4, fun i j => by rw [h5, Coo.valuesAt_mapV]; rfl⟩
    unfold Coo.h
    rw [Coo.conj_ok ha]
    rfl
  · unfold CSR.with_real; rw [CSR.new_mapV _ hm]; rfl
  · unfold CSR.with_imag; rw [CSR.new_mapV _ hm]; rfl

instance : Neg Sat := ⟨fun a => Sat.clamp (-a.v)⟩

example : (exSatCsr.mapV fun v => (⟨v, v⟩ : Cx Sat)).WF .u8 ∧ (exSatCsc.mapV fun v => (⟨v, v⟩ : Cx Sat)).WF .u8 ∧
    (exSatCoo.mapV fun v => (⟨v, v⟩ : Cx Sat)).WF .u8 ∧
    ((exSatCsr.mapV fun v => (⟨v, v⟩ : Cx Sat)).conj.toOption.map fun r => (r.valuesAt 1 2).map fun z => z.im.v) =
      some [-90, -50, 50] :=
  ⟨CSR.mapV_wf _ exSatCsr_wf, CSC.mapV_wf _ exSatCsc_wf, Coo.mapV_wf _ exSatCoo_wf, by decide⟩

/-- C68. `csr_scale_rows` and `csr_scale_columns`: every stored value is multiplied from the right by the factor of
its row, or of its column. -/
theorem C68_scale [Zero T] [Mul T] (t : IntTy) (a : CSR T) (ha : a.WF t) (x : List T) :
    (a.rows ≤ x.length → ∃ v, csr_scale_rows a.rows a.rowptr a.values x = .ok v ∧ v.length = a.values.length ∧
      ({ a with values := v } : CSR T).WF t ∧
      ∀ i j, ({ a with values := v } : CSR T).valuesAt i j = (a.valuesAt i j).map fun w => w * x.getD i 0) ∧
    (a.cols ≤ x.length → ∃ v, csr_scale_columns a.rows a.rowptr a.colidx a.values x = .ok v ∧
      v.length = a.values.length ∧ ({ a with values := v } : CSR T).WF t ∧
      ∀ i j, ({ a with values := v } : CSR T).valuesAt i j = (a.valuesAt i j).map fun w => w * x.getD j 0) := by
  have hm : ∀ i < a.rows, ∀ e ∈ a.row i, 0 ≤ e.1 ∧ e.1 < a.cols := fun i hi e he =>
    ⟨(ha.mem hi he).1, (ha.mem hi he).2.1⟩
  constructor
  · intro hx
    obtain ⟨v, h1, h2, h3⟩ := csr_scale_rows_ok ha.rep hx
    refine ⟨v, h1, h2, ?_, ?_⟩
    · refine h3.wf (fun i hi e he => ?_) ?_
      · rw [List.mem_map] at he
        obtain ⟨f, hf, rfl⟩ := he
        exact ha.mem (e := f) hi hf
      · rw [flat_length_congr (S := a.row) fun i _ => by simp]
        exact ha.fits
    · intro i j
      rw [CSR.valuesAt_of_rep (a := { a with values := v }) h3, CSR.valuesAt_of_rep ha.rep]
      split
      · rw [valuesIn_map_snd (fun w => w * x.getD i 0)]
      · rfl
  · intro hx
    obtain ⟨v, h1, h2, h3⟩ := csr_scale_columns_ok ha.rep hm hx
    refine ⟨v, h1, h2, ?_, ?_⟩
    · refine h3.wf (fun i hi e he => ?_) ?_
      · rw [List.mem_map] at he
        obtain ⟨f, hf, rfl⟩ := he
        exact ha.mem (e := f) hi hf
      · rw [flat_length_congr (S := a.row) fun i _ => by simp]
        exact ha.fits
    · intro i j
      rw [CSR.valuesAt_of_rep (a := { a with values := v }) h3, CSR.valuesAt_of_rep ha.rep]
      split
      · generalize a.row i = l
        unfold valuesIn
        induction l with
        | nil => rfl
        | cons e l ih =>
          rw [List.map_cons, List.filter_cons, List.filter_cons]
          by_cases he : e.1 = (j : Int)
          · rw [if_pos (by simpa using he), if_pos (by simpa using he), List.map_cons, List.map_cons, List.map_cons, ih]
            simp [he]
          · rw [if_neg (by simpa using he), if_neg (by simpa using he), ih]
      · rfl

example : exSatCsr.WF .u8 ∧ exSatCsr.rows ≤ [⟨1⟩, ⟨2⟩, (⟨3⟩ : Sat)].length ∧ exSatCsr.cols ≤ [⟨1⟩, ⟨2⟩, (⟨3⟩ : Sat)].length :=
  ⟨exSatCsr_wf, by decide, by decide⟩

theorem coo_diag_wf {t : IntTy} {d : List T} (h : (d.length : Int) ≤ t.hi + 1) :
    (⟨d.length, d.length, (List.range d.length).map fun i : Nat => (i : Int),
      (List.range d.length).map fun i : Nat => (i : Int), d⟩ : Coo T).WF t := by
  refine ⟨by simp, by simp, ?_, ?_⟩ <;>
  · intro v hv
    simp only [List.mem_map, List.mem_range] at hv
    obtain ⟨i, hi, rfl⟩ := hv
    simp only
    omega

theorem coo_diag_valuesAt (d : List T) (i j : Nat) :
    (⟨d.length, d.length, (List.range d.length).map fun i : Nat => (i : Int),
      (List.range d.length).map fun i : Nat => (i : Int), d⟩ : Coo T).valuesAt i j =
    if i < d.length then valuesIn ((d[i]?).elim [] fun v => [((i : Int), v)]) (j : Int) else [] := by
  change valuesOf (Coo.triples _) i j = _
  rw [coo_diag_triples, valuesOf_rows]

/-- C68. `with_diagonal` in the three formats stores the given values on the diagonal, one per position, and nothing
else. -/
theorem C68_with_diagonal [Zero T] (t : IntTy) (d : List T) (h : (d.length : Int) ≤ t.hi) :
    (∃ r, CSR.with_diagonal t d = .ok r ∧ r.WF t ∧ r.rows = d.length ∧ r.cols = d.length ∧
      ∀ i j, r.valuesAt i j = if i = j then d[i]?.toList else []) ∧
    (∃ r, CSC.with_diagonal t d = .ok r ∧ r.WF t ∧ r.rows = d.length ∧ r.cols = d.length ∧
      ∀ i j, r.valuesAt i j = if i = j then d[i]?.toList else []) ∧
    (∃ r, Coo.with_diagonal t d = .ok r ∧ r.WF t ∧ r.rows = d.length ∧ r.cols = d.length ∧
      ∀ i j, r.valuesAt i j = if i = j then d[i]?.toList else []) := by
  have key : ∀ i j : Nat, (if i < d.length then valuesIn ((d[i]?).elim [] fun v => [((i : Int), v)]) (j : Int) else []) =
      if i = j then d[i]?.toList else [] := by
    intro i j
    by_cases hi : i < d.length
    · rw [if_pos hi, List.getElem?_eq_getElem hi]
      by_cases hij : i = j
      · simp [valuesIn, hij]
      · have : ¬ ((i : Int) = (j : Int)) := by omega
        simp [valuesIn, hij, this]
    · rw [if_neg hi, List.getElem?_eq_none (by omega)]
      simp
  refine ⟨?_, ?_, ?_⟩
  · refine ⟨⟨d.length, d.length, (List.range (d.length + 1)).map fun i : Nat => (i : Int),
      (List.range d.length).map fun i : Nat => (i : Int), d⟩, ?_, diag_wf t d h, rfl, rfl, fun i j => ?_⟩
    · unfold CSR.with_diagonal
      simp only
      rw [iotaM_ok t d.length (by omega), iotaM_ok t (d.length + 1) (by push_cast; omega)]
      rfl
    · rw [CSR.valuesAt_of_rep (R := fun i => (d[i]?).elim [] fun v => [((i : Int), v)]) (diag_rep d)]
      exact key i j
  · refine ⟨⟨d.length, d.length, (List.range d.length).map fun i : Nat => (i : Int),
      (List.range (d.length + 1)).map fun i : Nat => (i : Int), d⟩, ?_, diag_wf t d h, rfl, rfl, fun i j => ?_⟩
    · unfold CSC.with_diagonal
      simp only
      rw [iotaM_ok t d.length (by omega), iotaM_ok t (d.length + 1) (by push_cast; omega)]
      rfl
    · rw [CSC.valuesAt_of_rep (R := fun i => (d[i]?).elim [] fun v => [((i : Int), v)]) (diag_rep d)]
      refine (key j i).trans ?_
      by_cases hij : i = j
      · simp [hij]
      · rw [if_neg hij, if_neg (Ne.symm hij)]
  · obtain ⟨r, hr, rfl⟩ := Coo.with_diagonal_ok t d (by omega)
    refine ⟨_, hr, coo_diag_wf (by omega), rfl, rfl, fun i j => ?_⟩
    rw [coo_diag_valuesAt]
    exact key i j

/-- C68. `Coo::identity` stores a one at every position of the diagonal and nothing else; `with_size` stores
nothing. -/
theorem C68_identity [Zero T] [One T] (t : IntTy) (n m : Nat) :
    ((n : Int) ≤ t.hi + 1 → ∃ r, (Coo.identity t n : M (Coo T)) = .ok r ∧ r.WF t ∧ r.rows = n ∧ r.cols = n ∧
      ∀ i j, r.valuesAt i j = if i = j ∧ i < n then [1] else []) ∧
    (∀ i j, (CSR.with_size n m : CSR T).valuesAt i j = []) ∧ (∀ i j, (Coo.with_size n m : Coo T).valuesAt i j = []) := by
  refine ⟨fun h => ?_, fun i j => ?_, fun i j => rfl⟩
  · obtain ⟨r, hr, rfl⟩ := Coo.identity_ok (T := T) t n h
    refine ⟨_, hr, coo_diag_wf (by simpa using h), by simp, by simp, fun i j => ?_⟩
    rw [coo_diag_valuesAt, List.getElem?_replicate]
    by_cases hi : i < n
    · by_cases hij : i = j
      · simp [valuesIn, hi, hij, hij ▸ hi]
      · have : ¬ ((i : Int) = (j : Int)) := by omega
        simp [valuesIn, hi, hij, this]
    · simp [hi]
  · unfold CSR.valuesAt
    rw [show (CSR.with_size n m : CSR T).row i = [] from ?_]
    · rfl
    · unfold CSR.row rowOf CSR.with_size
      split <;> simp

example : (([⟨5⟩, 0, ⟨-7⟩] : List Sat).length : Int) ≤ IntTy.u8.hi := by decide

end
end Sparse

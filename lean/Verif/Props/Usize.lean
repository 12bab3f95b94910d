import Verif.SpecUsize
import Verif.Lemmas.Usize
import Verif.Props.Exact
import Verif.Props.Scc
import Verif.Props.Select
/-!
Machine words (C83, C84). In the rest of the model `usize` is unbounded. Here the functions whose `usize` arithmetic or whose
requests for memory can leave the machine word are compared with the unbounded ones, for every width and both build profiles.
-/
namespace Sparse

section
variable {T : Type}

/-! ### C83: with quantities that fit the machine the outcomes are the same -/

/-- C83: `CSR::new` has the outcome it has with unbounded numbers, unless the number of rows is `usize::MAX`. -/
theorem C83_new (u : Usz) (rows cols : Nat) (p j : List Int) (x : List T) (h : rows < u.max) :
    CSR.newU u rows cols p j x = CSR.new rows cols p j x := newU_eq h ..

/-- C83: `CSR::with_size` with an index of `isz` bytes. -/
theorem C83_with_size (u : Usz) (isz rows cols : Nat) (hr : rows < u.max) (hm : isz * (rows + 1) ≤ u.imax) :
    (CSR.with_sizeU u isz rows cols : M (CSR T)) = .ok (CSR.with_size rows cols) := by
  unfold CSR.with_sizeU
  rw [uadd_eq (by omega), pure_bind, ucap_eq hm]
  rfl

/-- C83: the product of valid matrices of agreeing shapes, when the result fits in memory: `isz` and `sz` are the sizes in bytes
of an index and of a value. -/
theorem C83_product [Zero T] [Add T] [Mul T] [BEq T] (u : Usz) (isz sz : Nat) (t : IntTy) (a b : CSR T)
    (ha : a.WF t) (hb : b.WF t) (hua : a.On u) (hub : b.On u) (hd : a.cols = b.rows) (hisz : 0 < isz)
    (hrows : isz * (a.rows + 1) ≤ u.imax) (hi : isz * a.productSlots b ≤ u.imax) (hv : sz * a.productSlots b ≤ u.imax) :
    a.mat_matU u isz sz t b = a.mat_mat t b := by
  have hma : ∀ i < a.rows, ∀ e ∈ a.row i, 0 ≤ e.1 ∧ e.1 < (b.rows : Nat) := by
    intro i hi e he
    have := ha.mem hi he
    omega
  have hs := CSR.productSlots_eq ha hb hd
  have h1 := maxnnz_ok (nc := b.cols) ha.rep hb.rep hma (fun i hi e he => by have := hb.mem hi he; omega)
  rw [← hs] at h1
  have him := imax_le u
  have hk : a.productSlots b ≤ isz * a.productSlots b := Nat.le_mul_of_pos_left _ hisz
  have hl := ha.len
  have := hua.rowptr
  refine mat_matU_eq (by omega) hrows hub.cols hub.rowptr (fun k hk' => ?_) ⟨_, h1⟩
  rw [h1] at hk'
  cases hk'
  exact ⟨by omega, hi, hv⟩

/-- C83: stacking, when the dimension of the result is a value of `usize`. -/
theorem C83_stack (u : Usz) (t : IdxTy) (a b : Coo T) :
    (a.rows + b.rows ≤ u.max → Coo.v_stackU u t a b = Coo.v_stack t a b) ∧
    (a.cols + b.cols ≤ u.max → Coo.h_stackU u t a b = Coo.h_stack t a b) := ⟨v_stackU_eq, h_stackU_eq⟩

/-- C83: composing four blocks, when the dimensions of the result are values of `usize`. -/
theorem C83_compose (u : Usz) (t : IdxTy) (a b c d : Coo T) (h1 : a.cols + b.cols ≤ u.max) (h2 : c.cols + d.cols ≤ u.max)
    (h3 : a.rows + c.rows ≤ u.max) : Coo.composeU u t a b c d = Coo.compose t a b c d := composeU_eq h1 h2 h3

/-- C83: `Coo::upper`, when `nnz/2 + cols` elements fit in memory. -/
theorem C83_upper (u : Usz) (isz sz : Nat) (t : IdxTy) (a : Coo T) (k : Int) (hisz : 0 < isz)
    (hi : isz * (a.nnz / 2 + a.cols) ≤ u.imax) (hv : sz * (a.nnz / 2 + a.cols) ≤ u.imax) :
    Coo.upperU u isz sz t a k = a.upper t k := by
  have him := imax_le u
  have : a.nnz / 2 + a.cols ≤ isz * (a.nnz / 2 + a.cols) := Nat.le_mul_of_pos_left _ hisz
  exact upperU_eq (by omega) hi hv

/-- C83: `Coo::from_dense`, when as many elements as the array has fit in memory (`n` is the length of the first row). -/
theorem C83_from_dense [Zero T] [BEq T] (u : Usz) (isz sz n : Nat) (t : IdxTy) (a : List (List T)) (hn : ∀ r, a[0]? = some r → r.length = n)
    (hisz : 0 < isz) (hi : isz * (a.length * n) ≤ u.imax) (hv : sz * (a.length * n) ≤ u.imax) :
    Coo.from_denseU u isz sz t a = Coo.from_dense t a := by
  have him := imax_le u
  have : a.length * n ≤ isz * (a.length * n) := Nat.le_mul_of_pos_left _ hisz
  refine from_denseU_eq fun r hr => ?_
  rw [hn r hr]
  exact ⟨by omega, hi, hv⟩

/-- C83: `Coo::to_csr`, when the row pointers fit in memory. -/
theorem C83_to_csr [Zero T] [Add T] (u : Usz) (isz : Nat) (t : IdxTy) (a : Coo T) (hr : a.rows < u.max)
    (hi : isz * (a.rows + 1) ≤ u.imax) : Coo.to_csrU u isz t a = a.to_csr t := to_csrU_eq hr hi

/-- C83: `csr_diagonal` for an offset inside the matrix (`-n_row ≤ k ≤ n_col`). -/
theorem C83_diagonal [Zero T] [Add T] (u : Usz) (k : Int) (n m : Nat) (a_p a_j : List Int) (a_x y : List T)
    (hn : n ≤ u.imax) (hm : m ≤ u.max) (h1 : -(n : Int) ≤ k) (h2 : k ≤ m) :
    csr_diagonalU u k n m a_p a_j a_x y = csr_diagonal k n m a_p a_j a_x y :=
  csr_diagonalU_eq a_p a_j a_x y (by omega) hn hm (.inr (by omega))

/-- C83: `csr_row_slice`, when the last row number computed is a value of `usize`. -/
theorem C83_row_slice (u : Usz) (fuel start stop step : Nat) (a_p a_j : List Int) (a_x : List T) (b_j : List Int) (b_x : List T)
    (hp : a_p.length ≤ u.max) (h : stop + step ≤ u.max + 1) :
    csr_row_sliceU u fuel start stop step a_p a_j a_x b_j b_x = csr_row_slice fuel start stop step a_p a_j a_x b_j b_x :=
  csr_row_sliceU_eq a_j a_x b_j b_x hp fun _ => h

/-- C83: `coo_todense` with indices inside a matrix whose number of positions is a value of `usize`. -/
theorem C83_todense [Add T] (u : Usz) (a : Coo T) (t : IntTy) (ha : a.WF t) (b : List T) (fortran : Bool) (h : a.rows * a.cols ≤ u.max) :
    coo_todenseU u a.rows a.cols a.nnz a.rowidx a.colidx a.values b fortran =
      coo_todense a.rows a.cols a.nnz a.rowidx a.colidx a.values b fortran := by
  refine coo_todenseU_eq a.values b fortran (fun k _ v hv => ?_) (fun k _ v hv => ?_) h
  · exact (ha.row v (List.mem_of_getElem? hv)).2.1
  · exact (ha.col v (List.mem_of_getElem? hv)).2.1

theorem WFptr.used {t : IntTy} {n m : Nat} {p j : List Int} {x : List T} (h : WFptr t n m p j x) {i jj : Nat} {b v : Int}
    (hi : i < n) (hb : p[i + 1]? = some b) (hlt : (jj : Int) < b) (hv : j[jj]? = some v) : v < m := by
  have h1 := h.rep.ptr (i + 1) (by omega)
  rw [hb] at h1
  have h2 := flat_length_mono (rowOf p j x) (show i + 1 ≤ n by omega)
  exact (h.idx _ jj v (h.rep.ptr n (le_refl _)) hv (by simp only [Option.some.injEq] at h1; omega)).2.1

/-- C83: products with several vectors, when the blocks of vectors fit in memory. -/
theorem C83_matvecs [Add T] [Mul T] (u : Usz) (t : IntTy) (k : Nat) (x y : List T) :
    (∀ a : CSR T, a.WF t → a.rows ≤ u.max → k * a.rows ≤ u.max → k * a.cols ≤ u.max →
      csr_matvecsU u a.rows k a.rowptr a.colidx a.values x y = csr_matvecs a.rows k a.rowptr a.colidx a.values x y) ∧
    (∀ a : CSC T, a.WF t → a.cols ≤ u.max → k * a.rows ≤ u.max → k * a.cols ≤ u.max →
      csc_matvecsU u a.cols k a.colptr a.rowidx a.values x y = csc_matvecs a.cols k a.colptr a.rowidx a.values x y) := by
  constructor
  · intro a ha hn h1 h2
    exact csr_matvecsU_eq a.values x y (fun i jj _ b v _ hb hi _ hlt hv => WFptr.used ha hi hb hlt hv) hn h1 h2
  · intro a ha hn h1 h2
    exact csc_matvecsU_eq a.values x y (fun i jj _ b v _ hb hi _ hlt hv => WFptr.used ha hi hb hlt hv) hn h1 h2

/-- C83: the strong components of a graph as in C35. -/
theorem C83_strong_components (u : Usz) (t : IntTy) (a : CSR T) (ha : a.WF t) (hsq : a.rows = a.cols) (hn : 0 < a.rows)
    (hdup : ∀ u < a.rows, (((a.row u).map (·.1)).filter fun j => decide (j ≠ (u : Int))).Nodup) (fuel : Nat) (hf : 2 * a.rows < fuel) :
    connected_components_directedU u fuel a.rows a.colidx a.rowptr = connected_components_directed fuel a.rows a.colidx a.rowptr := by
  obtain ⟨r, h, -⟩ := ccd_ok (ha.grep hsq) (fun v hv => CSR.succ_nodup ha hv (hdup v hv)) hn hf
  rw [h, connected_components_directedU_refi u _ _ _ _ _ h]

/-! ### C84: a result computed with machine words is the result computed with unbounded numbers -/

/-- C84, builds with overflow checks: on values that exist in memory, whatever a call returns it would return with unbounded
numbers. (`CSR::with_size` and the kernels included.) -/
theorem C84_checked (u : Usz) (hu : u.wraps = false) (isz sz : Nat) (t : IdxTy) :
    (∀ (rows cols : Nat) (p j : List Int) (x : List T), rows ≤ u.max → ReturnsAs (CSR.newU u rows cols p j x) (CSR.new rows cols p j x)) ∧
    (∀ rows cols : Nat, ReturnsAs (CSR.with_sizeU u isz rows cols : M (CSR T)) (.ok (CSR.with_size rows cols))) ∧
    (∀ a b : Coo T, ReturnsAs (Coo.v_stackU u t a b) (Coo.v_stack t a b) ∧ ReturnsAs (Coo.h_stackU u t a b) (Coo.h_stack t a b)) ∧
    (∀ a b c d : Coo T, ReturnsAs (Coo.composeU u t a b c d) (Coo.compose t a b c d)) ∧
    (∀ (a : Coo T) (k : Int), ReturnsAs (Coo.upperU u isz sz t a k) (a.upper t k)) ∧
    (∀ (fuel start stop step : Nat) (p j : List Int) (x : List T) (bj : List Int) (bx : List T),
      ReturnsAs (csr_row_sliceU u fuel start stop step p j x bj bx) (csr_row_slice fuel start stop step p j x bj bx)) ∧
    (∀ (n : Nat) (p j : List Int), n ≤ u.max → csr_count_diagonalsU u n p j = csr_count_diagonals n p j) := by
  refine ⟨fun _ _ _ _ _ h => newU_refi h _ _ _ _, fun _ _ => ?_, fun _ _ => ⟨v_stackU_refi hu, h_stackU_refi hu⟩,
    fun _ _ _ _ => composeU_refi hu, fun _ _ => upperU_refi, fun _ _ _ _ _ _ _ _ _ => csr_row_sliceU_refi hu,
    fun _ p j h => csr_count_diagonalsU_eq hu h p j⟩
  exact Refi.uadd hu (Refi.ucap Refi.rfl')

/-- C84, builds with overflow checks, calls that compute with the values. `k` is an `isize`. -/
theorem C84_checked_values [Zero T] [Add T] [Mul T] [BEq T] (u : Usz) (hu : u.wraps = false) (isz sz : Nat) (t : IdxTy) :
    (∀ a b : CSR T, a.On u → b.On u → ReturnsAs (a.mat_matU u isz sz t b) (a.mat_mat t b)) ∧
    (∀ a : Coo T, a.On u → ReturnsAs (a.to_csrU u isz t) (a.to_csr t)) ∧
    (∀ a : List (List T), ReturnsAs (Coo.from_denseU u isz sz t a) (Coo.from_dense t a)) ∧
    (∀ (k : Int) (n m : Nat) (p j : List Int) (x y : List T), -((u.imax : Int) + 1) ≤ k → n ≤ u.imax → m ≤ u.max →
      csr_diagonalU u k n m p j x y = csr_diagonal k n m p j x y) ∧
    (∀ (n m nnz : Nat) (i j : List Int) (x b : List T) (fortran : Bool),
      ReturnsAs (coo_todenseU u n m nnz i j x b fortran) (coo_todense n m nnz i j x b fortran)) ∧
    (∀ (n k : Nat) (p j : List Int) (a x y : List T), ReturnsAs (csr_matvecsU u n k p j a x y) (csr_matvecs n k p j a x y) ∧
      ReturnsAs (csc_matvecsU u n k p j a x y) (csc_matvecs n k p j a x y)) :=
  ⟨fun _ _ ha hb => mat_matU_refi ha.rows hb.cols hb.rowptr, fun _ ha => to_csrU_refi ha.rows, fun _ => from_denseU_refi,
    fun _ _ _ p j x y hk hn hm => csr_diagonalU_eq p j x y hk hn hm (.inl hu), fun _ _ _ _ _ _ _ _ => coo_todenseU_refi hu,
    fun _ _ _ _ _ _ _ => ⟨csr_matvecsU_refi hu, csc_matvecsU_refi hu⟩⟩

/-- C84, both build profiles: the product, conversions from coordinates and from dense arrays, `CSR::new`, `Coo::upper` and the search
for strong components return only what they would return with unbounded numbers. Missing: stacking, `CSR::with_size` and the kernels
`csr_row_slice`, `coo_todense` and `csr_diagonal` in builds without overflow checks, see the theorems below. -/
theorem C84_release_partial [Zero T] [Add T] [Mul T] [BEq T] (u : Usz) (isz sz : Nat) (t : IdxTy) :
    (∀ (rows cols : Nat) (p j : List Int) (x : List T), rows ≤ u.max → ReturnsAs (CSR.newU u rows cols p j x) (CSR.new rows cols p j x)) ∧
    (∀ a b : CSR T, a.On u → b.On u → ReturnsAs (a.mat_matU u isz sz t b) (a.mat_mat t b)) ∧
    (∀ a : Coo T, a.On u → ReturnsAs (a.to_csrU u isz t) (a.to_csr t)) ∧
    (∀ a : List (List T), ReturnsAs (Coo.from_denseU u isz sz t a) (Coo.from_dense t a)) ∧
    (∀ (a : Coo T) (k : Int), ReturnsAs (Coo.upperU u isz sz t a k) (a.upper t k)) :=
  ⟨fun _ _ _ _ _ h => newU_refi h _ _ _ _, fun _ _ ha hb => mat_matU_refi ha.rows hb.cols hb.rowptr, fun _ ha => to_csrU_refi ha.rows,
    fun _ => from_denseU_refi, fun _ _ => upperU_refi⟩

/-- C84, both build profiles: the number of positions of the product is exact, or the call panics if (and on arrays on which it
returns with unbounded numbers only if) it is larger than `usize::MAX`. -/
theorem C84_product_positions (u : Usz) (n m : Nat) (ap aj bp bj : List Int) (hn : n ≤ u.max) (hm : m ≤ u.max) (hb : bp.length ≤ u.max)
    (k : Nat) (hk : csr_matmat_maxnnz n m ap aj bp bj = .ok k) :
    (k ≤ u.max → csr_matmat_maxnnzU u n m ap aj bp bj = .ok k) ∧
    (u.max < k → ∃ p, csr_matmat_maxnnzU u n m ap aj bp bj = .error (.panic p)) := by
  rcases maxnnzU_rel (u := u) (a_p := ap) (a_j := aj) (b_j := bj) hn hm hb with ⟨h1, h2⟩ | ⟨h1, h2⟩
  · exact ⟨fun _ => by rw [h1, hk], fun h => by have := h2 k hk; omega⟩
  · exact ⟨fun h => by have := h2 k hk; omega, fun _ => h1⟩

/-- C84, without overflow checks: `csr_count_diagonals` is exact also for entries below the diagonal, on which it panics with overflow
checks (C43): the wrapped differences are as many as the exact ones. -/
theorem C84_count_diagonals (u : Usz) (hu : u.wraps = true) (t : IntTy) (a : CSR T) (ha : a.WF t) (hr : a.rows ≤ u.imax) (hc : a.cols ≤ u.imax) :
    csr_count_diagonalsU u a.rows a.rowptr a.colidx = .ok ((a.triples.map fun e => e.2.1 - e.1).toFinset.card) := by
  rw [csr_count_diagonalsU_ok hu ha.rep hr fun i hi e he => by have := ha.mem hi he; omega]
  congr 3
  unfold CSR.triples flat
  rw [List.map_flatMap]
  simp only [List.map_map]
  rfl

/-- C84, without overflow checks: the strong components of the empty graph, on which the call panics with overflow checks (C35). -/
theorem C84_empty_graph (u : Usz) (hu : u.wraps = true) (fuel : Nat) (indices indptr : List Int) :
    connected_components_directedU u fuel 0 indices indptr = .ok (0, []) := connected_components_directedU_empty hu ..

/-- two blocks of `2^63` rows (columns) and one column (row) -/
def exTall : Coo Int := ⟨2 ^ 63, 1, [5], [0], [7]⟩
def exTall0 : Coo Int := ⟨2 ^ 63, 1, [], [], []⟩
def exWide : Coo Int := ⟨1, 2 ^ 63, [0], [5], [7]⟩
def exWide0 : Coo Int := ⟨1, 2 ^ 63, [], [], []⟩

/-- C84 (false without overflow checks): stacking two valid matrices returns a matrix with a wrapped dimension that stores entries outside
its shape. With overflow checks the calls panic. -/
theorem C84_stack_counterexample :
    (exTall.WF .i8 ∧ exTall.On .release64 ∧ exTall0.WF .i8 ∧ exTall0.On .release64 ∧
      Coo.v_stackU .release64 IntTy.i8.unchecked exTall exTall0 = .ok ⟨0, 1, [5], [0], [7]⟩ ∧
      Coo.v_stackU .debug64 IntTy.i8 exTall exTall0 = .error (.panic .arith)) ∧
    (exWide.WF .i8 ∧ exWide.On .release64 ∧ exWide0.WF .i8 ∧ exWide0.On .release64 ∧
      Coo.h_stackU .release64 IntTy.i8.unchecked exWide exWide0 = .ok ⟨1, 0, [0], [5], [7]⟩ ∧
      Coo.h_stackU .debug64 IntTy.i8 exWide exWide0 = .error (.panic .arith)) ∧
    ¬ (⟨0, 1, [5], [0], [7]⟩ : Coo Int).WF .i8 ∧ ¬ (⟨1, 0, [0], [5], [7]⟩ : Coo Int).WF .i8 := by
  refine ⟨⟨⟨rfl, rfl, by decide +kernel, by decide +kernel⟩, ⟨by decide +kernel, by decide +kernel, by decide +kernel, by decide +kernel, by decide +kernel⟩,
      ⟨rfl, rfl, by decide +kernel, by decide +kernel⟩, ⟨by decide +kernel, by decide +kernel, by decide +kernel, by decide +kernel, by decide +kernel⟩,
      by decide +kernel, by decide +kernel⟩,
    ⟨⟨rfl, rfl, by decide +kernel, by decide +kernel⟩, ⟨by decide +kernel, by decide +kernel, by decide +kernel, by decide +kernel, by decide +kernel⟩,
      ⟨rfl, rfl, by decide +kernel, by decide +kernel⟩, ⟨by decide +kernel, by decide +kernel, by decide +kernel, by decide +kernel, by decide +kernel⟩,
      by decide +kernel, by decide +kernel⟩, ?_, ?_⟩
  · intro h
    have := (h.row 5 (by simp)).2.1
    simp at this
  · intro h
    have := (h.col 5 (by simp)).2.1
    simp at this

/-- C84 (false without overflow checks), for every machine, index type and pair of matrices: if the number of rows of the result is
larger than `usize::MAX` the returned matrix has `a.rows + b.rows - 2^w` rows. -/
theorem C84_stack_wraps (u : Usz) (hu : u.wraps = true) (t : IdxTy) (a b r : Coo T) (ha : a.On u) (hb : b.On u)
    (h : u.max < a.rows + b.rows) (hr : Coo.v_stackU u t a b = .ok r) : r.rows + (u.max + 1) = a.rows + b.rows := by
  have := ha.rows
  have := hb.rows
  unfold Coo.v_stackU at hr
  split at hr
  · cases hr
  · unfold Usz.add at hr
    rw [if_neg (by omega), if_pos hu] at hr
    obtain ⟨n, hn, hr⟩ := bind_okM hr
    obtain ⟨l, -, hr⟩ := bind_okM hr
    cases hn
    cases hr
    simp only
    rw [Nat.mod_eq_sub_mod (by omega), Nat.mod_eq_of_lt (by omega)]
    omega

/-- C84 (false without overflow checks): `CSR::with_size(usize::MAX, 1)` returns a matrix without row pointers, which is not valid.
With overflow checks the call panics. -/
theorem C84_with_size_counterexample (t : IntTy) :
    (CSR.with_sizeU .release64 8 (2 ^ 64 - 1) 1 : M (CSR Int)) = .ok ⟨2 ^ 64 - 1, 1, [], [], []⟩ ∧
    (CSR.with_sizeU .debug64 8 (2 ^ 64 - 1) 1 : M (CSR Int)) = .error (.panic .arith) ∧
    ¬ (⟨2 ^ 64 - 1, 1, [], [], []⟩ : CSR Int).WF t := by
  refine ⟨by decide +kernel, by decide +kernel, fun h => ?_⟩
  have := h.len
  simp at this

/-- C84 (false without overflow checks): `csr_row_slice` from row 1 to row 2 with step `usize::MAX` also copies row 0. With unbounded
numbers it copies row 1; with overflow checks it panics. -/
theorem C84_row_slice_counterexample :
    csr_row_sliceU .release64 5 1 2 (2 ^ 64 - 1) [0, 1, 2] [0, 1] [(10 : Int), 11] [] [] = .ok ([1, 0], [11, 10]) ∧
    csr_row_slice 5 1 2 (2 ^ 64 - 1) [0, 1, 2] [0, 1] [(10 : Int), 11] [] [] = .ok ([1], [11]) ∧
    csr_row_sliceU .debug64 5 1 2 (2 ^ 64 - 1) [0, 1, 2] [0, 1] [(10 : Int), 11] [] [] = .error (.panic .arith) := by
  decide +kernel

/-- C84 (false without overflow checks): `coo_todense` adds an entry at a wrong position of an array that is too short for the matrix.
With unbounded numbers the access panics, and with overflow checks the multiplication does. -/
theorem C84_todense_counterexample :
    coo_todenseU .release64 3 (2 ^ 63) 1 [2] [0] [(7 : Int)] [100] false = .ok [107] ∧
    coo_todense 3 (2 ^ 63) 1 [2] [0] [(7 : Int)] [100] false = .error (.panic .oob) ∧
    coo_todenseU .debug64 3 (2 ^ 63) 1 [2] [0] [(7 : Int)] [100] false = .error (.panic .arith) := by
  decide +kernel

/-- C84 (false without overflow checks): `csr_diagonal` with an offset to the right of the matrix returns zeros instead of panicking. -/
theorem C84_diagonal_counterexample :
    csr_diagonalU .release64 3 2 2 [0, 1, 2] [0, 1] [(10 : Int), 11] [5, 6] = .ok [0, 0] ∧
    csr_diagonal 3 2 2 [0, 1, 2] [0, 1] [(10 : Int), 11] [5, 6] = .error (.panic .arith) ∧
    csr_diagonalU .debug64 3 2 2 [0, 1, 2] [0, 1] [(10 : Int), 11] [5, 6] = .error (.panic .arith) := by
  decide +kernel

/-! ### Examples -/

def exProdA : CSR Int := ⟨2, 3, [0, 2, 3], [0, 2, 1], [1, 2, 3]⟩
def exProdB : CSR Int := ⟨3, 2, [0, 1, 2, 4], [1, 0, 0, 1], [4, 5, 6, 7]⟩

theorem exProd_slots : exProdA.productSlots exProdB = 3 := by
  rw [CSR.productSlots_eq (t := .i8) (CSR.wf_of (by decide)) (CSR.wf_of (by decide)) rfl]
  decide +kernel

example : exProdA.WF .i8 ∧ exProdB.WF .i8 ∧ exProdA.On .release64 ∧ exProdB.On .release64 ∧ exProdA.cols = exProdB.rows ∧
    8 * (exProdA.rows + 1) ≤ Usz.release64.imax ∧ 8 * exProdA.productSlots exProdB ≤ Usz.release64.imax ∧
    exProdA.mat_matU .release64 8 8 IntTy.i8.unchecked exProdB = .ok ⟨2, 2, [0, 2, 3], [0, 1, 0], [12, 18, 15]⟩ ∧
    exProdA.mat_matU .debug64 8 8 IntTy.i8 exProdB = .ok ⟨2, 2, [0, 2, 3], [0, 1, 0], [12, 18, 15]⟩ ∧
    -- an eight-bit machine without memory for the result
    exProdA.mat_matU ⟨255, false⟩ 8 64 IntTy.i8 exProdB = .error (.panic .assert) :=
  ⟨CSR.wf_of (by decide), CSR.wf_of (by decide),
    ⟨by decide +kernel, by decide +kernel, by decide +kernel, by decide +kernel, by decide +kernel⟩,
    ⟨by decide +kernel, by decide +kernel, by decide +kernel, by decide +kernel, by decide +kernel⟩, rfl,
    by decide +kernel, by rw [exProd_slots]; decide +kernel, by decide +kernel, by decide +kernel, by decide +kernel⟩

/-- a machine with eight values of `usize` cannot count the nine positions of a product of 3 x 3 matrices: both profiles panic -/
example : csr_matmat_maxnnz 3 3 [0, 1, 2, 3] [0, 0, 0] [0, 3, 3, 3] [0, 1, 2] = .ok 9 ∧
    csr_matmat_maxnnzU ⟨7, false⟩ 3 3 [0, 1, 2, 3] [0, 0, 0] [0, 3, 3, 3] [0, 1, 2] = .error (.panic .arith) ∧
    csr_matmat_maxnnzU ⟨7, true⟩ 3 3 [0, 1, 2, 3] [0, 0, 0] [0, 3, 3, 3] [0, 1, 2] = .error (.panic .assert) ∧
    csr_matmat_maxnnzU ⟨15, true⟩ 3 3 [0, 1, 2, 3] [0, 0, 0] [0, 3, 3, 3] [0, 1, 2] = .ok 9 := by
  decide +kernel

example : CSR.newU Usz.release64 1 3 [0, 2] [0, 2] [(5 : Int), 6] = .ok ⟨1, 3, [0, 2], [0, 2], [5, 6]⟩ ∧
    (CSR.with_sizeU .release64 8 3 2 : M (CSR Int)) = .ok ⟨3, 2, [0, 0, 0, 0], [], []⟩ ∧
    Coo.composeU .release64 IntTy.i8 (⟨1, 1, [0], [0], [(1 : Int)]⟩ : Coo Int) ⟨1, 2, [0], [1], [2]⟩ ⟨1, 1, [0], [0], [3]⟩ ⟨1, 2, [0], [0], [4]⟩ =
      .ok ⟨2, 3, [0, 0, 1, 1], [0, 2, 0, 1], [1, 2, 3, 4]⟩ ∧
    Coo.upperU .release64 8 8 IntTy.i8 (⟨2, 2, [0, 1], [1, 0], [(5 : Int), 6]⟩ : Coo Int) 0 = .ok ⟨2, 2, [0], [1], [5]⟩ ∧
    Coo.upperU .release64 8 8 IntTy.i8 (⟨2, 2 ^ 62, [0, 1], [1, 0], [(5 : Int), 6]⟩ : Coo Int) 0 = .error (.panic .assert) ∧
    Coo.from_denseU .debug64 8 8 IntTy.i8 [[(0 : Int), 3], [4, 0]] = .ok ⟨2, 2, [0, 1], [1, 0], [3, 4]⟩ ∧
    Coo.to_csrU .debug64 8 IntTy.i8 (⟨2, 2, [1, 0], [1, 0], [(5 : Int), 6]⟩ : Coo Int) = .ok ⟨2, 2, [0, 1, 2], [0, 1], [6, 5]⟩ ∧
    csr_row_sliceU .release64 5 0 3 2 [0, 1, 2, 3] [0, 1, 0] [(7 : Int), 8, 9] [] [] = .ok ([0, 0], [7, 9]) ∧
    csr_matvecsU .release64 2 2 [0, 1, 2] [1, 0] [(2 : Int), 3] [1, 10, 100, 1000] [0, 0, 0, 0] = .ok [200, 2000, 3, 30] := by
  decide +kernel

example : exScc.WF .u8 ∧ exScc.rows = exScc.cols ∧ 0 < exScc.rows ∧
    (∀ u < exScc.rows, (((exScc.row u).map (·.1)).filter fun j => decide (j ≠ (u : Int))).Nodup) ∧
    connected_components_directedU .release64 15 exScc.rows exScc.colidx exScc.rowptr = .ok (4, [1, 0, 2, 1, 0, 1, 3]) ∧
    connected_components_directedU .debug64 15 0 [] [0] = .error (.panic .arith) :=
  ⟨exScc_wf, by decide, by decide, by decide, by decide +kernel, by decide +kernel⟩

/-- entries on the diagonals -1, 1 and 0 -/
example : (⟨2, 2, [0, 1, 3], [1, 0, 1], [5, 6, 7]⟩ : CSR Int).WF .i8 ∧
    csr_count_diagonalsU .release64 2 [0, 1, 3] [1, 0, 1] = .ok 3 ∧
    csr_count_diagonalsU .debug64 2 [0, 1, 3] [1, 0, 1] = .error (.panic .arith) :=
  ⟨CSR.wf_of (by decide), by decide +kernel, by decide +kernel⟩

end
end Sparse

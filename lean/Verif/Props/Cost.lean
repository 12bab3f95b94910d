import Verif.Lemmas.CostScc
import Verif.Lemmas.CostLower
import Verif.Lemmas.MatMat
import Verif.Props.Scc
/-!
The running times stated in the documentation of the kernels (C80), of the product kernels (C81) and of the search for strong
components (C82). A step is an access to one array element, a round of a loop, or an element of a vector created or filled
(`Model/Cost.lean`). The bounds hold for every outcome of the call.
-/
namespace Sparse

section
variable {T : Type}

/-- C80: `coo_tocsr` is linear, `O(nnz + max(n_row, n_col))`, whatever the arrays hold. -/
theorem C80_coo_tocsr (t : IdxTy) (n_row n_col nnz : Nat) (a_i a_j : List Int) (a_x : List T) (b_p b_j : List Int) (b_x : List T)
    (hb : b_p.length = n_row + 1) :
    RunsWithin (coo_tocsrT t n_row nnz a_i a_j a_x b_p b_j b_x) (coo_tocsr t n_row nnz a_i a_j a_x b_p b_j b_x)
      13 (nnz + max n_row n_col) := by
  refine ⟨coo_tocsrT_outcome .., Nat.le_trans (coo_tocsrT_tb ..).1 ?_⟩
  rw [hb]
  omega

example : RunsWithin (coo_tocsrT .u8 2 3 [1, 0, 1] [0, 2, 2] [(5 : Int), 6, 7] [9, 9, 9] [0, 0, 0] [0, 0, 0])
      (coo_tocsr .u8 2 3 [1, 0, 1] [0, 2, 2] [(5 : Int), 6, 7] [9, 9, 9] [0, 0, 0] [0, 0, 0]) 13 6 ∧
    (coo_tocsrT .u8 2 3 [1, 0, 1] [0, 2, 2] [(5 : Int), 6, 7] [9, 9, 9] [0, 0, 0] [0, 0, 0]).steps = 58 ∧
    coo_tocsr .u8 2 3 [1, 0, 1] [0, 2, 2] [(5 : Int), 6, 7] [9, 9, 9] [0, 0, 0] [0, 0, 0] = .ok ([0, 1, 3], [2, 0, 2], [6, 5, 7]) :=
  ⟨C80_coo_tocsr .u8 2 3 3 _ _ _ _ _ _ rfl, by decide +kernel, by decide +kernel⟩

/-- C80: `coo_matvec` is linear, `O(nnz)`, whatever the arrays hold. -/
theorem C80_coo_matvec [Add T] [Mul T] (nnz : Nat) (a_i a_j : List Int) (a_x x_x y_x : List T) :
    RunsWithin (coo_matvecT nnz a_i a_j a_x x_x y_x) (coo_matvec nnz a_i a_j a_x x_x y_x) 7 nnz := by
  refine ⟨coo_matvecT_outcome .., Nat.le_trans (coo_matvecT_tb ..).1 ?_⟩
  omega

example : (coo_matvecT 2 [0, 1] [1, 0] [(3 : Int), 4] [1, 2] [0, 0]).steps = 14 ∧
    (coo_matvecT 2 [0, 1] [1, 0] [(3 : Int), 4] [1, 2] [0, 0]).outcome = .ok [6, 4] := by decide +kernel

/-- C80: `csr_tocsc` on valid pointers is linear, `O(nnz + max(n_row, n_col))`. -/
theorem C80_csr_tocsc (t : IdxTy) (n_row n_col nnz : Nat) (a_p a_j : List Int) (a_x : List T) (b_p b_i : List Int) (b_x : List T)
    (ha : Pointers n_row a_p a_j a_x) (hn : a_p[n_row]? = some (nnz : Int)) (hb : b_p.length = n_col + 1) :
    RunsWithin (csr_tocscT t n_row n_col a_p a_j a_x b_p b_i b_x) (csr_tocsc t n_row n_col a_p a_j a_x b_p b_i b_x)
      12 (nnz + max n_row n_col) := by
  refine ⟨csr_tocscT_outcome .., Nat.le_trans (csr_tocscT_tb t n_col b_p b_i b_x ha).1 ?_⟩
  rw [hb, ← ptrAt_of hn]
  simp
  omega

/-- C80: `csr_matvec` on valid pointers is linear, `O(nnz + n_row)`. -/
theorem C80_csr_matvec [Add T] [Mul T] (n_row nnz : Nat) (a_p a_j : List Int) (a_x x_x y_x : List T)
    (ha : Pointers n_row a_p a_j a_x) (hn : a_p[n_row]? = some (nnz : Int)) :
    RunsWithin (csr_matvecT n_row a_p a_j a_x x_x y_x) (csr_matvec n_row a_p a_j a_x x_x y_x) 5 (nnz + n_row) := by
  refine ⟨csr_matvecT_outcome .., Nat.le_trans (csr_matvecT_tb x_x y_x ha).1 ?_⟩
  rw [← ptrAt_of hn]
  simp
  omega

/-- C80: `csc_matvec` on valid pointers is linear, `O(nnz + n_col)`. -/
theorem C80_csc_matvec [Add T] [Mul T] (n_col nnz : Nat) (a_p a_i : List Int) (a_x x_x y_x : List T)
    (ha : Pointers n_col a_p a_i a_x) (hn : a_p[n_col]? = some (nnz : Int)) :
    RunsWithin (csc_matvecT n_col a_p a_i a_x x_x y_x) (csc_matvec n_col a_p a_i a_x x_x y_x) 6 (nnz + n_col) := by
  refine ⟨csc_matvecT_outcome .., Nat.le_trans (csc_matvecT_tb x_x y_x ha).1 ?_⟩
  rw [← ptrAt_of hn]
  simp
  omega

/-- C80: `csr_diagonal` on valid pointers is linear, `O(nnz + min(n_row, n_col))`, for every diagonal. -/
theorem C80_csr_diagonal [Zero T] [Add T] (k : Int) (n_row n_col nnz : Nat) (a_p a_j : List Int) (a_x y_x : List T)
    (ha : Pointers n_row a_p a_j a_x) (hn : a_p[n_row]? = some (nnz : Int)) :
    RunsWithin (csr_diagonalT k n_row n_col a_p a_j a_x y_x) (csr_diagonal k n_row n_col a_p a_j a_x y_x)
      4 (nnz + min n_row n_col) := by
  refine ⟨csr_diagonalT_outcome .., Nat.le_trans (csr_diagonalT_tb k y_x ha).1 ?_⟩
  rw [← ptrAt_of hn]
  simp
  omega

/-- C80: `expandptr` on valid pointers is linear, `O(nnz + n_row)`. -/
theorem C80_expandptr (t : IdxTy) (n_row nnz : Nat) (a_p a_j : List Int) (a_x : List T) (b_i : List Int)
    (ha : Pointers n_row a_p a_j a_x) (hn : a_p[n_row]? = some (nnz : Int)) :
    RunsWithin (expandptrT t n_row a_p b_i) (expandptr t n_row a_p b_i) 3 (nnz + n_row) := by
  refine ⟨expandptrT_outcome .., Nat.le_trans (expandptrT_tb t b_i ha).1 ?_⟩
  rw [← ptrAt_of hn]
  simp
  omega

/-- a matrix with an empty row, unsorted columns and a duplicate -/
theorem exCost_ptr : Pointers 3 [0, 3, 3, 5] [2, 0, 2, 1, 0] [(1 : Int), 2, 3, 4, 5] ∧
    ([0, 3, 3, 5] : List Int)[3]? = some ((5 : Nat) : Int) := by
  refine ⟨⟨rfl, rfl, ?_, ?_⟩, rfl⟩
  · intro i a b ha hb
    match i with
    | 0 => simp at ha hb; omega
    | 1 => simp at ha hb; omega
    | 2 => simp at ha hb; omega
    | i + 3 => simp at hb
  · intro c hc
    simp at hc
    subst hc
    decide

example : (csr_matvecT 3 [0, 3, 3, 5] [2, 0, 2, 1, 0] [(1 : Int), 2, 3, 4, 5] [1, 10, 100] [0, 0, 0]).steps = 35 ∧
    (csr_matvecT 3 [0, 3, 3, 5] [2, 0, 2, 1, 0] [(1 : Int), 2, 3, 4, 5] [1, 10, 100] [0, 0, 0]).outcome = .ok [402, 0, 45] ∧
    (csc_matvecT 3 [0, 3, 3, 5] [2, 0, 2, 1, 0] [(1 : Int), 2, 3, 4, 5] [1, 10, 100] [0, 0, 0]).steps = 39 ∧
    (csr_diagonalT 0 3 3 [0, 3, 3, 5] [2, 0, 2, 1, 0] [(1 : Int), 2, 3, 4, 5] [0, 0, 0]).steps = 23 ∧
    (expandptrT .u8 3 [0, 3, 3, 5] [9, 9, 9, 9, 9]).steps = 19 ∧
    (csr_tocscT .u8 3 3 [0, 3, 3, 5] [2, 0, 2, 1, 0] [(1 : Int), 2, 3, 4, 5] [9, 9, 9, 9] [0, 0, 0, 0, 0] [0, 0, 0, 0, 0]).steps = 96 := by
  decide +kernel

/-- C81: both passes of the product take `O(n_row*K² + max(n_row, n_col))` steps when no row of `A` **and no row of `B`** has more
than `K` entries, whatever the arrays hold. The documentation says "row of A and column of B", which is false
(`C81_documented_bound_false`). -/
theorem C81_product_time_partial [Zero T] [Add T] [Mul T] [BEq T] (t : IdxTy) (n_row n_col K : Nat) (a_p a_j : List Int) (a_x : List T)
    (b_p b_j : List Int) (b_x : List T) (c_p c_j : List Int) (c_x : List T) (ha : RowsLe a_p K) (hb : RowsLe b_p K) :
    RunsWithin (csr_matmatT t n_row n_col a_p a_j a_x b_p b_j b_x c_p c_j c_x)
      (csr_matmat t n_row n_col a_p a_j a_x b_p b_j b_x c_p c_j c_x) 20 (n_row * K ^ 2 + max n_row n_col) ∧
    RunsWithin (csr_matmat_maxnnzT n_row n_col a_p a_j b_p b_j) (csr_matmat_maxnnz n_row n_col a_p a_j b_p b_j)
      8 (n_row * K ^ 2 + max n_row n_col) := by
  refine ⟨⟨csr_matmatT_outcome .., Nat.le_trans (csr_matmatT_tb t n_row n_col a_j a_x b_j b_x c_p c_j c_x ha hb).1 ?_⟩,
    csr_matmat_maxnnzT_outcome .., Nat.le_trans (csr_matmat_maxnnzT_tb n_row n_col a_j b_j ha hb).1 ?_⟩
  · rw [Nat.pow_two]
    omega
  · rw [Nat.pow_two]
    omega

/-- the outer product of two vectors of length three; `K = 3` -/
example : RowsLe [0, 1, 2, 3] 3 ∧ RowsLe [0, 3] 3 ∧
    (csr_matmatT .u8 3 3 [0, 1, 2, 3] [0, 0, 0] [(1 : Int), 2, 3] [0, 3] [2, 0, 1] [4, 5, 6] [0, 0, 0, 0]
      (List.replicate 9 0) (List.replicate 9 0)).steps = 169 ∧
    (csr_matmatT .u8 3 3 [0, 1, 2, 3] [0, 0, 0] [(1 : Int), 2, 3] [0, 3] [2, 0, 1] [4, 5, 6] [0, 0, 0, 0]
      (List.replicate 9 0) (List.replicate 9 0)).outcome =
      .ok ([0, 3, 6, 9], [1, 0, 2, 1, 0, 2, 1, 0, 2], [6, 5, 4, 12, 10, 8, 18, 15, 12]) := by
  refine ⟨?_, ?_, by decide +kernel, by decide +kernel⟩
  · intro i u v hu hv
    match i with
    | 0 => simp at hu hv; omega
    | 1 => simp at hu hv; omega
    | 2 => simp at hu hv; omega
    | i + 3 => simp at hv
  · intro i u v hu hv
    match i with
    | 0 => simp at hu hv; omega
    | i + 1 => simp at hv

/-- C81: the documented bound is false. For every constant `c` there are valid operands for which no row of `A` and **no column of
`B`** has more than one entry, so that `K = 1`, the call returns, and yet it takes more than `c*(n_row*K² + max(n_row, n_col) + 1)` steps:
a column of ones times a row of ones. -/
theorem C81_documented_bound_false (t : IntTy) (c : Nat) (hc : (((2 * c + 2) * (2 * c + 2) : Nat) : Int) ≤ t.hi) :
    ∃ (n_row n_mid n_col : Nat) (a_p a_j b_p b_j c_p c_j : List Int) (a_x b_x c_x : List Int),
      WFptr t n_row n_mid a_p a_j a_x ∧ WFptr t n_mid n_col b_p b_j b_x ∧ RowsLe a_p 1 ∧ (∀ j, b_j.count j ≤ 1) ∧
      (∃ r, (csr_matmatT t n_row n_col a_p a_j a_x b_p b_j b_x c_p c_j c_x).outcome = .ok r) ∧
      c * (n_row * 1 ^ 2 + max n_row n_col + 1) < (csr_matmatT t n_row n_col a_p a_j a_x b_p b_j b_x c_p c_j c_x).steps := by
  obtain ⟨n, hn⟩ : ∃ n, n = 2 * c + 2 := ⟨_, rfl⟩
  rw [← hn] at hc
  have hnn : n ≤ n * n := by
    calc n = n * 1 := by omega
      _ ≤ n * n := Nat.mul_le_mul_left _ (by omega)
  have hg : ∀ k : Nat, k < n + 1 → ((List.range (n + 1)).map Int.ofNat)[k]? = some (k : Int) := by
    intro k hk
    simp [hk]
  have hg' : ∀ (k : Nat) (v : Int), ((List.range (n + 1)).map Int.ofNat)[k]? = some v → v = k ∧ k < n + 1 := by
    intro k v h
    have hk := lt_of_getElem?_some h
    simp only [List.length_map, List.length_range] at hk
    rw [hg k hk] at h
    cases h
    exact ⟨rfl, hk⟩
  have hA : WFptr t n 1 ((List.range (n + 1)).map Int.ofNat) (List.replicate n 0) (List.replicate n (1 : Int)) := by
    refine ⟨by simp, hg 0 (by omega), ?_, ?_, ?_⟩
    · intro i a b ha hb
      have := hg' _ _ ha
      have := hg' _ _ hb
      omega
    · intro x hx
      have := hg' _ _ hx
      simp only [List.length_replicate]
      omega
    · intro x k v _ hv _
      rw [List.getElem?_replicate] at hv
      have := t.hi_ge
      split at hv <;> cases hv
      omega
  have hB : WFptr t 1 n [0, (n : Int)] ((List.range n).map Int.ofNat) (List.replicate n (1 : Int)) := by
    refine ⟨by simp, rfl, ?_, ?_, ?_⟩
    · intro i a b ha hb
      match i with
      | 0 => simp at ha hb; omega
      | i + 1 => simp at hb
    · intro x hx
      simp at hx
      subst hx
      simp only [List.length_replicate, List.length_map, List.length_range]
      omega
    · intro x k v _ hv _
      have hk := lt_of_getElem?_some hv
      simp only [List.length_map, List.length_range] at hk
      simp [hk] at hv
      omega
  have hprod : ∀ k ≤ n, (flat (fun i => prodCols (rowOf [0, (n : Int)] ((List.range n).map Int.ofNat) (List.replicate n (1 : Int)))
      (rowOf ((List.range (n + 1)).map Int.ofNat) (List.replicate n 0) (List.replicate n (1 : Int)) i)) k).length ≤ k * n := by
    intro k hk
    induction k with
    | zero => simp
    | succ k ih =>
      have h1 := ih (by omega)
      rw [flat_length_succ, Nat.add_mul]
      refine Nat.add_le_add h1 ?_
      rw [Nat.one_mul]
      refine nodup_lt_length (pushAll_nodup List.nodup_nil _) (pushAll_mem_lt (by simp) ?_)
      intro e he
      obtain ⟨f, hf, h, hh, e1⟩ := mem_prodItems he
      have := hA.mem (by omega) hf
      have := hB.mem (by omega) hh
      rw [e1]
      omega
  have hrun := csr_matmat_exact (t := t) (cp := List.replicate (n + 1) 0) (cj := List.replicate (n * n) 0) (cx := List.replicate (n * n) (0 : Int))
    (nc := n) hA.rep hB.rep (fun i hi e he => by have := hA.mem hi he; omega) (fun i hi e he => by have := hB.mem hi he; omega)
    (by simp) rfl rfl (by simpa using hprod n (Nat.le_refl n)) (by simpa using hprod n (Nat.le_refl n)) (by have := hprod n (Nat.le_refl n); omega)
  obtain ⟨r, hr, -⟩ := hrun
  rw [← csr_matmatT_outcome] at hr
  refine ⟨n, 1, n, _, _, _, _, _, _, _, _, _, hA, hB, ?_, ?_, ⟨r, hr⟩, Nat.lt_of_lt_of_le ?_ (outer_tl t n _ _ _ _ _ _ r hr)⟩
  · intro i u v hu hv
    have := hg' _ _ hu
    have := hg' _ _ hv
    omega
  · intro j
    exact List.nodup_iff_count_le_one.1 (List.Nodup.map (fun _ _ h => Int.ofNat.inj h) List.nodup_range) j
  · rw [Nat.max_self, Nat.one_pow, Nat.mul_one]
    have h1 : c * (n + n + 1) = (2 * c) * n + c := by
      rw [Nat.mul_add, Nat.mul_one, ← Nat.two_mul, ← Nat.mul_assoc, Nat.mul_comm c 2]
    have h2 : n * n = (2 * c) * n + 2 * n := by
      rw [← Nat.add_mul, ← hn]
    omega

/-- the hypothesis holds for constants far above the one of `C81_product_time_partial` -/
example : (((2 * 1000 + 2) * (2 * 1000 + 2) : Nat) : Int) ≤ IntTy.i32.hi := by decide

/-- C82: the search for strong components takes `O(E + V)` steps, where the graph has `V` nodes and stores `E` entries: the bound
covers the depth first search with its stack, the unwinding of the components and the final labels. Partial as C35: graphs with at
least one node and no duplicate entries off the diagonal (on other graphs the search can panic). -/
theorem C82_strong_components_time_partial (t : IntTy) (a : CSR T) (ha : a.WF t) (hsq : a.rows = a.cols) (hn : 0 < a.rows)
    (hdup : ∀ u < a.rows, (((a.row u).map (·.1)).filter fun j => decide (j ≠ (u : Int))).Nodup)
    (E : Nat) (hE : a.rowptr[a.rows]? = some (E : Int)) (fuel : Nat) (hf : 2 * a.rows < fuel) :
    RunsWithin (connected_components_directedT fuel a.rows a.colidx a.rowptr)
      (connected_components_directed fuel a.rows a.colidx a.rowptr) 50 (E + a.rows) ∧
    ∃ r, connected_components_directed fuel a.rows a.colidx a.rowptr = .ok r := by
  have hG : ∀ v, v < a.rows → ((a.succ v).filter (· ≠ v)).Nodup := fun v hv => CSR.succ_nodup ha hv (hdup v hv)
  obtain ⟨r, hr, -⟩ := ccd_ok (ha.grep hsq) hG hn hf
  have ho := connected_components_directedT_outcome fuel a.rows a.colidx a.rowptr
  have hb := ccdT_rt (ha.grep hsq) hG hn hf r (ho.trans hr)
  refine ⟨⟨ho, Nat.le_trans hb ?_⟩, r, hr⟩
  have hw : ∀ k : Nat, wsum (fun v => 20 + 11 * (a.succ v).length) (List.range k) = 20 * k + 11 * (flat a.row k).length := by
    intro k
    induction k with
    | zero => simp [wsum]
    | succ k ih =>
      rw [List.range_succ, wsum_append, ih, flat_succ, wsum_cons, wsum_nil]
      simp [CSR.succ]
      omega
  rw [hw]
  have hr : Rep a.rowptr a.colidx a.values a.rows a.row := WFptr.rep ha
  have := hr.ptr a.rows (Nat.le_refl _)
  rw [hE] at this
  simp at this
  omega

example : exScc.WF .u8 ∧ exScc.rows = exScc.cols ∧ 0 < exScc.rows ∧ exScc.rowptr[exScc.rows]? = some ((10 : Nat) : Int) ∧
    (∀ u < exScc.rows, (((exScc.row u).map (·.1)).filter fun j => decide (j ≠ (u : Int))).Nodup) ∧
    (connected_components_directedT 15 exScc.rows exScc.colidx exScc.rowptr).steps = 275 :=
  ⟨exScc_wf, by decide, by decide, by decide, by decide, by decide +kernel⟩

end
end Sparse

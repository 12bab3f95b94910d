import Verif.Props.Relabel
import Verif.Props.Blocks
import Verif.Props.Moves
import Verif.Lemmas.Typed
/-!
C105: the different ways to the same data agree: reading elements, taking blocks, rows and columns, multiplying by several vectors.
-/
namespace Sparse

section
variable {T : Type}

/-- the `j`-th unit vector with `n` elements -/
def unitVec [Zero T] [One T] (n j : Nat) : List T := (List.range n).map fun k => if k = j then 1 else 0

/-- C105. Reading elements: `to_dense`, `mat_vec` of a unit vector (a column), `diagonal`, and `get` after `sum_duplicates` report the same
values; `get` without `sum_duplicates` does if the row has no repeated entry. -/
theorem C105_read [Semiring T] (t : IntTy) (a : CSR T) (ha : a.WF t) (hs : (a.stored : Int) < t.hi) :
    ∃ D b, a.to_dense = .ok D ∧ D.length = a.rows ∧ (∀ r ∈ D, r.length = a.cols) ∧ a.sum_duplicates t = .ok b ∧
      (∀ i j v, i < a.rows → j < a.cols → (b.get i j = .ok v ↔ (D.getD i []).getD j 0 = v)) ∧
      (∀ i j v, i < a.rows → j < a.cols → ((a.row i).map (·.1)).Nodup → (a.get i j = .ok v ↔ (D.getD i []).getD j 0 = v)) ∧
      (∀ j < a.cols, a.mat_vec (unitVec a.cols j) = .ok (D.map fun r => r.getD j 0)) ∧
      a.diagonal = .ok ((List.range (min a.rows a.cols)).map fun i => (D.getD i []).getD i 0) := by
  obtain ⟨b, b1, b2, b3, b4, b5, b6, -⟩ := C07_csr_sum_duplicates t a ha hs
  have hD : ∀ i j, i < a.rows → j < a.cols → ((dense a.rows a.cols a.entry).getD i []).getD j 0 = a.entry i j := by
    intro i j hi hj
    simp [dense, List.getD, hi, hj]
  refine ⟨_, b, C06_csr_to_dense t a ha, by simp [dense], by simp [dense], b1, ?_, ?_, ?_, ?_⟩
  · intro i j v hi hj
    rw [C45_csr_get_canonical_partial t b b2 b5 i j (by omega), hD i j hi hj, b6]
    simp
  · intro i j v hi hj hd
    rw [C45_csr_get_partial t a ha i j hi hd, hD i j hi hj]
    simp
  · intro j hj
    rw [(C11_csr_mat_vec t a ha _).2 (by simp [unitVec])]
    congr 1
    refine List.ext_getElem (by simp [dense]) fun i h1 h2 => ?_
    simp only [List.length_map, List.length_range] at h1
    simp only [List.getElem_map, List.getElem_range, dense]
    rw [Finset.sum_eq_single_of_mem j (Finset.mem_range.2 hj)]
    · simp [unitVec, List.getD, hj]
    · intro k hk hkj
      simp [unitVec, List.getD, Finset.mem_range.1 hk, hkj]
  · rw [C24_csr_diagonal t a ha]
    congr 1
    refine List.map_congr_left fun i hi => ?_
    rw [List.mem_range] at hi
    exact (hD i i (by omega) (by omega)).symm

/-- the numbers start, start + step, ... below stop -/
def progression (start stop step : Nat) : List Nat := (List.range ((stop - start + (step - 1)) / step)).map fun k => start + step * k

/-- C105. `csr_row_slice(start, stop, step)` is `csr_row_index` with the rows start, start + step, ... -/
theorem C105_row_slice (t : IntTy) (a : CSR T) (ha : a.WF t) (start stop step : Nat) (hn : stop ≤ a.rows) (h0 : 0 < step)
    (j0 : List Int) (x0 : List T) (fuel : Nat) (hf : stop - start < fuel) :
    csr_row_slice fuel start stop step a.rowptr a.colidx a.values j0 x0 =
      csr_row_index (progression start stop step).length (progression start stop step) a.rowptr a.colidx a.values j0 x0 := by
  have hlt : ∀ k, k < (stop - start + (step - 1)) / step ↔ start + step * k < stop := by
    intro k
    rw [← Nat.succ_le_iff, Nat.le_div_iff_mul_le h0, Nat.succ_mul, Nat.mul_comm k step]
    omega
  have e : ((List.range stop).filter fun r => decide (start ≤ r ∧ step ∣ r - start)) = progression start stop step := by
    refine List.Perm.eq_of_pairwise (le := (· < ·)) (fun a b _ _ h1 h2 => by omega)
      (List.pairwise_lt_range.filter _) ?_ ((List.perm_ext_iff_of_nodup (List.nodup_range.filter _) ?_).2 fun r => ?_)
    · unfold progression
      rw [List.pairwise_map]
      exact List.pairwise_lt_range.imp fun h => Nat.add_lt_add_left (Nat.mul_lt_mul_of_pos_left h h0) _
    · exact List.nodup_range.map fun x y h => Nat.eq_of_mul_eq_mul_left h0 (Nat.add_left_cancel h)
    · simp only [List.mem_filter, List.mem_range, decide_eq_true_eq, progression, List.mem_map, hlt]
      constructor
      · rintro ⟨h1, h2, k, hk⟩
        exact ⟨k, by omega, by omega⟩
      · rintro ⟨k, hk, rfl⟩
        exact ⟨hk, by omega, ⟨k, by omega⟩⟩
  rw [(C41_row_slice_partial t a ha start stop step hn j0 x0 fuel hf).1 h0]
  simp only [e]
  exact (C41_row_index t a ha _ (fun r hr => by
    simp only [progression, List.mem_map, List.mem_range, hlt] at hr
    obtain ⟨k, hk, rfl⟩ := hr
    omega) j0 x0).symm

/-- the numbers from lo to below hi, as indices -/
def intervalIdx (lo hi : Nat) : List Int := (List.range (hi - lo)).map fun k => ((lo + k : Nat) : Int)

theorem intervalIdx_get {lo hi k : Nat} (h : k < hi - lo) : (intervalIdx lo hi)[k]? = some ((lo + k : Nat) : Int) := by
  simp [intervalIdx, h]

theorem intervalIdx_length (lo hi : Nat) : (intervalIdx lo hi).length = hi - lo := by simp [intervalIdx]

theorem intervalIdx_lt {lo hi n : Nat} (h : hi ≤ n) : ∀ i ∈ intervalIdx lo hi, 0 ≤ i ∧ i < (n : Int) := by
  intro i hi
  simp only [intervalIdx, List.mem_map, List.mem_range] at hi
  obtain ⟨k, hk, rfl⟩ := hi
  omega

theorem intervalIdx_nodes (lo hi : Nat) : intervalIdx lo hi = nodeIdx ((List.range (hi - lo)).map (lo + ·)) := by
  unfold intervalIdx nodeIdx
  rw [List.map_map]
  rfl

/-- what a selection stores -/
theorem CSR.select_facts [AddCommMonoid T] {t : IntTy} {m : CSR T} (h1 : m.WF t) (h2 : m.Canonical) (h3 : (m.stored : Int) < t.hi)
    (h4 : (m.rows : Int) ≤ t.hi) (h5 : (m.cols : Int) ≤ t.hi) (u v : Option (List Int)) (h6 : ∀ i ∈ chosen m.rows u, 0 ≤ i ∧ i < (m.rows : Int))
    (h7 : ∀ j ∈ chosen m.cols v, 0 ≤ j ∧ j < (m.cols : Int)) (h8 : ((chosen m.cols v).length : Int) ≤ t.hi + 1)
    (h9 : (m.pickCount (chosen m.rows u) (chosen m.cols v) : Int) ≤ t.hi) :
    ∃ q, m.select t u v = .ok q ∧ q.WF t ∧ q.Canonical ∧ q.rows = (chosen m.rows u).length ∧ q.cols = (chosen m.cols v).length ∧
      q.colidx.length = q.stored ∧ q.values.length = q.stored ∧
      ∀ (r c i j : Nat), (chosen m.rows u)[r]? = some (i : Int) → (chosen m.cols v)[c]? = some (j : Int) → q.valuesAt r c = m.valuesAt i j := by
  obtain ⟨q, q1, q2, q3, q4, q5, -, -, q7, q8⟩ := C22_csr_select t m h1 h2 (h1.start_lt h3) h4 h5 u v h6 h7 h8 h9
  obtain ⟨q', q1', -, -, -, -, q9⟩ := C66_csr_select t m h1 h2 (h1.start_lt h3) h4 h5 u v h6 h7 h8 h9
  cases q1.symm.trans q1'
  exact ⟨q, q1, q2, q3, q4, q5, q7, q8, q9⟩

/-- C105. `get_csr_submatrix` of a block leaves in its output vectors the arrays of the matrix that `select` makes for the rows and columns of
the block. -/
theorem C105_submatrix [AddCommMonoid T] (t : IntTy) (a : CSR T) (ha : a.WF t) (hca : a.Canonical)
    (hs : (a.stored : Int) < t.hi) (hr : (a.rows : Int) ≤ t.hi) (hc : (a.cols : Int) ≤ t.hi) (r0 r1 c0 c1 : Nat)
    (h1 : r0 ≤ r1) (h2 : r1 ≤ a.rows) (h3 : c0 ≤ c1) (h4 : c1 ≤ a.cols) (p0 j0 : List Int) (x0 : List T) :
    ∃ q, a.select t (some (intervalIdx r0 r1)) (some (intervalIdx c0 c1)) = .ok q ∧
      get_csr_submatrix t a.rowptr a.colidx a.values r0 r1 c0 c1 p0 j0 x0 = .ok (q.rowptr, q.colidx, q.values) := by
  obtain ⟨p, j, x, s1, s2, s3, s4, s5, s6⟩ := C23_submatrix t a ha r0 r1 c0 c1 h1 h2 (by omega) h3 (by omega) p0 j0 x0
  obtain ⟨p', j', x', e1, -, e2⟩ := C66_submatrix t a ha r0 r1 c0 c1 h1 h2 (by omega) h3 (by omega) p0 j0 x0
  cases s1.symm.trans e1
  obtain ⟨q, q1, q2, q3, q4, q5, q6, q7, q8⟩ := CSR.select_facts ha hca hs hr hc (some (intervalIdx r0 r1)) (some (intervalIdx c0 c1))
    (intervalIdx_lt h2) (intervalIdx_lt h4) (by show ((intervalIdx c0 c1).length : Int) ≤ _; rw [intervalIdx_length]; omega) (by
      have := CSR.pickCount_nodes_le (a := a) (p := (List.range (r1 - r0)).map (r0 + ·)) (q := (List.range (c1 - c0)).map (c0 + ·))
        (List.nodup_range.map fun x y h => by simpa using h) (List.nodup_range.map fun x y h => by simpa using h) (by
          intro u hu
          rw [List.mem_map] at hu
          obtain ⟨k, hk, rfl⟩ := hu
          rw [List.mem_range] at hk
          omega)
      rw [← intervalIdx_nodes, ← intervalIdx_nodes] at this
      show ((a.pickCount (intervalIdx r0 r1) (intervalIdx c0 c1) : Nat) : Int) ≤ _
      omega)
  change q.rows = (intervalIdx r0 r1).length at q4
  change q.cols = (intervalIdx c0 c1).length at q5
  rw [intervalIdx_length] at q4 q5
  have hq : q = ⟨r1 - r0, c1 - c0, p, j, x⟩ := by
    refine CSR.ext_of q2 s2 q4 q5 q3.sorted ?_ q6 q7 s5 s6 fun i k => ?_
    · intro i hi
      have hi' : i < r1 - r0 := hi
      rw [s4 i hi', List.pairwise_map]
      refine (List.Pairwise.filter _ (hca.sorted (r0 + i) (by omega))).imp fun h => ?_
      show _ - _ ≤ _ - _
      omega
    · by_cases hik : i < r1 - r0 ∧ k < c1 - c0
      · rw [q8 i k _ _ (intervalIdx_get hik.1) (intervalIdx_get hik.2)]
        exact (e2 i k hik.1 hik.2).symm
      · rw [CSR.valuesAt_out q2 (by omega), CSR.valuesAt_out s2 (by show ¬ (i < r1 - r0 ∧ k < c1 - c0); exact hik)]
  subst hq
  exact ⟨_, q1, s1⟩

theorem sum_ite_countP {A : Type} (l : List A) (p : A → Bool) : (l.map fun e => if p e then 1 else 0).sum = l.countP p := by
  induction l with
  | nil => rfl
  | cons x l ih => rw [List.map_cons, List.sum_cons, ih, List.countP_cons]; omega

/-- the entries of a sorted matrix in the listed columns, counted by entry and counted by column -/
theorem CSR.count_columns {t : IntTy} {a : CSR T} (ha : a.WF t) (hca : a.Canonical) (idx : List Nat) :
    a.pickCount (chosen a.rows none) (nodeIdx idx) = (a.triples.map fun e => idx.count e.2.1.toNat).sum := by
  classical
  unfold CSR.pickCount CSR.triples chosen
  rw [List.map_map, List.map_flatMap, List.flatMap_def, List.sum_flatten, List.map_map]
  congr 1
  refine List.map_congr_left fun i hi => ?_
  rw [List.mem_range] at hi
  simp only [Function.comp_def]
  rw [List.map_map]
  show (nodeIdx idx).countP (fun j => decide (a.has (i : Int).toNat j.toNat)) = _
  rw [Int.toNat_natCast]
  induction idx with
  | nil => simp [nodeIdx, Function.comp_def]
  | cons x l ih =>
    unfold nodeIdx at ih ⊢
    rw [List.map_cons, List.countP_cons, ih]
    simp only [List.count_cons, Function.comp_def]
    rw [List.sum_map_add]
    congr 1
    have hnd := hca.noDup i hi
    rw [sum_ite_countP]
    have hcp : (a.row i).countP (fun e => x == e.1.toNat) = ((a.row i).map (·.1)).count (x : Int) := by
      rw [List.count_eq_countP, List.countP_map]
      refine List.countP_congr fun e he => ?_
      have := ha.mem hi he
      simp only [beq_iff_eq, Function.comp_apply]
      omega
    rw [hcp]
    by_cases h : a.has i x
    · obtain ⟨v, hv⟩ := h
      rw [List.count_eq_one_of_mem hnd (List.mem_map.2 ⟨_, hv, rfl⟩), if_pos (by simpa using ⟨v, hv⟩)]
    · rw [List.count_eq_zero.2, if_neg (by simpa using h)]
      intro hm
      obtain ⟨⟨y, v⟩, he, rfl⟩ := List.mem_map.1 hm
      exact h ⟨v, he⟩

theorem Ret.wr_len {l : List A} {i : Nat} {x : A} : Ret (l.wr i x) fun r => r.length = l.length := by
  intro r hr
  unfold List.wr at hr
  split at hr
  · cases hr; simp
  · cases hr

/-- the output arrays keep their size -/
theorem column_index2_len {order offs : List Int} {n : Nat} {a_j : List Int} {a_x : List T} {b_j : List Int} {b_x : List T} :
    Ret (csr_column_index2 order offs n a_j a_x b_j b_x) fun q => q.1.length = b_j.length ∧ q.2.length = b_x.length := by
  unfold csr_column_index2
  refine Ret.bind' (P := fun s : List Int × List T × Nat => s.1.length = b_j.length ∧ s.2.1.length = b_x.length) ?_ fun s hs => .pure hs
  refine Ret.forIn' _ ⟨rfl, rfl⟩ (fun i s hs => ?_) fun s hs => hs
  dsimp only
  refine Ret.bind' (P := fun _ => True) (fun _ _ => trivial) fun _ _ => ?_
  refine Ret.bind' (P := fun _ => True) (fun _ _ => trivial) fun _ _ => ?_
  refine Ret.bind' (P := fun _ => True) (fun _ _ => trivial) fun _ _ => ?_
  refine Ret.bind' (P := fun _ => True) (fun _ _ => trivial) fun off _ => ?_
  refine Ret.ite (Ret.bind' (P := fun _ => True) (fun _ _ => trivial) fun _ _ => ?_)
    (Ret.bind' (P := fun _ => True) (fun _ _ => trivial) fun _ _ => Ret.bind' (P := fun _ => True) (fun _ _ => trivial) fun _ _ => ?_)
  all_goals
    refine Ret.ite ?_ (.pure hs)
    refine Ret.bind' (P := fun _ => True) (fun _ _ => trivial) fun _ _ => ?_
    refine Ret.bind' (P := fun s : List Int × List T × Nat => s.1.length = b_j.length ∧ s.2.1.length = b_x.length) ?_ fun s hs => .pure hs
    refine Ret.forIn' _ hs (fun i s hs => ?_) fun s hs => hs
    refine Ret.bind' (P := fun _ => True) (fun _ _ => trivial) fun _ _ => ?_
    refine Ret.bind' Ret.wr_len fun _ h1 => ?_
    refine Ret.bind' Ret.wr_len fun _ h2 => ?_
    exact .pure ⟨h1.trans hs.1, h2.trans hs.2⟩

/-- C105. Columns: `csr_column_index1` and `csr_column_index2` (with the order of the requested columns and output arrays of the reported
size), sorted with `sort_indexes`, give the arrays of the matrix that `select` makes for all rows and the columns. -/
theorem C105_columns [AddCommMonoid T] (t : IntTy) (a : CSR T) (ha : a.WF t) (hca : a.Canonical)
    (hs : (a.stored : Int) < t.hi) (hr : (a.rows : Int) ≤ t.hi) (hc : (a.cols : Int) ≤ t.hi) (idx : List Nat) (hidx : ∀ j ∈ idx, j < a.cols)
    (order : List Int) (hord : IsArgsort idx order) (hn : (idx.length : Int) ≤ t.hi)
    (hfit : (((a.triples.map fun e => idx.count e.2.1.toNat).sum : Nat) : Int) ≤ t.hi) (p0 : List Int) (hp0 : p0.length = a.rows + 1) :
    ∃ off p c, csr_column_index1 t idx.length idx a.rows a.cols a.rowptr a.colidx (List.replicate a.cols 0) p0 = .ok (off, p) ∧
      p[a.rows]? = some ((c : Nat) : Int) ∧
      ∀ (j0 : List Int) (x0 : List T), j0.length = c → x0.length = c →
        ∃ j x q, csr_column_index2 order off a.stored a.colidx a.values j0 x0 = .ok (j, x) ∧
          (⟨a.rows, idx.length, p, j, x⟩ : CSR T).sort_indexes = .ok q ∧ a.select t none (some (nodeIdx idx)) = .ok q := by
  obtain ⟨off, p, c, e1, e2, e3, e4⟩ := C42_column_index t a ha idx hidx order hord hn hfit p0 hp0
  obtain ⟨off', p', c', f1, f2, f3⟩ := C66_column_index t a ha idx hidx order hord hn hfit p0 hp0
  cases e1.symm.trans f1
  obtain rfl : c = c' := by have := e2.symm.trans f2; simpa using this
  refine ⟨off, p, c, e1, e2, fun j0 x0 hj0 hx0 => ?_⟩
  obtain ⟨j, x, g1, g2, g3, g4⟩ := e4 j0 x0 (by omega) (by omega)
  obtain ⟨j', x', k1, k2, k3⟩ := f3 j0 x0 (by omega) (by omega)
  cases g1.symm.trans k1
  obtain ⟨q, q1, q2, q3, q4, q5, q6, -, q7, q8, -⟩ := C08_csr_sort_indexes t _ g2
  refine ⟨j, x, q, g1, q1, ?_⟩
  obtain ⟨s, s1, s2, s3, s4, s5, s6, s7, s8⟩ := CSR.select_facts ha hca hs hr hc none (some (nodeIdx idx))
    (by
      intro i hi
      simp only [chosen, List.mem_map, List.mem_range] at hi
      obtain ⟨k, hk, rfl⟩ := hi
      omega)
    (by
      intro i hi
      obtain ⟨k, hk, rfl⟩ := List.mem_map.1 (show i ∈ nodeIdx idx from hi)
      have := hidx k hk
      omega)
    (by show ((nodeIdx idx).length : Int) ≤ _; simp [nodeIdx]; omega)
    (by
      show ((a.pickCount (chosen a.rows none) (nodeIdx idx) : Nat) : Int) ≤ _
      rw [CSR.count_columns ha hca]; exact hfit)
  rw [s1]
  congr 1
  have hlen := column_index2_len _ g1
  have hst : q.stored = c := by
    rw [← g4]
    unfold CSR.stored
    rw [q3]
    exact congrArg List.sum (List.map_congr_left fun i hi => (q6 i (List.mem_range.1 hi)).1.length_eq)
  refine CSR.ext_of s2 q2 ?_ ?_ s3.sorted ?_ s6 s7 ?_ ?_ ?_
  · rw [s4, q3]; simp [chosen]
  · rw [s5, q4]; simp [chosen, nodeIdx]
  · rw [q3]; exact fun i hi => (q6 i hi).2.1
  · rw [q7, hst]; simp only at hlen ⊢; omega
  · rw [q8, hst]; simp only at hlen ⊢; omega
  · intro i k
    by_cases hik : i < a.rows ∧ k < idx.length
    · rw [s8 i k i idx[k] (by simp [chosen, hik.1]) (by simp [chosen, nodeIdx, hik.2])]
      rw [← k3 i k idx[k] (List.getElem?_eq_getElem hik.2)]
      unfold CSR.valuesAt valuesIn
      rw [(q6 i hik.1).2.2]
    · rw [CSR.valuesAt_out s2 (by rw [s4, s5]; simpa [chosen, nodeIdx] using hik), CSR.valuesAt_out q2 (by rw [q3, q4]; exact hik)]

theorem flatten_get {X : List (List T)} {n : Nat} (h : ∀ r ∈ X, r.length = n) {q : Nat} (hq : q < n) (k : Nat) :
    X.flatten[n * k + q]? = X[k]?.bind (·[q]?) := by
  induction X generalizing k with
  | nil => simp
  | cons r X ih =>
    have hr : r.length = n := h r (by simp)
    rw [List.flatten_cons]
    cases k with
    | zero => rw [List.getElem?_append_left (by omega)]; simp
    | succ k =>
      rw [List.getElem?_append_right (by rw [Nat.mul_succ]; omega), show n * (k + 1) + q - r.length = n * k + q by rw [Nat.mul_succ]; omega,
        ih (fun r hr => h r (by simp [hr]))]
      simp

theorem flatten_len {X : List (List T)} {n : Nat} (h : ∀ r ∈ X, r.length = n) : X.flatten.length = n * X.length := by
  induction X with
  | nil => simp
  | cons r X ih =>
    rw [List.flatten_cons, List.length_append, ih (fun r hr => h r (by simp [hr])), h r (by simp), List.length_cons, Nat.mul_succ]
    omega

/-- C105. Multiplying by several vectors: `csr_matvecs` on the rows of `X` one after the other gives in column `q` what `mat_vec` gives for
column `q`, it gives the rows of the dense product of the matrix with the sparse matrix made of `X`, and `csc_matvecs` on the matrix converted
to CSC gives the same array. -/
theorem C105_matvecs [NonUnitalNonAssocSemiring T] [DecidableEq T] (t : IntTy) (a : CSR T) (ha : a.WF t) (hr : (a.rows : Int) ≤ t.hi + 1)
    (X : List (List T)) (nv : Nat) (hX : X.length = a.cols) (hrow : ∀ r ∈ X, r.length = nv) :
    ∃ r c, csr_matvecs a.rows nv a.rowptr a.colidx a.values X.flatten (List.replicate (nv * a.rows) 0) = .ok r ∧
      (∀ q < nv, ∃ y, a.mat_vec (X.map fun x => x.getD q 0) = .ok y ∧ ∀ i < a.rows, r[nv * i + q]? = y[i]?) ∧
      (X ≠ [] → (nv : Int) ≤ t.hi + 1 → (denseNnz X : Int) ≤ t.hi → ((a.rows * nv : Nat) : Int) ≤ t.hi →
        ∃ b ab D, CSR.from_dense t X = .ok b ∧ a.mat_mat t b = .ok ab ∧ ab.to_dense = .ok D ∧ D.flatten = r) ∧
      a.to_csc t = .ok c ∧ csc_matvecs c.cols nv c.colptr c.rowidx c.values X.flatten (List.replicate (nv * a.rows) 0) = .ok r := by
  have hfl : X.flatten.length = nv * a.cols := by rw [flatten_len hrow, hX]
  have hget : ∀ k q, q < nv → X.flatten.getD (nv * k + q) 0 = (X.map fun x => x.getD q 0).getD k 0 := by
    intro k q hq
    rw [List.getD_eq_getElem?_getD, List.getD_eq_getElem?_getD, flatten_get hrow hq, List.getElem?_map]
    cases hk : X[k]? with
    | none => rfl
    | some x => simp [List.getD_eq_getElem?_getD]
  obtain ⟨r, r1, r2, r3, -⟩ := C40_csr_matvecs t a ha nv X.flatten (List.replicate (nv * a.rows) 0) (by omega) (by simp)
  rw [List.length_replicate] at r2
  have hval : ∀ i < a.rows, ∀ q < nv, r[nv * i + q]? = some (∑ k ∈ Finset.range a.cols, a.entry i k * (X.map fun x => x.getD q 0).getD k 0) := by
    intro i hi q hq
    have hlt : nv * i + q < nv * a.rows := by
      calc nv * i + q < nv * i + nv := by omega
        _ = nv * (i + 1) := by rw [Nat.mul_succ]
        _ ≤ nv * a.rows := Nat.mul_le_mul_left _ hi
    rw [r3 i hi q hq, List.getElem?_replicate, if_pos hlt]
    simp only [Option.map_some, zero_add, hget _ q hq]
  have huniq : ∀ r' : List T, r'.length = nv * a.rows → (∀ i < a.rows, ∀ q < nv, r'[nv * i + q]? = r[nv * i + q]?) → r' = r := by
    intro r' h1 h2
    refine List.ext_getElem? fun k => ?_
    by_cases hk : k < nv * a.rows
    · have h0 : 0 < nv := Nat.pos_of_ne_zero fun h => by rw [h, Nat.zero_mul] at hk; omega
      have := h2 (k / nv) (Nat.div_lt_of_lt_mul hk) (k % nv) (Nat.mod_lt _ h0)
      rwa [Nat.div_add_mod] at this
    · rw [List.getElem?_eq_none (by omega), List.getElem?_eq_none (by omega)]
  obtain ⟨c, c1, c2, c3, c4, c5, -⟩ := C03_csr_to_csc t a ha hr
  refine ⟨r, c, r1, ?_, ?_, c1, ?_⟩
  · intro q hq
    refine ⟨_, (C11_csr_mat_vec t a ha _).2 (by simpa using hX), fun i hi => ?_⟩
    rw [hval i hi q hq, List.getElem?_map, List.getElem?_range hi]
    rfl
  · intro hne hn hz hf
    obtain ⟨b, b1, b2, -, b4, b5, b6, -⟩ := C33_csr_from_dense t X nv hne hrow hn hz
    obtain ⟨ab, p1, -, p2, p3, p4, p5, -⟩ := C13_csr_mat_mat t a b ha b2 (by omega) (by
      have := C13_slots_le a b
      rw [b5] at this
      omega)
    refine ⟨b, ab, _, b1, p1, C06_csr_to_dense t ab p2, ?_⟩
    have hd : ∀ x ∈ dense ab.rows ab.cols ab.entry, x.length = nv := by
      intro x hx
      simp only [dense, List.mem_map] at hx
      obtain ⟨i, -, rfl⟩ := hx
      simp; omega
    refine huniq _ (by rw [flatten_len hd]; simp [dense, p3]) fun i hi q hq => ?_
    rw [flatten_get hd hq, hval i hi q hq]
    have hbe : ∀ k < a.cols, b.entry k q = (X.map fun x => x.getD q 0).getD k 0 := by
      intro k hk
      have h1 := (C06_csr_to_dense t b b2).symm.trans b6
      have h2 : dense b.rows b.cols b.entry = X := Except.ok.inj h1
      rw [← h2]
      simp [dense, List.getD, b4, b5, hX, hk, hq]
    rw [show (dense ab.rows ab.cols ab.entry)[i]?.bind (·[q]?) = some (ab.entry i q) by simp [dense, p3, p4, b5, hi, hq], p5]
    congr 1
    exact Finset.sum_congr rfl fun k hk => by rw [hbe k (Finset.mem_range.1 hk)]
  · obtain ⟨s, s1, s2, s3, -⟩ := C40_csc_matvecs t c c2 nv X.flatten (List.replicate (nv * a.rows) 0) (by rw [c4]; omega) (by rw [c3]; simp)
    rw [List.length_replicate] at s2
    rw [s1, huniq s s2 fun i hi q hq => ?_]
    rw [s3 i (by omega) q hq, r3 i hi q hq, c4]
    simp only [c5]

/-! ### one matrix, read in all ways -/

/-- 3 by 3, sorted rows -/
def exWay : CSR Int := ⟨3, 3, [0, 2, 3, 5], [0, 2, 1, 0, 2], [5, 7, -3, 2, 4]⟩

theorem exWay_wf : exWay.WF .i8 := CSR.wf_of (by decide)

example : exWay.WF .i8 ∧ exWay.Canonical ∧ (exWay.stored : Int) < IntTy.i8.hi ∧ exWay.to_dense = .ok [[5, 0, 7], [0, -3, 0], [2, 0, 4]] ∧
    exWay.mat_vec (unitVec 3 2) = .ok [7, 0, 4] ∧ exWay.get 2 0 = .ok 2 ∧ exWay.diagonal = .ok [5, -3, 4] :=
  ⟨exWay_wf, by unfold CSR.Canonical; decide, by decide, by decide +kernel, by decide +kernel, by decide +kernel, by decide +kernel⟩

/-- a repeated entry: `get` reports the sum only after `sum_duplicates` -/
example : (⟨1, 2, [0, 3], [1, 0, 1], [5, 6, 7]⟩ : CSR Int).WF .i8 ∧
    (⟨1, 2, [0, 3], [1, 0, 1], [5, 6, 7]⟩ : CSR Int).get 0 1 = .ok 5 ∧
    (⟨1, 2, [0, 3], [1, 0, 1], [5, 6, 7]⟩ : CSR Int).to_dense = .ok [[6, 12]] :=
  ⟨CSR.wf_of (by decide), by decide +kernel, by decide +kernel⟩

example : progression 0 3 2 = [0, 2] ∧ csr_row_slice 9 0 3 2 exWay.rowptr exWay.colidx exWay.values [] [] = .ok ([0, 2, 0, 2], [5, 7, 2, 4]) ∧
    csr_row_index 2 [0, 2] exWay.rowptr exWay.colidx exWay.values [] [] = .ok ([0, 2, 0, 2], [5, 7, 2, 4]) :=
  ⟨by decide, by decide +kernel, by decide +kernel⟩

example : exWay.select .i8 (some (intervalIdx 0 2)) (some (intervalIdx 1 3)) = .ok ⟨2, 2, [0, 1, 2], [1, 0], [7, -3]⟩ ∧
    get_csr_submatrix .i8 exWay.rowptr exWay.colidx exWay.values 0 2 1 3 [] [] [] = .ok ([0, 1, 2], [1, 0], [7, -3]) :=
  ⟨by decide +kernel, by decide +kernel⟩

/-- the columns 2, 0, 2 -/
example : (∀ j ∈ [2, 0, 2], j < exWay.cols) ∧ IsArgsort [2, 0, 2] [1, 0, 2] ∧
    ((exWay.triples.map fun e => [2, 0, 2].count e.2.1.toNat).sum : Nat) = 6 ∧
    exWay.select .i8 none (some (nodeIdx [2, 0, 2])) = .ok ⟨3, 3, [0, 3, 3, 6], [0, 1, 2, 0, 1, 2], [7, 5, 7, 4, 2, 4]⟩ := by
  refine ⟨by decide, ⟨by decide, ?_⟩, by decide, by decide +kernel⟩
  simp

/-- two vectors at once -/
example : csr_matvecs 3 2 exWay.rowptr exWay.colidx exWay.values [[1, 0], [0, 2], [1, 1]].flatten (List.replicate (2 * 3) 0) =
      .ok [12, 7, 0, -6, 6, 4] ∧ exWay.mat_vec [1, 0, 1] = .ok [12, 0, 6] ∧ exWay.mat_vec [0, 2, 1] = .ok [7, -6, 4] ∧
    (denseNnz ([[1, 0], [0, 2], [1, 1]] : List (List Int)) : Int) ≤ IntTy.i8.hi :=
  ⟨by decide +kernel, by decide +kernel, by decide +kernel, by decide +kernel⟩

end

end Sparse

import Verif.Props.Symmetric
/-!
The formats agree to the last bit (C114): matrix-vector and matrix products computed in different formats, for scalars of which
nothing is assumed (for the matrix product only that multiplication commutes).
-/
namespace Sparse

section
variable {T : Type}

theorem sorted_split {s : Int} : ∀ {l : List (Int × T)}, (l.Pairwise fun e f => e.1 ≤ f.1) → (∀ e ∈ l, s ≤ e.1) →
    (l.filter fun e => decide (e.1 = s)) ++ (l.filter fun e => decide (e.1 ≠ s)) = l := by
  intro l
  induction l with
  | nil => intros; rfl
  | cons e l ih =>
    intro h1 h2
    obtain ⟨h3, h4⟩ := List.pairwise_cons.1 h1
    have ih := ih h4 fun f hf => h2 f (List.mem_cons_of_mem _ hf)
    by_cases he : e.1 = s
    · rw [List.filter_cons_of_pos (by simpa using he), List.filter_cons_of_neg (by simpa using he), List.cons_append, ih]
    · have h5 := h2 e (by simp)
      have h6 : ∀ f ∈ l, s < f.1 := fun f hf => by have := h3 f hf; omega
      rw [List.filter_cons_of_neg (by simpa using he), List.filter_cons_of_pos (by simpa using he),
        List.filter_eq_nil_iff.2 (fun f hf => by have := h6 f hf; simp; omega), List.nil_append,
        List.filter_eq_self.2 (fun f hf => by have := h6 f hf; simp; omega)]

theorem sorted_flatMap {α : Type} (F : Nat → T → α) : ∀ (m s : Nat) (l : List (Int × T)), (l.Pairwise fun e f => e.1 ≤ f.1) →
    (∀ e ∈ l, (s : Int) ≤ e.1 ∧ e.1 < s + m) →
    ((List.range' s m).flatMap fun k : Nat => (valuesIn l (k : Int)).map fun v => F k v) = l.map fun e => F e.1.toNat e.2 := by
  intro m
  induction m with
  | zero =>
    intro s l _ h
    cases l with
    | nil => rfl
    | cons e l => have := h e (by simp); omega
  | succ m ih =>
    intro s l h1 h2
    have hs := sorted_split (s := s) h1 fun e he => (h2 e he).1
    have h3 := ih (s + 1) (l.filter fun e => decide (e.1 ≠ (s : Int))) (h1.filter _) (fun e he => by
      obtain ⟨h4, h5⟩ := List.mem_filter.1 he
      have := h2 e h4
      have : e.1 ≠ s := by simpa using h5
      push_cast
      omega)
    conv_rhs => rw [← hs]
    rw [List.map_append, ← h3, List.range'_succ, List.flatMap_cons]
    congr 1
    · unfold valuesIn
      rw [List.map_map]
      refine List.map_congr_left fun e he => ?_
      have : e.1 = s := by simpa using (List.mem_filter.1 he).2
      simp [this]
    · refine flatMap_congr_mem fun k hk => ?_
      have hk : s + 1 ≤ k := (List.mem_range'_1.1 hk).1
      congr 1
      unfold valuesIn
      rw [List.filter_filter]
      congr 1
      refine List.filter_congr fun e _ => ?_
      by_cases he : e.1 = (k : Int)
      · have : e.1 ≠ (s : Int) := by omega
        simp [he]; omega
      · simp [he]

theorem CSR.WF.row_products [Zero T] [Mul T] {t : IntTy} {a : CSR T} (ha : a.WF t) {i : Nat} (hi : i < a.rows)
    (hs : (a.row i).Pairwise fun e f => e.1 ≤ f.1) (x : List T) :
    ((List.range a.cols).flatMap fun k => (a.valuesAt i k).map fun v => v * x.getD k 0) =
      (a.row i).map fun e => e.2 * x.getD e.1.toNat 0 := by
  rw [List.range_eq_range']
  exact sorted_flatMap (fun k v => v * x.getD k 0) a.cols 0 (a.row i) hs fun e he => by have := ha.mem hi he; omega

/-- C114: a CSR matrix with sorted rows (repeated columns allowed), converted to CSC, gives the same product with a vector, bit
for bit, whatever the scalars are. -/
theorem C114_csr_mat_vec [Zero T] [Add T] [Mul T] (t : IntTy) (a : CSR T) (ha : a.WF t) (hr : (a.rows : Int) ≤ t.hi + 1)
    (hs : ∀ i < a.rows, (a.row i).Pairwise fun e f => e.1 ≤ f.1) (x : List T) (hx : x.length = a.cols) :
    ∃ c y, a.to_csc t = .ok c ∧ a.mat_vec x = .ok y ∧ c.mat_vec x = .ok y := by
  obtain ⟨c, c1, c2, c3, c4, -, -, -, c5⟩ := C53_csr_to_csc t a ha hr
  refine ⟨c, _, c1, C56_csr_mat_vec t a ha x hx, ?_⟩
  rw [C56_csc_mat_vec t c c2 x (by omega), c3, c4]
  congr 1
  refine List.map_congr_left fun i hi => ?_
  simp only [c5]
  rw [ha.row_products (List.mem_range.1 hi) (hs i (List.mem_range.1 hi))]

/-- C114: any CSC matrix, converted to CSR, gives the same product with a vector, bit for bit. -/
theorem C114_csc_mat_vec [Zero T] [Add T] [Mul T] (t : IntTy) (c : CSC T) (hc : c.WF t) (hcc : (c.cols : Int) ≤ t.hi + 1)
    (x : List T) (hx : x.length = c.cols) :
    ∃ a y, c.to_csr t = .ok a ∧ c.mat_vec x = .ok y ∧ a.mat_vec x = .ok y := by
  obtain ⟨a, a1, a2, a3, a4, a6, -, -, a5⟩ := C53_csc_to_csr t c hc hcc
  refine ⟨a, _, a1, C56_csc_mat_vec t c hc x hx, ?_⟩
  rw [C56_csr_mat_vec t a a2 x (by omega), a3]
  congr 1
  refine List.map_congr_left fun i hi => ?_
  have hi : i < a.rows := by have := List.mem_range.1 hi; omega
  rw [← a2.row_products hi (a6 i hi), a4]
  simp only [a5]

theorem CSC.triples_row (c : CSC T) (i : Nat) : (c.triples.filter fun e => decide (e.1 = (i : Int))) =
    (List.range c.cols).flatMap fun k => (c.valuesAt i k).map fun v => ((i : Int), (k : Int), v) := by
  unfold CSC.triples
  rw [List.filter_flatMap]
  refine flatMap_congr_mem fun k _ => ?_
  unfold CSC.valuesAt valuesIn
  rw [List.filter_map, List.map_map]
  refine List.map_congr_left fun e he => ?_
  have : e.1 = i := by simpa using (List.mem_filter.1 he).2
  simp [this]

/-- C114: the triplets of any CSC matrix give, with the coordinate kernel, the same product with a vector, bit for bit. -/
theorem C114_coo_mat_vec [Zero T] [Add T] [Mul T] (t : IntTy) (c : CSC T) (hc : c.WF t) (hcc : (c.cols : Int) ≤ t.hi + 1)
    (x : List T) (hx : x.length = c.cols) :
    ∃ o y, c.to_coo t = .ok o ∧ c.mat_vec x = .ok y ∧
      coo_matvec o.values.length o.rowidx o.colidx o.values x (List.replicate c.rows 0) = .ok y := by
  obtain ⟨o, o1, o2, o3, o4, -, o5, -⟩ := C53_csc_to_coo t c hc hcc
  refine ⟨o, _, o1, C56_csc_mat_vec t c hc x hx, ?_⟩
  rw [C56_coo_matvec t o o2 x _ (by omega) (by rw [List.length_replicate]; omega), o3]
  congr 1
  refine List.map_congr_left fun i hi => ?_
  rw [o5, CSC.triples_row, List.map_flatMap]
  congr 1
  · simp [List.mem_range.1 hi]
  · refine flatMap_congr_mem fun k _ => ?_
    rw [List.map_map]
    refine List.map_congr_left fun v _ => ?_
    simp

theorem CSR.to_csc_col_sorted [Zero T] {t : IntTy} {a : CSR T} {c : CSC T} (ha : a.WF t) (hr : (a.rows : Int) ≤ t.hi + 1)
    (hc : a.Canonical) (h : a.to_csc t = .ok c) {k : Nat} (hk : k < a.cols) : (c.col k).Pairwise fun e f => e.1 < f.1 := by
  obtain ⟨r, h1, h2, h3, h4, -⟩ := CSR.to_csc_ok ha hr
  cases h.symm.trans h1
  rw [CSC.col_of_rep h4 (by omega)]
  refine colsOf_ssorted (fun i hi => ?_) (fun i hi e he => (ha.mem hi he).1) k
  unfold List.Nodup
  rw [List.pairwise_map]
  exact (hc i hi).imp fun h => by omega

/-- C114: the product of two CSR matrices in canonical format and the product of their conversions to CSC store the same
values at the same positions, bit for bit, if multiplication commutes. -/
theorem C114_mat_mat [Zero T] [Add T] [Mul T] [BEq T] (hm : ∀ x y : T, x * y = y * x) (t : IntTy) (a b : CSR T) (ha : a.WF t)
    (hb : b.WF t) (ca : a.Canonical) (cb : b.Canonical) (hd : a.cols = b.rows) (hf : ((a.rows * b.cols : Nat) : Int) ≤ t.hi)
    (hra : (a.rows : Int) ≤ t.hi) (hrb : (b.rows : Int) ≤ t.hi) :
    ∃ a' b' r r', a.to_csc t = .ok a' ∧ b.to_csc t = .ok b' ∧ a.mul t b = .ok r ∧ a'.mul t b' = .ok r' ∧
      r'.rows = r.rows ∧ r'.cols = r.cols ∧ r.NoDup ∧ r'.NoDup ∧
      ∀ i < r.rows, ∀ k < r.cols, ∀ v, ((k : Int), v) ∈ r.row i ↔ ((i : Int), v) ∈ r'.col k := by
  obtain ⟨a', p1, p2, p3, p4, -, -, -, p5⟩ := C53_csr_to_csc t a ha (by omega)
  obtain ⟨b', q1, q2, q3, q4, q6, -, -, q5⟩ := C53_csr_to_csc t b hb (by omega)
  obtain ⟨r, -, r1, r2, r3, r4, r5, r6⟩ := C57_csr_mat_mat t a b ha hb hd (by
    have := C13_slots_le a b
    omega)
  obtain ⟨r', -, s1, s2, s3, s4, s5, s6⟩ := C57_csc_mat_mat t a' b' p2 q2 (by omega) (by
    have h1 := CSC.productSlots_asCSR a' b'
    have h2 := C13_slots_le b'.asCSR a'.asCSR
    have h3 : b'.asCSR.rows * a'.asCSR.cols = a.rows * b.cols := by
      show b'.cols * a'.rows = _
      rw [q4, p3, Nat.mul_comm]
    omega)
  refine ⟨a', b', r, r', p1, q1, r1, s1, by omega, by omega, r5, s5, ?_⟩
  intro i hi k hk v
  rw [r6 i (by omega), s6 k (by omega)]
  have e : a.contributions b i k = a'.contributions b' i k := by
    have hcol : (b'.col k).Pairwise fun e f => e.1 < f.1 := by
      exact CSR.to_csc_col_sorted hb (by omega) cb q1 (by omega)
    have e1 : a.contributions b i k = (a.row i).flatMap fun e => (valuesIn (b'.col k) e.1).map fun w => e.2 * w := by
      refine flatMap_congr_mem fun e he => ?_
      have := ha.mem (by omega) he
      rw [← q5]
      unfold CSC.valuesAt
      rw [Int.toNat_of_nonneg this.1]
    have e2 : a'.contributions b' i k = (b'.col k).flatMap fun e => (valuesIn (a.row i) e.1).map fun w => e.2 * w := by
      refine flatMap_congr_mem fun e he => ?_
      have := q2.mem (by omega) he
      rw [p5]
      unfold CSR.valuesAt
      rw [Int.toNat_of_nonneg this.1]
    rw [e1, e2]
    exact products_swap hm _ _ (ca i (by omega)) hcol
  rw [e]

/-- C114: the sum of two CSR matrices in canonical format and the sum of their conversions to CSC store the same values at the
same positions, bit for bit, whatever the scalars are; the difference too, computed with `CSC::subtract`. -/
theorem C114_add_sub [Zero T] [Add T] [Sub T] [BEq T] (t : IntTy) (a b : CSR T) (ha : a.WF t)
    (hb : b.WF t) (ca : a.Canonical) (cb : b.Canonical) (hr : b.rows = a.rows) (hc : b.cols = a.cols)
    (hra : (a.rows : Int) ≤ t.hi) (hf : ((a.stored + b.stored : Nat) : Int) < t.hi) :
    ∃ a' b' r r' d d', a.to_csc t = .ok a' ∧ b.to_csc t = .ok b' ∧ a.add t b = .ok r ∧ a'.add_op t b' = .ok r' ∧
      a.sub t b = .ok d ∧ a'.subtract t b' = .ok d' ∧ r.NoDup ∧ r'.NoDup ∧ d.NoDup ∧ d'.NoDup ∧
      (∀ i < a.rows, ∀ k < a.cols, ∀ v, ((k : Int), v) ∈ r.row i ↔ ((i : Int), v) ∈ r'.col k) ∧
      ∀ i < a.rows, ∀ k < a.cols, ∀ v, ((k : Int), v) ∈ d.row i ↔ ((i : Int), v) ∈ d'.col k := by
  obtain ⟨a', p1, p2, p3, p4, -, -, -, p5⟩ := C53_csr_to_csc t a ha (by omega)
  obtain ⟨b', q1, q2, q3, q4, -, -, -, q5⟩ := C53_csr_to_csc t b hb (by omega)
  have sa := CSR.stored_to_csc ha (by omega) p1
  have sb := CSR.stored_to_csc hb (by omega) q1
  obtain ⟨⟨r, r1, r2, r3, r4, r5, r6⟩, d, d1, d2, d3, d4, d5, d6⟩ := C58_csr_add_sub t a b ha hb hr hc hf
  obtain ⟨-, ⟨d', e1, e2, e3, e4, e5, e6⟩, r', s1, s2, s3, s4, s5, s6⟩ :=
    C58_csc_add_subtract t a' b' p2 q2 (by omega) (by omega) (by omega)
  have hcan : a'.Canonical ∧ b'.Canonical :=
    ⟨fun k hk => CSR.to_csc_col_sorted ha (by omega) ca p1 (by omega), fun k hk => CSR.to_csc_col_sorted hb (by omega) cb q1 (by omega)⟩
  have key : ∀ (b : CSC T) (i j : Nat), b.has i j ↔ b.valuesAt i j ≠ [] := fun b i j => CSR.has_valuesAt b.asCSR j i
  have el : ∀ (op : T → T → T) (x y : List T), elementwise (a'.Canonical ∧ b'.Canonical) op x y =
      elementwise (a.Canonical ∧ b.Canonical) op x y := by
    intro op x y
    unfold elementwise
    rw [if_pos hcan, if_pos ⟨ca, cb⟩]
  refine ⟨a', b', r, r', d, d', p1, q1, r1, s1, d1, e1, r5, s5, d5, e5, fun i hi k hk v => ?_, fun i hi k hk v => ?_⟩
  · rw [r6 i hi, s6 k (by omega), key, key, CSR.has_valuesAt, CSR.has_valuesAt, el, p5, q5]
  · rw [d6 i hi, e6 k (by omega), key, key, CSR.has_valuesAt, CSR.has_valuesAt, el, p5, q5]

/-- C114: sorting the second factor changes no bit of a CSR product: the order of summation is that of the first factor, whatever
the scalars are and however often positions are stored. -/
theorem C114_sorted_factor [Zero T] [Add T] [Mul T] [BEq T] (t : IntTy) (a b : CSR T) (ha : a.WF t) (hb : b.WF t)
    (hd : a.cols = b.rows) (hf : ((a.rows * b.cols : Nat) : Int) ≤ t.hi) :
    ∃ b' r r', b.sort_indexes = .ok b' ∧ a.mul t b = .ok r ∧ a.mul t b' = .ok r' ∧ r.NoDup ∧ r'.NoDup ∧
      r'.rows = r.rows ∧ r'.cols = r.cols ∧
      ∀ i < r.rows, ∀ (k : Nat) (v : T), ((k : Int), v) ∈ r.row i ↔ ((k : Int), v) ∈ r'.row i := by
  obtain ⟨b', b1, b2, b3, b4, -, -, -, -, b5⟩ := C53_csr_sort_indexes t b hb
  obtain ⟨r, -, r1, r2, r3, r4, r5, r6⟩ := C57_csr_mat_mat t a b ha hb hd (by
    have := C13_slots_le a b
    omega)
  obtain ⟨r', -, s1, s2, s3, s4, s5, s6⟩ := C57_csr_mat_mat t a b' ha b2 (by omega) (by
    have := C13_slots_le a b'
    rw [b4] at this
    omega)
  refine ⟨b', r, r', b1, r1, s1, r5, s5, by omega, by omega, fun i hi k v => ?_⟩
  have e : a.contributions b' i k = a.contributions b i k := flatMap_congr_mem fun e _ => by rw [b5]
  rw [r6 i (by omega), s6 i (by omega), e]

/-- C114: the sorted rows are needed: with the columns `0, 2, 1` in a row the CSR product with a vector adds in another order than
the CSC product of the same matrix, and the results differ when additions round or saturate. -/
theorem C114_unsorted_differs : ∃ (a : CSR Sat) (c : CSC Sat), a.WF .i8 ∧ a.NoDup ∧ a.to_csc .i8 = .ok c ∧
    a.mat_vec [⟨1⟩, ⟨1⟩, ⟨1⟩] = .ok [⟨90⟩] ∧ c.mat_vec [⟨1⟩, ⟨1⟩, ⟨1⟩] = .ok [⟨10⟩] := by
  have ha : CSR.WF .i8 (⟨1, 3, [0, 3], [0, 2, 1], [⟨90⟩, ⟨-90⟩, ⟨90⟩]⟩ : CSR Sat) := CSR.wf_of (by decide)
  obtain ⟨c, c1, c2, c3, c4, -, -, -, c5⟩ := C53_csr_to_csc .i8 _ ha (by decide)
  refine ⟨_, c, ha, by unfold CSR.NoDup; decide, c1, ?_, ?_⟩
  · rw [C56_csr_mat_vec .i8 _ ha _ rfl]
    decide
  · rw [C56_csc_mat_vec .i8 c c2 _ (by rw [c4]; rfl), c3, c4]
    simp only [c5]
    decide

/-- the hypotheses of `C114_csr_mat_vec` (a column stored twice), `C114_csc_mat_vec`, `C114_coo_mat_vec` (unsorted columns) hold -/
example : ∃ (a : CSR Sat) (c : CSC Sat) (x : List Sat), a.WF .i8 ∧ (a.rows : Int) ≤ IntTy.i8.hi + 1 ∧
    (∀ i < a.rows, (a.row i).Pairwise fun e f => e.1 ≤ f.1) ∧ ¬ a.NoDup ∧ x.length = a.cols ∧
    c.WF .i8 ∧ (c.cols : Int) ≤ IntTy.i8.hi + 1 ∧ x.length = c.cols ∧ ¬ c.Canonical :=
  ⟨⟨2, 2, [0, 3, 4], [0, 1, 1, 0], [⟨9⟩, ⟨90⟩, ⟨50⟩, ⟨-7⟩]⟩, ⟨2, 2, [1, 1, 0], [0, 1, 3], [⟨90⟩, ⟨50⟩, ⟨-7⟩]⟩, [⟨3⟩, ⟨-2⟩],
    CSR.wf_of (by decide), by decide, by decide, by unfold CSR.NoDup; decide, rfl, CSC.wf_of (by decide), by decide, rfl,
    by unfold CSC.Canonical; decide⟩

/-- the hypotheses of `C114_mat_mat` hold -/
example : ∃ a b : CSR Sat, a.WF .i8 ∧ b.WF .i8 ∧ a.Canonical ∧ b.Canonical ∧ a.cols = b.rows ∧
    ((a.rows * b.cols : Nat) : Int) ≤ IntTy.i8.hi ∧ (a.rows : Int) ≤ IntTy.i8.hi ∧ (b.rows : Int) ≤ IntTy.i8.hi ∧ a.stored = 5 ∧
    b.stored = 4 :=
  ⟨⟨2, 3, [0, 3, 5], [0, 1, 2, 0, 2], [⟨9⟩, ⟨9⟩, ⟨-9⟩, ⟨10⟩, ⟨10⟩]⟩, ⟨3, 2, [0, 2, 3, 4], [0, 1, 1, 0], [⟨9⟩, ⟨9⟩, ⟨-9⟩, ⟨10⟩]⟩,
    CSR.wf_of (by decide), CSR.wf_of (by decide), by unfold CSR.Canonical; decide, by unfold CSR.Canonical; decide, rfl, by decide,
    by decide, by decide, by decide, by decide⟩

/-- the hypotheses of `C114_add_sub` hold -/
example : ∃ a b : CSR Sat, a.WF .i8 ∧ b.WF .i8 ∧ a.Canonical ∧ b.Canonical ∧ b.rows = a.rows ∧ b.cols = a.cols ∧
    (a.rows : Int) ≤ IntTy.i8.hi ∧ ((a.stored + b.stored : Nat) : Int) < IntTy.i8.hi ∧ a.stored = 5 ∧ b.stored = 3 :=
  ⟨⟨2, 3, [0, 3, 5], [0, 1, 2, 0, 2], [⟨9⟩, ⟨9⟩, ⟨-9⟩, ⟨10⟩, ⟨10⟩]⟩, ⟨2, 3, [0, 2, 3], [1, 2, 0], [⟨99⟩, ⟨9⟩, ⟨-9⟩]⟩,
    CSR.wf_of (by decide), CSR.wf_of (by decide), by unfold CSR.Canonical; decide, by unfold CSR.Canonical; decide, rfl, rfl,
    by decide, by decide, by decide, by decide⟩

/-- the hypotheses of `C114_sorted_factor` hold of a second factor with an unsorted row and a position stored twice -/
example : ∃ a b : CSR Sat, a.WF .i8 ∧ b.WF .i8 ∧ a.cols = b.rows ∧ ((a.rows * b.cols : Nat) : Int) ≤ IntTy.i8.hi ∧ ¬ a.Canonical ∧
    ¬ b.NoDup ∧ a.stored = 5 ∧ b.stored = 4 :=
  ⟨⟨2, 3, [0, 3, 5], [0, 2, 1, 0, 2], [⟨9⟩, ⟨9⟩, ⟨-9⟩, ⟨10⟩, ⟨10⟩]⟩, ⟨3, 2, [0, 3, 3, 4], [1, 0, 1, 0], [⟨9⟩, ⟨9⟩, ⟨-9⟩, ⟨10⟩]⟩,
    CSR.wf_of (by decide), CSR.wf_of (by decide), rfl, by decide, by unfold CSR.Canonical; decide, by unfold CSR.NoDup; decide,
    by decide, by decide⟩

end
end Sparse

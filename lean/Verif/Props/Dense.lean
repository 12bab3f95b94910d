import Verif.Lemmas.Kernels
/-! Properties C05, C06, C11, C12, C24, C39, C40: coordinate and dense forms, products with vectors,
diagonals, scaling. -/
namespace Sparse

section
variable {T : Type}

/-! ### entries as sums over triplets -/

theorem tripSum_append [AddCommMonoid T] (E F : List (Int × Int × T)) (i j : Nat) :
    tripSum (E ++ F) i j = tripSum E i j + tripSum F i j := by simp [tripSum]

theorem tripSum_flat [AddCommMonoid T] (R : Nat → List (Int × Int × T)) (n i j : Nat) :
    tripSum (flat R n) i j = ∑ k ∈ Finset.range n, tripSum (R k) i j := by
  induction n with
  | zero => simp [tripSum]
  | succ n ih => rw [flat_succ, tripSum_append, ih, Finset.sum_range_succ]

theorem tripSum_tagRow [AddCommMonoid T] (r : List (Int × T)) (k i j : Nat) :
    tripSum (r.map fun e => ((k : Int), e.1, e.2)) i j = if k = i then rowSum r j else 0 := by
  induction r with
  | nil => simp [tripSum]
  | cons e r ih =>
    rw [List.map_cons, tripSum_cons, ih, rowSum_cons]
    by_cases hk : k = i
    · simp [hk]
    · simp [hk]

theorem tripSum_tagCol [AddCommMonoid T] (r : List (Int × T)) (k i j : Nat) :
    tripSum (r.map fun e => (e.1, (k : Int), e.2)) i j = if k = j then rowSum r i else 0 := by
  induction r with
  | nil => simp [tripSum]
  | cons e r ih =>
    rw [List.map_cons, tripSum_cons, ih, rowSum_cons]
    by_cases hk : k = j
    · simp [hk]
    · simp [hk]

theorem tripSum_rows [AddCommMonoid T] (R : Nat → List (Int × T)) (n i j : Nat) :
    tripSum (flat (fun i => (R i).map fun e => ((i : Int), e.1, e.2)) n) i j = if i < n then rowSum (R i) j else 0 := by
  rw [tripSum_flat]
  simp only [tripSum_tagRow]
  rw [Finset.sum_ite_eq']
  simp

theorem tripSum_cols [AddCommMonoid T] (R : Nat → List (Int × T)) (n i j : Nat) :
    tripSum (flat (fun c => (R c).map fun e => (e.1, (c : Int), e.2)) n) i j = if j < n then rowSum (R j) i else 0 := by
  rw [tripSum_flat]
  simp only [tripSum_tagCol]
  rw [Finset.sum_ite_eq']
  simp

theorem CSR.entry_eq_tripSum [AddCommMonoid T] {t : IntTy} {a : CSR T} (ha : a.WF t) (i j : Nat) :
    a.entry i j = tripSum a.triples i j := by
  rw [CSR.triples_of_rep ha.rep, tripSum_rows, CSR.entry_of_rep ha.rep]

theorem CSC.entry_eq_tripSum [AddCommMonoid T] {t : IntTy} {a : CSC T} (ha : a.WF t) (i j : Nat) :
    a.entry i j = tripSum a.triples i j := by
  rw [CSC.triples_of_rep ha.rep, tripSum_cols, CSC.entry_of_rep ha.rep]

theorem Coo.entry_eq_tripSum [AddCommMonoid T] (a : Coo T) (i j : Nat) : a.entry i j = tripSum a.triples i j := rfl

theorem zip3_rows (R : Nat → List (Int × T)) (n : Nat) :
    (rowNums R n).zip (((flat R n).map (·.1)).zip ((flat R n).map (·.2))) =
      flat (fun i => (R i).map fun e => ((i : Int), e.1, e.2)) n := by
  have e1 : rowNums R n = (flat (fun i => (R i).map fun e => ((i : Int), e.1, e.2)) n).map (·.1) := by
    rw [← flat_map]; unfold rowNums; simp [Function.comp_def]
  have e2 : flat R n = (flat (fun i => (R i).map fun e => ((i : Int), e.1, e.2)) n).map (·.2) := by
    rw [← flat_map]; simp [Function.comp_def]
  conv_lhs => rw [e1, e2]
  rw [List.map_map, List.map_map, List.zip_map', List.zip_map']
  simp

theorem zip3_cols (R : Nat → List (Int × T)) (n : Nat) :
    ((flat R n).map (·.1)).zip ((rowNums R n).zip ((flat R n).map (·.2))) =
      flat (fun i => (R i).map fun e => (e.1, (i : Int), e.2)) n := by
  have e1 : rowNums R n = (flat (fun i => (R i).map fun e => (e.1, (i : Int), e.2)) n).map (·.2.1) := by
    rw [← flat_map]; unfold rowNums; simp [Function.comp_def]
  have e2 : flat R n = (flat (fun i => (R i).map fun e => (e.1, (i : Int), e.2)) n).map (fun e => (e.1, e.2.2)) := by
    rw [← flat_map]; simp [Function.comp_def]
  conv_lhs => rw [e1, e2]
  rw [List.map_map, List.map_map, List.zip_map', List.zip_map']
  simp

theorem rowNums_mem {R : Nat → List (Int × T)} {n : Nat} {v : Int} (h : v ∈ rowNums R n) :
    ∃ i < n, v = (i : Int) ∧ R i ≠ [] := by
  unfold rowNums at h
  obtain ⟨i, hi, h⟩ := mem_flat.1 h
  rw [List.mem_map] at h
  obtain ⟨e, he, rfl⟩ := h
  exact ⟨i, hi, rfl, fun h => by rw [h] at he; simp at he⟩

theorem Rep.arrays {p j : List Int} {x : List T} {n : Nat} {R : Nat → List (Int × T)} (h : Rep p j x n R)
    (hj : j.length = (flat R n).length) (hx : x.length = (flat R n).length) :
    j = (flat R n).map (·.1) ∧ x = (flat R n).map (·.2) := by
  have e1 := h.pre.eq_of_length (by rw [List.length_zip]; omega)
  constructor
  · rw [e1, show (j.zip x).map (·.1) = j from List.map_fst_zip (by omega)]
  · rw [e1, show (j.zip x).map (·.2) = x from List.map_snd_zip (by omega)]

/-! ### C05 -/

/-- C05 (CSC). `CSC::to_coo` on every valid matrix whose column indices are representable: the triplets of
the result are exactly the stored entries in storage order; unused storage is ignored. -/
theorem C05_csc_to_coo [AddCommMonoid T] (t : IntTy) (a : CSC T) (ha : a.WF t) (hc : (a.cols : Int) ≤ t.hi + 1) :
    ∃ r, a.to_coo t = .ok r ∧ r.WF t ∧ r.rows = a.rows ∧ r.cols = a.cols ∧ r.triples = a.triples ∧
      r.values.length = a.stored ∧ ∀ i j, r.entry i j = a.entry i j := by
  have h : Ok (a.to_coo t) fun r => r = ⟨a.rows, a.cols, (flat a.col a.cols).map (·.1), rowNums a.col a.cols,
      (flat a.col a.cols).map (·.2)⟩ := by
    unfold CSC.to_coo
    rw [CSC.nnz_ok ha.rep]
    wp
    rw [csr_tocoo_ok ha.rep (fun i hi _ => by omega) (by simp) (by simp) (by simp)]
    wp
    unfold Coo.new
    rw [if_neg]
    · wp
      simp
    · simp [rowNums_length]
  obtain ⟨r, hr, rfl⟩ := h
  have htr : (⟨a.rows, a.cols, (flat a.col a.cols).map (·.1), rowNums a.col a.cols,
      (flat a.col a.cols).map (·.2)⟩ : Coo T).triples = a.triples := by
    rw [CSC.triples_of_rep ha.rep]
    exact zip3_cols _ _
  refine ⟨_, hr, ⟨by simp, by simp [rowNums_length], ?_, ?_⟩, rfl, rfl, htr, ?_, ?_⟩
  · intro v hv
    simp only [List.mem_map] at hv
    obtain ⟨e, he, rfl⟩ := hv
    obtain ⟨i, hi, he⟩ := mem_flat.1 he
    exact ha.mem hi he
  · intro v hv
    obtain ⟨i, hi, rfl, -⟩ := rowNums_mem hv
    simp only
    omega
  · rw [ha.stored_eq]; simp
  · intro i j
    rw [Coo.entry_eq_tripSum, htr, CSC.entry_eq_tripSum ha]

example : ∃ a : CSC Int, a.WF .u8 ∧ (a.cols : Int) ≤ IntTy.u8.hi + 1 ∧ a.stored < a.values.length :=
  ⟨⟨2, 3, [1, 0, 1, 1, 0], [0, 2, 2, 4], [5, 7, -3, 4, 9, 9]⟩, CSC.wf_of (by decide), by decide, by decide⟩

/-- C05 (CSR, partial: no unused storage). `CSR::to_coo` copies its arrays including unused storage; on
matrices without unused storage the triplets are exactly the stored entries in storage order. -/
theorem C05_csr_to_coo_partial [AddCommMonoid T] (t : IntTy) (a : CSR T) (ha : a.WF t)
    (hr : (a.rows : Int) ≤ t.hi + 1)
    (hj : a.colidx.length = a.stored) (hx : a.values.length = a.stored) :
    ∃ r, a.to_coo t = .ok r ∧ r.WF t ∧ r.rows = a.rows ∧ r.cols = a.cols ∧ r.triples = a.triples ∧
      r.values.length = a.stored ∧ ∀ i j, r.entry i j = a.entry i j := by
  have hst := ha.stored_eq
  obtain ⟨g1, g2⟩ := ha.rep.arrays (by omega) (by omega)
  have h : Ok (a.to_coo t) fun r => r = ⟨a.rows, a.cols, rowNums a.row a.rows, a.colidx, a.values⟩ := by
    unfold CSR.to_coo
    rw [expandptr_ok ha.rep (fun i hi _ => by omega) (by simp; omega)]
    wp
    unfold Coo.new
    rw [if_neg]
    · wp
      simp; omega
    · simp [rowNums_length]; omega
  obtain ⟨r, hr', rfl⟩ := h
  have htr : (⟨a.rows, a.cols, rowNums a.row a.rows, a.colidx, a.values⟩ : Coo T).triples = a.triples := by
    rw [CSR.triples_of_rep ha.rep]
    unfold Coo.triples
    simp only
    conv_lhs => rw [g1, g2]
    exact zip3_rows _ _
  refine ⟨_, hr', ⟨by simp [rowNums_length]; omega, by simp; omega, ?_, ?_⟩, rfl, rfl, htr, by simp; omega, ?_⟩
  · intro v hv
    obtain ⟨i, hi, rfl, -⟩ := rowNums_mem hv
    simp only
    omega
  · intro v hv
    simp only at hv
    rw [g1, List.mem_map] at hv
    obtain ⟨e, he, rfl⟩ := hv
    obtain ⟨i, hi, he⟩ := mem_flat.1 he
    exact ha.mem hi he
  · intro i j
    rw [Coo.entry_eq_tripSum, htr, CSR.entry_eq_tripSum ha]

example : ∃ a : CSR Int, a.WF .u8 ∧ a.colidx.length = a.stored ∧ a.values.length = a.stored ∧ a.stored = 4 :=
  ⟨⟨3, 3, [0, 2, 2, 4], [2, 0, 1, 1], [5, 7, -3, 4]⟩, CSR.wf_of (by decide), by decide, by decide, by decide⟩

/-- C05 (CSR, what happens with unused storage): the unused elements become additional triplets in
row 0. -/
theorem C05_csr_to_coo_slack (t : IntTy) (a : CSR T) (ha : a.WF t)
    (hr : (a.rows : Int) ≤ t.hi + 1) (hjx : a.colidx.length = a.values.length) :
    ∃ r, a.to_coo t = .ok r ∧ r.rows = a.rows ∧ r.cols = a.cols ∧
      r.triples = a.triples ++ ((a.colidx.zip a.values).drop a.stored).map (fun e => ((0 : Int), e.1, e.2)) ∧
      r.colidx = a.colidx ∧ r.values = a.values ∧ r.rowidx.length = a.values.length := by
  have hst := ha.stored_eq
  have hlj := ha.rep.len_j
  have h : Ok (a.to_coo t) fun r => r = ⟨a.rows, a.cols, rowNums a.row a.rows ++
      List.replicate (a.colidx.length - a.stored) 0, a.colidx, a.values⟩ := by
    unfold CSR.to_coo
    rw [expandptr_ok ha.rep (fun i hi _ => by omega) (by simp; omega)]
    wp
    unfold Coo.new
    rw [if_neg]
    · wp
      simp; omega
    · simp [rowNums_length]; omega
  obtain ⟨r, hr', rfl⟩ := h
  refine ⟨_, hr', rfl, rfl, ?_, rfl, rfl, by simp [rowNums_length]; omega⟩
  obtain ⟨s, hs⟩ := ha.rep.pre
  rw [CSR.triples_of_rep ha.rep, ← zip3_rows]
  unfold Coo.triples
  simp only
  rw [← hs, hst, List.drop_left', ← List.zip_unzip (flat a.row a.rows ++ s)]
  have hsl : s.length = a.colidx.length - (flat a.row a.rows).length := by
    have := congrArg List.length hs
    rw [List.length_append, List.length_zip] at this
    omega
  rw [List.zip_unzip, List.zip_append (by rw [rowNums_length]), ← hsl]
  congr 1
  · congr 1
    rw [← List.unzip_fst, ← List.unzip_snd, List.zip_unzip]
  · clear hs hsl
    induction s with
    | nil => simp
    | cons e s ih => simp [List.replicate_succ, ih]
  · rfl

/-- C05 (negation of the full statement for CSR): two valid matrices accepted by the constructor; on the
first `to_coo` changes the matrix, on the second it panics. -/
theorem C05_csr_to_coo_counterexample :
    (let a : CSR Int := ⟨2, 2, [0, 0, 1], [1, 1], [5, 9]⟩
     a.WF .u8 ∧ ∃ r, a.to_coo .u8 = .ok r ∧ r.entry 0 1 = 9 ∧ a.entry 0 1 = 0) ∧
    (let a : CSR Int := ⟨1, 1, [0, 1], [0, 0], [5]⟩
     a.WF .u8 ∧ CSR.new 1 1 a.rowptr a.colidx a.values = .ok a ∧ a.to_coo .u8 = .error (.panic .unwrap)) := by
  refine ⟨⟨CSR.wf_of (by decide), _, rfl, by decide, by decide⟩, CSR.wf_of (by decide), by decide, by decide⟩

/-! ### C06 -/

/-- C06 (Coo). `Coo::to_dense` returns the dense array of the matrix entries. -/
theorem C06_coo_to_dense [AddCommMonoid T] (t : IntTy) (a : Coo T) (ha : a.WF t) :
    a.to_dense = .ok (dense a.rows a.cols a.entry) := by
  suffices h : Ok a.to_dense fun r => r = accum2 (List.replicate a.rows (List.replicate a.cols 0)) a.triples by
    obtain ⟨r, h1, h2⟩ := h
    rw [h1, h2, accum2_zero (fun e he => (Coo.triples_mem ha he).1.1) (fun e he => (Coo.triples_mem ha he).2.1)]
    rfl
  unfold Coo.to_dense
  rw [show a.nnz = a.triples.length from (Coo.triples_length ha).symm]
  wp
  refine Ok_forOff (E := a.triples) (by simp) (fun pre s => s = accum2 (List.replicate a.rows (List.replicate a.cols 0)) pre)
    rfl ?_ (fun s hs => hs)
  rintro pre e suf s hE hs
  have hg := Coo.triples_get (a := a) (k := pre.length) (e := e) (by rw [hE]; simp)
  have he := Coo.triples_mem ha (show e ∈ a.triples by rw [hE]; simp)
  rw [Nat.zero_add]
  wp
  rds [hg.1, hg.2.1, hg.2.2]
  obtain ⟨r, g1, v, g2, g3, g4, g5⟩ := accum2_step (n := a.rows) (m := a.cols) (by simp) (by simp) hs
    ⟨he.1.1, he.1.2.1⟩ ⟨he.2.1, he.2.2.1⟩
  exact ⟨he.1.1, he.2.1, r, g1, v, g2, g3, g4, _, rfl, g5⟩

example : exCoo.WF .u8 := exCoo_wf

/-- C06 (CSR). `CSR::to_dense`. -/
theorem C06_csr_to_dense [AddCommMonoid T] (t : IntTy) (a : CSR T) (ha : a.WF t) :
    a.to_dense = .ok (dense a.rows a.cols a.entry) := by
  unfold CSR.to_dense
  have hm : ∀ i < a.rows, ∀ e ∈ a.row i, 0 ≤ e.1 ∧ e.1 < a.cols := fun i hi e he =>
    ⟨(ha.mem hi he).1, (ha.mem hi he).2.1⟩
  rw [csr_todense_ok ha.rep hm (by simp) (by simp), accum2_zero]
  · congr 1
    unfold dense
    apply List.map_congr_left
    intro i hi
    apply List.map_congr_left
    intro j _
    rw [CSR.entry_eq_tripSum ha, CSR.triples_of_rep ha.rep]
  · intro e he
    obtain ⟨i, hi, he⟩ := mem_flat.1 he
    rw [List.mem_map] at he
    obtain ⟨f, hf, rfl⟩ := he
    simp
  · intro e he
    obtain ⟨i, hi, he⟩ := mem_flat.1 he
    rw [List.mem_map] at he
    obtain ⟨f, hf, rfl⟩ := he
    exact (hm i hi f hf).1

example : ∃ a : CSR Int, a.WF .u8 ∧ a.stored = 4 := ⟨_, exCsr_wf, by decide⟩

/-- C06 (CSR kernel). `csr_todense` adds the matrix into its argument. -/
theorem C06_csr_todense_kernel [AddCommMonoid T] (t : IntTy) (a : CSR T) (ha : a.WF t) (b : Nat → Nat → T) :
    csr_todense a.rows a.rowptr a.colidx a.values (dense a.rows a.cols b) =
      .ok (dense a.rows a.cols fun i j => b i j + a.entry i j) := by
  have hm : ∀ i < a.rows, ∀ e ∈ a.row i, 0 ≤ e.1 ∧ e.1 < a.cols := fun i hi e he =>
    ⟨(ha.mem hi he).1, (ha.mem hi he).2.1⟩
  rw [csr_todense_ok ha.rep hm (by simp [dense]) (by simp [dense]), ← CSR.triples_of_rep ha.rep]
  have h1 : ∀ e ∈ a.triples, 0 ≤ e.1 ∧ 0 ≤ e.2.1 := by
    intro e he
    rw [CSR.triples_of_rep ha.rep] at he
    obtain ⟨i, hi, he⟩ := mem_flat.1 he
    rw [List.mem_map] at he
    obtain ⟨f, hf, rfl⟩ := he
    exact ⟨by simp, (hm i hi f hf).1⟩
  congr 1
  apply List.ext_getElem?
  intro i
  rw [accum2_get _ fun e he => (h1 e he).1]
  unfold dense
  rw [List.getElem?_map, List.getElem?_map]
  by_cases hi : i < a.rows
  · rw [List.getElem?_range hi]
    simp only [Option.map_some, Option.some.injEq]
    apply List.ext_getElem?
    intro j
    rw [accum_get, List.getElem?_map, List.getElem?_map]
    · by_cases hj : j < a.cols
      · rw [List.getElem?_range hj]
        simp only [Option.map_some, Option.some.injEq]
        rw [CSR.entry_eq_tripSum ha, tripSum_eq_rowSum]
      · rw [List.getElem?_eq_none (l := List.range a.cols) (by simp; omega)]
        simp
    · intro e he
      rw [List.mem_map] at he
      obtain ⟨f, hf, rfl⟩ := he
      exact (h1 f (List.mem_of_mem_filter hf)).2
  · rw [List.getElem?_eq_none (l := List.range a.rows) (by simp; omega)]
    simp

/-- C06 (CSC). `CSC::to_dense` (through `to_csr`). -/
theorem C06_csc_to_dense [AddCommMonoid T] (t : IntTy) (a : CSC T) (ha : a.WF t) (hc : (a.cols : Int) ≤ t.hi + 1) :
    a.to_dense t = .ok (dense a.rows a.cols a.entry) := by
  obtain ⟨r, h1, h2, h3, h4, h5, -⟩ := C04_csc_to_csr t a ha hc
  unfold CSC.to_dense
  rw [h1]
  change r.to_dense = _
  rw [C06_csr_to_dense t r h2, h3, h4]
  congr 1
  unfold dense
  simp only [h5]

example : exCsc.WF .u8 ∧ (exCsc.cols : Int) ≤ IntTy.u8.hi + 1 := ⟨exCsc_wf, by decide⟩

/-- element `k` of a flat array; row-major (`fortran = false`) or column-major -/
def flatIdx (rows cols : Nat) (fortran : Bool) (i j : Nat) : Nat :=
  if fortran then rows * j + i else cols * i + j

/-- C06 (Coo kernel). `coo_todense` adds the matrix into a flat array, row-major or column-major, and
leaves everything beyond `rows * cols` alone. -/
theorem C06_coo_todense_kernel [AddCommMonoid T] (t : IntTy) (a : Coo T) (ha : a.WF t) (b : List T) (fortran : Bool)
    (hb : a.rows * a.cols ≤ b.length) :
    ∃ r, coo_todense a.rows a.cols a.values.length a.rowidx a.colidx a.values b fortran = .ok r ∧
      r.length = b.length ∧
      (∀ i < a.rows, ∀ j < a.cols, r[flatIdx a.rows a.cols fortran i j]? =
        b[flatIdx a.rows a.cols fortran i j]?.map (· + a.entry i j)) ∧
      ∀ k, a.rows * a.cols ≤ k → r[k]? = b[k]? := by
  have hidx : ∀ i < a.rows, ∀ j < a.cols, flatIdx a.rows a.cols fortran i j < a.rows * a.cols := by
    intro i hi j hj
    unfold flatIdx
    split
    · calc a.rows * j + i < a.rows * j + a.rows := by omega
        _ = a.rows * (j + 1) := by rw [Nat.mul_succ]
        _ ≤ a.rows * a.cols := Nat.mul_le_mul_left _ hj
    · calc a.cols * i + j < a.cols * i + a.cols := by omega
        _ = a.cols * (i + 1) := by rw [Nat.mul_succ]
        _ ≤ a.cols * a.rows := Nat.mul_le_mul_left _ hi
        _ = a.rows * a.cols := Nat.mul_comm _ _
  have hinj : ∀ i < a.rows, ∀ j < a.cols, ∀ i' < a.rows, ∀ j' < a.cols,
      flatIdx a.rows a.cols fortran i j = flatIdx a.rows a.cols fortran i' j' → i = i' ∧ j = j' := by
    intro i hi j hj i' hi' j' hj'
    unfold flatIdx
    split
    · intro h
      have h1 : (a.rows * j + i) / a.rows = j := by
        rw [Nat.mul_add_div (by omega), Nat.div_eq_of_lt hi]; omega
      have h2 : (a.rows * j' + i') / a.rows = j' := by
        rw [Nat.mul_add_div (by omega), Nat.div_eq_of_lt hi']; omega
      have h3 : j = j' := by rw [← h1, ← h2, h]
      subst h3
      exact ⟨by omega, rfl⟩
    · intro h
      have h1 : (a.cols * i + j) / a.cols = i := by
        rw [Nat.mul_add_div (by omega), Nat.div_eq_of_lt hj]; omega
      have h2 : (a.cols * i' + j') / a.cols = i' := by
        rw [Nat.mul_add_div (by omega), Nat.div_eq_of_lt hj']; omega
      have h3 : i = i' := by rw [← h1, ← h2, h]
      subst h3
      exact ⟨rfl, by omega⟩
  suffices h : Ok (coo_todense a.rows a.cols a.values.length a.rowidx a.colidx a.values b fortran) fun r =>
      r = accum b (a.triples.map fun e => (((flatIdx a.rows a.cols fortran e.1.toNat e.2.1.toNat : Nat) : Int), e.2.2)) by
    refine h.mono ?_
    rintro r rfl
    have hpos : ∀ e ∈ a.triples.map fun e => (((flatIdx a.rows a.cols fortran e.1.toNat e.2.1.toNat : Nat) : Int), e.2.2),
        0 ≤ e.1 := by
      intro e he
      rw [List.mem_map] at he
      obtain ⟨f, -, rfl⟩ := he
      simp
    refine ⟨by simp, ?_, ?_⟩
    · intro i hi j hj
      rw [accum_get _ hpos]
      congr 2
      funext z
      congr 1
      rw [Coo.entry_eq_tripSum]
      have hmem : ∀ e ∈ a.triples, _ := fun e he => Coo.triples_mem ha he
      generalize a.triples = E at hmem
      induction E with
      | nil => simp [tripSum]
      | cons e E ih =>
        rw [List.map_cons, rowSum_cons, tripSum_cons, ih fun f hf => hmem f (by simp [hf])]
        congr 1
        have he := hmem e (by simp)
        by_cases h : e.1 = (i : Int) ∧ e.2.1 = (j : Int)
        · rw [if_pos h, if_pos]
          rw [h.1, h.2]; simp
        · rw [if_neg h, if_neg]
          intro h'
          have := hinj e.1.toNat (by omega) e.2.1.toNat (by omega) i hi j hj (by simpa using h')
          omega
    · intro k hk
      rw [accum_get _ hpos, rowSum_eq_zero]
      · simp
      · intro e he hek
        rw [List.mem_map] at he
        obtain ⟨f, hf, rfl⟩ := he
        have := Coo.triples_mem ha hf
        have := hidx f.1.toNat (by omega) f.2.1.toNat (by omega)
        simp only at hek
        omega
  unfold coo_todense
  rw [show a.values.length = a.triples.length from (Coo.triples_length ha).symm]
  have step : ∀ (pre : List (Int × Int × T)) e suf (s : List T), a.triples = pre ++ e :: suf →
      s = accum b (pre.map fun e => (((flatIdx a.rows a.cols fortran e.1.toNat e.2.1.toNat : Nat) : Int), e.2.2)) →
      ∃ v, s[flatIdx a.rows a.cols fortran e.1.toNat e.2.1.toNat]? = some v ∧
        flatIdx a.rows a.cols fortran e.1.toNat e.2.1.toNat < s.length ∧
        s.set (flatIdx a.rows a.cols fortran e.1.toNat e.2.1.toNat) (v + e.2.2) =
        accum b ((pre ++ [e]).map fun e => (((flatIdx a.rows a.cols fortran e.1.toNat e.2.1.toNat : Nat) : Int), e.2.2)) := by
    intro pre e suf s hE hs
    have he := Coo.triples_mem ha (show e ∈ a.triples by rw [hE]; simp)
    have hlt := hidx e.1.toNat (by omega) e.2.1.toNat (by omega)
    have hlen : s.length = b.length := by rw [hs]; simp
    refine ⟨s[flatIdx a.rows a.cols fortran e.1.toNat e.2.1.toNat]'(by omega), by simp, by omega, ?_⟩
    rw [set_add_eq_modify (by simp), List.map_append, accum_append, ← hs]
    simp [accum_one]
  cases fortran with
  | false =>
    simp only [Bool.not_false, if_true]
    wp
    refine Ok_forOff (E := a.triples) (by simp) (fun pre s => s =
      accum b (pre.map fun e => (((flatIdx a.rows a.cols false e.1.toNat e.2.1.toNat : Nat) : Int), e.2.2))) rfl ?_ (fun s hs => hs)
    rintro pre e suf s hE hs
    have hg := Coo.triples_get (a := a) (k := pre.length) (e := e) (by rw [hE]; simp)
    have he := Coo.triples_mem ha (show e ∈ a.triples by rw [hE]; simp)
    obtain ⟨v, g1, g2, g3⟩ := step pre e suf s hE hs
    rw [Nat.zero_add]
    wp
    rds [hg.1, hg.2.1, hg.2.2]
    exact ⟨he.1.1, he.2.1, v, g1, g2, _, rfl, g3⟩
  | true =>
    simp only [Bool.not_true, Bool.false_eq_true, if_false]
    wp
    refine Ok_forOff (E := a.triples) (by simp) (fun pre s => s =
      accum b (pre.map fun e => (((flatIdx a.rows a.cols true e.1.toNat e.2.1.toNat : Nat) : Int), e.2.2))) rfl ?_ (fun s hs => hs)
    rintro pre e suf s hE hs
    have hg := Coo.triples_get (a := a) (k := pre.length) (e := e) (by rw [hE]; simp)
    have he := Coo.triples_mem ha (show e ∈ a.triples by rw [hE]; simp)
    obtain ⟨v, g1, g2, g3⟩ := step pre e suf s hE hs
    rw [Nat.zero_add]
    wp
    rds [hg.1, hg.2.1, hg.2.2]
    exact ⟨he.2.1, he.1.1, v, g1, g2, _, rfl, g3⟩

example : exCoo.WF .u8 ∧ exCoo.rows * exCoo.cols ≤ (List.replicate 8 (1 : Int)).length := ⟨exCoo_wf, by decide⟩

/-! ### C11, C12 -/

/-- C11. `CSR::mat_vec`: `Err` for a vector of the wrong length, otherwise the product. -/
theorem C11_csr_mat_vec [NonUnitalNonAssocSemiring T] (t : IntTy) (a : CSR T) (ha : a.WF t) (x : List T) :
    (x.length ≠ a.cols → a.mat_vec x = .error .err) ∧
    (x.length = a.cols → a.mat_vec x = .ok ((List.range a.rows).map fun i =>
      ∑ k ∈ Finset.range a.cols, a.entry i k * x.getD k 0)) := by
  constructor
  · intro h
    unfold CSR.mat_vec
    rw [if_pos h]
    rfl
  · intro h
    have hm : ∀ i < a.rows, ∀ e ∈ a.row i, 0 ≤ e.1 ∧ e.1 < a.cols := fun i hi e he =>
      ⟨(ha.mem hi he).1, (ha.mem hi he).2.1⟩
    unfold CSR.mat_vec
    rw [if_neg (by simpa using h)]
    obtain ⟨r, h1, h2, h3, h4⟩ := csr_matvec_ok (y := List.replicate a.rows 0) ha.rep hm h (by simp)
    simp only [h1]
    congr 1
    apply List.ext_getElem?
    intro i
    by_cases hi : i < a.rows
    · rw [h3 i hi, List.getElem?_map, List.getElem?_range hi, List.getElem?_replicate, if_pos hi]
      simp only [Option.map_some, Option.some.injEq, zero_add]
      apply Finset.sum_congr rfl
      intro k _
      rw [CSR.entry_of_rep ha.rep, if_pos hi]
    · rw [List.getElem?_eq_none (by simp at h2; omega), List.getElem?_eq_none (by simp; omega)]

example : ∃ (a : CSR Int) (x : List Int), a.WF .u8 ∧ x.length = a.cols ∧ a.mat_vec x = .ok [29, 0, 20] :=
  ⟨_, [2, 20, 3], exCsr_wf, by decide, by decide⟩

/-- C11 (operator). `A * x` panics for a vector of the wrong length and is the product otherwise. -/
theorem C11_csr_mul_vec [NonUnitalNonAssocSemiring T] (t : IntTy) (a : CSR T) (ha : a.WF t) (x : List T) :
    (x.length ≠ a.cols → a.mul_vec x = .error (.panic .unwrap)) ∧
    (x.length = a.cols → a.mul_vec x = .ok ((List.range a.rows).map fun i =>
      ∑ k ∈ Finset.range a.cols, a.entry i k * x.getD k 0)) := by
  obtain ⟨h1, h2⟩ := C11_csr_mat_vec t a ha x
  exact ⟨fun h => by unfold CSR.mul_vec; rw [h1 h]; rfl, fun h => by unfold CSR.mul_vec; rw [h2 h]; rfl⟩

/-- C11 (kernel). `csr_matvec` adds the product into `y`, touching only its first `rows` elements. -/
theorem C11_csr_matvec_kernel [NonUnitalNonAssocSemiring T] (t : IntTy) (a : CSR T) (ha : a.WF t) (x y : List T)
    (hx : x.length = a.cols) (hy : a.rows ≤ y.length) :
    ∃ r, csr_matvec a.rows a.rowptr a.colidx a.values x y = .ok r ∧ r.length = y.length ∧
      (∀ i < a.rows, r[i]? = y[i]?.map (· + ∑ k ∈ Finset.range a.cols, a.entry i k * x.getD k 0)) ∧
      ∀ i, a.rows ≤ i → r[i]? = y[i]? := by
  have hm : ∀ i < a.rows, ∀ e ∈ a.row i, 0 ≤ e.1 ∧ e.1 < a.cols := fun i hi e he =>
    ⟨(ha.mem hi he).1, (ha.mem hi he).2.1⟩
  obtain ⟨r, h1, h2, h3, h4⟩ := csr_matvec_ok ha.rep hm hx hy
  refine ⟨r, h1, h2, fun i hi => ?_, h4⟩
  exact h3 i hi

/-- C12 (CSC). `CSC::mat_vec`. -/
theorem C12_csc_mat_vec [NonUnitalNonAssocSemiring T] (t : IntTy) (a : CSC T) (ha : a.WF t) (x : List T) :
    (x.length ≠ a.cols → a.mat_vec x = .error .err) ∧
    (x.length = a.cols → a.mat_vec x = .ok ((List.range a.rows).map fun i =>
      ∑ k ∈ Finset.range a.cols, a.entry i k * x.getD k 0)) := by
  constructor
  · intro h
    unfold CSC.mat_vec
    rw [if_pos h]
    rfl
  · intro h
    have hm : ∀ i < a.cols, ∀ e ∈ a.col i, 0 ≤ e.1 ∧ e.1 < a.rows := fun i hi e he =>
      ⟨(ha.mem hi he).1, (ha.mem hi he).2.1⟩
    unfold CSC.mat_vec
    rw [if_neg (by simpa using h)]
    obtain ⟨r, h1, h2, h3⟩ := csc_matvec_ok (y := List.replicate a.rows 0) ha.rep hm h (by simp)
    simp only [h1]
    congr 1
    apply List.ext_getElem?
    intro i
    by_cases hi : i < a.rows
    · rw [h3 i, List.getElem?_map, List.getElem?_range hi, List.getElem?_replicate, if_pos hi]
      simp only [Option.map_some, Option.some.injEq, zero_add]
      apply Finset.sum_congr rfl
      intro k hk
      rw [CSC.entry_of_rep ha.rep, if_pos (by simpa using hk)]
    · rw [List.getElem?_eq_none (by simp at h2; omega), List.getElem?_eq_none (by simp; omega)]

example : exCsc.WF .u8 ∧ exCsc.mat_vec [2, 20, 3] = .ok [14, 13] := ⟨exCsc_wf, by decide⟩

/-- C12 (operator). `A * x` on CSC. -/
theorem C12_csc_mul_vec [NonUnitalNonAssocSemiring T] (t : IntTy) (a : CSC T) (ha : a.WF t) (x : List T) :
    (x.length ≠ a.cols → a.mul_vec x = .error (.panic .unwrap)) ∧
    (x.length = a.cols → a.mul_vec x = .ok ((List.range a.rows).map fun i =>
      ∑ k ∈ Finset.range a.cols, a.entry i k * x.getD k 0)) := by
  obtain ⟨h1, h2⟩ := C12_csc_mat_vec t a ha x
  exact ⟨fun h => by unfold CSC.mul_vec; rw [h1 h]; rfl, fun h => by unfold CSC.mul_vec; rw [h2 h]; rfl⟩

/-- C12 (kernel). `csc_matvec` adds the product into `y`. -/
theorem C12_csc_matvec_kernel [NonUnitalNonAssocSemiring T] (t : IntTy) (a : CSC T) (ha : a.WF t) (x y : List T)
    (hx : x.length = a.cols) (hy : y.length = a.rows) :
    csc_matvec a.cols a.colptr a.rowidx a.values x y = .ok ((List.range a.rows).map fun i =>
      y.getD i 0 + ∑ k ∈ Finset.range a.cols, a.entry i k * x.getD k 0) := by
  have hm : ∀ i < a.cols, ∀ e ∈ a.col i, 0 ≤ e.1 ∧ e.1 < a.rows := fun i hi e he =>
    ⟨(ha.mem hi he).1, (ha.mem hi he).2.1⟩
  obtain ⟨r, h1, h2, h3⟩ := csc_matvec_ok ha.rep hm hx hy.ge
  rw [h1]
  congr 1
  apply List.ext_getElem?
  intro i
  by_cases hi : i < a.rows
  · have hiy : i < y.length := by omega
    rw [h3 i, List.getElem?_map, List.getElem?_range hi, Option.map_some,
      List.getD_eq_getElem?_getD, List.getElem?_eq_getElem hiy]
    simp only [Option.map_some, Option.some.injEq, Option.getD_some]
    congr 1
  · rw [List.getElem?_eq_none (by omega), List.getElem?_eq_none (by simp; omega)]

/-- C12 (Coo kernel). `coo_matvec` adds the product into `y`. -/
theorem C12_coo_matvec_kernel [NonUnitalNonAssocSemiring T] (t : IntTy) (a : Coo T) (ha : a.WF t) (x y : List T)
    (hx : x.length = a.cols) (hy : y.length = a.rows) :
    coo_matvec a.values.length a.rowidx a.colidx a.values x y = .ok ((List.range a.rows).map fun i =>
      y.getD i 0 + ∑ k ∈ Finset.range a.cols, a.entry i k * x.getD k 0) := by
  rw [← Coo.triples_length ha]
  obtain ⟨r, h1, h2, h3⟩ := coo_matvec_ok (E := a.triples) (n := a.rows) (m := a.cols)
    (fun k e he => Coo.triples_get he)
    (fun e he => ⟨(Coo.triples_mem ha he).1.1, (Coo.triples_mem ha he).1.2.1⟩)
    (fun e he => ⟨(Coo.triples_mem ha he).2.1, (Coo.triples_mem ha he).2.2.1⟩) hx hy.ge
  rw [h1]
  congr 1
  apply List.ext_getElem?
  intro i
  by_cases hi : i < a.rows
  · have hiy : i < y.length := by omega
    rw [h3 i, List.getElem?_map, List.getElem?_range hi, Option.map_some,
      List.getD_eq_getElem?_getD, List.getElem?_eq_getElem hiy]
    rfl
  · rw [List.getElem?_eq_none (by omega), List.getElem?_eq_none (by simp; omega)]

example : exCoo.WF .u8 ∧ [1, 2, (3 : Int)].length = exCoo.cols ∧ [4, (5 : Int)].length = exCoo.rows :=
  ⟨exCoo_wf, rfl, rfl⟩

/-! ### C24 -/

/-- C24 (CSR). `CSR::diagonal`. -/
theorem C24_csr_diagonal [AddCommMonoid T] (t : IntTy) (a : CSR T) (ha : a.WF t) :
    a.diagonal = .ok ((List.range (min a.rows a.cols)).map fun i => a.entry i i) := by
  unfold CSR.diagonal
  obtain ⟨r, h1, h2, h3, h4⟩ := csr_diagonal_ok (k := 0) (m := a.cols) (y := List.replicate (min a.rows a.cols) 0)
    ha.rep (fun i hi e he => (ha.mem hi he).1) (by simp) (by simp) (by simp)
  rw [h1]
  congr 1
  apply List.ext_getElem?
  intro i
  simp only [Int.neg_zero, Int.toNat_zero, Nat.sub_zero, Nat.zero_add] at h3 h4
  by_cases hi : i < min a.rows a.cols
  · rw [h3 i hi, List.getElem?_map, List.getElem?_range hi, Option.map_some, CSR.entry_of_rep ha.rep, if_pos (by omega)]
  · rw [h4 i (by omega), List.getElem?_eq_none (by simp; omega), List.getElem?_eq_none (by simp; omega)]

example : ∃ a : CSR Int, a.WF .u8 ∧ a.diagonal = .ok [7, 0, 0] := ⟨_, exCsr_wf, by decide⟩

/-- C24 (CSC). `CSC::diagonal`. -/
theorem C24_csc_diagonal [AddCommMonoid T] (t : IntTy) (a : CSC T) (ha : a.WF t) :
    a.diagonal = .ok ((List.range (min a.rows a.cols)).map fun i => a.entry i i) := by
  unfold CSC.diagonal
  obtain ⟨r, h1, h2, h3, h4⟩ := csr_diagonal_ok (k := 0) (m := a.rows) (y := List.replicate (min a.rows a.cols) 0)
    ha.rep (fun i hi e he => (ha.mem hi he).1) (by simp) (by simp) (by simp)
  rw [h1]
  congr 1
  apply List.ext_getElem?
  intro i
  simp only [Int.neg_zero, Int.toNat_zero, Nat.sub_zero, Nat.zero_add] at h3 h4
  by_cases hi : i < min a.rows a.cols
  · rw [h3 i (by omega), List.getElem?_map, List.getElem?_range hi, Option.map_some, CSC.entry_of_rep ha.rep, if_pos (by omega)]
  · rw [h4 i (by omega), List.getElem?_eq_none (by simp; omega), List.getElem?_eq_none (by simp; omega)]

example : exCsc.WF .u8 ∧ exCsc.diagonal = .ok [7, 0] := ⟨exCsc_wf, by decide⟩

theorem Coo.diagonal_exact [Zero T] [Add T] {t : IntTy} {a : Coo T} (ha : a.WF t) :
    Ok a.diagonal fun r => r = accum (List.replicate (min a.rows a.cols) 0)
      ((a.triples.filter fun e => decide (e.1 = e.2.1)).map fun e => (e.1, e.2.2)) := by
  unfold Coo.diagonal
  rw [show a.values.length = a.triples.length from (Coo.triples_length ha).symm]
  wp
  refine Ok_forOff (E := a.triples) (by simp) (fun pre s => s = accum (List.replicate (min a.rows a.cols) 0)
      ((pre.filter fun e => decide (e.1 = e.2.1)).map fun e => (e.1, e.2.2))) rfl ?_ (fun s hs => hs)
  rintro pre e suf s hE hs
  have hg := Coo.triples_get (a := a) (k := pre.length) (e := e) (by rw [hE]; simp)
  have he := Coo.triples_mem ha (show e ∈ a.triples by rw [hE]; simp)
  have hlen : s.length = min a.rows a.cols := by rw [hs]; simp
  rw [Nat.zero_add]
  wp
  rds [hg.1, hg.2.1]
  rw [Ok_ite]
  constructor
  · intro h
    wp
    rds [hg.2.2]
    refine ⟨he.1.1, s[e.1.toNat]'(by omega), by simp, by omega, _, rfl, ?_⟩
    rw [set_add_eq_modify (by simp), List.filter_append, List.map_append, accum_append, ← hs]
    simp [h, accum_one]
  · intro h
    wp
    refine ⟨_, rfl, ?_⟩
    rw [hs, List.filter_append]
    simp [h]

/-- C24 (Coo). `Coo::diagonal`. -/
theorem C24_coo_diagonal [AddCommMonoid T] (t : IntTy) (a : Coo T) (ha : a.WF t) :
    a.diagonal = .ok ((List.range (min a.rows a.cols)).map fun i => a.entry i i) := by
  obtain ⟨r, h1, h2⟩ := Coo.diagonal_exact ha
  rw [h1, h2]
  congr 1
  apply List.ext_getElem?
  intro i
  rw [accum_get, List.getElem?_map]
  · by_cases hi : i < min a.rows a.cols
    · rw [List.getElem?_replicate, if_pos hi, List.getElem?_range hi]
      simp only [Option.map_some, zero_add, Option.some.injEq]
      rw [Coo.entry_eq_tripSum]
      generalize a.triples = E
      induction E with
      | nil => simp [tripSum]
      | cons e E ih =>
        rw [tripSum_cons, ← ih, List.filter_cons]
        by_cases h : e.1 = e.2.1
        · rw [if_pos (by simpa using h), List.map_cons, rowSum_cons]
          congr 1
          simp only [← h, and_self]
        · rw [if_neg (by simpa using h), if_neg (by omega), zero_add]
    · rw [List.getElem?_replicate, if_neg hi, List.getElem?_eq_none (by simp; omega)]
      simp
  · intro e he
    rw [List.mem_map] at he
    obtain ⟨f, hf, rfl⟩ := he
    exact (Coo.triples_mem ha (List.mem_of_mem_filter hf)).1.1

example : exCoo.WF .u8 := exCoo_wf

/-- C24 (kernels). `csr_diagonal` with offset `k` inside the matrix writes the `k`-th diagonal into the
first elements of its output. -/
theorem C24_csr_diagonal_kernel [AddCommMonoid T] (t : IntTy) (a : CSR T) (ha : a.WF t) (k : Int) (y : List T)
    (h1 : (-k).toNat ≤ a.rows) (h2 : k.toNat ≤ a.cols)
    (hy : y.length = min (a.rows - (-k).toNat) (a.cols - k.toNat)) :
    csr_diagonal k a.rows a.cols a.rowptr a.colidx a.values y =
      .ok ((List.range y.length).map fun i => a.entry (i + (max 0 (-k)).toNat) (i + (max 0 k).toNat)) := by
  obtain ⟨r, g1, g2, g3, g4⟩ := csr_diagonal_ok (m := a.cols) (y := y) ha.rep
    (fun i hi e he => (ha.mem hi he).1) h1 h2 hy.ge
  rw [g1]
  congr 1
  apply List.ext_getElem?
  intro i
  by_cases hi : i < y.length
  · rw [g3 i (by omega), List.getElem?_map, List.getElem?_range hi, Option.map_some, CSR.entry_of_rep ha.rep,
      if_pos (by omega), show (-k).toNat + i = i + (max 0 (-k)).toNat by omega,
      show k.toNat + i = i + (max 0 k).toNat by omega]
  · rw [List.getElem?_eq_none (by omega), List.getElem?_eq_none (by simp; omega)]

example : exCan.WF .i8 ∧ (-(-1 : Int)).toNat ≤ exCan.rows ∧ (-1 : Int).toNat ≤ exCan.cols ∧
    csr_diagonal 1 exCan.rows exCan.cols exCan.rowptr exCan.colidx exCan.values [0] = .ok [7] :=
  ⟨exCan_wf, by decide, by decide, by decide⟩

/-- C24 (kernels). `csc_diagonal` with offset `k` on the arrays of a CSC matrix. -/
theorem C24_csc_diagonal_kernel [AddCommMonoid T] (t : IntTy) (a : CSC T) (ha : a.WF t) (k : Int) (y : List T)
    (h1 : (-k).toNat ≤ a.rows) (h2 : k.toNat ≤ a.cols)
    (hy : y.length = min (a.rows - (-k).toNat) (a.cols - k.toNat)) :
    csc_diagonal k a.rows a.cols a.colptr a.rowidx a.values y =
      .ok ((List.range y.length).map fun i => a.entry (i + (max 0 (-k)).toNat) (i + (max 0 k).toNat)) := by
  unfold csc_diagonal
  obtain ⟨r, g1, g2, g3, g4⟩ := csr_diagonal_ok (k := -k) (m := a.rows) (y := y) ha.rep
    (fun i hi e he => (ha.mem hi he).1) (by simpa using h2) h1 (by rw [Int.neg_neg]; omega)
  rw [g1]
  congr 1
  apply List.ext_getElem?
  intro i
  rw [Int.neg_neg] at g3
  by_cases hi : i < y.length
  · rw [g3 i (by omega), List.getElem?_map, List.getElem?_range hi, Option.map_some, CSC.entry_of_rep ha.rep,
      if_pos (by omega), show (-k).toNat + i = i + (max 0 (-k)).toNat by omega,
      show k.toNat + i = i + (max 0 k).toNat by omega]
  · rw [List.getElem?_eq_none (by omega), List.getElem?_eq_none (by simp; omega)]

/-- C24 (offsets outside the matrix): the kernel panics instead of returning an empty diagonal. -/
theorem C24_diagonal_out_of_range [AddCommMonoid T] (a : CSR T) (k : Int) (y : List T)
    (h : a.rows < (-k).toNat ∨ a.cols < k.toNat) :
    csr_diagonal k a.rows a.cols a.rowptr a.colidx a.values y = .error (.panic .arith) := by
  unfold csr_diagonal
  have e1 : (if k ≥ 0 then 0 else (-1 * k).toNat) = (-k).toNat := by split <;> omega
  have e2 : (if k ≥ 0 then k.toNat else 0) = k.toNat := by split <;> omega
  simp only [e1, e2]
  unfold usub
  by_cases h1 : (-k).toNat ≤ a.rows
  · rw [if_pos h1, pure_bind, if_neg (by omega)]; rfl
  · rw [if_neg h1]; rfl

/-! ### C39, C40 -/

/-- C39 (rows). `csr_scale_rows` multiplies row `i` by `x[i]`; pointers and indices are not touched. -/
theorem C39_csr_scale_rows [NonUnitalNonAssocSemiring T] (t : IntTy) (a : CSR T) (ha : a.WF t) (x : List T)
    (hx : a.rows ≤ x.length) :
    ∃ v, csr_scale_rows a.rows a.rowptr a.values x = .ok v ∧ v.length = a.values.length ∧
      ({ a with values := v } : CSR T).WF t ∧
      (∀ i < a.rows, ({ a with values := v } : CSR T).row i = (a.row i).map fun e => (e.1, e.2 * x.getD i 0)) ∧
      ∀ i j, ({ a with values := v } : CSR T).entry i j = a.entry i j * x.getD i 0 := by
  obtain ⟨v, h1, h2, h3⟩ := csr_scale_rows_ok ha.rep hx
  refine ⟨v, h1, h2, ?_, ?_, ?_⟩
  · refine h3.wf (fun i hi e he => ?_) ?_
    · rw [List.mem_map] at he
      obtain ⟨f, hf, rfl⟩ := he
      exact ha.mem (e := f) hi hf
    · rw [flat_length_congr (S := a.row) fun i _ => by simp]
      exact ha.fits
  · intro i hi
    exact CSR.row_of_rep (a := { a with values := v }) h3 hi
  · intro i j
    rw [CSR.entry_of_rep (a := { a with values := v }) h3, CSR.entry_of_rep ha.rep, rowSum_map_mul]
    split <;> simp

theorem rowSum_map_scale [NonUnitalNonAssocSemiring T] {r : List (Int × T)} (h : ∀ e ∈ r, 0 ≤ e.1) (x : List T) (j : Nat) :
    rowSum (r.map fun e => (e.1, e.2 * x.getD e.1.toNat 0)) j = rowSum r j * x.getD j 0 := by
  induction r with
  | nil => simp
  | cons e r ih =>
    rw [List.map_cons, rowSum_cons, rowSum_cons, ih (fun f hf => h f (by simp [hf])), add_mul]
    congr 1
    by_cases he : e.1 = (j : Int)
    · simp [he]
    · simp [he]

/-- C39 (columns). `csr_scale_columns` multiplies column `j` by `x[j]`. -/
theorem C39_csr_scale_columns [NonUnitalNonAssocSemiring T] (t : IntTy) (a : CSR T) (ha : a.WF t) (x : List T)
    (hx : a.cols ≤ x.length) :
    ∃ v, csr_scale_columns a.rows a.rowptr a.colidx a.values x = .ok v ∧ v.length = a.values.length ∧
      ({ a with values := v } : CSR T).WF t ∧
      (∀ i < a.rows, ({ a with values := v } : CSR T).row i =
        (a.row i).map fun e => (e.1, e.2 * x.getD e.1.toNat 0)) ∧
      ∀ i j, ({ a with values := v } : CSR T).entry i j = a.entry i j * x.getD j 0 := by
  have hm : ∀ i < a.rows, ∀ e ∈ a.row i, 0 ≤ e.1 ∧ e.1 < a.cols := fun i hi e he =>
    ⟨(ha.mem hi he).1, (ha.mem hi he).2.1⟩
  obtain ⟨v, h1, h2, h3⟩ := csr_scale_columns_ok ha.rep hm hx
  refine ⟨v, h1, h2, ?_, ?_, ?_⟩
  · refine h3.wf (fun i hi e he => ?_) ?_
    · rw [List.mem_map] at he
      obtain ⟨f, hf, rfl⟩ := he
      exact ha.mem (e := f) hi hf
    · rw [flat_length_congr (S := a.row) fun i _ => by simp]
      exact ha.fits
  · intro i hi
    exact CSR.row_of_rep (a := { a with values := v }) h3 hi
  · intro i j
    rw [CSR.entry_of_rep (a := { a with values := v }) h3, CSR.entry_of_rep ha.rep]
    split
    · rename_i hi
      rw [rowSum_map_scale fun e he => (hm i hi e he).1]
    · simp

example : ∃ a : CSR Int, a.WF .u8 ∧ a.rows ≤ [1, 2, (3 : Int)].length ∧ a.cols ≤ [1, 2, (3 : Int)].length :=
  ⟨_, exCsr_wf, by decide, by decide⟩

/-- C40 (CSR). `csr_matvecs` adds `A X` into `Y` for `nv` vectors stored row by row, touching only the
first `nv * rows` elements. -/
theorem C40_csr_matvecs [NonUnitalNonAssocSemiring T] (t : IntTy) (a : CSR T) (ha : a.WF t) (nv : Nat) (x y : List T)
    (hx : nv * a.cols ≤ x.length) (hy : nv * a.rows ≤ y.length) :
    ∃ r, csr_matvecs a.rows nv a.rowptr a.colidx a.values x y = .ok r ∧ r.length = y.length ∧
      (∀ i < a.rows, ∀ q < nv, r[nv * i + q]? = y[nv * i + q]?.map
        (· + ∑ k ∈ Finset.range a.cols, a.entry i k * x.getD (nv * k + q) 0)) ∧
      ∀ k, nv * a.rows ≤ k → r[k]? = y[k]? := by
  have hm : ∀ i < a.rows, ∀ e ∈ a.row i, 0 ≤ e.1 ∧ e.1 < a.cols := fun i hi e he =>
    ⟨(ha.mem hi he).1, (ha.mem hi he).2.1⟩
  obtain ⟨r, h1, h2, h3, h4⟩ := csr_matvecs_ok ha.rep hm hx hy
  refine ⟨r, h1, h2, fun i hi q hq => ?_, h4⟩
  exact h3 i hi q hq

example : ∃ (a : CSR Int) (x y : List Int), a.WF .u8 ∧ 2 * a.cols ≤ x.length ∧ 2 * a.rows ≤ y.length :=
  ⟨_, [1, 2, 3, 4, 5, 6], [0, 0, 0, 0, 0, 0, 7], exCsr_wf, by decide, by decide⟩

/-- C40 (CSC). `csc_matvecs`. -/
theorem C40_csc_matvecs [NonUnitalNonAssocSemiring T] (t : IntTy) (a : CSC T) (ha : a.WF t) (nv : Nat) (x y : List T)
    (hx : nv * a.cols ≤ x.length) (hy : nv * a.rows ≤ y.length) :
    ∃ r, csc_matvecs a.cols nv a.colptr a.rowidx a.values x y = .ok r ∧ r.length = y.length ∧
      (∀ i < a.rows, ∀ q < nv, r[nv * i + q]? = y[nv * i + q]?.map
        (· + ∑ k ∈ Finset.range a.cols, a.entry i k * x.getD (nv * k + q) 0)) ∧
      ∀ k, nv * a.rows ≤ k → r[k]? = y[k]? := by
  have hm : ∀ i < a.cols, ∀ e ∈ a.col i, 0 ≤ e.1 ∧ e.1 < a.rows := fun i hi e he =>
    ⟨(ha.mem hi he).1, (ha.mem hi he).2.1⟩
  obtain ⟨r, h1, h2, h3, h4⟩ := csc_matvecs_ok ha.rep hm hx hy
  refine ⟨r, h1, h2, fun i hi q hq => ?_, h4⟩
  exact h3 i hi q hq

end
end Sparse

import Verif.Lemmas.Exact
import Verif.Props.Basic
/-! Properties C29 and C33 (Coo, CSR, CSC): eliminating zeros, building from dense arrays. -/
namespace Sparse

section
variable {T : Type}

/-! ### C29 -/

theorem rowSum_filter_ne [AddCommMonoid T] [DecidableEq T] (r : List (Int × T)) (j : Int) :
    rowSum (r.filter fun e => e.2 != 0) j = rowSum r j := by
  induction r with
  | nil => simp
  | cons e r ih =>
    rw [List.filter_cons]
    by_cases h : e.2 = 0
    · rw [if_neg (by simpa using h), rowSum_cons, ih, h]
      simp
    · rw [if_pos (by simpa using h), rowSum_cons, rowSum_cons, ih]

/-- C29. `csr_eliminate_zeros` removes exactly the stored zeros and keeps the order of the rest. -/
theorem C29_eliminate_zeros [AddCommMonoid T] [DecidableEq T] (t : IntTy) (a : CSR T) (ha : a.WF t) :
    ∃ p j x, csr_eliminate_zeros t a.rows a.rowptr a.colidx a.values = .ok (p, j, x) ∧
      (let r : CSR T := ⟨a.rows, a.cols, p, j, x⟩
       r.WF t ∧ (∀ i < a.rows, r.row i = (a.row i).filter fun e => e.2 != 0) ∧
       (∀ i j, r.entry i j = a.entry i j) ∧ (∀ k < r.stored, ∀ v, x[k]? = some v → v ≠ 0) ∧
       j.length = a.colidx.length ∧ x.length = a.values.length) := by
  obtain ⟨⟨p, j, x⟩, h1, h2, h3, h4⟩ := eliminate_zeros_ok ha.rep ha.fits
  refine ⟨p, j, x, h1, ?_⟩
  have hrep : Rep p j x a.rows (fun i => (a.row i).filter fun e => e.2 != 0) := h2
  refine ⟨?_, ?_, ?_, ?_, h3, h4⟩
  · refine hrep.wf ?_ ?_
    · intro i hi e he
      exact ha.mem hi (List.mem_of_mem_filter he)
    · have := flat_length_le (R := fun i => (a.row i).filter fun e => e.2 != 0) (S := a.row) (n := a.rows)
        fun i _ => List.length_filter_le _ _
      have := ha.fits
      omega
  · intro i hi
    exact CSR.row_of_rep (a := ⟨a.rows, a.cols, p, j, x⟩) hrep hi
  · intro i k
    rw [CSR.entry_of_rep (a := ⟨a.rows, a.cols, p, j, x⟩) hrep, CSR.entry_of_rep ha.rep]
    simp only [rowSum_filter_ne]
  · intro k hk v hv
    rw [CSR.stored_of_rep (a := ⟨a.rows, a.cols, p, j, x⟩) hrep] at hk
    obtain ⟨i, m, hi, hm, rfl⟩ := flat_locate hk
    have := (hrep.get hi (m := m) (e := ((a.row i).filter fun e => e.2 != 0)[m]) (by simp)).2
    rw [this] at hv
    cases hv
    have := List.getElem_mem hm
    rw [List.mem_filter] at this
    simpa using this.2

example : ∃ a : CSR Int, a.WF .u8 ∧ a.stored = 3 ∧ (0 : Int) ∈ a.values :=
  ⟨⟨2, 2, [0, 2, 3], [0, 1, 1], [0, 7, -3]⟩, CSR.wf_of (by decide), by decide, by decide⟩

/-! ### C33 -/

/-- the elements of a list that are not equal to zero, with their positions -/
def nzRow [Zero T] [BEq T] (r : List T) : List (Int × T) :=
  (r.zipIdx.filter fun p => p.1 != 0).map fun p => ((p.2 : Int), p.1)

theorem nzRow_append [Zero T] [BEq T] (r : List T) (v : T) :
    nzRow (r ++ [v]) = nzRow r ++ if v != 0 then [((r.length : Int), v)] else [] := by
  unfold nzRow
  rw [List.zipIdx_append, List.filter_append, List.map_append]
  congr 1
  cases h : v != 0 <;> simp [h]

theorem nzRow_length [Zero T] [BEq T] (r : List T) :
    (nzRow r).length = r.countP fun v => v != 0 := by
  induction r using List.reverseRecOn with
  | nil => rfl
  | append_singleton r v ih =>
    rw [nzRow_append, List.length_append, ih, List.countP_append]
    cases h : v != 0 <;> simp [h]

theorem nzRow_mem [Zero T] [BEq T] {r : List T} {e : Int × T} (h : e ∈ nzRow r) :
    0 ≤ e.1 ∧ e.1 < r.length ∧ (e.2 != 0) = true := by
  induction r using List.reverseRecOn with
  | nil => simp [nzRow] at h
  | append_singleton r v ih =>
    rw [nzRow_append, List.mem_append] at h
    rcases h with h | h
    · obtain ⟨h1, h2, h3⟩ := ih h
      simp only [List.length_append, List.length_singleton]
      exact ⟨h1, by omega, h3⟩
    · cases hv : v != 0
      · simp [hv] at h
      · simp [hv] at h
        subst h
        simp [hv]

theorem nzRow_sorted [Zero T] [BEq T] (r : List T) : (nzRow r).Pairwise fun e f => e.1 < f.1 := by
  induction r using List.reverseRecOn with
  | nil => simp [nzRow]
  | append_singleton r v ih =>
    rw [nzRow_append, List.pairwise_append]
    refine ⟨ih, ?_, ?_⟩
    · cases hv : v != 0 <;> simp [hv]
    · intro e he f hf
      have := nzRow_mem he
      cases hv : v != 0
      · simp [hv] at hf
      · simp [hv] at hf
        subst hf
        simp only
        omega

theorem valuesIn_nzRow [Zero T] [BEq T] (r : List T) (j : Nat) :
    valuesIn (nzRow r) j = (r[j]?.toList).filter (· != 0) := by
  induction r using List.reverseRecOn with
  | nil => rfl
  | append_singleton r v ih =>
    rw [nzRow_append, valuesIn_append, ih]
    have h3 : ∀ k : Int, valuesIn (if v != 0 then [((r.length : Int), v)] else []) k =
        if (r.length : Int) = k then [v].filter (· != 0) else [] := by
      intro k
      cases hv : v != 0
      · simp [hv]
      · simp only [if_true, valuesIn_cons, valuesIn_nil]
        split <;> simp [hv]
    rw [h3]
    by_cases h1 : j < r.length
    · rw [List.getElem?_append_left h1, if_neg (by omega), List.append_nil]
    · rw [List.getElem?_eq_none (by omega), List.getElem?_append_right (by omega)]
      by_cases h2 : j = r.length
      · subst h2; simp
      · rw [List.getElem?_eq_none (by simp; omega), if_neg (by omega)]; rfl

theorem rowSum_nzRow [AddCommMonoid T] [DecidableEq T] (r : List T) (j : Nat) :
    rowSum (nzRow r) j = r.getD j 0 := by
  change (valuesIn (nzRow r) j).sum = _
  rw [valuesIn_nzRow, List.getD_eq_getElem?_getD]
  cases r[j]? with
  | none => rfl
  | some v => by_cases h : v = 0 <;> simp [h]

/-- a dense array is determined by its elements -/
theorem dense_eq [Zero T] {A : List (List T)} {n : Nat} (h : ∀ r ∈ A, r.length = n) (f : Nat → Nat → T)
    (hf : ∀ i < A.length, ∀ j < n, f i j = (A.getD i []).getD j 0) : dense A.length n f = A := by
  unfold dense
  apply List.ext_getElem?
  intro i
  rw [List.getElem?_map]
  by_cases hi : i < A.length
  · rw [List.getElem?_range hi, Option.map_some, List.getElem?_eq_getElem hi]
    congr 1
    have hl := h A[i] (List.getElem_mem hi)
    apply List.ext_getElem?
    intro j
    rw [List.getElem?_map]
    by_cases hj : j < n
    · rw [List.getElem?_range hj, Option.map_some, hf i hi j hj, List.getD_eq_getElem?_getD (l := A), List.getElem?_eq_getElem hi,
        Option.getD_some, List.getD_eq_getElem?_getD, List.getElem?_eq_getElem (by omega)]
      simp
    · rw [List.getElem?_eq_none (by simp; omega), List.getElem?_eq_none (by omega)]
      rfl
  · rw [List.getElem?_eq_none (by simp; omega), List.getElem?_eq_none (by omega)]
    rfl

/-- the number of elements of a dense array that are not equal to zero -/
def denseNnz [Zero T] [BEq T] (A : List (List T)) : Nat := A.flatten.countP fun v => v != 0

theorem flat_getD {α : Type} (A : List (List T)) (f : List T → List α) :
    flat (fun i => f (A.getD i [])) A.length = A.flatMap f := by
  induction A using List.reverseRecOn with
  | nil => simp
  | append_singleton A r ih =>
    rw [List.length_append, List.length_singleton, flat_succ, List.flatMap_append, ← ih]
    congr 1
    · refine flat_congr fun i hi => ?_
      rw [List.getD_eq_getElem?_getD, List.getD_eq_getElem?_getD, List.getElem?_append_left hi]
    · rw [List.getD_eq_getElem?_getD]; simp

theorem flat_getD_nz [Zero T] [BEq T] (A : List (List T)) :
    (flat (fun i => nzRow (A.getD i [])) A.length).length = denseNnz A := by
  rw [flat_getD A nzRow]
  unfold denseNnz
  induction A with
  | nil => rfl
  | cons r A ih => rw [List.flatMap_cons, List.length_append, ih, nzRow_length, List.flatten_cons, List.countP_append]

theorem csr_from_dense_ok [Zero T] [BEq T] (t : IntTy) (A : List (List T)) (n : Nat)
    (hA : A ≠ []) (hrect : ∀ r ∈ A, r.length = n) (hc : (n : Int) ≤ t.hi + 1) (hz : (denseNnz A : Int) ≤ t.hi) :
    ∃ r, CSR.from_dense t A = .ok r ∧ r.WF t ∧ r.Canonical ∧ r.rows = A.length ∧ r.cols = n ∧
      r.stored = denseNnz A ∧ r.colidx.length = r.stored ∧ r.values.length = r.stored ∧
      (∀ v ∈ r.values, (v != 0) = true) ∧
      ∀ i j, r.valuesAt i j = ((A.getD i [])[j]?.toList).filter (· != 0) := by
  let R : Nat → List (Int × T) := fun i => nzRow (A.getD i [])
  have hR : (flat R A.length).length = denseNnz A := flat_getD_nz A
  have hrow : ∀ i < A.length, ∃ r, A[i]? = some r ∧ r.length = n ∧ R i = nzRow r := by
    intro i hi
    refine ⟨A[i], by simp, hrect _ (List.getElem_mem hi), ?_⟩
    simp only [R, List.getD_eq_getElem?_getD, List.getElem?_eq_getElem hi]
    rfl
  have hlen0 : 0 < A.length := List.length_pos_iff.2 hA
  have h : Ok (CSR.from_dense t A) fun r => r.rows = A.length ∧ r.cols = n ∧
      r.colidx = (flat R A.length).map (·.1) ∧ r.values = (flat R A.length).map (·.2) ∧
      r.rowptr.length = A.length + 1 ∧ ∀ i ≤ A.length, r.rowptr[i]? = some ((flat R i).length : Int) := by
    unfold CSR.from_dense
    obtain ⟨r0, g0, g1, -⟩ := hrow 0 hlen0
    wp
    refine ⟨r0, g0, ?_⟩
    rw [g1]
    refine Ok_forRange (fun i s => (s.1.length = i ∧ ∀ k < i, s.1[k]? = some ((flat R k).length : Int)) ∧
      s.2.1 = (flat R i).map (·.1) ∧ s.2.2.1 = (flat R i).map (·.2) ∧ s.2.2.2 = (flat R i).length) (by omega)
      ⟨by simp, by simp, by simp, by simp⟩ ?_ ?_
    · rintro i ⟨rp, cj, vs, ip⟩ - hi ⟨⟨h1, h2⟩, rfl, rfl, rfl⟩
      simp only at h1 h2
      obtain ⟨r, f0, f1, f2⟩ := hrow i hi
      have hmono : (flat R i).length ≤ (flat R A.length).length := flat_length_mono R hi.le
      wp
      refine ⟨by omega, ?_⟩
      refine Ok_forOff (E := r) (o := 0) (by omega) (fun pre s => s.1 = (flat R i ++ nzRow pre).map (·.1) ∧
        s.2.1 = (flat R i ++ nzRow pre).map (·.2) ∧ s.2.2 = (flat R i ++ nzRow pre).length)
        ⟨by simp [nzRow], by simp [nzRow], by simp [nzRow]⟩ ?_ ?_
      · rintro pre v suf ⟨s1, s2, s3⟩ hE ⟨rfl, rfl, rfl⟩
        have hv : r[pre.length]? = some v := by rw [hE]; simp
        have hl : pre.length < n := by rw [← f1, hE]; simp
        rw [Nat.zero_add]
        wp
        rds [f0, hv]
        rw [Ok_ite]
        constructor
        · intro h
          wp
          rds [f0, hv]
          refine ⟨by omega, _, rfl, ?_⟩
          rw [nzRow_append, if_pos (by simpa using h)]
          simp
          omega
        · intro h
          wp
          refine ⟨_, rfl, ?_⟩
          rw [nzRow_append, if_neg (by simpa using h)]
          simp
      · rintro ⟨s1, s2, s3⟩ ⟨rfl, rfl, rfl⟩
        wp
        refine ⟨_, rfl, ?_⟩
        rw [flat_succ, f2]
        refine ⟨⟨by simp [h1], ?_⟩, rfl, rfl, rfl⟩
        intro k hk
        simp only
        by_cases hki : k < i
        · rw [List.getElem?_append_left (by omega)]
          exact h2 k hki
        · have : k = i := by omega
          subst this
          rw [List.getElem?_append_right (by omega)]
          simp [h1]
    · rintro ⟨rp, cj, vs, ip⟩ ⟨⟨h1, h2⟩, rfl, rfl, rfl⟩
      simp only at h1 h2
      wp
      refine ⟨by omega, ?_⟩
      have hptr : ∀ i ≤ A.length, (rp ++ [((flat R A.length).length : Int)])[i]? = some ((flat R i).length : Int) := by
        intro k hk
        by_cases hki : k < A.length
        · rw [List.getElem?_append_left (by omega)]
          exact h2 k hki
        · have : k = A.length := by omega
          subst this
          rw [List.getElem?_append_right (by omega)]
          simp [h1]
      have hrep : Rep (rp ++ [((flat R A.length).length : Int)]) ((flat R A.length).map (·.1)) ((flat R A.length).map (·.2))
          A.length R := by
        refine ⟨by simp [h1], hptr, ?_⟩
        rw [List.zip_map']
        simp
      refine (CSR.prune_ok (a := ⟨A.length, n, rp ++ [((flat R A.length).length : Int)], (flat R A.length).map (·.1),
        (flat R A.length).map (·.2)⟩) hrep).mono ?_
      rintro r rfl
      refine ⟨rfl, rfl, ?_, ?_, by simp [h1], hptr⟩
      · exact List.take_of_length_le (by simp)
      · exact List.take_of_length_le (by simp)
  obtain ⟨r, hr, h1, h2, h3, h4, h5, h6⟩ := h
  have hrep : Rep r.rowptr r.colidx r.values r.rows R := by
    rw [h1]
    refine ⟨h5, h6, ?_⟩
    rw [h3, h4, List.zip_map']
    simp
  have hwf : r.WF t := by
    refine hrep.wf ?_ ?_
    · intro i hi e he
      obtain ⟨r', f0, f1, f2⟩ := hrow i (by omega)
      rw [f2] at he
      have := nzRow_mem he
      omega
    · rw [h1]; omega
  have hst : r.stored = (flat R A.length).length := by rw [CSR.stored_of_rep hrep, h1]
  refine ⟨r, hr, hwf, ?_, h1, h2, by omega, by rw [h3]; simp; omega, by rw [h4]; simp; omega, ?_, ?_⟩
  · intro i hi
    rw [CSR.row_of_rep hrep hi]
    exact nzRow_sorted _
  · intro v hv
    rw [h4, List.mem_map] at hv
    obtain ⟨e, he, rfl⟩ := hv
    obtain ⟨i, hi, he⟩ := mem_flat.1 he
    exact (nzRow_mem he).2.2
  · intro i j
    rw [CSR.valuesAt_of_rep hrep]
    split
    · exact valuesIn_nzRow _ _
    · rw [List.getD_eq_getElem?_getD, List.getElem?_eq_none (l := A) (by omega)]; rfl

/-- C33 (CSR). `CSR::from_dense` of every non-empty rectangular array. -/
theorem C33_csr_from_dense [AddCommMonoid T] [DecidableEq T] (t : IntTy) (A : List (List T)) (n : Nat)
    (hA : A ≠ []) (hrect : ∀ r ∈ A, r.length = n) (hc : (n : Int) ≤ t.hi + 1) (hz : (denseNnz A : Int) ≤ t.hi) :
    ∃ r, CSR.from_dense t A = .ok r ∧ r.WF t ∧ r.Canonical ∧ r.rows = A.length ∧ r.cols = n ∧
      r.to_dense = .ok A ∧ r.stored = denseNnz A ∧ r.colidx.length = r.stored ∧ r.values.length = r.stored ∧
      ∀ v ∈ r.values, v ≠ 0 := by
  obtain ⟨r, h0, h1, h2, h3, h4, h5, h6, h7, h8, h9⟩ := csr_from_dense_ok t A n hA hrect hc hz
  refine ⟨r, h0, h1, h2, h3, h4, ?_, h5, h6, h7, fun v hv => by simpa using h8 v hv⟩
  rw [C06_csr_to_dense t r h1, h3, h4]
  congr 1
  apply dense_eq hrect
  intro i hi j hj
  change (r.valuesAt i j).sum = _
  rw [h9, ← valuesIn_nzRow]
  exact rowSum_nzRow _ _

example : ∃ A : List (List Int), A ≠ [] ∧ (∀ r ∈ A, r.length = 3) ∧ denseNnz A = 2 :=
  ⟨[[0, 5, 0], [0, 0, -1]], by decide, by decide, by decide⟩

/-- C33: an empty array makes `CSR::from_dense` and `CSC::from_dense` panic. -/
theorem C33_from_dense_empty [Zero T] [BEq T] (t : IntTy) :
    CSR.from_dense t ([] : List (List T)) = .error (.panic .oob) ∧
    CSC.from_dense t ([] : List (List T)) = .error (.panic .oob) := ⟨rfl, rfl⟩

/-- column `j` of a dense array -/
def colList [Zero T] (A : List (List T)) (j : Nat) : List T := A.map fun r => r.getD j 0

theorem sum_countP_swap [Zero T] [BEq T] (A : List (List T)) (n : Nat) (hrect : ∀ r ∈ A, r.length = n) :
    (flat (fun j => nzRow (colList A j)) n).length = denseNnz A := by
  unfold denseNnz
  induction A with
  | nil =>
    rw [flat_length_congr (S := fun _ => ([] : List T)) fun i _ => by simp [colList, nzRow]]
    have : flat (fun _ => ([] : List T)) n = [] := by
      rw [List.eq_nil_iff_forall_not_mem]; intro a ha
      obtain ⟨i, -, h⟩ := mem_flat.1 ha
      simp at h
    rw [this]; rfl
  | cons r A ih =>
    rw [List.flatten_cons, List.countP_append, ← ih fun r' hr' => hrect r' (by simp [hr'])]
    have hr := hrect r (by simp)
    have e : ∀ j, (nzRow (colList (r :: A) j)).length = (if r.getD j 0 != 0 then 1 else 0) + (nzRow (colList A j)).length := by
      intro j
      rw [nzRow_length, nzRow_length]
      unfold colList
      rw [List.map_cons, List.countP_cons]
      omega
    have e2 : ∀ m ≤ n, (flat (fun j => nzRow (colList (r :: A) j)) m).length =
        (r.take m).countP (fun v => v != 0) + (flat (fun j => nzRow (colList A j)) m).length := by
      intro m
      induction m with
      | zero => simp
      | succ m ihm =>
        intro hm
        have hmr : m < r.length := by omega
        rw [flat_length_succ, flat_length_succ, ihm (by omega), e, List.take_add_one, List.countP_append,
          List.getD_eq_getElem?_getD, List.getElem?_eq_getElem hmr]
        simp only [Option.getD_some, Option.toList_some, List.countP_cons, List.countP_nil]
        omega
    rw [e2 n (le_refl _), List.take_of_length_le (by omega)]

theorem csc_from_dense_ok [Zero T] [BEq T] (t : IntTy) (A : List (List T)) (n : Nat)
    (hA : A ≠ []) (hrect : ∀ r ∈ A, r.length = n) (hc : (A.length : Int) ≤ t.hi + 1) (hc' : (n : Int) ≤ t.hi + 1)
    (hz : (denseNnz A : Int) ≤ t.hi) :
    ∃ r, CSC.from_dense t A = .ok r ∧ r.WF t ∧ r.Canonical ∧ r.rows = A.length ∧ r.cols = n ∧
      r.stored = denseNnz A ∧ r.rowidx.length = r.stored ∧ r.values.length = r.stored ∧
      (∀ v ∈ r.values, (v != 0) = true) ∧
      ∀ i j, r.valuesAt i j = ((A.getD i [])[j]?.toList).filter (· != 0) := by
  let R : Nat → List (Int × T) := fun j => nzRow (colList A j)
  have hR : (flat R n).length = denseNnz A := sum_countP_swap A n hrect
  have hlen0 : 0 < A.length := List.length_pos_iff.2 hA
  have h : Ok (CSC.from_dense t A) fun r => r.rows = A.length ∧ r.cols = n ∧
      r.rowidx = (flat R n).map (·.1) ∧ r.values = (flat R n).map (·.2) ∧
      r.colptr.length = n + 1 ∧ ∀ i ≤ n, r.colptr[i]? = some ((flat R i).length : Int) := by
    unfold CSC.from_dense
    wp
    refine ⟨A[0], by simp, ?_⟩
    rw [hrect A[0] (List.getElem_mem hlen0)]
    refine Ok_forRange (fun i s => (s.1.length = i ∧ ∀ k < i, s.1[k]? = some ((flat R k).length : Int)) ∧
      s.2.1 = (flat R i).map (·.1) ∧ s.2.2.1 = (flat R i).map (·.2) ∧ s.2.2.2 = (flat R i).length) (by omega)
      ⟨by simp, by simp, by simp, by simp⟩ ?_ ?_
    · rintro i ⟨rp, cj, vs, ip⟩ - hi ⟨⟨h1, h2⟩, rfl, rfl, rfl⟩
      simp only at h1 h2
      have hmono : (flat R i).length ≤ (flat R n).length := flat_length_mono R hi.le
      wp
      refine ⟨by omega, ?_⟩
      refine Ok_forOff (E := colList A i) (o := 0) (by simp [colList]) (fun pre s =>
        s.1 = (flat R i ++ nzRow pre).map (·.1) ∧ s.2.1 = (flat R i ++ nzRow pre).map (·.2) ∧
        s.2.2 = (flat R i ++ nzRow pre).length)
        ⟨by simp [nzRow], by simp [nzRow], by simp [nzRow]⟩ ?_ ?_
      · rintro pre v suf ⟨s1, s2, s3⟩ hE ⟨rfl, rfl, rfl⟩
        have hv : (colList A i)[pre.length]? = some v := by rw [hE]; simp
        have hl : pre.length < A.length := by
          have := congrArg List.length hE
          simp [colList] at this; omega
        obtain ⟨r, f0, f1⟩ : ∃ r, A[pre.length]? = some r ∧ r[i]? = some v := by
          refine ⟨A[pre.length], by simp, ?_⟩
          have hrl := hrect A[pre.length] (List.getElem_mem hl)
          unfold colList at hv
          rw [List.getElem?_map, List.getElem?_eq_getElem hl, Option.map_some, List.getD_eq_getElem?_getD,
            List.getElem?_eq_getElem (by omega)] at hv
          rw [List.getElem?_eq_getElem (by omega)]
          exact hv
        rw [Nat.zero_add]
        wp
        rds [f0, f1]
        rw [Ok_ite]
        constructor
        · intro h
          wp
          rds [f0, f1]
          refine ⟨by omega, _, rfl, ?_⟩
          rw [nzRow_append, if_pos (by simpa using h)]
          simp
          omega
        · intro h
          wp
          refine ⟨_, rfl, ?_⟩
          rw [nzRow_append, if_neg (by simpa using h)]
          simp
      · rintro ⟨s1, s2, s3⟩ ⟨rfl, rfl, rfl⟩
        wp
        refine ⟨_, rfl, ?_⟩
        rw [flat_succ]
        refine ⟨⟨by simp [h1], ?_⟩, rfl, rfl, rfl⟩
        intro k hk
        simp only
        by_cases hki : k < i
        · rw [List.getElem?_append_left (by omega)]
          exact h2 k hki
        · have : k = i := by omega
          subst this
          rw [List.getElem?_append_right (by omega)]
          simp [h1]
    · rintro ⟨rp, cj, vs, ip⟩ ⟨⟨h1, h2⟩, rfl, rfl, rfl⟩
      simp only at h1 h2
      wp
      refine ⟨by omega, ?_⟩
      have hptr : ∀ i ≤ n, (rp ++ [((flat R n).length : Int)])[i]? = some ((flat R i).length : Int) := by
        intro k hk
        by_cases hki : k < n
        · rw [List.getElem?_append_left (by omega)]
          exact h2 k hki
        · have : k = n := by omega
          subst this
          rw [List.getElem?_append_right (by omega)]
          simp [h1]
      have hrep : Rep (rp ++ [((flat R n).length : Int)]) ((flat R n).map (·.1)) ((flat R n).map (·.2))
          n R := by
        refine ⟨by simp [h1], hptr, ?_⟩
        rw [List.zip_map']
        simp
      refine (CSC.prune_ok (a := ⟨A.length, n, (flat R n).map (·.1), rp ++ [((flat R n).length : Int)],
        (flat R n).map (·.2)⟩) hrep).mono ?_
      rintro r rfl
      refine ⟨rfl, rfl, ?_, ?_, by simp [h1], hptr⟩
      · exact List.take_of_length_le (by simp)
      · exact List.take_of_length_le (by simp)
  obtain ⟨r, hr, h1, h2, h3, h4, h5, h6⟩ := h
  have hrep : Rep r.colptr r.rowidx r.values r.cols R := by
    rw [h2]
    refine ⟨h5, h6, ?_⟩
    rw [h3, h4, List.zip_map']
    simp
  have hwf : r.WF t := by
    refine hrep.wf ?_ ?_
    · intro i hi e he
      have := nzRow_mem he
      simp [colList] at this
      omega
    · rw [h2]; omega
  have hst : r.stored = (flat R n).length := by rw [CSC.stored_of_rep hrep, h2]
  refine ⟨r, hr, hwf, ?_, h1, h2, by omega, by rw [h3]; simp; omega, by rw [h4]; simp; omega, ?_, ?_⟩
  · intro i hi
    rw [CSC.col_of_rep hrep hi]
    exact nzRow_sorted _
  · intro v hv
    rw [h4, List.mem_map] at hv
    obtain ⟨e, he, rfl⟩ := hv
    obtain ⟨i, hi, he⟩ := mem_flat.1 he
    exact (nzRow_mem he).2.2
  · intro i j
    rw [CSC.valuesAt_of_rep hrep]
    by_cases hi : i < A.length
    · have hl := hrect A[i] (List.getElem_mem hi)
      have e1 : (A.getD i []) = A[i] := by
        rw [List.getD_eq_getElem?_getD, List.getElem?_eq_getElem hi]; rfl
      rw [e1]
      split
      · rw [valuesIn_nzRow]
        unfold colList
        rw [List.getElem?_map, List.getElem?_eq_getElem hi, Option.map_some, List.getD_eq_getElem?_getD,
          List.getElem?_eq_getElem (l := A[i]) (by omega)]
        rfl
      · rw [List.getElem?_eq_none (by omega)]; rfl
    · rw [List.getD_eq_getElem?_getD, List.getElem?_eq_none (l := A) (by omega)]
      split
      · rw [valuesIn_nzRow, List.getElem?_eq_none (by simp [colList]; omega)]; rfl
      · rfl

/-- C33 (CSC). `CSC::from_dense` of every non-empty rectangular array. -/
theorem C33_csc_from_dense [AddCommMonoid T] [DecidableEq T] (t : IntTy) (A : List (List T)) (n : Nat)
    (hA : A ≠ []) (hrect : ∀ r ∈ A, r.length = n) (hc : (A.length : Int) ≤ t.hi + 1) (hc' : (n : Int) ≤ t.hi + 1)
    (hz : (denseNnz A : Int) ≤ t.hi) :
    ∃ r, CSC.from_dense t A = .ok r ∧ r.WF t ∧ r.Canonical ∧ r.rows = A.length ∧ r.cols = n ∧
      r.to_dense t = .ok A ∧ r.stored = denseNnz A ∧ r.rowidx.length = r.stored ∧ r.values.length = r.stored ∧
      ∀ v ∈ r.values, v ≠ 0 := by
  obtain ⟨r, h0, h1, h2, h3, h4, h5, h6, h7, h8, h9⟩ := csc_from_dense_ok t A n hA hrect hc hc' hz
  refine ⟨r, h0, h1, h2, h3, h4, ?_, h5, h6, h7, fun v hv => by simpa using h8 v hv⟩
  rw [C06_csc_to_dense t r h1 (by omega), h3, h4]
  congr 1
  apply dense_eq hrect
  intro i hi j hj
  change (r.valuesAt i j).sum = _
  rw [h9, ← valuesIn_nzRow]
  exact rowSum_nzRow _ _

theorem coo_from_dense_ok [Zero T] [BEq T] (t : IntTy) (A : List (List T)) (n : Nat)
    (hn : A = [] → n = 0) (hrect : ∀ r ∈ A, r.length = n) (hr : (A.length : Int) ≤ t.hi + 1) (hc : (n : Int) ≤ t.hi + 1) :
    ∃ r, Coo.from_dense t A = .ok r ∧ r.WF t ∧ r.rows = A.length ∧ r.cols = n ∧
      r.nnz = denseNnz A ∧ (∀ v ∈ r.values, (v != 0) = true) ∧
      ∀ i j, r.valuesAt i j = ((A.getD i [])[j]?.toList).filter (· != 0) := by
  let R : Nat → List (Int × T) := fun i => nzRow (A.getD i [])
  have hR : (flat R A.length).length = denseNnz A := flat_getD_nz A
  have hrow : ∀ i < A.length, ∃ r, A[i]? = some r ∧ r.length = n ∧ R i = nzRow r := by
    intro i hi
    refine ⟨A[i], by simp, hrect _ (List.getElem_mem hi), ?_⟩
    simp only [R, List.getD_eq_getElem?_getD, List.getElem?_eq_getElem hi]
    rfl
  have h : Ok (Coo.from_dense t A) fun r => r = ⟨A.length, n, rowNums R A.length, (flat R A.length).map (·.1),
      (flat R A.length).map (·.2)⟩ := by
    unfold Coo.from_dense
    by_cases hA : A = []
    · subst hA
      rw [hn rfl]
      exact ⟨_, rfl, by simp [rowNums]⟩
    have hlen0 : 0 < A.length := List.length_pos_iff.2 hA
    simp only
    rw [if_pos hlen0]
    wp
    refine ⟨A[0], by simp, ?_⟩
    rw [hrect A[0] (List.getElem_mem hlen0)]
    refine Ok_forRange (fun i s => s.1 = rowNums R i ∧ s.2.1 = (flat R i).map (·.1) ∧
      s.2.2 = (flat R i).map (·.2)) (by omega) ⟨by simp [rowNums], by simp, by simp⟩ ?_ ?_
    · rintro i ⟨s1, s2, s3⟩ - hi ⟨rfl, rfl, rfl⟩
      obtain ⟨r, f0, f1, f2⟩ := hrow i hi
      wp
      rds [f0]
      refine Ok_forOff (E := r) (o := 0) (by omega) (fun pre s => s.1 = rowNums R i ++ (nzRow pre).map (fun _ => (i : Int)) ∧
        s.2.1 = (flat R i ++ nzRow pre).map (·.1) ∧ s.2.2 = (flat R i ++ nzRow pre).map (·.2))
        ⟨by simp [nzRow], by simp [nzRow], by simp [nzRow]⟩ ?_ ?_
      · rintro pre v suf ⟨s1, s2, s3⟩ hE ⟨rfl, rfl, rfl⟩
        have hv : r[pre.length]? = some v := by rw [hE]; simp
        have hl : pre.length < n := by rw [← f1, hE]; simp
        rw [Nat.zero_add]
        wp
        rds [hv]
        rw [Ok_ite]
        constructor
        · intro h
          wp
          refine ⟨by omega, by omega, _, rfl, ?_⟩
          rw [nzRow_append, if_pos (by simpa using h)]
          simp
        · intro h
          wp
          refine ⟨_, rfl, ?_⟩
          rw [nzRow_append, if_neg (by simpa using h)]
          simp
      · rintro ⟨s1, s2, s3⟩ ⟨rfl, rfl, rfl⟩
        wp
        refine ⟨_, rfl, ?_⟩
        unfold rowNums
        rw [flat_succ, flat_succ, f2]
        exact ⟨rfl, rfl, rfl⟩
    · rintro ⟨s1, s2, s3⟩ ⟨rfl, rfl, rfl⟩
      wp
  obtain ⟨r, hr', rfl⟩ := h
  have hwf : (⟨A.length, n, rowNums R A.length, (flat R A.length).map (·.1), (flat R A.length).map (·.2)⟩ : Coo T).WF t := by
    refine ⟨by simp [rowNums_length], by simp, ?_, ?_⟩
    · intro v hv
      obtain ⟨i, hi, rfl, -⟩ := rowNums_mem hv
      simp only
      omega
    · intro v hv
      simp only [List.mem_map] at hv
      obtain ⟨e, he, rfl⟩ := hv
      obtain ⟨i, hi, he⟩ := mem_flat.1 he
      obtain ⟨r', f0, f1, f2⟩ := hrow i hi
      rw [f2] at he
      have := nzRow_mem he
      simp only
      omega
  refine ⟨_, hr', hwf, rfl, rfl, ?_, ?_, ?_⟩
  · simp only [Coo.nnz, List.length_map]; exact hR
  · intro v hv
    simp only [List.mem_map] at hv
    obtain ⟨e, he, rfl⟩ := hv
    obtain ⟨i, hi, he⟩ := mem_flat.1 he
    exact (nzRow_mem he).2.2
  · intro i j
    change valuesOf (Coo.triples _) i j = _
    unfold Coo.triples
    rw [zip3_rows, valuesOf_rows]
    split
    · exact valuesIn_nzRow _ _
    · rw [List.getD_eq_getElem?_getD, List.getElem?_eq_none (l := A) (by omega)]; rfl

/-- C33 (Coo). `Coo::from_dense` of every rectangular array (also an empty one). -/
theorem C33_coo_from_dense [AddCommMonoid T] [DecidableEq T] (t : IntTy) (A : List (List T)) (n : Nat)
    (hn : A = [] → n = 0) (hrect : ∀ r ∈ A, r.length = n) (hr : (A.length : Int) ≤ t.hi + 1) (hc : (n : Int) ≤ t.hi + 1) :
    ∃ r, Coo.from_dense t A = .ok r ∧ r.WF t ∧ r.rows = A.length ∧ r.cols = n ∧
      r.to_dense = .ok A ∧ r.nnz = denseNnz A ∧ ∀ v ∈ r.values, v ≠ 0 := by
  obtain ⟨r, h0, h1, h2, h3, h4, h5, h6⟩ := coo_from_dense_ok t A n hn hrect hr hc
  refine ⟨r, h0, h1, h2, h3, ?_, h4, fun v hv => by simpa using h5 v hv⟩
  rw [C06_coo_to_dense t r h1, h2, h3]
  congr 1
  apply dense_eq hrect
  intro i hi j hj
  change (r.valuesAt i j).sum = _
  rw [h6, ← valuesIn_nzRow]
  exact rowSum_nzRow _ _

end
end Sparse

import Verif.Lemmas.Crash
import Verif.Props.Exact
/-!
C74: a panic in the middle of a call that modifies a matrix.
-/
namespace Sparse

section
variable {T S α β σ : Type}

/-- what merging duplicates makes of the values of one position when additions may panic (`none`): nothing stays nothing,
and `v₁, v₂, …, vₙ` becomes the single value `(…(v₁ + v₂) + …) + vₙ`, if all these additions succeed -/
def mergeP (add : T → T → Option T) : List T → Option (List T)
  | [] => some []
  | v :: vs => (vs.foldlM add v).map fun w => [w]

theorem valuesIn_up (E : List (Int × T)) (k : Int) : valuesIn (up E) k = (valuesIn E k).map some := by
  induction E with
  | nil => rfl
  | cons e E ih =>
    change valuesIn ((e.1, some e.2) :: up E) k = _
    rw [valuesIn_cons, valuesIn_cons, ih]
    split <;> simp

theorem up_sortRow (E : List (Int × T)) : up (sortRow E) = sortRow (up E) := by
  unfold up sortRow
  exact List.map_mergeSort (by intros; rfl)

theorem collapse_up (add : T → T → Option T) (l : List T) :
    @collapse _ (poison add) (l.map some) = match l with
      | [] => []
      | v :: vs => [vs.foldlM add v] := by
  cases l with
  | nil => rfl
  | cons v vs =>
    have h : ∀ (l : List T) (v : T), (l.map some).foldl (fun a b => (poison add).add a b) (some v) = l.foldlM add v := by
      intro l v
      have := foldl_poison add (l.map fun x => ((0 : Int), x)) v
      simp only [up, List.map_map, List.foldl_map, List.foldlM_map] at this
      rw [List.foldl_map]
      exact this
    change [(vs.map some).foldl (fun a b => (poison add).add a b) (some v)] = _
    rw [h]

/-- a summed row has, for every position, the merged value -/
theorem summed_values {add : T → T → Option T} {r F : List (Int × T)}
    (h : up F = @combine _ (poison add) (up (sortRow r))) (k : Int) : mergeP add (valuesIn r k) = some (valuesIn F k) := by
  have h1 := congrArg (fun l => valuesIn l k) h
  rw [valuesIn_up, up_sortRow, @valuesIn_combine _ (poison add) _ (sortRow_sorted _), valuesIn_sortRow, valuesIn_up, collapse_up] at h1
  cases hl : valuesIn r k with
  | nil =>
    rw [hl] at h1
    simp at h1
    rw [h1]; rfl
  | cons v vs =>
    rw [hl] at h1
    simp only at h1
    cases hF : valuesIn F k with
    | nil => rw [hF] at h1; simp at h1
    | cons w ws =>
      rw [hF] at h1
      simp only [List.map_cons, List.cons.injEq, List.map_eq_nil_iff] at h1
      rw [mergeP, ← h1.1, h1.2]
      rfl

theorem failed_values {add : T → T → Option T} {r : List (Int × T)} {c : Int}
    (h : (c, none) ∈ @combine _ (poison add) (up (sortRow r))) :
    mergeP add (valuesIn r c) = none ∧ ∃ e ∈ r, e.1 = c := by
  have h1 : none ∈ valuesIn (@combine _ (poison add) (up (sortRow r))) c := by
    unfold valuesIn
    rw [List.mem_map]
    exact ⟨(c, none), by simpa using h, rfl⟩
  rw [up_sortRow, @valuesIn_combine _ (poison add) _ (sortRow_sorted _), valuesIn_sortRow, valuesIn_up, collapse_up] at h1
  cases hl : valuesIn r c with
  | nil => rw [hl] at h1; simp at h1
  | cons v vs =>
    rw [hl] at h1
    simp only [List.mem_singleton] at h1
    refine ⟨by rw [mergeP, ← h1]; rfl, ?_⟩
    have hv : v ∈ valuesIn r c := by rw [hl]; simp
    unfold valuesIn at hv
    rw [List.mem_map] at hv
    obtain ⟨e, he, -⟩ := hv
    rw [List.mem_filter] at he
    exact ⟨e, he.1, by simpa using he.2⟩

theorem mergeP_short {add : T → T → Option T} {l : List T} (h : l.length ≤ 1) : mergeP add l = some l := by
  match l, h with
  | [], _ => rfl
  | [v], _ => rfl

theorem sorted_values {r : List (Int × T)} (h : SRow r) (k : Int) : (valuesIn r k).length ≤ 1 := by
  induction r with
  | nil => simp [valuesIn]
  | cons e r ih =>
    rw [SRow, List.pairwise_cons] at h
    rw [valuesIn_cons]
    split
    · rename_i hk
      have : valuesIn r k = [] := by
        unfold valuesIn
        rw [List.map_eq_nil_iff, List.filter_eq_nil_iff]
        intro f hf
        have := h.1 f hf
        simp only [decide_eq_true_eq]
        omega
      rw [this]; simp
    · simpa using ih h.2

theorem srow_of_up {r : List (Int × T)} (h : SRow (up r)) : SRow r := by
  unfold SRow up at *
  rw [List.pairwise_map] at h
  exact h

/-- C74. `CSR::sum_duplicates` when additions of scalars may panic. If none does, the result is as in C54. If one does and
the panic is caught, the matrix is still valid (no later call can go out of bounds because of it), the panic struck in some
row `i`, at a position whose values cannot be added, the rows before `i` are merged and the rows after it have the values they had.
Missing (false, see `C74_counterexample`): row `i` itself has the values it had, or their sum. -/
theorem C74_csr_sum_duplicates_partial [Zero T] (add : T → T → Option T) (t : IntTy) (a : CSR T) (ha : a.WF t)
    (hn : (a.stored : Int) < t.hi) :
    match CSR.sum_duplicatesX add t a with
    | (.ok (), r) => r.WF t ∧ r.rows = a.rows ∧ r.cols = a.cols ∧ r.Canonical ∧
        ∀ i j, mergeP add (a.valuesAt i j) = some (r.valuesAt i j)
    | (.error f, r) => f = .panic .arith ∧ r.WF t ∧ r.rows = a.rows ∧ r.cols = a.cols ∧
        ∃ i < a.rows, (∃ j < a.cols, mergeP add (a.valuesAt i j) = none) ∧
          (∀ k < i, ∀ j, mergeP add (a.valuesAt k j) = some (r.valuesAt k j)) ∧
          ∀ k > i, ∀ j, r.valuesAt k j = a.valuesAt k j := by
  have h := ha.rep
  have hst := ha.stored_eq
  rw [hst] at hn
  have hlen : a.rowptr.length - 1 = a.rows := by rw [h.len]; omega
  have hu : usub a.rowptr.length 1 = .ok a.rows := by
    unfold usub
    rw [if_pos (by rw [h.len]; omega), hlen]
    rfl
  obtain ⟨b, hb, hb'⟩ := has_canonical_ok (t := t) h (fun i hi => by
    have := flat_length_mono a.row (Nat.le_of_lt hi)
    change ((flat a.row i).length : Int) < t.hi
    change ((flat a.row a.rows).length : Int) < t.hi at hn
    omega)
  have hcan : a.has_canonical_format t = .ok b := by
    unfold CSR.has_canonical_format
    rw [hu]
    exact hb
  unfold CSR.sum_duplicatesX
  rw [hcan]
  cases b with
  | true =>
    have hs := hb'.1 rfl
    refine ⟨ha, rfl, rfl, fun i hi => hs i hi, ?_⟩
    intro i j
    rw [CSR.valuesAt_of_rep h]
    split
    · rename_i hi
      exact mergeP_short (sorted_values (hs i hi) j)
    · rfl
  | false =>
    obtain ⟨⟨cj, cx⟩, hsort, hrep, -⟩ := sort_indices_ok h
    have hso : a.sort_indexes = .ok { a with colidx := cj, values := cx } := by
      unfold CSR.sort_indexes
      rw [hu]
      change (csr_sort_indices a.rows a.rowptr a.colidx a.values >>= _) = _
      rw [hsort]
      rfl
    rw [hso]
    have hfl : (flat (fun i => sortRow (a.row i)) a.rows).length = (flat a.row a.rows).length := by
      rw [flat_length_sum, flat_length_sum]
      simp only [sortRow_length]
    have hx := csr_sum_duplicatesX_ok add (t := t) (G := fun c => 0 ≤ c ∧ c < (a.cols : Int) ∧ c ≤ t.hi) hrep
      (by
        change ((flat a.row a.rows).length : Int) < t.hi at hn
        omega)
      (fun i hi e he => ha.mem hi ((sortRow_perm _).mem_iff.1 he))
    unfold WPX at hx
    simp only
    generalize hres : csr_sum_duplicatesX add t a.rows ⟨a.rowptr, cj, cx⟩ = res at hx
    obtain ⟨o, s⟩ := res
    cases o with
    | error f =>
      obtain ⟨h1, i, hi, S, hS, -, -, hSl, hSm, ⟨c, hc⟩, hbef, haft⟩ := hx
      refine ⟨h1, hS.wf hSm (by
        change ((flat a.row a.rows).length : Int) < t.hi at hn
        rw [hSl]
        omega), rfl, rfl, i, hi, ?_, ?_, ?_⟩
      · obtain ⟨h2, e, he, rfl⟩ := failed_values hc
        obtain ⟨h3, h4, -⟩ := ha.mem hi he
        refine ⟨e.1.toNat, by omega, ?_⟩
        rw [CSR.valuesAt_of_rep h, if_pos hi, Int.toNat_of_nonneg h3]
        exact h2
      · intro k hk j
        rw [CSR.valuesAt_of_rep h, CSR.valuesAt_of_rep (a := { a with rowptr := s.p, colidx := s.j, values := s.x }) hS,
          if_pos (by omega), if_pos (by omega)]
        exact summed_values (hbef k hk) _
      · intro k hk j
        rw [CSR.valuesAt_of_rep h, CSR.valuesAt_of_rep (a := { a with rowptr := s.p, colidx := s.j, values := s.x }) hS]
        split
        · rename_i hkn
          rw [haft k hk hkn]
          exact valuesIn_sortRow _ _
        · rfl
    | ok u =>
      obtain ⟨F, hF, hR, hlj, hlx⟩ := hx
      have hFl : ∀ i ≤ a.rows, (flat F i).length ≤ (flat (fun i => sortRow (a.row i)) i).length := by
        intro i
        induction i with
        | zero => simp
        | succ i ih =>
          intro hi
          rw [flat_length_succ, flat_length_succ]
          have h1 := @combine_length _ (poison add) (up (sortRow (a.row i)))
          rw [← hF i (by omega), up_length, up_length] at h1
          have := ih (by omega)
          omega
      have hle := hFl a.rows (Nat.le_refl _)
      have hFm : ∀ i < a.rows, ∀ e ∈ F i, 0 ≤ e.1 ∧ e.1 < (a.cols : Int) ∧ e.1 ≤ t.hi := by
        intro i hi e he
        have h1 : (e.1, some e.2) ∈ @combine _ (poison add) (up (sortRow (a.row i))) := by
          rw [← hF i hi]
          exact List.mem_map.2 ⟨e, he, rfl⟩
        obtain ⟨f, hf, hfe⟩ := (@combine_key _ (poison add) _ e.1).1 ⟨_, h1, rfl⟩
        obtain ⟨g, hg, rfl⟩ := List.mem_map.1 hf
        rw [← hfe]
        exact ha.mem hi ((sortRow_perm _).mem_iff.1 hg)
      obtain ⟨r, hr1, rfl⟩ := CSR.prune_ok (a := { a with rowptr := s.p, colidx := s.j, values := s.x }) hR
      simp only
      rw [hr1]
      have hT := hR.trim
      refine ⟨hT.wf hFm (by
        change ((flat a.row a.rows).length : Int) < t.hi at hn
        omega), rfl, rfl, ?_, ?_⟩
      · intro i hi
        rw [CSR.row_of_rep hT hi]
        exact srow_of_up (hF i hi ▸ @combine_sorted _ (poison add) _ (by rw [up_sortRow]; exact sortRow_sorted _))
      · intro i j
        rw [CSR.valuesAt_of_rep h, CSR.valuesAt_of_rep hT]
        split
        · rename_i hi
          exact summed_values (hF i hi) _
        · rfl

/-- C74. `CSC::sum_duplicates` when additions of scalars may panic. If none does, the result is as in C54. If one does and
the panic is caught, the matrix is still valid (no later call can go out of bounds because of it), the panic struck in some
column `i`, at a position whose values cannot be added, the columns before `i` are merged and the columns after it have the values they had.
Missing (false, see `C74_counterexample`): column `i` itself has the values it had, or their sum. -/
theorem C74_csc_sum_duplicates_partial [Zero T] (add : T → T → Option T) (t : IntTy) (a : CSC T) (ha : a.WF t)
    (hn : (a.stored : Int) < t.hi) :
    match CSC.sum_duplicatesX add t a with
    | (.ok (), r) => r.WF t ∧ r.cols = a.cols ∧ r.rows = a.rows ∧ r.Canonical ∧
        ∀ i j, mergeP add (a.valuesAt j i) = some (r.valuesAt j i)
    | (.error f, r) => f = .panic .arith ∧ r.WF t ∧ r.cols = a.cols ∧ r.rows = a.rows ∧
        ∃ i < a.cols, (∃ j < a.rows, mergeP add (a.valuesAt j i) = none) ∧
          (∀ k < i, ∀ j, mergeP add (a.valuesAt j k) = some (r.valuesAt j k)) ∧
          ∀ k > i, ∀ j, r.valuesAt j k = a.valuesAt j k := by
  have h := ha.rep
  have hst := ha.stored_eq
  rw [hst] at hn
  have hlen : a.colptr.length - 1 = a.cols := by rw [h.len]; omega
  have hu : usub a.colptr.length 1 = .ok a.cols := by
    unfold usub
    rw [if_pos (by rw [h.len]; omega), hlen]
    rfl
  obtain ⟨b, hb, hb'⟩ := has_canonical_ok (t := t) h (fun i hi => by
    have := flat_length_mono a.col (Nat.le_of_lt hi)
    change ((flat a.col i).length : Int) < t.hi
    change ((flat a.col a.cols).length : Int) < t.hi at hn
    omega)
  have hcan : a.has_canonical_format t = .ok b := by
    unfold CSC.has_canonical_format
    rw [hu]
    exact hb
  unfold CSC.sum_duplicatesX
  rw [hcan]
  cases b with
  | true =>
    have hs := hb'.1 rfl
    refine ⟨ha, rfl, rfl, fun i hi => hs i hi, ?_⟩
    intro i j
    rw [CSC.valuesAt_of_rep h]
    split
    · rename_i hi
      exact mergeP_short (sorted_values (hs i hi) j)
    · rfl
  | false =>
    obtain ⟨⟨cj, cx⟩, hsort, hrep, -⟩ := sort_indices_ok h
    have hso : a.sort_indexes = .ok { a with rowidx := cj, values := cx } := by
      unfold CSC.sort_indexes
      rw [hu]
      change (csr_sort_indices a.cols a.colptr a.rowidx a.values >>= _) = _
      rw [hsort]
      rfl
    rw [hso]
    have hfl : (flat (fun i => sortRow (a.col i)) a.cols).length = (flat a.col a.cols).length := by
      rw [flat_length_sum, flat_length_sum]
      simp only [sortRow_length]
    have hx := csr_sum_duplicatesX_ok add (t := t) (G := fun c => 0 ≤ c ∧ c < (a.rows : Int) ∧ c ≤ t.hi) hrep
      (by
        change ((flat a.col a.cols).length : Int) < t.hi at hn
        omega)
      (fun i hi e he => ha.mem hi ((sortRow_perm _).mem_iff.1 he))
    unfold WPX at hx
    simp only
    generalize hres : csr_sum_duplicatesX add t a.cols ⟨a.colptr, cj, cx⟩ = res at hx
    obtain ⟨o, s⟩ := res
    cases o with
    | error f =>
      obtain ⟨h1, i, hi, S, hS, -, -, hSl, hSm, ⟨c, hc⟩, hbef, haft⟩ := hx
      refine ⟨h1, hS.wf hSm (by
        change ((flat a.col a.cols).length : Int) < t.hi at hn
        rw [hSl]
        omega), rfl, rfl, i, hi, ?_, ?_, ?_⟩
      · obtain ⟨h2, e, he, rfl⟩ := failed_values hc
        obtain ⟨h3, h4, -⟩ := ha.mem hi he
        refine ⟨e.1.toNat, by omega, ?_⟩
        rw [CSC.valuesAt_of_rep h, if_pos hi, Int.toNat_of_nonneg h3]
        exact h2
      · intro k hk j
        rw [CSC.valuesAt_of_rep h, CSC.valuesAt_of_rep (a := { a with colptr := s.p, rowidx := s.j, values := s.x }) hS,
          if_pos (by omega), if_pos (by omega)]
        exact summed_values (hbef k hk) _
      · intro k hk j
        rw [CSC.valuesAt_of_rep h, CSC.valuesAt_of_rep (a := { a with colptr := s.p, rowidx := s.j, values := s.x }) hS]
        split
        · rename_i hkn
          rw [haft k hk hkn]
          exact valuesIn_sortRow _ _
        · rfl
    | ok u =>
      obtain ⟨F, hF, hR, hlj, hlx⟩ := hx
      have hFl : ∀ i ≤ a.cols, (flat F i).length ≤ (flat (fun i => sortRow (a.col i)) i).length := by
        intro i
        induction i with
        | zero => simp
        | succ i ih =>
          intro hi
          rw [flat_length_succ, flat_length_succ]
          have h1 := @combine_length _ (poison add) (up (sortRow (a.col i)))
          rw [← hF i (by omega), up_length, up_length] at h1
          have := ih (by omega)
          omega
      have hle := hFl a.cols (Nat.le_refl _)
      have hFm : ∀ i < a.cols, ∀ e ∈ F i, 0 ≤ e.1 ∧ e.1 < (a.rows : Int) ∧ e.1 ≤ t.hi := by
        intro i hi e he
        have h1 : (e.1, some e.2) ∈ @combine _ (poison add) (up (sortRow (a.col i))) := by
          rw [← hF i hi]
          exact List.mem_map.2 ⟨e, he, rfl⟩
        obtain ⟨f, hf, hfe⟩ := (@combine_key _ (poison add) _ e.1).1 ⟨_, h1, rfl⟩
        obtain ⟨g, hg, rfl⟩ := List.mem_map.1 hf
        rw [← hfe]
        exact ha.mem hi ((sortRow_perm _).mem_iff.1 hg)
      obtain ⟨r, hr1, rfl⟩ := CSC.prune_ok (a := { a with colptr := s.p, rowidx := s.j, values := s.x }) hR
      simp only
      rw [hr1, unwrapR_ok]
      have hT := hR.trim
      refine ⟨hT.wf hFm (by
        change ((flat a.col a.cols).length : Int) < t.hi at hn
        omega), rfl, rfl, ?_, ?_⟩
      · intro i hi
        rw [CSC.col_of_rep hT hi]
        exact srow_of_up (hF i hi ▸ @combine_sorted _ (poison add) _ (by rw [up_sortRow]; exact sortRow_sorted _))
      · intro i j
        rw [CSC.valuesAt_of_rep h, CSC.valuesAt_of_rep hT]
        split
        · rename_i hi
          exact summed_values (hF i hi) _
        · rfl

/-- position `k` of the arrays belongs to row `i` -/
def InRow (p : List Int) (i k : Nat) : Prop := ∃ lo hi, p[i]? = some lo ∧ p[i + 1]? = some hi ∧ lo ≤ (k : Int) ∧ (k : Int) < hi

/-- C74. `csr_scale_rows` when multiplications may panic. If none does, every value of row `i` is multiplied by `x[i]`. If
one does, the values at positions before it are multiplied, and those from it on are as they were. -/
theorem C74_csr_scale_rows (mul : T → T → Option T) (n : Nat) (p j : List Int) (ax x : List T)
    (hp : Pointers n p j ax) (hx : x.length = n) :
    match csr_scale_rowsX mul n p x ax with
    | (.ok (), r) => r.length = ax.length ∧
        (∀ i < n, ∀ k, InRow p i k → ∃ v w, ax[k]? = some v ∧ x[i]? = some w ∧ mul v w = r[k]? ∧ r[k]?.isSome) ∧
        ∀ k, (∀ i < n, ¬ InRow p i k) → r[k]? = ax[k]?
    | (.error f, r) => f = .panic .arith ∧ r.length = ax.length ∧ ∃ k0 < ax.length,
        (∃ i0 < n, InRow p i0 k0 ∧ ∃ v w, ax[k0]? = some v ∧ x[i0]? = some w ∧ mul v w = none) ∧
        (∀ i < n, ∀ k < k0, InRow p i k → ∃ v w, ax[k]? = some v ∧ x[i]? = some w ∧ mul v w = r[k]? ∧ r[k]?.isSome) ∧
        ∀ k ≥ k0, r[k]? = ax[k]? := by
  obtain ⟨R, h⟩ : ∃ R, Rep p j ax n R := ⟨_, hp.rep⟩
  have hin : ∀ i < n, ∀ k, InRow p i k ↔ (flat R i).length ≤ k ∧ k < (flat R i).length + (R i).length := by
    intro i hi k
    unfold InRow
    rw [h.ptr i (by omega), h.ptr_succ hi]
    constructor
    · rintro ⟨lo, hi', h1, h2, h3, h4⟩
      obtain rfl := Option.some.inj h1
      obtain rfl := Option.some.inj h2
      exact ⟨by omega, by omega⟩
    · rintro ⟨h1, h2⟩
      exact ⟨_, _, rfl, rfl, by omega, by omega⟩
  let Good : List T → Nat → Prop := fun r b => r.length = ax.length ∧
    (∀ i < n, ∀ k < b, InRow p i k → ∃ v w, ax[k]? = some v ∧ x[i]? = some w ∧ mul v w = r[k]? ∧ r[k]?.isSome) ∧
    ∀ k ≥ b, r[k]? = ax[k]?
  have key : WPX (csr_scale_rowsX mul n p x) ax (fun _ r => Good r (flat R n).length)
      (fun f r => f = .panic .arith ∧ ∃ k0 < ax.length,
        (∃ i0 < n, InRow p i0 k0 ∧ ∃ v w, ax[k0]? = some v ∧ x[i0]? = some w ∧ mul v w = none) ∧ Good r k0) := by
    unfold csr_scale_rowsX
    wpx
    refine WPX_forRange (fun i _ s => Good s (flat R i).length) (by omega) ⟨rfl, by simp, fun _ _ => rfl⟩ ?_ (fun _ _ h => h)
    intro i _ s _ hi hg
    wpx
    rw [h.ptr i (by omega), h.ptr_succ hi]
    refine ⟨?_, by simp⟩
    intro v hv
    obtain rfl := Option.some.inj hv
    refine ⟨fun _ => ?_, by omega⟩
    refine ⟨?_, by simp⟩
    intro v hv
    obtain rfl := Option.some.inj hv
    refine ⟨fun _ => ?_, by omega⟩
    simp only [Int.toNat_natCast]
    refine WPX_forRange (fun k _ s => Good s k) (by omega) hg ?_ ?_
    · intro k _ s hk1 hk2 hg
      have hq : k - (flat R i).length < (R i).length := by
        change (flat R i).length ≤ k at hk1
        change k < (flat R i).length + (R i).length at hk2
        omega
      have hax := (h.get hi (List.getElem?_eq_getElem hq)).2
      change (flat R i).length ≤ k at hk1
      rw [show (flat R i).length + (k - (flat R i).length) = k by omega] at hax
      have hkl : k < ax.length := (List.getElem?_eq_some_iff.1 hax).1
      have hw : x[i]? = some x[i] := List.getElem?_eq_getElem (by omega)
      have hr : InRow p i k := (hin i hi k).2 ⟨hk1, hk2⟩
      wpx
      rw [hg.2.2 k (Nat.le_refl _), hax, hw]
      refine ⟨?_, by simp⟩
      intro v hv
      obtain rfl := Option.some.inj hv
      refine ⟨?_, by simp⟩
      intro w hv
      obtain rfl := Option.some.inj hv
      refine ⟨?_, ?_⟩
      · intro z hz
        refine ⟨fun hlt => ⟨⟨⟩, trivial, by simp [hg.1], ?_, ?_⟩, fun h => absurd (by rw [hg.1]; exact hkl) h⟩
        · intro i' hi' k' hk' hr'
          rcases Nat.lt_or_ge k' k with h1 | h1
          · rw [List.getElem?_set_ne (by omega)]
            exact hg.2.1 i' hi' k' h1 hr'
          · have : k' = k := by omega
            subst this
            have hii : i' = i := by
              have h1 := (hin i' hi' k').1 hr'
              have h2 := (hin i hi k').1 hr
              by_contra hne
              rcases Nat.lt_or_ge i' i with h3 | h3
              · have := flat_length_mono R (show i' + 1 ≤ i by omega)
                rw [flat_length_succ] at this
                omega
              · have := flat_length_mono R (show i + 1 ≤ i' by omega)
                rw [flat_length_succ] at this
                omega
            subst hii
            rw [List.getElem?_set_self hlt]
            exact ⟨_, _, hax, hw, hz, rfl⟩
        · intro k' hk'
          rw [List.getElem?_set_ne (by omega)]
          exact hg.2.2 k' (by omega)
      · intro hz
        exact ⟨trivial, k, hkl, ⟨i, hi, hr, _, _, hax, hw, hz⟩, hg⟩
    · intro _ s hg
      refine ⟨⟨⟩, trivial, ?_⟩
      rw [flat_length_succ]
      exact hg
  unfold WPX at key
  generalize csr_scale_rowsX mul n p x ax = res at key
  obtain ⟨o, s⟩ := res
  cases o with
  | error f =>
    obtain ⟨h1, k0, h2, h3, h4⟩ := key
    exact ⟨h1, h4.1, k0, h2, h3, h4.2.1, h4.2.2⟩
  | ok u =>
    refine ⟨key.1, fun i hi k hr => ?_, fun k hk => ?_⟩
    · refine key.2.1 i hi k ?_ hr
      have h1 := ((hin i hi k).1 hr).2
      have := flat_length_mono R (show i + 1 ≤ n by omega)
      rw [flat_length_succ] at this
      omega
    · rcases Nat.lt_or_ge k (flat R n).length with h1 | h1
      · obtain ⟨i, m, hi, hm, rfl⟩ := flat_locate h1
        exact absurd ((hin i hi _).2 ⟨by omega, by omega⟩) (hk i hi)
      · exact key.2.2 k h1

/-- C74. `csr_scale_columns` when multiplications may panic: the same, with the factor of the column of each value. -/
theorem C74_csr_scale_columns (mul : T → T → Option T) (n m nnz : Nat) (p j : List Int) (ax x : List T)
    (hp : p[n]? = some (nnz : Int)) (hj : nnz ≤ j.length) (hax : nnz ≤ ax.length) (hx : x.length = m)
    (hm : ∀ c ∈ j, 0 ≤ c ∧ c < (m : Int)) :
    match csr_scale_columnsX mul n p j x ax with
    | (.ok (), r) => r.length = ax.length ∧
        (∀ k < nnz, ∃ (c : Nat) (v w : T), j[k]? = some (c : Int) ∧ ax[k]? = some v ∧ x[c]? = some w ∧
          mul v w = r[k]? ∧ r[k]?.isSome) ∧
        ∀ k ≥ nnz, r[k]? = ax[k]?
    | (.error f, r) => f = .panic .arith ∧ r.length = ax.length ∧ ∃ k0 < nnz,
        (∃ (c : Nat) (v w : T), j[k0]? = some (c : Int) ∧ ax[k0]? = some v ∧ x[c]? = some w ∧ mul v w = none) ∧
        (∀ k < k0, ∃ (c : Nat) (v w : T), j[k]? = some (c : Int) ∧ ax[k]? = some v ∧ x[c]? = some w ∧
          mul v w = r[k]? ∧ r[k]?.isSome) ∧
        ∀ k ≥ k0, r[k]? = ax[k]? := by
  let Good : List T → Nat → Prop := fun r b => r.length = ax.length ∧
    (∀ k < b, ∃ (c : Nat) (v w : T), j[k]? = some (c : Int) ∧ ax[k]? = some v ∧ x[c]? = some w ∧
      mul v w = r[k]? ∧ r[k]?.isSome) ∧
    ∀ k ≥ b, r[k]? = ax[k]?
  have key : WPX (csr_scale_columnsX mul n p j x) ax (fun _ r => Good r nnz)
      (fun f r => f = .panic .arith ∧ ∃ k0 < nnz,
        (∃ (c : Nat) (v w : T), j[k0]? = some (c : Int) ∧ ax[k0]? = some v ∧ x[c]? = some w ∧ mul v w = none) ∧ Good r k0) := by
    unfold csr_scale_columnsX
    wpx
    rw [hp]
    refine ⟨?_, by simp⟩
    intro v hv
    obtain rfl := Option.some.inj hv
    refine ⟨fun _ => ?_, by omega⟩
    simp only [Int.toNat_natCast]
    refine WPX_forRange (fun k _ s => Good s k) (by omega) ⟨rfl, by simp, fun _ _ => rfl⟩ ?_ (fun _ _ h => h)
    intro k _ s _ hk hg
    have h1 : ax[k]? = some ax[k] := List.getElem?_eq_getElem (by omega)
    have h2 : j[k]? = some j[k] := List.getElem?_eq_getElem (by omega)
    have h3 := hm j[k] (List.getElem_mem _)
    obtain ⟨c, hc⟩ := Int.eq_ofNat_of_zero_le h3.1
    have h4 : x[c]? = some x[c] := List.getElem?_eq_getElem (by omega)
    wpx
    rw [hg.2.2 k (Nat.le_refl _), h1, h2]
    refine ⟨?_, by simp⟩
    intro v hv
    obtain rfl := Option.some.inj hv
    refine ⟨?_, by simp⟩
    intro v hv
    obtain rfl := Option.some.inj hv
    refine ⟨fun _ => ?_, by omega⟩
    rw [hc, Int.toNat_natCast, h4]
    refine ⟨?_, by simp⟩
    intro w hv
    obtain rfl := Option.some.inj hv
    rw [hc] at h2
    refine ⟨?_, ?_⟩
    · intro z hz
      refine ⟨fun hlt => ⟨⟨⟩, trivial, by simp [hg.1], ?_, ?_⟩, fun h => absurd (by rw [hg.1]; omega) h⟩
      · intro k' hk'
        rcases Nat.lt_or_ge k' k with h5 | h5
        · rw [List.getElem?_set_ne (by omega)]
          exact hg.2.1 k' h5
        · have : k' = k := by omega
          subst this
          rw [List.getElem?_set_self hlt]
          exact ⟨c, _, _, h2, h1, h4, hz, rfl⟩
      · intro k' hk'
        rw [List.getElem?_set_ne (by omega)]
        exact hg.2.2 k' (by omega)
    · intro hz
      exact ⟨trivial, k, hk, ⟨c, _, _, h2, h1, h4, hz⟩, hg⟩
  unfold WPX at key
  generalize csr_scale_columnsX mul n p j x ax = res at key
  obtain ⟨o, s⟩ := res
  cases o with
  | error f =>
    obtain ⟨h1, k0, h2, h3, h4⟩ := key
    exact ⟨h1, h4.1, k0, h2, h3, h4.2.1, h4.2.2⟩
  | ok u => exact key

/-- eight-bit integers with overflow checks -/
def addI8 (a b : Int) : Option Int := if -128 ≤ a + b ∧ a + b ≤ 127 then some (a + b) else none

/-- eight-bit multiplication with overflow checks -/
def mulI8 (a b : Int) : Option Int := if -128 ≤ a * b ∧ a * b ≤ 127 then some (a * b) else none

example : Pointers 2 [0, 2, 3] [0, 1, 1] [(1 : Int), 100, 3] ∧
    csr_scale_rowsX mulI8 2 [0, 2, 3] [2, 5] [1, 100, 3] = (.error (.panic .arith), [2, 100, 3]) ∧
    csr_scale_rowsX mulI8 2 [0, 2, 3] [1, 5] [1, 100, 3] = (.ok (), [1, 100, 15]) ∧
    csr_scale_columnsX mulI8 2 [0, 2, 3] [0, 1, 1] [2, 5] [1, 100, 3] = (.error (.panic .arith), [2, 100, 3]) ∧
    (∀ c ∈ [0, 1, 1], (0 : Int) ≤ c ∧ c < (2 : Nat)) :=
  ⟨(CSR.wf_of (a := { rows := 2, cols := 2, rowptr := [0, 2, 3], colidx := [0, 1, 1], values := [(1 : Int), 100, 3] })
    (t := .u8) (by decide)).pointers, by decide +kernel, by decide +kernel, by decide +kernel, by decide⟩

/-- a duplicate in row 0 and values that cannot be added in row 1 -/
def exCrash : CSR Int :=
  { rows := 3, cols := 2, rowptr := [0, 2, 4, 5], colidx := [0, 0, 0, 0, 1], values := [1, 2, 127, 1, 9] }

theorem exCrash_wf : exCrash.WF .u8 := CSR.wf_of (by decide)

example : exCrash.WF .u8 ∧ (exCrash.stored : Int) < IntTy.u8.hi ∧ mergeP addI8 (exCrash.valuesAt 1 0) = none :=
  ⟨exCrash_wf, by decide, by decide⟩

/-- `sort_indexes` does not change a matrix with sorted rows -/
theorem CSR.sort_indexes_sorted [Zero T] {t : IntTy} {a : CSR T} (ha : a.WF t) (hs : ∀ i < a.rows, WRow (a.row i))
    (hl : a.colidx.length = a.values.length) : a.sort_indexes = .ok a := by
  have h : Ok (a.sort_indexes) fun r => r = a := by
    unfold CSR.sort_indexes
    have hp := ha.rep.len
    wp
    refine ⟨by omega, ?_⟩
    rw [show a.rowptr.length - 1 = a.rows by omega]
    refine (sort_indices_ok ha.rep).mono ?_
    rintro ⟨j1, x1⟩ ⟨h1, h2, h3, h4⟩
    have h5 := h1.congr (fun i hi => sortRow_of_sorted (hs i hi))
    simp only at h2 h3 h4 h5
    have e1 := List.prefix_iff_eq_take.1 h5.pre
    have e2 := List.prefix_iff_eq_take.1 ha.rep.pre
    have hz : j1.zip x1 = a.colidx.zip a.values := by
      rw [← List.take_append_drop (flat a.row a.rows).length (j1.zip x1), h4, ← e1]
      conv_rhs => rw [← List.take_append_drop (flat a.row a.rows).length (a.colidx.zip a.values), ← e2]
    have hj : j1 = a.colidx := by
      have := congrArg (List.map Prod.fst) hz
      rwa [List.map_fst_zip (by omega), List.map_fst_zip (by omega)] at this
    have hx : x1 = a.values := by
      have := congrArg (List.map Prod.snd) hz
      rwa [List.map_snd_zip (by omega), List.map_snd_zip (by omega)] at this
    subst hj hx
    rfl
  obtain ⟨r, hr, rfl⟩ := h
  exact hr

/-- C74: the full statement is false. After the caught overflow in row 1 the matrix is valid, but the value 2 of row 0,
which has already been merged, is now also stored in row 1: reading the matrix gives 130 at (1, 0) instead of 128. -/
theorem C74_counterexample :
    ∃ r, CSR.sum_duplicatesX addI8 IntTy.u8 exCrash = (.error (.panic .arith), r) ∧
      r.rowptr = [0, 1, 4, 5] ∧ exCrash.valuesAt 1 0 = [127, 1] ∧ r.valuesAt 1 0 = [2, 127, 1] ∧
      r.to_dense = .ok [[3, 0], [130, 0], [0, 9]] ∧ exCrash.to_dense = .ok [[3, 0], [128, 0], [0, 9]] := by
  refine ⟨{ exCrash with rowptr := [0, 1, 4, 5], colidx := [0, 0, 0, 0, 1], values := [3, 2, 127, 1, 9] }, ?_,
    rfl, by decide +kernel, by decide +kernel, by decide +kernel, by decide +kernel⟩
  have h1 : exCrash.has_canonical_format IntTy.u8 = .ok false := by decide +kernel
  have h2 : exCrash.sort_indexes = .ok exCrash :=
    CSR.sort_indexes_sorted exCrash_wf (by unfold WRow; decide) rfl
  have h3 : csr_sum_duplicatesX addI8 IntTy.u8 exCrash.rows ⟨exCrash.rowptr, exCrash.colidx, exCrash.values⟩ =
      (.error (.panic .arith), ⟨[0, 1, 4, 5], [0, 0, 0, 0, 1], [3, 2, 127, 1, 9]⟩) := by decide +kernel
  unfold CSR.sum_duplicatesX
  simp only [h1, h2, h3]

/-! The models with panicking scalars agree with the models with total scalars. -/

/-- `m` started in `s` does what `f` does -/
def Sim (m : MX S α) (s : S) (f : M β) (rel : α → S → β → Prop) : Prop :=
  match f with
  | .ok b => ∃ a s', m s = (.ok a, s') ∧ rel a s' b
  | .error e => ∃ s', m s = (.error e, s')

theorem Sim.bind {m : MX S α} {s : S} {f : M β} {rel : α → S → β → Prop} {γ δ : Type} {g : α → MX S γ} {h : β → M δ}
    {rel' : γ → S → δ → Prop} (h1 : Sim m s f rel) (h2 : ∀ a s' b, rel a s' b → Sim (g a) s' (h b) rel') :
    Sim (m >>= g) s (f >>= h) rel' := by
  cases f with
  | ok b =>
    obtain ⟨a, s', e, hr⟩ := h1
    have h3 := h2 a s' b hr
    have hb : (m >>= g) s = g a s' := by
      change (match m s with | (.ok a, s') => g a s' | (.error e, s') => (.error e, s')) = _
      rw [e]
    change Sim (m >>= g) s (h b) rel'
    unfold Sim at *
    rw [hb]
    exact h3
  | error e =>
    obtain ⟨s', e'⟩ := h1
    refine ⟨s', ?_⟩
    change (match m s with | (.ok a, s') => g a s' | (.error e, s') => (.error e, s')) = _
    rw [e']

theorem Sim.lift (f : M β) (s : S) : Sim (Sparse.lift f) s f (fun a s' b => a = b ∧ s' = s) := by
  cases f with
  | ok b => exact ⟨b, s, rfl, rfl, rfl⟩
  | error e => exact ⟨s, rfl⟩

theorem Sim.pure {a : α} {s : S} {b : β} {rel : α → S → β → Prop} (h : rel a s b) : Sim (Pure.pure a) s (Pure.pure b) rel :=
  ⟨a, s, rfl, h⟩

theorem Sim.get {s : S} {g : S → MX S α} {f : M β} {rel : α → S → β → Prop} (h : Sim (g s) s f rel) :
    Sim (getX >>= g) s f rel := h

theorem Sim.set {s s' : S} {g : Unit → MX S α} {f : M β} {rel : α → S → β → Prop} (h : Sim (g ()) s' f rel) :
    Sim (setX s' >>= g) s f rel := h

theorem Sim.scalar {v : α} {s : S} {g : α → MX S β} {γ : Type} {f : M γ} {rel : β → S → γ → Prop} (h : Sim (g v) s f rel) :
    Sim (Sparse.scalar (some v) >>= g) s f rel := h

theorem Sim.while {τ : Type} {fuel : Nat} {stepX : σ → MX S (ForInStep σ)} {step : τ → M (ForInStep τ)} (I : σ → S → τ → Prop)
    (h : ∀ s st u, I s st u → Sim (stepX s) st (step u) (fun r st' r' => match r, r' with
      | .done s', .done u' => I s' st' u'
      | .yield s', .yield u' => I s' st' u'
      | _, _ => False)) {s : σ} {st : S} {u : τ} (h0 : I s st u) :
    Sim (whileX fuel s stepX) st (whileM fuel u step) I := by
  induction fuel generalizing s st u with
  | zero => exact ⟨st, rfl⟩
  | succ n ih =>
    unfold whileX whileM
    refine (h s st u h0).bind ?_
    intro r st' r' hr
    cases r <;> cases r' <;> simp only at hr
    · exact Sim.pure hr
    · exact ih hr

theorem Sim.forIn {τ γ : Type} {l : List γ} {fX : γ → σ → MX S (ForInStep σ)} {f : γ → τ → M (ForInStep τ)} (I : σ → S → τ → Prop)
    (h : ∀ x s st u, I s st u → Sim (fX x s) st (f x u) (fun r st' r' => ∃ s' u', r = .yield s' ∧ r' = .yield u' ∧ I s' st' u'))
    {s : σ} {st : S} {u : τ} (h0 : I s st u) : Sim (ForIn.forIn l s fX) st (ForIn.forIn l u f) I := by
  induction l generalizing s st u with
  | nil => exact Sim.pure h0
  | cons x l ih =>
    rw [List.forIn_cons, List.forIn_cons]
    refine (h x s st u h0).bind ?_
    rintro _ st' _ ⟨s', u', rfl, rfl, hI⟩
    exact ih hI

theorem sum_runX_sim [Add T] (re : Nat) (k : Int) (s : Nat × T) (a : Slices T) :
    Sim (sum_runX (fun a b => some (a + b)) re k s) a (sum_run re k a.j a.x s) (fun r a' r' => r = r' ∧ a' = a) := by
  unfold sum_runX sum_run
  refine Sim.while (fun r a' r' => r = r' ∧ a' = a) ?_ ⟨rfl, rfl⟩
  rintro ⟨jj, x⟩ a' _ ⟨rfl, rfl⟩
  refine Sim.get ?_
  by_cases h1 : jj < re
  · simp only [h1, if_true]
    refine (Sim.lift _ _).bind ?_
    rintro jv _ _ ⟨rfl, rfl⟩
    by_cases h2 : jv = k
    · simp only [h2, if_true]
      refine (Sim.lift _ _).bind ?_
      rintro v _ _ ⟨rfl, rfl⟩
      exact Sim.scalar (Sim.pure ⟨rfl, rfl⟩)
    · simp only [h2, if_false]
      exact Sim.pure ⟨rfl, rfl⟩
  · simp only [h1, if_false]
    exact Sim.pure ⟨rfl, rfl⟩

theorem sum_rowX_sim [Add T] (re jj nnz : Nat) (a : Slices T) :
    Sim (sum_rowX (fun a b => some (a + b)) re (jj, nnz)) a (sum_row re (jj, nnz, a.j, a.x))
      (fun r a' r' => a'.p = a.p ∧ r' = (r.1, r.2, a'.j, a'.x)) := by
  unfold sum_rowX sum_row
  refine Sim.while (fun (r : Nat × Nat) (a' : Slices T) r' => a'.p = a.p ∧ r' = (r.1, r.2, a'.j, a'.x)) ?_ ⟨rfl, rfl⟩
  rintro ⟨jj, nnz⟩ a' _ ⟨hp, rfl⟩
  by_cases h1 : jj < re
  · simp only [h1, if_true]
    refine Sim.get ?_
    refine (Sim.lift _ _).bind ?_
    rintro jv _ _ ⟨rfl, rfl⟩
    refine (Sim.lift _ _).bind ?_
    rintro v _ _ ⟨rfl, rfl⟩
    refine (sum_runX_sim _ _ _ _).bind ?_
    rintro ⟨jr, xr⟩ _ _ ⟨rfl, rfl⟩
    refine Sim.get ?_
    refine (Sim.lift _ _).bind ?_
    rintro aj _ _ ⟨rfl, rfl⟩
    refine Sim.set (Sim.get ?_)
    refine (Sim.lift _ _).bind ?_
    rintro ax _ _ ⟨rfl, rfl⟩
    exact Sim.set (Sim.pure ⟨hp, rfl⟩)
  · simp only [h1, if_false]
    exact Sim.pure ⟨hp, rfl⟩

theorem csr_sum_duplicatesX_sim [Add T] (t : IdxTy) (n : Nat) (a : Slices T) :
    Sim (csr_sum_duplicatesX (fun a b => some (a + b)) t n) a (csr_sum_duplicates t n a.p a.j a.x)
      (fun _ a' r => r = (a'.p, a'.j, a'.x)) := by
  unfold csr_sum_duplicatesX csr_sum_duplicates
  refine Sim.bind (rel := fun (s : Nat × Nat) (a' : Slices T) r => r = (a'.p, a'.j, a'.x, s.fst, s.snd)) ?_ ?_
  · refine Sim.forIn (fun (s : Nat × Nat) (a' : Slices T) r => r = (a'.p, a'.j, a'.x, s.fst, s.snd)) ?_ rfl
    rintro i ⟨nnz, re⟩ a' _ rfl
    refine Sim.get ?_
    simp only
    refine (Sim.lift _ _).bind ?_
    rintro u _ _ ⟨rfl, rfl⟩
    refine (Sim.lift _ _).bind ?_
    rintro v _ _ ⟨rfl, rfl⟩
    refine (sum_rowX_sim _ _ _ _).bind ?_
    rintro ⟨jj, nnz'⟩ a2 _ ⟨hp, rfl⟩
    refine (Sim.lift _ _).bind ?_
    rintro w _ _ ⟨rfl, rfl⟩
    refine Sim.get ?_
    rw [← hp]
    refine (Sim.lift _ _).bind ?_
    rintro ap _ _ ⟨rfl, rfl⟩
    refine Sim.set (Sim.pure ?_)
    exact ⟨_, _, rfl, rfl, rfl⟩
  · rintro ⟨nnz, re⟩ a' _ rfl
    exact Sim.pure rfl

/-- C74. With additions that never panic, `sum_duplicates` is the function of the other properties: it returns the same
matrix, or fails in the same way (any matrix, valid or not). -/
theorem C74_csr_total [Zero T] [Add T] (t : IdxTy) (a : CSR T) :
    (CSR.sum_duplicatesX (fun a b => some (a + b)) t a).1 = (a.sum_duplicates t).map (fun _ => ()) ∧
    ∀ r, a.sum_duplicates t = .ok r → (CSR.sum_duplicatesX (fun a b => some (a + b)) t a).2 = r := by
  unfold CSR.sum_duplicatesX CSR.sum_duplicates
  cases a.has_canonical_format t with
  | error e => simp [bind, Except.bind, Except.map]
  | ok b =>
    cases b with
    | true => simp [bind, Except.bind, Except.map, pure, Except.pure]
    | false =>
      simp only [bind, Except.bind, Bool.false_eq_true, if_false]
      cases a.sort_indexes with
      | error e => simp [Except.map]
      | ok a1 =>
        have h := csr_sum_duplicatesX_sim t a1.rows (⟨a1.rowptr, a1.colidx, a1.values⟩ : Slices T)
        unfold Sim at h
        simp only at h ⊢
        cases hs : csr_sum_duplicates t a1.rows a1.rowptr a1.colidx a1.values with
        | error e =>
          rw [hs] at h
          obtain ⟨s', h⟩ := h
          rw [h]
          simp [Except.map]
        | ok r =>
          rw [hs] at h
          obtain ⟨_, s', h, rfl⟩ := h
          rw [h]
          simp only
          cases CSR.prune { a1 with rowptr := s'.p, colidx := s'.j, values := s'.x } <;> simp [Except.map]

/-- C74 (CSC). With additions that never panic, `sum_duplicates` is the function of the other properties. -/
theorem C74_csc_total [Zero T] [Add T] (t : IdxTy) (a : CSC T) :
    (CSC.sum_duplicatesX (fun a b => some (a + b)) t a).1 = (a.sum_duplicates t).map (fun _ => ()) ∧
    ∀ r, a.sum_duplicates t = .ok r → (CSC.sum_duplicatesX (fun a b => some (a + b)) t a).2 = r := by
  unfold CSC.sum_duplicatesX CSC.sum_duplicates
  cases a.has_canonical_format t with
  | error e => simp [bind, Except.bind, Except.map]
  | ok b =>
    cases b with
    | true => simp [bind, Except.bind, Except.map, pure, Except.pure]
    | false =>
      simp only [bind, Except.bind, Bool.false_eq_true, if_false]
      cases a.sort_indexes with
      | error e => simp [Except.map]
      | ok a1 =>
        have h := csr_sum_duplicatesX_sim t a1.cols (⟨a1.colptr, a1.rowidx, a1.values⟩ : Slices T)
        unfold Sim at h
        simp only at h ⊢
        cases hs : csr_sum_duplicates t a1.cols a1.colptr a1.rowidx a1.values with
        | error e =>
          rw [hs] at h
          obtain ⟨s', h⟩ := h
          rw [h]
          simp [Except.map]
        | ok r =>
          rw [hs] at h
          obtain ⟨_, s', h, rfl⟩ := h
          rw [h]
          simp only
          cases unwrapR (CSC.prune { a1 with colptr := s'.p, rowidx := s'.j, values := s'.x }) <;> simp [Except.map]

end
end Sparse

import Verif.Model.Access
import Verif.Props.Dense
/-! Properties C59 (textual form of complex numbers) and C60 (writing through `values_mut`). -/
namespace Sparse

section
variable {T : Type}

/-! ### C59 -/

/-- the text of a complex number: the real part, the sign of the imaginary part, `j`, and the imaginary part without
its sign -/
def complexText (dtoa : T → List Char) (signNeg : T → Bool) (abs : T → T) (re im : T) : List Char :=
  dtoa re ++ [if signNeg im then '-' else '+', 'j'] ++ dtoa (abs im)

/-- C59. Holds when the imaginary part is not negative. -/
theorem C59_pretty_complex_partial (dtoa : T → List Char) (signNeg : T → Bool) (abs : T → T) (re im : T)
    (hpos : signNeg im = false) (habs : abs im = im) :
    pretty_complex dtoa signNeg re im = complexText dtoa signNeg abs re im := by
  unfold pretty_complex complexText
  simp [hpos, habs]

/-- C59 (the statement is false). With a formatter that writes negative numbers with a leading minus sign, every
complex number with negative imaginary part is printed with that sign twice. -/
theorem C59_pretty_complex_counterexample (dtoa : T → List Char) (signNeg : T → Bool) (abs : T → T) (re im : T)
    (hneg : signNeg im = true) (hd : dtoa im = '-' :: dtoa (abs im)) :
    pretty_complex dtoa signNeg re im = dtoa re ++ ['-', 'j', '-'] ++ dtoa (abs im) ∧
      pretty_complex dtoa signNeg re im ≠ complexText dtoa signNeg abs re im := by
  have h : pretty_complex dtoa signNeg re im = dtoa re ++ ['-', 'j', '-'] ++ dtoa (abs im) := by
    unfold pretty_complex
    simp [hneg, hd]
  refine ⟨h, ?_⟩
  rw [h]
  unfold complexText
  intro e
  have := congrArg List.length e
  simp at this

/-- integers printed in decimal, as a formatter -/
example : (∃ im : Int, decide (im < 0) = false ∧ (im.natAbs : Int) = im ∧ im ≠ 0) ∧
    ∃ im : Int, decide (im < 0) = true ∧ dec im = '-' :: dec im.natAbs ∧
      pretty_complex dec (fun z => decide (z < 0)) 1 im = "1-j-2".toList :=
  ⟨⟨2, by decide⟩, -2, by decide, by decide, by decide⟩

/-! ### C60 -/

theorem zip3_set {N : Nat} {A B : List Int} {X Y : List T} (hA : A.length = N) (hB : B.length = N) (hX : X.length = N) :
    A.zip (B.zip Y) = ((A.zip (B.zip X)).zip Y).map fun e => (e.1.1, e.1.2.1, e.2) := by
  induction A generalizing N B X Y with
  | nil => simp
  | cons a A ih =>
    cases B with
    | nil => simp at hA hB; omega
    | cons b B =>
      cases X with
      | nil => simp at hA hX; omega
      | cons x X =>
        cases Y with
        | nil => simp
        | cons y Y =>
          simp only [List.zip_cons_cons, List.map_cons]
          rw [ih (N := A.length) (X := X) rfl (by simp at hA hB; omega) (by simp at hA hX; omega)]

theorem rowNums_congr {S : Type} {R : Nat → List (Int × T)} {R' : Nat → List (Int × S)} {n : Nat}
    (h : ∀ i < n, (R i).length = (R' i).length) : rowNums R n = rowNums R' n := by
  unfold rowNums
  refine flat_congr fun i hi => ?_
  simp only [List.map_const', h i hi]

theorem rowOf_values {t : IntTy} {n m : Nat} {p j : List Int} {x y : List T} (h : WFptr t n m p j x)
    (hy : y.length = x.length) : WFptr t n m p j y ∧ ∀ i, (rowOf p j y i).length = (rowOf p j x i).length := by
  refine ⟨⟨h.len, h.first, h.mono, fun c hc => by rw [hy]; exact h.last c hc, h.idx⟩, fun i => ?_⟩
  unfold rowOf
  split
  · simp [hy]
  · rfl

theorem prefix_zip_take {j : List Int} {x : List T} {F : List (Int × T)} (h : F <+: j.zip x) :
    F.map (·.1) = j.take F.length ∧ F.map (·.2) = x.take F.length := by
  have hg : ∀ (k : Nat) (e : Int × T), F[k]? = some e → j[k]? = some e.1 ∧ x[k]? = some e.2 := by
    intro k e he
    rw [← zip_get]
    exact isPrefix_iff_get.1 h _ _ he
  have hl := h.length_le
  rw [List.length_zip] at hl
  constructor
  all_goals
    apply List.ext_getElem?
    intro k
    rw [List.getElem?_map, List.getElem?_take]
    by_cases hk : k < F.length
    · obtain ⟨e, he⟩ : ∃ e, F[k]? = some e := ⟨_, List.getElem?_eq_getElem hk⟩
      rw [he, if_pos hk]
      simp [hg k e he]
    · rw [if_neg hk, List.getElem?_eq_none (by omega)]
      rfl

/-- C60 (CSR). After any values are written through `values_mut`, the matrix is valid, shape and structure are
unchanged, and the stored triplets are the old positions, in order, with the written values. -/
theorem C60_csr_values_mut (t : IntTy) (a : CSR T) (ha : a.WF t) (xs : List T) (hx : xs.length = a.values.length) :
    (a.values_mut xs).WF t ∧ (a.values_mut xs).rows = a.rows ∧ (a.values_mut xs).cols = a.cols ∧
      (a.values_mut xs).stored = a.stored ∧
      (a.values_mut xs).triples = (a.triples.zip (xs.take a.stored)).map fun e => (e.1.1, e.1.2.1, e.2) := by
  obtain ⟨hw, hlen⟩ := rowOf_values ha hx
  have hw' : (a.values_mut xs).WF t := hw
  have hst : (a.values_mut xs).stored = a.stored := by
    unfold CSR.stored CSR.row CSR.values_mut
    simp only [hlen]
  refine ⟨hw', rfl, rfl, hst, ?_⟩
  have hrep := ha.rep
  have hrep' : Rep a.rowptr a.colidx xs a.rows (CSR.row (a.values_mut xs)) := hw'.rep
  have hs := ha.stored_eq
  have hs' : a.stored = (flat (CSR.row (a.values_mut xs)) a.rows).length := by rw [← hst]; exact hw'.stored_eq
  rw [CSR.triples_of_rep (a := a.values_mut xs) hrep', CSR.triples_of_rep hrep]
  change flat _ a.rows = _
  rw [← zip3_rows, ← zip3_rows, (prefix_zip_take hrep.pre).1, (prefix_zip_take hrep.pre).2, (prefix_zip_take hrep'.pre).1,
    (prefix_zip_take hrep'.pre).2, ← hs, ← hs', rowNums_congr (R := CSR.row (a.values_mut xs)) (R' := a.row) fun i _ => hlen i]
  have h1 := hrep.len_j
  have h2 := hrep.len_x
  refine zip3_set (N := a.stored) ?_ ?_ ?_
  · rw [rowNums_length, hs]
  · rw [List.length_take]; omega
  · rw [List.length_take]; omega

/-- C60 (CSC). -/
theorem C60_csc_values_mut (t : IntTy) (a : CSC T) (ha : a.WF t) (xs : List T) (hx : xs.length = a.values.length) :
    (a.values_mut xs).WF t ∧ (a.values_mut xs).rows = a.rows ∧ (a.values_mut xs).cols = a.cols ∧
      (a.values_mut xs).stored = a.stored ∧
      (a.values_mut xs).triples = (a.triples.zip (xs.take a.stored)).map fun e => (e.1.1, e.1.2.1, e.2) := by
  obtain ⟨hw, hlen⟩ := rowOf_values ha hx
  have hw' : (a.values_mut xs).WF t := hw
  have hst : (a.values_mut xs).stored = a.stored := by
    unfold CSC.stored CSC.col CSC.values_mut
    simp only [hlen]
  refine ⟨hw', rfl, rfl, hst, ?_⟩
  have hrep := ha.rep
  have hrep' : Rep a.colptr a.rowidx xs a.cols (CSC.col (a.values_mut xs)) := hw'.rep
  have hs := ha.stored_eq
  have hs' : a.stored = (flat (CSC.col (a.values_mut xs)) a.cols).length := by rw [← hst]; exact hw'.stored_eq
  rw [CSC.triples_of_rep (a := a.values_mut xs) hrep', CSC.triples_of_rep hrep]
  change flat _ a.cols = _
  rw [← zip3_cols, ← zip3_cols, (prefix_zip_take hrep.pre).1, (prefix_zip_take hrep.pre).2, (prefix_zip_take hrep'.pre).1,
    (prefix_zip_take hrep'.pre).2, ← hs, ← hs', rowNums_congr (R := CSC.col (a.values_mut xs)) (R' := a.col) fun i _ => hlen i]
  have h1 := hrep.len_j
  have h2 := hrep.len_x
  refine zip3_set (N := a.stored) ?_ ?_ ?_
  · rw [List.length_take]; omega
  · rw [rowNums_length, hs]
  · rw [List.length_take]; omega

/-- C60 (Coo). -/
theorem C60_coo_values_mut (t : IntTy) (a : Coo T) (ha : a.WF t) (xs : List T) (hx : xs.length = a.values.length) :
    (a.values_mut xs).WF t ∧ (a.values_mut xs).rows = a.rows ∧ (a.values_mut xs).cols = a.cols ∧
      (a.values_mut xs).triples = (a.triples.zip xs).map fun e => (e.1.1, e.1.2.1, e.2) := by
  refine ⟨⟨by rw [show (a.values_mut xs).values = xs from rfl, hx]; exact ha.lenr,
    by rw [show (a.values_mut xs).values = xs from rfl, hx]; exact ha.lenc, ha.row, ha.col⟩, rfl, rfl, ?_⟩
  exact zip3_set (N := a.values.length) ha.lenr ha.lenc rfl

example : (∃ a : CSR Int, a.WF .u8 ∧ a.stored = 4 ∧ ∃ xs : List Int, xs.length = a.values.length ∧ xs ≠ a.values) ∧
    exCsc.WF .u8 ∧ exCoo.WF .u8 ∧ exCoo.triples ≠ [] :=
  ⟨⟨_, exCsr_wf, by decide, [1, 2, 3, 4, 5], by decide, by decide⟩, exCsc_wf, exCoo_wf, by decide⟩

end
end Sparse

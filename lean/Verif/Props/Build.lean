import Verif.Props.Assemble
import Verif.Props.Dense
import Verif.SpecExact
/-!
C72: coordinate matrices built step by step with `push` and `extend`.
-/
namespace Sparse

section
variable {T : Type}

/-- one editing call on a coordinate matrix -/
inductive CooEdit (T : Type) where
  | push (row col : Int) (v : T)
  | extend (row col : List Int) (v : List T)

/-- the call (src/coo/coo.rs:217-227) -/
def CooEdit.run (a : Coo T) : CooEdit T → Coo T
  | .push r c v => a.push r c v
  | .extend r c v => a.extend r c v

/-- the `(row, column, value)` triplets a call is meant to add -/
def CooEdit.adds : CooEdit T → List (Int × Int × T)
  | .push r c v => [(r, c, v)]
  | .extend r c v => r.zip (c.zip v)

/-- the slices of an `extend` have equal lengths -/
def CooEdit.SameLengths : CooEdit T → Prop
  | .push _ _ _ => True
  | .extend r c v => r.length = v.length ∧ c.length = v.length

theorem CooEdit.run_wf {t : IntTy} {a : Coo T} (ha : a.WF t) (e : CooEdit T) (hs : e.SameLengths)
    (hin : ∀ x ∈ e.adds, (0 ≤ x.1 ∧ x.1 < a.rows ∧ x.1 ≤ t.hi) ∧ 0 ≤ x.2.1 ∧ x.2.1 < a.cols ∧ x.2.1 ≤ t.hi) :
    (e.run a).WF t ∧ (e.run a).rows = a.rows ∧ (e.run a).cols = a.cols ∧
      (e.run a).triples = a.triples ++ e.adds := by
  have key : ∀ (r c : List Int) (v : List T), r.length = v.length → c.length = v.length →
      (∀ x ∈ r.zip (c.zip v), (0 ≤ x.1 ∧ x.1 < a.rows ∧ x.1 ≤ t.hi) ∧ 0 ≤ x.2.1 ∧ x.2.1 < a.cols ∧ x.2.1 ≤ t.hi) →
      (a.extend r c v).WF t ∧ (a.extend r c v).triples = a.triples ++ r.zip (c.zip v) := by
    intro r c v h1 h2 hin
    refine ⟨⟨by simp [Coo.extend, ha.lenr, h1], by simp [Coo.extend, ha.lenc, h2], ?_, ?_⟩, ?_⟩
    · intro x hx
      rcases List.mem_append.1 hx with hx | hx
      · exact ha.row x hx
      · obtain ⟨k, hk⟩ := List.mem_iff_getElem?.1 hx
        obtain ⟨hk', -⟩ := List.getElem?_eq_some_iff.1 hk
        have : (x, c[k], v[k]) ∈ r.zip (c.zip v) := by
          refine List.mem_iff_getElem?.2 ⟨k, ?_⟩
          rw [List.getElem?_zip_eq_some, List.getElem?_zip_eq_some]
          exact ⟨hk, by simp, by simp⟩
        exact (hin _ this).1
    · intro x hx
      rcases List.mem_append.1 hx with hx | hx
      · exact ha.col x hx
      · obtain ⟨k, hk⟩ := List.mem_iff_getElem?.1 hx
        obtain ⟨hk', -⟩ := List.getElem?_eq_some_iff.1 hk
        have : (r[k], x, v[k]) ∈ r.zip (c.zip v) := by
          refine List.mem_iff_getElem?.2 ⟨k, ?_⟩
          rw [List.getElem?_zip_eq_some, List.getElem?_zip_eq_some]
          exact ⟨by simp, hk, by simp⟩
        exact (hin _ this).2
    · exact coo_triples_append (n' := a.rows) (m' := a.cols) (p := 0) (q := 0) ha.lenr ha.lenc
  cases e with
  | push r c v =>
    obtain ⟨h1, h2⟩ := key [r] [c] [v] rfl rfl hin
    exact ⟨h1, rfl, rfl, h2⟩
  | extend r c v =>
    obtain ⟨h1, h2⟩ := key r c v hs.1 hs.2 hin
    exact ⟨h1, rfl, rfl, h2⟩

/-- C72. After any sequence of `push` and `extend` calls with indices inside the matrix and slices of equal lengths, the
matrix is valid, has the same shape, and stores the old triplets followed by the added ones in the order of the calls. -/
theorem C72_history (t : IntTy) (a : Coo T) (ha : a.WF t) (edits : List (CooEdit T))
    (hs : ∀ e ∈ edits, e.SameLengths)
    (hin : ∀ e ∈ edits, ∀ x ∈ e.adds,
      (0 ≤ x.1 ∧ x.1 < a.rows ∧ x.1 ≤ t.hi) ∧ 0 ≤ x.2.1 ∧ x.2.1 < a.cols ∧ x.2.1 ≤ t.hi) :
    let r := edits.foldl CooEdit.run a
    r.WF t ∧ r.rows = a.rows ∧ r.cols = a.cols ∧ r.triples = a.triples ++ edits.flatMap CooEdit.adds ∧
      r.nnz = a.nnz + (edits.map fun e => e.adds.length).sum ∧
      ∀ i j, r.valuesAt i j = a.valuesAt i j ++ ((edits.flatMap CooEdit.adds).filter fun e =>
        decide (e.1 = (i : Int) ∧ e.2.1 = (j : Int))).map (·.2.2) := by
  have h : ∀ (edits : List (CooEdit T)) (a : Coo T), a.WF t → (∀ e ∈ edits, e.SameLengths) →
      (∀ e ∈ edits, ∀ x ∈ e.adds,
        (0 ≤ x.1 ∧ x.1 < a.rows ∧ x.1 ≤ t.hi) ∧ 0 ≤ x.2.1 ∧ x.2.1 < a.cols ∧ x.2.1 ≤ t.hi) →
      (edits.foldl CooEdit.run a).WF t ∧ (edits.foldl CooEdit.run a).rows = a.rows ∧
        (edits.foldl CooEdit.run a).cols = a.cols ∧
        (edits.foldl CooEdit.run a).triples = a.triples ++ edits.flatMap CooEdit.adds := by
    intro edits
    induction edits with
    | nil => intro a ha _ _; exact ⟨ha, rfl, rfl, by simp⟩
    | cons e edits ih =>
      intro a ha hs hin
      obtain ⟨g1, g2, g3, g4⟩ := CooEdit.run_wf ha e (hs e (by simp)) (hin e (by simp))
      obtain ⟨k1, k2, k3, k4⟩ := ih (e.run a) g1 (fun e he => hs e (by simp [he])) (by
        intro e he x hx
        rw [g2, g3]
        exact hin e (by simp [he]) x hx)
      exact ⟨k1, by rw [← g2]; exact k2, by rw [← g3]; exact k3, by
        rw [List.flatMap_cons, ← List.append_assoc, ← g4]; exact k4⟩
  obtain ⟨h1, h2, h3, h4⟩ := h edits a ha hs hin
  refine ⟨h1, h2, h3, h4, ?_, ?_⟩
  · have e1 := Coo.triples_length h1
    have e2 := Coo.triples_length ha
    unfold Coo.nnz
    rw [← e1, ← e2, h4]
    simp [List.length_flatMap]
  · intro i j
    unfold Coo.valuesAt
    rw [h4, List.filter_append, List.map_append]

/-- C72. Building a matrix step by step from an empty one and converting it gives the matrix of the sums of all the values
added for a position. -/
theorem C72_build [AddCommMonoid T] (t : IntTy) (rows cols : Nat) (edits : List (CooEdit T))
    (hs : ∀ e ∈ edits, e.SameLengths)
    (hin : ∀ e ∈ edits, ∀ x ∈ e.adds,
      (0 ≤ x.1 ∧ x.1 < rows ∧ x.1 ≤ t.hi) ∧ 0 ≤ x.2.1 ∧ x.2.1 < cols ∧ x.2.1 ≤ t.hi) :
    let total : Nat → Nat → T := fun i j => (((edits.flatMap CooEdit.adds).filter fun e =>
        decide (e.1 = (i : Int) ∧ e.2.1 = (j : Int))).map (·.2.2)).sum
    let a := edits.foldl CooEdit.run (Coo.with_size rows cols)
    a.to_dense = .ok (dense rows cols total) ∧
    ((((edits.map fun e => e.adds.length).sum : Nat) : Int) < t.hi →
      (∃ r, a.to_csr t = .ok r ∧ r.WF t ∧ r.Canonical ∧ r.rows = rows ∧ r.cols = cols ∧ ∀ i j, r.entry i j = total i j) ∧
      ∃ r, a.to_csc t = .ok r ∧ r.WF t ∧ r.Canonical ∧ r.rows = rows ∧ r.cols = cols ∧ ∀ i j, r.entry i j = total i j) := by
  intro total a
  obtain ⟨h1, h2, h3, h4, h5, h6⟩ := C72_history t (Coo.with_size rows cols) (C47_with_size t rows cols).2.2.1 edits hs hin
  have he : ∀ i j, a.entry i j = total i j := by
    intro i j
    change (a.valuesAt i j).sum = _
    rw [h6]
    rfl
  refine ⟨?_, fun hn => ⟨?_, ?_⟩⟩
  · rw [C06_coo_to_dense t a h1, h2, h3]
    congr 1
    unfold dense
    simp only [he]
    rfl
  · obtain ⟨r, k1, k2, k3, k4, k5, k6, -⟩ := C01_coo_to_csr t a h1 (by
      change ((a.nnz : Nat) : Int) < t.hi
      rw [h5]
      simpa [Coo.with_size, Coo.nnz] using hn)
    exact ⟨r, k1, k2, k5, k3.trans h2, k4.trans h3, fun i j => by rw [k6, he]⟩
  · obtain ⟨r, k1, k2, k3, k4, k5, k6, -⟩ := C02_coo_to_csc t a h1 (by
      change ((a.nnz : Nat) : Int) < t.hi
      rw [h5]
      simpa [Coo.with_size, Coo.nnz] using hn)
    exact ⟨r, k1, k2, k5, k3.trans h2, k4.trans h3, fun i j => by rw [k6, he]⟩

/-- a duplicate, an unordered entry and an empty slice -/
def exEdits : List (CooEdit Int) := [.push 1 2 5, .extend [0, 1] [1, 2] [7, -3], .extend [] [] [], .push 0 0 4]

example : (∀ e ∈ exEdits, e.SameLengths) ∧ (∀ e ∈ exEdits, ∀ x ∈ e.adds,
    (0 ≤ x.1 ∧ x.1 < ((2 : Nat) : Int) ∧ x.1 ≤ IntTy.u8.hi) ∧ 0 ≤ x.2.1 ∧ x.2.1 < ((3 : Nat) : Int) ∧ x.2.1 ≤ IntTy.u8.hi) ∧
    (exEdits.foldl CooEdit.run (Coo.with_size 2 3)).to_dense = .ok [[4, 7, 0], [0, 0, 2]] := by
  refine ⟨?_, by decide, by decide⟩
  intro e he
  simp only [exEdits, List.mem_cons, List.not_mem_nil, or_false] at he
  rcases he with rfl | rfl | rfl | rfl <;> simp [CooEdit.SameLengths]

end
end Sparse

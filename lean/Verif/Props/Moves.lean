import Verif.Props.Exact
import Verif.Props.Select
import Verif.Props.Assemble
import Verif.Props.FromDense
/-!
Property C66: operations that only move stored values move them unchanged and in order, whatever the scalars.
Nothing is assumed about the scalars (see `SpecExact`).
-/
namespace Sparse

section
variable {T : Type}

/-! ### C66: stacking and block assembly -/

theorem valuesOf_cons (e : Int × Int × T) (E : List (Int × Int × T)) (i j : Nat) :
    valuesOf (e :: E) i j = (if e.1 = (i : Int) ∧ e.2.1 = (j : Int) then [e.2.2] else []) ++ valuesOf E i j := by
  unfold valuesOf
  rw [List.filter_cons]
  by_cases h : e.1 = (i : Int) ∧ e.2.1 = (j : Int)
  · rw [if_pos (by simpa using h), if_pos h]; rfl
  · rw [if_neg (by simpa using h), if_neg h]; rfl

theorem valuesOf_shiftRow {E : List (Int × Int × T)} (h : ∀ e ∈ E, 0 ≤ e.1) (n i j : Nat) :
    valuesOf (E.map fun e => (e.1 + (n : Int), e.2)) i j = if n ≤ i then valuesOf E (i - n) j else [] := by
  induction E with
  | nil => simp [valuesOf]
  | cons e E ih =>
    have he := h e (by simp)
    rw [List.map_cons, valuesOf_cons, valuesOf_cons, ih fun f hf => h f (by simp [hf])]
    by_cases hn : n ≤ i
    · rw [if_pos hn, if_pos hn]
      congr 1
      simp only
      simp only [show (e.1 + (n : Int) = (i : Int)) = (e.1 = ((i - n : Nat) : Int)) by apply propext; omega]
    · rw [if_neg hn, if_neg hn, if_neg (by simp only; omega)]; rfl

theorem valuesOf_shiftCol {E : List (Int × Int × T)} (h : ∀ e ∈ E, 0 ≤ e.2.1) (n i j : Nat) :
    valuesOf (E.map fun e => (e.1, e.2.1 + (n : Int), e.2.2)) i j = if n ≤ j then valuesOf E i (j - n) else [] := by
  induction E with
  | nil => simp [valuesOf]
  | cons e E ih =>
    have he := h e (by simp)
    rw [List.map_cons, valuesOf_cons, valuesOf_cons, ih fun f hf => h f (by simp [hf])]
    by_cases hn : n ≤ j
    · rw [if_pos hn, if_pos hn]
      congr 1
      simp only
      simp only [show (e.2.1 + (n : Int) = (j : Int)) = (e.2.1 = ((j - n : Nat) : Int)) by apply propext; omega]
    · rw [if_neg hn, if_neg hn, if_neg (by simp only; omega)]; rfl

/-- C66. `Coo::v_stack` lists the triplets of the upper matrix followed by those of the lower one with the row
moved; so the values of every position are those of the operand it comes from, in their order. -/
theorem C66_v_stack (t : IntTy) (a b : Coo T) (ha : a.WF t) (hb : b.WF t) (h : a.cols = b.cols)
    (hf : ((a.rows + b.rows : Nat) : Int) ≤ t.hi + 1) :
    ∃ r, Coo.v_stack t a b = .ok r ∧ r.WF t ∧ r.rows = a.rows + b.rows ∧ r.cols = a.cols ∧
      r.triples = a.triples ++ b.triples.map (fun e => (e.1 + (a.rows : Int), e.2)) ∧
      ∀ i j, r.valuesAt i j = vcat a.rows a.valuesAt b.valuesAt i j := by
  have hs : shiftM t a.rows b.rowidx = .ok (b.rowidx.map (· + (a.rows : Int))) :=
    shiftM_ok fun r hr => by have := hb.row r hr; omega
  have e : Coo.v_stack t a b = .ok ⟨a.rows + b.rows, a.cols, a.rowidx ++ b.rowidx.map (· + (a.rows : Int)),
      a.colidx ++ b.colidx, a.values ++ b.values⟩ := by
    unfold Coo.v_stack
    rw [if_neg (by simpa using h), hs]
    rfl
  have e1 : (⟨0, 0, b.rowidx.map (· + (a.rows : Int)), b.colidx, b.values⟩ : Coo T).triples =
      b.triples.map fun e => (e.1 + (a.rows : Int), e.2) := by
    unfold Coo.triples
    simp only
    rw [List.zip_map_left]
    rfl
  have htr : (⟨a.rows + b.rows, a.cols, a.rowidx ++ b.rowidx.map (· + (a.rows : Int)),
      a.colidx ++ b.colidx, a.values ++ b.values⟩ : Coo T).triples =
      a.triples ++ b.triples.map (fun e => (e.1 + (a.rows : Int), e.2)) := by
    rw [coo_triples_append (n' := a.rows) (m' := a.cols) (p := 0) (q := 0) ha.lenr ha.lenc, e1]
  refine ⟨_, e, Coo.wf_of_triples (by simp [ha.lenr, hb.lenr]) (by simp [ha.lenc, hb.lenc]) ?_, rfl, rfl, htr, ?_⟩
  · rw [htr]
    intro f hf
    rw [List.mem_append, List.mem_map] at hf
    rcases hf with hf | ⟨g, hg, rfl⟩
    · have := Coo.triples_mem ha hf
      simp only; omega
    · have := Coo.triples_mem hb hg
      simp only; omega
  · intro i j
    change valuesOf (Coo.triples _) i j = _
    rw [htr, valuesOf_append, valuesOf_shiftRow fun e he => (Coo.triples_mem hb he).1.1]
    unfold vcat
    by_cases hi : i < a.rows
    · rw [if_pos hi, if_neg (by omega), List.append_nil]; rfl
    · rw [if_neg hi, if_pos (by omega), show valuesOf a.triples i j = [] from Coo.valuesAt_out ha (by omega)]; rfl

/-- C66. `Coo::h_stack`, likewise. -/
theorem C66_h_stack (t : IntTy) (a b : Coo T) (ha : a.WF t) (hb : b.WF t) (h : a.rows = b.rows)
    (hf : ((a.cols + b.cols : Nat) : Int) ≤ t.hi + 1) :
    ∃ r, Coo.h_stack t a b = .ok r ∧ r.WF t ∧ r.rows = a.rows ∧ r.cols = a.cols + b.cols ∧
      r.triples = a.triples ++ b.triples.map (fun e => (e.1, e.2.1 + (a.cols : Int), e.2.2)) ∧
      ∀ i j, r.valuesAt i j = hcat a.cols a.valuesAt b.valuesAt i j := by
  have hs : shiftM t a.cols b.colidx = .ok (b.colidx.map (· + (a.cols : Int))) :=
    shiftM_ok fun r hr => by have := hb.col r hr; omega
  have e : Coo.h_stack t a b = .ok ⟨a.rows, a.cols + b.cols, a.rowidx ++ b.rowidx,
      a.colidx ++ b.colidx.map (· + (a.cols : Int)), a.values ++ b.values⟩ := by
    unfold Coo.h_stack
    rw [if_neg (by simpa using h), hs]
    simp only [bind, Except.bind]
    refine (C44_coo_new _ _ _ _ _).1 ?_
    simp [ha.lenr, hb.lenr, ha.lenc, hb.lenc]
  have e1 : (⟨0, 0, b.rowidx, b.colidx.map (· + (a.cols : Int)), b.values⟩ : Coo T).triples =
      b.triples.map fun e => (e.1, e.2.1 + (a.cols : Int), e.2.2) := by
    unfold Coo.triples
    simp only
    rw [List.zip_map_left, List.zip_map_right]
    rfl
  have htr : (⟨a.rows, a.cols + b.cols, a.rowidx ++ b.rowidx,
      a.colidx ++ b.colidx.map (· + (a.cols : Int)), a.values ++ b.values⟩ : Coo T).triples =
      a.triples ++ b.triples.map (fun e => (e.1, e.2.1 + (a.cols : Int), e.2.2)) := by
    rw [coo_triples_append (n' := a.rows) (m' := a.cols) (p := 0) (q := 0) ha.lenr ha.lenc, e1]
  refine ⟨_, e, Coo.wf_of_triples (by simp [ha.lenr, hb.lenr]) (by simp [ha.lenc, hb.lenc]) ?_, rfl, rfl, htr, ?_⟩
  · rw [htr]
    intro f hf
    rw [List.mem_append, List.mem_map] at hf
    rcases hf with hf | ⟨g, hg, rfl⟩
    · have := Coo.triples_mem ha hf
      simp only; omega
    · have := Coo.triples_mem hb hg
      simp only; omega
  · intro i j
    change valuesOf (Coo.triples _) i j = _
    rw [htr, valuesOf_append, valuesOf_shiftCol fun e he => (Coo.triples_mem hb he).2.1]
    unfold hcat
    by_cases hi : j < a.cols
    · rw [if_pos hi, if_neg (by omega), List.append_nil]; rfl
    · rw [if_neg hi, if_pos (by omega), show valuesOf a.triples i j = [] from Coo.valuesAt_out ha (by omega)]; rfl

/-- C66. `Coo::v_stack3` and `Coo::h_stack3`. -/
theorem C66_stack3 (t : IntTy) (a b c : Coo T) (ha : a.WF t) (hb : b.WF t) (hc : c.WF t) :
    (a.cols = b.cols → a.cols = c.cols → ((a.rows + b.rows + c.rows : Nat) : Int) ≤ t.hi + 1 →
      ∃ r, Coo.v_stack3 t a b c = .ok r ∧ r.WF t ∧ r.rows = a.rows + b.rows + c.rows ∧ r.cols = a.cols ∧
        ∀ i j, r.valuesAt i j = vcat (a.rows + b.rows) (vcat a.rows a.valuesAt b.valuesAt) c.valuesAt i j) ∧
    (a.rows = b.rows → a.rows = c.rows → ((a.cols + b.cols + c.cols : Nat) : Int) ≤ t.hi + 1 →
      ∃ r, Coo.h_stack3 t a b c = .ok r ∧ r.WF t ∧ r.rows = a.rows ∧ r.cols = a.cols + b.cols + c.cols ∧
        ∀ i j, r.valuesAt i j = hcat (a.cols + b.cols) (hcat a.cols a.valuesAt b.valuesAt) c.valuesAt i j) := by
  constructor
  · intro h1 h2 hf
    unfold Coo.v_stack3
    rw [if_neg (by simpa using h1)]
    simp only
    rw [if_neg (by simpa using h2)]
    obtain ⟨r, g1, g2, g3, g4, g5, g6⟩ := C66_v_stack t a b ha hb h1 (by push_cast at hf ⊢; omega)
    obtain ⟨s, k1, k2, k3, k4, k5, k6⟩ := C66_v_stack t r c g2 hc (by omega) (by rw [g3]; exact hf)
    refine ⟨s, ?_, k2, by omega, by omega, ?_⟩
    · simp only [g1]
      exact k1
    · intro i j
      rw [k6, g3]
      unfold vcat
      simp only [g6]
      rfl
  · intro h1 h2 hf
    unfold Coo.h_stack3
    rw [if_neg (by simpa using h1)]
    simp only
    rw [if_neg (by simpa using h2)]
    obtain ⟨r, g1, g2, g3, g4, g5, g6⟩ := C66_h_stack t a b ha hb h1 (by push_cast at hf ⊢; omega)
    obtain ⟨s, k1, k2, k3, k4, k5, k6⟩ := C66_h_stack t r c g2 hc (by omega) (by rw [g4]; exact hf)
    refine ⟨s, ?_, k2, by omega, by omega, ?_⟩
    · simp only [g1]
      exact k1
    · intro i j
      rw [k6, g4]
      unfold hcat
      simp only [g6]
      rfl

example : exSatCoo.WF .u8 ∧ ((exSatCoo.rows + exSatCoo.rows + exSatCoo.rows : Nat) : Int) ≤ IntTy.u8.hi + 1 ∧
    ((exSatCoo.cols + exSatCoo.cols + exSatCoo.cols : Nat) : Int) ≤ IntTy.u8.hi + 1 ∧
    (vcat 2 exSatCoo.valuesAt exSatCoo.valuesAt) 3 2 = [⟨90⟩, ⟨50⟩, ⟨-50⟩] := ⟨exSatCoo_wf, by decide, by decide, by decide⟩

/-- C66. `Coo::compose` on blocks whose dimensions agree. -/
theorem C66_coo_compose (t : IntTy) (j11 j12 j21 j22 : Coo T) (h11 : j11.WF t) (h12 : j12.WF t)
    (h21 : j21.WF t) (h22 : j22.WF t) (hr1 : j11.rows = j12.rows) (hr2 : j21.rows = j22.rows)
    (hc1 : j11.cols = j21.cols) (hc2 : j12.cols = j22.cols)
    (hr : ((j11.rows + j21.rows : Nat) : Int) ≤ t.hi + 1) (hc : ((j11.cols + j12.cols : Nat) : Int) ≤ t.hi + 1) :
    ∃ r, Coo.compose t j11 j12 j21 j22 = .ok r ∧ r.WF t ∧ r.rows = j11.rows + j21.rows ∧
      r.cols = j11.cols + j12.cols ∧ r.nnz = j11.nnz + j12.nnz + j21.nnz + j22.nnz ∧
      ∀ i j, r.valuesAt i j = vcat j11.rows (hcat j11.cols j11.valuesAt j12.valuesAt)
        (hcat j11.cols j21.valuesAt j22.valuesAt) i j := by
  obtain ⟨p, p1, p2, p3, p4, p5, p6⟩ := C66_h_stack t j11 j12 h11 h12 hr1 hc
  obtain ⟨q, q1, q2, q3, q4, q5, q6⟩ := C66_h_stack t j21 j22 h21 h22 hr2 (by rw [← hc1, ← hc2]; exact hc)
  obtain ⟨r, r1, r2, r3, r4, r5, r6⟩ := C66_v_stack t p q p2 q2 (by omega) (by rw [p3, q3]; exact hr)
  refine ⟨r, ?_, r2, by omega, by omega, ?_, fun i j => ?_⟩
  · unfold Coo.compose
    rw [p1, q1]
    exact r1
  · have e1 := congrArg List.length r5
    have e2 := congrArg List.length p5
    have e3 := congrArg List.length q5
    simp only [List.length_append, List.length_map, Coo.triples_length r2, Coo.triples_length p2, Coo.triples_length q2,
      Coo.triples_length h11, Coo.triples_length h12, Coo.triples_length h21, Coo.triples_length h22] at e1 e2 e3
    unfold Coo.nnz
    omega
  · rw [r6, p3]
    unfold vcat
    simp only [p6, q6, hc1]

/-- C66. `Coo::compose3` on blocks whose dimensions agree. -/
theorem C66_coo_compose3 (t : IntTy) (j : Fin 3 → Fin 3 → Coo T) (h : ∀ p q, (j p q).WF t)
    (hr : ∀ p q, (j p q).rows = (j p 0).rows) (hc : ∀ p q, (j p q).cols = (j 0 q).cols)
    (hrf : (((j 0 0).rows + (j 1 0).rows + (j 2 0).rows : Nat) : Int) ≤ t.hi + 1)
    (hcf : (((j 0 0).cols + (j 0 1).cols + (j 0 2).cols : Nat) : Int) ≤ t.hi + 1) :
    ∃ r, Coo.compose3 t (j 0 0) (j 0 1) (j 0 2) (j 1 0) (j 1 1) (j 1 2) (j 2 0) (j 2 1) (j 2 2) = .ok r ∧ r.WF t ∧
      r.rows = (j 0 0).rows + (j 1 0).rows + (j 2 0).rows ∧ r.cols = (j 0 0).cols + (j 0 1).cols + (j 0 2).cols ∧
      ∀ i k, r.valuesAt i k =
        (let brow := fun p => hcat ((j 0 0).cols + (j 0 1).cols) (hcat (j 0 0).cols (j p 0).valuesAt (j p 1).valuesAt)
            (j p 2).valuesAt
         vcat ((j 0 0).rows + (j 1 0).rows) (vcat (j 0 0).rows (brow 0) (brow 1)) (brow 2) i k) := by
  have hrow : ∀ p, ∃ r, Coo.h_stack3 t (j p 0) (j p 1) (j p 2) = .ok r ∧ r.WF t ∧ r.rows = (j p 0).rows ∧
      r.cols = (j 0 0).cols + (j 0 1).cols + (j 0 2).cols ∧
      ∀ i k, r.valuesAt i k = hcat ((j 0 0).cols + (j 0 1).cols) (hcat (j 0 0).cols (j p 0).valuesAt (j p 1).valuesAt)
        (j p 2).valuesAt i k := by
    intro p
    obtain ⟨r, r1, r2, r3, r4, r6⟩ := (C66_stack3 t (j p 0) (j p 1) (j p 2) (h _ _) (h _ _) (h _ _)).2
      (hr p 1).symm (hr p 2).symm (by rw [hc p 0, hc p 1, hc p 2]; exact hcf)
    refine ⟨r, r1, r2, r3, by rw [r4, hc p 0, hc p 1, hc p 2], fun i k => ?_⟩
    rw [r6, hc p 0, hc p 1]
  obtain ⟨r, r1, r2, r3, r4, r5⟩ := hrow 0
  obtain ⟨s, s1, s2, s3, s4, s5⟩ := hrow 1
  obtain ⟨u, u1, u2, u3, u4, u5⟩ := hrow 2
  obtain ⟨z, z1, z2, z3, z4, z6⟩ := (C66_stack3 t r s u r2 s2 u2).1 (by omega) (by omega)
    (by rw [r3, s3, u3]; exact hrf)
  refine ⟨z, ?_, z2, by omega, by omega, fun i k => ?_⟩
  · unfold Coo.compose3
    rw [r1, s1, u1]
    exact z1
  · rw [z6, r3, s3]
    unfold vcat
    simp only [r5, s5, u5]

/-- C66. `CSC::compose`: the values of every position of the block it comes from are added left to right in
storage order, the first one being the start. -/
theorem C66_csc_compose [Zero T] [Add T] (t : IntTy) (j11 j12 j21 j22 : CSC T) (h11 : j11.WF t) (h12 : j12.WF t)
    (h21 : j21.WF t) (h22 : j22.WF t) (hr1 : j11.rows = j12.rows) (hr2 : j21.rows = j22.rows)
    (hc1 : j11.cols = j21.cols) (hc2 : j12.cols = j22.cols)
    (hr : ((j11.rows + j21.rows : Nat) : Int) ≤ t.hi + 1) (hc : ((j11.cols + j12.cols : Nat) : Int) ≤ t.hi + 1)
    (hn : ((j11.stored + j12.stored + j21.stored + j22.stored : Nat) : Int) < t.hi) :
    ∃ r, CSC.compose t j11 j12 j21 j22 = .ok r ∧ r.WF t ∧ r.Canonical ∧ r.rows = j11.rows + j21.rows ∧
      r.cols = j11.cols + j12.cols ∧
      ∀ i j, r.valuesAt i j = collapse (vcat j11.rows (hcat j11.cols j11.valuesAt j12.valuesAt)
        (hcat j11.cols j21.valuesAt j22.valuesAt) i j) := by
  obtain ⟨a, a1, a2, a3, a4, a5, -, a6⟩ := C53_csc_to_coo t j11 h11 (by omega)
  obtain ⟨b, b1, b2, b3, b4, b5, -, b6⟩ := C53_csc_to_coo t j12 h12 (by omega)
  obtain ⟨c, c1, c2, c3, c4, c5, -, c6⟩ := C53_csc_to_coo t j21 h21 (by omega)
  obtain ⟨d, d1, d2, d3, d4, d5, -, d6⟩ := C53_csc_to_coo t j22 h22 (by omega)
  obtain ⟨r, r1, r2, r3, r4, r5, r6⟩ := C66_coo_compose t a b c d a2 b2 c2 d2 (by omega) (by omega) (by omega) (by omega)
    (by omega) (by omega)
  obtain ⟨s, k1, k2, k3, k4, k5, -, -, k7⟩ := C54_coo_to_csc t r r2 (by unfold Coo.nnz at r5; omega)
  refine ⟨s, ?_, k2, k5, by omega, by omega, fun i j => ?_⟩
  · unfold CSC.compose
    rw [a1, b1, c1, d1]
    simp only [bind, Except.bind]
    unfold Coo.compose at r1
    simp only [bind, Except.bind] at r1
    cases e1 : Coo.h_stack t a b with
    | error e => rw [e1] at r1; simp at r1
    | ok x =>
      rw [e1] at r1
      simp only at r1 ⊢
      cases e2 : Coo.h_stack t c d with
      | error e => rw [e2] at r1; simp at r1
      | ok y =>
        rw [e2] at r1
        simp only at r1 ⊢
        rw [r1]
        exact k1
  · rw [k7, r6, a3, a4]
    unfold vcat hcat
    simp only [a6, b6, c6, d6]

example : exSatCsc.WF .u8 ∧ ((exSatCsc.stored + exSatCsc.stored + exSatCsc.stored + exSatCsc.stored : Nat) : Int) < IntTy.u8.hi :=
  ⟨exSatCsc_wf, by decide⟩

/-- C66. `CSR::h_stack` of matrices without unused storage (see C05 and C26 for what happens otherwise). -/
theorem C66_csr_h_stack_partial [Zero T] [Add T] (t : IntTy) (a b : CSR T) (ha : a.WF t) (hb : b.WF t)
    (ha1 : a.colidx.length = a.stored) (ha2 : a.values.length = a.stored)
    (hb1 : b.colidx.length = b.stored) (hb2 : b.values.length = b.stored)
    (hra : (a.rows : Int) ≤ t.hi + 1) (h : a.rows = b.rows) (hf : ((a.cols + b.cols : Nat) : Int) ≤ t.hi + 1)
    (hn : ((a.stored + b.stored : Nat) : Int) < t.hi) :
    ∃ r, CSR.h_stack t a b = .ok r ∧ r.WF t ∧ r.Canonical ∧ r.rows = a.rows ∧ r.cols = a.cols + b.cols ∧
      ∀ i j, r.valuesAt i j = collapse (hcat a.cols a.valuesAt b.valuesAt i j) := by
  obtain ⟨p, p1, p2, p3, p4, p5, -, p6⟩ := C53_csr_to_coo t a ha hra ha1 ha2
  obtain ⟨q, q1, q2, q3, q4, q5, -, q6⟩ := C53_csr_to_coo t b hb (by omega) hb1 hb2
  unfold CSR.h_stack
  rw [p1, q1]
  simp only [bind, Except.bind]
  obtain ⟨r, g1, g2, g3, g4, g5, g6⟩ := C66_h_stack t p q p2 q2 (by omega) (by omega)
  rw [g1]
  have e1 := congrArg List.length g5
  simp only [List.length_append, List.length_map, Coo.triples_length g2, Coo.triples_length p2, Coo.triples_length q2] at e1
  obtain ⟨s, k1, k2, k3, k4, k5, -, -, k7⟩ := C54_coo_to_csr t r g2 (by omega)
  refine ⟨s, k1, k2, k5, by omega, by omega, ?_⟩
  intro i j
  rw [k7, g6, p4]
  unfold hcat
  simp only [p6, q6]

example : exSatCsr.WF .u8 ∧ exSatCsr.colidx.length = exSatCsr.stored ∧ exSatCsr.values.length = exSatCsr.stored ∧
    ((exSatCsr.stored + exSatCsr.stored : Nat) : Int) < IntTy.u8.hi := ⟨exSatCsr_wf, by decide, by decide, by decide⟩

/-! ### C66: `Coo + Coo`, upper triangle -/

/-- C66. `Coo + Coo`: the values of a position in the left operand followed by those in the right operand are
added left to right. -/
theorem C66_coo_add [Zero T] [Add T] (t : IntTy) (a b : Coo T) (ha : a.WF t) (hb : b.WF t) (h1 : a.rows = b.rows)
    (h2 : a.cols = b.cols) (hn : ((a.nnz + b.nnz : Nat) : Int) < t.hi) :
    ∃ r, Coo.add t a b = .ok r ∧ r.WF t ∧ r.Canonical ∧ r.rows = a.rows ∧ r.cols = a.cols ∧
      ∀ i j, r.valuesAt i j = collapse (a.valuesAt i j ++ b.valuesAt i j) := by
  unfold Coo.add
  rw [if_neg (by simpa using h1)]
  simp only
  rw [if_neg (by simpa using h2), (C44_coo_new _ _ _ _ _).1 (by simp [ha.lenr, ha.lenc, hb.lenr, hb.lenc])]
  have htr : (⟨a.rows, a.cols, a.rowidx ++ b.rowidx, a.colidx ++ b.colidx, a.values ++ b.values⟩ : Coo T).triples =
      a.triples ++ b.triples :=
    coo_triples_append (n' := a.rows) (m' := a.cols) (p := b.rows) (q := b.cols) ha.lenr ha.lenc
  have hwf : (⟨a.rows, a.cols, a.rowidx ++ b.rowidx, a.colidx ++ b.colidx, a.values ++ b.values⟩ : Coo T).WF t := by
    refine Coo.wf_of_triples (by simp [ha.lenr, hb.lenr]) (by simp [ha.lenc, hb.lenc]) ?_
    rw [htr]
    intro f hf
    rw [List.mem_append] at hf
    rcases hf with hf | hf
    · exact Coo.triples_mem ha hf
    · have := Coo.triples_mem hb hf
      simp only; omega
  obtain ⟨s, k1, k2, k3, k4, k5, -, -, k7⟩ := C54_coo_to_csr t _ hwf (by simpa [Coo.nnz] using hn)
  refine ⟨s, k1, k2, k5, k3, k4, fun i j => ?_⟩
  rw [k7]
  change collapse (valuesOf (Coo.triples _) i j) = _
  rw [htr, valuesOf_append]
  rfl

example : exSatCoo.WF .u8 ∧ ((exSatCoo.nnz + exSatCoo.nnz : Nat) : Int) < IntTy.u8.hi ∧
    collapse (exSatCoo.valuesAt 1 2 ++ exSatCoo.valuesAt 1 2) = [⟨50⟩] := ⟨exSatCoo_wf, by decide, by decide⟩

/-- C66. `Coo::upper(k)` keeps, for every position with `row + k ≤ col`, the stored values in their order, and
nothing elsewhere. -/
theorem C66_upper (t : IntTy) (a : Coo T) (ha : a.WF t) (k : Int)
    (hk : ∀ r ∈ a.rowidx, t.lo ≤ r + k ∧ r + k ≤ t.hi) :
    ∃ r, a.upper t k = .ok r ∧ r.WF t ∧ r.rows = a.rows ∧ r.cols = a.cols ∧
      ∀ i j : Nat, r.valuesAt i j = if (i : Int) + k ≤ j then a.valuesAt i j else [] := by
  obtain ⟨r, h1, h2, h3, h4, h5⟩ := Coo.upper_ok ha hk
  refine ⟨r, h1, h2, h3, h4, fun i j => ?_⟩
  unfold Coo.valuesAt
  rw [h5, List.filter_filter]
  split
  · congr 1
    apply List.filter_congr
    intro e _
    rw [← Bool.decide_and, decide_eq_decide]
    omega
  · rw [List.filter_eq_nil_iff.2]
    · rfl
    · intro e _
      rw [← Bool.decide_and, decide_eq_true_eq]
      omega

example : exSatCoo.WF .u8 ∧ ∀ r ∈ exSatCoo.rowidx, IntTy.u8.lo ≤ r + 1 ∧ r + 1 ≤ IntTy.u8.hi := ⟨exSatCoo_wf, by decide⟩

/-! ### C66: selection -/

/-- C66. `CSR::select`: position `(r, c)` of the result holds exactly the values stored at the `r`-th requested
row and `c`-th requested column. -/
theorem C66_csr_select [Zero T] (t : IntTy) (a : CSR T) (ha : a.WF t) (hcan : a.Canonical)
    (hst : ∀ (i : Nat) (v : Int), i < a.rows → a.rowptr[i]? = some v → v < t.hi)
    (hr : (a.rows : Int) ≤ t.hi) (hc : (a.cols : Int) ≤ t.hi) (ri ci : Option (List Int))
    (hri : ∀ i ∈ chosen a.rows ri, 0 ≤ i ∧ i < (a.rows : Int)) (hci : ∀ j ∈ chosen a.cols ci, 0 ≤ j ∧ j < (a.cols : Int))
    (hlen : ((chosen a.cols ci).length : Int) ≤ t.hi + 1)
    (hfit : (a.pickCount (chosen a.rows ri) (chosen a.cols ci) : Int) ≤ t.hi) :
    ∃ q, a.select t ri ci = .ok q ∧ q.WF t ∧ q.Canonical ∧
      q.rows = (chosen a.rows ri).length ∧ q.cols = (chosen a.cols ci).length ∧
      ∀ (r c i j : Nat), (chosen a.rows ri)[r]? = some (i : Int) → (chosen a.cols ci)[c]? = some (j : Int) →
        q.valuesAt r c = a.valuesAt i j := by
  obtain ⟨p, j, x, h1, h2, h3, h4, h5, -, -⟩ := csr_select_wf ha hcan hri hci hlen hfit
  refine ⟨⟨_, _, p, j, x⟩, ?_, h2, h3, rfl, rfl, h4⟩
  obtain ⟨b, hb1, hb2⟩ := C09_csr_has_canonical_partial t a ha hst
  unfold CSR.select
  rw [hb1, hb2.2 hcan, select_idx_ok hr hri, select_idx_ok hc hci]
  simp only [bind, Except.bind, Bool.not_true]
  rw [h1]
  exact CSR.new_ok (CSR.WF.rep h2)

/-- C66. `CSC::select`, likewise. -/
theorem C66_csc_select [Zero T] (t : IntTy) (a : CSC T) (ha : a.WF t) (hcan : a.Canonical)
    (hst : ∀ (i : Nat) (v : Int), i < a.cols → a.colptr[i]? = some v → v < t.hi)
    (hr : (a.rows : Int) ≤ t.hi) (hc : (a.cols : Int) ≤ t.hi) (ri ci : Option (List Int))
    (hri : ∀ i ∈ chosen a.rows ri, 0 ≤ i ∧ i < (a.rows : Int)) (hci : ∀ j ∈ chosen a.cols ci, 0 ≤ j ∧ j < (a.cols : Int))
    (hlen : ((chosen a.rows ri).length : Int) ≤ t.hi + 1)
    (hfit : (a.pickCount (chosen a.rows ri) (chosen a.cols ci) : Int) ≤ t.hi) :
    ∃ q, a.select t ri ci = .ok q ∧ q.WF t ∧ q.Canonical ∧
      q.rows = (chosen a.rows ri).length ∧ q.cols = (chosen a.cols ci).length ∧
      ∀ (r c i j : Nat), (chosen a.rows ri)[r]? = some (i : Int) → (chosen a.cols ci)[c]? = some (j : Int) →
        q.valuesAt r c = a.valuesAt i j := by
  obtain ⟨p, j, x, h1, h2, h3, h4, h5, -, -⟩ := csr_select_wf (a := a.asCSR) ha hcan hci hri hlen hfit
  have h2' : (⟨(chosen a.rows ri).length, (chosen a.cols ci).length, j, p, x⟩ : CSC T).WF t := h2
  refine ⟨⟨_, _, j, p, x⟩, ?_, h2', h3, rfl, rfl, fun r c i k e1 e2 => h4 c r k i e2 e1⟩
  obtain ⟨b, hb1, hb2⟩ := C09_csc_has_canonical_partial t a ha hst
  unfold CSC.select
  rw [hb1, hb2.2 hcan, select_idx_ok hr hri, select_idx_ok hc hci]
  simp only [bind, Except.bind, Bool.not_true]
  simp only [CSC.asCSR] at h1
  rw [h1]
  rfl

/-- C66. `get_csr_submatrix`: position `(i, k)` of the block holds the values stored at `(r0 + i, c0 + k)`, in
their order. -/
theorem C66_submatrix [Zero T] (t : IntTy) (a : CSR T) (ha : a.WF t) (r0 r1 c0 c1 : Nat) (hr : r0 ≤ r1)
    (hr1 : r1 ≤ a.rows) (hr1t : (r1 : Int) ≤ t.hi) (hc : c0 ≤ c1) (hc1t : (c1 : Int) ≤ t.hi)
    (p0 j0 : List Int) (x0 : List T) :
    ∃ p j x, get_csr_submatrix t a.rowptr a.colidx a.values r0 r1 c0 c1 p0 j0 x0 = .ok (p, j, x) ∧
      (let q : CSR T := ⟨r1 - r0, c1 - c0, p, j, x⟩
       q.WF t ∧ ∀ i k, i < r1 - r0 → k < c1 - c0 → q.valuesAt i k = a.valuesAt (r0 + i) (c0 + k)) := by
  obtain ⟨p, j, x, h1, h2, h3, -⟩ := submatrix_wf ha hr hr1 hr1t hc hc1t p0 j0 x0
  exact ⟨p, j, x, h1, h2, h3⟩

example : exSatCsr.WF .u8 ∧ (1 : Nat) ≤ 2 ∧ 2 ≤ exSatCsr.rows ∧ ((2 : Nat) : Int) ≤ IntTy.u8.hi ∧ (1 : Nat) ≤ 3 ∧
    exSatCsr.valuesAt (1 + 0) (1 + 1) = [⟨90⟩, ⟨50⟩, ⟨-50⟩] := ⟨exSatCsr_wf, by decide, by decide, by decide, by decide, by decide⟩

/-- C66. Column indexing (`csr_column_index1` and `csr_column_index2`): column `k` of the result holds, row by row,
the values stored in the `k`-th requested column, in their order. -/
theorem C66_column_index (t : IntTy) (a : CSR T) (ha : a.WF t) (idx : List Nat) (hidx : ∀ j ∈ idx, j < a.cols)
    (order : List Int) (hord : IsArgsort idx order) (hn : (idx.length : Int) ≤ t.hi)
    (hfit : (((a.triples.map fun e => idx.count e.2.1.toNat).sum : Nat) : Int) ≤ t.hi)
    (p0 : List Int) (hp0 : p0.length = a.rows + 1) :
    ∃ off p c, csr_column_index1 t idx.length idx a.rows a.cols a.rowptr a.colidx (List.replicate a.cols 0) p0 = .ok (off, p) ∧
      p[a.rows]? = some ((c : Nat) : Int) ∧
      ∀ (j0 : List Int) (x0 : List T), c ≤ j0.length → c ≤ x0.length →
        ∃ j x, csr_column_index2 order off a.stored a.colidx a.values j0 x0 = .ok (j, x) ∧
          (let q : CSR T := ⟨a.rows, idx.length, p, j, x⟩
           q.WF t ∧ ∀ i k l, idx[k]? = some l → q.valuesAt i k = a.valuesAt i l) := by
  obtain ⟨off, p, c, h1, h2, -, h4⟩ := column_index_wf ha hidx hord hn hfit p0 hp0
  refine ⟨off, p, c, h1, h2, fun j0 x0 hj hx => ?_⟩
  obtain ⟨j, x, g1, g2, g3, -⟩ := h4 j0 x0 hj hx
  exact ⟨j, x, g1, g2, g3⟩

example : exSatCsr.WF .u8 ∧ (∀ j ∈ [2, 0, 2], j < exSatCsr.cols) ∧ IsArgsort [2, 0, 2] [1, 0, 2] ∧
    ((exSatCsr.triples.map fun e => [2, 0, 2].count e.2.1.toNat).sum : Nat) = 8 := by
  refine ⟨exSatCsr_wf, by decide, ⟨by decide, ?_⟩, by decide⟩
  simp

/-! ### C66: construction -/

/-- C66. `from_dense` of the three formats: position `(i, j)` stores the element of the array, unless it equals zero
by the scalar's own `==`; then nothing is stored. -/
theorem C66_from_dense [Zero T] [BEq T] (t : IntTy) (A : List (List T)) (n : Nat) (hrect : ∀ r ∈ A, r.length = n)
    (hr : (A.length : Int) ≤ t.hi + 1) (hc : (n : Int) ≤ t.hi + 1) :
    (A ≠ [] → (denseNnz A : Int) ≤ t.hi → ∃ r, CSR.from_dense t A = .ok r ∧ r.WF t ∧ r.Canonical ∧ r.rows = A.length ∧
      r.cols = n ∧ ∀ i j, r.valuesAt i j = ((A.getD i [])[j]?.toList).filter (· != 0)) ∧
    (A ≠ [] → (denseNnz A : Int) ≤ t.hi → ∃ r, CSC.from_dense t A = .ok r ∧ r.WF t ∧ r.Canonical ∧ r.rows = A.length ∧
      r.cols = n ∧ ∀ i j, r.valuesAt i j = ((A.getD i [])[j]?.toList).filter (· != 0)) ∧
    ((A = [] → n = 0) → ∃ r, Coo.from_dense t A = .ok r ∧ r.WF t ∧ r.rows = A.length ∧ r.cols = n ∧
      ∀ i j, r.valuesAt i j = ((A.getD i [])[j]?.toList).filter (· != 0)) := by
  refine ⟨fun hA hz => ?_, fun hA hz => ?_, fun hn => ?_⟩
  · obtain ⟨r, h0, h1, h2, h3, h4, -, -, -, -, h9⟩ := csr_from_dense_ok t A n hA hrect hc hz
    exact ⟨r, h0, h1, h2, h3, h4, h9⟩
  · obtain ⟨r, h0, h1, h2, h3, h4, -, -, -, -, h9⟩ := csc_from_dense_ok t A n hA hrect hr hc hz
    exact ⟨r, h0, h1, h2, h3, h4, h9⟩
  · obtain ⟨r, h0, h1, h2, h3, -, -, h6⟩ := coo_from_dense_ok t A n hn hrect hr hc
    exact ⟨r, h0, h1, h2, h3, h6⟩

/-- a scalar type whose `==` is not equality: `nan` differs from itself and the two zeros are equal -/
inductive Weird where
  | pz | nz | one | nan
deriving DecidableEq
def Weird.beq : Weird → Weird → Bool
  | .nan, _ => false
  | _, .nan => false
  | .one, .one => true
  | .one, _ => false
  | _, .one => false
  | _, _ => true
def Weird.inst : BEq Weird := ⟨Weird.beq⟩

example : (let A : List (List Weird) := [[.pz, .nan], [.nz, .one]]
    letI : BEq Weird := Weird.inst
    letI : Zero Weird := ⟨.pz⟩
    A ≠ [] ∧ (∀ r ∈ A, r.length = 2) ∧ denseNnz A = 2 ∧
    ((A.getD 0 [])[1]?.toList).filter (· != 0) = [.nan] ∧ ((A.getD 1 [])[0]?.toList).filter (· != 0) = []) := by
  refine ⟨by simp, by simp, by decide, by decide, by decide⟩

end
end Sparse

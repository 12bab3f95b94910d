import Verif.Props.Basic
/-! Properties C26, C27, C28, C48: assembling matrices from coordinate matrices. -/
namespace Sparse

section
variable {T : Type}

theorem shiftM_ok {t : IntTy} {off : Nat} {idx : List Int} (h : ∀ r ∈ idx, 0 ≤ r ∧ r + off ≤ t.hi) :
    shiftM t off idx = .ok (idx.map (· + (off : Int))) := by
  unfold shiftM
  have hlo := t.lo_nonpos
  induction idx with
  | nil => rfl
  | cons r idx ih =>
    have hr := h r (by simp)
    rw [List.mapM_cons, ih fun s hs => h s (by simp [hs])]
    simp only [IntTy.checked_ofUsize, IntTy.checked_add]
    rw [if_pos (by omega)]
    simp only [pure_bind]
    rw [if_pos (by omega)]
    rfl

theorem tripSum_shiftRow [AddCommMonoid T] {E : List (Int × Int × T)} (h : ∀ e ∈ E, 0 ≤ e.1) (n i j : Nat) :
    tripSum (E.map fun e => (e.1 + (n : Int), e.2)) i j = if n ≤ i then tripSum E (i - n) j else 0 := by
  induction E with
  | nil => simp [tripSum]
  | cons e E ih =>
    have he := h e (by simp)
    rw [List.map_cons, tripSum_cons, tripSum_cons, ih fun f hf => h f (by simp [hf])]
    by_cases hn : n ≤ i
    · rw [if_pos hn, if_pos hn]
      congr 1
      simp only
      simp only [show (e.1 + (n : Int) = (i : Int)) = (e.1 = ((i - n : Nat) : Int)) by apply propext; omega]
    · rw [if_neg hn, if_neg hn, if_neg (by simp only; omega), add_zero]

theorem tripSum_shiftCol [AddCommMonoid T] {E : List (Int × Int × T)} (h : ∀ e ∈ E, 0 ≤ e.2.1) (n i j : Nat) :
    tripSum (E.map fun e => (e.1, e.2.1 + (n : Int), e.2.2)) i j = if n ≤ j then tripSum E i (j - n) else 0 := by
  induction E with
  | nil => simp [tripSum]
  | cons e E ih =>
    have he := h e (by simp)
    rw [List.map_cons, tripSum_cons, tripSum_cons, ih fun f hf => h f (by simp [hf])]
    by_cases hn : n ≤ j
    · rw [if_pos hn, if_pos hn]
      congr 1
      simp only
      simp only [show (e.2.1 + (n : Int) = (j : Int)) = (e.2.1 = ((j - n : Nat) : Int)) by apply propext; omega]
    · rw [if_neg hn, if_neg hn, if_neg (by simp only; omega), add_zero]

theorem coo_triples_append {ra ca rb cb : List Int} {va vb : List T} {n m n' m' p q : Nat}
    (h1 : ra.length = va.length) (h2 : ca.length = va.length) :
    (⟨n, m, ra ++ rb, ca ++ cb, va ++ vb⟩ : Coo T).triples =
      (⟨n', m', ra, ca, va⟩ : Coo T).triples ++ (⟨p, q, rb, cb, vb⟩ : Coo T).triples := by
  unfold Coo.triples
  simp only
  rw [List.zip_append (by omega), List.zip_append (by simp; omega)]

/-! ### C26 -/

/-- C26. `Coo::v_stack`. -/
theorem C26_v_stack [AddCommMonoid T] (t : IntTy) (a b : Coo T) (ha : a.WF t) (hb : b.WF t) :
    (a.cols ≠ b.cols → Coo.v_stack t a b = .error .err) ∧
    (a.cols = b.cols → ((a.rows + b.rows : Nat) : Int) ≤ t.hi + 1 →
      ∃ r, Coo.v_stack t a b = .ok r ∧ r.WF t ∧ r.rows = a.rows + b.rows ∧ r.cols = a.cols ∧
        r.nnz = a.nnz + b.nnz ∧ ∀ i j, r.entry i j = vcat a.rows a.entry b.entry i j) := by
  constructor
  · intro h
    unfold Coo.v_stack
    rw [if_pos h]
    rfl
  · intro h hf
    have hs : shiftM t a.rows b.rowidx = .ok (b.rowidx.map (· + (a.rows : Int))) :=
      shiftM_ok fun r hr => by have := hb.row r hr; omega
    have e : Coo.v_stack t a b = .ok ⟨a.rows + b.rows, a.cols, a.rowidx ++ b.rowidx.map (· + (a.rows : Int)),
        a.colidx ++ b.colidx, a.values ++ b.values⟩ := by
      unfold Coo.v_stack
      rw [if_neg (by simpa using h), hs]
      rfl
    refine ⟨_, e, ⟨?_, ?_, ?_, ?_⟩, rfl, rfl, by simp [Coo.nnz], ?_⟩
    · simp [ha.lenr, hb.lenr]
    · simp [ha.lenc, hb.lenc]
    · intro r hr
      simp only [List.mem_append, List.mem_map] at hr ⊢
      rcases hr with hr | ⟨s, hs, rfl⟩
      · have := ha.row r hr; omega
      · have := hb.row s hs; omega
    · intro r hr
      simp only [List.mem_append] at hr ⊢
      rcases hr with hr | hr
      · exact ha.col r hr
      · have := hb.col r hr; omega
    · intro i j
      rw [Coo.entry_eq_tripSum, coo_triples_append (n' := a.rows) (m' := a.cols) (p := 0) (q := 0) ha.lenr ha.lenc,
        tripSum_append]
      have e1 : (⟨0, 0, b.rowidx.map (· + (a.rows : Int)), b.colidx, b.values⟩ : Coo T).triples =
          b.triples.map fun e => (e.1 + (a.rows : Int), e.2) := by
        unfold Coo.triples
        simp only
        rw [List.zip_map_left]
        rfl
      rw [e1, tripSum_shiftRow fun e he => (Coo.triples_mem hb he).1.1]
      unfold vcat
      by_cases hi : i < a.rows
      · rw [if_pos hi, if_neg (by omega), add_zero]
        rfl
      · rw [if_neg hi, if_pos (by omega)]
        have := Coo.entry_out ha (i := i) (j := j) (by omega)
        rw [Coo.entry_eq_tripSum] at this
        rw [show tripSum (⟨a.rows, a.cols, a.rowidx, a.colidx, a.values⟩ : Coo T).triples i j = 0 from this, zero_add]
        rfl

/-- C26. `Coo::h_stack`. -/
theorem C26_h_stack [AddCommMonoid T] (t : IntTy) (a b : Coo T) (ha : a.WF t) (hb : b.WF t) :
    (a.rows ≠ b.rows → Coo.h_stack t a b = .error .err) ∧
    (a.rows = b.rows → ((a.cols + b.cols : Nat) : Int) ≤ t.hi + 1 →
      ∃ r, Coo.h_stack t a b = .ok r ∧ r.WF t ∧ r.rows = a.rows ∧ r.cols = a.cols + b.cols ∧
        r.nnz = a.nnz + b.nnz ∧ ∀ i j, r.entry i j = hcat a.cols a.entry b.entry i j) := by
  constructor
  · intro h
    unfold Coo.h_stack
    rw [if_pos h]
    rfl
  · intro h hf
    have hs : shiftM t a.cols b.colidx = .ok (b.colidx.map (· + (a.cols : Int))) :=
      shiftM_ok fun r hr => by have := hb.col r hr; omega
    have e : Coo.h_stack t a b = .ok ⟨a.rows, a.cols + b.cols, a.rowidx ++ b.rowidx,
        a.colidx ++ b.colidx.map (· + (a.cols : Int)), a.values ++ b.values⟩ := by
      unfold Coo.h_stack
      rw [if_neg (by simpa using h), hs]
      simp only [bind, Except.bind]
      refine (C44_coo_new _ _ _ _ _).1 ?_
      simp [ha.lenr, hb.lenr, ha.lenc, hb.lenc]
    refine ⟨_, e, ⟨?_, ?_, ?_, ?_⟩, rfl, rfl, by simp [Coo.nnz], ?_⟩
    · simp [ha.lenr, hb.lenr]
    · simp [ha.lenc, hb.lenc]
    · intro r hr
      simp only [List.mem_append] at hr ⊢
      rcases hr with hr | hr
      · exact ha.row r hr
      · have := hb.row r hr; omega
    · intro r hr
      simp only [List.mem_append, List.mem_map] at hr ⊢
      rcases hr with hr | ⟨s, hs, rfl⟩
      · have := ha.col r hr; omega
      · have := hb.col s hs; omega
    · intro i j
      rw [Coo.entry_eq_tripSum, coo_triples_append (n' := a.rows) (m' := a.cols) (p := 0) (q := 0) ha.lenr ha.lenc,
        tripSum_append]
      have e1 : (⟨0, 0, b.rowidx, b.colidx.map (· + (a.cols : Int)), b.values⟩ : Coo T).triples =
          b.triples.map fun e => (e.1, e.2.1 + (a.cols : Int), e.2.2) := by
        unfold Coo.triples
        simp only
        rw [List.zip_map_left, List.zip_map_right]
        rfl
      rw [e1, tripSum_shiftCol fun e he => (Coo.triples_mem hb he).2.1]
      unfold hcat
      by_cases hi : j < a.cols
      · rw [if_pos hi, if_neg (by omega), add_zero]
        rfl
      · rw [if_neg hi, if_pos (by omega)]
        have := Coo.entry_out ha (i := i) (j := j) (by omega)
        rw [Coo.entry_eq_tripSum] at this
        rw [show tripSum (⟨a.rows, a.cols, a.rowidx, a.colidx, a.values⟩ : Coo T).triples i j = 0 from this, zero_add]
        rfl

/-- C26. `Coo::v_stack3`. -/
theorem C26_v_stack3 [AddCommMonoid T] (t : IntTy) (a b c : Coo T) (ha : a.WF t) (hb : b.WF t) (hc : c.WF t) :
    (a.cols ≠ b.cols ∨ a.cols ≠ c.cols → Coo.v_stack3 t a b c = .error .err) ∧
    (a.cols = b.cols → a.cols = c.cols → ((a.rows + b.rows + c.rows : Nat) : Int) ≤ t.hi + 1 →
      ∃ r, Coo.v_stack3 t a b c = .ok r ∧ r.WF t ∧ r.rows = a.rows + b.rows + c.rows ∧ r.cols = a.cols ∧
        r.nnz = a.nnz + b.nnz + c.nnz ∧
        ∀ i j, r.entry i j = vcat (a.rows + b.rows) (vcat a.rows a.entry b.entry) c.entry i j) := by
  unfold Coo.v_stack3
  constructor
  · intro h
    by_cases h1 : a.cols = b.cols
    · rw [if_neg (by simpa using h1), if_pos (by rcases h with h | h <;> [exact absurd h1 h; exact h])]
      rfl
    · rw [if_pos h1]
      rfl
  · intro h1 h2 hf
    rw [if_neg (by simpa using h1)]
    simp only
    rw [if_neg (by simpa using h2)]
    obtain ⟨r, g1, g2, g3, g4, g5, g6⟩ := (C26_v_stack t a b ha hb).2 h1 (by push_cast at hf ⊢; omega)
    obtain ⟨s, k1, k2, k3, k4, k5, k6⟩ := (C26_v_stack t r c g2 hc).2 (by omega) (by rw [g3]; exact hf)
    refine ⟨s, ?_, k2, by omega, by omega, by omega, ?_⟩
    · simp only [g1]
      exact k1
    · intro i j
      rw [k6, g3]
      unfold vcat
      simp only [g6]
      rfl

/-- C26. `Coo::h_stack3`. -/
theorem C26_h_stack3 [AddCommMonoid T] (t : IntTy) (a b c : Coo T) (ha : a.WF t) (hb : b.WF t) (hc : c.WF t) :
    (a.rows ≠ b.rows ∨ a.rows ≠ c.rows → Coo.h_stack3 t a b c = .error .err) ∧
    (a.rows = b.rows → a.rows = c.rows → ((a.cols + b.cols + c.cols : Nat) : Int) ≤ t.hi + 1 →
      ∃ r, Coo.h_stack3 t a b c = .ok r ∧ r.WF t ∧ r.rows = a.rows ∧ r.cols = a.cols + b.cols + c.cols ∧
        r.nnz = a.nnz + b.nnz + c.nnz ∧
        ∀ i j, r.entry i j = hcat (a.cols + b.cols) (hcat a.cols a.entry b.entry) c.entry i j) := by
  unfold Coo.h_stack3
  constructor
  · intro h
    by_cases h1 : a.rows = b.rows
    · rw [if_neg (by simpa using h1), if_pos (by rcases h with h | h <;> [exact absurd h1 h; exact h])]
      rfl
    · rw [if_pos h1]
      rfl
  · intro h1 h2 hf
    rw [if_neg (by simpa using h1)]
    simp only
    rw [if_neg (by simpa using h2)]
    obtain ⟨r, g1, g2, g3, g4, g5, g6⟩ := (C26_h_stack t a b ha hb).2 h1 (by push_cast at hf ⊢; omega)
    obtain ⟨s, k1, k2, k3, k4, k5, k6⟩ := (C26_h_stack t r c g2 hc).2 (by omega) (by rw [g4]; exact hf)
    refine ⟨s, ?_, k2, by omega, by omega, by omega, ?_⟩
    · simp only [g1]
      exact k1
    · intro i j
      rw [k6, g4]
      unfold hcat
      simp only [g6]
      rfl

example : exCoo.WF .u8 ∧ exCoo.rows = exCoo.rows ∧ ((exCoo.cols + exCoo.cols : Nat) : Int) ≤ IntTy.u8.hi + 1 :=
  ⟨exCoo_wf, rfl, by decide⟩

/-- C26 (CSR, partial: operands without unused storage; see C05). -/
theorem C26_csr_h_stack_partial [AddCommMonoid T] (t : IntTy) (a b : CSR T) (ha : a.WF t) (hb : b.WF t)
    (ha1 : a.colidx.length = a.stored) (ha2 : a.values.length = a.stored)
    (hb1 : b.colidx.length = b.stored) (hb2 : b.values.length = b.stored)
    (hra : (a.rows : Int) ≤ t.hi + 1) (hrb : (b.rows : Int) ≤ t.hi + 1) :
    (a.rows ≠ b.rows → CSR.h_stack t a b = .error .err) ∧
    (a.rows = b.rows → ((a.cols + b.cols : Nat) : Int) ≤ t.hi + 1 → ((a.stored + b.stored : Nat) : Int) < t.hi →
      ∃ r, CSR.h_stack t a b = .ok r ∧ r.WF t ∧ r.Canonical ∧ r.rows = a.rows ∧ r.cols = a.cols + b.cols ∧
        ∀ i j, r.entry i j = hcat a.cols a.entry b.entry i j) := by
  obtain ⟨p, p1, p2, p3, p4, -, p5, p6⟩ := C05_csr_to_coo_partial t a ha hra ha1 ha2
  obtain ⟨q, q1, q2, q3, q4, -, q5, q6⟩ := C05_csr_to_coo_partial t b hb hrb hb1 hb2
  unfold CSR.h_stack
  rw [p1, q1]
  simp only [bind, Except.bind]
  constructor
  · intro h
    rw [(C26_h_stack t p q p2 q2).1 (by omega)]
  · intro h hf hn
    obtain ⟨r, g1, g2, g3, g4, g5, g6⟩ := (C26_h_stack t p q p2 q2).2 (by omega) (by omega)
    rw [g1]
    obtain ⟨s, k1, k2, k3, k4, k5, k7, -⟩ := C01_coo_to_csr t r g2 (by unfold Coo.nnz at g5; omega)
    refine ⟨s, k1, k2, k5, by omega, by omega, ?_⟩
    · intro i j
      rw [k7, g6, p4]
      unfold hcat
      simp only [p6, q6]

example : exCan.WF .i8 ∧ exCan.colidx.length = exCan.stored ∧ exCan.values.length = exCan.stored ∧
    ((exCan.stored + exCan.stored : Nat) : Int) < IntTy.i8.hi := ⟨exCan_wf, by decide, by decide, by decide⟩

/-- C26 (negation of the full statement for CSR): unused storage of an operand becomes part of the result. -/
theorem C26_csr_h_stack_counterexample :
    let a : CSR Int := ⟨2, 2, [0, 0, 1], [1, 1], [5, 9]⟩
    a.WF .u8 ∧ ∃ r, CSR.h_stack .u8 a a = .ok r ∧ a.entry 0 1 = 0 ∧ r.entry 0 1 = 9 :=
  ⟨CSR.wf_of (by decide), _, rfl, by decide, by decide +kernel⟩

/-! ### C27 -/

/-- C27. `Coo::compose` on blocks whose dimensions agree. -/
theorem C27_coo_compose [AddCommMonoid T] (t : IntTy) (j11 j12 j21 j22 : Coo T) (h11 : j11.WF t) (h12 : j12.WF t)
    (h21 : j21.WF t) (h22 : j22.WF t) (hr1 : j11.rows = j12.rows) (hr2 : j21.rows = j22.rows)
    (hc1 : j11.cols = j21.cols) (hc2 : j12.cols = j22.cols)
    (hr : ((j11.rows + j21.rows : Nat) : Int) ≤ t.hi + 1) (hc : ((j11.cols + j12.cols : Nat) : Int) ≤ t.hi + 1) :
    ∃ r, Coo.compose t j11 j12 j21 j22 = .ok r ∧ r.WF t ∧ r.rows = j11.rows + j21.rows ∧
      r.cols = j11.cols + j12.cols ∧ r.nnz = j11.nnz + j12.nnz + j21.nnz + j22.nnz ∧
      ∀ i j, r.entry i j = vcat j11.rows (hcat j11.cols j11.entry j12.entry) (hcat j11.cols j21.entry j22.entry) i j := by
  obtain ⟨p, p1, p2, p3, p4, p5, p6⟩ := (C26_h_stack t j11 j12 h11 h12).2 hr1 hc
  obtain ⟨q, q1, q2, q3, q4, q5, q6⟩ := (C26_h_stack t j21 j22 h21 h22).2 hr2 (by rw [← hc1, ← hc2]; exact hc)
  obtain ⟨r, r1, r2, r3, r4, r5, r6⟩ := (C26_v_stack t p q p2 q2).2 (by omega) (by rw [p3, q3]; exact hr)
  refine ⟨r, ?_, r2, by omega, by omega, by omega, fun i j => ?_⟩
  · unfold Coo.compose
    rw [p1, q1]
    exact r1
  · rw [r6, p3]
    unfold vcat
    simp only [p6, q6, hc1]

/-- C27. `Coo::compose` returns `Err` when the blocks of a row of blocks differ in height or the rows of
blocks differ in total width. -/
theorem C27_coo_compose_err [AddCommMonoid T] (t : IntTy) (j11 j12 j21 j22 : Coo T) (h11 : j11.WF t) (h12 : j12.WF t)
    (h21 : j21.WF t) (h22 : j22.WF t)
    (hc1 : ((j11.cols + j12.cols : Nat) : Int) ≤ t.hi + 1) (hc2 : ((j21.cols + j22.cols : Nat) : Int) ≤ t.hi + 1)
    (h : j11.rows ≠ j12.rows ∨ j21.rows ≠ j22.rows ∨ j11.cols + j12.cols ≠ j21.cols + j22.cols) :
    Coo.compose t j11 j12 j21 j22 = .error .err := by
  unfold Coo.compose
  by_cases hr1 : j11.rows = j12.rows
  · obtain ⟨p, p1, p2, p3, p4, p5, p6⟩ := (C26_h_stack t j11 j12 h11 h12).2 hr1 hc1
    rw [p1]
    simp only [bind, Except.bind]
    by_cases hr2 : j21.rows = j22.rows
    · obtain ⟨q, q1, q2, q3, q4, q5, q6⟩ := (C26_h_stack t j21 j22 h21 h22).2 hr2 hc2
      rw [q1]
      exact (C26_v_stack t p q p2 q2).1 (by omega)
    · rw [(C26_h_stack t j21 j22 h21 h22).1 hr2]
  · rw [(C26_h_stack t j11 j12 h11 h12).1 hr1]
    rfl

/-- C27 (negation): blocks of one column of blocks may have different widths; if the total widths agree,
`compose` returns `Ok` although the dimensions do not match. -/
theorem C27_coo_compose_counterexample :
    let a : Coo Int := ⟨1, 1, [0], [0], [5]⟩
    let b : Coo Int := ⟨1, 2, [0], [1], [7]⟩
    a.WF .u8 ∧ b.WF .u8 ∧ a.cols ≠ b.cols ∧ ∃ r, Coo.compose .u8 a b b a = .ok r :=
  ⟨Coo.wf_of (by decide), Coo.wf_of (by decide), by decide, _, rfl⟩

/-- C27. What `Coo::compose` does whenever it succeeds: each row of blocks is laid out with the widths of its own
blocks. (`C27_coo_compose` is the case in which the widths of the two rows of blocks agree.) -/
theorem C27_coo_compose_own_widths [AddCommMonoid T] (t : IntTy) (j11 j12 j21 j22 : Coo T) (h11 : j11.WF t)
    (h12 : j12.WF t) (h21 : j21.WF t) (h22 : j22.WF t) (hr1 : j11.rows = j12.rows) (hr2 : j21.rows = j22.rows)
    (hw : j11.cols + j12.cols = j21.cols + j22.cols)
    (hr : ((j11.rows + j21.rows : Nat) : Int) ≤ t.hi + 1) (hc : ((j11.cols + j12.cols : Nat) : Int) ≤ t.hi + 1) :
    ∃ r, Coo.compose t j11 j12 j21 j22 = .ok r ∧ r.WF t ∧ r.rows = j11.rows + j21.rows ∧
      r.cols = j11.cols + j12.cols ∧ r.nnz = j11.nnz + j12.nnz + j21.nnz + j22.nnz ∧
      ∀ i j, r.entry i j = vcat j11.rows (hcat j11.cols j11.entry j12.entry) (hcat j21.cols j21.entry j22.entry) i j := by
  obtain ⟨p, p1, p2, p3, p4, p5, p6⟩ := (C26_h_stack t j11 j12 h11 h12).2 hr1 hc
  obtain ⟨q, q1, q2, q3, q4, q5, q6⟩ := (C26_h_stack t j21 j22 h21 h22).2 hr2 (by rw [← hw]; exact hc)
  obtain ⟨r, r1, r2, r3, r4, r5, r6⟩ := (C26_v_stack t p q p2 q2).2 (by omega) (by rw [p3, q3]; exact hr)
  refine ⟨r, ?_, r2, by omega, by omega, by omega, fun i j => ?_⟩
  · unfold Coo.compose
    rw [p1, q1]
    exact r1
  · rw [r6, p3]
    unfold vcat
    simp only [p6, q6]

example : exCoo.rows = exCoo.rows ∧ exCoo.cols + (⟨exCoo.rows, 5, [], [], []⟩ : Coo Int).cols =
    (⟨1, 5, [], [], []⟩ : Coo Int).cols + (⟨1, exCoo.cols, [], [], []⟩ : Coo Int).cols := ⟨rfl, by decide⟩

/-- C27. `Coo::compose3` on blocks whose dimensions agree. -/
theorem C27_coo_compose3 [AddCommMonoid T] (t : IntTy) (j : Fin 3 → Fin 3 → Coo T) (h : ∀ p q, (j p q).WF t)
    (hr : ∀ p q, (j p q).rows = (j p 0).rows) (hc : ∀ p q, (j p q).cols = (j 0 q).cols)
    (hrf : (((j 0 0).rows + (j 1 0).rows + (j 2 0).rows : Nat) : Int) ≤ t.hi + 1)
    (hcf : (((j 0 0).cols + (j 0 1).cols + (j 0 2).cols : Nat) : Int) ≤ t.hi + 1) :
    ∃ r, Coo.compose3 t (j 0 0) (j 0 1) (j 0 2) (j 1 0) (j 1 1) (j 1 2) (j 2 0) (j 2 1) (j 2 2) = .ok r ∧ r.WF t ∧
      r.rows = (j 0 0).rows + (j 1 0).rows + (j 2 0).rows ∧ r.cols = (j 0 0).cols + (j 0 1).cols + (j 0 2).cols ∧
      r.nnz = (j 0 0).nnz + (j 0 1).nnz + (j 0 2).nnz + ((j 1 0).nnz + (j 1 1).nnz + (j 1 2).nnz) +
        ((j 2 0).nnz + (j 2 1).nnz + (j 2 2).nnz) ∧
      ∀ i k, r.entry i k =
        (let brow := fun p => hcat ((j 0 0).cols + (j 0 1).cols) (hcat (j 0 0).cols (j p 0).entry (j p 1).entry) (j p 2).entry
         vcat ((j 0 0).rows + (j 1 0).rows) (vcat (j 0 0).rows (brow 0) (brow 1)) (brow 2) i k) := by
  have hrow : ∀ p, ∃ r, Coo.h_stack3 t (j p 0) (j p 1) (j p 2) = .ok r ∧ r.WF t ∧ r.rows = (j p 0).rows ∧
      r.cols = (j 0 0).cols + (j 0 1).cols + (j 0 2).cols ∧ r.nnz = (j p 0).nnz + (j p 1).nnz + (j p 2).nnz ∧
      ∀ i k, r.entry i k = hcat ((j 0 0).cols + (j 0 1).cols) (hcat (j 0 0).cols (j p 0).entry (j p 1).entry) (j p 2).entry i k := by
    intro p
    obtain ⟨r, r1, r2, r3, r4, r5, r6⟩ := (C26_h_stack3 t (j p 0) (j p 1) (j p 2) (h _ _) (h _ _) (h _ _)).2
      (hr p 1).symm (hr p 2).symm (by rw [hc p 0, hc p 1, hc p 2]; exact hcf)
    refine ⟨r, r1, r2, r3, by rw [r4, hc p 0, hc p 1, hc p 2], r5, fun i k => ?_⟩
    rw [r6, hc p 0, hc p 1]
  obtain ⟨r, r1, r2, r3, r4, rn, r5⟩ := hrow 0
  obtain ⟨s, s1, s2, s3, s4, sn, s5⟩ := hrow 1
  obtain ⟨u, u1, u2, u3, u4, un, u5⟩ := hrow 2
  obtain ⟨z, z1, z2, z3, z4, z5, z6⟩ := (C26_v_stack3 t r s u r2 s2 u2).2 (by omega) (by omega)
    (by rw [r3, s3, u3]; exact hrf)
  refine ⟨z, ?_, z2, by omega, by omega, by omega, fun i k => ?_⟩
  · unfold Coo.compose3
    rw [r1, s1, u1]
    exact z1
  · rw [z6, r3, s3]
    unfold vcat
    simp only [r5, s5, u5]

example : exCoo.WF .u8 ∧ ((exCoo.rows + exCoo.rows + exCoo.rows : Nat) : Int) ≤ IntTy.u8.hi + 1 :=
  ⟨exCoo_wf, by decide⟩

/-- C27. `Coo::compose3` returns `Err` when the blocks of a row of blocks differ in height or two rows of blocks
differ in total width. -/
theorem C27_coo_compose3_err [AddCommMonoid T] (t : IntTy) (j : Fin 3 → Fin 3 → Coo T) (h : ∀ p q, (j p q).WF t)
    (hc : ∀ p, (((j p 0).cols + (j p 1).cols + (j p 2).cols : Nat) : Int) ≤ t.hi + 1)
    (hbad : (∃ p, (j p 0).rows ≠ (j p 1).rows ∨ (j p 0).rows ≠ (j p 2).rows) ∨
      ∃ p, (j p 0).cols + (j p 1).cols + (j p 2).cols ≠ (j 0 0).cols + (j 0 1).cols + (j 0 2).cols) :
    Coo.compose3 t (j 0 0) (j 0 1) (j 0 2) (j 1 0) (j 1 1) (j 1 2) (j 2 0) (j 2 1) (j 2 2) = .error .err := by
  have hrow : ∀ p, ((j p 0).rows ≠ (j p 1).rows ∨ (j p 0).rows ≠ (j p 2).rows) ∧
      Coo.h_stack3 t (j p 0) (j p 1) (j p 2) = .error .err ∨
      ((j p 0).rows = (j p 1).rows ∧ (j p 0).rows = (j p 2).rows) ∧
      ∃ r, Coo.h_stack3 t (j p 0) (j p 1) (j p 2) = .ok r ∧ r.WF t ∧
        r.cols = (j p 0).cols + (j p 1).cols + (j p 2).cols := by
    intro p
    by_cases hp : (j p 0).rows = (j p 1).rows ∧ (j p 0).rows = (j p 2).rows
    · obtain ⟨r, r1, r2, -, r4, -⟩ := (C26_h_stack3 t (j p 0) (j p 1) (j p 2) (h _ _) (h _ _) (h _ _)).2 hp.1 hp.2 (hc p)
      exact .inr ⟨hp, r, r1, r2, r4⟩
    · have hp' : (j p 0).rows ≠ (j p 1).rows ∨ (j p 0).rows ≠ (j p 2).rows := by omega
      exact .inl ⟨hp', (C26_h_stack3 t (j p 0) (j p 1) (j p 2) (h _ _) (h _ _) (h _ _)).1 hp'⟩
  unfold Coo.compose3
  rcases hrow 0 with ⟨-, e0⟩ | ⟨g0, r, r1, r2, r4⟩
  · rw [e0]; rfl
  rw [r1]
  simp only [bind, Except.bind]
  rcases hrow 1 with ⟨-, e0⟩ | ⟨g1, s, s1, s2, s4⟩
  · rw [e0]
  rw [s1]
  simp only
  rcases hrow 2 with ⟨-, e0⟩ | ⟨g2, u, u1, u2, u4⟩
  · rw [e0]
  rw [u1]
  simp only
  refine (C26_v_stack3 t r s u r2 s2 u2).1 ?_
  rcases hbad with ⟨p, hp⟩ | ⟨p, hp⟩
  · exfalso
    match p with
    | 0 => omega
    | 1 => omega
    | 2 => omega
  · match p with
    | 0 => exact absurd rfl hp
    | 1 => left; omega
    | 2 => right; omega

example : (∀ p q : Fin 3, (if p = 1 ∧ q = 2 then (⟨4, 1, [], [], []⟩ : Coo Int) else ⟨1, 1, [0], [0], [5]⟩).WF .u8) ∧
    ((⟨1, 1, [0], [0], [5]⟩ : Coo Int).rows ≠ (⟨4, 1, [], [], []⟩ : Coo Int).rows) := by
  refine ⟨fun p q => ?_, by decide⟩
  split
  · exact Coo.wf_of (by decide)
  · exact Coo.wf_of (by decide)

/-- C27. `CSC::compose`. -/
theorem C27_csc_compose [AddCommMonoid T] (t : IntTy) (j11 j12 j21 j22 : CSC T) (h11 : j11.WF t) (h12 : j12.WF t)
    (h21 : j21.WF t) (h22 : j22.WF t) (hr1 : j11.rows = j12.rows) (hr2 : j21.rows = j22.rows)
    (hc1 : j11.cols = j21.cols) (hc2 : j12.cols = j22.cols)
    (hr : ((j11.rows + j21.rows : Nat) : Int) ≤ t.hi + 1) (hc : ((j11.cols + j12.cols : Nat) : Int) ≤ t.hi + 1)
    (hn : ((j11.stored + j12.stored + j21.stored + j22.stored : Nat) : Int) < t.hi) :
    ∃ r, CSC.compose t j11 j12 j21 j22 = .ok r ∧ r.WF t ∧ r.Canonical ∧ r.rows = j11.rows + j21.rows ∧
      r.cols = j11.cols + j12.cols ∧
      ∀ i j, r.entry i j = vcat j11.rows (hcat j11.cols j11.entry j12.entry) (hcat j11.cols j21.entry j22.entry) i j := by
  obtain ⟨a, a1, a2, a3, a4, -, a5, a6⟩ := C05_csc_to_coo t j11 h11 (by omega)
  obtain ⟨b, b1, b2, b3, b4, -, b5, b6⟩ := C05_csc_to_coo t j12 h12 (by omega)
  obtain ⟨c, c1, c2, c3, c4, -, c5, c6⟩ := C05_csc_to_coo t j21 h21 (by omega)
  obtain ⟨d, d1, d2, d3, d4, -, d5, d6⟩ := C05_csc_to_coo t j22 h22 (by omega)
  obtain ⟨r, r1, r2, r3, r4, r5, r6⟩ := C27_coo_compose t a b c d a2 b2 c2 d2 (by omega) (by omega) (by omega) (by omega)
    (by omega) (by omega)
  obtain ⟨s, k1, k2, k3, k4, k5, k7, -⟩ := C02_coo_to_csc t r r2 (by unfold Coo.nnz at r5; omega)
  refine ⟨s, ?_, k2, k5, by omega, by omega, fun i j => ?_⟩
  · unfold CSC.compose
    rw [a1, b1, c1, d1]
    simp only [bind, Except.bind]
    unfold Coo.compose at r1
    simp only [bind, Except.bind] at r1
    cases e1 : Coo.h_stack t a b with
    | error e => rw [e1] at r1; simp at r1
    | ok x =>
      rw [e1] at r1
      simp only at r1 ⊢
      cases e2 : Coo.h_stack t c d with
      | error e => rw [e2] at r1; simp at r1
      | ok y =>
        rw [e2] at r1
        simp only at r1 ⊢
        rw [r1]
        exact k1
  · rw [k7, r6, a3, a4]
    unfold vcat hcat
    simp only [a6, b6, c6, d6]

example : exCsc.WF .u8 ∧ ((exCsc.stored + exCsc.stored + exCsc.stored + exCsc.stored : Nat) : Int) < IntTy.u8.hi :=
  ⟨exCsc_wf, by decide⟩

/-- C27. `CSC::compose` returns `Err` when the blocks of a row of blocks differ in height or the rows of blocks differ
in total width. -/
theorem C27_csc_compose_err [AddCommMonoid T] (t : IntTy) (j11 j12 j21 j22 : CSC T) (h11 : j11.WF t) (h12 : j12.WF t)
    (h21 : j21.WF t) (h22 : j22.WF t)
    (hc1 : ((j11.cols + j12.cols : Nat) : Int) ≤ t.hi + 1) (hc2 : ((j21.cols + j22.cols : Nat) : Int) ≤ t.hi + 1)
    (h : j11.rows ≠ j12.rows ∨ j21.rows ≠ j22.rows ∨ j11.cols + j12.cols ≠ j21.cols + j22.cols) :
    CSC.compose t j11 j12 j21 j22 = .error .err := by
  obtain ⟨a, a1, a2, a3, a4, -, a5, a6⟩ := C05_csc_to_coo t j11 h11 (by omega)
  obtain ⟨b, b1, b2, b3, b4, -, b5, b6⟩ := C05_csc_to_coo t j12 h12 (by omega)
  obtain ⟨c, c1, c2, c3, c4, -, c5, c6⟩ := C05_csc_to_coo t j21 h21 (by omega)
  obtain ⟨d, d1, d2, d3, d4, -, d5, d6⟩ := C05_csc_to_coo t j22 h22 (by omega)
  have r1 := C27_coo_compose_err t a b c d a2 b2 c2 d2 (by omega) (by omega) (by omega)
  unfold CSC.compose
  rw [a1, b1, c1, d1]
  simp only [bind, Except.bind]
  unfold Coo.compose at r1
  simp only [bind, Except.bind] at r1
  cases e1 : Coo.h_stack t a b with
  | error e => rw [e1] at r1; simpa using r1
  | ok x =>
    rw [e1] at r1
    simp only at r1 ⊢
    cases e2 : Coo.h_stack t c d with
    | error e => rw [e2] at r1; simpa using r1
    | ok y =>
      rw [e2] at r1
      simp only at r1 ⊢
      rw [r1]

example : (⟨1, 1, [0], [0, 1], [5]⟩ : CSC Int).WF .u8 ∧ exCsc.WF .u8 ∧
    (⟨1, 1, [0], [0, 1], [5]⟩ : CSC Int).rows ≠ exCsc.rows := ⟨CSC.wf_of (by decide), exCsc_wf, by decide⟩

/-! ### C28 -/

theorem Coo.upper_ok {t : IntTy} {a : Coo T} (ha : a.WF t) {k : Int}
    (hk : ∀ r ∈ a.rowidx, t.lo ≤ r + k ∧ r + k ≤ t.hi) :
    ∃ r, a.upper t k = .ok r ∧ r.WF t ∧ r.rows = a.rows ∧ r.cols = a.cols ∧
      r.triples = (a.triples.filter fun e => decide (e.1 + k ≤ e.2.1)) := by
  have h : Ok (a.upper t k) fun r => r = ⟨a.rows, a.cols,
      (a.triples.filter fun e => decide (e.1 + k ≤ e.2.1)).map (·.1),
      (a.triples.filter fun e => decide (e.1 + k ≤ e.2.1)).map (·.2.1),
      (a.triples.filter fun e => decide (e.1 + k ≤ e.2.1)).map (·.2.2)⟩ := by
    unfold Coo.upper
    rw [show a.nnz = a.triples.length from (Coo.triples_length ha).symm]
    wp
    refine Ok_forOff (E := a.triples) (by simp) (fun pre s => s = ⟨
      (pre.filter fun e => decide (e.1 + k ≤ e.2.1)).map (·.1),
      (pre.filter fun e => decide (e.1 + k ≤ e.2.1)).map (·.2.1),
      (pre.filter fun e => decide (e.1 + k ≤ e.2.1)).map (·.2.2)⟩) rfl ?_ ?_
    · rintro pre e suf s hE rfl
      have hg := Coo.triples_get (a := a) (k := pre.length) (e := e) (by rw [hE]; simp)
      have hm : e.1 ∈ a.rowidx := List.mem_of_getElem? hg.1
      rw [Nat.zero_add]
      wp
      rds [hg.1, hg.2.1]
      refine ⟨hk _ hm, ?_⟩
      rw [Ok_ite]
      constructor
      · intro h
        wp
        rds [hg.1, hg.2.1, hg.2.2]
        refine ⟨_, rfl, ?_⟩
        simp [List.filter_append, h]
      · intro h
        wp
        refine ⟨_, rfl, ?_⟩
        simp [List.filter_append, h]
    · rintro s rfl
      trivial
  obtain ⟨r, hr, rfl⟩ := h
  have htr : (⟨a.rows, a.cols,
      (a.triples.filter fun e => decide (e.1 + k ≤ e.2.1)).map (·.1),
      (a.triples.filter fun e => decide (e.1 + k ≤ e.2.1)).map (·.2.1),
      (a.triples.filter fun e => decide (e.1 + k ≤ e.2.1)).map (·.2.2)⟩ : Coo T).triples =
      a.triples.filter fun e => decide (e.1 + k ≤ e.2.1) := by
    unfold Coo.triples
    simp only
    rw [List.zip_map', List.zip_map']
    simp
  refine ⟨_, hr, ⟨by simp, by simp, ?_, ?_⟩, rfl, rfl, htr⟩
  · intro v hv
    simp only [List.mem_map] at hv
    obtain ⟨e, he, rfl⟩ := hv
    exact (Coo.triples_mem ha (List.mem_of_mem_filter he)).1
  · intro v hv
    simp only [List.mem_map] at hv
    obtain ⟨e, he, rfl⟩ := hv
    exact (Coo.triples_mem ha (List.mem_of_mem_filter he)).2

/-- C28. `Coo::upper(k)` keeps exactly the stored entries with `row + k ≤ col`, in order. -/
theorem C28_upper [AddCommMonoid T] (t : IntTy) (a : Coo T) (ha : a.WF t) (k : Int)
    (hk : ∀ r ∈ a.rowidx, t.lo ≤ r + k ∧ r + k ≤ t.hi) :
    ∃ r, a.upper t k = .ok r ∧ r.WF t ∧ r.rows = a.rows ∧ r.cols = a.cols ∧
      r.triples = (a.triples.filter fun e => decide (e.1 + k ≤ e.2.1)) ∧
      ∀ i j : Nat, r.entry i j = if (i : Int) + k ≤ j then a.entry i j else 0 := by
  obtain ⟨r, hr, h1, h2, h3, htr⟩ := Coo.upper_ok ha hk
  refine ⟨r, hr, h1, h2, h3, htr, ?_⟩
  intro i j
  rw [Coo.entry_eq_tripSum, htr, Coo.entry_eq_tripSum]
  clear htr
  generalize a.triples = E
  induction E with
  | nil => simp [tripSum]
  | cons e E ih =>
    rw [List.filter_cons, tripSum_cons]
    by_cases h : e.1 + k ≤ e.2.1
    · rw [if_pos (by simpa using h), tripSum_cons, ih]
      by_cases h2 : (i : Int) + k ≤ j
      · rw [if_pos h2, if_pos h2]
      · rw [if_neg h2, if_neg h2, if_neg (by omega), add_zero]
    · rw [if_neg (by simpa using h), ih]
      by_cases h2 : (i : Int) + k ≤ j
      · rw [if_pos h2, if_pos h2, if_neg (by omega), zero_add]
      · rw [if_neg h2, if_neg h2]

example : exCoo.WF .u8 ∧ ∀ r ∈ exCoo.rowidx, IntTy.u8.lo ≤ r + 1 ∧ r + 1 ≤ IntTy.u8.hi := ⟨exCoo_wf, by decide⟩

/-- C28 (offsets for which `row + k` is not representable): the call panics. -/
theorem C28_upper_overflow (t : IntTy) (a : Coo T) (ha : a.WF t) (k : Int)
    (hk : ∃ r ∈ a.rowidx, ¬ (t.lo ≤ r + k ∧ r + k ≤ t.hi)) : a.upper t k = .error (.panic .arith) := by
  apply WP.fails_eq
  obtain ⟨r, hr, hk⟩ := hk
  obtain ⟨m, hm⟩ := List.mem_iff_getElem?.1 hr
  obtain ⟨hm', -⟩ := List.getElem?_eq_some_iff.1 hm
  unfold Coo.upper
  have h1 := ha.lenr
  have h2 := ha.lenc
  wpe
  refine WP_forRange (fun i _ => i ≤ m) (fun _ => False) (by omega) (by omega) ?_ (fun _ h => h)
    (fun _ h => by unfold Coo.nnz at h; omega)
  intro i s _ hi hP
  unfold Coo.nnz at hi
  have nr : ¬ a.rowidx[i]? = none := by rw [List.getElem?_eq_none_iff]; omega
  have nc : ¬ a.colidx[i]? = none := by rw [List.getElem?_eq_none_iff]; omega
  have nv : ¬ a.values[i]? = none := by rw [List.getElem?_eq_none_iff]; omega
  wpe
  refine ⟨fun v hv => ⟨fun hv2 => ?_, fun _ => trivial⟩, fun h => absurd h nr⟩
  have hne : i ≠ m := by
    rintro rfl
    rw [hm] at hv
    cases hv
    exact hk hv2
  refine ⟨fun c hc => ?_, fun h => absurd h nc⟩
  rw [WP_ite]
  constructor
  · intro _
    wpe
    refine ⟨fun _ _ => ⟨fun _ _ => ⟨fun _ _ => ?_, fun h => absurd h nv⟩, fun h => absurd h nc⟩, fun h => absurd h nr⟩
    omega
  · intro _
    wpe
    omega

/-! ### C48 -/

/-- C48. `Coo + Coo`. -/
theorem C48_coo_add [AddCommMonoid T] (t : IntTy) (a b : Coo T) (ha : a.WF t) (hb : b.WF t) :
    (a.rows ≠ b.rows ∨ a.cols ≠ b.cols → Coo.add t a b = .error (.panic .assert)) ∧
    (a.rows = b.rows → a.cols = b.cols → ((a.nnz + b.nnz : Nat) : Int) < t.hi →
      ∃ r, Coo.add t a b = .ok r ∧ r.WF t ∧ r.Canonical ∧ r.rows = a.rows ∧ r.cols = a.cols ∧
        (∀ i j, r.entry i j = a.entry i j + b.entry i j) ∧
        (∀ i j, (∃ v, (i, j, v) ∈ r.triples) ↔ (∃ v, (i, j, v) ∈ a.triples) ∨ ∃ v, (i, j, v) ∈ b.triples) ∧
        r.colidx.length = r.stored ∧ r.values.length = r.stored ∧ r.stored ≤ a.nnz + b.nnz) := by
  unfold Coo.add
  constructor
  · intro h
    by_cases h1 : a.rows = b.rows
    · rw [if_neg (by simpa using h1), if_pos (by rcases h with h | h <;> [exact absurd h1 h; exact h])]
      rfl
    · rw [if_pos h1]
      rfl
  · intro h1 h2 hn
    rw [if_neg (by simpa using h1)]
    simp only
    rw [if_neg (by simpa using h2), (C44_coo_new _ _ _ _ _).1 (by simp [ha.lenr, ha.lenc, hb.lenr, hb.lenc])]
    have hwf : (⟨a.rows, a.cols, a.rowidx ++ b.rowidx, a.colidx ++ b.colidx, a.values ++ b.values⟩ : Coo T).WF t := by
      refine ⟨by simp [ha.lenr, hb.lenr], by simp [ha.lenc, hb.lenc], ?_, ?_⟩
      · intro r hr
        simp only [List.mem_append] at hr ⊢
        rcases hr with hr | hr
        · exact ha.row r hr
        · rw [h1]; exact hb.row r hr
      · intro r hr
        simp only [List.mem_append] at hr ⊢
        rcases hr with hr | hr
        · exact ha.col r hr
        · rw [h2]; exact hb.col r hr
    obtain ⟨s, k1, k2, k3, k4, k5, k7, k8, -, k9, k10, k11⟩ := C01_coo_to_csr t _ hwf (by simpa [Coo.nnz] using hn)
    have htr : (⟨a.rows, a.cols, a.rowidx ++ b.rowidx, a.colidx ++ b.colidx, a.values ++ b.values⟩ : Coo T).triples =
        a.triples ++ b.triples :=
      coo_triples_append (n' := a.rows) (m' := a.cols) (p := b.rows) (q := b.cols) ha.lenr ha.lenc
    refine ⟨s, k1, k2, k5, k3, k4, fun i j => ?_, fun i j => ?_, k9, k10, by simpa [Coo.nnz] using k11⟩
    rotate_left
    · rw [k8, htr]
      simp only [List.mem_append, exists_or]
    rw [k7, Coo.entry_eq_tripSum, coo_triples_append (n' := a.rows) (m' := a.cols) (p := b.rows) (q := b.cols) ha.lenr ha.lenc,
      tripSum_append]
    rfl

example : exCoo.WF .u8 ∧ ((exCoo.nnz + exCoo.nnz : Nat) : Int) < IntTy.u8.hi := ⟨exCoo_wf, by decide⟩

end
end Sparse

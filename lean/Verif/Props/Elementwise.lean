import Verif.Lemmas.BinRow
import Verif.Lemmas.Fail
/-! Properties C15–C19: element-wise operations, addition and subtraction. -/
namespace Sparse

section
variable {T T2 : Type}

/-! ### C17 -/

/-- The meaning of an element-wise operation: `c` stores, once each, exactly the positions stored in `a` or
`b` whose result is not zero, with the result of `op` on the two matrix entries. -/
def IsBinop [AddCommMonoid T] (op : T → T → T2) (nz : T2 → Bool) (a b : CSR T) (c : CSR T2) : Prop :=
  c.NoDup ∧ ∀ i < a.rows, ∀ (k : Nat) (v : T2), ((k : Int), v) ∈ c.row i ↔
    (a.has i k ∨ b.has i k) ∧ v = op (a.entry i k) (b.entry i k) ∧ nz v = true

theorem has_iff {a : CSR T} {i k : Nat} : a.has i k ↔ ∃ e ∈ a.row i, e.1 = (k : Int) := by
  unfold CSR.has
  constructor
  · rintro ⟨v, h⟩; exact ⟨_, h, rfl⟩
  · rintro ⟨⟨q, v⟩, h, rfl⟩; exact ⟨v, h⟩

/-- C17. `csr_binop_csr` for an arbitrary operation, on valid matrices of equal shape in any order and with
any duplicates, with output arrays of the size the documentation asks for. -/
theorem C17_binop [AddCommMonoid T] (t : IntTy) (op : T → T → T2) (nz : T2 → Bool) (a b : CSR T) (ha : a.WF t) (hb : b.WF t)
    (hr : b.rows = a.rows) (hc : b.cols = a.cols) (hfit : ((a.stored + b.stored : Nat) : Int) < t.hi)
    (cp cj : List Int) (cx : List T2) (hcp : cp.length = a.rows + 1) (hcj : a.stored + b.stored ≤ cj.length)
    (hcx : a.stored + b.stored ≤ cx.length) :
    ∃ p j x, csr_binop_csr t a.rows a.cols a.rowptr a.colidx a.values b.rowptr b.colidx b.values cp cj cx op nz
        = .ok (p, j, x) ∧ j.length = cj.length ∧ x.length = cx.length ∧
      (let c : CSR T2 := ⟨a.rows, a.cols, p, j, x⟩
       c.WF t ∧ IsBinop op nz a b c ∧ c.stored ≤ a.stored + b.stored ∧ (a.Canonical → b.Canonical → c.Canonical) ∧
         ∀ k, c.stored ≤ k → j[k]? = cj[k]? ∧ x[k]? = cx[k]?) := by
  have hrb := hb.rep
  rw [hr] at hrb
  have hsa := ha.stored_eq
  have hsb := hb.stored_eq
  rw [hr] at hsb
  obtain ⟨⟨p, j, x⟩, h1, R, h2, h3, h4, h5, h6, h7⟩ := binop_ok op nz ha.rep hrb (nc := a.cols)
    (fun i hi e he => ha.mem hi he) (fun i hi e he => by rw [← hc]; exact hb.mem (by omega) he)
    hcp rfl rfl (lj := cj) (lx := cx) (by omega) (by omega) (by omega)
  refine ⟨p, j, x, h1, h3, h4, ?_⟩
  have hrep : Rep p j x a.rows R := h2
  have hrow : ∀ i < a.rows, CSR.row ⟨a.rows, a.cols, p, j, x⟩ i = R i := fun i hi =>
    CSR.row_of_rep (a := ⟨a.rows, a.cols, p, j, x⟩) hrep hi
  have hflat : ∀ i ≤ a.rows, (flat R i).length ≤ (flat a.row i).length + (flat b.row i).length := by
    intro i
    induction i with
    | zero => simp
    | succ i ih =>
      intro hi
      have := (h5 i (by omega)).length_le
      have := ih (by omega)
      rw [flat_length_succ, flat_length_succ, flat_length_succ]
      omega
  have hfl := hflat a.rows (le_refl _)
  refine ⟨hrep.wf ?_ (by omega), ⟨?_, ?_⟩, ?_, ?_, ?_⟩
  · rintro i hi ⟨k, v⟩ he
    rcases ((h5 i hi).mem k v).1 he |>.1 with ⟨e, h, rfl⟩ | ⟨e, h, rfl⟩
    · exact ha.mem hi h
    · have := hb.mem (by omega) h
      rw [hc] at this
      exact this
  · intro i hi
    simp only at hi
    rw [hrow i hi]
    exact (h5 i hi).nodup
  · intro i hi k v
    rw [hrow i hi, (h5 i hi).mem, has_iff, has_iff]
    rfl
  · rw [CSR.stored_of_rep (a := ⟨a.rows, a.cols, p, j, x⟩) hrep]
    simp only
    omega
  · intro sa sb i hi
    simp only at hi
    rw [hrow i hi]
    exact h6 sa (fun i hi => sb i (by omega)) i hi
  · intro k hk
    rw [CSR.stored_of_rep (a := ⟨a.rows, a.cols, p, j, x⟩) hrep] at hk
    exact h7 k hk

/-- what is left of zero-initialised output arrays is zero -/
theorem zero_tail [Zero T] {j : List Int} {x : List T} {N s : Nat}
    (h : ∀ k, s ≤ k → j[k]? = (List.replicate N (0 : Int))[k]? ∧ x[k]? = (List.replicate N (0 : T))[k]?) :
    ∀ e ∈ (j.zip x).drop s, e = (0, 0) := by
  intro e he
  obtain ⟨k, hk⟩ := List.getElem?_of_mem he
  rw [List.getElem?_drop, zip_get] at hk
  obtain ⟨h1, h2⟩ := h (s + k) (by omega)
  rw [hk.1, List.getElem?_replicate] at h1
  rw [hk.2, List.getElem?_replicate] at h2
  split at h1
  · rename_i hlt
    rw [if_pos hlt] at h2
    exact Prod.ext (Option.some.inj h1) (Option.some.inj h2)
  · simp at h1

example : ∃ a b : CSR Int, a.WF .i8 ∧ b.WF .i8 ∧ b.rows = a.rows ∧ b.cols = a.cols ∧
    ((a.stored + b.stored : Nat) : Int) < IntTy.i8.hi ∧ a.stored = 3 ∧ b.stored = 2 ∧ ¬ a.Canonical := by
  refine ⟨⟨2, 2, [0, 2, 3], [1, 0, 1], [5, 7, 3]⟩, ⟨2, 2, [0, 1, 2], [0, 0], [1, 2]⟩, CSR.wf_of (by decide), CSR.wf_of (by decide),
    rfl, rfl, by decide, by decide, by decide, ?_⟩
  unfold CSR.Canonical
  decide

/-- C17. The two code paths agree: on canonical operands the general and the canonical method both return
normally, with the same entries in every row (the general method possibly in another order). -/
theorem C17_paths_agree [AddCommMonoid T] (t : IntTy) (op : T → T → T2) (nz : T2 → Bool) (a b : CSR T) (ha : a.WF t) (hb : b.WF t)
    (hr : b.rows = a.rows) (hc : b.cols = a.cols) (sa : a.Canonical) (sb : b.Canonical)
    (hfit : ((a.stored + b.stored : Nat) : Int) ≤ t.hi)
    (cp cj : List Int) (cx : List T2) (hcp : cp.length = a.rows + 1) (hcj : a.stored + b.stored ≤ cj.length)
    (hcx : a.stored + b.stored ≤ cx.length) :
    ∃ p j x p' j' x', csr_binop_csr_canonical t a.rows a.rowptr a.colidx a.values b.rowptr b.colidx b.values cp cj cx op nz
        = .ok (p, j, x) ∧
      csr_binop_csr_general t a.rows a.cols a.rowptr a.colidx a.values b.rowptr b.colidx b.values cp cj cx op nz
        = .ok (p', j', x') ∧ p = p' ∧
      ∀ i < a.rows, (rowOf p j x i).Perm (rowOf p' j' x' i) := by
  have hrb := hb.rep
  rw [hr] at hrb
  have hsa := ha.stored_eq
  have hsb := hb.stored_eq
  rw [hr] at hsb
  obtain ⟨⟨p, j, x⟩, h1, h2, h3, h4, -⟩ := binop_canonical_ok (t := t) (op := op) (nz := nz) ha.rep hrb
    hcp rfl rfl (lj := cj) (lx := cx) (by omega) (by omega) (by omega)
  obtain ⟨⟨p', j', x'⟩, g1, g2, g3, g4, -⟩ := binop_general_ok (t := t) (op := op) (nz := nz) ha.rep hrb (nc := a.cols)
    (fun i hi e he => ha.mem hi he) (fun i hi e he => by rw [← hc]; exact hb.mem (by omega) he)
    hcp rfl rfl (lj := cj) (lx := cx) (by omega) (by omega) (by omega)
  simp only at h2 g2
  have hperm : ∀ i < a.rows, (mergeRow op nz (a.row i) (b.row i)).Perm (genRow op nz (a.row i) (b.row i)) := by
    intro i hi
    exact (mergeRow_binRow op nz (sa i hi) (sb i (by omega))).perm
      (genRow_binRow op nz (fun e he => (ha.mem hi he).1) (fun e he => (hb.mem (i := i) (by omega) he).1))
  refine ⟨p, j, x, p', j', x', h1, g1, ?_, ?_⟩
  · apply List.ext_getElem?
    intro k
    rcases Nat.lt_or_ge k (a.rows + 1) with hk | hk
    · rw [h2.ptr k (by omega), g2.ptr k (by omega)]
      congr 2
      exact flat_length_congr fun i hi => (hperm i (by omega)).length_eq
    · rw [List.getElem?_eq_none (by rw [h2.len]; omega), List.getElem?_eq_none (by rw [g2.len]; omega)]
  · intro i hi
    rw [h2.rowOf hi, g2.rowOf hi]
    exact hperm i hi

example : ∃ a b : CSR Int, a.WF .i8 ∧ b.WF .i8 ∧ b.rows = a.rows ∧ b.cols = a.cols ∧ a.Canonical ∧ b.Canonical ∧
    ((a.stored + b.stored : Nat) : Int) ≤ IntTy.i8.hi ∧ a.stored = 3 ∧ b.stored = 2 := by
  refine ⟨⟨2, 2, [0, 2, 3], [0, 1, 1], [5, 7, 3]⟩, ⟨2, 2, [0, 1, 2], [0, 0], [1, 2]⟩, CSR.wf_of (by decide), CSR.wf_of (by decide),
    rfl, rfl, ?_, ?_, by decide, by decide, by decide⟩ <;> (unfold CSR.Canonical; decide)

/-- entries of the result of an operation with `op 0 0 = 0` -/
theorem IsBinop.entry [AddCommMonoid T] [AddCommMonoid T2] [DecidableEq T2] {t : IntTy} {op : T → T → T2} {a b : CSR T} {c : CSR T2}
    (h : IsBinop op nzT a b c) (ha : a.WF t) (hb : b.WF t) (hr : b.rows = a.rows) (hc : c.WF t) (hcr : c.rows = a.rows)
    (h0 : op 0 0 = 0) (i j : Nat) : c.entry i j = op (a.entry i j) (b.entry i j) := by
  by_cases hi : i < a.rows
  · have hb : BinRow op nzT (a.row i) (b.row i) (c.row i) := by
      refine ⟨h.1 i (by omega), ?_⟩
      intro k v
      by_cases hk : 0 ≤ k
      · obtain ⟨q, rfl⟩ := Int.eq_ofNat_of_zero_le hk
        have := h.2 i hi q v
        rw [has_iff, has_iff] at this
        exact this
      · constructor
        · intro hm
          exact absurd (hc.mem (i := i) (by omega) hm).1 hk
        · rintro ⟨⟨e, he, rfl⟩ | ⟨e, he, rfl⟩, -⟩
          · exact absurd (ha.mem hi he).1 hk
          · exact absurd (hb.mem (i := i) (by omega) he).1 hk
    exact hb.rowSum h0 j
  · rw [CSR.entry_of_rep ha.rep, CSR.entry_of_rep hb.rep, CSR.entry_of_rep hc.rep]
    rw [if_neg (by omega), if_neg (by omega), if_neg (by omega), h0]

/-- hypotheses shared by the theorems on the derived kernels: equal-shape valid operands, output arrays of
sufficient size, and the number of entries below the largest index -/
structure BinIn (t : IntTy) (a b : CSR T) (cp cj : List Int) (cx : List T2) : Prop where
  ha : a.WF t
  hb : b.WF t
  hr : b.rows = a.rows
  hc : b.cols = a.cols
  fit : ((a.stored + b.stored : Nat) : Int) < t.hi
  cp : cp.length = a.rows + 1
  cj : a.stored + b.stored ≤ cj.length
  cx : a.stored + b.stored ≤ cx.length

example : ∃ a b : CSR Int, BinIn .i8 a b [0, 0, 0] [0, 0, 0, 0] ([0, 0, 0, 0] : List Int) ∧ a.stored = 2 ∧ b.stored = 2 :=
  ⟨⟨2, 2, [0, 2, 2], [1, 0], [5, 7]⟩, ⟨2, 2, [0, 1, 2], [0, 0], [1, 2]⟩, ⟨CSR.wf_of (by decide), CSR.wf_of (by decide),
    rfl, rfl, by decide, by decide, by decide, by decide⟩, by decide, by decide⟩

theorem BinIn.ok [AddCommMonoid T] {t : IntTy} {a b : CSR T} {cp cj : List Int} {cx : List T2} (h : BinIn t a b cp cj cx)
    (op : T → T → T2) (nz : T2 → Bool) :
    ∃ p j x, csr_binop_csr t a.rows a.cols a.rowptr a.colidx a.values b.rowptr b.colidx b.values cp cj cx op nz
        = .ok (p, j, x) ∧ CSR.WF t (⟨a.rows, a.cols, p, j, x⟩ : CSR T2) ∧ IsBinop op nz a b ⟨a.rows, a.cols, p, j, x⟩ := by
  obtain ⟨p, j, x, h1, -, -, h2, h3, -⟩ := C17_binop t op nz a b h.ha h.hb h.hr h.hc h.fit cp cj cx h.cp h.cj h.cx
  exact ⟨p, j, x, h1, h2, h3⟩

/-- C17 (`csr_mul_csr`): the entrywise product. -/
theorem C17_mul [NonUnitalNonAssocSemiring T] [DecidableEq T] (t : IntTy) (a b : CSR T) (cp cj : List Int) (cx : List T)
    (h : BinIn t a b cp cj cx) :
    ∃ p j x, csr_mul_csr t a.rows a.cols a.rowptr a.colidx a.values b.rowptr b.colidx b.values cp cj cx = .ok (p, j, x) ∧
      (let c : CSR T := ⟨a.rows, a.cols, p, j, x⟩
       c.WF t ∧ c.NoDup ∧ (∀ i j, c.entry i j = a.entry i j * b.entry i j) ∧ ∀ i < a.rows, ∀ e ∈ c.row i, e.2 ≠ 0) := by
  obtain ⟨p, j, x, h1, h2, h3⟩ := h.ok (fun a b => a * b) nzT
  refine ⟨p, j, x, h1, h2, h3.1, fun i j => h3.entry h.ha h.hb h.hr h2 rfl (by simp) i j, ?_⟩
  rintro i hi ⟨k, v⟩ he
  obtain ⟨q, rfl⟩ := Int.eq_ofNat_of_zero_le (h2.mem hi he).1
  simpa [nzT] using ((h3.2 i hi q v).1 he).2.2

/-- C17 (`csr_div_csr`): the quotient at every position stored in `a` or `b`, and nothing elsewhere. -/
theorem C17_div [AddCommMonoid T] [Div T] [DecidableEq T] (t : IntTy) (a b : CSR T) (cp cj : List Int) (cx : List T)
    (h : BinIn t a b cp cj cx) :
    ∃ p j x, csr_div_csr t a.rows a.cols a.rowptr a.colidx a.values b.rowptr b.colidx b.values cp cj cx = .ok (p, j, x) ∧
      (let c : CSR T := ⟨a.rows, a.cols, p, j, x⟩
       c.WF t ∧ c.NoDup ∧ ∀ i < a.rows, ∀ k : Nat, ∀ v, ((k : Int), v) ∈ c.row i ↔
         (a.has i k ∨ b.has i k) ∧ v = a.entry i k / b.entry i k ∧ v ≠ 0) := by
  obtain ⟨p, j, x, h1, h2, h3⟩ := h.ok (fun a b => a / b) nzT
  refine ⟨p, j, x, h1, h2, h3.1, ?_⟩
  intro i hi k v
  rw [h3.2 i hi k v]
  simp [nzT]

/-- C17 (`csr_add_csr`, `csr_sub_csr`): entrywise sum and difference. -/
theorem C17_add [AddCommMonoid T] [DecidableEq T] (t : IntTy) (a b : CSR T) (cp cj : List Int) (cx : List T)
    (h : BinIn t a b cp cj cx) :
    ∃ p j x, csr_add_csr t a.rows a.cols a.rowptr a.colidx a.values b.rowptr b.colidx b.values cp cj cx = .ok (p, j, x) ∧
      (let c : CSR T := ⟨a.rows, a.cols, p, j, x⟩
       c.WF t ∧ c.NoDup ∧ (∀ i j, c.entry i j = a.entry i j + b.entry i j) ∧ ∀ i < a.rows, ∀ e ∈ c.row i, e.2 ≠ 0) := by
  obtain ⟨p, j, x, h1, h2, h3⟩ := h.ok (fun a b => a + b) nzT
  refine ⟨p, j, x, h1, h2, h3.1, fun i j => h3.entry h.ha h.hb h.hr h2 rfl (by simp) i j, ?_⟩
  rintro i hi ⟨k, v⟩ he
  obtain ⟨q, rfl⟩ := Int.eq_ofNat_of_zero_le (h2.mem hi he).1
  simpa [nzT] using ((h3.2 i hi q v).1 he).2.2

theorem C17_sub [AddCommGroup T] [DecidableEq T] (t : IntTy) (a b : CSR T) (cp cj : List Int) (cx : List T)
    (h : BinIn t a b cp cj cx) :
    ∃ p j x, csr_sub_csr t a.rows a.cols a.rowptr a.colidx a.values b.rowptr b.colidx b.values cp cj cx = .ok (p, j, x) ∧
      (let c : CSR T := ⟨a.rows, a.cols, p, j, x⟩
       c.WF t ∧ c.NoDup ∧ (∀ i j, c.entry i j = a.entry i j - b.entry i j) ∧ ∀ i < a.rows, ∀ e ∈ c.row i, e.2 ≠ 0) := by
  obtain ⟨p, j, x, h1, h2, h3⟩ := h.ok (fun a b => a - b) nzT
  refine ⟨p, j, x, h1, h2, h3.1, fun i j => h3.entry h.ha h.hb h.hr h2 rfl (by simp) i j, ?_⟩
  rintro i hi ⟨k, v⟩ he
  obtain ⟨q, rfl⟩ := Int.eq_ofNat_of_zero_le (h2.mem hi he).1
  simpa [nzT] using ((h3.2 i hi q v).1 he).2.2

/-- C17 (`csr_max_csr`, `csr_min_csr`): entrywise maximum and minimum. -/
theorem C17_max_min [AddCommMonoid T] [LinearOrder T] (t : IntTy) (a b : CSR T) (cp cj : List Int) (cx : List T)
    (h : BinIn t a b cp cj cx) :
    (∃ p j x, csr_max_csr t a.rows a.cols a.rowptr a.colidx a.values b.rowptr b.colidx b.values cp cj cx = .ok (p, j, x) ∧
      (let c : CSR T := ⟨a.rows, a.cols, p, j, x⟩
       c.WF t ∧ c.NoDup ∧ (∀ i j, c.entry i j = max (a.entry i j) (b.entry i j)) ∧ ∀ i < a.rows, ∀ e ∈ c.row i, e.2 ≠ 0)) ∧
    (∃ p j x, csr_min_csr t a.rows a.cols a.rowptr a.colidx a.values b.rowptr b.colidx b.values cp cj cx = .ok (p, j, x) ∧
      (let c : CSR T := ⟨a.rows, a.cols, p, j, x⟩
       c.WF t ∧ c.NoDup ∧ (∀ i j, c.entry i j = min (a.entry i j) (b.entry i j)) ∧ ∀ i < a.rows, ∀ e ∈ c.row i, e.2 ≠ 0)) := by
  constructor
  · obtain ⟨p, j, x, h1, h2, h3⟩ := h.ok (fun a b => if b < a then a else b) nzT
    refine ⟨p, j, x, h1, h2, h3.1, fun i j => ?_, ?_⟩
    · rw [h3.entry h.ha h.hb h.hr h2 rfl (by simp) i j]
      split
      · rename_i hlt; rw [max_eq_left hlt.le]
      · rename_i hlt; rw [max_eq_right (not_lt.1 hlt)]
    · rintro i hi ⟨k, v⟩ he
      obtain ⟨q, rfl⟩ := Int.eq_ofNat_of_zero_le (h2.mem hi he).1
      simpa [nzT] using ((h3.2 i hi q v).1 he).2.2
  · obtain ⟨p, j, x, h1, h2, h3⟩ := h.ok (fun a b => if a < b then a else b) nzT
    refine ⟨p, j, x, h1, h2, h3.1, fun i j => ?_, ?_⟩
    · rw [h3.entry h.ha h.hb h.hr h2 rfl (by simp) i j]
      split
      · rename_i hlt; rw [min_eq_left hlt.le]
      · rename_i hlt; rw [min_eq_right (not_lt.1 hlt)]
    · rintro i hi ⟨k, v⟩ he
      obtain ⟨q, rfl⟩ := Int.eq_ofNat_of_zero_le (h2.mem hi he).1
      simpa [nzT] using ((h3.2 i hi q v).1 he).2.2

/-- The meaning of a comparison kernel: position `(i, j)` is stored (with value true, once) exactly when it is
stored in an operand and the comparison holds. -/
def IsCompare [AddCommMonoid T] (cmp : T → T → Prop) (a b : CSR T) (c : CSR Bool) : Prop :=
  c.NoDup ∧ ∀ i < a.rows, ∀ k : Nat, (((k : Int), true) ∈ c.row i ↔
    (a.has i k ∨ b.has i k) ∧ cmp (a.entry i k) (b.entry i k)) ∧ ((k : Int), false) ∉ c.row i

theorem IsBinop.compare [AddCommMonoid T] {op : T → T → Bool} {cmp : T → T → Prop} {a b : CSR T} {c : CSR Bool}
    (h : IsBinop op nzB a b c) (hop : ∀ x y, op x y = true ↔ cmp x y) : IsCompare cmp a b c := by
  refine ⟨h.1, fun i hi k => ⟨?_, ?_⟩⟩
  · rw [h.2 i hi k true, ← hop]
    simp only [nzB]
    constructor
    · rintro ⟨h1, h2, -⟩; exact ⟨h1, h2.symm⟩
    · rintro ⟨h1, h2⟩; exact ⟨h1, h2.symm, by simp⟩
  · intro hm
    have := ((h.2 i hi k false).1 hm).2.2
    simp [nzB] at this

/-- C17 (`csr_ne_csr`, `csr_lt_csr`, `csr_gt_csr`): these hold at no position stored in neither operand, so the
result is the comparison at every position of the matrix. -/
theorem C17_strict [AddCommMonoid T] [LinearOrder T] (t : IntTy) (a b : CSR T) (cp cj : List Int) (cx : List Bool)
    (h : BinIn t a b cp cj cx) :
    (∃ p j x, csr_ne_csr t a.rows a.cols a.rowptr a.colidx a.values b.rowptr b.colidx b.values cp cj cx = .ok (p, j, x) ∧
      (let c : CSR Bool := ⟨a.rows, a.cols, p, j, x⟩
       c.WF t ∧ c.NoDup ∧ ∀ i < a.rows, ∀ k : Nat, (((k : Int), true) ∈ c.row i ↔ a.entry i k ≠ b.entry i k) ∧
         ((k : Int), false) ∉ c.row i)) ∧
    (∃ p j x, csr_lt_csr t a.rows a.cols a.rowptr a.colidx a.values b.rowptr b.colidx b.values cp cj cx = .ok (p, j, x) ∧
      (let c : CSR Bool := ⟨a.rows, a.cols, p, j, x⟩
       c.WF t ∧ c.NoDup ∧ ∀ i < a.rows, ∀ k : Nat, (((k : Int), true) ∈ c.row i ↔ a.entry i k < b.entry i k) ∧
         ((k : Int), false) ∉ c.row i)) ∧
    (∃ p j x, csr_gt_csr t a.rows a.cols a.rowptr a.colidx a.values b.rowptr b.colidx b.values cp cj cx = .ok (p, j, x) ∧
      (let c : CSR Bool := ⟨a.rows, a.cols, p, j, x⟩
       c.WF t ∧ c.NoDup ∧ ∀ i < a.rows, ∀ k : Nat, (((k : Int), true) ∈ c.row i ↔ a.entry i k > b.entry i k) ∧
         ((k : Int), false) ∉ c.row i)) := by
  have key : ∀ (cmp : T → T → Prop) (c : CSR Bool), ¬ cmp 0 0 → IsCompare cmp a b c →
      c.NoDup ∧ ∀ i < a.rows, ∀ k : Nat, (((k : Int), true) ∈ c.row i ↔ cmp (a.entry i k) (b.entry i k)) ∧
         ((k : Int), false) ∉ c.row i := by
    intro cmp c h0 hc
    refine ⟨hc.1, fun i hi k => ⟨?_, (hc.2 i hi k).2⟩⟩
    rw [(hc.2 i hi k).1]
    constructor
    · exact fun h => h.2
    · intro hcmp
      refine ⟨?_, hcmp⟩
      by_contra hn
      simp only [not_or, has_iff] at hn
      apply h0
      have e1 : a.entry i k = 0 := rowSum_eq_zero fun e he hk => absurd ⟨e, he, hk⟩ hn.1
      have e2 : b.entry i k = 0 := rowSum_eq_zero fun e he hk => absurd ⟨e, he, hk⟩ hn.2
      rw [e1, e2] at hcmp
      exact hcmp
  refine ⟨?_, ?_, ?_⟩
  · obtain ⟨p, j, x, h1, h2, h3⟩ := h.ok (fun a b => a != b) nzB
    exact ⟨p, j, x, h1, h2, key (· ≠ ·) _ (by simp) (h3.compare (by simp))⟩
  · obtain ⟨p, j, x, h1, h2, h3⟩ := h.ok (fun a b => decide (a < b)) nzB
    exact ⟨p, j, x, h1, h2, key (· < ·) _ (by simp) (h3.compare (by simp))⟩
  · obtain ⟨p, j, x, h1, h2, h3⟩ := h.ok (fun a b => decide (b < a)) nzB
    exact ⟨p, j, x, h1, h2, key (· > ·) _ (by simp) (h3.compare (by simp))⟩

/-- C17 (`csr_eq_csr`, `csr_le_csr`, `csr_ge_csr`): the comparison at the positions stored in an operand; nothing
is stored elsewhere, although the comparison of two zeros holds there. -/
theorem C17_weak [AddCommMonoid T] [LinearOrder T] (t : IntTy) (a b : CSR T) (cp cj : List Int) (cx : List Bool)
    (h : BinIn t a b cp cj cx) :
    (∃ p j x, csr_eq_csr t a.rows a.cols a.rowptr a.colidx a.values b.rowptr b.colidx b.values cp cj cx = .ok (p, j, x) ∧
      CSR.WF t (⟨a.rows, a.cols, p, j, x⟩ : CSR Bool) ∧ IsCompare (· = ·) a b ⟨a.rows, a.cols, p, j, x⟩) ∧
    (∃ p j x, csr_le_csr t a.rows a.cols a.rowptr a.colidx a.values b.rowptr b.colidx b.values cp cj cx = .ok (p, j, x) ∧
      CSR.WF t (⟨a.rows, a.cols, p, j, x⟩ : CSR Bool) ∧ IsCompare (· ≤ ·) a b ⟨a.rows, a.cols, p, j, x⟩) ∧
    (∃ p j x, csr_ge_csr t a.rows a.cols a.rowptr a.colidx a.values b.rowptr b.colidx b.values cp cj cx = .ok (p, j, x) ∧
      CSR.WF t (⟨a.rows, a.cols, p, j, x⟩ : CSR Bool) ∧ IsCompare (· ≥ ·) a b ⟨a.rows, a.cols, p, j, x⟩) := by
  refine ⟨?_, ?_, ?_⟩
  · obtain ⟨p, j, x, h1, h2, h3⟩ := h.ok (fun a b => a == b) nzB
    exact ⟨p, j, x, h1, h2, h3.compare (by simp)⟩
  · obtain ⟨p, j, x, h1, h2, h3⟩ := h.ok (fun a b => decide (a ≤ b)) nzB
    exact ⟨p, j, x, h1, h2, h3.compare (by simp)⟩
  · obtain ⟨p, j, x, h1, h2, h3⟩ := h.ok (fun a b => decide (b ≤ a)) nzB
    exact ⟨p, j, x, h1, h2, h3.compare (by simp)⟩

/-- C17. `eq` of two equal matrices does not report equality at a position stored in neither. -/
theorem C17_eq_unstored : ∃ a : CSR Int, a.WF .i8 ∧
    csr_eq_csr .i8 a.rows a.cols a.rowptr a.colidx a.values a.rowptr a.colidx a.values [0, 0] [0, 0] [false, false]
      = .ok ([0, 1], [1, 0], [true, false]) ∧ a.entry 0 0 = a.entry 0 0 ∧
    ((0 : Int), true) ∉ (⟨1, 2, [0, 1], [1, 0], [true, false]⟩ : CSR Bool).row 0 :=
  ⟨⟨1, 2, [0, 1], [1], [4]⟩, CSR.wf_of (by decide), by decide +kernel, rfl, by decide⟩

/-! ### C15 -/

theorem csr_binop_new [AddCommMonoid T] {t : IntTy} {op : T → T → T} {nz : T → Bool} {a b : CSR T} (ha : a.WF t) (hb : b.WF t)
    (hr : b.rows = a.rows) (hc : b.cols = a.cols) (hfit : ((a.stored + b.stored : Nat) : Int) < t.hi) :
    ∃ r : CSR T, (do
      let nnz := (← a.nnz) + (← b.nnz)
      let (rowptr, colidx, values) ← csr_binop_csr t a.rows a.cols a.rowptr a.colidx a.values
        b.rowptr b.colidx b.values (List.replicate (a.rows + 1) 0) (List.replicate nnz 0)
        (List.replicate nnz 0) op nz
      unwrapR (CSR.new a.rows a.cols rowptr colidx values)) = .ok r ∧ r.WF t ∧ r.rows = a.rows ∧ r.cols = a.cols ∧
      IsBinop op nz a b r ∧ (a.Canonical → b.Canonical → r.Canonical) ∧
      r.values.length = a.stored + b.stored ∧ r.ZeroSlack := by
  have e1 := CSR.nnz_ok ha.rep
  have e2 := CSR.nnz_ok hb.rep
  rw [← ha.stored_eq] at e1
  rw [← hb.stored_eq] at e2
  obtain ⟨p, j, x, h1, hj, hx, h2, h3, -, h4, h5⟩ := C17_binop t op nz a b ha hb hr hc hfit (List.replicate (a.rows + 1) 0)
    (List.replicate (a.stored + b.stored) 0) (List.replicate (a.stored + b.stored) 0) (by simp) (by simp) (by simp)
  refine ⟨⟨a.rows, a.cols, p, j, x⟩, ?_, h2, rfl, rfl, h3, h4, by simpa using hx, hj.trans (by simpa using hx.symm), zero_tail h5⟩
  rw [e1]
  simp only [bind, Except.bind]
  rw [e2]
  simp only
  rw [h1]
  simp only
  have hrep : Rep p j x a.rows (CSR.row ⟨a.rows, a.cols, p, j, x⟩) := h2.rep
  rw [CSR.new_ok hrep]
  rfl

theorem IsBinop.ne_zero [AddCommMonoid T] [Zero T2] [DecidableEq T2] {t : IntTy} {op : T → T → T2} {a b : CSR T} {c : CSR T2}
    (h : IsBinop op nzT a b c) (hc : c.WF t) (hcr : c.rows = a.rows) : ∀ i < a.rows, ∀ e ∈ c.row i, e.2 ≠ 0 := by
  rintro i hi ⟨k, v⟩ he
  obtain ⟨q, rfl⟩ := Int.eq_ofNat_of_zero_le (hc.mem (by omega) he).1
  simpa [nzT] using ((h.2 i hi q v).1 he).2.2

/-- C15 (`+`). For valid matrices of equal shape, in any order and with any duplicates, whose entries together
number less than the largest index, `a + b` does not panic, is valid, has the shape of `a`, denotes the sum,
stores no zero and no column twice in a row, and is canonical when `a` and `b` are. The arrays of the result are
allocated for the entries of both operands; the unused rest holds zeros. -/
theorem C15_csr_add [AddCommMonoid T] [DecidableEq T] (t : IntTy) (a b : CSR T) (ha : a.WF t) (hb : b.WF t)
    (hr : b.rows = a.rows) (hc : b.cols = a.cols) (hfit : ((a.stored + b.stored : Nat) : Int) < t.hi) :
    ∃ r, a.add t b = .ok r ∧ r.WF t ∧ r.rows = a.rows ∧ r.cols = a.cols ∧
      (∀ i j, r.entry i j = a.entry i j + b.entry i j) ∧ r.NoDup ∧ (∀ i < a.rows, ∀ e ∈ r.row i, e.2 ≠ 0) ∧
      (a.Canonical → b.Canonical → r.Canonical) ∧ r.values.length = a.stored + b.stored ∧ r.ZeroSlack := by
  obtain ⟨r, h1, h2, h3, h4, h5, h6⟩ := csr_binop_new (op := fun x y => x + y) (nz := nzT) ha hb hr hc hfit
  exact ⟨r, h1, h2, h3, h4, fun i j => h5.entry ha hb hr h2 h3 (by simp) i j, h5.1, h5.ne_zero h2 h3, h6⟩

/-- C15 (`-`). -/
theorem C15_csr_sub [AddCommGroup T] [DecidableEq T] (t : IntTy) (a b : CSR T) (ha : a.WF t) (hb : b.WF t)
    (hr : b.rows = a.rows) (hc : b.cols = a.cols) (hfit : ((a.stored + b.stored : Nat) : Int) < t.hi) :
    ∃ r, a.sub t b = .ok r ∧ r.WF t ∧ r.rows = a.rows ∧ r.cols = a.cols ∧
      (∀ i j, r.entry i j = a.entry i j - b.entry i j) ∧ r.NoDup ∧ (∀ i < a.rows, ∀ e ∈ r.row i, e.2 ≠ 0) ∧
      (a.Canonical → b.Canonical → r.Canonical) ∧ r.values.length = a.stored + b.stored ∧ r.ZeroSlack := by
  obtain ⟨r, h1, h2, h3, h4, h5, h6⟩ := csr_binop_new (op := fun x y => x - y) (nz := nzT) ha hb hr hc hfit
  exact ⟨r, h1, h2, h3, h4, fun i j => h5.entry ha hb hr h2 h3 (by simp) i j, h5.1, h5.ne_zero h2 h3, h6⟩

example : ∃ a b : CSR Int, a.WF .i8 ∧ b.WF .i8 ∧ b.rows = a.rows ∧ b.cols = a.cols ∧
    ((a.stored + b.stored : Nat) : Int) < IntTy.i8.hi ∧ a.stored = 3 ∧ b.stored = 2 ∧ a.entry 0 0 + b.entry 0 0 = 0 :=
  ⟨⟨2, 2, [0, 2, 3], [0, 0, 1], [5, 7, 3]⟩, ⟨2, 2, [0, 1, 2], [0, 0], [-12, 2]⟩, CSR.wf_of (by decide), CSR.wf_of (by decide),
    rfl, rfl, by decide, by decide, by decide, by decide⟩

/-! ### C16 -/

/-- C16 (the statement is false). Shapes are not compared: extra rows of `b` are dropped silently, and extra
columns of `b` give a result with column indices outside its declared width. -/
theorem C16_counterexample :
    (∃ a b : CSR Int, a.WF .i8 ∧ b.WF .i8 ∧ a.rows ≠ b.rows ∧ a.cols = b.cols ∧
      (∃ r, a.add .i8 b = .ok r ∧ r.WF .i8) ∧ ∃ r, a.sub .i8 b = .ok r ∧ r.WF .i8) ∧
    (∃ a b : CSR Int, a.WF .i8 ∧ b.WF .i8 ∧ a.rows = b.rows ∧ a.cols ≠ b.cols ∧
      (∃ r, a.add .i8 b = .ok r ∧ ¬ r.WF .i8) ∧ ∃ r, a.sub .i8 b = .ok r ∧ ¬ r.WF .i8) := by
  refine ⟨⟨⟨1, 2, [0, 1], [1], [4]⟩, ⟨2, 2, [0, 1, 2], [0, 1], [5, 6]⟩, CSR.wf_of (by decide), CSR.wf_of (by decide),
    by decide, rfl, ⟨⟨1, 2, [0, 2], [0, 1, 0], [5, 4, 0]⟩, by decide +kernel, CSR.wf_of (by decide)⟩,
    ⟨⟨1, 2, [0, 2], [0, 1, 0], [-5, 4, 0]⟩, by decide +kernel, CSR.wf_of (by decide)⟩⟩, 
    ⟨⟨1, 1, [0, 1], [0], [4]⟩, ⟨1, 3, [0, 1], [2], [5]⟩, CSR.wf_of (by decide), CSR.wf_of (by decide),
    rfl, by decide, ⟨⟨1, 1, [0, 2], [0, 2], [4, 5]⟩, by decide +kernel, ?_⟩,
    ⟨⟨1, 1, [0, 2], [0, 2], [4, -5]⟩, by decide +kernel, ?_⟩⟩⟩
  · intro h
    have := h.idx 2 1 2 rfl rfl (by decide)
    simp at this
  · intro h
    have := h.idx 2 1 2 rfl rfl (by decide)
    simp at this

theorem binop_short_rows [Zero T] [Add T] {t : IntTy} {n nc : Nat} {ap aj bp bj cp cj : List Int} {ax bx : List T} {cx : List T2}
    {op : T → T → T2} {nz : T2 → Bool} (h0 : 0 < bp.length) (h : bp.length < n + 1) :
    WP (csr_binop_csr t n nc ap aj ax bp bj bx cp cj cx op nz) (fun _ => False) (fun _ => True) := by
  have hcan : WP (csr_binop_csr_canonical t n ap aj ax bp bj bx cp cj cx op nz) (fun _ => False) (fun _ => True) := by
    unfold csr_binop_csr_canonical
    rw [WP_bind]
    refine WP_any fun _ => ?_
    rw [WP_bind]
    refine WP_forRange (fun i _ => i < bp.length) (fun _ => False) (by omega) h0 ?_ (by simp) (by intro s h; omega)
    intro i s _ _ hi
    simp only [WP_bind]
    refine WP_any fun _ => WP_any fun _ => WP_any fun _ => WP_any fun _ => WP_any fun _ => WP_any fun _ => ?_
    rw [WP_rd]
    refine ⟨fun v hv => ?_, fun _ => trivial⟩
    have := (List.getElem?_eq_some_iff.1 hv).1
    refine WP_any fun _ => WP_any fun _ => WP_any fun _ => WP_any fun _ => WP_any fun _ => WP_any fun _ => ?_
    rw [WP_pure]
    exact this
  have hgen : WP (csr_binop_csr_general t n nc ap aj ax bp bj bx cp cj cx op nz) (fun _ => False) (fun _ => True) := by
    unfold csr_binop_csr_general
    rw [WP_bind]
    refine WP_any fun _ => ?_
    rw [WP_bind]
    refine WP_forRange (fun i _ => i < bp.length) (fun _ => False) (by omega) h0 ?_ (by simp) (by intro s h; omega)
    intro i s _ _ hi
    simp only [WP_bind]
    refine WP_any fun _ => WP_any fun _ => WP_any fun _ => WP_any fun _ => WP_any fun _ => WP_any fun _ => WP_any fun _ => ?_
    rw [WP_rd]
    refine ⟨fun v hv => ?_, fun _ => trivial⟩
    have := (List.getElem?_eq_some_iff.1 hv).1
    refine WP_any fun _ => WP_any fun _ => WP_any fun _ => WP_any fun _ => ?_
    rw [WP_pure]
    exact this
  unfold csr_binop_csr
  rw [WP_bind]
  refine WP_any fun ca => ?_
  simp only [WP_ite, WP_bind]
  exact ⟨fun _ => WP_any fun _ => ⟨fun _ => hcan, fun _ => hgen⟩, fun _ => WP_any fun _ => ⟨fun _ => hcan, fun _ => hgen⟩⟩

/-- C16 (partial). Operands of which the right one has fewer rows are never accepted. Missing: the other
mismatches, which C16_counterexample shows are accepted. -/
theorem C16_fewer_rows_partial [AddCommGroup T] [DecidableEq T] (t : IntTy) (a b : CSR T) (hb : b.WF t)
    (h : b.rows < a.rows) (r : CSR T) : a.add t b ≠ .ok r ∧ a.sub t b ≠ .ok r := by
  have hl := hb.len
  constructor
  · refine WP.not_ok (E := fun _ => True) ?_ r
    unfold CSR.add
    simp only [WP_bind]
    refine WP_any fun _ => WP_any fun _ => ?_
    exact (binop_short_rows (by omega) (by omega)).mono (fun _ h => h.elim) fun _ h => h
  · refine WP.not_ok (E := fun _ => True) ?_ r
    unfold CSR.sub
    simp only [WP_bind]
    refine WP_any fun _ => WP_any fun _ => ?_
    exact (binop_short_rows (by omega) (by omega)).mono (fun _ h => h.elim) fun _ h => h

example : ∃ a b : CSR Int, a.WF .i8 ∧ b.WF .i8 ∧ b.rows < a.rows ∧ a.stored = 2 ∧ b.stored = 1 :=
  ⟨⟨2, 2, [0, 1, 2], [0, 1], [5, 6]⟩, ⟨1, 2, [0, 1], [1], [4]⟩, CSR.wf_of (by decide), CSR.wf_of (by decide), by decide,
    by decide, by decide⟩

/-! ### C18 -/

/-- the CSR matrix with the same arrays: the transpose -/
def CSC.asCSR (a : CSC T) : CSR T := ⟨a.cols, a.rows, a.colptr, a.rowidx, a.values⟩

theorem csc_binop_arrays [AddCommMonoid T] {t : IntTy} {op : T → T → T} {a b : CSC T} [DecidableEq T] (ha : a.WF t) (hb : b.WF t)
    (hr : b.rows = a.rows) (hc : b.cols = a.cols) (hfit : ((a.stored + b.stored : Nat) : Int) < t.hi) (h0 : op 0 0 = 0) :
    a.nnz = .ok a.stored ∧ b.nnz = .ok b.stored ∧
    ∃ p j x, csr_binop_csr t a.cols a.rows a.colptr a.rowidx a.values b.colptr b.rowidx b.values
        (List.replicate (a.cols + 1) 0) (List.replicate (a.stored + b.stored) 0)
        (List.replicate (a.stored + b.stored) 0) op nzT = .ok (p, j, x) ∧
      j.length = a.stored + b.stored ∧ x.length = a.stored + b.stored ∧
      (let c : CSC T := ⟨a.rows, a.cols, j, p, x⟩
       c.WF t ∧ (∀ i j, c.entry i j = op (a.entry i j) (b.entry i j)) ∧ c.NoDup ∧
         (∀ j < a.cols, ∀ e ∈ c.col j, e.2 ≠ 0) ∧ (a.Canonical → b.Canonical → c.Canonical) ∧ c.ZeroSlack) := by
  have e1 := CSC.nnz_ok ha.rep
  have e2 := CSC.nnz_ok hb.rep
  rw [← ha.stored_eq] at e1
  rw [← hb.stored_eq] at e2
  have ha' : a.asCSR.WF t := ha
  have hb' : b.asCSR.WF t := hb
  obtain ⟨p, j, x, h1, hj, hx, h2, h3, -, h4, h5⟩ := C17_binop t op nzT a.asCSR b.asCSR ha' hb' hc hr hfit
    (List.replicate (a.cols + 1) 0) (List.replicate (a.stored + b.stored) 0) (List.replicate (a.stored + b.stored) 0)
    (by simp [CSC.asCSR]) (by simp [CSC.asCSR, CSR.stored, CSC.stored, CSR.row, CSC.col])
    (by simp [CSC.asCSR, CSR.stored, CSC.stored, CSR.row, CSC.col])
  refine ⟨e1, e2, p, j, x, h1, by simpa using hj, by simpa using hx, h2, ?_, h3.1, h3.ne_zero h2 rfl, h4,
    hj.trans (by simpa using hx.symm), zero_tail h5⟩
  intro i k
  exact h3.entry ha' hb' hc h2 rfl h0 k i

theorem csc_binop_trim [AddCommMonoid T] {t : IntTy} {op : T → T → T} {a b : CSC T} [DecidableEq T] (ha : a.WF t) (hb : b.WF t)
    (hr : b.rows = a.rows) (hc : b.cols = a.cols) (hfit : ((a.stored + b.stored : Nat) : Int) < t.hi) (h0 : op 0 0 = 0) :
    ∃ r : CSC T, (show M (CSC T) from do
      if b.rows ≠ a.rows ∨ b.cols ≠ a.cols then
        throw .err
      let maxnnz := (← a.nnz) + (← b.nnz)
      let (colptr, rowidx, values) ← csr_binop_csr t a.cols a.rows a.colptr a.rowidx a.values
        b.colptr b.rowidx b.values (List.replicate a.colptr.length 0) (List.replicate maxnnz 0)
        (List.replicate maxnnz 0) op nzT
      let newnnz ← toUsize (← colptr.rd a.cols)
      let rowidx ← rowidx.slice 0 newnnz
      let values ← values.slice 0 newnnz
      CSC.new a.rows a.cols rowidx colptr values) = .ok r ∧ r.WF t ∧ r.rows = a.rows ∧ r.cols = a.cols ∧
      (∀ i j, r.entry i j = op (a.entry i j) (b.entry i j)) ∧ r.NoDup ∧
      (∀ j < a.cols, ∀ e ∈ r.col j, e.2 ≠ 0) ∧ r.rowidx.length = r.stored ∧ r.values.length = r.stored ∧
      (a.Canonical → b.Canonical → r.Canonical) ∧ r.stored ≤ a.stored + b.stored := by
  obtain ⟨e1, e2, p, j, x, h1, hj, hx, h2, h3, h4, h5, h6, -⟩ := csc_binop_arrays ha hb hr hc hfit h0
  have hrep : Rep p j x a.cols (CSC.col ⟨a.rows, a.cols, j, p, x⟩) := h2.rep
  have htrim := hrep.trim
  set c : CSC T := ⟨a.rows, a.cols, j, p, x⟩ with hcdef
  have hlj := hrep.len_j
  have hlx := hrep.len_x
  set N := (flat c.col a.cols).length with hN
  have hwf : CSC.WF t (⟨a.rows, a.cols, j.take N, p, x.take N⟩ : CSC T) := by
    refine htrim.wf (m := a.rows) (fun i hi e he => h2.mem hi he) ?_
    exact h2.fits
  have hcol : ∀ k < a.cols, CSC.col ⟨a.rows, a.cols, j.take N, p, x.take N⟩ k = c.col k := fun k hk =>
    CSC.col_of_rep (a := ⟨a.rows, a.cols, j.take N, p, x.take N⟩) htrim hk
  have hst : CSC.stored (⟨a.rows, a.cols, j.take N, p, x.take N⟩ : CSC T) = N :=
    CSC.stored_of_rep (a := ⟨a.rows, a.cols, j.take N, p, x.take N⟩) htrim
  refine ⟨⟨a.rows, a.cols, j.take N, p, x.take N⟩, ?_, hwf, rfl, rfl, ?_, ?_, ?_, ?_, ?_, ?_, by rw [hst]; omega⟩
  · rw [if_neg (by omega)]
    have hl := ha.len
    rw [hl, e1]
    simp only [bind, Except.bind]
    rw [e2]
    simp only
    rw [h1]
    simp only [List.rd, hrep.ptr a.cols (le_refl _), toUsize, List.slice, ← hN]
    simp only [Int.natCast_nonneg, if_true, pure, Except.pure, Int.toNat_natCast, Nat.zero_le, true_and, List.drop_zero, Nat.sub_zero]
    rw [if_pos (by omega)]
    simp only
    rw [if_pos (by omega)]
    simp only
    exact CSC.new_ok htrim
  · intro i k
    rw [← h3, CSC.entry_of_rep (a := ⟨a.rows, a.cols, j.take N, p, x.take N⟩) htrim, CSC.entry_of_rep hrep]
  · intro k hk
    simp only at hk
    rw [hcol k hk]
    exact h4 k hk
  · intro k hk
    rw [hcol k hk]
    exact h5 k hk
  · rw [hst, List.length_take]; omega
  · rw [hst, List.length_take]; omega
  · intro sa sb k hk
    simp only at hk
    rw [hcol k hk]
    exact h6 sa sb k hk

/-- C18 (`CSC::add`). -/
theorem C18_csc_add [AddCommMonoid T] [DecidableEq T] (t : IntTy) (a b : CSC T) (ha : a.WF t) (hb : b.WF t)
    (hr : b.rows = a.rows) (hc : b.cols = a.cols) (hfit : ((a.stored + b.stored : Nat) : Int) < t.hi) :
    ∃ r, a.add t b = .ok r ∧ r.WF t ∧ r.rows = a.rows ∧ r.cols = a.cols ∧
      (∀ i j, r.entry i j = a.entry i j + b.entry i j) ∧ r.NoDup ∧ (∀ j < a.cols, ∀ e ∈ r.col j, e.2 ≠ 0) ∧
      r.rowidx.length = r.stored ∧ r.values.length = r.stored ∧ (a.Canonical → b.Canonical → r.Canonical) ∧
      r.stored ≤ a.stored + b.stored :=
  csc_binop_trim (op := fun x y => x + y) ha hb hr hc hfit (by simp)

/-- C18 (`CSC::subtract`). -/
theorem C18_csc_subtract [AddCommGroup T] [DecidableEq T] (t : IntTy) (a b : CSC T) (ha : a.WF t) (hb : b.WF t)
    (hr : b.rows = a.rows) (hc : b.cols = a.cols) (hfit : ((a.stored + b.stored : Nat) : Int) < t.hi) :
    ∃ r, a.subtract t b = .ok r ∧ r.WF t ∧ r.rows = a.rows ∧ r.cols = a.cols ∧
      (∀ i j, r.entry i j = a.entry i j - b.entry i j) ∧ r.NoDup ∧ (∀ j < a.cols, ∀ e ∈ r.col j, e.2 ≠ 0) ∧
      r.rowidx.length = r.stored ∧ r.values.length = r.stored ∧ (a.Canonical → b.Canonical → r.Canonical) ∧
      r.stored ≤ a.stored + b.stored :=
  csc_binop_trim (op := fun x y => x - y) ha hb hr hc hfit (by simp)

/-- C18 (shapes). Both return `Err` when the shapes differ (with C18_csc_add and C18_csc_subtract: exactly then). -/
theorem C18_csc_shape_err [AddCommGroup T] [DecidableEq T] (t : IntTy) (a b : CSC T) (h : b.rows ≠ a.rows ∨ b.cols ≠ a.cols) :
    a.add t b = .error .err ∧ a.subtract t b = .error .err := by
  unfold CSC.add CSC.subtract
  simp only [if_pos h]
  exact ⟨rfl, rfl⟩

/-- C18 (operator `+` of CSC, which does not trim the arrays). -/
theorem C18_csc_add_op [AddCommMonoid T] [DecidableEq T] (t : IntTy) (a b : CSC T) (ha : a.WF t) (hb : b.WF t)
    (hr : b.rows = a.rows) (hc : b.cols = a.cols) (hfit : ((a.stored + b.stored : Nat) : Int) < t.hi) :
    ∃ r, a.add_op t b = .ok r ∧ r.WF t ∧ r.rows = a.rows ∧ r.cols = a.cols ∧
      (∀ i j, r.entry i j = a.entry i j + b.entry i j) ∧ r.NoDup ∧ (∀ j < a.cols, ∀ e ∈ r.col j, e.2 ≠ 0) ∧
      (a.Canonical → b.Canonical → r.Canonical) ∧ r.values.length = a.stored + b.stored ∧ r.ZeroSlack := by
  obtain ⟨e1, e2, p, j, x, h1, hj, hx, h2, h3, h4, h5, h6, h7⟩ := csc_binop_arrays (op := fun x y => x + y) ha hb hr hc hfit (by simp)
  refine ⟨⟨a.rows, a.cols, j, p, x⟩, ?_, h2, rfl, rfl, h3, h4, h5, h6, hx, h7⟩
  unfold CSC.add_op csr_add_csr
  rw [e1, e2]
  simp only [bind, Except.bind]
  rw [h1]
  simp only
  have hrep : Rep p j x a.cols (CSC.col ⟨a.rows, a.cols, j, p, x⟩) := h2.rep
  rw [CSC.new_ok hrep]
  rfl

example : ∃ a b : CSC Int, a.WF .i8 ∧ b.WF .i8 ∧ b.rows = a.rows ∧ b.cols = a.cols ∧
    ((a.stored + b.stored : Nat) : Int) < IntTy.i8.hi ∧ a.stored = 3 ∧ b.stored = 2 ∧ a.entry 0 0 + b.entry 0 0 = 0 :=
  ⟨⟨3, 2, [0, 0, 1], [0, 2, 3], [5, 7, 3]⟩, ⟨3, 2, [0, 0], [0, 1, 2], [-12, 2]⟩, CSC.wf_of (by decide), CSC.wf_of (by decide),
    rfl, rfl, by decide, by decide, by decide, by decide⟩

/-! ### C19 -/

/-- C19 (the statement is false). Unless the operands together happen to have `cols + 1` entries, the
operator panics, because the arrays are passed to the constructor in the wrong order. -/
theorem C19_csc_sub_panics [AddCommGroup T] [DecidableEq T] (t : IntTy) (a b : CSC T) (ha : a.WF t) (hb : b.WF t)
    (hr : b.rows = a.rows) (hc : b.cols = a.cols) (hfit : ((a.stored + b.stored : Nat) : Int) < t.hi)
    (hne : a.stored + b.stored ≠ a.cols + 1) : a.sub_op t b = .error (.panic .unwrap) := by
  obtain ⟨e1, e2, p, j, x, h1, hj, hx, h2, h3, h4, h5, h6⟩ := csc_binop_arrays (op := fun x y => x - y) ha hb hr hc hfit (by simp)
  unfold CSC.sub_op csr_sub_csr
  rw [e1, e2]
  simp only [bind, Except.bind]
  rw [h1]
  simp only
  unfold CSC.new
  rw [if_pos (by omega)]
  rfl

example : ∃ a b : CSC Int, a.WF .i8 ∧ b.WF .i8 ∧ b.rows = a.rows ∧ b.cols = a.cols ∧
    ((a.stored + b.stored : Nat) : Int) < IntTy.i8.hi ∧ a.stored + b.stored ≠ a.cols + 1 ∧ b.stored = 2 :=
  ⟨⟨3, 2, [0, 0, 1], [0, 2, 3], [5, 7, 3]⟩, ⟨3, 2, [0, 0], [0, 1, 2], [-12, 2]⟩, CSC.wf_of (by decide), CSC.wf_of (by decide),
    rfl, rfl, by decide, by decide, by decide⟩

/-- C19 (negation): valid matrices of equal shape for which the operator returns a wrong matrix without any
error, and for which it panics. -/
theorem C19_csc_sub_counterexample :
    (∃ a b : CSC Int, a.WF .i8 ∧ b.WF .i8 ∧ b.rows = a.rows ∧ b.cols = a.cols ∧
      ∃ r, a.sub_op .i8 b = .ok r ∧ r.entry 1 0 ≠ a.entry 1 0 - b.entry 1 0) ∧
    (∃ a b : CSC Int, a.WF .i8 ∧ b.WF .i8 ∧ b.rows = a.rows ∧ b.cols = a.cols ∧
      a.sub_op .i8 b = .error (.panic .unwrap)) := by
  refine ⟨⟨⟨2, 1, [0], [0, 1], [5]⟩, ⟨2, 1, [1], [0, 1], [7]⟩, CSC.wf_of (by decide), CSC.wf_of (by decide), rfl, rfl,
    ⟨2, 1, [0, 2], [0, 1], [5, -7]⟩, by decide +kernel, by decide⟩,
    ⟨⟨2, 2, [0, 1], [0, 1, 2], [5, 7]⟩, ⟨2, 2, [0, 1], [0, 1, 2], [5, 7]⟩, CSC.wf_of (by decide), CSC.wf_of (by decide), rfl, rfl,
    by decide +kernel⟩⟩

end
end Sparse

import Verif.Spec
import Mathlib.Data.List.Infix
/-!
Row-list view of compressed arrays: `Rep p j x n R` says that the arrays hold exactly the rows
`R 0, …, R (n-1)`, one after the other, followed by arbitrary unused storage.
-/
namespace Sparse

section
variable {T : Type} {α : Type}

/-- concatenation of the first `n` rows -/
def flat (R : Nat → List α) (n : Nat) : List α := (List.range n).flatMap R

@[simp] theorem flat_zero (R : Nat → List α) : flat R 0 = [] := by simp [flat]

theorem flat_succ (R : Nat → List α) (n : Nat) : flat R (n + 1) = flat R n ++ R n := by
  simp [flat, List.range_succ]

theorem flat_length_succ (R : Nat → List α) (n : Nat) :
    (flat R (n + 1)).length = (flat R n).length + (R n).length := by
  simp [flat_succ]

theorem flat_congr {R S : Nat → List α} {n : Nat} (h : ∀ i < n, R i = S i) : flat R n = flat S n := by
  induction n with
  | zero => simp
  | succ n ih => rw [flat_succ, flat_succ, ih (fun i hi => h i (by omega)), h n (by omega)]

theorem flat_prefix (R : Nat → List α) {i n : Nat} (h : i ≤ n) : flat R i <+: flat R n := by
  induction n with
  | zero => have : i = 0 := by omega
            subst this; simp
  | succ n ih =>
    rcases Nat.lt_or_ge i (n + 1) with h1 | h1
    · rw [flat_succ]; exact (ih (by omega)).trans (List.prefix_append _ _)
    · have : i = n + 1 := by omega
      subst this; exact List.prefix_refl _

theorem flat_length_mono (R : Nat → List α) {i n : Nat} (h : i ≤ n) :
    (flat R i).length ≤ (flat R n).length := (flat_prefix R h).length_le

theorem flat_length_sum (R : Nat → List α) (n : Nat) :
    (flat R n).length = ((List.range n).map fun i => (R i).length).sum := by
  induction n with
  | zero => simp
  | succ n ih => rw [flat_length_succ, ih, List.range_succ]; simp

theorem flat_map {β : Type} (f : α → β) (R : Nat → List α) (n : Nat) :
    flat (fun i => (R i).map f) n = (flat R n).map f := by
  induction n with
  | zero => simp
  | succ n ih => simp [flat_succ, ih]

theorem mem_flat {R : Nat → List α} {n : Nat} {a : α} : a ∈ flat R n ↔ ∃ i < n, a ∈ R i := by
  simp [flat]

theorem flat_getElem? {R : Nat → List α} {n i m : Nat} (hi : i < n) {e : α} (h : (R i)[m]? = some e) :
    (flat R n)[(flat R i).length + m]? = some e := by
  have h1 : flat R (i + 1) <+: flat R n := flat_prefix R hi
  obtain ⟨s, hs⟩ := h1
  rw [← hs, flat_succ]
  have hm : m < (R i).length := by
    rw [List.getElem?_eq_some_iff] at h; exact h.1
  rw [List.append_assoc, List.getElem?_append_right (by omega)]
  rw [Nat.add_sub_cancel_left, List.getElem?_append_left hm]
  exact h

/-- every position of `flat` lies in some row -/
theorem flat_locate {R : Nat → List α} {n k : Nat} (h : k < (flat R n).length) :
    ∃ i m, i < n ∧ m < (R i).length ∧ k = (flat R i).length + m := by
  induction n with
  | zero => simp at h
  | succ n ih =>
    rw [flat_length_succ] at h
    rcases Nat.lt_or_ge k (flat R n).length with h1 | h1
    · obtain ⟨i, m, hi, hm, hk⟩ := ih h1
      exact ⟨i, m, by omega, hm, hk⟩
    · exact ⟨n, k - (flat R n).length, by omega, by omega, by omega⟩

theorem isPrefix_iff_get {l1 l2 : List α} :
    l1 <+: l2 ↔ ∀ (k : Nat) (e : α), l1[k]? = some e → l2[k]? = some e := by
  constructor
  · rintro ⟨s, rfl⟩ k e h
    rw [List.getElem?_append_left]
    · exact h
    · rw [List.getElem?_eq_some_iff] at h; exact h.1
  · intro h
    rw [List.prefix_iff_getElem?]
    intro i hi
    exact (h i l1[i] (by simp)).trans (by simp)

theorem zip_get {j : List Int} {x : List T} {k : Nat} {e : Int × T} :
    (j.zip x)[k]? = some e ↔ j[k]? = some e.1 ∧ x[k]? = some e.2 := by
  rw [List.getElem?_zip_eq_some]

/-- the arrays `p j x` hold the `n` rows `R` -/
structure Rep (p j : List Int) (x : List T) (n : Nat) (R : Nat → List (Int × T)) : Prop where
  len : p.length = n + 1
  ptr : ∀ i ≤ n, p[i]? = some ((flat R i).length : Int)
  pre : flat R n <+: j.zip x

theorem Rep.get {p j : List Int} {x : List T} {n : Nat} {R : Nat → List (Int × T)}
    (h : Rep p j x n R) {i m : Nat} (hi : i < n) {e : Int × T} (he : (R i)[m]? = some e) :
    j[(flat R i).length + m]? = some e.1 ∧ x[(flat R i).length + m]? = some e.2 := by
  rw [← zip_get]
  exact isPrefix_iff_get.1 h.pre _ _ (flat_getElem? hi he)

theorem Rep.ptr_succ {p j : List Int} {x : List T} {n : Nat} {R : Nat → List (Int × T)}
    (h : Rep p j x n R) {i : Nat} (hi : i < n) :
    p[i + 1]? = some (((flat R i).length + (R i).length : Nat) : Int) := by
  rw [h.ptr (i + 1) hi, flat_length_succ]

theorem Rep.congr {p j : List Int} {x : List T} {n : Nat} {R S : Nat → List (Int × T)}
    (h : Rep p j x n R) (hRS : ∀ i < n, R i = S i) : Rep p j x n S := by
  refine ⟨h.len, ?_, ?_⟩
  · intro i hi
    rw [h.ptr i hi, flat_congr (fun k hk => hRS k (by omega))]
  · rw [← flat_congr hRS]; exact h.pre

theorem Rep.len_j {p j : List Int} {x : List T} {n : Nat} {R : Nat → List (Int × T)}
    (h : Rep p j x n R) : (flat R n).length ≤ j.length := by
  have := h.pre.length_le
  rw [List.length_zip] at this; omega

theorem Rep.len_x {p j : List Int} {x : List T} {n : Nat} {R : Nat → List (Int × T)}
    (h : Rep p j x n R) : (flat R n).length ≤ x.length := by
  have := h.pre.length_le
  rw [List.length_zip] at this; omega

theorem drop_take_of_prefix {l1 l2 : List α} (h : l1 <+: l2) {a b : Nat} (hab : a + b ≤ l1.length) :
    (l2.drop a).take b = (l1.drop a).take b := by
  obtain ⟨s, rfl⟩ := h
  rw [List.drop_append_of_le_length (by omega), List.take_append_of_le_length (by simp; omega)]

/-- the rows of a represented matrix are what `rowOf` reads -/
theorem Rep.rowOf {p j : List Int} {x : List T} {n : Nat} {R : Nat → List (Int × T)}
    (h : Rep p j x n R) {i : Nat} (hi : i < n) : rowOf p j x i = R i := by
  unfold Sparse.rowOf
  rw [h.ptr i (by omega), h.ptr_succ hi]
  simp only [Int.toNat_natCast, Nat.add_sub_cancel_left]
  have hp : flat R (i + 1) <+: j.zip x := (flat_prefix R hi).trans h.pre
  rw [drop_take_of_prefix hp (by rw [flat_length_succ]), flat_succ]
  simp

/-- arrays with valid pointers represent the rows read by `rowOf` -/
theorem Pointers.rep {n : Nat} {p j : List Int} {x : List T} (h : Pointers n p j x) :
    Rep p j x n (Sparse.rowOf p j x) := by
  have hget : ∀ i ≤ n, ∃ a, p[i]? = some a := by
    intro i hi
    exact ⟨p[i]'(by rw [h.len]; omega), by simp⟩
  obtain ⟨c, hc⟩ := hget n (le_refl _)
  have hlast := h.last c hc
  have mono' : ∀ (d i : Nat) (a b : Int), p[i]? = some a → p[i + d]? = some b → a ≤ b := by
    intro d
    induction d with
    | zero => intro i a b h1 h2; simp at h2; rw [h1] at h2; simp at h2; omega
    | succ d ih =>
      intro i a b h1 h2
      have hlt : i + d + 1 < p.length := by
        rw [List.getElem?_eq_some_iff] at h2; exact h2.1
      obtain ⟨e, he⟩ := hget (i + d) (by rw [h.len] at hlt; omega)
      exact (ih i a e h1 he).trans (h.mono (i + d) e b he h2)
  have key : ∀ i ≤ n, p[i]? = some ((flat (Sparse.rowOf p j x) i).length : Int) ∧
      flat (Sparse.rowOf p j x) i <+: j.zip x := by
    intro i
    induction i with
    | zero => intro _; simp [h.first]
    | succ i ih =>
      intro hi
      obtain ⟨h1, h2⟩ := ih (by omega)
      obtain ⟨b, hb⟩ := hget (i + 1) hi
      have hab := h.mono i _ b h1 hb
      have hbc : b ≤ c := mono' (n - (i + 1)) (i + 1) b c hb (by
        rw [show i + 1 + (n - (i + 1)) = n by omega]; exact hc)
      have hrow : Sparse.rowOf p j x i =
          ((j.zip x).drop (flat (Sparse.rowOf p j x) i).length).take
            (b.toNat - (flat (Sparse.rowOf p j x) i).length) := by
        conv_lhs => unfold Sparse.rowOf
        rw [h1, hb]
        simp
      have hl : (Sparse.rowOf p j x i).length = b.toNat - (flat (Sparse.rowOf p j x) i).length := by
        rw [hrow, List.length_take, List.length_drop, List.length_zip]
        omega
      refine ⟨?_, ?_⟩
      · rw [hb, flat_length_succ, hl]; congr 1; omega
      · rw [flat_succ, hrow]
        have h3 := List.prefix_iff_eq_take.1 h2
        conv_lhs => rw [h3]
        rw [List.length_take]
        have hle := h2.length_le
        rw [Nat.min_eq_left hle, ← List.take_add]
        exact List.take_prefix _ _
  exact ⟨h.len, fun i hi => (key i hi).1, (key n (le_refl _)).2⟩

theorem WFptr.pointers {t : IntTy} {n m : Nat} {p j : List Int} {x : List T} (h : WFptr t n m p j x) :
    Pointers n p j x := ⟨h.len, h.first, h.mono, fun c hc => (h.last c hc).2⟩

/-- valid arrays represent the rows read by `rowOf` -/
theorem WFptr.rep {t : IntTy} {n m : Nat} {p j : List Int} {x : List T} (h : WFptr t n m p j x) :
    Rep p j x n (Sparse.rowOf p j x) := h.pointers.rep

/-- row elements of valid arrays are in range -/
theorem WFptr.mem {t : IntTy} {n m : Nat} {p j : List Int} {x : List T} (h : WFptr t n m p j x)
    {i : Nat} (hi : i < n) {e : Int × T} (he : e ∈ Sparse.rowOf p j x i) :
    0 ≤ e.1 ∧ e.1 < m ∧ e.1 ≤ t.hi := by
  have hr := h.rep
  obtain ⟨k, hk⟩ := List.mem_iff_getElem?.1 he
  have hg := hr.get hi hk
  have hlt : (flat (Sparse.rowOf p j x) i).length + k < (flat (Sparse.rowOf p j x) n).length := by
    have := flat_getElem? hi hk
    rw [List.getElem?_eq_some_iff] at this; exact this.1
  exact h.idx _ _ _ (hr.ptr n (le_refl _)) hg.1 (by exact_mod_cast hlt)

theorem WFptr.fits {t : IntTy} {n m : Nat} {p j : List Int} {x : List T} (h : WFptr t n m p j x) :
    ((flat (Sparse.rowOf p j x) n).length : Int) ≤ t.hi :=
  (h.last _ (h.rep.ptr n (le_refl _))).1

/-- represented rows with indices in range make valid arrays -/
theorem Rep.wf {t : IntTy} {n m : Nat} {p j : List Int} {x : List T} {R : Nat → List (Int × T)}
    (h : Rep p j x n R) (hm : ∀ i < n, ∀ e ∈ R i, 0 ≤ e.1 ∧ e.1 < m ∧ e.1 ≤ t.hi)
    (hf : ((flat R n).length : Int) ≤ t.hi) : WFptr t n m p j x := by
  refine ⟨h.len, by rw [h.ptr 0 (by omega)]; simp, ?_, ?_, ?_⟩
  · intro i a b h1 h2
    have hlt : i + 1 < p.length := by
      rw [List.getElem?_eq_some_iff] at h2; exact h2.1
    rw [h.len] at hlt
    rw [h.ptr i (by omega)] at h1
    rw [h.ptr_succ (by omega)] at h2
    simp at h1 h2; omega
  · intro c hc
    rw [h.ptr n (le_refl _)] at hc
    simp at hc
    have h1 := h.len_j
    have h2 := h.len_x
    omega
  · intro c k v hc hv hk
    rw [h.ptr n (le_refl _)] at hc
    simp at hc
    have hk' : k < (flat R n).length := by omega
    obtain ⟨i, q, hi, hq, rfl⟩ := flat_locate hk'
    have hg := h.get hi (e := (R i)[q]) (m := q) (by simp)
    rw [hv] at hg
    simp at hg
    rw [hg.1]
    exact hm i hi _ (List.getElem_mem _)

/-- A loop over `o..o + E.length` that processes the elements of `E` in order. -/
theorem Ok_forOff {E : List α} {o b : Nat} (hb : b = o + E.length) {σ : Type} {s : σ}
    {f : Nat → σ → M (ForInStep σ)}
    {Q : σ → Prop} (P : List α → σ → Prop) (h0 : P [] s)
    (hs : ∀ pre e suf s, E = pre ++ e :: suf → P pre s →
      Ok (f (o + pre.length) s) (fun st => ∃ s', st = .yield s' ∧ P (pre ++ [e]) s'))
    (hQ : ∀ s, P E s → Q s) : Ok (forIn (rng o b) s f) Q := by
  subst hb
  refine Ok_forRange (fun k s => P (E.take (k - o)) s) (by omega) (by simpa using h0) ?_ ?_
  · intro k s h1 h2 hp
    obtain ⟨q, rfl⟩ : ∃ q, k = o + q := ⟨k - o, by omega⟩
    have hq : q < E.length := by omega
    simp only [Nat.add_sub_cancel_left] at hp
    have e1 : (E.take q).length = q := by simp; omega
    have := hs (E.take q) E[q] (E.drop (q + 1)) s (by simp) hp
    rw [e1] at this
    refine this.mono ?_
    rintro st ⟨s', rfl, h⟩
    refine ⟨s', rfl, ?_⟩
    rw [show o + q + 1 - o = q + 1 by omega, List.take_add_one]
    simpa [hq] using h
  · intro s hp
    apply hQ
    simpa using hp

/-- `for jj in p[i]..p[i+1]` processes the row's stored pairs in order. -/
theorem Ok_forRow {p j : List Int} {x : List T} {n : Nat} {R : Nat → List (Int × T)}
    (hr : Rep p j x n R) {i : Nat} (hi : i < n) {σ : Type} {s : σ} {f : Nat → σ → M (ForInStep σ)}
    {Q : σ → Prop} (P : List (Int × T) → σ → Prop) (h0 : P [] s)
    (hs : ∀ pre e suf s, R i = pre ++ e :: suf → P pre s →
      j[(flat R i).length + pre.length]? = some e.1 →
      x[(flat R i).length + pre.length]? = some e.2 →
      Ok (f ((flat R i).length + pre.length) s) (fun st => ∃ s', st = .yield s' ∧ P (pre ++ [e]) s'))
    (hQ : ∀ s, P (R i) s → Q s) :
    Ok (forIn (rng (flat R i).length ((flat R i).length + (R i).length)) s f) Q := by
  refine Ok_forOff (E := R i) rfl P h0 ?_ hQ
  intro pre e suf s hE hp
  have hg := hr.get hi (e := e) (m := pre.length) (by rw [hE]; simp)
  exact hs pre e suf s hE hp hg.1 hg.2

end

/-- simplification after `wp`: resolve array reads whose value is known -/
macro "rds" "[" h:Lean.Parser.Tactic.simpLemma,* "]" : tactic =>
  `(tactic| simp only [$h,*, Option.some.injEq, exists_eq_left', Int.toNat_natCast,
      Int.natCast_nonneg, true_and, and_true])

end Sparse

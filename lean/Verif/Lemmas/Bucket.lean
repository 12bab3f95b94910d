import Verif.Lemmas.Rows
/-! The stable bucket distribution shared by `coo_tocsr` and `csr_tocsc`. -/
namespace Sparse

section
variable {T : Type} {α : Type}

/-- the payloads of the items with key `k`, in their original order -/
def bucket (E : List (Nat × α)) (k : Nat) : List α :=
  (E.filter fun e => decide (e.1 = k)).map (·.2)

@[simp] theorem bucket_nil (k : Nat) : bucket ([] : List (Nat × α)) k = [] := rfl

theorem bucket_append (E F : List (Nat × α)) (k : Nat) :
    bucket (E ++ F) k = bucket E k ++ bucket F k := by simp [bucket]

theorem bucket_single (e : Nat × α) (k : Nat) :
    bucket [e] k = if e.1 = k then [e.2] else [] := by
  unfold bucket; split <;> simp_all

theorem bucket_cons (e : Nat × α) (E : List (Nat × α)) (k : Nat) :
    bucket (e :: E) k = (if e.1 = k then [e.2] else []) ++ bucket E k := by
  rw [← bucket_single, ← bucket_append]; rfl

theorem countP_lt_succ (E : List (Nat × α)) (n : Nat) :
    E.countP (fun e => decide (e.1 < n + 1)) =
      E.countP (fun e => decide (e.1 < n)) + (bucket E n).length := by
  induction E with
  | nil => simp
  | cons e E ih =>
    rw [bucket_cons, List.countP_cons, List.countP_cons, ih]
    rcases Nat.lt_trichotomy e.1 n with h | h | h
    · have : e.1 < n + 1 := by omega
      have h2 : e.1 ≠ n := by omega
      simp [h, this, h2]; omega
    · simp [h]; omega
    · have h1 : ¬ e.1 < n + 1 := by omega
      have h2 : ¬ e.1 < n := by omega
      have h3 : e.1 ≠ n := by omega
      simp [h2, h3]; omega

theorem flat_bucket_length (E : List (Nat × α)) (n : Nat) :
    (flat (bucket E) n).length = E.countP (fun e => decide (e.1 < n)) := by
  induction n with
  | zero => simp
  | succ n ih => rw [flat_length_succ, ih, countP_lt_succ]

theorem flat_bucket_length_le (E : List (Nat × α)) (n : Nat) :
    (flat (bucket E) n).length ≤ E.length := by
  rw [flat_bucket_length]; exact List.countP_le_length

theorem flat_bucket_length_eq {E : List (Nat × α)} {n : Nat} (h : ∀ e ∈ E, e.1 < n) :
    (flat (bucket E) n).length = E.length := by
  rw [flat_bucket_length, List.countP_eq_length]
  simpa using h

theorem bucket_prefix_length {pre E : List (Nat × α)} (h : pre <+: E) (k : Nat) :
    (bucket pre k).length ≤ (bucket E k).length := by
  obtain ⟨s, rfl⟩ := h
  rw [bucket_append]; simp

theorem set_get_eq {l : List α} {i : Nat} {v : α} (h : i < l.length) : (l.set i v)[i]? = some v := by
  simp [h]

theorem set_get_ne {l : List α} {i k : Nat} {v : α} (h : i ≠ k) : (l.set i v)[k]? = l[k]? := by
  rw [List.getElem?_set_ne h]

/-- values of an `Int` array described by a function on `Nat` -/
def ArrN (p : List Int) (n : Nat) (c : Nat → Nat) : Prop := ∀ k ≤ n, p[k]? = some (c k : Int)

theorem count_loop_ok {t : IntTy} {key bp : List Int} {n : Nat} {E : List (Nat × α)}
    (hk : ∀ (i : Nat) (e : Nat × α), E[i]? = some e → key[i]? = some (e.1 : Int))
    (hE : ∀ e ∈ E, e.1 < n) (hlen : bp.length = n + 1) (h0 : ArrN bp n fun _ => 0)
    (hfit : (E.length : Int) ≤ t.hi) :
    Ok (count_loop t E.length key bp) fun r =>
      r.length = n + 1 ∧ ArrN r n fun k => (bucket E k).length := by
  unfold count_loop
  wp
  refine Ok_forOff (E := E) (by simp) (fun pre (bp : List Int) =>
    bp.length = n + 1 ∧ ArrN bp n fun k => (bucket pre k).length) ⟨hlen, by simpa using h0⟩ ?_ ?_
  · rintro pre e suf bp hpre ⟨hl, hp⟩
    have hmem : e ∈ E := by rw [hpre]; simp
    have hlt := hE e hmem
    have hkey := hk pre.length e (by rw [hpre]; simp)
    wp
    simp only [Nat.zero_add]
    have hcnt : (bucket pre e.1).length ≤ pre.length := by
      unfold bucket; rw [List.length_map]; exact List.length_filter_le _ _
    have hE' : E.length = pre.length + 1 + suf.length := by rw [hpre]; simp; omega
    rds [hkey, hp e.1 (by omega)]
    have hlo := t.lo_nonpos
    refine ⟨⟨by omega, by omega⟩, by omega, _, rfl, by simpa using hl, ?_⟩
    intro k hk'
    show _ = some (((bucket (pre ++ [e]) k).length : Nat) : Int)
    rw [bucket_append, bucket_single]
    by_cases hek : e.1 = k
    · subst hek
      rw [set_get_eq (by omega)]
      simp
    · rw [set_get_ne hek, hp k hk']
      simp [hek]
  · rintro bp ⟨hl, hp⟩
    exact ⟨hl, hp⟩

theorem cumsum_loop_ok {t : IntTy} {bp : List Int} {n : Nat} {R : Nat → List α}
    (hlen : bp.length = n + 1) (h0 : ArrN bp n fun k => (R k).length)
    (hfit : ((flat R n).length : Int) ≤ t.hi) :
    Ok (cumsum_loop t n bp) fun r =>
      r.length = n + 1 ∧ ∀ k < n, r[k]? = some ((flat R k).length : Int) := by
  unfold cumsum_loop
  wp
  refine Ok_forRange (fun i (s : List Int × Int) =>
    s.1.length = n + 1 ∧ s.2 = (flat R i).length ∧
    (∀ k < i, s.1[k]? = some ((flat R k).length : Int)) ∧
    (∀ k, i ≤ k → k ≤ n → s.1[k]? = some ((R k).length : Int))) (by omega)
    ⟨hlen, by simp, by simp, fun k _ hk => h0 k hk⟩ ?_ ?_
  · rintro i ⟨bp, cs⟩ - hi ⟨hl, hcs, h1, h2⟩
    simp only at hl hcs h1 h2
    wp
    rds [h2 i (le_refl _) (by omega)]
    have hm := flat_length_mono R (i := i + 1) (n := n) (by omega)
    rw [flat_length_succ] at hm
    have hlo := t.lo_nonpos
    refine ⟨by omega, ⟨by omega, by omega⟩, _, rfl, by simpa using hl, ?_, ?_, ?_⟩
    · simp only [flat_length_succ]; omega
    · intro k hk
      by_cases hki : i = k
      · subst hki; rw [set_get_eq (by omega), hcs]
      · rw [set_get_ne hki]; exact h1 k (by omega)
    · intro k hk1 hk2
      rw [set_get_ne (by omega)]; exact h2 k (by omega) hk2
  · rintro ⟨bp, cs⟩ ⟨hl, -, h1, -⟩
    exact ⟨hl, h1⟩

theorem shift_loop_ok {bp : List Int} {n : Nat} {F : Nat → Nat} (hF : F 0 = 0)
    (hlen : bp.length = n + 1) (h0 : ∀ k < n, bp[k]? = some (F (k + 1) : Int))
    (hn : bp[n]? = some (F n : Int)) :
    Ok (shift_loop n bp) fun r => r.length = n + 1 ∧ ArrN r n F := by
  unfold shift_loop
  wp
  refine Ok_forRange (fun i (s : List Int × Int) =>
    s.1.length = n + 1 ∧ (i ≤ n → s.2 = F i) ∧
    (∀ k < i, s.1[k]? = some (F k : Int)) ∧
    (∀ k, i ≤ k → k < n → s.1[k]? = some (F (k + 1) : Int)) ∧ (i ≤ n → s.1[n]? = some (F n : Int)))
    (by omega) ⟨hlen, by simp [hF], by simp, fun k _ hk => h0 k hk, fun _ => hn⟩ ?_ ?_
  · rintro i ⟨bp, last⟩ - hi ⟨hl, hlast, h1, h2, h3⟩
    simp only at hl hlast h1 h2 h3
    wp
    have hin : i ≤ n := by omega
    have hset : ∀ k < i + 1, (bp.set i last)[k]? = some (F k : Int) := by
      intro k hk
      by_cases hki : i = k
      · subst hki; rw [set_get_eq (by omega), hlast hin]
      · rw [set_get_ne hki]; exact h1 k (by omega)
    by_cases hlt : i < n
    · rds [h2 i (le_refl _) hlt]
      refine ⟨by omega, _, rfl, by simpa using hl, fun _ => rfl, hset, ?_, ?_⟩
      · intro k hk1 hk2
        rw [set_get_ne (by omega)]; exact h2 k (by omega) hk2
      · intro _; rw [set_get_ne (by omega)]; exact h3 hin
    · have : i = n := by omega
      subst this
      rds [h3 hin]
      refine ⟨by omega, _, rfl, by simpa using hl, by omega, hset, ?_, by omega⟩
      intro k hk1 hk2; omega
  · rintro ⟨bp, last⟩ ⟨hl, -, h1, -, -⟩
    exact ⟨hl, fun k hk => h1 k (by omega)⟩

/-- state of the scatter after the items `pre` of `E` have been placed -/
structure Sc (n lj lx : Nat) (E pre : List (Nat × (Int × T))) (bp bj : List Int) (bx : List T) : Prop where
  len : bp.length = n + 1
  lenj : E.length ≤ bj.length
  lenx : E.length ≤ bx.length
  ej : bj.length = lj
  ex : bx.length = lx
  ptr : ∀ k < n, bp[k]? = some (((flat (bucket E) k).length + (bucket pre k).length : Nat) : Int)
  last : bp[n]? = some (E.length : Int)
  dat : ∀ k < n, ∀ (m : Nat) (e : Int × T), (bucket pre k)[m]? = some e →
    bj[(flat (bucket E) k).length + m]? = some e.1 ∧ bx[(flat (bucket E) k).length + m]? = some e.2

/-- position `flat k + m` determines the bucket and the offset -/
theorem flat_pos_inj {R : Nat → List α} {k k' m m' : Nat} (h : (flat R k).length + m = (flat R k').length + m')
    (hm : m < (R k).length) (hm' : m' < (R k').length) : k = k' ∧ m = m' := by
  rcases Nat.lt_trichotomy k k' with h1 | h1 | h1
  · have := flat_length_mono R (i := k + 1) (n := k') h1
    rw [flat_length_succ] at this; omega
  · subst h1; exact ⟨rfl, by omega⟩
  · have := flat_length_mono R (i := k' + 1) (n := k) h1
    rw [flat_length_succ] at this; omega

theorem Sc.step {n lj lx : Nat} {E pre suf : List (Nat × (Int × T))} {e : Nat × (Int × T)}
    {bp bj : List Int} {bx : List T}
    (h : Sc n lj lx E pre bp bj bx) (hE : E = pre ++ e :: suf) (hlt : e.1 < n) (hall : ∀ e ∈ E, e.1 < n)
    {dest : Nat} (hd : dest = (flat (bucket E) e.1).length + (bucket pre e.1).length) :
    dest < E.length ∧
    Sc n lj lx E (pre ++ [e]) (bp.set e.1 ((dest : Int) + 1)) (bj.set dest e.2.1) (bx.set dest e.2.2) := by
  have hbE : ∀ k, bucket E k = bucket pre k ++ bucket [e] k ++ bucket suf k := by
    intro k; rw [hE, ← bucket_append, ← bucket_append]; simp
  have hblt : (bucket pre e.1).length < (bucket E e.1).length := by
    rw [hbE, bucket_single]; simp
  have hdl : dest < E.length := by
    have h1 := flat_length_mono (bucket E) (i := e.1 + 1) (n := n) hlt
    rw [flat_length_succ, flat_bucket_length_eq hall] at h1
    omega
  have hlj := h.lenj
  have hlx := h.lenx
  have hl := h.len
  refine ⟨hdl, ⟨by simpa using hl, by simpa using hlj, by simpa using hlx, by simpa using h.ej, by simpa using h.ex, ?_, ?_, ?_⟩⟩
  · intro k hk
    rw [bucket_append, bucket_single]
    by_cases hek : e.1 = k
    · subst hek
      rw [set_get_eq (by omega), hd]
      simp; omega
    · rw [set_get_ne hek, h.ptr k hk]; simp [hek]
  · rw [set_get_ne (by omega)]; exact h.last
  · intro k hk m d hm
    have hmlen : m < (bucket E k).length := by
      have h1 : m < (bucket (pre ++ [e]) k).length := by
        rw [List.getElem?_eq_some_iff] at hm; exact hm.1
      have h2 := bucket_prefix_length (pre := pre ++ [e]) (E := E) ⟨suf, by rw [hE]; simp⟩ k
      omega
    rw [bucket_append, bucket_single] at hm
    by_cases hek : e.1 = k
    · subst hek
      simp only [if_true] at hm
      by_cases hm1 : m < (bucket pre e.1).length
      · rw [List.getElem?_append_left hm1] at hm
        have := h.dat _ hk m d hm
        rw [set_get_ne (by omega), set_get_ne (by omega)]
        exact this
      · rw [List.getElem?_append_right (by omega)] at hm
        have hm2 : m = (bucket pre e.1).length := by
          rw [List.getElem?_eq_some_iff] at hm
          have := hm.1; simp at this; omega
        subst hm2
        simp at hm
        subst hm
        rw [← hd, set_get_eq (by omega), set_get_eq (by omega)]
        exact ⟨rfl, rfl⟩
    · simp only [hek, if_false, List.append_nil] at hm
      have := h.dat k hk m d hm
      have hne : dest ≠ (flat (bucket E) k).length + m := by
        intro heq
        rw [hd] at heq
        exact hek (flat_pos_inj heq hblt hmlen).1
      rw [set_get_ne hne, set_get_ne hne]
      exact this

theorem Sc.init {n : Nat} {E : List (Nat × (Int × T))} {bp bj : List Int} {bx : List T}
    (hlen : bp.length = n + 1) (hj : E.length ≤ bj.length) (hx : E.length ≤ bx.length)
    (hp : ∀ k < n, bp[k]? = some ((flat (bucket E) k).length : Int)) :
    Sc n bj.length bx.length E [] (bp.set n (E.length : Int)) bj bx := by
  refine ⟨by simpa using hlen, hj, hx, rfl, rfl, ?_, set_get_eq (by omega), ?_⟩
  · intro k hk
    rw [set_get_ne (by omega), hp k hk]; simp
  · intro k hk m e h; simp at h

theorem Sc.final {n lj lx : Nat} {E : List (Nat × (Int × T))} {bp bj : List Int} {bx : List T}
    (h : Sc n lj lx E E bp bj bx) (hall : ∀ e ∈ E, e.1 < n) :
    Ok (shift_loop n bp) fun r => Rep r bj bx n (bucket E) := by
  refine (shift_loop_ok (F := fun k => (flat (bucket E) k).length) (by simp) h.len ?_ ?_).mono ?_
  · intro k hk
    rw [h.ptr k hk, flat_length_succ]
  · rw [h.last, flat_bucket_length_eq hall]
  · rintro r ⟨hl, hr⟩
    refine ⟨hl, hr, ?_⟩
    rw [isPrefix_iff_get]
    intro k e he
    have hk : k < (flat (bucket E) n).length := by
      rw [List.getElem?_eq_some_iff] at he; exact he.1
    obtain ⟨i, m, hi, hm, rfl⟩ := flat_locate hk
    have h1 : (bucket E i)[m]? = some (bucket E i)[m] := by simp
    rw [flat_getElem? hi h1] at he
    simp at he
    subst he
    rw [zip_get]
    exact h.dat i hi m _ h1

theorem map_zero_arr (b : List Int) (n : Nat) (h : b.length = n + 1) :
    ArrN (b.map fun _ => (0 : Int)) n fun _ => 0 := by
  intro k hk
  have : k < b.length := by omega
  simp [this]

/-- `coo_tocsr` distributes the triplets stably into rows. -/
theorem coo_tocsr_ok {t : IntTy} {n : Nat} {a_i a_j : List Int} {a_x : List T}
    {bp bj : List Int} {bx : List T} {E : List (Nat × (Int × T))}
    (hi : ∀ (k : Nat) e, E[k]? = some e →
      a_i[k]? = some (e.1 : Int) ∧ a_j[k]? = some e.2.1 ∧ a_x[k]? = some e.2.2)
    (hall : ∀ e ∈ E, e.1 < n) (hfit : (E.length : Int) ≤ t.hi)
    (hp : bp.length = n + 1) (hj : E.length ≤ bj.length) (hx : E.length ≤ bx.length) :
    Ok (coo_tocsr t n E.length a_i a_j a_x bp bj bx) fun r => Rep r.1 r.2.1 r.2.2 n (bucket E) ∧
      r.2.1.length = bj.length ∧ r.2.2.length = bx.length := by
  unfold coo_tocsr
  wp
  refine (count_loop_ok (E := E) (fun k e h => (hi k e h).1) hall (by simpa using hp)
    (map_zero_arr bp n hp) hfit).mono ?_
  rintro b1 ⟨hl1, hb1⟩
  refine (cumsum_loop_ok (R := bucket E) hl1 hb1
    (by rw [flat_bucket_length_eq hall]; exact hfit)).mono ?_
  rintro b2 ⟨hl2, hb2⟩
  refine ⟨hfit, by omega, ?_⟩
  have hsc := Sc.init (E := E) (n := n) hl2 hj hx hb2
  unfold coo_scatter
  wp
  refine Ok_forOff (E := E) (by simp) (fun pre (s : List Int × List Int × List T) =>
    Sc n bj.length bx.length E pre s.1 s.2.1 s.2.2) hsc ?_ ?_
  · rintro pre e suf ⟨bp, bj, bx⟩ hpre h
    simp only at h
    have hmem : e ∈ E := by rw [hpre]; simp
    have hlt := hall e hmem
    obtain ⟨g1, g2, g3⟩ := hi pre.length e (by rw [hpre]; simp)
    obtain ⟨hd, hst⟩ := h.step hpre hlt hall rfl
    wp
    simp only [Nat.zero_add]
    rds [g1, g2, g3, h.ptr e.1 hlt]
    have := h.lenj
    have := h.lenx
    have := h.len
    have := t.lo_nonpos
    refine ⟨by omega, by omega, ⟨by omega, by omega⟩, by omega, _, rfl, ?_⟩
    exact hst
  · rintro ⟨bp, bj, bx⟩ h
    exact (h.final hall).mono fun r hr => ⟨hr, h.ej, h.ex⟩

/-- the items of a row-list, tagged for distribution by column: `(column, (row, value))` -/
def colItems (R : Nat → List (Int × T)) (n : Nat) : List (Nat × (Int × T)) :=
  flat (fun i => (R i).map fun e => (e.1.toNat, ((i : Int), e.2))) n

/-- the columns of a row-list -/
def colsOf (R : Nat → List (Int × T)) (n : Nat) : Nat → List (Int × T) := bucket (colItems R n)

theorem colItems_succ (R : Nat → List (Int × T)) (n : Nat) :
    colItems R (n + 1) = colItems R n ++ (R n).map fun e => (e.1.toNat, ((n : Int), e.2)) :=
  flat_succ _ _

theorem colItems_length (R : Nat → List (Int × T)) (n : Nat) :
    (colItems R n).length = (flat R n).length := by
  induction n with
  | zero => simp [colItems]
  | succ n ih => rw [colItems_succ, flat_succ]; simp [ih]

theorem colItems_get {R : Nat → List (Int × T)} {n : Nat} {k : Nat} {e : Nat × (Int × T)}
    (h : (colItems R n)[k]? = some e) : ∃ d, (flat R n)[k]? = some d ∧ d.1.toNat = e.1 ∧ d.2 = e.2.2 := by
  induction n with
  | zero => simp [colItems] at h
  | succ n ih =>
    rw [colItems_succ] at h
    rw [flat_succ]
    rcases Nat.lt_or_ge k (colItems R n).length with hk | hk
    · rw [List.getElem?_append_left hk] at h
      rw [List.getElem?_append_left (by rw [← colItems_length]; exact hk)]
      exact ih h
    · rw [List.getElem?_append_right hk] at h
      rw [List.getElem?_append_right (by rw [← colItems_length]; exact hk), ← colItems_length]
      rw [List.getElem?_map] at h
      cases hh : (R n)[k - (colItems R n).length]? with
      | none => rw [hh] at h; simp at h
      | some d =>
        rw [hh] at h
        simp at h
        subst h
        exact ⟨d, rfl, rfl, rfl⟩

/-- `csr_tocsc` distributes the rows stably into columns. -/
theorem csr_tocsc_ok {t : IntTy} {n m : Nat} {p j : List Int} {x : List T} {R : Nat → List (Int × T)}
    {bp bj : List Int} {bx : List T} (hr : Rep p j x n R)
    (hm : ∀ i < n, ∀ e ∈ R i, 0 ≤ e.1 ∧ e.1 < m) (hfit : ((flat R n).length : Int) ≤ t.hi)
    (hn : (n : Int) ≤ t.hi + 1)
    (hp : bp.length = m + 1) (hj : (flat R n).length ≤ bj.length)
    (hx : (flat R n).length ≤ bx.length) :
    Ok (csr_tocsc t n m p j x bp bj bx) fun r => Rep r.1 r.2.1 r.2.2 m (colsOf R n) ∧
      r.2.1.length = bj.length ∧ r.2.2.length = bx.length := by
  have hall : ∀ e ∈ colItems R n, e.1 < m := by
    intro e he
    unfold colItems at he
    rw [mem_flat] at he
    obtain ⟨i, hi, he⟩ := he
    rw [List.mem_map] at he
    obtain ⟨d, hd, rfl⟩ := he
    have := hm i hi d hd
    simp only; omega
  have hEl := colItems_length R n
  unfold csr_tocsc
  wp
  rds [hr.ptr n (le_refl _)]
  rw [← hEl]
  refine (count_loop_ok (E := colItems R n) ?_ hall (by simpa using hp)
    (map_zero_arr bp m hp) (by rw [hEl]; exact hfit)).mono ?_
  · intro k e he
    obtain ⟨d, hd, h1, -⟩ := colItems_get he
    have hz := isPrefix_iff_get.1 hr.pre _ _ hd
    rw [zip_get] at hz
    rw [hz.1, ← h1]
    obtain ⟨i, hi, hdm⟩ := mem_flat.1 (List.mem_of_getElem? hd)
    have := hm i hi d hdm
    congr 1; omega
  rintro b1 ⟨hl1, hb1⟩
  refine (cumsum_loop_ok (R := bucket (colItems R n)) hl1 hb1
    (by rw [flat_bucket_length_eq hall, hEl]; exact hfit)).mono ?_
  rintro b2 ⟨hl2, hb2⟩
  refine ⟨by omega, ?_⟩
  have hsc := Sc.init (E := colItems R n) (n := m) hl2 (by rw [hEl]; exact hj) (by rw [hEl]; exact hx) hb2
  generalize bj.length = lj at *
  generalize bx.length = lx at *
  unfold csr_scatter
  wp
  refine Ok_forRange (fun i (s : List Int × List Int × List T) =>
    Sc m lj lx (colItems R n) (colItems R i) s.1 s.2.1 s.2.2) (by omega) (by simpa [colItems] using hsc) ?_ ?_
  · rintro i ⟨bp, bj, bx⟩ - hi h
    simp only at h
    wp
    rds [hr.ptr i (by omega), hr.ptr_succ hi]
    refine Ok_forRow hr hi (fun pre (s : List Int × List Int × List T) =>
      Sc m lj lx (colItems R n) (colItems R i ++ pre.map fun e => (e.1.toNat, ((i : Int), e.2)))
        s.1 s.2.1 s.2.2) (by simpa using h) ?_ ?_
    · rintro pre e suf ⟨bp, bj, bx⟩ hpre h g1 g2
      simp only at h
      have hmem : e ∈ R i := by rw [hpre]; simp
      have hem := hm i hi e hmem
      obtain ⟨s2, hs2⟩ : colItems R (i + 1) <+: colItems R n := flat_prefix _ hi
      rw [colItems_succ, hpre] at hs2
      have hpre' : colItems R n = (colItems R i ++ pre.map fun e => (e.1.toNat, ((i : Int), e.2))) ++
          (e.1.toNat, ((i : Int), e.2)) :: (suf.map (fun e => (e.1.toNat, ((i : Int), e.2))) ++ s2) := by
        rw [← hs2]; simp
      have hlt : e.1.toNat < m := by omega
      obtain ⟨hd, hst⟩ := h.step hpre' hlt hall rfl
      simp only at hd
      wp
      rds [g1, g2, h.ptr e.1.toNat hlt]
      have := h.lenj
      have := h.lenx
      have := h.len
      have := t.lo_nonpos
      refine ⟨by omega, by omega, by omega, by omega, ⟨by omega, by omega⟩, by omega, _, rfl, ?_⟩
      simpa using hst
    · rintro ⟨bp, bj, bx⟩ h
      refine ⟨_, rfl, ?_⟩
      simpa [colItems_succ] using h
  · rintro ⟨bp, bj, bx⟩ h
    exact (h.final hall).mono fun r hr => ⟨hr, h.ej, h.ex⟩

end
end Sparse

import Verif.Props.Text
import Verif.Props.Diagram
import Std.Data.String.ToInt
/-! Property C95: the text written by `to_string` can be read back. -/
namespace Sparse

section
variable {T : Type}

/-! ### Specification -/

/-- reads one line `(i, j) v`; `rd` reads a scalar -/
def readEntry (rd : List Char → Option T) : List Char → Option (Int × Int × T)
  | '(' :: s =>
    match s.span (· ≠ ',') with
    | (i, ',' :: ' ' :: s) =>
      match s.span (· ≠ ')') with
      | (j, ')' :: ' ' :: v) => do
        return (← (String.ofList i).toInt?, ← (String.ofList j).toInt?, ← rd v)
      | _ => none
    | _ => none
  | _ => none

/-- reads a text: one entry from every line that is not empty -/
def readText (rd : List Char → Option T) (s : List Char) : Option (List (Int × Int × T)) :=
  ((s.splitOn '\n').filter fun l => !l.isEmpty).mapM (readEntry rd)

/-- `rd` reads what `disp` writes, and `disp` writes no line break -/
structure Legible (disp : T → List Char) (rd : List Char → Option T) : Prop where
  reads : ∀ v, rd (disp v) = some v
  line : ∀ v, '\n' ∉ disp v

/-- the coordinate matrix with the given entries -/
def cooOf (rows cols : Nat) (L : List (Int × Int × T)) : Coo T :=
  ⟨rows, cols, L.map (·.1), L.map (·.2.1), L.map (·.2.2)⟩

/-! ### Lemmas -/

theorem dec_chars (z : Int) : ∀ c ∈ (toString z).toList, c.isDigit = true ∨ c = '-' := by
  intro c hc
  have h : toString z = z.repr := rfl
  rw [h, Int.repr_eq_if] at hc
  have hd : ∀ n : Nat, c ∈ n.repr.toList → c.isDigit = true := by
    intro n hn
    rw [Nat.repr_eq_ofList_toDigits, String.toList_ofList] at hn
    exact Nat.isDigit_of_mem_toDigits (by omega) (by omega) hn
  split at hc
  · exact .inl (hd _ hc)
  · rw [String.toList_append, List.mem_append] at hc
    rcases hc with hc | hc
    · exact .inr (by simpa using hc)
    · exact .inl (hd _ hc)

theorem span_stop {α : Type} {p : α → Bool} (l : List α) (h : ∀ c ∈ l, p c = true) (a : α) (ha : p a = false)
    (r : List α) : (l ++ a :: r).span p = (l, a :: r) := by
  rw [List.span_eq_takeWhile_dropWhile, List.takeWhile_append_of_pos h, List.dropWhile_append_of_pos h,
    List.takeWhile_cons_of_neg (by simp [ha]), List.dropWhile_cons_of_neg (by simp [ha]), List.append_nil]

theorem readEntry_line {disp : T → List Char} {rd : List Char → Option T} (e : Int × Int × T)
    (h : rd (disp e.2.2) = some e.2.2) : readEntry rd (entryLine disp e) = some e := by
  obtain ⟨i, j, v⟩ := e
  have hp : ∀ (z : Int) (x : Char), x.isDigit = false → x ≠ '-' →
      ∀ c ∈ (toString z).toList, (decide (c ≠ x)) = true := by
    intro z x hx hx2 c hc
    rcases dec_chars z c hc with h1 | rfl
    · simp only [ne_eq, decide_eq_true_eq]
      rintro rfl
      simp [hx] at h1
    · simpa using fun h => hx2 h.symm
  have h1 := span_stop (p := fun c => decide (c ≠ ',')) _ (hp i ',' (by decide) (by decide)) ',' (by decide)
    (' ' :: ((toString j).toList ++ ')' :: ' ' :: disp v))
  have h2 := span_stop (p := fun c => decide (c ≠ ')')) _ (hp j ')' (by decide) (by decide)) ')' (by decide)
    (' ' :: disp v)
  have hl : entryLine disp (i, j, v) =
      '(' :: ((toString i).toList ++ ',' :: ' ' :: ((toString j).toList ++ ')' :: ' ' :: disp v)) := by
    simp [entryLine]
  have hi : ∀ z : Int, (String.ofList (toString z).toList).toInt? = some z := by
    intro z
    rw [String.ofList_toList]
    exact Int.toInt?_repr z
  rw [hl]
  unfold readEntry
  simp only [h1, h2, hi]
  simp [h]

theorem entryLine_line {disp : T → List Char} (e : Int × Int × T) (h : '\n' ∉ disp e.2.2) :
    '\n' ∉ entryLine disp e := by
  have hd : ∀ z : Int, '\n' ∉ (toString z).toList := by
    intro z hz
    rcases dec_chars z _ hz with h | h <;> revert h <;> decide
  simp only [entryLine, List.mem_append, not_or]
  exact ⟨⟨⟨⟨⟨by decide, hd _⟩, by decide⟩, hd _⟩, by decide⟩, h⟩

theorem joinLines_intercalate (ls : List (List Char)) : joinLines ls = ['\n'].intercalate ls := by
  match ls with
  | [] => rfl
  | [l] => simp [joinLines]
  | l :: m :: ls =>
    rw [joinLines, joinLines_intercalate (m :: ls)]
    simp [List.intercalate]

theorem mapM_some {α β : Type} {f : α → Option β} {g : β → α} (L : List β) (h : ∀ x ∈ L, f (g x) = some x) :
    (L.map g).mapM f = some L := by
  induction L with
  | nil => rfl
  | cons x L ih =>
    rw [List.map_cons, List.mapM_cons, h x (by simp), ih fun y hy => h y (by simp [hy])]
    rfl

theorem filter_lines {disp : T → List Char} (L : List (Int × Int × T)) :
    ((L.map (entryLine disp)).filter fun l => !l.isEmpty) = L.map (entryLine disp) := by
  rw [List.filter_eq_self]
  intro l hl
  obtain ⟨e, -, rfl⟩ := List.mem_map.1 hl
  simpa [List.isEmpty_iff] using entryLine_ne disp e

theorem readText_join {disp : T → List Char} {rd : List Char → Option T} (L : List (Int × Int × T))
    (h : ∀ e ∈ L, rd (disp e.2.2) = some e.2.2 ∧ '\n' ∉ disp e.2.2) :
    readText rd (joinLines (L.map (entryLine disp))) = some L := by
  unfold readText
  by_cases hL : L = []
  · subst hL
    rfl
  · rw [joinLines_intercalate, List.splitOn_intercalate _ _ (by simpa using hL), filter_lines]
    · exact mapM_some L fun e he => readEntry_line e (h e he).1
    · intro l hl
      obtain ⟨e, he, rfl⟩ := List.mem_map.1 hl
      exact entryLine_line e (h e he).2

theorem ended_lines {disp : T → List Char} (L : List (Int × Int × T)) :
    (L.flatMap fun e => entryLine disp e ++ ['\n']) = joinLines (L.map (entryLine disp) ++ [[]]) := by
  induction L with
  | nil => rfl
  | cons e L ih =>
    rw [List.flatMap_cons, ih]
    cases L with
    | nil => simp [joinLines]
    | cons f L => simp [joinLines]

theorem readText_ended {disp : T → List Char} {rd : List Char → Option T} (L : List (Int × Int × T))
    (h : ∀ e ∈ L, rd (disp e.2.2) = some e.2.2 ∧ '\n' ∉ disp e.2.2) :
    readText rd (L.flatMap fun e => entryLine disp e ++ ['\n']) = some L := by
  unfold readText
  rw [ended_lines, joinLines_intercalate, List.splitOn_intercalate _ _ (by simp), List.filter_append, filter_lines]
  · simpa using mapM_some L fun e he => readEntry_line e (h e he).1
  · intro l hl
    rcases List.mem_append.1 hl with hl | hl
    · obtain ⟨e, he, rfl⟩ := List.mem_map.1 hl
      exact entryLine_line e (h e he).2
    · simp [List.mem_singleton.1 hl]

theorem Coo.ofTriples {t : IntTy} {a : Coo T} (ha : a.WF t) : cooOf a.rows a.cols a.triples = a := by
  have h1 := ha.lenr
  have h2 := ha.lenc
  have e1 : a.triples.map (·.1) = a.rowidx :=
    List.map_fst_zip (by rw [List.length_zip]; omega)
  have e0 : a.triples.map (·.2) = a.colidx.zip a.values :=
    List.map_snd_zip (by rw [List.length_zip]; omega)
  have e2 : a.triples.map (·.2.1) = a.colidx := by
    rw [show (fun e : Int × Int × T => e.2.1) = Prod.fst ∘ Prod.snd from rfl, ← List.map_map, e0]
    exact List.map_fst_zip (by omega)
  have e3 : a.triples.map (·.2.2) = a.values := by
    rw [show (fun e : Int × Int × T => e.2.2) = Prod.snd ∘ Prod.snd from rfl, ← List.map_map, e0]
    exact List.map_snd_zip (by omega)
  unfold cooOf
  rw [e1, e2, e3]

/-- decimal integers are legible -/
theorem legible_int : Legible (fun z : Int => (toString z).toList) fun s => (String.ofList s).toInt? where
  reads v := by
    rw [String.ofList_toList]
    exact Int.toInt?_repr v
  line v hv := by
    rcases dec_chars v _ hv with h | h <;> revert h <;> decide

/-! ### C95 -/

/-- C95 (coordinate format). Reading the text back gives the stored entries in storage order, and with the shape the
very same matrix. -/
theorem C95_coo (disp : T → List Char) (rd : List Char → Option T) (hd : Legible disp rd) (t : IntTy) (a : Coo T)
    (ha : a.WF t) :
    ∃ s, a.to_string disp = .ok s ∧ readText rd s = some a.triples ∧
      (readText rd s).map (cooOf a.rows a.cols) = some a := by
  have h := readText_join (disp := disp) (rd := rd) a.triples fun e _ => ⟨hd.reads _, hd.line _⟩
  refine ⟨_, C49_coo_to_string disp t a ha, h, ?_⟩
  rw [h, Option.map_some, Coo.ofTriples ha]

/-- C95 (CSR). Reading the text back gives the stored entries in storage order. Built from them as a coordinate matrix
and converted to CSR, the result is the one of `sum_duplicates`, and the original matrix if that was canonical. -/
theorem C95_csr [Zero T] [Add T] (disp : T → List Char) (rd : List Char → Option T) (hd : Legible disp rd) (t : IntTy)
    (a : CSR T) (ha : a.WF t) (hr : (a.rows : Int) ≤ t.hi + 1) (hj : a.colidx.length = a.stored)
    (hx : a.values.length = a.stored) (hn : (a.stored : Int) < t.hi) :
    ∃ s r, a.to_string disp = .ok s ∧ readText rd s = some a.triples ∧
      (cooOf a.rows a.cols a.triples).to_csr t = .ok r ∧ a.sum_duplicates t = .ok r ∧ (a.Canonical → r = a) := by
  have h := readText_ended (disp := disp) (rd := rd) a.triples fun e _ => ⟨hd.reads _, hd.line _⟩
  obtain ⟨c, c1, c2, c3, c4, c5, c6, c7⟩ := C53_csr_to_coo t a ha hr hj hx
  obtain ⟨c', r, -, -, k1, k2, k3, k4, -⟩ := C61_csr_coo t a ha hr hj hx hn
  rw [c1] at k1
  cases k1
  refine ⟨_, r, C49_csr_to_string disp t a ha, h, ?_, k3, k4⟩
  rw [← c6, ← c3, ← c4, Coo.ofTriples c2]
  exact k2

/-- C95 (CSC). -/
theorem C95_csc [Zero T] [Add T] (disp : T → List Char) (rd : List Char → Option T) (hd : Legible disp rd) (t : IntTy)
    (a : CSC T) (ha : a.WF t) (hc : (a.cols : Int) ≤ t.hi + 1) (hj : a.rowidx.length = a.stored)
    (hx : a.values.length = a.stored) (hn : (a.stored : Int) < t.hi) :
    ∃ s r, a.to_string disp = .ok s ∧ readText rd s = some a.triples ∧
      (cooOf a.rows a.cols a.triples).to_csc t = .ok r ∧ a.sum_duplicates t = .ok r ∧ (a.Canonical → r = a) := by
  have h := readText_join (disp := disp) (rd := rd) a.triples fun e _ => ⟨hd.reads _, hd.line _⟩
  obtain ⟨c, c1, c2, c3, c4, c5, c6, c7⟩ := C53_csc_to_coo t a ha hc
  obtain ⟨c', r, -, -, k1, k2, k3, k4, -⟩ := C61_csc_coo t a ha hc hj hx hn
  rw [c1] at k1
  cases k1
  refine ⟨_, r, C49_csc_to_string disp t a ha, h, ?_, k3, k4⟩
  rw [← c6, ← c3, ← c4, Coo.ofTriples c2]
  exact k2

/-- C95 (DoK). Whatever order the map enumerates its entries in, reading the text back gives exactly one entry for every
position whose element is not zero, with that element as its value. -/
theorem C95_dok [AddCommMonoid T] [Sub T] [DecidableEq T] (disp : T → List Char) (rd : List Char → Option T)
    (hd : Legible disp rd) (t : IntTy) (d : DoK T) (hr : d.Reachable t) (es : KMap T) (hes : es.Perm d.values) :
    ∃ s L, d.to_string disp es = .ok s ∧ readText rd s = some L ∧ (L.map fun e => (e.1, e.2.1)).Nodup ∧
      ∀ i j v, (i, j, v) ∈ L ↔ v ≠ 0 ∧ d.get i j = v := by
  obtain ⟨K, k1, k2, k3⟩ := C49_dok_to_string disp t d hr es hes
  have e : (K.map fun k => entryLine disp (k.1, k.2, d.get k.1 k.2)) =
      (K.map fun k => (k.1, k.2, d.get k.1 k.2)).map (entryLine disp) := by
    rw [List.map_map]
    rfl
  rw [e] at k3
  refine ⟨_, _, k3, readText_join _ fun e _ => ⟨hd.reads _, hd.line _⟩, ?_, fun i j v => ?_⟩
  · rw [List.map_map]
    simpa [Function.comp_def] using k1
  · rw [List.mem_map]
    constructor
    · rintro ⟨⟨i', j'⟩, hk, h⟩
      cases h
      exact ⟨(k2 _ _).1 hk, rfl⟩
    · rintro ⟨h1, rfl⟩
      exact ⟨(i, j), (k2 i j).2 h1, rfl⟩

/-- C95. Two matrices of the same format that print the same text store the same entries in the same order. -/
theorem C95_injective (disp : T → List Char) (rd : List Char → Option T) (hd : Legible disp rd) (t : IntTy) :
    (∀ a b : Coo T, a.WF t → b.WF t → a.rows = b.rows → a.cols = b.cols → a.to_string disp = b.to_string disp → a = b) ∧
    (∀ a b : CSR T, a.WF t → b.WF t → a.to_string disp = b.to_string disp → a.triples = b.triples) ∧
    (∀ a b : CSC T, a.WF t → b.WF t → a.to_string disp = b.to_string disp → a.triples = b.triples) := by
  refine ⟨fun a b ha hb hr hc h => ?_, fun a b ha hb h => ?_, fun a b ha hb h => ?_⟩
  · rw [C49_coo_to_string disp t a ha, C49_coo_to_string disp t b hb] at h
    have h2 := congrArg (readText rd) (Except.ok.inj h)
    rw [readText_join _ fun e _ => ⟨hd.reads _, hd.line _⟩, readText_join _ fun e _ => ⟨hd.reads _, hd.line _⟩] at h2
    rw [← Coo.ofTriples ha, ← Coo.ofTriples hb, Option.some.inj h2, hr, hc]
  · rw [C49_csr_to_string disp t a ha, C49_csr_to_string disp t b hb] at h
    have h2 := congrArg (readText rd) (Except.ok.inj h)
    rw [readText_ended _ fun e _ => ⟨hd.reads _, hd.line _⟩, readText_ended _ fun e _ => ⟨hd.reads _, hd.line _⟩] at h2
    exact Option.some.inj h2
  · rw [C49_csc_to_string disp t a ha, C49_csc_to_string disp t b hb] at h
    have h2 := congrArg (readText rd) (Except.ok.inj h)
    rw [readText_join _ fun e _ => ⟨hd.reads _, hd.line _⟩, readText_join _ fun e _ => ⟨hd.reads _, hd.line _⟩] at h2
    exact Option.some.inj h2

/-- the text of two entries, one with a negative value, read back -/
example : readText (fun s => (String.ofList s).toInt?)
    ("(0, 1) -5".toList ++ ['\n'] ++ "(12, 0) 37".toList) = some [(0, 1, -5), (12, 0, 37)] := by
  have h := readText_join (disp := fun z : Int => (toString z).toList) (rd := fun s => (String.ofList s).toInt?) [(0, 1, -5), (12, 0, 37)]
    fun e _ => ⟨legible_int.reads _, legible_int.line _⟩
  have e : joinLines ([((0 : Int), (1 : Int), (-5 : Int)), (12, 0, 37)].map (entryLine fun z : Int => (toString z).toList)) =
    "(0, 1) -5".toList ++ ['\n'] ++ "(12, 0) 37".toList := by decide +kernel
  rw [← e]
  exact h

/-- the integers meet the hypothesis on the scalars, and this matrix the ones on the matrix -/
example : Legible (fun z : Int => (toString z).toList) (fun s => (String.ofList s).toInt?) ∧
    (let a : CSR Int := ⟨2, 3, [0, 1, 3], [2, 0, 1], [4, -7, 0]⟩
     a.WF .u8 ∧ (a.rows : Int) ≤ IntTy.u8.hi + 1 ∧ a.colidx.length = a.stored ∧ a.values.length = a.stored ∧
       (a.stored : Int) < IntTy.u8.hi) :=
  ⟨legible_int, wfptr_of_wfb (by decide), by decide, by decide, by decide, by decide⟩

end
end Sparse

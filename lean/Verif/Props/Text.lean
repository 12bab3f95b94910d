import Verif.Model.Text
import Verif.Props.Dok
/-! Property C49: textual output. -/
namespace Sparse

section
variable {T : Type}

/-! ### Specification -/

/-- the line `(i, j) v` -/
def entryLine (disp : T → List Char) (e : Int × Int × T) : List Char :=
  "(".toList ++ (toString e.1).toList ++ ", ".toList ++ (toString e.2.1).toList ++ ") ".toList ++ disp e.2.2

/-- the lines of a text joined by line breaks (none after the last line) -/
def joinLines : List (List Char) → List Char
  | [] => []
  | [l] => l
  | l :: m :: ls => l ++ ['\n'] ++ joinLines (m :: ls)

/-- a table: an optional line of column numbers, then for every row its cells, each ended by a tab, and a line break
(no line break if there are no columns); with labels every row starts with its number -/
def tableText (n_row n_col : Nat) (label : Bool) (cell : Nat → Nat → List Char) : List Char :=
  (if label then ['\t'] ++ ((List.range n_col).flatMap fun c => (toString c).toList ++ ['\t']) ++ ['\n'] else []) ++
  (List.range n_row).flatMap fun r =>
    (if label then (toString r).toList ++ ['\t'] else []) ++
    ((List.range n_col).flatMap fun c => cell r c ++ ['\t']) ++ if n_col = 0 then [] else ['\n']

/-- what a table shows at row `r`, column `c`: the value stored last for that position, or `-` -/
def CSR.cell (pretty : T → List Char) (a : CSR T) (r c : Nat) : List Char :=
  match ((a.row r).filter fun e => decide (e.1 = (c : Int))).getLast? with
  | some e => pretty e.2
  | none => ['-']

/-! ### Lemmas -/

theorem fmtEntry_eq (disp : T → List Char) (i j : Int) (v : T) : fmtEntry disp i j v = entryLine disp (i, j, v) := rfl

theorem entryLine_ne (disp : T → List Char) (e : Int × Int × T) : entryLine disp e ≠ [] := by
  simp [entryLine]

theorem joinLines_snoc (ls : List (List Char)) (l : List Char) :
    joinLines (ls ++ [l]) = if ls = [] then l else joinLines ls ++ ['\n'] ++ l := by
  induction ls with
  | nil => rfl
  | cons m ls ih =>
    cases ls with
    | nil => rfl
    | cons k ls =>
      rw [List.cons_append, List.cons_append, joinLines, ← List.cons_append, ih]
      simp [joinLines]

theorem joinLines_eq_nil {ls : List (List Char)} (h : ∀ l ∈ ls, l ≠ []) : joinLines ls = [] ↔ ls = [] := by
  match ls with
  | [] => simp [joinLines]
  | [l] => simpa [joinLines] using h l (by simp)
  | l :: m :: ls => simp [joinLines]

/-- appending one more line, as the loops do -/
theorem push_line {disp : T → List Char} {L : List (Int × Int × T)} {buf : List Char} (e : Int × Int × T)
    (h : buf = joinLines (L.map (entryLine disp))) :
    (if !buf.isEmpty then buf ++ ['\n'] else buf) ++ entryLine disp e = joinLines ((L ++ [e]).map (entryLine disp)) := by
  rw [List.map_append, List.map_singleton, joinLines_snoc, h]
  have := joinLines_eq_nil (ls := L.map (entryLine disp)) (by
    intro l hl
    obtain ⟨e, -, rfl⟩ := List.mem_map.1 hl
    exact entryLine_ne disp e)
  by_cases hL : L.map (entryLine disp) = []
  · simp [hL, joinLines]
  · have h2 : joinLines (L.map (entryLine disp)) ≠ [] := fun h => hL (this.1 h)
    rw [if_neg hL, if_pos (by simpa [List.isEmpty_iff] using h2)]

theorem Coo.to_string_ok (disp : T → List Char) {t : IntTy} {a : Coo T} (ha : a.WF t) :
    Ok (a.to_string disp) fun s => s = joinLines (a.triples.map (entryLine disp)) := by
  unfold Coo.to_string
  wp
  have hl : a.triples.length = a.values.length := by
    simp [Coo.triples, ha.lenr, ha.lenc]
  refine Ok_forOff (E := a.triples) (by simp [hl, Coo.nnz]) (fun pre s => s = joinLines (pre.map (entryLine disp))) rfl ?_
    (fun s h => h)
  rintro pre e suf s hE hs
  have hg : a.triples[pre.length]? = some e := by rw [hE]; simp
  unfold Coo.triples at hg
  rw [List.getElem?_zip_eq_some, List.getElem?_zip_eq_some] at hg
  rw [Nat.zero_add]
  split
  all_goals
    wp
    rds [hg.1, hg.2.1, hg.2.2]
    refine ⟨_, rfl, ?_⟩
    rw [← push_line e hs, fmtEntry_eq]
    simp_all

theorem CSR.to_string_ok (disp : T → List Char) {t : IntTy} {a : CSR T} (ha : a.WF t) :
    Ok (a.to_string disp) fun s => s = a.triples.flatMap fun e => entryLine disp e ++ ['\n'] := by
  have hr : Rep a.rowptr a.colidx a.values a.rows a.row := ha.rep
  unfold CSR.to_string
  wp
  refine Ok_forRange (fun i s => s = (flat (fun i => (a.row i).map fun e => ((i : Int), e.1, e.2)) i).flatMap fun e =>
    entryLine disp e ++ ['\n']) (by omega) (by simp) ?_ (fun s h => h)
  rintro i s - hi rfl
  wp
  rds [hr.ptr i (by omega), hr.ptr_succ hi]
  refine Ok_forRow hr hi (fun pre s => s = (flat (fun i => (a.row i).map fun e => ((i : Int), e.1, e.2)) i ++
    pre.map fun e => ((i : Int), e.1, e.2)).flatMap fun e => entryLine disp e ++ ['\n']) (by simp) ?_ ?_
  · rintro pre e suf s' hE rfl hj hx
    wp
    rds [hj, hx]
    refine ⟨_, rfl, ?_⟩
    rw [fmtEntry_eq]
    simp
  · rintro s' rfl
    exact ⟨_, rfl, by rw [flat_succ]⟩

theorem CSC.to_string_ok (disp : T → List Char) {t : IntTy} {a : CSC T} (ha : a.WF t) :
    Ok (a.to_string disp) fun s => s = joinLines (a.triples.map (entryLine disp)) := by
  have hr : Rep a.colptr a.rowidx a.values a.cols a.col := ha.rep
  unfold CSC.to_string
  wp
  refine Ok_forRange (fun i s => s = joinLines ((flat (fun i => (a.col i).map fun e => (e.1, (i : Int), e.2)) i).map
    (entryLine disp))) (by omega) (by simp [joinLines]) ?_ (fun s h => h)
  rintro i s - hi hs0
  wp
  rds [hr.ptr i (by omega), hr.ptr_succ hi]
  refine Ok_forRow hr hi (fun pre s => s = joinLines ((flat (fun i => (a.col i).map fun e => (e.1, (i : Int), e.2)) i ++
    pre.map fun e => (e.1, (i : Int), e.2)).map (entryLine disp))) (by simpa using hs0) ?_ ?_
  · rintro pre e suf s' hE hs hj hx
    have he := (ha.mem hi (e := e) (by rw [hE]; simp)).1
    have h2 := push_line (e.1, (i : Int), e.2) hs
    wp
    rds [hj, hx]
    refine ⟨he, ?_⟩
    split
    all_goals
      wp
      refine ⟨_, hx, _, rfl, ?_⟩
      rw [List.map_append (l₁ := pre), List.map_singleton, ← List.append_assoc, ← h2, fmtEntry_eq, Int.toNat_of_nonneg he]
      simp_all
  · rintro s' rfl
    exact ⟨_, rfl, by rw [flat_succ]⟩

theorem DoK.to_string_ok (disp : T → List Char) (d : DoK T) (es : KMap T) :
    Ok (d.to_string disp es) fun s => s = joinLines (es.map fun e => entryLine disp (e.1.1, e.1.2, e.2)) := by
  unfold DoK.to_string
  wp
  refine Ok_forList (fun pre s => s = joinLines ((pre.map fun e => (e.1.1, e.1.2, e.2)).map (entryLine disp))) rfl ?_
    (fun s h => by simpa [Function.comp_def] using h)
  rintro pre e suf s hE hs
  have h2 := push_line (e.1.1, e.1.2, e.2) hs
  split
  all_goals
    wp
    refine ⟨_, rfl, ?_⟩
    rw [List.map_append, List.map_singleton, ← h2, fmtEntry_eq]
    simp_all

/-- the map of the columns of a row being built: `m` sends a column to the position of the last stored value for it -/
def LastAt (ax : List T) (pre : List (Int × T)) (m : List (Nat × Nat)) : Prop :=
  ∀ c : Nat, match m.lookup c with
    | some ii => ∃ e, (pre.filter fun e => decide (e.1 = (c : Int))).getLast? = some e ∧ ax[ii]? = some e.2
    | none => (pre.filter fun e => decide (e.1 = (c : Int))).getLast? = none

theorem LastAt.snoc {ax : List T} {pre : List (Int × T)} {m : List (Nat × Nat)} (h : LastAt ax pre m) {e : Int × T}
    (he : 0 ≤ e.1) {k : Nat} (hk : ax[k]? = some e.2) : LastAt ax (pre ++ [e]) ((e.1.toNat, k) :: m) := by
  intro c
  by_cases hc : e.1 = (c : Int)
  · have : c = e.1.toNat := by omega
    rw [List.lookup_cons, this]
    simp only [beq_self_eq_true]
    refine ⟨e, ?_, hk⟩
    rw [List.filter_append, List.filter_cons_of_pos (by simp; omega)]
    simp
  · have h2 : (c == e.1.toNat) = false := by simp; omega
    rw [List.lookup_cons, h2, List.filter_append, List.filter_cons_of_neg (by simpa using hc)]
    simpa using h c

theorem flatMap_range_succ {α : Type} (n : Nat) (f : Nat → List α) :
    (List.range (n + 1)).flatMap f = (List.range n).flatMap f ++ f n := by simp [List.range_succ]

theorem table_head_ok (n_col : Nat) : Ok (table_head n_col) fun s =>
    s = ['\t'] ++ ((List.range n_col).flatMap fun c => (toString c).toList ++ ['\t']) ++ ['\n'] := by
  unfold table_head
  wp
  refine Ok_forRange (fun c s => s = ['\t'] ++ (List.range c).flatMap fun c => (toString c).toList ++ ['\t'])
    (by omega) (by simp) ?_ ?_
  · rintro c s - hc rfl
    wp
    refine ⟨_, rfl, ?_⟩
    rw [flatMap_range_succ]
    have : dec (c : Int) = (toString c).toList := rfl
    simp [this]
  · rintro s rfl
    rfl

theorem table_row_ok (pretty : T → List Char) {t : IntTy} {a : CSR T} (ha : a.WF t) {r : Nat} (hi : r < a.rows)
    (tw0 : List Char) :
    Ok (table_row pretty a.cols a.rowptr a.colidx a.values r tw0) fun s =>
      s = tw0 ++ ((List.range a.cols).flatMap fun c => a.cell pretty r c ++ ['\t']) ++
        if a.cols = 0 then [] else ['\n'] := by
  have hr : Rep a.rowptr a.colidx a.values a.rows a.row := ha.rep
  unfold table_row
  wp
  rds [hr.ptr r (by omega), hr.ptr_succ hi]
  refine Ok_forRow hr hi (fun pre m => LastAt a.values pre m) (by intro c; simp) ?_ ?_
  · rintro pre e suf s' hE hs hj hx
    have he := (ha.mem hi (e := e) (by rw [hE]; simp)).1
    wp
    rds [hj]
    exact ⟨he, _, rfl, hs.snoc he hx⟩
  · intro m hm
    refine Ok_forRange (fun c s => s = tw0 ++ ((List.range c).flatMap fun c => a.cell pretty r c ++ ['\t']) ++
        if c = 0 ∨ c < a.cols then [] else ['\n'])
      (by omega) (by simp) ?_ ?_
    · rintro c s - hc rfl
      rw [if_pos (by omega), List.append_nil]
      have hrest : ∀ u : List Char, u = tw0 ++ ((List.range c).flatMap fun c => a.cell pretty r c ++ ['\t']) ++
          a.cell pretty r c →
          Ok (do
            if c = (← usub a.cols 1) then pure (ForInStep.yield (u ++ ['\t', '\n']))
              else pure (ForInStep.yield (u ++ ['\t'])) : M (ForInStep (List Char))) fun st => ∃ s', st = .yield s' ∧
            s' = tw0 ++ ((List.range (c + 1)).flatMap fun c => a.cell pretty r c ++ ['\t']) ++
              if c + 1 = 0 ∨ c + 1 < a.cols then [] else ['\n'] := by
        rintro u rfl
        wp
        refine ⟨by omega, ?_⟩
        rw [flatMap_range_succ]
        split
        · wp
          exact ⟨_, rfl, by rw [if_neg (by omega)]; simp⟩
        · wp
          exact ⟨_, rfl, by rw [if_pos (by omega)]; simp⟩
      have h := hm c
      cases hl : m.lookup c with
      | none =>
        rw [hl] at h
        refine hrest _ ?_
        unfold CSR.cell
        simp only at h
        rw [h]
      | some ii =>
        rw [hl] at h
        obtain ⟨e, h1, h2⟩ := h
        simp only [Ok_bind (m := List.rd _ _), Ok_rd]
        refine ⟨_, h2, hrest _ ?_⟩
        unfold CSR.cell
        rw [h1]
    · rintro s rfl
      simp

theorem csr_table_ok (pretty : T → List Char) {t : IntTy} {a : CSR T} (ha : a.WF t) (label : Bool) :
    Ok (csr_table pretty a.rows a.cols a.rowptr a.colidx a.values label) fun s =>
      s = tableText a.rows a.cols label (a.cell pretty) := by
  have hrow : ∀ (f : Nat → List Char → M (ForInStep (List Char))) (s0 : List Char),
      (∀ r s, r < a.rows → s = tableText r a.cols label (a.cell pretty) →
        Ok (f r s) fun st => ∃ s', st = .yield s' ∧ s' = tableText (r + 1) a.cols label (a.cell pretty)) →
      s0 = tableText 0 a.cols label (a.cell pretty) →
      Ok (forIn (rng 0 a.rows) s0 f) fun s => s = tableText a.rows a.cols label (a.cell pretty) := by
    intro f s0 hf h0
    exact Ok_forRange (fun r s => s = tableText r a.cols label (a.cell pretty)) (by omega) h0
      (fun r s _ hr hs => hf r s hr hs) (fun s h => h)
  unfold csr_table
  cases label
  · simp only [Bool.false_eq_true, if_false]
    wp
    refine hrow _ _ ?_ (by simp [tableText])
    rintro r s hr rfl
    wp
    refine Ok.mono (table_row_ok pretty ha hr _) ?_
    rintro s rfl
    refine ⟨_, rfl, ?_⟩
    simp [tableText, flatMap_range_succ]
  · simp only [if_true]
    wp
    refine Ok.mono (table_head_ok a.cols) ?_
    rintro s rfl
    refine hrow _ _ ?_ (by simp [tableText])
    rintro r s hr rfl
    wp
    refine Ok.mono (table_row_ok pretty ha hr _) ?_
    rintro s rfl
    refine ⟨_, rfl, ?_⟩
    have : dec (r : Int) = (toString r).toList := rfl
    rw [this]
    simp [tableText, flatMap_range_succ]

theorem Ok.eq {α : Type} {m : M α} {a : α} (h : Ok m fun x => x = a) : m = .ok a := by
  obtain ⟨x, h1, rfl⟩ := h
  exact h1

/-! ### C49 -/

/-- C49 (Coo). `to_string` never panics and returns the lines `(i, j) v` of the stored entries in storage order,
separated by line breaks. `disp` is the scalar's `Display`. -/
theorem C49_coo_to_string (disp : T → List Char) (t : IntTy) (a : Coo T) (ha : a.WF t) :
    a.to_string disp = .ok (joinLines (a.triples.map (entryLine disp))) := (Coo.to_string_ok disp ha).eq

/-- C49 (CSR). One line per stored entry in storage order, each ended by a line break. -/
theorem C49_csr_to_string (disp : T → List Char) (t : IntTy) (a : CSR T) (ha : a.WF t) :
    a.to_string disp = .ok (a.triples.flatMap fun e => entryLine disp e ++ ['\n']) := (CSR.to_string_ok disp ha).eq

/-- C49 (CSC). The lines of the stored entries in storage order, separated by line breaks. -/
theorem C49_csc_to_string (disp : T → List Char) (t : IntTy) (a : CSC T) (ha : a.WF t) :
    a.to_string disp = .ok (joinLines (a.triples.map (entryLine disp))) := (CSC.to_string_ok disp ha).eq

/-- C49 (DoK). Whatever order the map enumerates its entries in, the text consists of exactly one line for every
position whose element is not zero, showing that element. -/
theorem C49_dok_to_string [AddCommMonoid T] [Sub T] [DecidableEq T] (disp : T → List Char) (t : IntTy) (d : DoK T)
    (hd : d.Reachable t) (es : KMap T) (hes : es.Perm d.values) :
    ∃ L : List (Int × Int), L.Nodup ∧ (∀ i j, (i, j) ∈ L ↔ d.get i j ≠ 0) ∧
      d.to_string disp es = .ok (joinLines (L.map fun k => entryLine disp (k.1, k.2, d.get k.1 k.2))) := by
  have hi := hd.inv
  refine ⟨es.map (·.1), ((hes.map _).nodup_iff).2 hi.nodup, fun i j => ?_, ?_⟩
  · rw [(hes.map _).mem_iff, List.mem_map]
    unfold DoK.get
    constructor
    · rintro ⟨⟨k, v⟩, hv, rfl⟩
      rw [KMap.get_of_mem hi.nodup hv]
      exact hi.ne _ hv
    · intro h
      cases hg : d.values.get (i, j) with
      | none => rw [hg] at h; exact absurd rfl h
      | some v => exact ⟨_, KMap.mem_of_get hg, rfl⟩
  · rw [(DoK.to_string_ok disp d es).eq, List.map_map]
    congr 2
    apply List.map_congr_left
    rintro ⟨⟨i, j⟩, v⟩ he
    have : d.get i j = v := by
      unfold DoK.get
      rw [KMap.get_of_mem hi.nodup (hes.mem_iff.1 he)]
    simp [this]

/-- C49 (table). The text handed to the column aligner is the table of the matrix, with or without labels: the cell of
row `r` and column `c` shows the value stored (last) for that position, or `-` if none is stored. -/
theorem C49_csr_table (pretty : T → List Char) (t : IntTy) (a : CSR T) (ha : a.WF t) (label : Bool) :
    csr_table pretty a.rows a.cols a.rowptr a.colidx a.values label =
      .ok (tableText a.rows a.cols label (a.cell pretty)) ∧
    (∀ (r c : Nat) v, r < a.rows → a.NoDup → ((c : Int), v) ∈ a.row r → a.cell pretty r c = pretty v) ∧
    (∀ r c : Nat, ¬ a.has r c → a.cell pretty r c = ['-']) := by
  refine ⟨(csr_table_ok pretty ha label).eq, fun r c v hr hn hv => ?_, fun r c hh => ?_⟩
  · have h1 : (a.row r).filter (fun e => decide (e.1 = (c : Int))) = [((c : Int), v)] := by
      have hnd := hn r hr
      generalize a.row r = R at hv hnd
      induction R with
      | nil => simp at hv
      | cons e R ih =>
        rw [List.map_cons, List.nodup_cons] at hnd
        rcases List.mem_cons.1 hv with h | h
        · subst h
          rw [List.filter_cons_of_pos (by simp), List.filter_eq_nil_iff.2]
          intro x hx
          have : x.1 ≠ (c : Int) := fun hc => hnd.1 (List.mem_map.2 ⟨x, hx, hc⟩)
          simpa using this
        · have : e.1 ≠ (c : Int) := fun hc => hnd.1 (List.mem_map.2 ⟨_, h, hc.symm⟩)
          rw [List.filter_cons_of_neg (by simpa using this)]
          exact ih h hnd.2
    unfold CSR.cell
    rw [h1]
    rfl
  · have h1 : (a.row r).filter (fun e => decide (e.1 = (c : Int))) = [] := by
      rw [List.filter_eq_nil_iff]
      intro x hx hc
      exact hh ⟨x.2, by have : x.1 = (c : Int) := by simpa using hc
                        rw [← this]; exact hx⟩
    unfold CSR.cell
    rw [h1]
    rfl

/-- C49 (`to_table`). The result is the aligned text of the unlabelled table without its trailing line breaks, whatever
the aligner `layout` does. -/
theorem C49_csr_to_table (pretty : T → List Char) (layout : List Char → List Char) (t : IntTy) (a : CSR T) (ha : a.WF t) :
    ∃ s k, a.to_table pretty layout = .ok s ∧
      layout (tableText a.rows a.cols false (a.cell pretty)) = s ++ List.replicate k '\n' ∧ s.getLast? ≠ some '\n' := by
  have h : a.to_table pretty layout = .ok (trimEnd (layout (tableText a.rows a.cols false (a.cell pretty)))) := by
    unfold CSR.to_table
    rw [(C49_csr_table pretty t a ha false).1]
    rfl
  refine ⟨_, ((layout (tableText a.rows a.cols false (a.cell pretty))).reverse.takeWhile
    fun c => decide (c = '\n')).length, h, ?_⟩
  generalize layout (tableText a.rows a.cols false (a.cell pretty)) = w
  unfold trimEnd
  have hw : w = (w.reverse.dropWhile fun c => decide (c = '\n')).reverse ++
      (w.reverse.takeWhile fun c => decide (c = '\n')).reverse := by
    rw [← List.reverse_append, List.takeWhile_append_dropWhile, List.reverse_reverse]
  have ht : (w.reverse.takeWhile fun c => decide (c = '\n')).reverse =
      List.replicate (w.reverse.takeWhile fun c => decide (c = '\n')).length '\n' := by
    rw [List.eq_replicate_iff]
    refine ⟨by simp, fun b hb => ?_⟩
    have := List.mem_takeWhile_imp (List.mem_reverse.1 hb)
    simpa using this
  refine ⟨?_, ?_⟩
  · rw [← ht]
    exact hw
  · rw [List.getLast?_reverse]
    intro hh
    have := List.head?_dropWhile_not (fun c => decide (c = '\n')) w.reverse
    rw [hh] at this
    simp at this

example : exCoo.WF .u8 ∧ (∃ a : CSR Int, a.WF .u8 ∧ a.stored = 4) ∧ exCsc.WF .u8 ∧ exCoo.triples ≠ [] ∧
    (∃ s, exCoo.to_string (fun v => (toString v).toList) = .ok s ∧ s.length > 20) ∧
    (∃ s, CSR.to_table (fun v => (toString v).toList) id (⟨2, 2, [0, 2, 3], [0, 0, 1], [5, 7, -3]⟩ : CSR Int) = .ok s ∧
      s = "7\t-\t\n-\t-3\t".toList) :=
  ⟨exCoo_wf, ⟨_, exCsr_wf, by decide⟩, exCsc_wf, by decide, ⟨_, rfl, by decide +kernel⟩, ⟨_, rfl, by decide +kernel⟩⟩

end
end Sparse

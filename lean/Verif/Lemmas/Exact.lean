import Verif.SpecExact
import Verif.Lemmas.MatMat
import Verif.Lemmas.BinRow
import Verif.Lemmas.Kernels
/-! Values stored for one position: what sorting, merging, bucketing and transposing do to them. No law of the
scalar operations is used. -/
namespace Sparse

section
variable {T : Type}

@[simp] theorem valuesIn_nil (k : Int) : valuesIn ([] : List (Int × T)) k = [] := rfl

theorem valuesIn_append (r s : List (Int × T)) (k : Int) : valuesIn (r ++ s) k = valuesIn r k ++ valuesIn s k := by
  simp [valuesIn]

theorem valuesIn_cons (e : Int × T) (r : List (Int × T)) (k : Int) :
    valuesIn (e :: r) k = (if e.1 = k then [e.2] else []) ++ valuesIn r k := by
  unfold valuesIn
  rw [List.filter_cons]
  by_cases h : e.1 = k <;> simp [h]

theorem valuesIn_eq_nil {r : List (Int × T)} {k : Int} (h : ∀ e ∈ r, e.1 ≠ k) : valuesIn r k = [] := by
  unfold valuesIn
  rw [List.filter_eq_nil_iff.2]
  · rfl
  · intro e he; simpa using h e he

theorem valuesIn_all {r : List (Int × T)} {k : Int} (h : ∀ e ∈ r, e.1 = k) : valuesIn r k = r.map (·.2) := by
  unfold valuesIn
  rw [List.filter_eq_self.2]
  intro e he; simpa using h e he

theorem valuesIn_sortRow (r : List (Int × T)) (k : Int) : valuesIn (sortRow r) k = valuesIn r k := by
  unfold valuesIn
  rw [sortRow_stable]

theorem valuesIn_filter (p : T → Bool) (r : List (Int × T)) (k : Int) :
    valuesIn (r.filter fun e => p e.2) k = (valuesIn r k).filter p := by
  induction r with
  | nil => simp
  | cons e r ih =>
    rw [List.filter_cons, valuesIn_cons, List.filter_append, ← ih]
    by_cases hp : p e.2 <;> by_cases hk : e.1 = k <;> simp [hp, hk, valuesIn_cons]

theorem foldl_snd_sumFrom [Add T] (l : List (Int × T)) (v : T) :
    l.foldl (fun s f => s + f.2) v = sumFrom v (l.map (·.2)) := by
  unfold sumFrom
  rw [List.foldl_map]

theorem valuesIn_combine [Add T] {r : List (Int × T)} (h : WRow r) (k : Int) :
    valuesIn (combine r) k = collapse (valuesIn r k) := by
  induction r using combine.induct with
  | case1 => simp [combine, collapse]
  | case2 e r ih =>
    rw [WRow, List.pairwise_cons] at h
    have hs : (r.dropWhile fun f => decide (f.1 = e.1)).Sublist r := (List.dropWhile_suffix _).sublist
    have hw := h.2.sublist hs
    have hsplit : valuesIn r k = valuesIn (r.takeWhile fun f => decide (f.1 = e.1)) k ++
        valuesIn (r.dropWhile fun f => decide (f.1 = e.1)) k := by
      rw [← valuesIn_append, List.takeWhile_append_dropWhile]
    have htw : ∀ f ∈ r.takeWhile fun f => decide (f.1 = e.1), f.1 = e.1 := by
      intro f hf
      have := List.mem_takeWhile_imp hf
      simpa using this
    rw [combine, valuesIn_cons, valuesIn_cons, hsplit, ih hw]
    by_cases hk : e.1 = k
    · have hd : ∀ f ∈ r.dropWhile fun f => decide (f.1 = e.1), f.1 ≠ k := by
        intro f hf
        cases hdd : (r.dropWhile fun f => decide (f.1 = e.1)) with
        | nil => rw [hdd] at hf; simp at hf
        | cons d l =>
          have hdne : d.1 ≠ e.1 := by
            have := List.head_dropWhile_not (fun f : Int × T => decide (f.1 = e.1)) (l := r) (by rw [hdd]; simp)
            simp only [hdd, List.head_cons] at this
            simpa using this
          have hle : e.1 ≤ d.1 := h.1 d (hs.subset (by rw [hdd]; simp))
          rw [hdd] at hf hw
          rw [List.pairwise_cons] at hw
          rcases List.mem_cons.1 hf with rfl | hf
          · omega
          · have := hw.1 f hf; omega
      rw [valuesIn_eq_nil hd, valuesIn_all (fun f hf => (htw f hf).trans hk), if_pos hk, if_pos hk]
      simp [collapse, foldl_snd_sumFrom]
    · rw [if_neg hk, if_neg hk, valuesIn_eq_nil (r := r.takeWhile _)]
      · simp
      · intro f hf
        rw [htw f hf]; exact hk

theorem valuesIn_canonRow [Add T] (r : List (Int × T)) (k : Int) :
    valuesIn (canonRow r) k = collapse (valuesIn r k) := by
  unfold canonRow
  rw [valuesIn_combine (sortRow_sorted r), valuesIn_sortRow]

theorem valuesIn_colsOf {R : Nat → List (Int × T)} {n : Nat}
    (hpos : ∀ i < n, ∀ e ∈ R i, 0 ≤ e.1) {i : Nat} (hi : i < n) (c : Nat) :
    valuesIn (colsOf R n c) i = valuesIn (R i) c := by
  unfold valuesIn
  rw [colsOf_eq, filter_tagged (colsOf_tag R c) n i hi, List.map_map]
  have : (R i).filter (fun e => decide (e.1.toNat = c)) = (R i).filter (fun e => decide (e.1 = (c : Int))) := by
    apply List.filter_congr
    intro e he
    have := hpos i hi e he
    rw [decide_eq_decide]
    omega
  rw [this]
  rfl

theorem Coo.valuesIn_items {t : IntTy} {a : Coo T} (h : a.WF t) (i j : Nat) :
    valuesIn (bucket a.items i) j = a.valuesAt i j := by
  unfold valuesIn bucket Coo.items Coo.valuesAt
  rw [List.filter_map, List.map_map, List.filter_map, List.filter_map, List.filter_filter, List.map_map]
  congr 1
  apply List.filter_congr
  intro e he
  have := Coo.triples_mem h he
  simp only [Function.comp]
  rw [← Bool.decide_and, decide_eq_decide]
  omega

theorem Coo.valuesIn_itemsT {t : IntTy} {a : Coo T} (h : a.WF t) (i j : Nat) :
    valuesIn (bucket a.itemsT j) i = a.valuesAt i j := by
  unfold valuesIn bucket Coo.itemsT Coo.valuesAt
  rw [List.filter_map, List.map_map, List.filter_map, List.filter_map, List.filter_filter, List.map_map]
  congr 1
  apply List.filter_congr
  intro e he
  have := Coo.triples_mem h he
  simp only [Function.comp]
  rw [← Bool.decide_and, decide_eq_decide]
  omega

theorem Coo.valuesAt_out {t : IntTy} {a : Coo T} (h : a.WF t) {i j : Nat}
    (hij : ¬ (i < a.rows ∧ j < a.cols)) : a.valuesAt i j = [] := by
  unfold Coo.valuesAt
  rw [List.filter_eq_nil_iff.2]
  · simp
  · intro e he
    have := Coo.triples_mem h he
    simp only [decide_eq_true_eq]
    omega

theorem CSR.valuesAt_of_rep {a : CSR T} {R : Nat → List (Int × T)} {n : Nat}
    (h : Rep a.rowptr a.colidx a.values n R) (i j : Nat) :
    a.valuesAt i j = if i < n then valuesIn (R i) j else [] := by
  unfold CSR.valuesAt CSR.row
  split
  · rename_i hi; rw [h.rowOf hi]
  · rw [rowOf_out (by rw [h.len]; omega)]; rfl

theorem CSC.valuesAt_of_rep {a : CSC T} {R : Nat → List (Int × T)} {n : Nat}
    (h : Rep a.colptr a.rowidx a.values n R) (i j : Nat) :
    a.valuesAt i j = if j < n then valuesIn (R j) i else [] := by
  unfold CSC.valuesAt CSC.col
  split
  · rename_i hi; rw [h.rowOf hi]
  · rw [rowOf_out (by rw [h.len]; omega)]; rfl

theorem CSR.valuesAt_out {t : IntTy} {a : CSR T} (ha : a.WF t) {i j : Nat}
    (h : ¬ (i < a.rows ∧ j < a.cols)) : a.valuesAt i j = [] := by
  rw [CSR.valuesAt_of_rep ha.rep]
  split
  · apply valuesIn_eq_nil
    intro e he
    have := ha.mem (by assumption) he
    omega
  · rfl

theorem CSC.valuesAt_out {t : IntTy} {a : CSC T} (ha : a.WF t) {i j : Nat}
    (h : ¬ (i < a.rows ∧ j < a.cols)) : a.valuesAt i j = [] := by
  rw [CSC.valuesAt_of_rep ha.rep]
  split
  · apply valuesIn_eq_nil
    intro e he
    have := ha.mem (by assumption) he
    omega
  · rfl

/-- values of a position in a list of triplets -/
def valuesOf (E : List (Int × Int × T)) (i j : Nat) : List T :=
  (E.filter fun e => decide (e.1 = (i : Int) ∧ e.2.1 = (j : Int))).map (·.2.2)

theorem valuesOf_eq_valuesIn (E : List (Int × Int × T)) (i j : Nat) :
    valuesOf E i j = valuesIn ((E.filter fun e => decide (e.1 = (i : Int))).map (·.2)) j := by
  unfold valuesOf valuesIn
  rw [List.filter_map, List.filter_filter, List.map_map]
  congr 1
  apply List.filter_congr
  intro e _
  simp only [Function.comp]
  rw [← Bool.decide_and, decide_eq_decide]
  exact and_comm

theorem valuesOf_append (E F : List (Int × Int × T)) (i j : Nat) :
    valuesOf (E ++ F) i j = valuesOf E i j ++ valuesOf F i j := by simp [valuesOf]

theorem valuesOf_rows (R : Nat → List (Int × T)) (n i j : Nat) :
    valuesOf (flat (fun i => (R i).map fun e => ((i : Int), e.1, e.2)) n) i j = if i < n then valuesIn (R i) j else [] := by
  have h1 : ∀ (r : List (Int × T)) (k : Nat), valuesOf (r.map fun e => ((k : Int), e.1, e.2)) i j =
      if k = i then valuesIn r j else [] := by
    intro r k
    unfold valuesOf valuesIn
    rw [List.filter_map, List.map_map]
    by_cases hk : k = i
    · simp [hk, Function.comp_def]
    · simp [hk, Function.comp_def]
  induction n with
  | zero => simp [valuesOf]
  | succ n ih =>
    rw [flat_succ, valuesOf_append, ih, h1]
    by_cases h : i < n
    · rw [if_pos h, if_neg (by omega), if_pos (by omega), List.append_nil]
    · rw [if_neg h]
      by_cases h' : n = i
      · rw [if_pos h', if_pos (by omega), h']; rfl
      · rw [if_neg h', if_neg (by omega)]; rfl

theorem valuesOf_cols (R : Nat → List (Int × T)) (n i j : Nat) :
    valuesOf (flat (fun c => (R c).map fun e => (e.1, (c : Int), e.2)) n) i j = if j < n then valuesIn (R j) i else [] := by
  have h1 : ∀ (r : List (Int × T)) (k : Nat), valuesOf (r.map fun e => (e.1, (k : Int), e.2)) i j =
      if k = j then valuesIn r i else [] := by
    intro r k
    unfold valuesOf valuesIn
    rw [List.filter_map, List.map_map]
    by_cases hk : k = j
    · simp [hk, Function.comp_def]
    · simp [hk, Function.comp_def]
  induction n with
  | zero => simp [valuesOf]
  | succ n ih =>
    rw [flat_succ, valuesOf_append, ih, h1]
    by_cases h : j < n
    · rw [if_pos h, if_neg (by omega), if_pos (by omega), List.append_nil]
    · rw [if_neg h]
      by_cases h' : n = j
      · rw [if_pos h', if_pos (by omega), h']; rfl
      · rw [if_neg h', if_neg (by omega)]; rfl

theorem accum2_exact [Add T] {E : List (Int × Int × T)} {n m : Nat} (hn : ∀ e ∈ E, 0 ≤ e.1)
    (hm : ∀ e ∈ E, 0 ≤ e.2.1) (f : Nat → Nat → T) :
    accum2 (dense n m f) E = dense n m fun i j => sumFrom (f i j) (valuesOf E i j) := by
  apply List.ext_getElem?
  intro i
  rw [accum2_get _ hn]
  unfold dense
  rw [List.getElem?_map, List.getElem?_map]
  by_cases hi : i < n
  · rw [List.getElem?_range hi]
    simp only [Option.map_some, Option.some.injEq]
    apply List.ext_getElem?
    intro j
    rw [accum_get_fold, List.getElem?_map, List.getElem?_map]
    · by_cases hj : j < m
      · rw [List.getElem?_range hj]
        simp [valuesOf_eq_valuesIn]
      · rw [List.getElem?_eq_none (l := List.range m) (by simp; omega)]
        simp
    · intro e he
      rw [List.mem_map] at he
      obtain ⟨f, hf, rfl⟩ := he
      exact hm f (List.mem_of_mem_filter hf)
  · rw [List.getElem?_eq_none (l := List.range n) (by simp; omega)]
    simp

theorem dense_const (n m : Nat) (v : T) : List.replicate n (List.replicate m v) = dense n m fun _ _ => v := by
  unfold dense
  simp [List.map_const']

end
end Sparse

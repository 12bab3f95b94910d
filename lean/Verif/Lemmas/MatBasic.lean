import Verif.Lemmas.RowMath
/-! Matrix-level lemmas shared by the property proofs. -/
namespace Sparse

section
variable {T : Type}

/-- lift of a kernel postcondition through `unwrapR` of a successful call -/
theorem unwrapR_ok {α : Type} (a : α) : unwrapR (.ok a : M α) = .ok a := rfl

theorem CSR.new_ok {n m : Nat} {p j : List Int} {x : List T} {R : Nat → List (Int × T)}
    (h : Rep p j x n R) : CSR.new n m p j x = .ok ⟨n, m, p, j, x⟩ := by
  have h1 := h.len_j
  have h2 := h.len_x
  have : Ok (CSR.new n m p j x) fun r => r = ⟨n, m, p, j, x⟩ := by
    unfold CSR.new
    have hl := h.len
    simp only [hl, ne_eq, not_true, if_false]
    wp
    refine ⟨by omega, _, h.ptr n (le_refl _), by omega, ?_⟩
    rw [Ok_ite]
    refine ⟨fun h => by simp at h; omega, fun _ => ?_⟩
    rw [Ok_ite]
    refine ⟨fun h => by simp at h; omega, fun _ => ?_⟩
    wp
  obtain ⟨a, h, rfl⟩ := this
  exact h

theorem CSC.new_ok {n m : Nat} {p j : List Int} {x : List T} {R : Nat → List (Int × T)}
    (h : Rep p j x n R) : CSC.new m n j p x = .ok ⟨m, n, j, p, x⟩ := by
  have h1 := h.len_j
  have h2 := h.len_x
  have : Ok (CSC.new m n j p x) fun r => r = ⟨m, n, j, p, x⟩ := by
    unfold CSC.new
    have hl := h.len
    simp only [hl, ne_eq, not_true, if_false]
    wp
    refine ⟨by omega, _, h.ptr n (le_refl _), by omega, ?_⟩
    rw [Ok_ite]
    refine ⟨fun h => by simp at h; omega, fun _ => ?_⟩
    rw [Ok_ite]
    refine ⟨fun h => by simp at h; omega, fun _ => ?_⟩
    wp
  obtain ⟨a, h, rfl⟩ := this
  exact h

theorem CSR.nnz_ok {a : CSR T} {R : Nat → List (Int × T)} (h : Rep a.rowptr a.colidx a.values a.rows R) :
    a.nnz = .ok (flat R a.rows).length := by
  have : Ok a.nnz fun r => r = (flat R a.rows).length := by
    unfold CSR.nnz
    have hl := h.len
    rw [Ok_ite]
    refine ⟨fun h => ?_, fun _ => ?_⟩
    · rw [List.isEmpty_iff] at h
      rw [h] at hl; simp at hl
    · wp
      refine ⟨by omega, (((flat R a.rows).length : Nat) : Int), ?_, by omega, by omega⟩
      rw [show a.rowptr.length - 1 = a.rows by omega]
      exact h.ptr _ (le_refl _)
  obtain ⟨r, h, rfl⟩ := this
  exact h

theorem CSC.nnz_ok {a : CSC T} {R : Nat → List (Int × T)} (h : Rep a.colptr a.rowidx a.values a.cols R) :
    a.nnz = .ok (flat R a.cols).length := by
  have : Ok a.nnz fun r => r = (flat R a.cols).length := by
    unfold CSC.nnz
    have hl := h.len
    rw [Ok_ite]
    refine ⟨fun h => ?_, fun _ => ?_⟩
    · omega
    · wp
      refine ⟨by omega, (((flat R a.cols).length : Nat) : Int), ?_, by omega, by omega⟩
      rw [show a.colptr.length - 1 = a.cols by omega]
      exact h.ptr _ (le_refl _)
  obtain ⟨r, h, rfl⟩ := this
  exact h

theorem resize_of_le (l : List α) (n : Nat) (v : α) (h : n ≤ l.length) : l.resize n v = l.take n := by
  unfold List.resize
  rw [show n - l.length = 0 by omega]; simp

theorem Rep.trim {n : Nat} {p j : List Int} {x : List T} {R : Nat → List (Int × T)}
    (h : Rep p j x n R) :
    Rep p (j.take (flat R n).length) (x.take (flat R n).length) n R := by
  refine ⟨h.len, h.ptr, ?_⟩
  have h1 := h.pre
  have hz : (j.take (flat R n).length).zip (x.take (flat R n).length) = (j.zip x).take (flat R n).length := by
    simp [List.zip, List.take_zipWith]
  rw [hz, ← List.prefix_iff_eq_take.1 h1]

theorem CSR.prune_ok [Zero T] {a : CSR T} {R : Nat → List (Int × T)}
    (h : Rep a.rowptr a.colidx a.values a.rows R) :
    Ok a.prune fun r => r = { a with colidx := a.colidx.take (flat R a.rows).length,
                                     values := a.values.take (flat R a.rows).length } := by
  have h1 := h.len_j
  have h2 := h.len_x
  unfold CSR.prune
  rw [CSR.nnz_ok h]
  have hl := h.len
  simp only [hl, ne_eq, not_true, if_false]
  wp
  rw [Ok_ite]
  refine ⟨fun h => by omega, fun _ => ?_⟩
  rw [Ok_ite]
  refine ⟨fun h => by omega, fun _ => ?_⟩
  wp
  rw [resize_of_le _ _ _ h1, resize_of_le _ _ _ h2]

theorem CSC.prune_ok {a : CSC T} {R : Nat → List (Int × T)}
    (h : Rep a.colptr a.rowidx a.values a.cols R) :
    Ok a.prune fun r => r = { a with rowidx := a.rowidx.take (flat R a.cols).length,
                                     values := a.values.take (flat R a.cols).length } := by
  have h1 := h.len_j
  have h2 := h.len_x
  unfold CSC.prune
  rw [CSC.nnz_ok h]
  have hl := h.len
  simp only [hl, ne_eq, not_true, if_false]
  wp
  rw [Ok_ite]
  refine ⟨fun h => by omega, fun _ => ?_⟩
  rw [Ok_ite]
  refine ⟨fun h => by omega, fun _ => ?_⟩
  wp
  refine ⟨⟨by omega, h2⟩, ⟨by omega, h1⟩, ?_⟩
  simp

/-- sorted and duplicate-summed rows -/
def canonRow [Add T] (r : List (Int × T)) : List (Int × T) := combine (sortRow r)

theorem canonRow_sorted [Add T] (r : List (Int × T)) : SRow (canonRow r) := combine_sorted (sortRow_sorted r)

theorem canonRow_of_sorted [Add T] {r : List (Int × T)} (h : SRow r) : canonRow r = r := by
  unfold canonRow
  rw [sortRow_of_sorted h.wrow, combine_of_sorted h]

theorem rowSum_canonRow [AddCommMonoid T] (r : List (Int × T)) (k : Int) : rowSum (canonRow r) k = rowSum r k := by
  unfold canonRow
  rw [rowSum_combine, rowSum_sortRow]

theorem canonRow_key [Add T] (r : List (Int × T)) (k : Int) :
    (∃ e ∈ canonRow r, e.1 = k) ↔ (∃ e ∈ r, e.1 = k) := by
  unfold canonRow
  rw [combine_key]
  simp only [(sortRow_perm r).mem_iff]

theorem canonRow_length [Add T] (r : List (Int × T)) : (canonRow r).length ≤ r.length := by
  unfold canonRow
  rw [← sortRow_length r]; exact combine_length _

theorem flat_length_le {α β : Type} {R : Nat → List α} {S : Nat → List β} {n : Nat}
    (h : ∀ i < n, (R i).length ≤ (S i).length) : (flat R n).length ≤ (flat S n).length := by
  induction n with
  | zero => simp
  | succ n ih =>
    rw [flat_length_succ, flat_length_succ]
    have := ih fun i hi => h i (by omega)
    have := h n (by omega)
    omega

theorem flat_length_congr {α β : Type} {R : Nat → List α} {S : Nat → List β} {n : Nat}
    (h : ∀ i < n, (R i).length = (S i).length) : (flat R n).length = (flat S n).length :=
  Nat.le_antisymm (flat_length_le fun i hi => (h i hi).le) (flat_length_le fun i hi => (h i hi).ge)

theorem CSR.sum_duplicates_ok [Zero T] [Add T] {t : IntTy} {a : CSR T} {R : Nat → List (Int × T)}
    (h : Rep a.rowptr a.colidx a.values a.rows R) (hfit : ((flat R a.rows).length : Int) < t.hi) :
    Ok (a.sum_duplicates t) fun r => r.rows = a.rows ∧ r.cols = a.cols ∧
      Rep r.rowptr r.colidx r.values a.rows (fun i => canonRow (R i)) ∧
      (r = a ∧ (∀ i < a.rows, SRow (R i)) ∨
       ((¬ ∀ i < a.rows, SRow (R i)) ∧ r.colidx.length = (flat (fun i => canonRow (R i)) a.rows).length ∧
        r.values.length = (flat (fun i => canonRow (R i)) a.rows).length)) := by
  unfold CSR.sum_duplicates CSR.has_canonical_format CSR.sort_indexes
  have hl := h.len
  wp
  refine ⟨by omega, ?_⟩
  rw [show a.rowptr.length - 1 = a.rows by omega]
  refine (has_canonical_ok h (t := t) ?_).mono ?_
  · intro i hi
    have := flat_length_mono R (show i ≤ a.rows by omega)
    omega
  intro b hb
  rw [Ok_ite]
  constructor
  · intro hb1
    have hs := hb.1 hb1
    wp
    exact ⟨trivial, trivial, h.congr fun i hi => (canonRow_of_sorted (hs i hi)).symm, Or.inl ⟨trivial, hs⟩⟩
  · intro hb0
    wp
    refine ⟨by omega, ?_⟩
    rw [show a.rowptr.length - 1 = a.rows by omega]
    refine (sort_indices_ok h).mono ?_
    rintro ⟨j1, x1⟩ ⟨h1, h2, h3, -⟩
    simp only at h1 h2 h3 ⊢
    have hfl : (flat (fun i => sortRow (R i)) a.rows).length = (flat R a.rows).length :=
      flat_length_congr fun i _ => sortRow_length _
    refine (Sparse.sum_duplicates_ok h1 (t := t) (by omega)).mono ?_
    rintro ⟨p2, j2, x2⟩ ⟨g1, g2, g3⟩
    simp only at g1 g2 g3 ⊢
    refine (CSR.prune_ok (a := ⟨a.rows, a.cols, p2, j2, x2⟩) g1).mono ?_
    rintro r rfl
    refine ⟨rfl, rfl, g1.trim, Or.inr ⟨fun hs => hb0 (hb.2 hs), ?_, ?_⟩⟩
    · have := g1.len_j; simp only [List.length_take]; exact Nat.min_eq_left this
    · have := g1.len_x; simp only [List.length_take]; exact Nat.min_eq_left this

theorem CSC.sum_duplicates_ok [Zero T] [Add T] {t : IntTy} {a : CSC T} {R : Nat → List (Int × T)}
    (h : Rep a.colptr a.rowidx a.values a.cols R) (hfit : ((flat R a.cols).length : Int) < t.hi) :
    Ok (a.sum_duplicates t) fun r => r.rows = a.rows ∧ r.cols = a.cols ∧
      Rep r.colptr r.rowidx r.values a.cols (fun i => canonRow (R i)) ∧
      (r = a ∧ (∀ i < a.cols, SRow (R i)) ∨
       ((¬ ∀ i < a.cols, SRow (R i)) ∧ r.rowidx.length = (flat (fun i => canonRow (R i)) a.cols).length ∧
        r.values.length = (flat (fun i => canonRow (R i)) a.cols).length)) := by
  unfold CSC.sum_duplicates CSC.has_canonical_format CSC.sort_indexes
  have hl := h.len
  wp
  refine ⟨by omega, ?_⟩
  rw [show a.colptr.length - 1 = a.cols by omega]
  refine (has_canonical_ok h (t := t) ?_).mono ?_
  · intro i hi
    have := flat_length_mono R (show i ≤ a.cols by omega)
    omega
  intro b hb
  rw [Ok_ite]
  constructor
  · intro hb1
    have hs := hb.1 hb1
    wp
    exact ⟨trivial, trivial, h.congr fun i hi => (canonRow_of_sorted (hs i hi)).symm, Or.inl ⟨trivial, hs⟩⟩
  · intro hb0
    wp
    refine ⟨by omega, ?_⟩
    rw [show a.colptr.length - 1 = a.cols by omega]
    refine (sort_indices_ok h).mono ?_
    rintro ⟨j1, x1⟩ ⟨h1, h2, h3, -⟩
    simp only at h1 h2 h3 ⊢
    have hfl : (flat (fun i => sortRow (R i)) a.cols).length = (flat R a.cols).length :=
      flat_length_congr fun i _ => sortRow_length _
    refine (Sparse.sum_duplicates_ok h1 (t := t) (by omega)).mono ?_
    rintro ⟨p2, j2, x2⟩ ⟨g1, g2, g3⟩
    simp only at g1 g2 g3 ⊢
    refine (CSC.prune_ok (a := ⟨a.rows, a.cols, j2, p2, x2⟩) g1).mono ?_
    rintro r rfl
    refine ⟨rfl, rfl, g1.trim, Or.inr ⟨fun hs => hb0 (hb.2 hs), ?_, ?_⟩⟩
    · have := g1.len_j; simp only [List.length_take]; exact Nat.min_eq_left this
    · have := g1.len_x; simp only [List.length_take]; exact Nat.min_eq_left this

/-! ### from `Rep` back to the specification vocabulary -/

theorem CSR.row_of_rep {a : CSR T} {R : Nat → List (Int × T)} {n : Nat}
    (h : Rep a.rowptr a.colidx a.values n R) {i : Nat} (hi : i < n) : a.row i = R i := h.rowOf hi

theorem CSC.col_of_rep {a : CSC T} {R : Nat → List (Int × T)} {n : Nat}
    (h : Rep a.colptr a.rowidx a.values n R) {i : Nat} (hi : i < n) : a.col i = R i := h.rowOf hi

theorem CSR.triples_of_rep {a : CSR T} {R : Nat → List (Int × T)}
    (h : Rep a.rowptr a.colidx a.values a.rows R) :
    a.triples = flat (fun i => (R i).map fun e => ((i : Int), e.1, e.2)) a.rows := by
  unfold CSR.triples
  exact flat_congr (R := fun i => (a.row i).map fun e => ((i : Int), e.1, e.2)) fun i hi => by
    rw [CSR.row_of_rep h hi]

theorem CSC.triples_of_rep {a : CSC T} {R : Nat → List (Int × T)}
    (h : Rep a.colptr a.rowidx a.values a.cols R) :
    a.triples = flat (fun i => (R i).map fun e => (e.1, (i : Int), e.2)) a.cols := by
  unfold CSC.triples
  exact flat_congr (R := fun i => (a.col i).map fun e => (e.1, (i : Int), e.2)) fun i hi => by
    rw [CSC.col_of_rep h hi]

theorem CSR.stored_of_rep {a : CSR T} {R : Nat → List (Int × T)}
    (h : Rep a.rowptr a.colidx a.values a.rows R) : a.stored = (flat R a.rows).length := by
  unfold CSR.stored
  rw [← flat_length_sum]
  exact flat_length_congr fun i hi => by rw [CSR.row_of_rep h hi]

theorem CSC.stored_of_rep {a : CSC T} {R : Nat → List (Int × T)}
    (h : Rep a.colptr a.rowidx a.values a.cols R) : a.stored = (flat R a.cols).length := by
  unfold CSC.stored
  rw [← flat_length_sum]
  exact flat_length_congr fun i hi => by rw [CSC.col_of_rep h hi]

theorem CSR.WF.rep {t : IntTy} {a : CSR T} (h : a.WF t) : Rep a.rowptr a.colidx a.values a.rows a.row :=
  WFptr.rep h
theorem CSC.WF.rep {t : IntTy} {a : CSC T} (h : a.WF t) : Rep a.colptr a.rowidx a.values a.cols a.col :=
  WFptr.rep h

theorem CSR.WF.fits {t : IntTy} {a : CSR T} (h : a.WF t) : ((flat a.row a.rows).length : Int) ≤ t.hi :=
  WFptr.fits h
theorem CSC.WF.fits {t : IntTy} {a : CSC T} (h : a.WF t) : ((flat a.col a.cols).length : Int) ≤ t.hi :=
  WFptr.fits h

theorem CSR.WF.stored_eq {t : IntTy} {a : CSR T} (h : a.WF t) : a.stored = (flat a.row a.rows).length :=
  CSR.stored_of_rep h.rep
theorem CSC.WF.stored_eq {t : IntTy} {a : CSC T} (h : a.WF t) : a.stored = (flat a.col a.cols).length :=
  CSC.stored_of_rep h.rep

/-- keys of `canonRow` are in range when those of the row are -/
theorem canonRow_mem [Add T] {r : List (Int × T)} {P : Int → Prop} (h : ∀ e ∈ r, P e.1) :
    ∀ e ∈ canonRow r, P e.1 := by
  intro e he
  obtain ⟨f, hf, hfe⟩ := (canonRow_key r e.1).1 ⟨e, he, rfl⟩
  rw [← hfe]; exact h f hf

end
end Sparse
namespace Sparse
section
variable {T : Type}

theorem rowOf_out {p j : List Int} {x : List T} {i : Nat} (h : p.length ≤ i + 1) : rowOf p j x i = [] := by
  unfold rowOf
  rw [List.getElem?_eq_none (l := p) (i := i + 1) h]
  split <;> simp_all

theorem CSR.entry_of_rep [AddCommMonoid T] {a : CSR T} {R : Nat → List (Int × T)} {n : Nat}
    (h : Rep a.rowptr a.colidx a.values n R) (i j : Nat) :
    a.entry i j = if i < n then rowSum (R i) j else 0 := by
  unfold CSR.entry
  split
  · rename_i hi; rw [CSR.row_of_rep h hi]
  · unfold CSR.row
    rw [rowOf_out (by rw [h.len]; omega)]; simp

theorem CSC.entry_of_rep [AddCommMonoid T] {a : CSC T} {R : Nat → List (Int × T)} {n : Nat}
    (h : Rep a.colptr a.rowidx a.values n R) (i j : Nat) :
    a.entry i j = if j < n then rowSum (R j) i else 0 := by
  unfold CSC.entry
  split
  · rename_i hi; rw [CSC.col_of_rep h hi]
  · unfold CSC.col
    rw [rowOf_out (by rw [h.len]; omega)]; simp

theorem zip_fst_snd {j j' : List Int} {x x' : List T} (h : j.zip x = j'.zip x') (h1 : j.length = x.length)
    (h2 : j'.length = x'.length) : j = j' ∧ x = x' := by
  have a1 := congrArg (List.map Prod.fst) h
  have a2 := congrArg (List.map Prod.snd) h
  rw [List.map_fst_zip h1.le, List.map_fst_zip h2.le] at a1
  rw [List.map_snd_zip h1.ge, List.map_snd_zip h2.ge] at a2
  exact ⟨a1, a2⟩

/-- arrays without unused storage are determined by the rows -/
theorem Rep.ext {p j p' j' : List Int} {x x' : List T} {n : Nat} {R : Nat → List (Int × T)}
    (h : Rep p j x n R) (h' : Rep p' j' x' n R)
    (hj : j.length = (flat R n).length) (hx : x.length = (flat R n).length)
    (hj' : j'.length = (flat R n).length) (hx' : x'.length = (flat R n).length) :
    p = p' ∧ j = j' ∧ x = x' := by
  refine ⟨?_, ?_⟩
  · apply List.ext_getElem?
    intro i
    rcases Nat.lt_or_ge n i with hi | hi
    · rw [List.getElem?_eq_none (by rw [h.len]; omega), List.getElem?_eq_none (by rw [h'.len]; omega)]
    · rw [h.ptr i hi, h'.ptr i hi]
  · have e1 := h.pre.eq_of_length (by rw [List.length_zip]; omega)
    have e2 := h'.pre.eq_of_length (by rw [List.length_zip]; omega)
    exact zip_fst_snd (e1.symm.trans e2) (by omega) (by omega)

/-! ### executable validity tests, for the concrete examples -/

def wfb (t : IntTy) (n m : Nat) (p j : List Int) (x : List T) : Bool :=
  p.length == n + 1 && p[0]? == some 0 &&
  (List.range n).all (fun i => decide (p.getD i 0 ≤ p.getD (i + 1) 0)) &&
  decide (p.getD n 0 ≤ t.hi) && decide (p.getD n 0 ≤ (j.length : Int)) && decide (p.getD n 0 ≤ (x.length : Int)) &&
  j.all (fun v => decide (0 ≤ v ∧ v < m ∧ v ≤ t.hi))

theorem wfptr_of_wfb {t : IntTy} {n m : Nat} {p j : List Int} {x : List T} (h : wfb t n m p j x = true) :
    WFptr t n m p j x := by
  simp only [wfb, Bool.and_eq_true, beq_iff_eq, List.all_eq_true, List.mem_range, decide_eq_true_eq] at h
  obtain ⟨⟨⟨⟨⟨⟨h1, h2⟩, h3⟩, h4⟩, h5⟩, h6⟩, h7⟩ := h
  have hg : ∀ (i : Nat) (a : Int), p[i]? = some a → p.getD i 0 = a := by
    intro i a hia; simp [List.getD_eq_getElem?_getD, hia]
  refine ⟨h1, h2, ?_, ?_, ?_⟩
  · intro i a b ha hb
    have hlt : i + 1 < p.length := by rw [List.getElem?_eq_some_iff] at hb; exact hb.1
    have := h3 i (by omega)
    rw [hg i a ha, hg _ b hb] at this
    exact this
  · intro c hc
    rw [hg n c hc] at h4 h5 h6
    exact ⟨h4, h5, h6⟩
  · intro c k v _ hv _
    exact h7 v (List.mem_of_getElem? hv)

theorem CSR.wf_of {t : IntTy} {a : CSR T} (h : wfb t a.rows a.cols a.rowptr a.colidx a.values = true) : a.WF t :=
  wfptr_of_wfb h
theorem CSC.wf_of {t : IntTy} {a : CSC T} (h : wfb t a.cols a.rows a.colptr a.rowidx a.values = true) : a.WF t :=
  wfptr_of_wfb h

theorem Coo.wf_of {t : IntTy} {a : Coo T} (h : (a.rowidx.length == a.values.length &&
    a.colidx.length == a.values.length && a.rowidx.all (fun r => decide (0 ≤ r ∧ r < a.rows ∧ r ≤ t.hi)) &&
    a.colidx.all (fun r => decide (0 ≤ r ∧ r < a.cols ∧ r ≤ t.hi))) = true) : a.WF t := by
  simp only [Bool.and_eq_true, beq_iff_eq, List.all_eq_true, decide_eq_true_eq] at h
  exact ⟨h.1.1.1, h.1.1.2, h.1.2, h.2⟩

/-! ### the triplets of a Coo matrix as distribution items -/

/-- `(row, (column, value))` -/
def Coo.items (a : Coo T) : List (Nat × (Int × T)) := a.triples.map fun e => (e.1.toNat, e.2)
/-- `(column, (row, value))` -/
def Coo.itemsT (a : Coo T) : List (Nat × (Int × T)) := a.triples.map fun e => (e.2.1.toNat, (e.1, e.2.2))

theorem Coo.triples_length {t : IntTy} {a : Coo T} (h : a.WF t) : a.triples.length = a.values.length := by
  unfold Coo.triples
  rw [List.length_zip, List.length_zip, h.lenr, h.lenc]; simp

theorem Coo.triples_get {a : Coo T} {k : Nat} {e : Int × Int × T} (h : a.triples[k]? = some e) :
    a.rowidx[k]? = some e.1 ∧ a.colidx[k]? = some e.2.1 ∧ a.values[k]? = some e.2.2 := by
  unfold Coo.triples at h
  rw [List.getElem?_zip_eq_some] at h
  rw [List.getElem?_zip_eq_some] at h
  exact h

theorem Coo.triples_mem {t : IntTy} {a : Coo T} (h : a.WF t) {e : Int × Int × T} (he : e ∈ a.triples) :
    (0 ≤ e.1 ∧ e.1 < a.rows ∧ e.1 ≤ t.hi) ∧ (0 ≤ e.2.1 ∧ e.2.1 < a.cols ∧ e.2.1 ≤ t.hi) := by
  obtain ⟨k, hk⟩ := List.mem_iff_getElem?.1 he
  have hg := Coo.triples_get hk
  exact ⟨h.row _ (List.mem_of_getElem? hg.1), h.col _ (List.mem_of_getElem? hg.2.1)⟩

theorem Coo.rowSum_items [AddCommMonoid T] {t : IntTy} {a : Coo T} (h : a.WF t) (i j : Nat) :
    rowSum (bucket a.items i) j = a.entry i j := by
  unfold rowSum bucket Coo.items Coo.entry
  rw [List.filter_map, List.map_map, List.filter_map, List.filter_map, List.filter_filter, List.map_map]
  congr 2
  apply List.filter_congr
  intro e he
  have := Coo.triples_mem h he
  simp only [Function.comp]
  rw [← Bool.decide_and, decide_eq_decide]
  omega

theorem Coo.rowSum_itemsT [AddCommMonoid T] {t : IntTy} {a : Coo T} (h : a.WF t) (i j : Nat) :
    rowSum (bucket a.itemsT j) i = a.entry i j := by
  unfold rowSum bucket Coo.itemsT Coo.entry
  rw [List.filter_map, List.map_map, List.filter_map, List.filter_map, List.filter_filter, List.map_map]
  congr 2
  apply List.filter_congr
  intro e he
  have := Coo.triples_mem h he
  simp only [Function.comp]
  rw [← Bool.decide_and, decide_eq_decide]
  omega

theorem Coo.entry_out [AddCommMonoid T] {t : IntTy} {a : Coo T} (h : a.WF t) {i j : Nat}
    (hij : ¬ (i < a.rows ∧ j < a.cols)) : a.entry i j = 0 := by
  unfold Coo.entry
  rw [List.filter_eq_nil_iff.2]
  · simp
  · intro e he
    have := Coo.triples_mem h he
    simp only [decide_eq_true_eq]
    omega

end
end Sparse

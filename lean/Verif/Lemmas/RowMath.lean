import Verif.Lemmas.Canon
import Mathlib.Algebra.BigOperators.Group.List.Lemmas
import Mathlib.Data.List.TakeWhile
/-! Facts about sums over rows: `rowSum` under append, permutation, `combine`, `bucket`, `colsOf`. -/
namespace Sparse

section
variable {T : Type} {α : Type}

section sum
variable [AddCommMonoid T]

@[simp] theorem rowSum_nil (k : Int) : rowSum ([] : List (Int × T)) k = 0 := by simp [rowSum]

theorem rowSum_cons (e : Int × T) (r : List (Int × T)) (k : Int) :
    rowSum (e :: r) k = (if e.1 = k then e.2 else 0) + rowSum r k := by
  unfold rowSum
  rw [List.filter_cons]
  split <;> simp_all

theorem rowSum_append (r s : List (Int × T)) (k : Int) : rowSum (r ++ s) k = rowSum r k + rowSum s k := by
  simp [rowSum]

theorem rowSum_perm {r s : List (Int × T)} (h : r.Perm s) (k : Int) : rowSum r k = rowSum s k :=
  ((h.filter _).map _).sum_eq

theorem rowSum_eq_zero {r : List (Int × T)} {k : Int} (h : ∀ e ∈ r, e.1 = k → e.2 = 0) : rowSum r k = 0 := by
  induction r with
  | nil => simp
  | cons e r ih =>
    rw [rowSum_cons, ih (fun f hf => h f (by simp [hf]))]
    split
    · rename_i hk; simp [h e (by simp) hk]
    · simp

theorem foldl_add_snd (l : List (Int × T)) (v : T) :
    l.foldl (fun s f => s + f.2) v = v + (l.map (·.2)).sum := by
  induction l generalizing v with
  | nil => simp
  | cons e l ih => simp [ih, add_assoc]

theorem rowSum_all {l : List (Int × T)} {k c : Int} (h : ∀ e ∈ l, e.1 = c) :
    rowSum l k = if c = k then (l.map (·.2)).sum else 0 := by
  induction l with
  | nil => simp
  | cons e l ih =>
    rw [rowSum_cons, ih (fun f hf => h f (by simp [hf])), h e (by simp)]
    split <;> simp

theorem rowSum_combine (r : List (Int × T)) (k : Int) : rowSum (combine r) k = rowSum r k := by
  induction r using combine.induct with
  | case1 => simp [combine]
  | case2 e r ih =>
    rw [combine, rowSum_cons, ih]
    conv_rhs => rw [rowSum_cons, ← List.takeWhile_append_dropWhile (p := fun f => decide (f.1 = e.1)) (l := r), rowSum_append]
    rw [rowSum_all (c := e.1) (l := r.takeWhile _) (by
      intro f hf
      have := List.mem_takeWhile_imp hf
      simpa using this), foldl_add_snd, ← add_assoc]
    congr 1
    split <;> simp

theorem rowSum_sortRow (r : List (Int × T)) (k : Int) : rowSum (sortRow r) k = rowSum r k :=
  rowSum_perm (sortRow_perm r) k

theorem rowSum_filter_ne_zero [DecidableEq T] (r : List (Int × T)) (k : Int) :
    rowSum (r.filter fun e => e.2 != 0) k = rowSum r k := by
  induction r with
  | nil => simp
  | cons e r ih =>
    rw [List.filter_cons]
    by_cases h : e.2 = 0
    · rw [if_neg (by simpa using h), rowSum_cons, ih, h]
      simp
    · rw [if_pos (by simpa using h), rowSum_cons, rowSum_cons, ih]
end sum

/-! keys and order of `combine`, `sortRow` -/

theorem combine_key [Add T] (r : List (Int × T)) (k : Int) :
    (∃ e ∈ combine r, e.1 = k) ↔ (∃ e ∈ r, e.1 = k) := by
  induction r using combine.induct with
  | case1 => simp [combine]
  | case2 e r ih =>
    rw [combine]
    simp only [List.mem_cons, exists_eq_or_imp, ih]
    constructor
    · rintro (h | ⟨f, hf, h⟩)
      · exact Or.inl h
      · exact Or.inr ⟨f, (List.dropWhile_suffix _).subset hf, h⟩
    · rintro (h | ⟨f, hf, h⟩)
      · exact Or.inl h
      · rw [← List.takeWhile_append_dropWhile (p := fun f => decide (f.1 = e.1)) (l := r), List.mem_append] at hf
        rcases hf with hf | hf
        · have := List.mem_takeWhile_imp hf
          simp at this
          exact Or.inl (by omega)
        · exact Or.inr ⟨f, hf, h⟩

theorem combine_sorted [Add T] {r : List (Int × T)} (h : WRow r) : SRow (combine r) := by
  induction r using combine.induct with
  | case1 => simp [combine]
  | case2 e r ih =>
    rw [combine, SRow, List.pairwise_cons]
    rw [WRow, List.pairwise_cons] at h
    have hs : (r.dropWhile fun f => decide (f.1 = e.1)).Sublist r := (List.dropWhile_suffix _).sublist
    refine ⟨?_, ih (h.2.sublist hs)⟩
    intro f hf
    obtain ⟨g, hg, hgf⟩ := (combine_key _ f.1).1 ⟨f, hf, rfl⟩
    rw [← hgf]
    simp only
    -- the head of the rest is different from `e.1`
    cases hd : (r.dropWhile fun f => decide (f.1 = e.1)) with
    | nil => rw [hd] at hg; simp at hg
    | cons d l =>
      have hdne : d.1 ≠ e.1 := by
        have := List.head_dropWhile_not (fun f : Int × T => decide (f.1 = e.1)) (l := r) (by rw [hd]; simp)
        simp only [hd, List.head_cons] at this
        simpa using this
      have hle : e.1 ≤ d.1 := h.1 d (hs.subset (by rw [hd]; simp))
      have hw := h.2.sublist hs
      rw [hd, List.pairwise_cons] at hw
      rw [hd, List.mem_cons] at hg
      rcases hg with rfl | hg
      · omega
      · have := hw.1 g hg; omega

theorem combine_of_sorted [Add T] {r : List (Int × T)} (h : SRow r) : combine r = r := by
  induction r with
  | nil => simp [combine]
  | cons e r ih =>
    rw [SRow, List.pairwise_cons] at h
    have h1 : (r.takeWhile fun f => decide (f.1 = e.1)) = [] := by
      cases r with
      | nil => simp
      | cons f r =>
        have := h.1 f (by simp)
        rw [List.takeWhile_cons]; simp; omega
    have h2 : (r.dropWhile fun f => decide (f.1 = e.1)) = r := by
      have := List.takeWhile_append_dropWhile (p := fun f : Int × T => decide (f.1 = e.1)) (l := r)
      rw [h1] at this; simpa using this
    rw [combine, h1, h2, ih h.2]; simp

theorem SRow.wrow {r : List (Int × T)} (h : SRow r) : WRow r := h.imp fun h => by omega

theorem sortRow_of_sorted {r : List (Int × T)} (h : WRow r) : sortRow r = r := by
  unfold sortRow
  apply List.mergeSort_of_pairwise
  simpa using h

theorem SRow.nodup_keys {r : List (Int × T)} (h : SRow r) : (r.map (·.1)).Nodup := by
  rw [List.Nodup, List.pairwise_map]
  exact h.imp fun h => by omega

/-! buckets -/

theorem mem_bucket {E : List (Nat × α)} {k : Nat} {a : α} : a ∈ bucket E k ↔ (k, a) ∈ E := by
  unfold bucket
  simp

theorem flat_bucket_perm {E : List (Nat × α)} {n : Nat} (h : ∀ e ∈ E, e.1 < n) :
    (flat (fun k => (bucket E k).map fun a => (k, a)) n).Perm E := by
  have key : ∀ n, (flat (fun k => (bucket E k).map fun a => (k, a)) n).Perm
      (E.filter fun e => decide (e.1 < n)) := by
    intro n
    induction n with
    | zero => simp
    | succ n ih =>
      rw [flat_succ]
      have e1 : ((bucket E n).map fun a => (n, a)) = E.filter fun e => decide (e.1 = n) := by
        unfold bucket
        rw [List.map_map]
        conv_rhs => rw [← List.map_id (E.filter _)]
        apply List.map_congr_left
        rintro ⟨a, b⟩ h
        simp at h
        simp [h.2]
      rw [e1]
      refine (ih.append_right _).trans ?_
      have h2 := List.filter_append_perm (fun e : Nat × α => decide (e.1 < n)) (E.filter fun e => decide (e.1 < n + 1))
      rw [List.filter_filter, List.filter_filter] at h2
      refine List.Perm.trans ?_ h2
      apply List.Perm.append
      · rw [List.filter_congr]
        intro x _
        simp
        intro; omega
      · rw [List.filter_congr]
        intro x _
        by_cases hx : x.1 = n <;> simp [hx]
        omega
  refine (key n).trans ?_
  rw [List.filter_eq_self.2 (by simpa using h)]

theorem flat_perm {R S : Nat → List α} {n : Nat} (h : ∀ i < n, (R i).Perm (S i)) :
    (flat R n).Perm (flat S n) := by
  induction n with
  | zero => simp
  | succ n ih =>
    rw [flat_succ, flat_succ]
    exact (ih fun i hi => h i (by omega)).append (h n (by omega))

/-- the bucket of a concatenation of rows -/
theorem bucket_flat (F : Nat → List (Nat × α)) (n k : Nat) :
    bucket (flat F n) k = flat (fun i => bucket (F i) k) n := by
  induction n with
  | zero => simp
  | succ n ih => rw [flat_succ, flat_succ, bucket_append, ih]

theorem colsOf_eq (R : Nat → List (Int × T)) (n c : Nat) :
    colsOf R n c = flat (fun i => ((R i).filter fun e => decide (e.1.toNat = c)).map fun e => ((i : Int), e.2)) n := by
  unfold colsOf colItems
  rw [bucket_flat]
  apply flat_congr
  intro i _
  unfold bucket
  rw [List.filter_map, List.map_map]
  rfl

theorem flat_mem_lt {F : Nat → List (Int × T)} {n : Nat} (hF : ∀ i, ∀ e ∈ F i, e.1 = (i : Int))
    {e : Int × T} (h : e ∈ flat F n) : 0 ≤ e.1 ∧ e.1 < n := by
  obtain ⟨i, hi, he⟩ := mem_flat.1 h
  have := hF i e he
  omega

theorem flat_sorted {F : Nat → List (Int × T)} (hF : ∀ i, ∀ e ∈ F i, e.1 = (i : Int)) (n : Nat) :
    WRow (flat F n) := by
  induction n with
  | zero => simp
  | succ n ih =>
    rw [flat_succ, WRow, List.pairwise_append]
    refine ⟨ih, ?_, ?_⟩
    · apply List.pairwise_of_forall_mem_list
      intro a ha b hb
      have := hF n a ha; have := hF n b hb; omega
    · intro a ha b hb
      have := flat_mem_lt hF ha; have := hF n b hb; omega

theorem flat_ssorted {F : Nat → List (Int × T)} (hF : ∀ i, ∀ e ∈ F i, e.1 = (i : Int)) (n : Nat)
    (h1 : ∀ i < n, (F i).length ≤ 1) : SRow (flat F n) := by
  induction n with
  | zero => simp
  | succ n ih =>
    rw [flat_succ, SRow, List.pairwise_append]
    refine ⟨ih fun i hi => h1 i (by omega), ?_, ?_⟩
    · have := h1 n (by omega)
      match hh : F n, this with
      | [], _ => simp
      | [a], _ => simp
    · intro a ha b hb
      have := flat_mem_lt hF ha; have := hF n b hb; omega

theorem colsOf_tag (R : Nat → List (Int × T)) (c : Nat) : ∀ i, ∀ e ∈
    ((R i).filter fun e => decide (e.1.toNat = c)).map (fun e => ((i : Int), e.2)), e.1 = (i : Int) := by
  intro i e he
  rw [List.mem_map] at he
  obtain ⟨d, _, rfl⟩ := he
  rfl

theorem colsOf_sorted (R : Nat → List (Int × T)) (n c : Nat) : WRow (colsOf R n c) := by
  rw [colsOf_eq]
  exact flat_sorted (colsOf_tag R c) n

theorem colsOf_mem {R : Nat → List (Int × T)} {n c : Nat} {e : Int × T} (h : e ∈ colsOf R n c) :
    0 ≤ e.1 ∧ e.1 < n := by
  rw [colsOf_eq] at h
  exact flat_mem_lt (colsOf_tag R c) h

theorem nodup_filter_le_one {r : List (Int × T)} (h : (r.map (·.1)).Nodup) (hpos : ∀ e ∈ r, 0 ≤ e.1) (c : Nat) :
    (r.filter fun e => decide (e.1.toNat = c)).length ≤ 1 := by
  have hs : ((r.filter fun e => decide (e.1.toNat = c)).map (·.1)).Nodup :=
    h.sublist ((List.filter_sublist).map _)
  match hh : (r.filter fun e => decide (e.1.toNat = c)) with
  | [] => rw [hh]; simp
  | [a] => rw [hh]; simp
  | a :: b :: l =>
    have ha : a ∈ r.filter fun e => decide (e.1.toNat = c) := by rw [hh]; simp
    have hb : b ∈ r.filter fun e => decide (e.1.toNat = c) := by rw [hh]; simp
    rw [List.mem_filter] at ha hb
    simp at ha hb
    have := hpos a ha.1
    have := hpos b hb.1
    rw [hh] at hs
    simp at hs
    omega

theorem colsOf_ssorted {R : Nat → List (Int × T)} {n : Nat} (h : ∀ i < n, ((R i).map (·.1)).Nodup)
    (hpos : ∀ i < n, ∀ e ∈ R i, 0 ≤ e.1) (c : Nat) : SRow (colsOf R n c) := by
  rw [colsOf_eq]
  apply flat_ssorted (colsOf_tag R c)
  intro i hi
  rw [List.length_map]
  exact nodup_filter_le_one (h i hi) (hpos i hi) c

theorem filter_tagged {F : Nat → List (Int × T)} (hF : ∀ i, ∀ e ∈ F i, e.1 = (i : Int)) (n i : Nat) (hi : i < n) :
    (flat F n).filter (fun e => decide (e.1 = (i : Int))) = F i := by
  induction n with
  | zero => omega
  | succ n ih =>
    rw [flat_succ, List.filter_append]
    rcases Nat.lt_or_ge i n with h | h
    · rw [ih h]
      rw [List.filter_eq_nil_iff.2, List.append_nil]
      intro a ha
      have := hF n a ha
      simp; omega
    · have : i = n := by omega
      subst this
      rw [List.filter_eq_nil_iff.2, List.nil_append, List.filter_eq_self.2]
      · intro a ha; simpa using hF i a ha
      · intro a ha
        have := flat_mem_lt hF ha
        simp; omega

theorem rowSum_colsOf [AddCommMonoid T] {R : Nat → List (Int × T)} {n : Nat}
    (hpos : ∀ i < n, ∀ e ∈ R i, 0 ≤ e.1) {i : Nat} (hi : i < n) (c : Nat) :
    rowSum (colsOf R n c) i = rowSum (R i) c := by
  unfold rowSum
  rw [colsOf_eq, filter_tagged (colsOf_tag R c) n i hi, List.map_map]
  have : (R i).filter (fun e => decide (e.1.toNat = c)) = (R i).filter (fun e => decide (e.1 = (c : Int))) := by
    apply List.filter_congr
    intro e he
    have := hpos i hi e he
    rw [decide_eq_decide]
    omega
  rw [this]
  rfl

/-- stored triplets of the columns are those of the rows -/
theorem colsOf_triples_perm {R : Nat → List (Int × T)} {n m : Nat}
    (hm : ∀ i < n, ∀ e ∈ R i, 0 ≤ e.1 ∧ e.1 < m) :
    (flat (fun c => (colsOf R n c).map fun e => (e.1, (c : Int), e.2)) m).Perm
      (flat (fun i => (R i).map fun e => ((i : Int), e.1, e.2)) n) := by
  have hall : ∀ e ∈ colItems R n, e.1 < m := by
    intro e he
    unfold colItems at he
    rw [mem_flat] at he
    obtain ⟨i, hi, he⟩ := he
    rw [List.mem_map] at he
    obtain ⟨d, hd, rfl⟩ := he
    have := hm i hi d hd
    simp only; omega
  have h1 := (flat_bucket_perm hall).map fun (e : Nat × (Int × T)) => (e.2.1, (e.1 : Int), e.2.2)
  rw [← flat_map] at h1
  simp only [List.map_map] at h1
  refine List.Perm.trans (by exact h1) ?_
  apply List.Perm.of_eq
  unfold colItems
  rw [← flat_map]
  apply flat_congr
  intro i hi
  rw [List.map_map]
  apply List.map_congr_left
  intro e he
  have := hm i hi e he
  simp only [Function.comp]
  congr 2
  omega

/-- columns of the columns of rows sorted by index are the rows -/
theorem colsOf_colsOf {R : Nat → List (Int × T)} {n m : Nat}
    (hm : ∀ i < n, ∀ e ∈ R i, 0 ≤ e.1 ∧ e.1 < m) (hw : ∀ i < n, WRow (R i)) {i : Nat} (hi : i < n) :
    colsOf (colsOf R n) m i = R i := by
  rw [colsOf_eq]
  -- both sides are sorted and have the same filter for every key
  have h1 : flat (fun c => ((colsOf R n c).filter fun e => decide (e.1.toNat = i)).map
        fun e => ((c : Int), e.2)) m =
      flat (fun (c : Nat) => (R i).filter fun e => decide (e.1 = (c : Int))) m := by
    apply flat_congr
    intro c _
    have e1 : (colsOf R n c).filter (fun e => decide (e.1.toNat = i)) =
        (colsOf R n c).filter (fun e => decide (e.1 = (i : Int))) := by
      apply List.filter_congr
      intro e he
      have := colsOf_mem he
      rw [decide_eq_decide]; omega
    rw [e1]
    conv_lhs => rw [colsOf_eq, filter_tagged (colsOf_tag R c) n i hi, List.map_map]
    have e2 : (R i).filter (fun e => decide (e.1.toNat = c)) = (R i).filter (fun e => decide (e.1 = (c : Int))) := by
      apply List.filter_congr
      intro e he
      have := hm i hi e he
      rw [decide_eq_decide]
      omega
    rw [e2]
    conv_rhs => rw [← List.map_id ((R i).filter _)]
    apply List.map_congr_left
    intro e he
    rw [List.mem_filter] at he
    simp at he
    simp [← he.2]
  rw [h1]
  have key : ∀ (r : List (Int × T)) (m : Nat), (∀ e ∈ r, 0 ≤ e.1) → WRow r →
      flat (fun (c : Nat) => r.filter fun e => decide (e.1 = (c : Int))) m = r.filter fun e => decide (e.1 < (m : Int)) := by
    intro r m hr hw
    induction m with
    | zero =>
      rw [flat_zero, List.filter_eq_nil_iff.2]
      intro e he
      have := hr e he
      simp; omega
    | succ m ih =>
      rw [flat_succ, ih]
      clear ih
      induction r with
      | nil => simp
      | cons e r ih2 =>
        rw [WRow, List.pairwise_cons] at hw
        have ih2 := ih2 (fun f hf => hr f (by simp [hf])) hw.2
        have h0 := hr e (by simp)
        rcases lt_trichotomy e.1 (m : Int) with h | h | h
        · have h3 : e.1 ≠ m := by omega
          have h4 : e.1 < (m : Int) + 1 := by omega
          simpa [List.filter_cons, h, h3, h4] using ih2
        · have h3 : ¬ e.1 < (m : Int) := by omega
          have h4 : e.1 < ((m + 1 : Nat) : Int) := by omega
          have h5 : r.filter (fun e => decide (e.1 < (m : Int))) = [] := by
            rw [List.filter_eq_nil_iff]
            intro f hf
            have := hw.1 f hf
            simp; omega
          rw [h5] at ih2
          simp only [List.filter_cons, h, decide_true, if_true, h5]
          simp only [List.nil_append] at ih2
          simp [ih2]
        · have h3 : ¬ e.1 < (m : Int) := by omega
          have h4 : ¬ e.1 < ((m + 1 : Nat) : Int) := by omega
          have h5 : e.1 ≠ m := by omega
          simp only [List.filter_cons, h3, h4, h5, decide_false]
          exact ih2
  rw [key (R i) m (fun e he => (hm i hi e he).1) (hw i hi)]
  rw [List.filter_eq_self]
  intro e he
  simpa using (hm i hi e he).2

end
end Sparse

import Verif.Model.History
import Verif.Lemmas.Unique
import Verif.Lemmas.Exact
import Verif.Props.Access
import Verif.Props.Exact
import Mathlib.Data.List.Flatten
/-! Lemmas for histories of in-place calls. -/
namespace Sparse
section
variable {T : Type}

theorem place_mem {e f : Int × T} {r : List (Int × T)} : f ∈ place e r ↔ f = e ∨ f ∈ r := by
  induction r with
  | nil => simp [place]
  | cons g r ih =>
    unfold place
    split
    · simp only [List.mem_cons, ih]
      tauto
    · simp

theorem place_sorted {e : Int × T} {r : List (Int × T)} (h : WRow r) : WRow (place e r) := by
  unfold WRow at *
  induction r with
  | nil => simp [place]
  | cons g r ih =>
    rw [List.pairwise_cons] at h
    unfold place
    split
    · refine List.pairwise_cons.2 ⟨fun f hf => ?_, ih h.2⟩
      rcases place_mem.1 hf with rfl | hf
      · assumption
      · exact h.1 f hf
    · refine List.pairwise_cons.2 ⟨fun f hf => ?_, List.pairwise_cons.2 h⟩
      rcases List.mem_cons.1 hf with rfl | hf
      · omega
      · have := h.1 f hf
        omega

theorem valuesIn_gt {r : List (Int × T)} {k : Int} (h : ∀ f ∈ r, k < f.1) : valuesIn r k = [] := by
  induction r with
  | nil => rfl
  | cons g r ih =>
    rw [valuesIn_cons, ih fun f hf => h f (by simp [hf]), if_neg (by have := h g (by simp); omega)]
    rfl

theorem place_values {e : Int × T} {r : List (Int × T)} (h : WRow r) (k : Int) :
    valuesIn (place e r) k = valuesIn r k ++ if e.1 = k then [e.2] else [] := by
  unfold WRow at h
  induction r with
  | nil => simp [place, valuesIn_cons, valuesIn_nil]
  | cons g r ih =>
    rw [List.pairwise_cons] at h
    unfold place
    split
    · rw [valuesIn_cons, ih h.2, valuesIn_cons, List.append_assoc]
    · rw [valuesIn_cons]
      by_cases hk : e.1 = k
      · rw [if_pos hk, valuesIn_gt]
        · rfl
        · intro f hf
          rcases List.mem_cons.1 hf with rfl | hf
          · omega
          · have := h.1 f hf
            omega
      · rw [if_neg hk]
        simp

theorem foldl_place {r s : List (Int × T)} (h : WRow s) :
    WRow (r.foldl (fun s e => place e s) s) ∧ ∀ k, valuesIn (r.foldl (fun s e => place e s) s) k = valuesIn s k ++ valuesIn r k := by
  induction r generalizing s with
  | nil => exact ⟨h, fun k => by simp [valuesIn_nil]⟩
  | cons e r ih =>
    obtain ⟨h1, h2⟩ := ih (place_sorted (e := e) h)
    refine ⟨h1, fun k => ?_⟩
    rw [List.foldl_cons, h2, place_values h, valuesIn_cons, List.append_assoc]

theorem stableSort_eq (r : List (Int × T)) : stableSort r = sortRow r := by
  have h := foldl_place (r := r) (s := []) List.Pairwise.nil
  refine WRow.ext h.1 (sortRow_sorted r) fun k => ?_
  rw [show stableSort r = r.foldl (fun s e => place e s) [] from rfl, h.2, valuesIn_sortRow]
  rfl

theorem addTo_mem [Add T] {e f : Int × T} {r : List (Int × T)} (h : f ∈ addTo e r) : f.1 = e.1 ∨ ∃ g ∈ r, g.1 = f.1 := by
  induction r with
  | nil => simp [addTo] at h; simp [h]
  | cons g r ih =>
    unfold addTo at h
    split at h
    · rcases List.mem_cons.1 h with rfl | h
      · exact Or.inr ⟨_, by simp, rfl⟩
      · rcases ih h with h | ⟨q, hq, h⟩
        · exact Or.inl h
        · exact Or.inr ⟨q, by simp [hq], h⟩
    · split at h
      · rcases List.mem_cons.1 h with rfl | h
        · exact Or.inr ⟨g, by simp, rfl⟩
        · exact Or.inr ⟨f, by simp [h], rfl⟩
      · rcases List.mem_cons.1 h with rfl | h
        · exact Or.inl rfl
        · exact Or.inr ⟨f, h, rfl⟩

theorem addTo_sorted [Add T] {e : Int × T} {r : List (Int × T)} (h : SRow r) : SRow (addTo e r) := by
  unfold SRow at *
  induction r with
  | nil => simp [addTo]
  | cons g r ih =>
    rw [List.pairwise_cons] at h
    unfold addTo
    split
    · refine List.pairwise_cons.2 ⟨fun f hf => ?_, ih h.2⟩
      rcases addTo_mem hf with hf | ⟨q, hq, hf⟩
      · omega
      · have := h.1 q hq
        omega
    · split
      · exact List.pairwise_cons.2 ⟨fun f hf => h.1 f hf, h.2⟩
      · refine List.pairwise_cons.2 ⟨fun f hf => ?_, List.pairwise_cons.2 h⟩
        rcases List.mem_cons.1 hf with rfl | hf
        · omega
        · have := h.1 f hf
          omega

/-- the values of one position after one more value arrived -/
theorem addTo_values [Add T] {e : Int × T} {r : List (Int × T)} (h : SRow r) (k : Int) :
    valuesIn (addTo e r) k = if e.1 = k then collapse (valuesIn r k ++ [e.2]) else valuesIn r k := by
  unfold SRow at h
  induction r with
  | nil => by_cases hk : e.1 = k <;> simp [addTo, valuesIn_cons, valuesIn_nil, hk, collapse, sumFrom]
  | cons g r ih =>
    rw [List.pairwise_cons] at h
    unfold addTo
    split
    · rename_i hlt
      rw [valuesIn_cons, ih h.2, valuesIn_cons]
      by_cases hk : e.1 = k
      · rw [if_pos hk, if_pos hk, if_neg (by omega)]
        rfl
      · rw [if_neg hk, if_neg hk]
    · split
      · rename_i heq
        rw [valuesIn_cons, valuesIn_cons]
        by_cases hk : e.1 = k
        · rw [if_pos hk, if_pos (by omega), if_pos (by omega), valuesIn_gt (r := r) (by intro f hf; have := h.1 f hf; omega)]
          rfl
        · rw [if_neg hk, if_neg (by omega), if_neg (by omega)]
      · rw [valuesIn_cons]
        by_cases hk : e.1 = k
        · rw [if_pos hk, if_pos hk, valuesIn_gt (r := g :: r)]
          · rfl
          · intro f hf
            rcases List.mem_cons.1 hf with rfl | hf
            · omega
            · have := h.1 f hf
              omega
        · rw [if_neg hk, if_neg hk]
          rfl

theorem collapse_append [Add T] (l m : List T) : collapse (collapse l ++ m) = collapse (l ++ m) := by
  cases l with
  | nil => rfl
  | cons v l => simp [collapse, sumFrom]

theorem foldl_addTo [Add T] {r s : List (Int × T)} (h : SRow s) :
    SRow (r.foldl (fun s e => addTo e s) s) ∧
      ∀ k, collapse (valuesIn (r.foldl (fun s e => addTo e s) s) k) = collapse (valuesIn s k ++ valuesIn r k) := by
  induction r generalizing s with
  | nil => exact ⟨h, fun k => by simp [valuesIn_nil]⟩
  | cons e r ih =>
    obtain ⟨h1, h2⟩ := ih (addTo_sorted (e := e) h)
    refine ⟨h1, fun k => ?_⟩
    rw [List.foldl_cons, h2, addTo_values h, valuesIn_cons]
    by_cases hk : e.1 = k
    · rw [if_pos hk, if_pos hk, collapse_append, List.append_assoc]
    · rw [if_neg hk, if_neg hk]
      rfl

/-- in a slice with one entry for every index, collapsing changes nothing -/
theorem collapse_strict [Add T] {r : List (Int × T)} (h : SRow r) (k : Int) : collapse (valuesIn r k) = valuesIn r k := by
  unfold SRow at h
  induction r with
  | nil => rfl
  | cons g r ih =>
    rw [List.pairwise_cons] at h
    rw [valuesIn_cons]
    by_cases hk : g.1 = k
    · rw [if_pos hk, valuesIn_gt (r := r) (by intro f hf; have := h.1 f hf; omega)]
      rfl
    · rw [if_neg hk]
      exact ih h.2

theorem addUp_eq [Add T] (r : List (Int × T)) : addUp r = canonRow r := by
  have h := foldl_addTo (r := r) (s := []) List.Pairwise.nil
  refine WRow.ext h.1.wrow (canonRow_sorted r).wrow fun k => ?_
  rw [show addUp r = r.foldl (fun s e => addTo e s) [] from rfl, valuesIn_canonRow, ← collapse_strict h.1, h.2]
  rfl

theorem setValue_length (k : Nat) (v : T) (L : List (List (Int × T))) : (setValue k v L).length = L.length := by
  induction L generalizing k with
  | nil => rfl
  | cons r L ih =>
    unfold setValue
    split
    · rfl
    · simp [ih]

theorem setValue_keys (k : Nat) (v : T) (L : List (List (Int × T))) :
    (setValue k v L).map (List.map (·.1)) = L.map (List.map (·.1)) := by
  induction L generalizing k with
  | nil => rfl
  | cons r L ih =>
    unfold setValue
    split
    · simp only [List.map_cons]
      congr 1
      apply List.ext_getElem?
      intro m
      rw [List.getElem?_map, List.getElem?_map, List.getElem?_modify]
      cases r[m]? <;> simp
      split <;> rfl
    · simp [ih]

theorem setValue_values (k : Nat) (v : T) (L : List (List (Int × T))) :
    (setValue k v L).flatten.map (·.2) = (L.flatten.map (·.2)).set k v := by
  induction L generalizing k with
  | nil => rfl
  | cons r L ih =>
    unfold setValue
    simp only [List.flatten_cons, List.map_append]
    split
    · rename_i hk
      simp only [List.flatten_cons, List.map_append]
      rw [List.set_append_left _ _ (by simpa using hk)]
      congr 1
      apply List.ext_getElem?
      intro m
      rw [List.getElem?_map, List.getElem?_modify, List.getElem?_set, List.getElem?_map]
      by_cases hm : k = m
      · subst hm
        simp [hk]
      · cases r[m]? <;> simp [hm]
    · rename_i hk
      simp only [List.flatten_cons, List.map_append]
      rw [List.set_append_right _ _ (by simpa using hk), ih]
      simp

/-- writing one value -/
theorem Rep.write {p j : List Int} {x : List T} {n : Nat} {R : Nat → List (Int × T)} (h : Rep p j x n R) {k : Nat} (v : T)
    (hk : k < x.length) :
    Rep p j (x.set k v) n fun i => ((setValue k v ((List.range n).map R))[i]?).getD [] := by
  have hl : (setValue k v ((List.range n).map R)).length = n := by rw [setValue_length]; simp
  have hflat : (flat (fun i => ((setValue k v ((List.range n).map R))[i]?).getD []) n) =
      (setValue k v ((List.range n).map R)).flatten := by
    unfold flat
    rw [List.flatMap_def]
    congr 1
    apply List.ext_getElem?
    intro i
    by_cases hi : i < n
    · simp [hi, hl]
    · rw [List.getElem?_eq_none (by simpa using hi), List.getElem?_eq_none (by omega)]
  refine h.newValues (rest := (x.set k v).drop (flat R n).length) ?_ ?_
  · intro i hi
    have := congrArg (fun l => l[i]?) (setValue_keys k v ((List.range n).map R))
    simp only [List.getElem?_map, List.getElem?_range hi, Option.map_some] at this
    rw [Option.map_eq_some_iff] at this
    obtain ⟨r, hr, he⟩ := this
    rw [hr]
    exact he
  · rw [hflat, setValue_values, ← List.flatMap_def]
    have hp := (prefix_zip_take h.pre).2
    have hx := h.len_x
    change _ = ((flat R n).map (·.2)).set k v ++ _
    rw [hp, ← List.take_set, List.take_append_drop]

theorem Rep.write_rows {p j : List Int} {x : List T} {n : Nat} {R : Nat → List (Int × T)} (h : Rep p j x n R) {k : Nat} (v : T)
    (hk : k < x.length) : (List.range n).map (Sparse.rowOf p j (x.set k v)) = setValue k v ((List.range n).map R) := by
  have hl : (setValue k v ((List.range n).map R)).length = n := by rw [setValue_length]; simp
  apply List.ext_getElem?
  intro i
  by_cases hi : i < n
  · rw [List.getElem?_map, List.getElem?_range hi, Option.map_some, (h.write v hk).rowOf hi, List.getElem?_eq_getElem (by omega)]
    rfl
  · rw [List.getElem?_eq_none (by simpa using hi), List.getElem?_eq_none (by omega)]

theorem sum_lengths (R : Nat → List (Int × T)) (n : Nat) : (((List.range n).map R).map List.length).sum = (flat R n).length := by
  rw [flat_length_sum, List.map_map]
  rfl

end
end Sparse

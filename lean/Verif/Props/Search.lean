import Verif.Props.Graph
/-!
C94: `depth_first_order` is the recursive depth-first search.
-/
namespace Sparse

section
variable {G : Nat → List Nat}

/-- C94: the specification determines the outcome. -/
theorem C94_search_unique (adj : Nat → List Nat) (p : Nat) (l : List Nat) (V W W' : List (Nat × Option Nat))
    (h : Search adj p l V W) (h' : Search adj p l V W') : W = W' := by
  induction h generalizing W' with
  | done => cases h'; rfl
  | skip hm _ ih =>
    cases h' with
    | skip _ h' => exact ih _ h'
    | visit hn _ _ => exact absurd hm hn
  | visit hn _ _ ih1 ih2 =>
    cases h' with
    | skip hm _ => exact absurd hm hn
    | visit _ h1 h2 =>
      have := ih1 _ h1
      subst this
      exact ih2 _ h2

/-- `l` without the elements that occur in `S` or earlier in `l` -/
def thin : List Nat → List Nat → List Nat
  | _, [] => []
  | S, w :: l => if w ∈ S then thin S l else w :: thin (w :: S) l

theorem mem_thin {S l : List Nat} {x : Nat} : x ∈ thin S l ↔ x ∈ l ∧ x ∉ S := by
  induction l generalizing S with
  | nil => simp [thin]
  | cons w l ih =>
    unfold thin
    by_cases hw : w ∈ S
    · rw [if_pos hw, ih]
      constructor
      · exact fun h => ⟨List.mem_cons_of_mem _ h.1, h.2⟩
      · rintro ⟨h1, h2⟩
        rcases List.mem_cons.1 h1 with rfl | h1
        · exact absurd hw h2
        · exact ⟨h1, h2⟩
    · rw [if_neg hw, List.mem_cons, List.mem_cons, ih, List.mem_cons]
      constructor
      · rintro (rfl | ⟨h1, h2⟩)
        · exact ⟨.inl rfl, hw⟩
        · exact ⟨.inr h1, fun hc => h2 (.inr hc)⟩
      · rintro ⟨h1 | h1, h2⟩
        · exact .inl h1
        · by_cases hx : x = w
          · exact .inl hx
          · exact .inr ⟨h1, fun hc => hc.elim hx h2⟩

theorem thin_sorted {S l : List Nat} (h : l.Pairwise (· ≤ ·)) : (thin S l).Pairwise (· < ·) := by
  induction l generalizing S with
  | nil => exact .nil
  | cons w l ih =>
    rw [List.pairwise_cons] at h
    unfold thin
    by_cases hw : w ∈ S
    · rw [if_pos hw]
      exact ih h.2
    · rw [if_neg hw, List.pairwise_cons]
      refine ⟨fun x hx => ?_, ih h.2⟩
      obtain ⟨h1, h2⟩ := mem_thin.1 hx
      have := h.1 x h1
      have : x ≠ w := fun hc => h2 (by simp [hc])
      omega

theorem sorted_ext {l l' : List Nat} (h : l.Pairwise (· < ·)) (h' : l'.Pairwise (· < ·)) (hm : ∀ x, x ∈ l ↔ x ∈ l') : l = l' := by
  induction l generalizing l' with
  | nil =>
    cases l' with
    | nil => rfl
    | cons y l' => exact absurd ((hm y).2 (by simp)) (by simp)
  | cons x l ih =>
    cases l' with
    | nil => exact absurd ((hm x).1 (by simp)) (by simp)
    | cons y l' =>
      rw [List.pairwise_cons] at h h'
      have hxy : x = y := by
        rcases List.mem_cons.1 ((hm x).1 (by simp)) with hx | hx
        · exact hx
        · rcases List.mem_cons.1 ((hm y).2 (by simp)) with hy | hy
          · exact hy.symm
          · have := h'.1 x hx
            have := h.1 y hy
            omega
      subst hxy
      rw [ih h.2 h'.2 fun z => ?_]
      have := hm z
      simp only [List.mem_cons] at this
      constructor
      · intro hz
        have h1 := h.1 z hz
        rcases this.1 (.inr hz) with rfl | h2
        · omega
        · exact h2
      · intro hz
        have h1 := h'.1 z hz
        rcases this.2 (.inr hz) with rfl | h2
        · omega
        · exact h2

/-- `l'` is `l` without some of the elements that occur in `S` or earlier in `l` -/
inductive Thin : List Nat → List Nat → List Nat → Prop
  | nil (S : List Nat) : Thin S [] []
  | keep {S l l' : List Nat} {w : Nat} : Thin (w :: S) l l' → Thin S (w :: l) (w :: l')
  | drop {S l l' : List Nat} {w : Nat} : w ∈ S → Thin S l l' → Thin S (w :: l) l'

theorem Thin.thin (S l : List Nat) : Thin S l (thin S l) := by
  induction l generalizing S with
  | nil => exact .nil S
  | cons w l ih =>
    unfold Sparse.thin
    by_cases hw : w ∈ S
    · rw [if_pos hw]; exact .drop hw (ih S)
    · rw [if_neg hw]; exact .keep (ih _)

theorem Thin.weaken {S S' l l' : List Nat} (h : Thin S l l') (hs : S ⊆ S') : Thin S' l l' := by
  induction h generalizing S' with
  | nil => exact .nil S'
  | keep _ ih => exact .keep (ih (List.cons_subset_cons _ hs))
  | drop hw _ ih => exact .drop (hs hw) (ih hs)

/-- the first list in front of a thinned one -/
theorem Thin.append (k : List Nat) {l l' : List Nat} (h : Thin [] l l') (S : List Nat) : Thin S (k ++ l) (k ++ l') := by
  induction k generalizing S with
  | nil => exact h.weaken (by simp)
  | cons w k ih => exact .keep (ih _)

/-- the search does not see repeated neighbours -/
theorem Search.thin {G' : Nat → List Nat} (hG : ∀ u, Thin [] (G u) (G' u)) {p : Nat} {l : List Nat} {V W : List (Nat × Option Nat)}
    (h : Search G p l V W) : ∀ S l' : List Nat, Thin S l l' → (∀ x ∈ S, x ∈ V.map (·.1)) → Search G' p l' V W := by
  induction h with
  | done =>
    intro S l' ht _
    cases ht
    exact .done _ _
  | skip hm _ ih =>
    intro S l' ht hS
    cases ht with
    | keep ht =>
      refine .skip hm (ih _ _ ht fun x hx => ?_)
      rcases List.mem_cons.1 hx with rfl | hx
      · exact hm
      · exact hS x hx
    | drop _ ht => exact ih _ _ ht hS
  | @visit p w l V U W hn h1 h2 ih1 ih2 =>
    intro S l' ht hS
    cases ht with
    | keep ht =>
      refine .visit hn (ih1 [] _ (hG w) (by simp)) (ih2 _ _ ht fun x hx => h1.mem ?_)
      rw [List.map_append, List.mem_append]
      rcases List.mem_cons.1 hx with rfl | hx
      · exact .inr (by simp)
      · exact .inl (hS x hx)
    | drop hw _ => exact absurd (hS w hw) hn

end

section
variable {T : Type}

/-- C94: `depth_first_order` is the recursive depth-first search. On every valid square graph and from every start node it
returns the nodes in the order in which the recursive search visits them, where the search looks at the successors of a
node in the order in which they are stored and, if `directed` is not set, after them at the nodes with an edge to it, in ascending
order. The predecessor of a visited node is the node it was visited from; the start node and the nodes not visited have none. -/
theorem C94_depth_first_order [AddCommMonoid T] (t : IntTy) (a : CSR T) (ha : a.WF t) (hsq : a.rows = a.cols)
    (hn : (a.rows : Int) ≤ t.hi + 1) (start : Nat) (hs : start < a.rows) (directed : Bool) (fuel : Nat)
    (hf : 2 * a.rows ≤ fuel) :
    ∃ nodes preds V, depth_first_order t fuel a start directed = .ok (nodes, preds) ∧
      (let adj : Nat → List Nat := fun u => if directed then a.successors u else a.successors u ++ a.origins u
       Search adj start (adj start) [(start, none)] V) ∧
      nodes = V.map (·.1) ∧ nodes.Nodup ∧ preds.length = a.rows ∧
      ∀ v < a.rows, ∀ q, preds[v]? = some q ↔ (v, q) ∈ V ∨ v ∉ nodes ∧ q = none := by
  obtain ⟨G, s, K, h1, h2, g1, g2, -⟩ := depth_first_order_ok ha hsq hn hs directed hf
  have hG : ∀ u, Thin [] (G u) (if directed then a.successors u else a.successors u ++ a.origins u) := by
    intro u
    cases directed with
    | true =>
      rw [g1 rfl, if_pos rfl]
      show Thin [] (a.succ u) (a.succ u)
      simpa using Thin.append (a.succ u) (.nil []) []
    | false =>
      obtain ⟨B, rfl, hB, hmem⟩ := g2 rfl
      rw [if_neg (by simp)]
      refine Thin.append (a.succ u) ?_ []
      have : thin [] (B u) = a.origins u := by
        refine sorted_ext (thin_sorted (hB u)) (List.pairwise_lt_range.filter _) fun x => ?_
        simp only [mem_thin, hmem, CSR.origins, List.mem_filter, List.mem_range, decide_eq_true_eq]
        exact ⟨fun h => ⟨(CSR.WF.has_lt ha h.1).1, h.1⟩, fun h => ⟨h.2, by simp⟩⟩
      rw [← this]
      exact Thin.thin [] (B u)
  obtain ⟨V, v1, v2, v3⟩ := h1.run
  refine ⟨K, _, V, h2, ?_, v1.symm, h1.nodup, h1.len, fun v hv q => ⟨fun hq => ?_, fun hq => ?_⟩⟩
  · exact v3.thin hG [] _ (hG start) (by simp)
  · by_cases hvK : v ∈ K
    · rw [← v1] at hvK
      obtain ⟨⟨x, q'⟩, hx, rfl⟩ := List.mem_map.1 hvK
      have := v2 _ hx
      simp only at this
      rw [hq] at this
      cases this
      exact .inl hx
    · have := h1.none v hv (.inl hvK)
      rw [hq] at this
      cases this
      exact .inr ⟨hvK, rfl⟩
  · rcases hq with hq | ⟨hq, rfl⟩
    · exact v2 _ hq
    · exact h1.none v hv (.inl hq)

/-- the graph of the example of `depth_first_order` and its two searches, step by step -/
example : exTree.WF .u8 ∧ exTree.rows = exTree.cols ∧ (exTree.rows : Int) ≤ IntTy.u8.hi + 1 ∧
    depth_first_order .u8 10 exTree 0 true = .ok ([0, 2, 3, 1], [none, some 0, some 0, some 2, none]) ∧
    Search exTree.successors 0 (exTree.successors 0) [(0, none)] [(0, none), (2, some 0), (3, some 2), (1, some 0)] :=
  ⟨exTree_wf, by decide, by decide, by decide +kernel,
    .visit (l := [1]) (w := 2) (by decide)
      (.visit (l := []) (w := 3) (by decide) (.skip (l := []) (w := 0) (by decide) (.done _ _)) (.done _ _))
      (.visit (l := []) (w := 1) (by decide) (.done _ _) (.done _ _))⟩

end
end Sparse

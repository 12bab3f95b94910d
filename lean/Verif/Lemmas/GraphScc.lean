import Verif.Lemmas.GraphBfs
/-!
Strongly connected components: the linked stacks and the loops of `connected_components_directed`.
-/
namespace Sparse

/-- `sb` holds the backward links of the stack `D`, whose top links to `pv` -/
def Bck (sb : List Node) : Node → List Nat → Prop
  | _, [] => True
  | pv, w :: D => sb[w]? = some pv ∧ Bck sb (.label w) D

theorem Bck.congr {sb sb' : List Node} {pv : Node} {D : List Nat} (hl : ∀ w ∈ D, sb'[w]? = sb[w]?) (h : Bck sb pv D) :
    Bck sb' pv D := by
  induction D generalizing pv with
  | nil => trivial
  | cons w D ih =>
    exact ⟨by rw [hl w (by simp)]; exact h.1, ih (fun u hu => hl u (by simp [hu])) h.2⟩

theorem Stk.set {l : List Node} {h : Node} {S : List Nat} (hs : Stk l h S) {u : Nat} (hu : u ∉ S) (x : Node) :
    Stk (l.set u x) h S := by
  refine hs.congr fun w hw => ?_
  rw [List.getElem?_set_ne (by rintro rfl; exact hu hw)]

theorem Bck.set {l : List Node} {h : Node} {S : List Nat} (hs : Bck l h S) {u : Nat} (hu : u ∉ S) (x : Node) :
    Bck (l.set u x) h S := by
  refine hs.congr fun w hw => ?_
  rw [List.getElem?_set_ne (by rintro rfl; exact hu hw)]

theorem Stk.lt {l : List Node} {h : Node} {S : List Nat} (hs : Stk l h S) : ∀ w ∈ S, w < l.length := by
  induction S generalizing h with
  | nil => simp
  | cons u S ih =>
    obtain ⟨h1, x, h2, h3, h4⟩ := hs
    intro w hw
    rcases List.mem_cons.1 hw with rfl | hw
    · exact lt_of_getElem?_some h2
    · exact ih h4 w hw

theorem Bck.lt {l : List Node} {h : Node} {S : List Nat} (hs : Bck l h S) : ∀ w ∈ S, w < l.length := by
  induction S generalizing h with
  | nil => simp
  | cons u S ih =>
    obtain ⟨h1, h4⟩ := hs
    intro w hw
    rcases List.mem_cons.1 hw with rfl | hw
    · exact lt_of_getElem?_some h1
    · exact ih h4 w hw

/-- the backward links after the element below `b` has been taken out; `f` is its forward link -/
def relink (sb : List Node) (b : Nat) : Node → List Node
  | .label y => sb.set y (.label b)
  | _ => sb

theorem relink_length (sb : List Node) (b : Nat) (f : Node) : (relink sb b f).length = sb.length := by
  cases f <;> simp [relink]

/-- taking `w` out of the stack -/
theorem excise {ss sb : List Node} {h pv : Node} {X Y : List Nat} {b w : Nat}
    (hnd : (X ++ b :: w :: Y).Nodup) (hs : Stk ss h (X ++ b :: w :: Y)) (hb : Bck sb pv (X ++ b :: w :: Y)) :
    sb[w]? = some (.label b) ∧ ∃ f, ss[w]? = some f ∧ Stk ss f Y ∧ Stk (ss.set b f) h (X ++ b :: Y) ∧
      Bck (relink sb b f) pv (X ++ b :: Y) := by
  induction X generalizing h pv with
  | nil =>
    simp only [List.nil_append, List.nodup_cons, List.mem_cons, not_or] at hnd
    obtain ⟨⟨hbw, hbY⟩, hwY, hY⟩ := hnd
    obtain ⟨h1, x, h2, h3, h4, f, h5, h6, h7⟩ := hs
    obtain ⟨g1, g2, g3⟩ := hb
    refine ⟨g2, f, h5, h7, ⟨h1, f, ?_, h7.ne_void, h7.set hbY f⟩, ?_⟩
    · rw [List.getElem?_set_self (lt_of_getElem?_some h2)]
    · cases Y with
      | nil =>
        rw [show f = .fin from h7]
        exact ⟨g1, trivial⟩
      | cons y Y =>
        rw [h7.1]
        simp only [List.mem_cons, not_or, List.nodup_cons] at hbY hwY hY
        have hy := lt_of_getElem?_some g3.1
        refine ⟨?_, ?_, ?_⟩
        · simp only [relink]
          rw [List.getElem?_set_ne (Ne.symm hbY.1)]; exact g1
        · simp only [relink]
          rw [List.getElem?_set_self hy]
        · exact g3.2.set hY.1 _
  | cons x X ih =>
    simp only [List.cons_append, List.nodup_cons] at hnd
    obtain ⟨h1, nx, h2, h3, h4⟩ := hs
    obtain ⟨g1, g2⟩ := hb
    obtain ⟨e1, f, e2, e3, e4, e5⟩ := ih hnd.2 h4 g2
    have hxb : x ≠ b := by rintro rfl; exact hnd.1 (by simp)
    refine ⟨e1, f, e2, e3, ⟨h1, nx, ?_, h3, e4⟩, ?_, e5⟩
    · rw [List.getElem?_set_ne (Ne.symm hxb)]; exact h2
    · cases Y with
      | nil =>
        rw [show f = .fin from e3]; exact g1
      | cons y Y =>
        rw [e3.1]
        simp only [relink]
        rw [List.getElem?_set_ne (by rintro rfl; exact hnd.1 (by simp))]; exact g1

/-- pushing `w` -/
theorem push_top {ss sb : List Node} {d w : Nat} {D : List Nat} (hw : w ∉ d :: D) (hlt : w < ss.length)
    (hlt' : w < sb.length) (hnd : d ∉ D)
    (hs : Stk ss (.label d) (d :: D)) (hb : Bck sb .fin (d :: D)) :
    Stk (ss.set w (.label d)) (.label w) (w :: d :: D) ∧
      Bck ((sb.set w .fin).set d (.label w)) .fin (w :: d :: D) := by
  have hwd : w ≠ d := by rintro rfl; exact hw (by simp)
  have hd : d < sb.length := hb.lt d (by simp)
  refine ⟨⟨rfl, .label d, by rw [List.getElem?_set_self hlt], by simp, hs.set hw _⟩, ?_, ?_, ?_⟩
  · rw [List.getElem?_set_ne (Ne.symm hwd), List.getElem?_set_self hlt']
  · rw [List.getElem?_set_self (by simpa using hd)]
  · refine Bck.set (Bck.set hb.2 (fun hc => hw (by simp [hc])) _) hnd _

/-- The successors of `v` that have not been visited end up on top of the DFS stack `v :: Z`. -/
theorem scc_push_ok {p j : List Int} {n : Nat} {G : Nat → List Nat} {o : Nat → Nat} (hg : GRep p j n G o)
    {v : Nat} (hv : v < n) (hG : ((G v).filter (· ≠ v)).Nodup) {labels ss sb : List Node} {Z : List Nat}
    (h1 : labels.length = n) (h2 : ss.length = n) (h3 : sb.length = n)
    (hlv : labels[v]? ≠ some .void) (hnd : (v :: Z).Nodup)
    (hs : Stk ss (.label v) (v :: Z)) (hb : Bck sb .fin (v :: Z))
    (hvoid : ∀ x : Nat, labels[x]? = some .void → x ∉ v :: Z → ss[x]? = some .void) :
    Ok (scc_push v j p labels ss sb (.label v)) fun r => ∃ U : List Nat, U.Nodup ∧
      (∀ w, w ∈ U ↔ w ∈ G v ∧ labels[w]? = some .void) ∧
      r.1.length = n ∧ r.2.1.length = n ∧
      Stk r.1 r.2.2 (U.reverse ++ v :: Z.filter (fun x => decide (x ∉ U))) ∧
      Bck r.2.1 .fin (U.reverse ++ v :: Z.filter (fun x => decide (x ∉ U))) ∧
      (∀ x : Nat, x ∉ U.reverse ++ v :: Z.filter (fun x => decide (x ∉ U)) → r.1[x]? = ss[x]?) := by
  unfold scc_push
  wp
  rds [hg.start v hv, hg.stop v hv]
  refine hg.forG hv (P := fun pre st => ∃ U : List Nat, U.Nodup ∧
      (∀ w, w ∈ U ↔ w ∈ pre ∧ labels[w]? = some .void) ∧
      st.1.length = n ∧ st.2.1.length = n ∧
      Stk st.1 st.2.2 (U.reverse ++ v :: Z.filter (fun x => decide (x ∉ U))) ∧
      Bck st.2.1 .fin (U.reverse ++ v :: Z.filter (fun x => decide (x ∉ U))) ∧
      (∀ x : Nat, x ∉ U.reverse ++ v :: Z.filter (fun x => decide (x ∉ U)) → st.1[x]? = ss[x]?)) ?_ ?_ ?_
  · exact ⟨[], by simp, by simp, h2, h3, by simpa using hs, by simpa using hb, by simp⟩
  · rintro pre w suf ⟨s, b, hd⟩ hE hw ⟨U, hU, hmem, hl1, hl2, hS, hB, hkeep⟩ hj
    simp only at hl1 hl2 hS hB hkeep
    rw [List.nodup_cons] at hnd
    have hvU : v ∉ U := fun hc => hlv ((hmem v).1 hc).2
    wp
    rds [hj]
    obtain ⟨x, hx⟩ : ∃ x, labels[w]? = some x := ⟨labels[w], by simp⟩
    rds [hx]
    rw [Ok_ite]
    refine ⟨fun hxv => ?_, fun hxv => ?_⟩
    · subst hxv
      have hwv : w ≠ v := by rintro rfl; exact hlv hx
      have hwpre : w ∉ pre := by
        rw [hE, List.filter_append, List.nodup_append] at hG
        intro hc
        exact hG.2.2 w (by simp [hc, hwv]) w (by simp [hwv]) rfl
      have hwU : w ∉ U := fun hc => hwpre ((hmem w).1 hc).1
      -- the current stack
      have hDnd : (U.reverse ++ v :: Z.filter (fun x => decide (x ∉ U))).Nodup := by
        rw [List.nodup_append]
        refine ⟨List.nodup_reverse.2 hU, ?_, ?_⟩
        · rw [List.nodup_cons]
          exact ⟨fun hc => hnd.1 (List.mem_of_mem_filter hc), hnd.2.filter _⟩
        · intro a ha c hc hac
          subst hac
          rw [List.mem_reverse] at ha
          rcases List.mem_cons.1 hc with rfl | hc
          · exact hvU ha
          · simpa [ha] using List.of_mem_filter hc
      obtain ⟨d, D, hD⟩ : ∃ d D, U.reverse ++ v :: Z.filter (fun x => decide (x ∉ U)) = d :: D := by
        cases h : U.reverse ++ v :: Z.filter (fun x => decide (x ∉ U)) with
        | nil => simp at h
        | cons d D => exact ⟨d, D, rfl⟩
      have hhd : hd = .label d := by rw [hD] at hS; exact hS.1
      have hnew : (U ++ [w]).reverse ++ v :: Z.filter (fun x => decide (x ∉ U ++ [w])) =
          w :: ((U.reverse ++ v :: Z.filter (fun x => decide (x ∉ U))).filter (fun x => decide (x ≠ w))) := by
        have e1 : U.reverse.filter (fun x => decide (x ≠ w)) = U.reverse := by
          rw [List.filter_eq_self]
          intro a ha
          rw [List.mem_reverse] at ha
          simp only [decide_eq_true_eq]
          rintro rfl; exact hwU ha
        simp only [List.reverse_append, List.reverse_cons, List.reverse_nil, List.nil_append, List.cons_append,
          List.filter_append, e1, List.filter_cons, List.filter_filter]
        simp [Ne.symm hwv, Bool.and_comm, not_or]
      have hUmem : ∀ u, u ∈ U ++ [w] ↔ u ∈ pre ++ [w] ∧ labels[u]? = some .void := by
        intro u
        simp only [List.mem_append, List.mem_singleton, hmem]
        constructor
        · rintro (h | rfl)
          · exact ⟨Or.inl h.1, h.2⟩
          · exact ⟨Or.inr rfl, hx⟩
        · rintro ⟨h | rfl, h'⟩
          · exact Or.inl ⟨h, h'⟩
          · exact Or.inr rfl
      have hUnd : (U ++ [w]).Nodup := by
        rw [List.nodup_append]
        refine ⟨hU, by simp, ?_⟩
        intro a ha c hc hac
        rw [List.mem_singleton] at hc
        subst hac; subst hc; exact hwU ha
      obtain ⟨y, hy⟩ : ∃ y, s[w]? = some y := ⟨s[w], by simp⟩
      wp
      rds [hy]
      rw [Ok_ite]
      have hwin : w ∉ U.reverse ++ v :: Z.filter (fun x => decide (x ∉ U)) → s[w]? = some .void := by
        intro hc
        rw [hkeep w hc]
        refine hvoid w hx ?_
        intro hc'
        rcases List.mem_cons.1 hc' with rfl | hc'
        · exact hwv rfl
        · exact hc (by simp [hc', hwU])
      refine ⟨fun hyv => ?_, fun hyv => ?_⟩
      · -- `w` is on the stack
        have hwD : w ∈ d :: D := by
          by_contra hc
          rw [← hD] at hc
          have := hwin hc
          rw [hy] at this
          exact hyv (by simpa using this)
        have hwd : w ≠ d := by
          rintro rfl
          cases hUr : U.reverse with
          | nil => rw [hUr] at hD; simp at hD; exact hwv hD.1.symm
          | cons u Ur =>
            rw [hUr] at hD; simp at hD
            have : w ∈ U := by rw [← List.mem_reverse, hUr, hD.1]; simp
            exact hwU this
        have hwD' : w ∈ D := (List.mem_cons.1 hwD).resolve_left hwd
        obtain ⟨X, c, Y, hXY⟩ : ∃ X c Y, d :: D = X ++ c :: w :: Y := by
          obtain ⟨P, Q, hPQ⟩ := List.append_of_mem hwD'
          rcases List.eq_nil_or_concat P with rfl | ⟨P', c, rfl⟩
          · exact ⟨[], d, Q, by rw [hPQ]; rfl⟩
          · exact ⟨d :: P', c, Q, by rw [hPQ]; simp⟩
        rw [hD] at hDnd hS hB hkeep
        rw [hXY] at hDnd hS hB
        obtain ⟨e1, f, e2, e3, e4, e5⟩ := excise hDnd hS hB
        rw [hy] at e2
        cases e2
        have hfilt : (X ++ c :: w :: Y).filter (fun x => decide (x ≠ w)) = X ++ c :: Y := by
          rw [List.nodup_append] at hDnd
          obtain ⟨-, q2, q3⟩ := hDnd
          simp only [List.nodup_cons, List.mem_cons, not_or] at q2
          have a1 : X.filter (fun x => decide (x ≠ w)) = X := by
            rw [List.filter_eq_self]
            intro a ha
            simp only [decide_eq_true_eq]
            rintro rfl; exact q3 a ha a (by simp) rfl
          have a2 : Y.filter (fun x => decide (x ≠ w)) = Y := by
            rw [List.filter_eq_self]
            intro a ha
            simp only [decide_eq_true_eq]
            rintro rfl; exact q2.2.1 ha
          rw [List.filter_append, List.filter_cons, List.filter_cons, a1, a2]
          simp [q2.1.1]
        rw [hD, hXY, hfilt] at hnew
        have hclt : c < s.length := hS.lt c (by simp)
        -- the new stack starts with `d`
        obtain ⟨D', hD'⟩ : ∃ D', X ++ c :: Y = d :: D' := by
          cases X with
          | nil => simp at hXY; exact ⟨Y, by simp [hXY.1]⟩
          | cons x X => simp at hXY; exact ⟨X ++ c :: Y, by simp [hXY.1]⟩
        have hsub : (X ++ c :: Y).Sublist (X ++ c :: w :: Y) := by simp
        have hnd2 : (d :: D').Nodup := by rw [← hD']; exact hDnd.sublist hsub
        have hwD2 : w ∉ d :: D' := by
          rw [← hD']
          intro hc
          rw [← hfilt] at hc
          simpa using List.of_mem_filter hc
        rw [hD'] at e4 e5 hnew
        rw [hhd] at e4
        have hfin := push_top hwD2 (by simpa using (show w < s.length by omega))
          (by rw [relink_length]; omega) (List.nodup_cons.1 hnd2).1 e4 e5
        wp
        rds [hy, e1]
        simp only [ne_eq, reduceCtorEq, not_false_eq_true, if_true]
        wp
        simp only [Node.unwrap]
        wp
        refine ⟨hclt, ?_⟩
        rw [Ok_ite]
        have hdlt : d < b.length := by
          have := hB.lt d (by rw [← hXY]; simp)
          omega
        have hkeep' : ∀ u : Nat, u ∉ w :: d :: D' → ((s.set c y).set w (.label d))[u]? = ss[u]? := by
          intro u hu
          simp only [List.mem_cons, not_or] at hu
          have huc : u ≠ c := by
            rintro rfl
            have : u ∈ d :: D' := by rw [← hD']; simp
            rcases List.mem_cons.1 this with h | h
            · exact hu.2.1 h
            · exact hu.2.2 h
          rw [List.getElem?_set_ne (Ne.symm hu.1), List.getElem?_set_ne (Ne.symm huc)]
          refine hkeep u ?_
          rw [hXY]
          intro hc
          have : u ∈ X ++ c :: Y := by simpa [hu.1] using hc
          rw [hD'] at this
          rcases List.mem_cons.1 this with h | h
          · exact hu.2.1 h
          · exact hu.2.2 h
        refine ⟨fun hyf => ?_, fun hyf => ?_⟩
        · cases Y with
          | nil => exact absurd (show y = .fin from e3) hyf
          | cons z Y =>
            obtain ⟨rfl, -⟩ := e3
            have hzlt : z < b.length := hB.lt z (by simp)
            simp only [Node.unwrap, hhd]
            wp
            refine ⟨by simpa using hzlt, by simp; omega, by simp; omega, by simpa using hdlt, _, rfl, U ++ [w], hUnd, hUmem,
              by simpa using hl1, by simpa using hl2, ?_⟩
            rw [hnew]
            exact ⟨hfin.1, hfin.2, hkeep'⟩
        · simp only [not_not] at hyf
          subst hyf
          simp only [hhd, Node.unwrap]
          wp
          refine ⟨by simp; omega, by omega, by simpa using hdlt, _, rfl, U ++ [w], hUnd, hUmem,
              by simpa using hl1, by simpa using hl2, ?_⟩
          rw [hnew]
          exact ⟨hfin.1, hfin.2, hkeep'⟩
      · -- `w` is not on the stack
        simp only [ne_eq, not_not] at hyv
        subst hyv
        have hwD : w ∉ d :: D := by
          rw [← hD]
          intro hc
          exact hS.mem_ne_void hc hy
        have hfilt : (d :: D).filter (fun x => decide (x ≠ w)) = d :: D := by
          rw [List.filter_eq_self]
          intro a ha
          simp only [decide_eq_true_eq]
          rintro rfl; exact hwD ha
        rw [hD, hfilt] at hnew
        rw [hD] at hDnd hS hB hkeep
        rw [hhd] at hS
        have hdlt : d < b.length := hB.lt d (by simp)
        have hfin := push_top hwD (by omega) (by omega) (List.nodup_cons.1 hDnd).1 hS hB
        wp
        simp only [hhd, Node.unwrap]
        wp
        refine ⟨by omega, by omega, by simpa using hdlt, _, rfl, U ++ [w], hUnd, hUmem,
              by simpa using hl1, by simpa using hl2, ?_⟩
        rw [hnew]
        refine ⟨hfin.1, hfin.2, ?_⟩
        intro u hu
        rw [List.getElem?_set_ne (by rintro rfl; exact hu (by simp))]
        exact hkeep u fun hc => hu (by simp [List.mem_cons.1 hc])
    · wp
      refine ⟨_, rfl, U, hU, ?_, hl1, hl2, hS, hB, hkeep⟩
      intro u
      rw [hmem, List.mem_append, List.mem_singleton]
      constructor
      · rintro ⟨h, h'⟩; exact ⟨Or.inl h, h'⟩
      · rintro ⟨h | rfl, h'⟩
        · exact ⟨h, h'⟩
        · rw [hx] at h'; exact absurd (by simpa using h') hxv
  · rintro ⟨s, b, hd⟩ h
    wp
    exact h

theorem Node.label_lt {a b : Nat} : (Node.label a).lt (.label b) = true ↔ a < b := by simp [Node.lt]

theorem Node.label_le {a b : Nat} : (Node.label a).le (.label b) = false ↔ b < a := by simp [Node.le]

/-- the lowlink of `v` -/
theorem scc_low_ok {p j : List Int} {n : Nat} {G : Nat → List Nat} {o : Nat → Nat} (hg : GRep p j n G o)
    {v k : Nat} (hv : v < n) {labels : List Node} (hk : labels[v]? = some (.label k))
    (hlab : ∀ w ∈ G v, ∃ m, labels[w]? = some (.label m)) :
    Ok (scc_low v j p labels) fun r => ∃ l, r.2 = .label l ∧ l ≤ k ∧
      (∀ w ∈ G v, ∀ m, labels[w]? = some (.label m) → l ≤ m) ∧ (r.1 = true → l = k) ∧
      (r.1 = false → l < k ∧ ∃ w ∈ G v, labels[w]? = some (.label l)) := by
  unfold scc_low
  wp
  rds [hk, hg.start v hv, hg.stop v hv]
  refine hg.forG hv (P := fun pre st => ∃ l, st.2 = .label l ∧ l ≤ k ∧
      (∀ w ∈ pre, ∀ m, labels[w]? = some (.label m) → l ≤ m) ∧ (st.1 = true → l = k) ∧
      (st.1 = false → l < k ∧ ∃ w ∈ G v, labels[w]? = some (.label l))) ?_ ?_ ?_
  · exact ⟨k, rfl, le_refl k, by simp, by simp, by simp⟩
  · rintro pre w suf ⟨root, lo⟩ hE hw ⟨l, q1, q2, q3, q4, q5⟩ hj
    simp only at q1 q4 q5
    subst q1
    have hwG : w ∈ G v := by rw [hE]; simp
    obtain ⟨m, hm⟩ := hlab w hwG
    wp
    rds [hj, hm]
    simp only [Node.label_lt]
    rw [Ok_ite]
    refine ⟨fun hml => ?_, fun hml => ?_⟩
    · wp
      refine ⟨_, rfl, m, rfl, by omega, ?_, by simp, fun _ => ⟨by omega, w, hwG, hm⟩⟩
      intro u hu m' hm'
      rcases List.mem_append.1 hu with hu | hu
      · have := q3 u hu m' hm'; omega
      · rw [List.mem_singleton.1 hu, hm] at hm'
        simp at hm'; omega
    · wp
      refine ⟨_, rfl, l, rfl, q2, ?_, q4, q5⟩
      intro u hu m' hm'
      rcases List.mem_append.1 hu with hu | hu
      · exact q3 u hu m' hm'
      · rw [List.mem_singleton.1 hu, hm] at hm'
        simp at hm'; omega
  · rintro ⟨root, lo⟩ h
    wp
    exact h

/-- popping a component: the nodes `A` on top of the stack with labels `≥ k` -/
theorem scc_pop_ok {n v k index fuel : Nat} {lab : Node} {labels ss : List Node} {h : Node} {A B : List Nat}
    (hl1 : labels.length = n) (hl2 : ss.length = n) (hv : v ∉ A) (hk : labels[v]? = some (.label k))
    (hnd : (A ++ B).Nodup) (hs : Stk ss h (A ++ B)) (hA : ∀ a ∈ A, ∃ m, k ≤ m ∧ labels[a]? = some (.label m))
    (hB : ∀ b ∈ B, ∃ m, m < k ∧ labels[b]? = some (.label m)) (hi : A.length ≤ index) (hf : A.length < fuel) :
    Ok (scc_pop fuel v lab labels ss h index) fun r => r.1.length = n ∧ r.2.1.length = n ∧
      (∀ u ∈ A, r.1[u]? = some lab ∧ r.2.1[u]? = some .void) ∧
      (∀ u : Nat, u ∉ A → r.1[u]? = labels[u]? ∧ r.2.1[u]? = ss[u]?) ∧
      Stk r.2.1 r.2.2.1 B ∧ r.2.2.2 = index - A.length := by
  unfold scc_pop
  refine Ok_whileN (k := A.length) (P := fun r (st : List Node × List Node × Node × Nat) => ∃ A1 A2, A = A1 ++ A2 ∧ A2.length = r ∧
      st.1.length = n ∧ st.2.1.length = n ∧
      (∀ u ∈ A1, st.1[u]? = some lab ∧ st.2.1[u]? = some .void) ∧
      (∀ u : Nat, u ∉ A1 → st.1[u]? = labels[u]? ∧ st.2.1[u]? = ss[u]?) ∧
      Stk st.2.1 st.2.2.1 (A2 ++ B) ∧ st.2.2.2 = index - A1.length) hf ?_ ?_
  · exact ⟨[], A, rfl, rfl, hl1, hl2, by simp, by simp, hs, by simp⟩
  · rintro r ⟨l, s, hd, ix⟩ ⟨A1, A2, hA12, hr, e1, e2, e3, e4, e5, e6⟩
    simp only at e1 e2 e3 e4 e5 e6
    have hvA1 : v ∉ A1 := fun hc => hv (by rw [hA12]; simp [hc])
    have hvl : l[v]? = some (.label k) := by rw [(e4 v hvA1).1]; exact hk
    have hdone : A2 = [] → ∀ (st : ForInStep (List Node × List Node × Node × Nat)), st = .done (l, s, hd, ix) →
        (match st with
          | .yield s' => ∃ k' < r, ∃ A1 A2, A = A1 ++ A2 ∧ A2.length = k' ∧
              s'.1.length = n ∧ s'.2.1.length = n ∧
              (∀ u ∈ A1, s'.1[u]? = some lab ∧ s'.2.1[u]? = some .void) ∧
              (∀ u : Nat, u ∉ A1 → s'.1[u]? = labels[u]? ∧ s'.2.1[u]? = ss[u]?) ∧
              Stk s'.2.1 s'.2.2.1 (A2 ++ B) ∧ s'.2.2.2 = index - A1.length
          | .done s' => s'.1.length = n ∧ s'.2.1.length = n ∧
              (∀ u ∈ A, s'.1[u]? = some lab ∧ s'.2.1[u]? = some .void) ∧
              (∀ u : Nat, u ∉ A → s'.1[u]? = labels[u]? ∧ s'.2.1[u]? = ss[u]?) ∧
              Stk s'.2.1 s'.2.2.1 B ∧ s'.2.2.2 = index - A.length) := by
      rintro rfl st rfl
      simp only [List.append_nil] at hA12
      subst hA12
      exact ⟨e1, e2, e3, e4, e5, e6⟩
    simp only
    rw [Ok_ite]
    refine ⟨fun hfin => ?_, fun hfin => ?_⟩
    · have hA2 : A2 = [] := by
        cases A2 with
        | nil => rfl
        | cons a A2 => rw [e5.1] at hfin; simp at hfin
      wp
      exact hdone hA2 _ rfl
    · obtain ⟨w, R, hwR⟩ : ∃ w R, A2 ++ B = w :: R := by
        cases hAB : A2 ++ B with
        | nil => rw [hAB] at e5; exact absurd e5 hfin
        | cons w R => exact ⟨w, R, rfl⟩
      rw [hwR] at e5
      obtain ⟨rfl, nx, hnx, hnv, hR⟩ := e5
      have hwA1 : w ∉ A1 := by
        rw [hA12, List.append_assoc, hwR, List.nodup_append] at hnd
        intro hc
        exact hnd.2.2 w hc w (by simp) rfl
      wp
      simp only [Node.unwrap]
      wp
      rds [hvl]
      cases A2 with
      | nil =>
        simp only [List.nil_append] at hwR
        obtain ⟨m, hm, hml⟩ := hB w (by rw [hwR]; simp)
        have hwl : l[w]? = some (.label m) := by rw [(e4 w hwA1).1]; exact hml
        rds [hwl]
        rw [Ok_ite]
        refine ⟨fun _ => ?_, fun hc => ?_⟩
        · wp
          exact hdone rfl _ rfl
        · exact absurd (Node.label_le.2 hm) hc
      | cons a A2 =>
        simp only [List.cons_append, List.cons.injEq] at hwR
        obtain ⟨rfl, rfl⟩ := hwR
        obtain ⟨m, hm, hml⟩ := hA a (by rw [hA12]; simp)
        have hwl : l[a]? = some (.label m) := by rw [(e4 a hwA1).1]; exact hml
        rds [hwl]
        rw [Ok_ite]
        refine ⟨fun hc => ?_, fun _ => ?_⟩
        · rw [Node.label_le] at hc; omega
        · wp
          have hal := lt_of_getElem?_some hwl
          have has := lt_of_getElem?_some hnx
          rw [hA12, List.append_assoc, List.nodup_append] at hnd
          obtain ⟨-, hnd2, -⟩ := hnd
          simp only [List.cons_append, List.nodup_cons] at hnd2
          have hlen : A.length = A1.length + (A2.length + 1) := by rw [hA12]; simp
          refine ⟨nx, hnx, has, hal, by omega, A2.length, by simp at hr; omega, A1 ++ [a], A2, by simp [hA12], rfl,
            by simpa using e1, by simpa using e2, ?_, ?_, ?_, ?_⟩
          · intro u hu
            rcases List.mem_append.1 hu with hu | hu
            · have : a ≠ u := by rintro rfl; exact hwA1 hu
              rw [List.getElem?_set_ne this, List.getElem?_set_ne this]
              exact e3 u hu
            · rw [List.mem_singleton.1 hu]
              exact ⟨List.getElem?_set_self hal, List.getElem?_set_self has⟩
          · intro u hu
            simp only [List.mem_append, List.mem_singleton, not_or] at hu
            rw [List.getElem?_set_ne (Ne.symm hu.2), List.getElem?_set_ne (Ne.symm hu.2)]
            exact e4 u hu.1
          · exact hR.set hnd2.1 _
          · simp only [List.length_append, List.length_singleton]
            omega

end Sparse

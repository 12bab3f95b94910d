import Verif.SpecGraph
import Verif.Lemmas.Rows
import Verif.Lemmas.Fail
import Verif.Model.Graph
/-!
Adjacency lists, a `while` rule with a ghost measure, and the search for undirected components.
-/
namespace Sparse

/-- `while` rule whose measure is a ghost: `P k s` says at most `k` more rounds are needed from `s`. -/
theorem Ok_whileN {σ : Type} {fuel : Nat} {s : σ} {step : σ → M (ForInStep σ)} {Q : σ → Prop}
    (P : Nat → σ → Prop) {k : Nat} (hf : k < fuel) (h0 : P k s)
    (hs : ∀ k s, P k s → Ok (step s)
      (fun st => match st with | .yield s' => ∃ k', k' < k ∧ P k' s' | .done s' => Q s')) :
    Ok (whileM fuel s step) Q := by
  induction fuel generalizing s k with
  | zero => omega
  | succ n ih =>
    unfold whileM
    rw [Ok_bind]
    refine (hs k s h0).mono ?_
    intro st hst
    cases st with
    | done s' => exact Ok_pure.2 hst
    | yield s' =>
      obtain ⟨k', h1, h2⟩ := hst
      exact ih (by omega) h2

/-- the same for loops that may fail -/
theorem WP_whileN {σ : Type} {fuel : Nat} {s : σ} {step : σ → M (ForInStep σ)} {Q : σ → Prop} {E : Fault → Prop}
    (P : Nat → σ → Prop) {k : Nat} (hf : k < fuel) (h0 : P k s)
    (hs : ∀ k s, P k s → WP (step s)
      (fun st => match st with | .yield s' => ∃ k', k' < k ∧ P k' s' | .done s' => Q s') E) :
    WP (whileM fuel s step) Q E := by
  induction fuel generalizing s k with
  | zero => omega
  | succ n ih =>
    unfold whileM
    rw [WP_bind]
    refine (hs k s h0).mono ?_ (fun _ h => h)
    intro st hst
    cases st with
    | done s' => exact hst
    | yield s' =>
      obtain ⟨k', h1, h2⟩ := hst
      exact ih (by omega) h2

/-- The arrays `p`, `j` hold the adjacency lists `G v`, `v < n`, with nodes below `n`. -/
structure GRep (p j : List Int) (n : Nat) (G : Nat → List Nat) (o : Nat → Nat) : Prop where
  start : ∀ v, v < n → p[v]? = some ((o v : Nat) : Int)
  stop : ∀ v, v < n → p[v + 1]? = some ((o v + (G v).length : Nat) : Int)
  get : ∀ v m w, v < n → (G v)[m]? = some w → j[o v + m]? = some ((w : Nat) : Int)
  lt : ∀ v w, v < n → w ∈ G v → w < n

theorem GRep.forG {p j : List Int} {n : Nat} {G : Nat → List Nat} {o : Nat → Nat} (hg : GRep p j n G o)
    {v : Nat} (hv : v < n) {σ : Type} {s : σ} {f : Nat → σ → M (ForInStep σ)} {Q : σ → Prop}
    (P : List Nat → σ → Prop) (h0 : P [] s)
    (hs : ∀ pre w suf s, G v = pre ++ w :: suf → w < n → P pre s → j[o v + pre.length]? = some ((w : Nat) : Int) →
      Ok (f (o v + pre.length) s) (fun st => ∃ s', st = .yield s' ∧ P (pre ++ [w]) s'))
    (hQ : ∀ s, P (G v) s → Q s) :
    Ok (forIn (rng (o v) (o v + (G v).length)) s f) Q := by
  refine Ok_forOff (E := G v) rfl P h0 ?_ hQ
  intro pre w suf s hE hp
  exact hs pre w suf s hE (hg.lt v w hv (by rw [hE]; simp)) hp (hg.get v pre.length w hv (by rw [hE]; simp))

/-- as `forG`, with early exit -/
theorem GRep.forG' {p j : List Int} {n : Nat} {G : Nat → List Nat} {o : Nat → Nat} (hg : GRep p j n G o)
    {v : Nat} (hv : v < n) {σ : Type} {s : σ} {f : Nat → σ → M (ForInStep σ)} {Q : σ → Prop}
    (P : List Nat → σ → Prop) (R : σ → Prop) (h0 : P [] s)
    (hs : ∀ pre w suf s, G v = pre ++ w :: suf → w < n → P pre s → j[o v + pre.length]? = some ((w : Nat) : Int) →
      Ok (f (o v + pre.length) s) (fun st => match st with | .yield s' => P (pre ++ [w]) s' | .done s' => R s'))
    (hR : ∀ s, R s → Q s) (hQ : ∀ s, P (G v) s → Q s) :
    Ok (forIn (rng (o v) (o v + (G v).length)) s f) Q := by
  refine Ok_forRange' (fun k s => P ((G v).take (k - o v)) s) R (by omega) (by simpa using h0) ?_ hR ?_
  · intro k s h1 h2 hp
    obtain ⟨q, rfl⟩ : ∃ q, k = o v + q := ⟨k - o v, by omega⟩
    have hq : q < (G v).length := by omega
    simp only [Nat.add_sub_cancel_left] at hp
    have e1 : ((G v).take q).length = q := by simp; omega
    have := hs ((G v).take q) (G v)[q] ((G v).drop (q + 1)) s (by simp)
      (hg.lt v _ hv (List.getElem_mem _)) hp (hg.get v _ _ hv (by rw [e1]; simp))
    rw [e1] at this
    refine this.mono ?_
    intro st hst
    cases st with
    | done s' => exact hst
    | yield s' =>
      show P ((G v).take (o v + q + 1 - o v)) s'
      rw [show o v + q + 1 - o v = q + 1 by omega, List.take_succ_eq_append_getElem hq]
      exact hst
  · intro s h
    rw [Nat.add_sub_cancel_left, List.take_length] at h
    exact hQ s h

section
variable {T : Type}

/-- successors of node `v`, in storage order -/
def CSR.succ (a : CSR T) (v : Nat) : List Nat := (a.row v).map fun e => e.1.toNat

theorem CSR.WF.grep {t : IntTy} {a : CSR T} (h : a.WF t) (hsq : a.rows = a.cols) :
    GRep a.rowptr a.colidx a.rows a.succ (fun v => (flat a.row v).length) := by
  have hr : Rep a.rowptr a.colidx a.values a.rows a.row := WFptr.rep h
  refine ⟨fun v hv => hr.ptr v (by omega), fun v hv => ?_, fun v m w hv hw => ?_, fun v w hv hw => ?_⟩
  · rw [hr.ptr_succ hv]; simp [CSR.succ]
  · simp only [CSR.succ, List.getElem?_map, Option.map_eq_some_iff] at hw
    obtain ⟨e, he, rfl⟩ := hw
    have := (hr.get hv he).1
    rw [this, Int.toNat_of_nonneg]
    exact (WFptr.mem h hv (List.mem_of_getElem? he)).1
  · simp only [CSR.succ, List.mem_map] at hw
    obtain ⟨e, he, rfl⟩ := hw
    have := WFptr.mem h hv he
    omega

theorem CSR.WF.row_nil {t : IntTy} {a : CSR T} (h : a.WF t) {v : Nat} (hv : a.rows ≤ v) : a.row v = [] := by
  have : a.rowptr[v + 1]? = none := by
    rw [List.getElem?_eq_none_iff, WFptr.len h]; omega
  unfold CSR.row rowOf
  rw [this]
  split <;> simp_all

theorem CSR.WF.mem_succ {t : IntTy} {a : CSR T} (h : a.WF t) {v w : Nat} : w ∈ a.succ v ↔ a.has v w := by
  unfold CSR.succ CSR.has
  simp only [List.mem_map]
  rcases Nat.lt_or_ge v a.rows with hv | hv
  · constructor
    · rintro ⟨e, he, rfl⟩
      have := (WFptr.mem h hv he).1
      exact ⟨e.2, by rw [Int.toNat_of_nonneg this]; exact he⟩
    · rintro ⟨x, hx⟩
      exact ⟨_, hx, by simp⟩
  · rw [h.row_nil hv]; simp

theorem CSR.WF.has_lt {t : IntTy} {a : CSR T} (h : a.WF t) {v w : Nat} (hw : a.has v w) :
    v < a.rows ∧ w < a.cols := by
  obtain ⟨x, hx⟩ := hw
  rcases Nat.lt_or_ge v a.rows with hv | hv
  · have := WFptr.mem h hv hx
    simp only at this
    exact ⟨hv, by omega⟩
  · rw [h.row_nil hv] at hx; simp at hx

theorem CSR.mem_triples_iff {a : CSR T} {i j : Int} {x : T} :
    (i, j, x) ∈ a.triples ↔ ∃ r : Nat, r < a.rows ∧ (r : Int) = i ∧ (j, x) ∈ a.row r := by
  unfold CSR.triples
  simp only [List.mem_flatMap, List.mem_range, List.mem_map, Prod.mk.injEq]
  constructor
  · rintro ⟨r, hr, e, he, h1, h2, h3⟩
    exact ⟨r, hr, h1, by rw [← h2, ← h3]; exact he⟩
  · rintro ⟨r, hr, h1, h2⟩
    exact ⟨r, hr, _, h2, h1, rfl, rfl⟩

end

/-! ### undirected components -/

/-- `S` is the stack whose top is `h`, threaded through `l` -/
def Stk (l : List Node) : Node → List Nat → Prop
  | h, [] => h = .fin
  | h, w :: S => h = .label w ∧ ∃ x, l[w]? = some x ∧ x ≠ .void ∧ Stk l x S

theorem Stk.congr {l l' : List Node} {h : Node} {S : List Nat} (hl : ∀ w ∈ S, l'[w]? = l[w]?) (hs : Stk l h S) :
    Stk l' h S := by
  induction S generalizing h with
  | nil => exact hs
  | cons w S ih =>
    obtain ⟨h1, x, h2, h3, h4⟩ := hs
    exact ⟨h1, x, by rw [hl w (by simp)]; exact h2, h3, ih (fun u hu => hl u (by simp [hu])) h4⟩

theorem Stk.ne_void {l : List Node} {h : Node} {S : List Nat} (hs : Stk l h S) : h ≠ .void := by
  cases S with
  | nil => rw [show h = .fin from hs]; simp
  | cons w S => rw [hs.1]; simp

theorem Stk.mem_ne_void {l : List Node} {h : Node} {S : List Nat} (hs : Stk l h S) {w : Nat} (hw : w ∈ S) :
    l[w]? ≠ some .void := by
  induction S generalizing h with
  | nil => simp at hw
  | cons u S ih =>
    obtain ⟨h1, x, h2, h3, h4⟩ := hs
    rcases List.mem_cons.1 hw with rfl | hw
    · rw [h2]; simpa using h3
    · exact ih h4 hw

theorem cc_push_ok {p j : List Int} {n : Nat} {G : Nat → List Nat} {o : Nat → Nat} (hg : GRep p j n G o)
    {v : Nat} (hv : v < n) {labels : List Node} (hl : labels.length = n) {h : Node} {S : List Nat}
    (hs : Stk labels h S) :
    Ok (cc_push v j p labels h) fun r => r.1.length = n ∧ ∃ N : List Nat, N.Nodup ∧ Stk r.1 r.2 (N ++ S) ∧
      (∀ w ∈ N, labels[w]? = some .void ∧ w ∈ G v) ∧ (∀ w ∈ G v, r.1[w]? ≠ some .void) ∧
      (∀ u, u ∉ N → r.1[u]? = labels[u]?) := by
  unfold cc_push
  wp
  rds [hg.start v hv, hg.stop v hv]
  refine hg.forG hv (P := fun pre st => st.1.length = n ∧ ∃ N : List Nat, N.Nodup ∧ Stk st.1 st.2 (N ++ S) ∧
      (∀ w ∈ N, labels[w]? = some .void ∧ w ∈ G v) ∧ (∀ w ∈ pre, st.1[w]? ≠ some .void) ∧
      (∀ u, u ∉ N → st.1[u]? = labels[u]?)) ?_ ?_ ?_
  · exact ⟨hl, [], by simp, hs, by simp, by simp, by simp⟩
  · rintro pre w suf ⟨l, h'⟩ hE hw ⟨hlen, N, hN, hS, hvd, hpre, hkeep⟩ hj
    simp only at hlen hS hpre hkeep
    wp
    rds [hj]
    obtain ⟨x, hx⟩ : ∃ x, l[w]? = some x := ⟨l[w], by simp⟩
    rds [hx]
    rw [Ok_ite]
    refine ⟨fun hxv => ?_, fun hxv => ?_⟩
    · subst hxv
      wp
      refine ⟨by omega, _, rfl, by simpa using hlen, w :: N, ?_, ⟨rfl, h', ?_, hS.ne_void, ?_⟩, ?_, ?_, ?_⟩
      · rw [List.nodup_cons]
        refine ⟨fun hc => ?_, hN⟩
        exact hS.mem_ne_void (by simp [hc]) hx
      · simp only [List.getElem?_set]; simp; omega
      · refine hS.congr fun u hu => ?_
        have : u ≠ w := by rintro rfl; exact hS.mem_ne_void hu hx
        simp [List.getElem?_set, Ne.symm this]
      · intro u hu
        rcases List.mem_cons.1 hu with rfl | hu
        · refine ⟨?_, by rw [hE]; simp⟩
          rw [← hkeep u fun hc => hS.mem_ne_void (by simp [hc]) hx]; exact hx
        · exact hvd u hu
      · intro u hu
        have hnv := hS.ne_void
        by_cases huw : u = w
        · subst huw
          rw [List.getElem?_set_self (by omega)]; simpa using hnv
        · simp only [List.getElem?_set, Ne.symm huw, if_false]
          simp only [List.mem_append, List.mem_singleton, huw, or_false] at hu
          exact hpre u hu
      · intro u hu
        simp only [List.mem_cons, not_or] at hu
        simp only [List.getElem?_set, Ne.symm hu.1, if_false]
        exact hkeep u hu.2
    · wp
      refine ⟨_, rfl, hlen, N, hN, hS, hvd, ?_, hkeep⟩
      intro u hu
      rcases List.mem_append.1 hu with hu | hu
      · exact hpre u hu
      · rw [List.mem_singleton.1 hu, hx]; simpa using hxv
  · rintro ⟨l, h'⟩ ⟨hlen, N, hN, hS, hvd, hpre, hkeep⟩
    wp
    exact ⟨hlen, N, hN, hS, hvd, hpre, hkeep⟩

/-- The state between two components of the undirected search: `L` components have been labelled, and every node
below `v` is labelled. -/
structure CCOut (adj : Nat → Nat → Prop) (n : Nat) (labels : List Node) (L v : Nat) : Prop where
  len : labels.length = n
  val : ∀ (u : Nat) (x : Node), labels[u]? = some x → x = .void ∨ ∃ l, l < L ∧ x = .label l
  closed : ∀ (u w l : Nat), labels[u]? = some (.label l) → adj u w → labels[w]? = some (.label l)
  conn : ∀ (u w l : Nat), labels[u]? = some (.label l) → labels[w]? = some (.label l) → Relation.ReflTransGen adj u w
  first : ∀ (u l : Nat), labels[u]? = some (.label l) → ∀ m, m < l → ∃ u', u' < u ∧ labels[u']? = some (.label m)
  used : ∀ m, m < L → ∃ u', u' < v ∧ labels[u']? = some (.label m)
  upto : ∀ u, u < v → labels[u]? ≠ some .void

/-- The state while the component of `r` is being searched: `C` is labelled `L`, `S` is on the stack. -/
structure CCIn (adj : Nat → Nat → Prop) (n : Nat) (labels0 : List Node) (L r : Nat) (labels : List Node) (h : Node)
    (S C : List Nat) : Prop where
  len : labels.length = n
  stk : Stk labels h S
  nodup : (S ++ C).Nodup
  void : ∀ u ∈ S ++ C, labels0[u]? = some .void
  conn : ∀ u ∈ S ++ C, Relation.ReflTransGen adj r u
  lab : ∀ u ∈ C, labels[u]? = some (.label L)
  keep : ∀ u, u ∉ S ++ C → labels[u]? = labels0[u]?
  nbr : ∀ u ∈ C, ∀ w, adj u w → w ∈ S ++ C
  root : r ∈ S ++ C

theorem nodup_lt_length {C : List Nat} {n : Nat} (hd : C.Nodup) (hlt : ∀ u ∈ C, u < n) : C.length ≤ n := by
  have h1 : C ⊆ List.range n := fun u hu => List.mem_range.2 (hlt u hu)
  have := (List.subperm_of_subset hd h1).length_le
  simpa using this

theorem lt_of_getElem?_some {α : Type} {l : List α} {u : Nat} {x : α} (h : l[u]? = some x) : u < l.length := by
  rw [List.getElem?_eq_some_iff] at h; exact h.1

/-- one round of the search -/
theorem CCIn.push {labels0 : List Node} {L : Nat} {labels : List Node} {h : Node}
    {S C N : List Nat} {labels' : List Node}
    (hin : ∀ u ∈ S ++ C, labels0[u]? = some .void)
    (hstk : Stk labels h S) (hC : ∀ u ∈ C, labels[u]? = some (.label L))
    (hN : N.Nodup)
    (hv : ∀ w ∈ N, labels[w]? = some .void) (hk : ∀ u, u ∉ N → labels'[u]? = labels[u]?)
    (hkeep : ∀ u, u ∉ S ++ C → labels[u]? = labels0[u]?)
    (hnd : (S ++ C).Nodup) :
    (N ++ S ++ C).Nodup ∧ (∀ u ∈ N ++ S ++ C, labels0[u]? = some .void) ∧ (∀ u ∈ C, labels'[u]? = some (.label L)) ∧
      (∀ u, u ∉ N ++ S ++ C → labels'[u]? = labels0[u]?) := by
  have hNS : ∀ u ∈ N, u ∉ S ++ C := by
    intro u hu hc
    rcases List.mem_append.1 hc with hc | hc
    · exact hstk.mem_ne_void hc (hv u hu)
    · have := hC u hc
      rw [hv u hu] at this
      simp at this
  refine ⟨?_, ?_, ?_, ?_⟩
  · rw [List.append_assoc, List.nodup_append]
    exact ⟨hN, hnd, fun a ha b hb hab => hNS a ha (hab ▸ hb)⟩
  · intro u hu
    rw [List.append_assoc] at hu
    rcases List.mem_append.1 hu with hu | hu
    · rw [← hkeep u (hNS u hu)]; exact hv u hu
    · exact hin u hu
  · intro u hu
    rw [hk u fun hc => hNS u hc (by simp [hu])]
    exact hC u hu
  · intro u hu
    rw [List.append_assoc, List.mem_append, not_or] at hu
    rw [hk u hu.1, hkeep u hu.2]

theorem ccu_ok {p1 j1 p2 j2 : List Int} {n : Nat} {G1 G2 : Nat → List Nat} {o1 o2 : Nat → Nat}
    (hg1 : GRep p1 j1 n G1 o1) (hg2 : GRep p2 j2 n G2 o2) {adj : Nat → Nat → Prop}
    (hadj : ∀ u w, u < n → (adj u w ↔ w ∈ G1 u ∨ w ∈ G2 u)) (hsym : ∀ u w, adj u w → adj w u)
    {fuel : Nat} (hf : n < fuel) :
    Ok (connected_components_undirected fuel n j1 p1 j2 p2) fun r => r.2.length = n ∧
      (∀ (u w : Nat), u < n → w < n → (r.2[u]? = r.2[w]? ↔ Relation.ReflTransGen adj u w)) ∧
      (∀ l, l ∈ r.2 ↔ l < r.1) ∧
      (∀ (u l : Nat), r.2[u]? = some l → ∀ m, m < l → ∃ u', u' < u ∧ r.2[u']? = some m) := by
  have hsymm : ∀ u w, Relation.ReflTransGen adj u w → Relation.ReflTransGen adj w u := fun u w h => by
    haveI : Std.Symm adj := ⟨hsym⟩
    exact symm h
  unfold connected_components_undirected
  wp
  refine Ok_forRange (fun v st => CCOut adj n st.1 st.2 v) (by omega) ?_ ?_ ?_
  · refine ⟨by simp, ?_, ?_, ?_, ?_, by simp, by simp⟩
    · intro u x hx
      rw [List.getElem?_replicate] at hx
      split at hx <;> simp_all
    all_goals
      intro u
      intros
      simp_all [List.getElem?_replicate]
  · rintro r ⟨labels0, L⟩ - hr ho
    simp only at ho
    have hlen := ho.len
    obtain ⟨x, hx⟩ : ∃ x, labels0[r]? = some x := ⟨labels0[r], by simp⟩
    wp
    rds [hx]
    rw [Ok_ite]
    refine ⟨fun hxv => ?_, fun hxv => ?_⟩
    · subst hxv
      wp
      refine ⟨by omega, ?_⟩
      refine Ok_whileN (fun k st => ∃ S C, CCIn adj n labels0 L r st.1 st.2 S C ∧ k = n - C.length) hf
        (k := n) ⟨[r], [], ⟨?_, ⟨rfl, .fin, ?_, by simp, rfl⟩, by simp, ?_, ?_, by simp, ?_, by simp, by simp⟩, by simp⟩ ?_
      · simpa using hlen
      · rw [List.getElem?_set_self (by omega)]
      · intro u hu; simp at hu; subst hu; exact hx
      · intro u hu; simp at hu; subst hu; exact .refl
      · intro u hu
        simp at hu
        simp [List.getElem?_set, Ne.symm hu]
      · rintro k ⟨labels, h⟩ ⟨S, C, hi, rfl⟩
        simp only at hi
        rw [Ok_ite]
        refine ⟨fun hh => ?_, fun hh => ?_⟩
        · wp
          -- the component is complete
          refine ⟨_, rfl, ?_⟩
          subst hh
          have hS : S = [] := by
            cases S with
            | nil => rfl
            | cons w S => exact absurd hi.stk.1 (by simp)
          subst hS
          have hCl := hi.lab
          have hC0 := hi.void
          simp only [List.nil_append] at hC0
          have hkeep : ∀ u, u ∉ C → labels[u]? = labels0[u]? := by simpa using hi.keep
          have hnbr : ∀ u ∈ C, ∀ w, adj u w → w ∈ C := by simpa using hi.nbr
          have hroot : r ∈ C := by simpa using hi.root
          have hconn : ∀ u ∈ C, Relation.ReflTransGen adj r u := by simpa using hi.conn
          have hold : ∀ (u l : Nat), l ≠ L → labels[u]? = some (.label l) → u ∉ C := by
            intro u l hl h1 hc
            rw [hCl u hc] at h1
            simp at h1; omega
          have hold' : ∀ (u l : Nat), labels0[u]? = some (.label l) → l < L ∧ u ∉ C := by
            intro u l h1
            refine ⟨?_, fun hc => ?_⟩
            · rcases ho.val u _ h1 with h2 | ⟨l', h2, h3⟩
              · simp at h2
              · simp at h3; omega
            · rw [hC0 u hc] at h1; simp at h1
          have hlab : ∀ (u l : Nat), labels[u]? = some (.label l) → (u ∈ C ∧ l = L) ∨ (u ∉ C ∧ labels0[u]? = some (.label l) ∧ l < L) := by
            intro u l h1
            by_cases hc : u ∈ C
            · rw [hCl u hc] at h1; simp at h1; exact .inl ⟨hc, h1.symm⟩
            · rw [hkeep u hc] at h1
              exact .inr ⟨hc, h1, (hold' u l h1).1⟩
          have hkeepl : ∀ (u l : Nat), labels0[u]? = some (.label l) → labels[u]? = some (.label l) := by
            intro u l h1
            rw [hkeep u (hold' u l h1).2]; exact h1
          refine ⟨hi.len, ?_, ?_, ?_, ?_, ?_, ?_⟩
          · intro u x hx
            by_cases hc : u ∈ C
            · rw [hCl u hc] at hx
              simp at hx
              exact .inr ⟨L, by omega, hx.symm⟩
            · rw [hkeep u hc] at hx
              rcases ho.val u x hx with h1 | ⟨l, h1, h2⟩
              · exact .inl h1
              · exact .inr ⟨l, by omega, h2⟩
          · intro u w l h1 h2
            rcases hlab u l h1 with ⟨hc, rfl⟩ | ⟨hc, h3, h4⟩
            · exact hCl w (hnbr u hc w h2)
            · exact hkeepl w l (ho.closed u w l h3 h2)
          · intro u w l h1 h2
            rcases hlab u l h1 with ⟨hc, rfl⟩ | ⟨hc, h3, h4⟩ <;> rcases hlab w _ h2 with ⟨hc', h5⟩ | ⟨hc', h5, h6⟩
            · exact (hsymm _ _ (hconn u hc)).trans (hconn w hc')
            · omega
            · omega
            · exact ho.conn u w l h3 h5
          · intro u l h1 m hm
            rcases hlab u l h1 with ⟨hc, rfl⟩ | ⟨hc, h3, h4⟩
            · obtain ⟨u', h5, h6⟩ := ho.used m hm
              have : ¬ u < r := fun hlt => ho.upto u hlt (hC0 u hc)
              exact ⟨u', by omega, hkeepl _ _ h6⟩
            · obtain ⟨u', h5, h6⟩ := ho.first u l h3 m hm
              exact ⟨u', h5, hkeepl _ _ h6⟩
          · intro m hm
            by_cases hmL : m = L
            · subst hmL
              exact ⟨r, by omega, hCl r hroot⟩
            · obtain ⟨u', h5, h6⟩ := ho.used m (by omega)
              exact ⟨u', by omega, hkeepl _ _ h6⟩
          · intro u hu h1
            by_cases hc : u ∈ C
            · rw [hCl u hc] at h1; simp at h1
            · rw [hkeep u hc] at h1
              have : u ≠ r := fun h => hc (h ▸ hroot)
              exact ho.upto u (by omega) h1
        · -- take a node off the stack
          cases S with
          | nil => exact absurd hi.stk hh
          | cons v S =>
            obtain ⟨rfl, x, hxl, hxv, hstk⟩ := hi.stk
            have hnd := hi.nodup
            simp only [List.cons_append, List.nodup_cons] at hnd
            have hvS : v ∉ S := fun hc => hnd.1 (by simp [hc])
            have hvC : v ∉ C := fun hc => hnd.1 (by simp [hc])
            have hvn : v < n := by have := lt_of_getElem?_some hxl; have := hi.len; omega
            simp only [Node.unwrap]
            wp
            rds [hxl]
            refine ⟨by have := hi.len; omega, ?_⟩
            have hstk1 : Stk (labels.set v (.label L)) x S := hstk.congr fun u hu => by
              have : u ≠ v := fun h => hvS (h ▸ hu)
              simp [List.getElem?_set, Ne.symm this]
            have hset : ∀ u, u ≠ v → (labels.set v (.label L))[u]? = labels[u]? := fun u hu => by
              simp [List.getElem?_set, Ne.symm hu]
            have hvv : (labels.set v (.label L))[v]? = some (.label L) := by
              rw [List.getElem?_set_self (lt_of_getElem?_some hxl)]
            have hnd1 : (S ++ (v :: C)).Nodup := by
              rw [List.nodup_middle, List.nodup_cons]; exact hnd
            have hmem1 : ∀ u, u ∈ S ++ (v :: C) ↔ u ∈ (v :: S) ++ C := by
              intro u; simp; tauto
            have hlab1 : ∀ u ∈ v :: C, (labels.set v (.label L))[u]? = some (.label L) := by
              intro u hu
              rcases List.mem_cons.1 hu with rfl | hu
              · exact hvv
              · rw [hset u fun h => hvC (h ▸ hu)]; exact hi.lab u hu
            have hkeep1 : ∀ u, u ∉ S ++ (v :: C) → (labels.set v (.label L))[u]? = labels0[u]? := by
              intro u hu
              rw [hset u fun h => hu (by simp [h])]
              exact hi.keep u fun h => hu ((hmem1 u).2 h)
            refine (cc_push_ok hg1 hvn (by simpa using hi.len) hstk1).mono ?_
            rintro ⟨l2, h2⟩ ⟨hlen2, N1, hN1, hs2, hv1, hG1, hk1⟩
            simp only at hlen2 hs2 hG1 hk1
            have q1 := CCIn.push (fun u hu => hi.void u ((hmem1 u).1 hu)) hstk1 hlab1 hN1 (fun w hw => (hv1 w hw).1)
              hk1 hkeep1 hnd1
            obtain ⟨a1, a2, a3, a4⟩ := q1
            wp
            refine (cc_push_ok hg2 hvn hlen2 hs2).mono ?_
            rintro ⟨l3, h3⟩ ⟨hlen3, N2, hN2, hs3, hv2, hG2, hk2⟩
            simp only at hlen3 hs3 hG2 hk2
            have q2 := CCIn.push a2 hs2 a3 hN2 (fun w hw => (hv2 w hw).1) hk2 a4 a1
            obtain ⟨b1, b2, b3, b4⟩ := q2
            wp
            have hCn : (v :: C).length ≤ n := by
              refine nodup_lt_length (C := v :: C) ?_ fun u hu => ?_
              · rw [List.nodup_cons]; exact ⟨hvC, (List.nodup_append.1 hnd.2).2.1⟩
              · have := lt_of_getElem?_some (b3 u hu); omega
            have hrv : Relation.ReflTransGen adj r v := hi.conn v (by simp)
            refine ⟨n - (v :: C).length, by simp only [List.length_cons] at hCn ⊢; omega, N2 ++ (N1 ++ S), v :: C,
              ⟨hlen3, hs3, b1, b2, ?_, b3, b4, ?_, ?_⟩, rfl⟩
            · intro u hu
              simp only [List.append_assoc, List.mem_append] at hu
              rcases hu with hu | hu | hu
              · exact hrv.tail ((hadj v u hvn).2 (.inr (hv2 u hu).2))
              · exact hrv.tail ((hadj v u hvn).2 (.inl (hv1 u hu).2))
              · exact hi.conn u ((hmem1 u).1 (by simpa using hu))
            · intro u hu w hw
              rcases List.mem_cons.1 hu with rfl | hu
              · by_contra hc
                have h5 : w ∉ N2 := fun h => hc (by simp [h])
                have h6 : w ∉ N1 ++ S ++ u :: C := fun h => hc (by simp at h ⊢; tauto)
                have hl0 : l3[w]? = labels0[w]? := by rw [hk2 w h5, a4 w h6]
                have hwn : w < n := by
                  rcases (hadj u w hvn).1 hw with h | h
                  · exact hg1.lt u w hvn h
                  · exact hg2.lt u w hvn h
                have hnv : labels0[w]? ≠ some .void := by
                  rcases (hadj u w hvn).1 hw with h | h
                  · rw [← a4 w h6]; exact hG1 w h
                  · rw [← hl0]; exact hG2 w h
                obtain ⟨y, hy⟩ : ∃ y, labels0[w]? = some y := ⟨labels0[w], by simp⟩
                rcases ho.val w y hy with rfl | ⟨l, h7, rfl⟩
                · exact hnv hy
                · have h8 := ho.closed w u l hy (hsym _ _ hw)
                  rw [hi.void u (by simp)] at h8
                  simp at h8
              · have := hi.nbr u hu w hw
                simp at this ⊢; tauto
            · have := hi.root
              simp at this ⊢; tauto
    · wp
      refine ⟨_, rfl, ⟨hlen, ho.val, ho.closed, ho.conn, ho.first, ?_, ?_⟩⟩
      · intro m hm
        obtain ⟨u', h1, h2⟩ := ho.used m hm
        exact ⟨u', by omega, h2⟩
      · intro u hu
        by_cases h : u = r
        · subst h; rw [hx]; simpa using hxv
        · exact ho.upto u (by omega)
  · rintro ⟨labels, L⟩ ho
    simp only at ho
    have hlen := ho.len
    have hall : ∀ x ∈ labels, ∃ l, x = .label l := by
      intro x hx
      obtain ⟨u, hu⟩ := List.mem_iff_getElem?.1 hx
      rcases ho.val u x hu with rfl | ⟨l, -, h⟩
      · exact absurd hu (ho.upto u (by have := lt_of_getElem?_some hu; omega))
      · exact ⟨l, h⟩
    refine Ok_forList (fun pre out => out.map Node.label = pre) rfl ?_ ?_
    · intro pre x suf out hE hP
      simp only at hE
      obtain ⟨l, rfl⟩ := hall x (by rw [hE]; simp)
      simp only [Node.unwrap]
      wp
      exact ⟨_, rfl, by simp [hP]⟩
    · intro out hout
      simp only at hout
      wp
      have hlo : out.length = n := by rw [← hlen, ← hout]; simp
      have hget : ∀ (u l : Nat), out[u]? = some l ↔ labels[u]? = some (.label l) := by
        intro u l
        rw [← hout, List.getElem?_map]
        cases out[u]? <;> simp
      have hsame : ∀ (u w l : Nat), labels[u]? = some (.label l) → Relation.ReflTransGen adj u w → labels[w]? = some (.label l) := by
        intro u w l h1 h2
        induction h2 with
        | refl => exact h1
        | tail _ h ih => exact ho.closed _ _ _ ih h
      refine ⟨hlo, ?_, ?_, ?_⟩
      · intro u w hu hw
        obtain ⟨l, hl⟩ : ∃ l, out[u]? = some l := ⟨out[u], by simp⟩
        obtain ⟨m, hm⟩ : ∃ m, out[w]? = some m := ⟨out[w], by simp⟩
        rw [hl, hm, Option.some.injEq]
        constructor
        · rintro rfl
          exact ho.conn u w l ((hget _ _).1 hl) ((hget _ _).1 hm)
        · intro h
          have := hsame u w l ((hget _ _).1 hl) h
          rw [(hget _ _).1 hm] at this
          simp at this; exact this.symm
      · intro l
        constructor
        · intro hl
          obtain ⟨u, hu⟩ := List.mem_iff_getElem?.1 hl
          rcases ho.val u _ ((hget _ _).1 hu) with h | ⟨l', h1, h2⟩
          · simp at h
          · simp at h2; omega
        · intro hl
          obtain ⟨u, -, h⟩ := ho.used l hl
          exact List.mem_iff_getElem?.2 ⟨u, (hget _ _).2 h⟩
      · intro u l hl m hm
        obtain ⟨u', h1, h2⟩ := ho.first u l ((hget _ _).1 hl) m hm
        exact ⟨u', h1, (hget _ _).2 h2⟩

end Sparse

import Verif.Model.Dok
import Verif.Props.Convert
import Verif.Props.Dense
import Verif.Props.FromDense
import Verif.Lemmas.Fail
import Verif.Lemmas.BinRow
import Mathlib.Data.Finset.Prod
import Mathlib.Data.Finset.Card
import Mathlib.Algebra.BigOperators.Group.Finset.Sigma
/-! Properties C30, C31, C32 and C33 (DoK): the dictionary-of-keys matrix. -/
namespace Sparse

section
variable {T : Type}

/-! ### Vocabulary -/

/-- an update call -/
inductive DoKOp (T : Type) where
  | set (i j : Int) (v : T)
  | add (i j : Int) (v : T)
  | sub (i j : Int) (v : T)

/-- performing one update call: the matrix afterwards and whether the call returned `Ok(())` -/
def DoKOp.run [Zero T] [Add T] [Sub T] [DecidableEq T] (t : IdxTy) (d : DoK T) : DoKOp T → M (DoK T × Bool)
  | .set i j v => d.set t i j v
  | .add i j v => d.add t i j v
  | .sub i j v => d.sub t i j v

/-- performing a sequence of update calls: the matrix afterwards and, per call, whether it returned `Ok(())` -/
def DoK.runAll [Zero T] [Add T] [Sub T] [DecidableEq T] (t : IdxTy) (d : DoK T) : List (DoKOp T) → M (DoK T × List Bool)
  | [] => .ok (d, [])
  | o :: os => do
    let q ← o.run t d
    let r ← q.1.runAll t os
    return (r.1, q.2 :: r.2)

/-- the position a call addresses -/
def DoKOp.pos : DoKOp T → Int × Int
  | .set i j _ => (i, j)
  | .add i j _ => (i, j)
  | .sub i j _ => (i, j)

/-- the value a call leaves at its position, given the value held there -/
def DoKOp.value [Add T] [Sub T] (o : DoKOp T) (old : T) : T :=
  match o with
  | .set _ _ v => v
  | .add _ _ v => old + v
  | .sub _ _ v => old - v

/-- `(i, j)` is a position of an `n × m` matrix -/
def inDims (n m : Nat) (p : Int × Int) : Prop := 0 ≤ p.1 ∧ p.1 < n ∧ 0 ≤ p.2 ∧ p.2 < m

instance (n m : Nat) (p : Int × Int) : Decidable (inDims n m p) := by unfold inDims; infer_instance

/-- the same call on a plain `n × m` array, given as a function of the position -/
def DoKOp.onArray [Add T] [Sub T] (n m : Nat) (f : Int → Int → T) (o : DoKOp T) : Int → Int → T :=
  fun i j => if inDims n m o.pos ∧ (i, j) = o.pos then o.value (f i j) else f i j

/-- the matrices obtained from `new` and `from_dense` by update calls -/
inductive DoK.Reachable [Zero T] [Add T] [Sub T] [DecidableEq T] (t : IntTy) : DoK T → Prop
  | new (rows cols : Nat) : Reachable t (DoK.new rows cols)
  | from_dense {a : List (List T)} {d : DoK T} (h : DoK.from_dense t a = .ok d) : Reachable t d
  | step {d d' : DoK T} {o : DoKOp T} {b : Bool} (hd : Reachable t d) (h : o.run t d = .ok (d', b)) : Reachable t d'

/-! ### Map lemmas -/

theorem KMap.get_remove (m : KMap T) (k k' : Int × Int) :
    (m.remove k).get k' = if k' = k then none else m.get k' := by
  unfold KMap.get KMap.remove
  induction m with
  | nil => simp
  | cons e m ih =>
    rw [List.filter_cons]
    by_cases h1 : e.1 = k
    · rw [if_neg (by simpa using h1), ih]
      by_cases h2 : k' = k
      · simp [h2]
      · rw [if_neg h2, if_neg h2, List.find?_cons_of_neg]
        simp only [decide_eq_true_eq]
        rintro rfl
        exact h2 h1
    · rw [if_pos (by simpa using h1)]
      by_cases h3 : e.1 = k'
      · rw [List.find?_cons_of_pos (by simpa using h3), List.find?_cons_of_pos (by simpa using h3), if_neg]
        rintro rfl
        exact h1 h3
      · rw [List.find?_cons_of_neg (by simpa using h3), List.find?_cons_of_neg (by simpa using h3), ih]

theorem KMap.get_insert (m : KMap T) (k k' : Int × Int) (v : T) :
    (m.insert k v).get k' = if k' = k then some v else m.get k' := by
  unfold KMap.insert
  by_cases h : k' = k
  · subst h
    simp [KMap.get]
  · have := KMap.get_remove m k k'
    rw [if_neg h] at this ⊢
    rw [← this]
    unfold KMap.get
    rw [List.find?_cons_of_neg]
    simp only [decide_eq_true_eq]
    exact fun e => h e.symm

theorem KMap.get_of_mem {m : KMap T} (h : (m.map (·.1)).Nodup) {e : (Int × Int) × T} (he : e ∈ m) : m.get e.1 = some e.2 := by
  induction m with
  | nil => simp at he
  | cons f m ih =>
    simp only [List.map_cons, List.nodup_cons] at h
    rcases List.mem_cons.1 he with rfl | he
    · simp [KMap.get]
    · have := ih h.2 he
      unfold KMap.get at this ⊢
      rw [List.find?_cons_of_neg, this]
      simp only [decide_eq_true_eq]
      rintro h2
      exact h.1 (List.mem_map.2 ⟨e, he, h2.symm⟩)

theorem KMap.get_none {m : KMap T} {k : Int × Int} (h : ∀ e ∈ m, e.1 ≠ k) : m.get k = none := by
  unfold KMap.get
  rw [List.find?_eq_none.2 (by simpa using h)]
  rfl

theorem KMap.mem_of_get {m : KMap T} {k : Int × Int} {v : T} (h : m.get k = some v) : (k, v) ∈ m := by
  unfold KMap.get at h
  rw [Option.map_eq_some_iff] at h
  obtain ⟨e, h1, rfl⟩ := h
  have h2 := List.mem_of_find?_eq_some h1
  have h3 := List.find?_some h1
  simp only [decide_eq_true_eq] at h3
  rw [← h3]
  exact h2

/-! ### The invariant -/

/-- no key twice, all keys in range, no stored zero -/
structure DoK.Inv [Zero T] (t : IntTy) (d : DoK T) : Prop where
  nodup : (d.values.map (·.1)).Nodup
  range : ∀ e ∈ d.values, inDims d.rows d.cols e.1 ∧ e.1.1 ≤ t.hi ∧ e.1.2 ≤ t.hi
  ne : ∀ e ∈ d.values, e.2 ≠ 0

/-- an accepted update -/
def DoK.upd [Zero T] [DecidableEq T] (d : DoK T) (i j : Int) (v : T) : DoK T :=
  { d with values := if v = 0 then d.values.remove (i, j) else d.values.insert (i, j) v }

theorem DoK.get_upd [Zero T] [DecidableEq T] (d : DoK T) (i j : Int) (v : T) (x y : Int) :
    (d.upd i j v).get x y = if (x, y) = (i, j) then v else d.get x y := by
  unfold DoK.upd DoK.get
  simp only
  by_cases hv : v = 0
  · rw [if_pos hv, KMap.get_remove]
    by_cases h : (x, y) = (i, j)
    · rw [if_pos h, if_pos h, hv]
    · rw [if_neg h, if_neg h]
  · rw [if_neg hv, KMap.get_insert]
    by_cases h : (x, y) = (i, j)
    · rw [if_pos h, if_pos h]
    · rw [if_neg h, if_neg h]

theorem DoK.inv_upd [Zero T] [DecidableEq T] {t : IntTy} {d : DoK T} (hd : d.Inv t) {i j : Int} {v : T}
    (h : inDims d.rows d.cols (i, j)) (h1 : i ≤ t.hi) (h2 : j ≤ t.hi) : (d.upd i j v).Inv t := by
  have hsub : (d.values.remove (i, j)).Sublist d.values := List.filter_sublist
  have hk : ∀ e ∈ d.values.remove (i, j), e.1 ≠ (i, j) := by
    intro e he
    unfold KMap.remove at he
    simpa using (List.mem_filter.1 he).2
  by_cases hv : v = 0
  · have e : d.upd i j v = { d with values := d.values.remove (i, j) } := by unfold DoK.upd; rw [if_pos hv]
    rw [e]
    exact ⟨hd.nodup.sublist (hsub.map _), fun e he => hd.range e (hsub.subset he), fun e he => hd.ne e (hsub.subset he)⟩
  · have e : d.upd i j v = { d with values := d.values.insert (i, j) v } := by unfold DoK.upd; rw [if_neg hv]
    rw [e]
    refine ⟨?_, ?_, ?_⟩
    · simp only [KMap.insert, List.map_cons, List.nodup_cons]
      refine ⟨?_, hd.nodup.sublist (hsub.map _)⟩
      rw [List.mem_map]
      rintro ⟨e, he, h⟩
      exact hk e he h
    · intro e he
      rcases List.mem_cons.1 he with rfl | he
      · exact ⟨h, h1, h2⟩
      · exact hd.range e (hsub.subset he)
    · intro e he
      rcases List.mem_cons.1 he with rfl | he
      · exact hv
      · exact hd.ne e (hsub.subset he)

theorem DoK.set_wp [Zero T] [DecidableEq T] (t : IntTy) (d : DoK T) (i j : Int) (v : T) :
    WP (d.set t i j v) (fun q => q = (d, false) ∨ (q = (d.upd i j v, true) ∧ inDims d.rows d.cols (i, j) ∧
      i ≤ t.hi ∧ j ≤ t.hi)) (fun _ => True) := by
  unfold DoK.set
  rw [WP_ite]
  refine ⟨fun _ => Or.inl rfl, fun h1 => ?_⟩
  wpe
  refine ⟨fun h2 => ?_, fun _ => trivial⟩
  rw [WP_ite]
  refine ⟨fun _ => Or.inl rfl, fun h3 => ?_⟩
  rw [WP_ite]
  refine ⟨fun _ => Or.inl rfl, fun h4 => ?_⟩
  wpe
  refine ⟨fun h5 => ?_, fun _ => trivial⟩
  rw [WP_ite]
  refine ⟨fun _ => Or.inl rfl, fun h6 => ?_⟩
  have hin : inDims d.rows d.cols (i, j) := ⟨by simp only; omega, by simp only; omega, by simp only; omega, by simp only; omega⟩
  rw [WP_ite]
  constructor
  · intro hv
    exact Or.inr ⟨by unfold DoK.upd; rw [if_pos (by simpa using hv)], hin, by omega, by omega⟩
  · intro hv
    exact Or.inr ⟨by unfold DoK.upd; rw [if_neg (by simpa using hv)], hin, by omega, by omega⟩

theorem DoK.set_eq [Zero T] [DecidableEq T] (t : IntTy) (d : DoK T) (hr : (d.rows : Int) ≤ t.hi) (hc : (d.cols : Int) ≤ t.hi)
    (i j : Int) (v : T) :
    d.set t i j v = .ok (if inDims d.rows d.cols (i, j) then (d.upd i j v, true) else (d, false)) := by
  suffices h : Ok (d.set t i j v) fun q => q = (if inDims d.rows d.cols (i, j) then (d.upd i j v, true) else (d, false)) by
    obtain ⟨r, h1, h2⟩ := h
    rw [h1, h2]
  have hno : ¬ inDims d.rows d.cols (i, j) → Ok (pure (d, false)) fun q : DoK T × Bool =>
      q = (if inDims d.rows d.cols (i, j) then (d.upd i j v, true) else (d, false)) := fun h => by rw [if_neg h]; exact ⟨_, rfl, rfl⟩
  unfold DoK.set
  rw [Ok_ite]
  refine ⟨fun h1 => hno (by unfold inDims; simp only; omega), fun h1 => ?_⟩
  wp
  refine ⟨hr, ?_⟩
  rw [Ok_ite]
  refine ⟨fun h1 => hno (by unfold inDims; simp only; omega), fun h3 => ?_⟩
  rw [Ok_ite]
  refine ⟨fun h1 => hno (by unfold inDims; simp only; omega), fun h4 => ?_⟩
  wp
  refine ⟨hc, ?_⟩
  rw [Ok_ite]
  refine ⟨fun h1 => hno (by unfold inDims; simp only; omega), fun h5 => ?_⟩
  have hin : inDims d.rows d.cols (i, j) := ⟨by simp only; omega, by simp only; omega, by simp only; omega, by simp only; omega⟩
  rw [Ok_ite, if_pos hin]
  constructor
  · intro hv
    exact ⟨_, rfl, by unfold DoK.upd; rw [if_pos (by simpa using hv)]⟩
  · intro hv
    exact ⟨_, rfl, by unfold DoK.upd; rw [if_neg (by simpa using hv)]⟩

theorem DoKOp.run_eq [Zero T] [Add T] [Sub T] [DecidableEq T] (t : IntTy) (d : DoK T) (o : DoKOp T) :
    o.run t d = d.set t o.pos.1 o.pos.2 (o.value (d.get o.pos.1 o.pos.2)) := by
  cases o <;> rfl

theorem DoK.inv_step [Zero T] [Add T] [Sub T] [DecidableEq T] {t : IntTy} {d d' : DoK T} (hd : d.Inv t) {o : DoKOp T} {b : Bool}
    (h : o.run t d = .ok (d', b)) : d'.Inv t := by
  rw [DoKOp.run_eq] at h
  have := DoK.set_wp t d o.pos.1 o.pos.2 (o.value (d.get o.pos.1 o.pos.2))
  rw [h] at this
  rcases this with h1 | ⟨h1, h2, h3, h4⟩
  · cases h1; exact hd
  · cases h1; exact DoK.inv_upd hd h2 h3 h4

theorem DoK.inv_new [Zero T] (t : IntTy) (n m : Nat) : (DoK.new n m : DoK T).Inv t :=
  ⟨List.nodup_nil, by simp [DoK.new], by simp [DoK.new]⟩

theorem DoK.inv_from_dense [Zero T] [DecidableEq T] {t : IntTy} {a : List (List T)} {d : DoK T}
    (h : DoK.from_dense t a = .ok d) : d.Inv t := by
  suffices hw : WP (DoK.from_dense t a) (fun d => d.Inv t) (fun _ => True) by rw [h] at hw; exact hw
  have key : ∀ n, WP (show M (DoK T) from do
      let mut mat : DoK T := DoK.new a.length n
      for i in rng 0 a.length do
        let r ← a.rd i
        for j in rng 0 r.length do
          let v ← r.rd j
          if v != 0 then
            let q ← mat.set t (← IdxTy.ofUsize t i) (← IdxTy.ofUsize t j) v
            if q.2 = false then throw (.panic .unwrap)
            mat := q.1
      return mat) (fun d => d.Inv t) (fun _ => True) := by
    intro n
    wpe
    refine WP_forRange (fun _ s => s.Inv t) (fun _ => False) (by omega) (DoK.inv_new _ _ _) ?_ (fun _ h => h.elim) (fun _ h => h)
    intro i s _ _ hs
    wpe
    refine ⟨fun r _ => ?_, fun _ => trivial⟩
    refine WP_forRange (fun _ s => s.Inv t) (fun _ => False) (by omega) hs ?_ (fun _ h => h.elim) (fun _ h => h)
    intro j s _ _ hs
    wpe
    refine ⟨fun v _ => ?_, fun _ => trivial⟩
    rw [WP_ite]
    refine ⟨fun hv => ?_, fun hv => hs⟩
    wpe
    refine ⟨fun h1 => ⟨fun h2 => ?_, fun _ => trivial⟩, fun _ => trivial⟩
    refine (DoK.set_wp t s i j v).mono ?_ (fun _ h => h)
    rintro q (rfl | ⟨rfl, h3, h4, h5⟩)
    · rw [WP_ite]
      exact ⟨fun _ => trivial, fun h => absurd rfl h⟩
    · rw [WP_ite]
      exact ⟨fun _ => trivial, fun _ => DoK.inv_upd hs h3 h4 h5⟩
  unfold DoK.from_dense
  simp only
  split
  · rw [WP_bind, WP_rd]
    exact ⟨fun r _ => key r.length, fun _ => trivial⟩
  · exact key _

theorem DoK.Reachable.inv [Zero T] [Add T] [Sub T] [DecidableEq T] {t : IntTy} {d : DoK T} (hd : d.Reachable t) : d.Inv t := by
  induction hd with
  | new n m => exact DoK.inv_new _ _ _
  | from_dense h => exact DoK.inv_from_dense h
  | step _ h ih => exact DoK.inv_step ih h

/-! ### C30 -/

/-- C30. Starting from any reachable matrix with representable dimensions, every sequence of calls returns
normally; a call returns `Ok` exactly when its position is in range; afterwards `get` gives at every position what
a plain array, starting with the same elements, holds after the same calls (out-of-range calls change nothing). -/
theorem C30_dok_updates [Zero T] [Add T] [Sub T] [DecidableEq T] (t : IntTy) (d : DoK T) (hd : d.Reachable t)
    (hr : (d.rows : Int) ≤ t.hi) (hc : (d.cols : Int) ≤ t.hi) (ops : List (DoKOp T)) :
    ∃ d', d.runAll t ops = .ok (d', ops.map fun o => decide (inDims d.rows d.cols o.pos)) ∧
      d'.Reachable t ∧ d'.rows = d.rows ∧ d'.cols = d.cols ∧
      ∀ i j, d'.get i j = ops.foldl (DoKOp.onArray d.rows d.cols) d.get i j := by
  induction ops generalizing d with
  | nil => exact ⟨d, rfl, hd, rfl, rfl, fun _ _ => rfl⟩
  | cons o os ih =>
    have h1 : o.run t d = .ok (if inDims d.rows d.cols o.pos then
        (d.upd o.pos.1 o.pos.2 (o.value (d.get o.pos.1 o.pos.2)), true) else (d, false)) := by
      rw [DoKOp.run_eq, DoK.set_eq t d hr hc]
    obtain ⟨q, hq, hq2, hq3, hq4, hq5⟩ : ∃ q : DoK T, o.run t d = .ok (q, decide (inDims d.rows d.cols o.pos)) ∧ q.Reachable t ∧
        q.rows = d.rows ∧ q.cols = d.cols ∧ q.get = o.onArray d.rows d.cols d.get := by
      by_cases hp : inDims d.rows d.cols o.pos
      · rw [if_pos hp] at h1
        refine ⟨_, by rw [h1]; simp [hp], .step hd h1, rfl, rfl, ?_⟩
        funext x y
        rw [DoK.get_upd]
        unfold DoKOp.onArray
        by_cases hxy : (x, y) = o.pos
        · rw [if_pos hxy, if_pos ⟨hp, hxy⟩, ← hxy]
        · rw [if_neg hxy, if_neg (fun h => hxy h.2)]
      · rw [if_neg hp] at h1
        refine ⟨_, by rw [h1]; simp [hp], hd, rfl, rfl, ?_⟩
        funext x y
        unfold DoKOp.onArray
        rw [if_neg (fun h => hp h.1)]
    obtain ⟨d', g1, g2, g3, g4, g5⟩ := ih q hq2 (by rw [hq3]; exact hr) (by rw [hq4]; exact hc)
    refine ⟨d', ?_, g2, by rw [g3, hq3], by rw [g4, hq4], ?_⟩
    · unfold DoK.runAll
      rw [hq]
      simp only [bind, Except.bind]
      rw [g1, hq3, hq4]
      rfl
    · intro i j
      rw [g5, hq3, hq4, hq5]
      rfl

/-- C30 (initial state). The empty matrix reads zero everywhere. -/
theorem C30_dok_new [Zero T] (n m : Nat) (i j : Int) : (DoK.new n m : DoK T).get i j = 0 := rfl

/-- C30 (boundary). If the number of rows is not representable in `I`, every call with a non-negative row panics. -/
theorem C30_dok_dim_panics [Zero T] [DecidableEq T] (t : IntTy) (d : DoK T) (hr : t.hi < d.rows) (i j : Int) (v : T) (hi : 0 ≤ i) :
    d.set t i j v = .error (.panic .unwrap) := by
  unfold DoK.set
  rw [if_neg (by omega), IntTy.checked_ofUsize, if_neg (by omega)]
  rfl

example : (DoK.new 2 3 : DoK Int).Reachable .i8 ∧
    (DoK.new 2 3 : DoK Int).runAll .i8 [.set 0 1 5, .add 0 1 2, .set 2 0 9, .sub 1 2 4, .add 1 2 4, .set (-1) 0 3] =
      .ok (⟨2, 3, [((0, 1), 7)]⟩, [true, true, false, true, true, false]) :=
  ⟨.new _ _, by decide⟩

/-! ### C31 -/

/-- C31. Every reachable matrix stores no zero and no position twice, all its keys are in range, and `nnz()` is
the number of positions at which `get` is not zero. -/
theorem C31_dok_invariant [Zero T] [Add T] [Sub T] [DecidableEq T] (t : IntTy) (d : DoK T) (hd : d.Reachable t) :
    (∀ e ∈ d.values, e.2 ≠ 0) ∧ (∀ e ∈ d.values, inDims d.rows d.cols e.1) ∧ (d.values.map (·.1)).Nodup ∧
    (∀ i j : Int, d.get i j ≠ 0 → inDims d.rows d.cols (i, j)) ∧
    d.nnz = ((Finset.range d.rows ×ˢ Finset.range d.cols).filter fun p => d.get (p.1 : Int) (p.2 : Int) ≠ 0).card := by
  have hi := hd.inv
  have hget : ∀ i j : Int, d.get i j ≠ 0 → ((i, j), d.get i j) ∈ d.values := by
    intro i j h
    have : d.values.get (i, j) = some (d.get i j) := by
      unfold DoK.get at h ⊢
      cases hg : d.values.get (i, j) with
      | none => rw [hg] at h; exact absurd rfl h
      | some v => rfl
    exact KMap.mem_of_get this
  refine ⟨hi.ne, fun e he => (hi.range e he).1, hi.nodup, fun i j h => (hi.range _ (hget i j h)).1, ?_⟩
  have hkeys : (d.values.map fun e => (e.1.1.toNat, e.1.2.toNat)).Nodup := by
    have h := hi.nodup
    rw [List.Nodup, List.pairwise_map] at h ⊢
    refine h.imp_of_mem ?_
    intro e f he hf hne heq
    obtain ⟨⟨h1, h2, h3, h4⟩, -⟩ := hi.range e he
    obtain ⟨⟨g1, g2, g3, g4⟩, -⟩ := hi.range f hf
    rw [Prod.mk.injEq] at heq
    exact hne (Prod.ext (by omega) (by omega))
  have hset : ((Finset.range d.rows ×ˢ Finset.range d.cols).filter fun p => d.get (p.1 : Int) (p.2 : Int) ≠ 0) =
      (d.values.map fun e => (e.1.1.toNat, e.1.2.toNat)).toFinset := by
    ext ⟨x, y⟩
    simp only [Finset.mem_filter, Finset.mem_product, Finset.mem_range, List.mem_toFinset, List.mem_map]
    constructor
    · rintro ⟨-, h⟩
      exact ⟨_, hget _ _ h, by simp⟩
    · rintro ⟨e, he, heq⟩
      obtain ⟨⟨h1, h2, h3, h4⟩, -⟩ := hi.range e he
      rw [Prod.mk.injEq] at heq
      obtain ⟨rfl, rfl⟩ := heq
      refine ⟨⟨by omega, by omega⟩, ?_⟩
      have hk : (((e.1.1.toNat : Nat) : Int), ((e.1.2.toNat : Nat) : Int)) = e.1 := Prod.ext (by simp only; omega) (by simp only; omega)
      unfold DoK.get
      rw [hk, KMap.get_of_mem hi.nodup he]
      exact hi.ne e he
  rw [hset, List.toFinset_card_of_nodup hkeys, List.length_map]
  rfl


example : ∃ d : DoK Int, d.Reachable .i8 ∧ d.nnz = 2 ∧ DoK.from_dense .i8 [[0, 5], [3, 0]] = .ok d :=
  ⟨⟨2, 2, [((1, 0), 3), ((0, 1), 5)]⟩, .from_dense (a := [[0, 5], [3, 0]]) (by decide), by decide, by decide⟩

/-! ### C32 -/

/-- two strictly sorted rows with the same elements are equal -/
theorem sorted_row_ext {r s : List (Int × T)} (hr : r.Pairwise fun e f => e.1 < f.1) (hs : s.Pairwise fun e f => e.1 < f.1)
    (h : ∀ e, e ∈ r ↔ e ∈ s) : r = s := by
  have nd : ∀ {l : List (Int × T)}, l.Pairwise (fun e f => e.1 < f.1) → l.Nodup := by
    intro l hl
    refine hl.imp ?_
    rintro e f h rfl
    omega
  have hp : r.Perm s := (List.perm_ext_iff_of_nodup (nd hr) (nd hs)).2 h
  exact hp.eq_of_pairwise (fun e f _ _ h1 h2 => by omega) hr hs

theorem keys_nodup_of_sorted {r : List (Int × T)} (hr : r.Pairwise fun e f => e.1 < f.1) : (r.map (·.1)).Nodup := by
  rw [List.Nodup, List.pairwise_map]
  exact hr.imp fun h => by omega

/-- canonical matrices with the same stored positions and the same elements have the same arrays -/
theorem CSR.canonical_ext [AddCommMonoid T] {t : IntTy} {a b : CSR T} (ha : a.WF t) (hb : b.WF t) (ca : a.Canonical)
    (cb : b.Canonical) (hr : a.rows = b.rows) (hc : a.cols = b.cols) (he : ∀ i j, a.entry i j = b.entry i j)
    (hp : ∀ i j, (∃ v, (i, j, v) ∈ a.triples) ↔ ∃ v, (i, j, v) ∈ b.triples)
    (la : a.rowptr.length = a.rows + 1 ∧ a.colidx.length = a.stored ∧ a.values.length = a.stored)
    (lb : b.rowptr.length = b.rows + 1 ∧ b.colidx.length = b.stored ∧ b.values.length = b.stored) : a = b := by
  have half : ∀ {a b : CSR T}, a.WF t → b.WF t → a.Canonical → b.Canonical → a.rows = b.rows →
      (∀ i j, a.entry i j = b.entry i j) → (∀ i j, (∃ v, (i, j, v) ∈ a.triples) ↔ ∃ v, (i, j, v) ∈ b.triples) →
      ∀ i < a.rows, ∀ e ∈ a.row i, e ∈ b.row i := by
    intro a b ha hb ca cb hr he hp i hi e hm
    have hm0 := (ha.mem hi hm).1
    obtain ⟨v, hv⟩ := (hp i e.1).1 ⟨e.2, by
      unfold CSR.triples
      exact List.mem_flatMap.2 ⟨i, List.mem_range.2 hi, List.mem_map.2 ⟨e, hm, rfl⟩⟩⟩
    unfold CSR.triples at hv
    simp only [List.mem_flatMap, List.mem_map, List.mem_range, Prod.mk.injEq] at hv
    obtain ⟨i', hi', f, hf, e1, e2, e3⟩ := hv
    have : i' = i := by omega
    subst this
    have h1 : a.entry i' e.1.toNat = e.2 := by
      unfold CSR.entry
      rw [show ((e.1.toNat : Nat) : Int) = e.1 by omega]
      exact rowSum_nodup (keys_nodup_of_sorted (ca _ hi)) hm
    have h2 : b.entry i' e.1.toNat = f.2 := by
      unfold CSR.entry
      rw [show ((e.1.toNat : Nat) : Int) = f.1 by omega]
      exact rowSum_nodup (keys_nodup_of_sorted (cb _ hi')) hf
    have : e = f := Prod.ext e2.symm (by rw [← h1, ← h2, he])
    rw [this]; exact hf
  have hrow : ∀ i < a.rows, a.row i = b.row i := by
    intro i hi
    refine sorted_row_ext (ca i hi) (cb i (by omega)) fun e => ⟨half ha hb ca cb hr he hp i hi e, ?_⟩
    exact half hb ha cb ca hr.symm (fun i j => (he i j).symm) (fun i j => (hp i j).symm) i (by omega) e
  have hflat : ∀ n ≤ a.rows, flat a.row n = flat b.row n := by
    intro n hn
    unfold flat
    have : (List.range n).map a.row = (List.range n).map b.row := by
      apply List.map_congr_left
      intro i hi
      exact hrow i (by have := List.mem_range.1 hi; omega)
    rw [List.flatMap_def, List.flatMap_def, this]
  have e0 := hflat a.rows (le_refl _)
  have sa := ha.stored_eq
  have sb := hb.stored_eq
  obtain ⟨a1, a2⟩ := ha.rep.arrays (by omega) (by omega)
  obtain ⟨b1, b2⟩ := hb.rep.arrays (by omega) (by omega)
  have hptr : a.rowptr = b.rowptr := by
    apply List.ext_getElem?
    intro k
    by_cases hk : k ≤ a.rows
    · rw [ha.rep.ptr k hk, hb.rep.ptr k (by omega), hflat k hk]
    · rw [List.getElem?_eq_none (by omega), List.getElem?_eq_none (by omega)]
  have e1 : flat a.row a.rows = flat b.row b.rows := by rw [e0, hr]
  have hj : a.colidx = b.colidx := a1.trans ((congrArg _ e1).trans b1.symm)
  have hx : a.values = b.values := a2.trans ((congrArg _ e1).trans b2.symm)
  cases a
  cases b
  simp only [CSR.mk.injEq]
  exact ⟨hr, hc, hptr, hj, hx⟩

theorem CSC.canonical_ext [AddCommMonoid T] {t : IntTy} {a b : CSC T} (ha : a.WF t) (hb : b.WF t) (ca : a.Canonical)
    (cb : b.Canonical) (hr : a.rows = b.rows) (hc : a.cols = b.cols) (he : ∀ i j, a.entry i j = b.entry i j)
    (hp : ∀ i j, (∃ v, (i, j, v) ∈ a.triples) ↔ ∃ v, (i, j, v) ∈ b.triples)
    (la : a.colptr.length = a.cols + 1 ∧ a.rowidx.length = a.stored ∧ a.values.length = a.stored)
    (lb : b.colptr.length = b.cols + 1 ∧ b.rowidx.length = b.stored ∧ b.values.length = b.stored) : a = b := by
  have tr : ∀ (a : CSC T) i j v, (i, j, v) ∈ a.triples ↔ (j, i, v) ∈ (⟨a.cols, a.rows, a.colptr, a.rowidx, a.values⟩ : CSR T).triples := by
    intro a i j v
    unfold CSC.triples CSR.triples
    simp only [List.mem_flatMap, List.mem_map, List.mem_range, Prod.mk.injEq]
    constructor
    · rintro ⟨x, hx, e, he, h1, h2, h3⟩; exact ⟨x, hx, e, he, h2, h1, h3⟩
    · rintro ⟨x, hx, e, he, h1, h2, h3⟩; exact ⟨x, hx, e, he, h2, h1, h3⟩
  have := CSR.canonical_ext (a := ⟨a.cols, a.rows, a.colptr, a.rowidx, a.values⟩) (b := ⟨b.cols, b.rows, b.colptr, b.rowidx, b.values⟩)
    (t := t) ha hb ca cb hc hr (fun i j => he j i) (by
      intro i j
      simp only [← tr]
      exact hp j i) la lb
  cases a
  cases b
  simp only [CSR.mk.injEq] at this
  obtain ⟨h1, h2, h3, h4, h5⟩ := this
  simp only [CSC.mk.injEq]
  exact ⟨h2, h1, h4, h3, h5⟩

theorem DoK.to_coo_eq (d : DoK T) (es : KMap T) :
    d.to_coo es = .ok ⟨d.rows, d.cols, es.map (·.1.1), es.map (·.1.2), es.map (·.2)⟩ := by
  suffices h : Ok (d.to_coo es) fun r => r = ⟨d.rows, d.cols, es.map (·.1.1), es.map (·.1.2), es.map (·.2)⟩ by
    obtain ⟨r, h1, h2⟩ := h
    rw [h1, h2]
  unfold DoK.to_coo
  wp
  refine Ok_forList (fun p s => s = (p.map (·.1.1), p.map (·.1.2), p.map (·.2))) rfl ?_ ?_
  · rintro p e q s hE rfl
    wp
    refine ⟨_, rfl, ?_⟩
    simp
  · rintro s rfl
    unfold Coo.new
    rw [if_neg (by simp)]
    exact ⟨_, rfl, rfl⟩

/-- the coordinate matrix of an enumeration of a reachable matrix -/
theorem DoK.coo_ok [AddCommMonoid T] {t : IntTy} {d : DoK T} (hi : d.Inv t) {es : KMap T} (hp : es.Perm d.values) :
    (⟨d.rows, d.cols, es.map (·.1.1), es.map (·.1.2), es.map (·.2)⟩ : Coo T).WF t ∧
    (∀ i j, (⟨d.rows, d.cols, es.map (·.1.1), es.map (·.1.2), es.map (·.2)⟩ : Coo T).entry i j = d.get i j) ∧
    (∀ i j, (∃ v, (i, j, v) ∈ (⟨d.rows, d.cols, es.map (·.1.1), es.map (·.1.2), es.map (·.2)⟩ : Coo T).triples) ↔
      ∃ v, ((i, j), v) ∈ d.values) := by
  have htr : (⟨d.rows, d.cols, es.map (·.1.1), es.map (·.1.2), es.map (·.2)⟩ : Coo T).triples =
      es.map fun e => (e.1.1, e.1.2, e.2) := by
    unfold Coo.triples
    simp only
    rw [List.zip_map', List.zip_map']
  have hrng : ∀ e ∈ es, inDims d.rows d.cols e.1 ∧ e.1.1 ≤ t.hi ∧ e.1.2 ≤ t.hi := fun e he => hi.range e (hp.mem_iff.1 he)
  have hnd : (es.map (·.1)).Nodup := (hp.map _).nodup_iff.2 hi.nodup
  refine ⟨⟨by simp, by simp, ?_, ?_⟩, ?_, ?_⟩
  · intro r hr
    obtain ⟨e, he, rfl⟩ := List.mem_map.1 hr
    have := hrng e he
    unfold inDims at this
    exact ⟨this.1.1, this.1.2.1, this.2.1⟩
  · intro r hr
    obtain ⟨e, he, rfl⟩ := List.mem_map.1 hr
    have := hrng e he
    unfold inDims at this
    exact ⟨this.1.2.2.1, this.1.2.2.2, this.2.2⟩
  · intro i j
    unfold Coo.entry
    rw [htr]
    have key : ∀ m : KMap T, (m.map (·.1)).Nodup →
        (((m.map fun e => (e.1.1, e.1.2, e.2)).filter fun e => decide (e.1 = (i : Int) ∧ e.2.1 = (j : Int))).map (·.2.2)).sum =
        (KMap.get m (i, j)).getD 0 := by
      intro m hm
      induction m with
      | nil => rfl
      | cons e m ih =>
        simp only [List.map_cons, List.nodup_cons] at hm
        have ih := ih hm.2
        rw [List.map_cons, List.filter_cons]
        by_cases h : e.1 = ((i : Int), (j : Int))
        · rw [if_pos (by rw [h]; simp), List.map_cons, List.sum_cons, ih, KMap.get_none, Option.getD_none, add_zero]
          · simp [KMap.get, h]
          · intro f hf h2
            exact hm.1 (List.mem_map.2 ⟨f, hf, by rw [h2, h]⟩)
        · rw [if_neg, ih]
          · unfold KMap.get
            rw [List.find?_cons_of_neg (by simpa using h)]
          · simp only [decide_eq_true_eq]
            rintro ⟨h1, h2⟩
            exact h (Prod.ext h1 h2)
    rw [key es hnd]
    have hg : KMap.get es (i, j) = KMap.get d.values (i, j) := by
      cases hg : KMap.get d.values (i, j) with
      | none =>
        apply KMap.get_none
        intro e he h2
        have := KMap.get_of_mem hi.nodup (hp.mem_iff.1 he)
        rw [h2, hg] at this
        cases this
      | some v => exact KMap.get_of_mem hnd (hp.mem_iff.2 (KMap.mem_of_get hg))
    rw [hg]
    unfold DoK.get
    cases KMap.get d.values (i, j) <;> rfl
  · intro i j
    rw [htr]
    constructor
    · rintro ⟨v, hv⟩
      obtain ⟨e, he, h⟩ := List.mem_map.1 hv
      cases h
      exact ⟨e.2, hp.mem_iff.1 he⟩
    · rintro ⟨v, hv⟩
      exact ⟨v, List.mem_map.2 ⟨((i, j), v), hp.mem_iff.2 hv, rfl⟩⟩

theorem KMap.get_append_one {m : KMap T} {e : (Int × Int) × T} (h : ∀ f ∈ m, f.1 ≠ e.1) (k : Int × Int) :
    KMap.get (m ++ [e]) k = if k = e.1 then some e.2 else KMap.get m k := by
  unfold KMap.get
  rw [List.find?_append]
  by_cases hk : k = e.1
  · subst hk
    rw [if_pos rfl, List.find?_eq_none.2 (by simpa using h)]
    simp
  · rw [if_neg hk]
    have : [e].find? (fun e => decide (e.1 = k)) = none := by
      simp only [List.find?_eq_none, List.mem_singleton, decide_eq_true_eq]
      rintro f rfl h
      exact hk h.symm
    rw [this, Option.or_none]

theorem dense_set {n m i j : Nat} {f : Nat → Nat → T} {v : T} :
    (dense n m f).set i (((List.range m).map fun y => f i y).set j v) = dense n m fun x y => if x = i ∧ y = j then v else f x y := by
  unfold dense
  apply List.ext_getElem?
  intro x
  rw [List.getElem?_set]
  by_cases hx : x < n
  · rw [List.getElem?_map, List.getElem?_map, List.getElem?_range hx]
    by_cases h : i = x
    · subst h
      rw [if_pos rfl, if_pos (by simpa using hx), Option.map_some]
      congr 1
      apply List.ext_getElem?
      intro y
      rw [List.getElem?_set]
      by_cases hy : y < m
      · rw [List.getElem?_map, List.getElem?_map, List.getElem?_range hy]
        by_cases h : j = y
        · subst h
          simp [hy]
        · rw [if_neg h, Option.map_some, Option.map_some]
          simp only
          rw [if_neg (fun h' => h h'.2.symm)]
      · rw [List.getElem?_eq_none (l := (List.range m).map _) (by simpa using hy), List.getElem?_eq_none (by simpa using hy)]
        simp
        omega
    · rw [if_neg h, Option.map_some, Option.map_some]
      congr 1
      apply List.map_congr_left
      intro y _
      simp only
      rw [if_neg (fun h' => h h'.1.symm)]
  · rw [List.getElem?_eq_none (l := (List.range n).map _) (by simpa using hx), List.getElem?_eq_none (by simpa using hx)]
    simp
    omega

/-- writing the entries of an enumeration into a dense array of zeros -/
theorem DoK.to_dense_eq [Zero T] {t : IntTy} {d : DoK T} (hi : d.Inv t) {es : KMap T} (hp : es.Perm d.values) :
    d.to_dense es = .ok (dense d.rows d.cols fun i j => d.get i j) := by
  have hrng : ∀ e ∈ es, inDims d.rows d.cols e.1 := fun e he => (hi.range e (hp.mem_iff.1 he)).1
  have hnd : (es.map (·.1)).Nodup := (hp.map _).nodup_iff.2 hi.nodup
  suffices h : Ok (d.to_dense es) fun r => r = dense d.rows d.cols fun i j => (KMap.get es (i, j)).getD 0 by
    obtain ⟨r, h1, h2⟩ := h
    rw [h1, h2]
    congr 2
    funext i j
    have hg : KMap.get es (i, j) = KMap.get d.values (i, j) := by
      cases hg : KMap.get d.values (i, j) with
      | none =>
        apply KMap.get_none
        intro e he h2
        have := KMap.get_of_mem hi.nodup (hp.mem_iff.1 he)
        rw [h2, hg] at this
        cases this
      | some v => exact KMap.get_of_mem hnd (hp.mem_iff.2 (KMap.mem_of_get hg))
    rw [hg]
    unfold DoK.get
    cases KMap.get d.values (i, j) <;> rfl
  unfold DoK.to_dense
  wp
  refine Ok_forList (fun p s => s = dense d.rows d.cols fun i j => (KMap.get p (i, j)).getD 0) ?_ ?_ ?_
  · unfold dense
    simp [KMap.get, List.map_const']
  · rintro p e q s hE rfl
    have he := hrng e (by rw [hE]; simp)
    obtain ⟨h1, h2, h3, h4⟩ := he
    have hrow : (dense d.rows d.cols fun i j => (KMap.get p (i, j)).getD 0)[e.1.1.toNat]? =
        some ((List.range d.cols).map fun j : Nat => (KMap.get p ((e.1.1.toNat : Nat), j)).getD 0) := by
      unfold dense
      rw [List.getElem?_map, List.getElem?_range (by omega)]
      rfl
    wp
    rds [hrow]
    refine ⟨h1, h3, by simp; omega, by simp [dense]; omega, ?_⟩
    refine ⟨_, rfl, ?_⟩
    rw [dense_set (f := fun i j : Nat => (KMap.get p (i, j)).getD 0)]
    unfold dense
    apply List.map_congr_left
    intro x hx
    apply List.map_congr_left
    intro y hy
    simp only
    rw [KMap.get_append_one (by
      rw [hE, List.map_append, List.map_cons, List.nodup_append] at hnd
      intro f hf h
      exact hnd.2.2 _ (List.mem_map.2 ⟨f, hf, rfl⟩) _ (by simp) h)]
    by_cases h : x = e.1.1.toNat ∧ y = e.1.2.toNat
    · rw [if_pos h, if_pos (Prod.ext (by simp only; omega) (by simp only; omega))]
      rfl
    · rw [if_neg h, if_neg]
      intro h'
      rw [← h'] at h
      simp at h
  · rintro s rfl
    wp

/-- C32. For every reachable matrix there are one CSR and one CSC matrix, both valid and canonical and with the
elements that `get` describes, which `to_csr` and `to_csc` return whatever the enumeration order of the hash map;
`to_dense` always returns the array of the elements. -/
theorem C32_dok_conversions [AddCommMonoid T] [Sub T] [DecidableEq T] (t : IntTy) (d : DoK T) (hd : d.Reachable t)
    (hn : (d.nnz : Int) < t.hi) :
    ∃ (r : CSR T) (c : CSC T),
      (∀ es : KMap T, es.Perm d.values → d.to_csr t es = .ok r ∧ d.to_csc t es = .ok c ∧
        d.to_dense es = .ok (dense d.rows d.cols fun i j => d.get i j)) ∧
      r.WF t ∧ r.Canonical ∧ r.rows = d.rows ∧ r.cols = d.cols ∧ (∀ i j : Nat, r.entry i j = d.get i j) ∧
      (∀ i j, (∃ v, (i, j, v) ∈ r.triples) ↔ d.get i j ≠ 0) ∧
      c.WF t ∧ c.Canonical ∧ c.rows = d.rows ∧ c.cols = d.cols ∧ (∀ i j : Nat, c.entry i j = d.get i j) ∧
      (∀ i j, (∃ v, (i, j, v) ∈ c.triples) ↔ d.get i j ≠ 0) := by
  have hi := hd.inv
  have hstored : ∀ i j, (∃ v, ((i, j), v) ∈ d.values) ↔ d.get i j ≠ 0 := by
    intro i j
    constructor
    · rintro ⟨v, hv⟩
      unfold DoK.get
      rw [KMap.get_of_mem hi.nodup hv]
      exact hi.ne _ hv
    · intro h
      unfold DoK.get at h
      cases hg : d.values.get (i, j) with
      | none => rw [hg] at h; exact absurd rfl h
      | some v => exact ⟨v, KMap.mem_of_get hg⟩
  have main : ∀ es : KMap T, es.Perm d.values → ∃ (r : CSR T) (c : CSC T), d.to_csr t es = .ok r ∧ d.to_csc t es = .ok c ∧
      r.WF t ∧ r.rows = d.rows ∧ r.cols = d.cols ∧ r.Canonical ∧ (∀ i j : Nat, r.entry i j = d.get i j) ∧
      (∀ i j, (∃ v, (i, j, v) ∈ r.triples) ↔ d.get i j ≠ 0) ∧
      (r.rowptr.length = r.rows + 1 ∧ r.colidx.length = r.stored ∧ r.values.length = r.stored) ∧
      c.WF t ∧ c.rows = d.rows ∧ c.cols = d.cols ∧ c.Canonical ∧ (∀ i j : Nat, c.entry i j = d.get i j) ∧
      (∀ i j, (∃ v, (i, j, v) ∈ c.triples) ↔ d.get i j ≠ 0) ∧
      (c.colptr.length = c.cols + 1 ∧ c.rowidx.length = c.stored ∧ c.values.length = c.stored) := by
    intro es hp
    obtain ⟨w1, w2, w3⟩ := DoK.coo_ok hi hp
    have hlen : ((es.map (·.2)).length : Int) < t.hi := by
      have := hp.length_eq
      unfold DoK.nnz at hn
      rw [List.length_map]
      omega
    obtain ⟨r, r1, r2, r3, r4, r5, r6, r7, r8, r9, r10, -⟩ := C01_coo_to_csr t _ w1 hlen
    obtain ⟨c, c1, c2, c3, c4, c5, c6, c7, c8, c9, c10, -⟩ := C02_coo_to_csc t _ w1 hlen
    refine ⟨r, c, ?_, ?_, r2, r3, r4, r5, fun i j => by rw [r6, w2], fun i j => by rw [r7, w3, hstored], ⟨by rw [r3]; exact r8, r9, r10⟩,
      c2, c3, c4, c5, fun i j => by rw [c6, w2], fun i j => by rw [c7, w3, hstored], ⟨by rw [c4]; exact c8, c9, c10⟩⟩
    · unfold DoK.to_csr
      rw [DoK.to_coo_eq]
      exact r1
    · unfold DoK.to_csc
      rw [DoK.to_coo_eq]
      exact c1
  obtain ⟨r, c, e1, e2, r2, r3, r4, r5, r6, r7, r8, c2, c3, c4, c5, c6, c7, c8⟩ := main d.values (List.Perm.refl _)
  refine ⟨r, c, ?_, r2, r5, r3, r4, r6, r7, c2, c5, c3, c4, c6, c7⟩
  intro es hp
  obtain ⟨r', c', e1', e2', r2', r3', r4', r5', r6', r7', r8', c2', c3', c4', c5', c6', c7', c8'⟩ := main es hp
  have hr : r' = r := CSR.canonical_ext r2' r2 r5' r5 (by omega) (by omega) (fun i j => by rw [r6, r6']) (fun i j => by rw [r7, r7']) r8' r8
  have hc : c' = c := CSC.canonical_ext c2' c2 c5' c5 (by omega) (by omega) (fun i j => by rw [c6, c6']) (fun i j => by rw [c7, c7']) c8' c8
  exact ⟨by rw [e1', hr], by rw [e2', hc], DoK.to_dense_eq hi hp⟩

example : ∃ d : DoK Int, d.Reachable .i8 ∧ (d.nnz : Int) < IntTy.i8.hi ∧
    [((1, 0), 3), ((0, 1), 5)].Perm d.values ∧ [((0, 1), 5), ((1, 0), 3)].Perm d.values ∧
    d.to_csr .i8 [((0, 1), 5), ((1, 0), 3)] = .ok ⟨2, 2, [0, 1, 2], [1, 0], [5, 3]⟩ :=
  ⟨⟨2, 2, [((1, 0), 3), ((0, 1), 5)]⟩, .from_dense (a := [[0, 5], [3, 0]]) (by decide), by decide, by decide, by decide,
    by decide +kernel⟩

/-! ### C33 (DoK) -/

theorem denseNnz_dense [Zero T] [DecidableEq T] (n m : Nat) (f : Nat → Nat → T) :
    denseNnz (dense n m f) = ((Finset.range n ×ˢ Finset.range m).filter fun p => f p.1 p.2 ≠ 0).card := by
  have one : ∀ i, (((List.range m).map fun j => f i j).countP fun v => v != 0) =
      ((Finset.range m).filter fun j => f i j ≠ 0).card := by
    intro i
    rw [List.countP_map, List.countP_eq_length_filter]
    rw [show (Finset.range m).filter (fun j => f i j ≠ 0) = ((List.range m).filter ((fun v => v != 0) ∘ fun j => f i j)).toFinset by
      ext j; simp]
    rw [List.toFinset_card_of_nodup (List.nodup_range.filter _)]
  unfold denseNnz dense
  rw [List.countP_flatten, List.map_map]
  have h1 : ((List.range n).map ((List.countP fun v => v != 0) ∘ fun i => (List.range m).map fun j => f i j)).sum =
      ∑ i ∈ Finset.range n, ((Finset.range m).filter fun j => f i j ≠ 0).card := by
    induction n with
    | zero => rfl
    | succ n ih => rw [List.range_succ, List.map_append, List.sum_append, ih, Finset.sum_range_succ, ← one]; simp
  rw [h1, Finset.card_filter, Finset.sum_product]
  simp only [Finset.card_filter]

/-- C33 (DoK). For every rectangular dense array, `from_dense` gives a matrix with the shape of the array whose
`to_dense` is the array, whatever the enumeration order, whose `nnz` is the number of non-zero elements, and which
stores no zero. -/
theorem C33_dok_from_dense [Zero T] [Add T] [Sub T] [DecidableEq T] (t : IntTy) (A : List (List T)) (n : Nat)
    (hn : A = [] → n = 0) (hrect : ∀ r ∈ A, r.length = n) (hr : (A.length : Int) ≤ t.hi) (hc : (n : Int) ≤ t.hi) :
    ∃ d, DoK.from_dense t A = .ok d ∧ d.rows = A.length ∧ d.cols = n ∧
      (∀ es : KMap T, es.Perm d.values → d.to_dense es = .ok A) ∧ d.nnz = denseNnz A ∧ ∀ e ∈ d.values, e.2 ≠ 0 := by
  have h : Ok (DoK.from_dense t A) fun d => d.rows = A.length ∧ d.cols = n ∧
      ∀ i j : Nat, d.get i j = if i < A.length then (A.getD i []).getD j 0 else 0 := by
    have key : Ok (show M (DoK T) from do
      let mut mat : DoK T := DoK.new A.length n
      for i in rng 0 A.length do
        let r ← A.rd i
        for j in rng 0 r.length do
          let v ← r.rd j
          if v != 0 then
            let q ← mat.set t (← IdxTy.ofUsize t i) (← IdxTy.ofUsize t j) v
            if q.2 = false then throw (.panic .unwrap)
            mat := q.1
      return mat) fun d => d.rows = A.length ∧ d.cols = n ∧
      ∀ i j : Nat, d.get i j = if i < A.length then (A.getD i []).getD j 0 else 0 := by
      wp
      refine Ok_forRange (fun k (s : DoK T) => s.rows = A.length ∧ s.cols = n ∧
        ∀ i j : Nat, s.get i j = if i < k then (A.getD i []).getD j 0 else 0) (by omega) ⟨rfl, rfl, fun i j => by simp; rfl⟩ ?_ ?_
      · rintro k s - hk ⟨h1, h2, h3⟩
        have hrow : A[k]? = some A[k] := by simp
        have hlen := hrect _ (List.getElem_mem hk)
        have hget : A.getD k [] = A[k] := by rw [List.getD_eq_getElem?_getD, hrow]; rfl
        wp
        rds [hrow]
        refine Ok_forOff (E := A[k]) (o := 0) (by omega) (fun pre (s : DoK T) => s.rows = A.length ∧ s.cols = n ∧
          ∀ i j : Nat, s.get i j = if i < k then (A.getD i []).getD j 0 else if i = k then pre.getD j 0 else 0)
          ⟨h1, h2, fun i j => by rw [h3]; simp⟩ ?_ ?_
        · rintro pre v suf s hE ⟨h1, h2, h3⟩
          have hv : A[k][pre.length]? = some v := by rw [hE]; simp
          have hl : pre.length < n := by rw [← hlen, hE]; simp
          have happ : ∀ j : Nat, (pre ++ [v]).getD j 0 = if j = pre.length then v else pre.getD j 0 := by
            intro j
            rw [List.getD_eq_getElem?_getD, List.getD_eq_getElem?_getD]
            by_cases hj : j = pre.length
            · subst hj; simp
            · rw [if_neg hj]
              by_cases h : j < pre.length
              · rw [List.getElem?_append_left h]
              · rw [List.getElem?_eq_none (by simp; omega), List.getElem?_eq_none (by omega)]
          rw [Nat.zero_add]
          wp
          rds [hv]
          rw [Ok_ite]
          constructor
          · intro hv0
            wp
            refine ⟨by omega, by omega, ?_⟩
            rw [DoK.set_eq t s (by rw [h1]; exact hr) (by rw [h2]; exact hc),
              if_pos (by unfold inDims; rw [h1, h2]; simp only; omega)]
            rw [Ok_ok]
            simp only
            rw [if_neg (by simp)]
            wp
            refine ⟨_, rfl, h1, h2, ?_⟩
            intro i j
            rw [DoK.get_upd, h3, happ]
            by_cases hij : i = k ∧ j = pre.length
            · obtain ⟨rfl, rfl⟩ := hij
              rw [if_pos rfl, if_neg (by omega), if_pos rfl, if_pos rfl]
            · rw [if_neg (by rw [Prod.mk.injEq]; omega)]
              by_cases h5 : i < k
              · rw [if_pos h5, if_pos h5]
              · rw [if_neg h5, if_neg h5]
                by_cases h6 : i = k
                · rw [if_pos h6, if_pos h6, if_neg (by omega)]
                · rw [if_neg h6, if_neg h6]
          · intro hv0
            wp
            refine ⟨_, rfl, h1, h2, ?_⟩
            intro i j
            rw [h3, happ]
            have hv0 : v = 0 := by simpa using hv0
            by_cases h5 : i < k
            · rw [if_pos h5, if_pos h5]
            · rw [if_neg h5, if_neg h5]
              by_cases h6 : i = k
              · rw [if_pos h6, if_pos h6]
                by_cases h7 : j = pre.length
                · rw [if_pos h7, h7, hv0, List.getD_eq_getElem?_getD, List.getElem?_eq_none (by omega)]; rfl
                · rw [if_neg h7]
              · rw [if_neg h6, if_neg h6]
        · rintro s ⟨h1, h2, h3⟩
          refine ⟨_, rfl, h1, h2, ?_⟩
          intro i j
          rw [h3]
          by_cases h5 : i < k
          · rw [if_pos h5, if_pos (by omega)]
          · rw [if_neg h5]
            by_cases h6 : i = k
            · rw [if_pos h6, if_pos (by omega), h6, hget]
            · rw [if_neg h6, if_neg (by omega)]
      · rintro s h
        exact h
    unfold DoK.from_dense
    simp only
    by_cases hA : A = []
    · subst hA
      rw [hn rfl] at key ⊢
      exact key
    · have hlen0 : 0 < A.length := List.length_pos_iff.2 hA
      rw [if_pos hlen0, Ok_bind, Ok_rd]
      refine ⟨A[0], by simp, ?_⟩
      rw [hrect A[0] (List.getElem_mem hlen0)]
      exact key
  obtain ⟨d, h1, h2, h3, h4⟩ := h
  have hreach : d.Reachable t := .from_dense h1
  have hden : dense d.rows d.cols (fun i j => d.get i j) = A := by
    rw [h2, h3]
    refine dense_eq hrect _ ?_
    intro i hi j hj
    rw [h4, if_pos hi]
  refine ⟨d, h1, h2, h3, fun es hp => by rw [DoK.to_dense_eq hreach.inv hp, hden], ?_, hreach.inv.ne⟩
  rw [(C31_dok_invariant t d hreach).2.2.2.2, ← hden, denseNnz_dense]

example : (∀ r ∈ [[0, 5, 0], [3, 0, (1 : Int)]], r.length = 3) ∧ denseNnz [[0, 5, 0], [3, 0, (1 : Int)]] = 3 ∧
    ((3 : Nat) : Int) ≤ IntTy.i8.hi := by decide

end
end Sparse

import Verif.Lemmas.Bucket
import Mathlib.Data.List.Sort
/-! Format tests, sorting, duplicate summing and zero elimination. -/
namespace Sparse

section
variable {T : Type} {α : Type}

/-- strictly increasing column indices -/
abbrev SRow (r : List (Int × T)) : Prop := r.Pairwise fun e f => e.1 < f.1

/-- non-decreasing column indices -/
abbrev WRow (r : List (Int × T)) : Prop := r.Pairwise fun e f => e.1 ≤ f.1

theorem pairwise_snoc_lt {r : List (Int × T)} {e f : Int × T} (h : SRow (r ++ [e])) (hef : e.1 < f.1) :
    SRow (r ++ [e] ++ [f]) := by
  rw [SRow, List.pairwise_append]
  refine ⟨h, by simp, ?_⟩
  intro a ha b hb
  simp at hb; subst hb
  rw [List.mem_append] at ha
  rcases ha with ha | ha
  · rw [SRow, List.pairwise_append] at h
    exact (h.2.2 a ha e (by simp)).trans hef
  · simp at ha; subst ha; exact hef

theorem pairwise_snoc_le {r : List (Int × T)} {e f : Int × T} (h : WRow (r ++ [e])) (hef : e.1 ≤ f.1) :
    WRow (r ++ [e] ++ [f]) := by
  rw [WRow, List.pairwise_append]
  refine ⟨h, by simp, ?_⟩
  intro a ha b hb
  simp at hb; subst hb
  rw [List.mem_append] at ha
  rcases ha with ha | ha
  · rw [WRow, List.pairwise_append] at h
    exact (h.2.2 a ha e (by simp)).trans hef
  · simp at ha; subst ha; exact hef

theorem has_canonical_ok {t : IntTy} {n : Nat} {p j : List Int} {x : List T} {R : Nat → List (Int × T)}
    (hr : Rep p j x n R) (hfit : ∀ i < n, ((flat R i).length : Int) < t.hi) :
    Ok (csr_has_canonical_format t n p j) fun b => (b = true ↔ ∀ i < n, SRow (R i)) := by
  unfold csr_has_canonical_format
  wp
  refine Ok_forRange' (fun i (s : Option Bool × Unit) => s.1 = none ∧ ∀ k < i, SRow (R k))
    (fun s => s.1 = some false ∧ ¬ ∀ i < n, SRow (R i)) (by omega) ⟨rfl, by simp⟩ ?_ ?_ ?_
  · rintro i s - hi ⟨-, hs⟩
    wp
    rds [hr.ptr i (by omega), hr.ptr_succ hi]
    have h1 := hfit i hi
    have := t.lo_nonpos
    rw [Ok_ite]
    refine ⟨by omega, fun _ => ?_⟩
    wp
    rds [hr.ptr i (by omega), hr.ptr_succ hi]
    refine ⟨⟨by omega, by omega⟩, by omega, ?_⟩
    have e1 : ((flat R i).length + 1 : Int).toNat = (flat R i).length + 1 := by omega
    rw [e1]
    by_cases hemp : (R i).length = 0
    · rw [rng_eq_nil (by omega)]
      simp only [List.forIn_nil]
      wp
      refine ⟨trivial, ?_⟩
      intro k hk
      by_cases hki : k = i
      · subst hki; rw [List.length_eq_zero_iff.1 hemp]; simp
      · exact hs k (by omega)
    refine Ok_forRange' (fun jj (s : Option Bool × Unit) => s.1 = none ∧
      SRow ((R i).take (jj - (flat R i).length)))
      (fun s => s.1 = some false ∧ ¬ SRow (R i)) (by omega) ⟨rfl, ?_⟩ ?_ ?_ ?_
    · rw [Nat.add_sub_cancel_left, List.take_add_one]
      cases h : (R i)[0]? <;> simp
    · rintro jj s hj1 hj2 ⟨-, hs2⟩
      obtain ⟨q, rfl⟩ : ∃ q, jj = (flat R i).length + (q + 1) := ⟨jj - (flat R i).length - 1, by omega⟩
      have hq : q + 1 < (R i).length := by omega
      have g1 := hr.get hi (e := (R i)[q]) (m := q) (by simp)
      have g2 := hr.get hi (e := (R i)[q + 1]) (m := q + 1) (by simp)
      wp
      refine ⟨by omega, ?_⟩
      rw [show (flat R i).length + (q + 1) - 1 = (flat R i).length + q by omega]
      rds [g1.1, g2.1]
      rw [Ok_ite]
      wp
      rw [Nat.add_sub_cancel_left] at hs2
      constructor
      · intro hnl
        refine ⟨trivial, ?_⟩
        intro hsr
        exact hnl (List.pairwise_iff_getElem.1 hsr q (q + 1) (by omega) hq (by omega))
      · intro hl
        refine ⟨trivial, ?_⟩
        rw [show (flat R i).length + (q + 1) + 1 - (flat R i).length = q + 1 + 1 by omega,
          List.take_add_one, List.take_add_one]
        rw [List.take_add_one] at hs2
        simp only [List.getElem?_eq_getElem hq, List.getElem?_eq_getElem (Nat.lt_of_succ_lt hq),
          Option.toList_some] at hs2 ⊢
        exact pairwise_snoc_lt hs2 (by simpa using hl)
    · rintro ⟨s, u⟩ ⟨hs2, hs3⟩
      simp only at hs2
      subst hs2
      wp
      exact ⟨trivial, fun h => hs3 (h i hi)⟩
    · rintro ⟨s, u⟩ ⟨hs2, hs3⟩
      simp only at hs2
      subst hs2
      wp
      refine ⟨trivial, ?_⟩
      intro k hk
      by_cases hki : k = i
      · subst hki; simpa using hs3
      · exact hs k (by omega)
  · rintro ⟨s, u⟩ ⟨hs2, hs3⟩
    simp only at hs2
    subst hs2
    wp
    simpa using hs3
  · rintro ⟨s, u⟩ ⟨hs2, hs3⟩
    simp only at hs2
    subst hs2
    wp
    simpa using hs3

/-! ### stores into an output or compacted array -/

theorem zip_set (j : List Int) (x : List T) (k : Nat) (a : Int) (b : T) :
    (j.set k a).zip (x.set k b) = (j.zip x).set k (a, b) := by
  induction j generalizing x k with
  | nil => simp
  | cons c j ih =>
    cases x with
    | nil => simp
    | cons d x =>
      cases k with
      | zero => simp
      | succ k => simp [ih]

theorem prefix_set {out l : List α} {e : α} (h : out <+: l) (hlt : out.length < l.length) :
    out ++ [e] <+: l.set out.length e := by
  obtain ⟨s, rfl⟩ := h
  cases s with
  | nil => simp at hlt
  | cons c s =>
    rw [List.set_append, if_neg (by omega)]
    simp

theorem drop_set_of_lt {l : List α} {e : α} {i k : Nat} (h : i < k) : (l.set i e).drop k = l.drop k := by
  rw [List.drop_set, if_pos h]

theorem drop_eq_cons_get {l suf : List α} {k : Nat} {e : α} (h : l.drop k = e :: suf) :
    l[k]? = some e ∧ l.drop (k + 1) = suf := by
  constructor
  · have := congrArg (fun l => l[0]?) h
    simpa using this
  · have := congrArg (fun l => l.drop 1) h
    simpa using this

/-! ### csr_sort_indices -/

/-- the stable sort of a row by column index -/
def sortRow (r : List (Int × T)) : List (Int × T) := r.mergeSort fun a b => decide (a.1 ≤ b.1)

theorem sortRow_length (r : List (Int × T)) : (sortRow r).length = r.length := by simp [sortRow]

theorem sortRow_perm (r : List (Int × T)) : (sortRow r).Perm r := List.mergeSort_perm _ _

theorem sortRow_sorted (r : List (Int × T)) : WRow (sortRow r) := by
  have := List.pairwise_mergeSort (le := fun (a b : Int × T) => decide (a.1 ≤ b.1))
    (by intro a b c; simp; omega) (by intro a b; simp; omega) r
  simpa [WRow, sortRow] using this

theorem resize_length (l : List α) (n : Nat) (v : α) : (l.resize n v).length = n := by
  unfold List.resize; simp; omega

theorem sort_indices_ok [Zero T] {n : Nat} {p j : List Int} {x : List T} {R : Nat → List (Int × T)}
    (hr : Rep p j x n R) :
    Ok (csr_sort_indices n p j x) fun r =>
      Rep p r.1 r.2 n (fun i => sortRow (R i)) ∧ r.1.length = j.length ∧ r.2.length = x.length ∧
      (r.1.zip r.2).drop (flat R n).length = (j.zip x).drop (flat R n).length := by
  have hfl : ∀ i, (flat (fun i => sortRow (R i)) i).length = (flat R i).length := by
    intro i
    induction i with
    | zero => simp
    | succ i ih => rw [flat_length_succ, flat_length_succ, ih, sortRow_length]
  unfold csr_sort_indices
  wp
  refine Ok_forRange (fun i (s : List Int × List T × List (Int × T)) =>
    s.1.length = j.length ∧ s.2.1.length = x.length ∧
    s.1.zip s.2.1 = flat (fun i => sortRow (R i)) i ++ (j.zip x).drop (flat R i).length) (by omega)
    ⟨rfl, rfl, by simp⟩ ?_ ?_
  · rintro i ⟨aj, ax, temp⟩ - hi ⟨hlj, hlx, hz⟩
    simp only at hlj hlx hz
    obtain ⟨slack, hsl⟩ := (flat_prefix R hi).trans hr.pre
    have hz' : aj.zip ax = flat (fun i => sortRow (R i)) i ++ R i ++ slack := by
      rw [hz, ← hsl, flat_succ]; simp
    wp
    rds [hr.ptr i (by omega), hr.ptr_succ hi]
    refine ⟨by omega, ?_⟩
    rw [Nat.add_sub_cancel_left]
    have hrow : ∀ (m : Nat) e, (R i)[m]? = some e →
        aj[(flat R i).length + m]? = some e.1 ∧ ax[(flat R i).length + m]? = some e.2 := by
      intro m e he
      rw [← zip_get, hz', List.append_assoc, List.getElem?_append_right (by rw [hfl]; omega), hfl,
        Nat.add_sub_cancel_left, List.getElem?_append_left (by
          rw [List.getElem?_eq_some_iff] at he; exact he.1)]
      exact he
    -- copy the row into temp
    refine Ok_forOff (E := R i) rfl (fun pre (s : List (Int × T) × Nat) =>
      s.2 = pre.length ∧ s.1.length = (R i).length ∧ pre <+: s.1) ⟨rfl, resize_length _ _ _, by simp⟩ ?_ ?_
    · rintro pre e suf ⟨tmp, k⟩ hpre ⟨hk, hl, hp⟩
      simp only at hk hl hp
      subst hk
      have hg := hrow pre.length e (by rw [hpre]; simp)
      have hlt : pre.length < tmp.length := by rw [hl, hpre]; simp
      wp
      rds [hg.1, hg.2]
      refine ⟨_, List.getElem?_eq_getElem hlt, hlt, (e.1, tmp[pre.length].2), by simp [hlt], by simpa using hlt,
        _, rfl, by simp, by simpa using hl, ?_⟩
      rw [List.set_set]
      exact prefix_set hp hlt
    · rintro ⟨tmp, k⟩ ⟨hk, hl, hp⟩
      simp only at hk hl hp
      have htmp : tmp = R i := (hp.eq_of_length hl.symm).symm
      subst htmp
      wp
      -- write the sorted row back
      refine Ok_forOff (E := sortRow (R i)) (by rw [sortRow_length])
        (fun pre (s : List Int × List T × Nat) =>
          s.2.2 = pre.length ∧ s.1.length = j.length ∧ s.2.1.length = x.length ∧
          s.1.zip s.2.1 = flat (fun i => sortRow (R i)) i ++ pre ++ ((R i).drop pre.length ++ slack))
        ⟨rfl, hlj, hlx, by simpa using hz'⟩ ?_ ?_
      · rintro pre e suf ⟨aj, ax, k⟩ hpre ⟨hk, hlj, hlx, hz⟩
        simp only at hk hlj hlx hz
        subst hk
        have hlen : (R i).length = pre.length + 1 + suf.length := by
          rw [← sortRow_length, hpre]; simp; omega
        have hge : (sortRow (R i))[pre.length]? = some e := by rw [hpre]; simp
        have hzl := congrArg List.length hz
        simp only [List.length_zip, List.length_append, hfl, List.length_drop] at hzl
        wp
        change ∃ a, (sortRow (R i))[pre.length]? = some a ∧ _
        rw [hge]
        simp only [Option.some.injEq, exists_eq_left']
        refine ⟨by omega, e, hge, by omega, _, rfl, by simp, by simpa using hlj, by simpa using hlx, ?_⟩
        rw [zip_set, hz, List.set_append, if_neg (by rw [List.length_append, hfl]; omega),
          List.length_append, hfl, Nat.sub_self]
        obtain ⟨c, tl, hc⟩ : ∃ c tl, (R i).drop pre.length = c :: tl :=
          ⟨_, _, List.drop_eq_getElem_cons (by omega)⟩
        have hc2 := (drop_eq_cons_get hc).2
        rw [hc]
        simp [hc2]
      · rintro ⟨aj, ax, k⟩ ⟨hk, hlj, hlx, hz⟩
        simp only at hk hlj hlx hz
        refine ⟨_, rfl, hlj, hlx, ?_⟩
        rw [flat_succ, hz, sortRow_length, List.drop_length, ← hsl]
        simp
  · rintro ⟨aj, ax, temp⟩ ⟨hlj, hlx, hz⟩
    simp only at hlj hlx hz
    refine ⟨⟨hr.len, ?_, ?_⟩, hlj, hlx, ?_⟩
    · intro i hi; rw [hfl]; exact hr.ptr i hi
    · rw [hz]; exact List.prefix_append _ _
    · rw [hz, List.drop_append, ← hfl, List.drop_length, Nat.sub_self, List.drop_zero, List.nil_append]

/-! ### in-place compaction: csr_sum_duplicates, csr_eliminate_zeros -/

/-- state of a compaction: `out` has been written to the front, everything from `jj` on is untouched -/
structure Comp (L0 : List (Int × T)) (lj lx : Nat) (out : List (Int × T))
    (s : Nat × Nat × List Int × List T) : Prop where
  nnz : s.2.1 = out.length
  le : out.length ≤ s.1
  pre : out <+: s.2.2.1.zip s.2.2.2
  rest : (s.2.2.1.zip s.2.2.2).drop s.1 = L0.drop s.1
  lenj : s.2.2.1.length = lj
  lenx : s.2.2.2.length = lx
  len0 : L0.length = min lj lx

/-- the outer loop shared by `csr_sum_duplicates` and `csr_eliminate_zeros` -/
def compact_loop (body : Nat → Nat × Nat × List Int × List T → M (Nat × Nat × List Int × List T))
    (t : IdxTy) (n_row : Nat) (a_p0 a_j0 : List Int) (a_x0 : List T) : M (List Int × List Int × List T) := do
  let mut a_p := a_p0
  let mut a_j := a_j0
  let mut a_x := a_x0
  let mut nnz : Nat := 0
  let mut row_end : Nat := 0
  for i in rng 0 n_row do
    let jj := row_end
    row_end ← toUsize (← a_p.rd (i + 1))
    let r ← body row_end (jj, nnz, a_j, a_x)
    nnz := r.2.1
    a_j := r.2.2.1
    a_x := r.2.2.2
    a_p ← a_p.wr (i + 1) (← IdxTy.ofUsize t nnz)
  return (a_p, a_j, a_x)

theorem sum_dup_eq [Add T] : @csr_sum_duplicates T _ = compact_loop sum_row := rfl
theorem elim_eq [Zero T] [BEq T] : @csr_eliminate_zeros T _ _ = compact_loop elim_row := rfl

theorem compact_ok {body : Nat → Nat × Nat × List Int × List T → M (Nat × Nat × List Int × List T)}
    {F : List (Int × T) → List (Int × T)} (hF : ∀ r, (F r).length ≤ r.length)
    {t : IntTy} {n : Nat} {p j : List Int} {x : List T} {R : Nat → List (Int × T)}
    (hr : Rep p j x n R) (hfit : ((flat R n).length : Int) ≤ t.hi)
    (hbody : ∀ (out E rest : List (Int × T)) s, Comp (j.zip x) j.length x.length out s →
      (j.zip x).drop s.1 = E ++ rest → Ok (body (s.1 + E.length) s) (fun s' =>
        Comp (j.zip x) j.length x.length (out ++ F E) s' ∧ s'.1 = s.1 + E.length)) :
    Ok (compact_loop body t n p j x) fun r =>
      Rep r.1 r.2.1 r.2.2 n (fun i => F (R i)) ∧ r.2.1.length = j.length ∧ r.2.2.length = x.length := by
  have hle : ∀ i, (flat (fun i => F (R i)) i).length ≤ (flat R i).length := by
    intro i
    induction i with
    | zero => simp
    | succ i ih => rw [flat_length_succ, flat_length_succ]; have := hF (R i); omega
  unfold compact_loop
  wp
  refine Ok_forRange (fun i (s : List Int × List Int × List T × Nat × Nat) =>
    s.1.length = n + 1 ∧ s.2.2.2.2 = (flat R i).length ∧
    (∀ k ≤ i, s.1[k]? = some ((flat (fun i => F (R i)) k).length : Int)) ∧
    (∀ k, i < k → k ≤ n → s.1[k]? = some ((flat R k).length : Int)) ∧
    Comp (j.zip x) j.length x.length (flat (fun i => F (R i)) i)
      (s.2.2.2.2, s.2.2.2.1, s.2.1, s.2.2.1)) (by omega) ?_ ?_ ?_
  · refine ⟨hr.len, rfl, ?_, fun k _ hk => hr.ptr k hk, ⟨rfl, by simp, by simp, rfl, rfl, rfl, by simp⟩⟩
    intro k hk
    have : k = 0 := by omega
    subst this
    rw [hr.ptr 0 (by omega)]; simp
  · rintro i ⟨ap, aj, ax, nnz, re⟩ - hi ⟨hl, hre, hp1, hp2, hc⟩
    simp only at hl hre hp1 hp2 hc
    subst hre
    wp
    rds [hp2 (i + 1) (by omega) (by omega)]
    obtain ⟨slack, hsl⟩ := (flat_prefix R hi).trans hr.pre
    have hb := hbody _ (R i) slack _ hc (by
      show (j.zip x).drop (flat R i).length = _
      rw [← hsl, Nat.succ_eq_add_one, flat_succ]; simp)
    rw [flat_length_succ]
    refine Ok.mono hb ?_
    rintro ⟨jj, nnz', aj', ax'⟩ ⟨hc', hjj⟩
    simp only at hjj
    subst hjj
    have h1 := hle (i + 1)
    have h2 := flat_length_mono R (show i + 1 ≤ n by omega)
    rw [← flat_succ (fun i => F (R i))] at hc'
    have hn := hc'.nnz
    simp only at hn
    subst hn
    refine ⟨by simp only; omega, by omega, _, rfl, by simpa using hl, by rw [flat_length_succ], ?_, ?_, hc'⟩
    · intro k hk
      rcases Nat.lt_or_ge k (i + 1) with h | h
      · rw [List.getElem?_set_ne (by omega)]; exact hp1 k (by omega)
      · have : k = i + 1 := by omega
        subst this
        rw [List.getElem?_set_self (by omega)]
    · intro k h1 h2
      rw [List.getElem?_set_ne (by omega)]
      exact hp2 k (by omega) h2
  · rintro ⟨ap, aj, ax, nnz, re⟩ ⟨hl, hre, hp1, hp2, hc⟩
    simp only at hl hre hp1 hp2 hc
    exact ⟨⟨hl, hp1, hc.pre⟩, hc.lenj, hc.lenx⟩

/-- one emitted element of a compaction -/
theorem Comp.emit {L0 out : List (Int × T)} {lj lx : Nat} {s : Nat × Nat × List Int × List T}
    (h : Comp L0 lj lx out s) {jj : Nat} (h1 : out.length < jj) (h2 : jj ≤ L0.length) (hjj : s.1 ≤ jj) (e : Int × T)  :
    out.length < s.2.2.1.length ∧ out.length < s.2.2.2.length ∧
    Comp L0 lj lx (out ++ [e]) (jj, out.length + 1, s.2.2.1.set out.length e.1, s.2.2.2.set out.length e.2) := by
  obtain ⟨j0, nnz, aj, ax⟩ := s
  obtain ⟨a1, a2, a3, a4, a5, a6, a7⟩ := h
  simp only at *
  have hd : (aj.zip ax).drop jj = L0.drop jj := by
    have := congrArg (List.drop (jj - j0)) a4
    rw [List.drop_drop, List.drop_drop] at this
    rwa [show j0 + (jj - j0) = jj by omega] at this
  have hlz : out.length < (aj.zip ax).length := by
    rw [List.length_zip]; omega
  have hl := hlz
  rw [List.length_zip] at hl
  refine ⟨by omega, by omega, ⟨by simp, by simp; omega, ?_, ?_, by simpa using a5, by simpa using a6, a7⟩⟩
  · rw [zip_set]; exact prefix_set a3 hlz
  · simp only; rw [zip_set, drop_set_of_lt h1]; exact hd

theorem Comp.read {L0 out E : List (Int × T)} {lj lx : Nat} {s : Nat × Nat × List Int × List T}
    (h : Comp L0 lj lx out s) (hE : L0.drop s.1 = E) {m : Nat} {e : Int × T} (he : E[m]? = some e) :
    s.2.2.1[s.1 + m]? = some e.1 ∧ s.2.2.2[s.1 + m]? = some e.2 := by
  rw [← zip_get, ← List.getElem?_drop, h.rest, hE, he]

/-- merge each run of consecutive pairs with equal index into one pair with the summed value -/
def combine [Add T] : List (Int × T) → List (Int × T)
  | [] => []
  | e :: r =>
    (e.1, (r.takeWhile fun f => decide (f.1 = e.1)).foldl (fun s f => s + f.2) e.2) ::
      combine (r.dropWhile fun f => decide (f.1 = e.1))
  termination_by r => r.length
  decreasing_by
    have := (List.dropWhile_suffix (fun f : Int × T => decide (f.1 = e.1)) (l := r)).length_le
    simp only [List.length_cons]; omega

theorem dropWhile_length_le {p : α → Bool} (l : List α) : (l.dropWhile p).length ≤ l.length :=
  (List.dropWhile_suffix p).length_le

theorem combine_length [Add T] (r : List (Int × T)) : (combine r).length ≤ r.length := by
  induction r using combine.induct with
  | case1 => simp [combine]
  | case2 e r ih =>
    rw [combine]
    have := dropWhile_length_le (p := fun f : Int × T => decide (f.1 = e.1)) r
    simp only [List.length_cons]; omega

theorem sum_run_ok [Add T] {aj : List Int} {ax : List T} {k : Int} (E : List (Int × T)) (jj : Nat) (v : T)
    (hE : ∀ m e, E[m]? = some e → aj[jj + m]? = some e.1 ∧ ax[jj + m]? = some e.2) :
    sum_run (jj + E.length) k aj ax (jj, v) =
      .ok (jj + (E.takeWhile fun f => decide (f.1 = k)).length,
        (E.takeWhile fun f => decide (f.1 = k)).foldl (fun s f => s + f.2) v) := by
  suffices h : Ok (sum_run (jj + E.length) k aj ax (jj, v)) (fun r => r =
      (jj + (E.takeWhile fun f => decide (f.1 = k)).length,
        (E.takeWhile fun f => decide (f.1 = k)).foldl (fun s f => s + f.2) v)) by
    obtain ⟨a, h1, rfl⟩ := h; exact h1
  generalize hre : jj + E.length = re
  generalize hres : (jj + (E.takeWhile fun f => decide (f.1 = k)).length,
        (E.takeWhile fun f => decide (f.1 = k)).foldl (fun s f => s + f.2) v) = res
  unfold sum_run
  refine Ok_while (fun s => ∃ E2 : List (Int × T), re = s.1 + E2.length ∧
    (∀ m e, E2[m]? = some e → aj[s.1 + m]? = some e.1 ∧ ax[s.1 + m]? = some e.2) ∧
    (s.1 + (E2.takeWhile fun f => decide (f.1 = k)).length,
        (E2.takeWhile fun f => decide (f.1 = k)).foldl (fun s f => s + f.2) s.2) = res)
    (fun s => re - s.1) (by omega) ⟨E, by simp only; omega, hE, hres⟩ ?_
  rintro ⟨jj, v⟩ ⟨E2, h1, h2, h3⟩
  simp only at h1 h2 h3 ⊢
  rw [Ok_ite]
  cases E2 with
  | nil =>
    simp at h1 h3
    constructor
    · intro h; omega
    · intro _; wp; exact h3
  | cons e E2 =>
    simp at h1
    have h0 := h2 0 e (by simp)
    simp only [Nat.add_zero] at h0
    constructor
    · intro hlt
      wp
      rds [h0.1]
      rw [Ok_ite]
      constructor
      · intro hk
        wp
        rds [h0.2]
        refine ⟨⟨E2, by omega, ?_, ?_⟩, by omega⟩
        · intro m f hf
          have := h2 (m + 1) f (by simpa using hf)
          rw [show jj + 1 + m = jj + (m + 1) by omega]; exact this
        · rw [← h3, List.takeWhile_cons]
          simp [hk]; omega
      · intro hk
        wp
        rw [← h3, List.takeWhile_cons]
        simp [hk]
    · intro h; omega

theorem sum_row_ok [Add T] {L0 out E rest : List (Int × T)} {lj lx : Nat} {s : Nat × Nat × List Int × List T}
    (h : Comp L0 lj lx out s) (hL : L0.drop s.1 = E ++ rest) :
    Ok (sum_row (s.1 + E.length) s) (fun s' =>
      Comp L0 lj lx (out ++ combine E) s' ∧ s'.1 = s.1 + E.length) := by
  generalize hre : s.1 + E.length = re
  unfold sum_row
  refine Ok_while (fun s => ∃ o2 E2, o2 ++ combine E2 = out ++ combine E ∧ Comp L0 lj lx o2 s ∧
    L0.drop s.1 = E2 ++ rest ∧ re = s.1 + E2.length) (fun s => re - s.1) (by omega)
    ⟨out, E, rfl, h, hL, hre.symm⟩ ?_
  rintro ⟨jj, nnz, aj, ax⟩ ⟨o2, E2, ho, hc, hd, hr2⟩
  simp only at hd hr2 ⊢
  rw [Ok_ite]
  constructor
  · intro hlt
    cases E2 with
    | nil => simp at hr2; omega
    | cons e E3 =>
      simp only [List.length_cons] at hr2
      have h0 := hc.read hd (m := 0) (e := e) (by simp)
      simp only [Nat.add_zero] at h0
      wp
      rds [h0.1, h0.2]
      have hd3 : L0.drop (jj + 1) = E3 ++ rest := (drop_eq_cons_get hd).2
      have hrun := sum_run_ok (aj := aj) (ax := ax) (k := e.1) E3 (jj + 1) e.2 (by
        intro m f hf
        have := hc.read hd (m := m + 1) (e := f) (by
          have : m < E3.length := by rw [List.getElem?_eq_some_iff] at hf; exact hf.1
          simp [List.getElem?_append_left this, hf])
        simp only at this
        rw [show jj + 1 + m = jj + (m + 1) by omega]; exact this)
      rw [show re = jj + 1 + E3.length by omega, hrun]
      wp
      have hn := hc.nnz
      simp only at hn
      subst hn
      generalize htk : (E3.takeWhile fun f => decide (f.1 = e.1)) = tk at *
      have hsplit : E3 = tk ++ E3.dropWhile fun f => decide (f.1 = e.1) := by
        rw [← htk]; simp
      have hl3 := congrArg List.length hsplit
      simp only [List.length_append] at hl3
      have hle := hc.le
      simp only at hle
      have hll := congrArg List.length hd3
      simp only [List.length_drop, List.length_append] at hll
      have hll2 := congrArg List.length hd
      simp only [List.length_drop, List.length_append, List.length_cons] at hll2
      obtain ⟨g1, g2, g3⟩ := hc.emit (jj := jj + 1 + tk.length) (by omega) (by omega) (by simp only; omega)
        (e.1, tk.foldl (fun s f => s + f.2) e.2)
      refine ⟨g1, g2, ⟨_, E3.dropWhile fun f => decide (f.1 = e.1), ?_, g3, ?_, by omega⟩, by omega⟩
      · rw [← ho, combine, htk]; simp
      ·
        have h5 : L0.drop (jj + 1) = tk ++ (E3.dropWhile (fun f => decide (f.1 = e.1)) ++ rest) := by
          rw [hd3]; conv_lhs => rw [hsplit]
          simp
        rw [← List.drop_drop, h5]; simp
  · intro hge
    cases E2 with
    | nil =>
      wp
      simp [combine] at ho
      subst ho
      simp at hr2
      exact ⟨hc, by omega⟩
    | cons e E2 => simp at hr2; omega

theorem sum_duplicates_ok [Add T] {t : IntTy} {n : Nat} {p j : List Int} {x : List T}
    {R : Nat → List (Int × T)} (hr : Rep p j x n R) (hfit : ((flat R n).length : Int) ≤ t.hi) :
    Ok (csr_sum_duplicates t n p j x) fun r =>
      Rep r.1 r.2.1 r.2.2 n (fun i => combine (R i)) ∧ r.2.1.length = j.length ∧ r.2.2.length = x.length := by
  rw [sum_dup_eq]
  exact compact_ok combine_length hr hfit (fun out E rest s h1 h2 => sum_row_ok h1 h2)

theorem elim_row_ok [Zero T] [BEq T] {L0 out E rest : List (Int × T)} {lj lx : Nat}
    {s : Nat × Nat × List Int × List T}
    (h : Comp L0 lj lx out s) (hL : L0.drop s.1 = E ++ rest) :
    Ok (elim_row (s.1 + E.length) s) (fun s' =>
      Comp L0 lj lx (out ++ E.filter (fun e => e.2 != 0)) s' ∧ s'.1 = s.1 + E.length) := by
  generalize hre : s.1 + E.length = re
  unfold elim_row
  refine Ok_while (fun s => ∃ o2 E2, o2 ++ E2.filter (fun e => e.2 != 0) =
      out ++ E.filter (fun e => e.2 != 0) ∧ Comp L0 lj lx o2 s ∧
    L0.drop s.1 = E2 ++ rest ∧ re = s.1 + E2.length) (fun s => re - s.1) (by omega)
    ⟨out, E, rfl, h, hL, hre.symm⟩ ?_
  rintro ⟨jj, nnz, aj, ax⟩ ⟨o2, E2, ho, hc, hd, hr2⟩
  simp only at hd hr2 ⊢
  rw [Ok_ite]
  constructor
  · intro hlt
    cases E2 with
    | nil => simp at hr2; omega
    | cons e E3 =>
      simp only [List.length_cons] at hr2
      have h0 := hc.read hd (m := 0) (e := e) (by simp)
      simp only [Nat.add_zero] at h0
      wp
      rds [h0.1, h0.2]
      have hd3 : L0.drop (jj + 1) = E3 ++ rest := (drop_eq_cons_get hd).2
      have hn := hc.nnz
      have hle := hc.le
      simp only at hn hle
      subst hn
      have hll2 := congrArg List.length hd
      simp only [List.length_drop, List.length_append, List.length_cons] at hll2
      rw [Ok_ite]
      constructor
      · intro hne
        wp
        obtain ⟨g1, g2, g3⟩ := hc.emit (jj := jj + 1) (by omega) (by omega) (by simp only; omega) e
        refine ⟨g1, g2, ⟨_, E3, ?_, g3, hd3, by omega⟩, by omega⟩
        rw [← ho, List.filter_cons, if_pos hne]; simp
      · intro hne
        wp
        refine ⟨⟨o2, E3, ?_, ⟨rfl, by omega, hc.pre, ?_, hc.lenj, hc.lenx, hc.len0⟩, hd3, by omega⟩,
          by omega⟩
        · rw [← ho, List.filter_cons, if_neg hne]
        · have := congrArg (List.drop 1) hc.rest
          simpa using this
  · intro hge
    cases E2 with
    | nil =>
      wp
      rw [List.filter_nil, List.append_nil] at ho
      subst ho
      simp at hr2
      exact ⟨hc, by omega⟩
    | cons e E2 => simp at hr2; omega

theorem eliminate_zeros_ok [Zero T] [BEq T] {t : IntTy} {n : Nat} {p j : List Int} {x : List T}
    {R : Nat → List (Int × T)} (hr : Rep p j x n R) (hfit : ((flat R n).length : Int) ≤ t.hi) :
    Ok (csr_eliminate_zeros t n p j x) fun r =>
      Rep r.1 r.2.1 r.2.2 n (fun i => (R i).filter fun e => e.2 != 0) ∧
        r.2.1.length = j.length ∧ r.2.2.length = x.length := by
  rw [elim_eq]
  exact compact_ok (fun r => List.length_filter_le _ r) hr hfit (fun out E rest s h1 h2 => elim_row_ok h1 h2)

end
end Sparse

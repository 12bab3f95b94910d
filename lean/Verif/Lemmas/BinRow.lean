import Verif.Lemmas.Binop
/-! What the rows produced by the two element-wise methods contain. -/
namespace Sparse

section
variable {T T2 : Type}

/-- `R` stores `op (A k) (B k)` once for every column `k` of `A` or `B`, except for zero results -/
structure BinRow [AddCommMonoid T] (op : T → T → T2) (nz : T2 → Bool) (A B : List (Int × T)) (R : List (Int × T2)) : Prop where
  nodup : (R.map (·.1)).Nodup
  mem : ∀ k v, (k, v) ∈ R ↔ ((∃ e ∈ A, e.1 = k) ∨ (∃ e ∈ B, e.1 = k)) ∧ v = op (rowSum A k) (rowSum B k) ∧ nz v = true

/-- law-free form: `R` stores `f k` once for every column `k` of `A` or `B`, except for zero results -/
structure BinRowF (f : Int → T2) (nz : T2 → Bool) (A B : List (Int × T)) (R : List (Int × T2)) : Prop where
  nodup : (R.map (·.1)).Nodup
  mem : ∀ k v, (k, v) ∈ R ↔ ((∃ e ∈ A, e.1 = k) ∨ (∃ e ∈ B, e.1 = k)) ∧ v = f k ∧ nz v = true

theorem push_nodup {L : List Nat} (h : L.Nodup) (k : Nat) : (push L k).Nodup := by
  unfold push
  split
  · exact h
  · rename_i hk; exact List.nodup_cons.2 ⟨hk, h⟩

theorem pushAll_nodup {L : List Nat} (h : L.Nodup) (r : List (Int × T)) : (pushAll L r).Nodup := by
  induction r generalizing L with
  | nil => exact h
  | cons e r ih => exact ih (push_nodup h _)

theorem mem_emitRow {nz : T2 → Bool} {f : Nat → T2} {L : List Nat} {k : Int} {v : T2} :
    (k, v) ∈ emitRow nz f L ↔ ∃ q ∈ L, k = (q : Int) ∧ v = f q ∧ nz v = true := by
  unfold emitRow
  rw [List.mem_flatMap]
  constructor
  · rintro ⟨q, hq, h⟩
    split at h
    · rename_i hn
      simp only [List.mem_singleton, Prod.mk.injEq] at h
      obtain ⟨rfl, rfl⟩ := h
      exact ⟨q, hq, rfl, rfl, hn⟩
    · simp at h
  · rintro ⟨q, hq, rfl, rfl, hn⟩
    exact ⟨q, hq, by simp [hn]⟩

theorem emitRow_nodup {nz : T2 → Bool} {f : Nat → T2} {L : List Nat} (h : L.Nodup) :
    ((emitRow nz f L).map (·.1)).Nodup := by
  induction L with
  | nil => simp [emitRow]
  | cons k L ih =>
    obtain ⟨h1, h2⟩ := List.nodup_cons.1 h
    rw [show k :: L = [k] ++ L from rfl, emitRow_append, List.map_append]
    refine List.nodup_append.2 ⟨?_, ih h2, ?_⟩
    · unfold emitRow
      simp only [List.flatMap_cons, List.flatMap_nil, List.append_nil]
      split <;> simp
    · intro a ha b hb
      simp only [List.mem_map] at ha hb
      obtain ⟨⟨k1, v1⟩, m1, rfl⟩ := ha
      obtain ⟨⟨k2, v2⟩, m2, rfl⟩ := hb
      rw [mem_emitRow] at m1 m2
      obtain ⟨q1, hq1, rfl, -⟩ := m1
      obtain ⟨q2, hq2, rfl, -⟩ := m2
      simp only [List.mem_singleton] at hq1
      subst hq1
      simp only [ne_eq, Int.natCast_inj]
      rintro rfl
      exact h1 hq2

theorem genRowX_binRowF [Zero T] [Add T] (op : T → T → T2) (nz : T2 → Bool) {A B : List (Int × T)}
    (hA : ∀ e ∈ A, 0 ≤ e.1) (hB : ∀ e ∈ B, 0 ≤ e.1) : 
    BinRowF (fun k => op (sumFrom 0 (valuesIn A k)) (sumFrom 0 (valuesIn B k))) nz A B (genRowX op nz A B) := by
  refine ⟨emitRow_nodup (pushAll_nodup (pushAll_nodup List.nodup_nil _) _), ?_⟩
  intro k v
  unfold genRowX
  rw [mem_emitRow]
  simp only [mem_pushAll, List.not_mem_nil, false_or]
  constructor
  · rintro ⟨q, h1, rfl, rfl, h4⟩
    refine ⟨?_, rfl, h4⟩
    rcases h1 with ⟨e, he, hq⟩ | ⟨e, he, hq⟩
    · have := hA e he
      exact Or.inl ⟨e, he, by omega⟩
    · have := hB e he
      exact Or.inr ⟨e, he, by omega⟩
  · rintro ⟨h1, h2, h3⟩
    rcases h1 with ⟨e, he, rfl⟩ | ⟨e, he, rfl⟩
    · have := hA e he
      exact ⟨e.1.toNat, Or.inl ⟨e, he, rfl⟩, by omega, by simp only [h2, Int.toNat_of_nonneg this], h3⟩
    · have := hB e he
      exact ⟨e.1.toNat, Or.inr ⟨e, he, rfl⟩, by omega, by simp only [h2, Int.toNat_of_nonneg this], h3⟩

theorem genRow_binRow [AddCommMonoid T] (op : T → T → T2) (nz : T2 → Bool) {A B : List (Int × T)}
    (hA : ∀ e ∈ A, 0 ≤ e.1) (hB : ∀ e ∈ B, 0 ≤ e.1) : BinRow op nz A B (genRow op nz A B) := by
  have h := genRowX_binRowF op nz hA hB
  have e : genRowX op nz A B = genRow op nz A B := by
    unfold genRowX genRow
    simp only [sumFrom_zero]
  rw [e] at h
  exact ⟨h.nodup, fun k v => by rw [h.mem]; simp only [sumFrom_zero]⟩

theorem SRow.cons_lt {a : Int × T} {A : List (Int × T)} (h : SRow (a :: A)) : ∀ e ∈ A, a.1 < e.1 :=
  (List.pairwise_cons.1 h).1

theorem SRow.tail {a : Int × T} {A : List (Int × T)} (h : SRow (a :: A)) : SRow A := (List.pairwise_cons.1 h).2

/-- the first value a row stores for column `k`, zero if there is none -/
def headIn [Zero T] (r : List (Int × T)) (k : Int) : T := (valuesIn r k).headD 0

theorem headIn_nil [Zero T] (k : Int) : headIn ([] : List (Int × T)) k = 0 := rfl

theorem headIn_cons [Zero T] (a : Int × T) (A : List (Int × T)) (k : Int) :
    headIn (a :: A) k = if k = a.1 then a.2 else headIn A k := by
  unfold headIn valuesIn
  rw [List.filter_cons]
  by_cases e : k = a.1
  · simp [e]
  · have : ¬ a.1 = k := fun h => e h.symm
    simp [e, this]

theorem headIn_lt [Zero T] {A : List (Int × T)} {k : Int} (h : ∀ e ∈ A, k < e.1) : headIn A k = 0 := by
  unfold headIn valuesIn
  rw [List.filter_eq_nil_iff.2]
  · rfl
  · intro e he
    have := h e he
    simp; omega

theorem SRow.rowSum_eq [AddCommMonoid T] {A : List (Int × T)} (h : SRow A) (k : Int) : rowSum A k = headIn A k := by
  induction A with
  | nil => simp [headIn, valuesIn]
  | cons a A ih =>
    rw [Sparse.rowSum_cons, headIn_cons, ih h.tail]
    by_cases e : k = a.1
    · rw [if_pos e.symm, if_pos e, headIn_lt (fun f hf => by rw [e]; exact h.cons_lt f hf), add_zero]
    · rw [if_neg (fun h => e h.symm), if_neg e, zero_add]

theorem mem_emit1 {nz : T2 → Bool} {k q : Int} {v w : T2} :
    (k, v) ∈ emit1 nz q w ↔ k = q ∧ v = w ∧ nz v = true := by
  unfold emit1
  split
  · rename_i h
    simp only [List.mem_singleton, Prod.mk.injEq]
    constructor
    · rintro ⟨rfl, rfl⟩; exact ⟨rfl, rfl, h⟩
    · rintro ⟨rfl, rfl, -⟩; exact ⟨rfl, rfl⟩
  · rename_i h
    simp only [List.not_mem_nil, false_iff]
    rintro ⟨-, rfl, h'⟩
    exact h h'

theorem mem_emits_left [Zero T] {nz : T2 → Bool} {f : T → T2} {A : List (Int × T)} (hA : SRow A) (k : Int) (v : T2) :
    ((k, v) ∈ A.flatMap fun e => emit1 nz e.1 (f e.2)) ↔ (∃ e ∈ A, e.1 = k) ∧ v = f (headIn A k) ∧ nz v = true := by
  induction A with
  | nil => simp
  | cons a A ih =>
    rw [List.flatMap_cons, List.mem_append, ih hA.tail, mem_emit1, headIn_cons]
    have hlt := hA.cons_lt
    by_cases hk : k = a.1
    · subst hk
      have hno : ¬ ∃ e ∈ A, e.1 = a.1 := by
        rintro ⟨e, he, h⟩
        have := hlt e he
        omega
      simp only [hno, false_and, or_false, if_true, true_and, List.mem_cons, exists_eq_or_imp]
    · have hk' : ¬ a.1 = k := fun h => hk h.symm
      simp only [hk, hk', false_and, false_or, if_false, List.mem_cons, exists_eq_or_imp]

theorem emits_sorted {nz : T2 → Bool} {f : T → T2} {A : List (Int × T)} (hA : SRow A) :
    SRow (A.flatMap fun e => emit1 nz e.1 (f e.2)) := by
  induction A with
  | nil => simp [SRow]
  | cons a A ih =>
    rw [List.flatMap_cons]
    refine List.pairwise_append.2 ⟨?_, ih hA.tail, ?_⟩
    · unfold emit1; split <;> simp
    · rintro ⟨k1, v1⟩ h1 ⟨k2, v2⟩ h2
      rw [mem_emit1] at h1
      rw [List.mem_flatMap] at h2
      obtain ⟨e, he, h2⟩ := h2
      rw [mem_emit1] at h2
      have := hA.cons_lt e he
      simp only [h1.1, h2.1]
      exact this

theorem mem_mergeRow [Zero T] (op : T → T → T2) (nz : T2 → Bool) (A B : List (Int × T)) (hA : SRow A) (hB : SRow B)
    (k : Int) (v : T2) :
    (k, v) ∈ mergeRow op nz A B ↔
      ((∃ e ∈ A, e.1 = k) ∨ (∃ e ∈ B, e.1 = k)) ∧ v = op (headIn A k) (headIn B k) ∧ nz v = true := by
  fun_induction mergeRow op nz A B with
  | case1 B => simpa [headIn_nil] using mem_emits_left (f := op 0) hB k v
  | case2 A => simpa [headIn_nil] using mem_emits_left (f := (op · 0)) hA k v
  | case3 a A b B h ih =>
    rw [List.mem_append, ih hA.tail hB.tail, mem_emit1, headIn_cons a, headIn_cons b]
    have ltA := hA.cons_lt
    have ltB := hB.cons_lt
    simp only [List.mem_cons, exists_eq_or_imp]
    by_cases hk : k = a.1
    · have hnA : ¬ ∃ e ∈ A, e.1 = k := by
        rintro ⟨e, he, h⟩; have := ltA e he; omega
      have hnB : ¬ ∃ e ∈ B, e.1 = k := by
        rintro ⟨e, he, h⟩; have := ltB e he; omega
      have hkb : k = b.1 := by omega
      rw [if_pos hk, if_pos hkb]
      simp only [hnA, hnB, false_and, or_false, ← hk, true_and, true_or]
    · have hkb : ¬ k = b.1 := by omega
      rw [if_neg hk, if_neg hkb]
      have e1 : ¬ a.1 = k := by omega
      have e2 : ¬ b.1 = k := by omega
      simp only [hk, e1, e2, false_and, false_or]
  | case4 a A b B h h2 ih =>
    rw [List.mem_append, ih hA.tail hB, mem_emit1, headIn_cons a]
    have ltA := hA.cons_lt
    have ltB := hB.cons_lt
    simp only [List.mem_cons, exists_eq_or_imp]
    by_cases hk : k = a.1
    · have hnA : ¬ ∃ e ∈ A, e.1 = k := by
        rintro ⟨e, he, h⟩; have := ltA e he; omega
      have hnB : ¬ ∃ e ∈ B, e.1 = k := by
        rintro ⟨e, he, h⟩; have := ltB e he; omega
      have hkb : ¬ b.1 = k := by omega
      have hz : headIn (b :: B) k = 0 := headIn_lt (by
        intro e he
        rcases List.mem_cons.1 he with rfl | he
        · omega
        · have := ltB e he; omega)
      rw [if_pos hk, hz]
      simp only [hnA, hnB, hkb, false_and, false_or, or_false, ← hk, true_and]
    · rw [if_neg hk]
      have e1 : ¬ a.1 = k := by omega
      simp only [hk, e1, false_and, false_or]
  | case5 a A b B h h2 ih =>
    rw [List.mem_append, ih hA hB.tail, mem_emit1, headIn_cons b]
    have ltA := hA.cons_lt
    have ltB := hB.cons_lt
    simp only [List.mem_cons, exists_eq_or_imp]
    by_cases hk : k = b.1
    · have hnA : ¬ ∃ e ∈ A, e.1 = k := by
        rintro ⟨e, he, h⟩; have := ltA e he; omega
      have hnB : ¬ ∃ e ∈ B, e.1 = k := by
        rintro ⟨e, he, h⟩; have := ltB e he; omega
      have hkb : ¬ a.1 = k := by omega
      have hz : headIn (a :: A) k = 0 := headIn_lt (by
        intro e he
        rcases List.mem_cons.1 he with rfl | he
        · omega
        · have := ltA e he; omega)
      rw [if_pos hk, hz]
      simp only [hnA, hnB, hkb, false_and, false_or, or_false, ← hk, true_and]
    · rw [if_neg hk]
      have e1 : ¬ b.1 = k := by omega
      simp only [hk, e1, false_and, false_or]

theorem mergeRow_sorted [Zero T] (op : T → T → T2) (nz : T2 → Bool) (A B : List (Int × T)) (hA : SRow A) (hB : SRow B) :
    SRow (mergeRow op nz A B) := by
  have hone : ∀ k v, SRow (emit1 nz k v) := by
    intro k v; unfold emit1; split <;> simp [SRow]
  fun_induction mergeRow op nz A B with
  | case1 B => exact emits_sorted hB
  | case2 A => exact emits_sorted (f := (op · 0)) hA
  | case3 a A b B h ih =>
    refine List.pairwise_append.2 ⟨hone _ _, ih hA.tail hB.tail, ?_⟩
    rintro ⟨k1, v1⟩ h1 ⟨k2, v2⟩ h2
    rw [mem_emit1] at h1
    rw [mem_mergeRow _ _ _ _ hA.tail hB.tail] at h2
    simp only [h1.1]
    rcases h2.1 with ⟨e, he, h⟩ | ⟨e, he, h⟩
    · have := hA.cons_lt e he; omega
    · have := hB.cons_lt e he; omega
  | case4 a A b B h h2 ih =>
    refine List.pairwise_append.2 ⟨hone _ _, ih hA.tail hB, ?_⟩
    rintro ⟨k1, v1⟩ h1 ⟨k2, v2⟩ h2
    rw [mem_emit1] at h1
    rw [mem_mergeRow _ _ _ _ hA.tail hB] at h2
    simp only [h1.1]
    rcases h2.1 with ⟨e, he, h⟩ | ⟨e, he, h⟩
    · have := hA.cons_lt e he; omega
    · rcases List.mem_cons.1 he with rfl | he
      · omega
      · have := hB.cons_lt e he; omega
  | case5 a A b B h h2 ih =>
    refine List.pairwise_append.2 ⟨hone _ _, ih hA hB.tail, ?_⟩
    rintro ⟨k1, v1⟩ h1 ⟨k2, v2⟩ h2
    rw [mem_emit1] at h1
    rw [mem_mergeRow _ _ _ _ hA hB.tail] at h2
    simp only [h1.1]
    rcases h2.1 with ⟨e, he, h⟩ | ⟨e, he, h⟩
    · rcases List.mem_cons.1 he with rfl | he
      · omega
      · have := hA.cons_lt e he; omega
    · have := hB.cons_lt e he; omega

theorem mergeRow_binRowF [Zero T] (op : T → T → T2) (nz : T2 → Bool) {A B : List (Int × T)}
    (hA : SRow A) (hB : SRow B) :
    BinRowF (fun k => op (headIn A k) (headIn B k)) nz A B (mergeRow op nz A B) :=
  ⟨(mergeRow_sorted op nz A B hA hB).nodup_keys, mem_mergeRow op nz A B hA hB⟩

theorem mergeRow_binRow [AddCommMonoid T] (op : T → T → T2) (nz : T2 → Bool) {A B : List (Int × T)}
    (hA : SRow A) (hB : SRow B) : BinRow op nz A B (mergeRow op nz A B) :=
  ⟨(mergeRow_binRowF op nz hA hB).nodup, fun k v => by
    rw [(mergeRow_binRowF op nz hA hB).mem, hA.rowSum_eq, hB.rowSum_eq]⟩

/-- two rows meeting the same specification hold the same entries -/
theorem BinRow.perm [AddCommMonoid T] {op : T → T → T2} {nz : T2 → Bool} {A B : List (Int × T)} {R S : List (Int × T2)}
    (hR : BinRow op nz A B R) (hS : BinRow op nz A B S) : R.Perm S := by
  refine (List.perm_ext_iff_of_nodup ?_ ?_).2 ?_
  · exact List.Nodup.of_map _ hR.nodup
  · exact List.Nodup.of_map _ hS.nodup
  · rintro ⟨k, v⟩
    rw [hR.mem, hS.mem]

theorem rowSum_nodup [AddCommMonoid T] {R : List (Int × T)} (h : (R.map (·.1)).Nodup) {k : Int} {v : T} (hm : (k, v) ∈ R) :
    rowSum R k = v := by
  induction R with
  | nil => simp at hm
  | cons e R ih =>
    simp only [List.map_cons, List.nodup_cons] at h
    rw [rowSum_cons]
    rcases List.mem_cons.1 hm with rfl | hm
    · have : rowSum R k = 0 := by
        apply rowSum_eq_zero
        intro f hf hk
        exact absurd (List.mem_map.2 ⟨f, hf, hk⟩) h.1
      simp [this]
    · have hne : ¬ e.1 = k := by
        rintro rfl
        exact h.1 (List.mem_map.2 ⟨(e.1, v), hm, rfl⟩)
      rw [if_neg hne, ih h.2 hm, zero_add]

theorem BinRow.rowSum [AddCommMonoid T] [AddCommMonoid T2] [DecidableEq T2] {op : T → T → T2} {A B : List (Int × T)}
    {R : List (Int × T2)} (h : BinRow op nzT A B R) (h0 : op 0 0 = 0) (k : Int) :
    rowSum R k = op (rowSum A k) (rowSum B k) := by
  by_cases hz : op (Sparse.rowSum A k) (Sparse.rowSum B k) = 0
  · rw [hz]
    apply rowSum_eq_zero
    rintro ⟨q, v⟩ he rfl
    have := (h.mem q v).1 he
    rw [this.2.1]
    exact hz
  · refine rowSum_nodup h.nodup ((h.mem _ _).2 ⟨?_, rfl, by simp [nzT, hz]⟩)
    by_contra hn
    simp only [not_or] at hn
    apply hz
    rw [rowSum_eq_zero (r := A), rowSum_eq_zero (r := B), h0]
    · intro e he hk; exact absurd ⟨e, he, hk⟩ hn.2
    · intro e he hk; exact absurd ⟨e, he, hk⟩ hn.1

theorem BinRowF.length_le {f : Int → T2} {nz : T2 → Bool} {A B : List (Int × T)}
    {R : List (Int × T2)} (h : BinRowF f nz A B R) : R.length ≤ A.length + B.length := by
  have h1 : (R.map (·.1)) ⊆ (A ++ B).map (·.1) := by
    intro k hk
    obtain ⟨⟨q, v⟩, he, rfl⟩ := List.mem_map.1 hk
    have := ((h.mem q v).1 he).1
    simp only [List.map_append, List.mem_append, List.mem_map]
    exact this
  have := (List.Nodup.subperm h.nodup h1).length_le
  simpa using this

theorem BinRow.length_le [AddCommMonoid T] {op : T → T → T2} {nz : T2 → Bool} {A B : List (Int × T)}
    {R : List (Int × T2)} (h : BinRow op nz A B R) : R.length ≤ A.length + B.length :=
  BinRowF.length_le ⟨h.nodup, h.mem⟩

open Classical in
/-- the value `csr_binop_csr` computes for column `k` of a row: on canonical operands `op` of the stored values
(zero when nothing is stored), otherwise `op` of the two sums, each started from zero -/
noncomputable def binVal [Zero T] [Add T] (can : Prop) (op : T → T → T2) (A B : List (Int × T)) (k : Int) : T2 :=
  if can then op (headIn A k) (headIn B k) else op (sumFrom 0 (valuesIn A k)) (sumFrom 0 (valuesIn B k))

theorem binop_exact [Zero T] [Add T] {t : IntTy} {n nc : Nat} {lj : List Int} {lx : List T2} {ap aj bp bj cp cj : List Int}
    {ax bx : List T} {cx : List T2} (op : T → T → T2) (nz : T2 → Bool) {RA RB : Nat → List (Int × T)}
    (ha : Rep ap aj ax n RA) (hb : Rep bp bj bx n RB)
    (hma : ∀ i < n, ∀ e ∈ RA i, 0 ≤ e.1 ∧ e.1 < nc ∧ e.1 ≤ t.hi)
    (hmb : ∀ i < n, ∀ e ∈ RB i, 0 ≤ e.1 ∧ e.1 < nc ∧ e.1 ≤ t.hi)
    (hcp : cp.length = n + 1) (hcj : cj = lj) (hcx : cx = lx)
    (hj : (flat RA n).length + (flat RB n).length ≤ lj.length) (hx : (flat RA n).length + (flat RB n).length ≤ lx.length)
    (hfit : (((flat RA n).length + (flat RB n).length : Nat) : Int) < t.hi) :
    Ok (csr_binop_csr t n nc ap aj ax bp bj bx cp cj cx op nz) fun r =>
      ∃ R, Rep r.1 r.2.1 r.2.2 n R ∧ r.2.1.length = lj.length ∧ r.2.2.length = lx.length ∧
        (∀ i < n, BinRowF (binVal ((∀ i < n, SRow (RA i)) ∧ ∀ i < n, SRow (RB i)) op (RA i) (RB i)) nz (RA i) (RB i) (R i)) ∧
        ((∀ i < n, SRow (RA i)) → (∀ i < n, SRow (RB i)) → ∀ i < n, SRow (R i)) ∧
        ∀ k, (flat R n).length ≤ k → r.2.1[k]? = lj[k]? ∧ r.2.2[k]? = lx[k]? := by
  have hfa : ∀ i < n, ((flat RA i).length : Int) < t.hi := fun i hi => by
    have := flat_length_mono RA (Nat.le_of_lt hi); omega
  have hfb : ∀ i < n, ((flat RB i).length : Int) < t.hi := fun i hi => by
    have := flat_length_mono RB (Nat.le_of_lt hi); omega
  have hgen := binop_general_exact (op := op) (nz := nz) ha hb hma hmb hcp hcj hcx hj hx (by omega)
  have hcan := binop_canonical_ok (t := t) (op := op) (nz := nz) ha hb hcp hcj hcx hj hx (by omega)
  unfold csr_binop_csr
  obtain ⟨ca, hca, hcai⟩ := has_canonical_ok ha hfa
  obtain ⟨cb, hcb, hcbi⟩ := has_canonical_ok hb hfb
  rw [hca]
  rw [Ok_bind, Ok_ok]
  have G : (¬ ((∀ i < n, SRow (RA i)) ∧ (∀ i < n, SRow (RB i)))) → Ok (csr_binop_csr_general t n nc ap aj ax bp bj bx cp cj cx op nz) fun r =>
      ∃ R, Rep r.1 r.2.1 r.2.2 n R ∧ r.2.1.length = lj.length ∧ r.2.2.length = lx.length ∧
        (∀ i < n, BinRowF (binVal ((∀ i < n, SRow (RA i)) ∧ ∀ i < n, SRow (RB i)) op (RA i) (RB i)) nz (RA i) (RB i) (R i)) ∧
        ((∀ i < n, SRow (RA i)) → (∀ i < n, SRow (RB i)) → ∀ i < n, SRow (R i)) ∧
        ∀ k, (flat R n).length ≤ k → r.2.1[k]? = lj[k]? ∧ r.2.2[k]? = lx[k]? := by
    intro hn
    refine hgen.mono ?_
    rintro r ⟨h1, h2, h3, h4⟩
    exact ⟨_, h1, h2, h3, fun i hi => by
      have h := genRowX_binRowF op nz (fun e he => (hma i hi e he).1) (fun e he => (hmb i hi e he).1)
      exact ⟨h.nodup, fun k v => by rw [h.mem, binVal, if_neg hn]⟩,
      fun h h' => absurd ⟨h, h'⟩ hn, h4⟩
  cases ca with
  | false =>
    rw [if_neg (by simp), Ok_bind, Ok_pure]
    show Ok (if _ then _ else _) _
    rw [if_neg (by simp)]
    exact G (fun h => by simpa using hcai.2 h.1)
  | true =>
    rw [if_pos rfl, hcb, Ok_bind, Ok_ok]
    cases cb with
    | false =>
      show Ok (if _ then _ else _) _
      rw [if_neg (by simp)]
      exact G (fun h => by simpa using hcbi.2 h.2)
    | true =>
      show Ok (if _ then _ else _) _
      rw [if_pos rfl]
      refine hcan.mono ?_
      rintro r ⟨h1, h2, h3, h4⟩
      have sa := hcai.1 rfl
      have sb := hcbi.1 rfl
      exact ⟨_, h1, h2, h3, fun i hi => by
          have h := mergeRow_binRowF op nz (sa i hi) (sb i hi)
          exact ⟨h.nodup, fun k v => by rw [h.mem, binVal, if_pos ⟨sa, sb⟩]⟩,
        fun _ _ i hi => mergeRow_sorted op nz _ _ (sa i hi) (sb i hi), h4⟩

theorem binop_ok [AddCommMonoid T] {t : IntTy} {n nc : Nat} {lj : List Int} {lx : List T2} {ap aj bp bj cp cj : List Int}
    {ax bx : List T} {cx : List T2} (op : T → T → T2) (nz : T2 → Bool) {RA RB : Nat → List (Int × T)}
    (ha : Rep ap aj ax n RA) (hb : Rep bp bj bx n RB)
    (hma : ∀ i < n, ∀ e ∈ RA i, 0 ≤ e.1 ∧ e.1 < nc ∧ e.1 ≤ t.hi)
    (hmb : ∀ i < n, ∀ e ∈ RB i, 0 ≤ e.1 ∧ e.1 < nc ∧ e.1 ≤ t.hi)
    (hcp : cp.length = n + 1) (hcj : cj = lj) (hcx : cx = lx)
    (hj : (flat RA n).length + (flat RB n).length ≤ lj.length) (hx : (flat RA n).length + (flat RB n).length ≤ lx.length)
    (hfit : (((flat RA n).length + (flat RB n).length : Nat) : Int) < t.hi) :
    Ok (csr_binop_csr t n nc ap aj ax bp bj bx cp cj cx op nz) fun r =>
      ∃ R, Rep r.1 r.2.1 r.2.2 n R ∧ r.2.1.length = lj.length ∧ r.2.2.length = lx.length ∧
        (∀ i < n, BinRow op nz (RA i) (RB i) (R i)) ∧
        ((∀ i < n, SRow (RA i)) → (∀ i < n, SRow (RB i)) → ∀ i < n, SRow (R i)) ∧
        ∀ k, (flat R n).length ≤ k → r.2.1[k]? = lj[k]? ∧ r.2.2[k]? = lx[k]? := by
  refine (binop_exact op nz ha hb hma hmb hcp hcj hcx hj hx hfit).mono ?_
  rintro r ⟨R, h1, h2, h3, h4, h5, h6⟩
  refine ⟨R, h1, h2, h3, fun i hi => ⟨(h4 i hi).nodup, fun k v => ?_⟩, h5, h6⟩
  rw [(h4 i hi).mem, binVal]
  split
  · rename_i h
    rw [(h.1 i hi).rowSum_eq, (h.2 i hi).rowSum_eq]
  · rw [sumFrom_zero, sumFrom_zero]

end
end Sparse

import Verif.Lemmas.Chain
import Verif.Lemmas.MatBasic
/-! Element-wise binary operations: `csr_binop_csr_general`, `csr_binop_csr_canonical`. -/
namespace Sparse

section
variable {T T2 : Type}

/-- the output arrays after `i` rows -/
structure COut (n : Nat) (lj : List Int) (lx : List T2) (i : Nat) (R : Nat → List (Int × T2)) (nnz : Int) (cp cj : List Int) (cx : List T2) : Prop where
  len : cp.length = n + 1
  ptr : ∀ k ≤ i, cp[k]? = some ((flat R k).length : Int)
  emit : Emit lj lx (flat R i) nnz cj cx

theorem COut.init {n : Nat} {lj : List Int} {lx : List T2} {R : Nat → List (Int × T2)} {cp cj : List Int} {cx : List T2}
    (h1 : cp.length = n + 1) (h2 : cj = lj) (h3 : cx = lx) :
    COut n lj lx 0 R 0 (cp.set 0 0) cj cx := by
  refine ⟨by simp [h1], ?_, by subst h2 h3; simpa using Emit.init cj cx⟩
  intro k hk
  have : k = 0 := by omega
  subst this
  rw [set_get_eq (by omega)]
  simp

theorem COut.step {n i : Nat} {lj : List Int} {lx : List T2} {R : Nat → List (Int × T2)} {nnz nnz' : Int} {cp cj cj' : List Int} {cx cx' : List T2}
    (h : COut n lj lx i R nnz cp cj cx) (hi : i < n) (he : Emit lj lx (flat R i ++ R i) nnz' cj' cx') :
    i + 1 < cp.length ∧ COut n lj lx (i + 1) R nnz' (cp.set (i + 1) nnz') cj' cx' := by
  refine ⟨by rw [h.len]; omega, by simp [h.len], ?_, by rw [flat_succ]; exact he⟩
  intro k hk
  by_cases e : i + 1 = k
  · subst e
    rw [set_get_eq (by rw [h.len]; omega), he.nnz, flat_succ]
  · rw [set_get_ne e]
    exact h.ptr k (by omega)

theorem COut.rep {n : Nat} {lj : List Int} {lx : List T2} {R : Nat → List (Int × T2)} {nnz : Int} {cp cj : List Int} {cx : List T2}
    (h : COut n lj lx n R nnz cp cj cx) : Rep cp cj cx n R ∧ cj.length = lj.length ∧ cx.length = lx.length ∧
      ∀ k, (flat R n).length ≤ k → cj[k]? = lj[k]? ∧ cx[k]? = lx[k]? :=
  ⟨⟨h.len, h.ptr, h.emit.pre⟩, h.emit.lenj, h.emit.lenx, fun k hk => ⟨h.emit.tailj k hk, h.emit.tailx k hk⟩⟩

/-- output row of the general method, computed exactly as the code does -/
def genRowX [Zero T] [Add T] (op : T → T → T2) (nz : T2 → Bool) (A B : List (Int × T)) : List (Int × T2) :=
  emitRow nz (fun k => op (sumFrom 0 (valuesIn A k)) (sumFrom 0 (valuesIn B k))) (pushAll (pushAll [] A) B)

theorem fold_not_mem [Zero T] [Add T] {r : List (Int × T)} (hr : ∀ e ∈ r, 0 ≤ e.1) {L : List Nat} {k : Nat}
    (h : k ∉ pushAll L r) : sumFrom 0 (valuesIn r k) = 0 := by
  have : valuesIn r k = [] := by
    unfold valuesIn
    rw [List.map_eq_nil_iff, List.filter_eq_nil_iff]
    intro e he hk
    have hk : e.1 = (k : Int) := by simpa using hk
    exact absurd (mem_pushAll.2 (Or.inr ⟨e, he, by omega⟩)) h
  rw [this]; rfl

theorem accum_zero_getX [Zero T] [Add T] {r : List (Int × T)} (hr : ∀ e ∈ r, 0 ≤ e.1) {nc k : Nat} (hk : k < nc) :
    (accum (List.replicate nc 0) r)[k]? = some (sumFrom 0 (valuesIn r k)) := by
  rw [accum_get_fold _ hr]
  simp [hk]

theorem binop_general_exact [Zero T] [Add T] {t : IntTy} {n nc : Nat} {lj : List Int} {lx : List T2} {ap aj bp bj cp cj : List Int}
    {ax bx : List T} {cx : List T2} {op : T → T → T2} {nz : T2 → Bool} {RA RB : Nat → List (Int × T)}
    (ha : Rep ap aj ax n RA) (hb : Rep bp bj bx n RB)
    (hma : ∀ i < n, ∀ e ∈ RA i, 0 ≤ e.1 ∧ e.1 < nc ∧ e.1 ≤ t.hi)
    (hmb : ∀ i < n, ∀ e ∈ RB i, 0 ≤ e.1 ∧ e.1 < nc ∧ e.1 ≤ t.hi)
    (hcp : cp.length = n + 1) (hcj : cj = lj) (hcx : cx = lx)
    (hj : (flat RA n).length + (flat RB n).length ≤ lj.length) (hx : (flat RA n).length + (flat RB n).length ≤ lx.length)
    (hfit : (((flat RA n).length + (flat RB n).length : Nat) : Int) ≤ t.hi) :
    Ok (csr_binop_csr_general t n nc ap aj ax bp bj bx cp cj cx op nz) fun r =>
      Rep r.1 r.2.1 r.2.2 n (fun i => genRowX op nz (RA i) (RB i)) ∧ r.2.1.length = lj.length ∧ r.2.2.length = lx.length ∧
      ∀ k, (flat (fun i => genRowX op nz (RA i) (RB i)) n).length ≤ k → r.2.1[k]? = lj[k]? ∧ r.2.2[k]? = lx[k]? := by
  set R : Nat → List (Int × T2) := fun i => genRowX op nz (RA i) (RB i) with hR
  have hRlen : ∀ i, (R i).length ≤ (RA i).length + (RB i).length := by
    intro i
    have h1 := emitRow_length_le nz (fun k => op (sumFrom 0 (valuesIn (RA i) k)) (sumFrom 0 (valuesIn (RB i) k))) (pushAll (pushAll [] (RA i)) (RB i))
    have h2 := pushAll_length (pushAll [] (RA i)) (RB i)
    have h3 := pushAll_length [] (RA i)
    simp only [List.length_nil, Nat.zero_add] at h3
    simp only [hR, genRowX]
    omega
  have hflat : ∀ i, (flat R i).length ≤ (flat RA i).length + (flat RB i).length := by
    intro i
    induction i with
    | zero => simp
    | succ i ih =>
      have := hRlen i
      rw [flat_length_succ, flat_length_succ, flat_length_succ]
      omega
  unfold csr_binop_csr_general
  wp
  refine ⟨by omega, ?_⟩
  refine Ok_forRange (fun i (s : List Int × List T × List T × Int × List Int × List Int × List T2) =>
    LInv nc s.1 (-2) [] ∧ s.2.1 = List.replicate nc 0 ∧ s.2.2.1 = List.replicate nc 0 ∧
    COut n lj lx i R s.2.2.2.1 s.2.2.2.2.1 s.2.2.2.2.2.1 s.2.2.2.2.2.2) (by omega)
    ⟨LInv.init nc, rfl, rfl, COut.init hcp hcj hcx⟩ ?_ ?_
  · rintro i ⟨nx, ar, br, nn, dp, dj, dx⟩ - hi ⟨h1, h2, h3, h4⟩
    simp only at h1 h2 h3 h4
    subst h2 h3
    wp
    rds [ha.ptr i (by omega), ha.ptr_succ hi, hb.ptr i (by omega), hb.ptr_succ hi]
    have hfa := flat_length_mono RA (show i + 1 ≤ n by omega)
    have hfb := flat_length_mono RB (show i + 1 ≤ n by omega)
    rw [flat_length_succ] at hfa hfb
    have hpa := pushAll_length [] (RA i)
    have hpb := pushAll_length (pushAll [] (RA i)) (RB i)
    simp only [List.length_nil, Nat.zero_add] at hpa
    have hA0 : ∀ e ∈ RA i, 0 ≤ e.1 := fun e he => (hma i hi e he).1
    have hB0 : ∀ e ∈ RB i, 0 ≤ e.1 := fun e he => (hmb i hi e he).1
    refine (binop_accum_ok (nc := nc) (E := RA i) rfl (fun m e he => ha.get hi he)
      (fun e he => ⟨(hma i hi e he).1, (hma i hi e he).2.1⟩) (by simp) h1 (by simp) (by omega)).mono ?_
    rintro ⟨nx1, ar1, hd1, ln1⟩ ⟨g1, g2, g3⟩
    simp only at g1 g2 g3 ⊢
    subst g2
    refine (binop_accum_ok (nc := nc) (E := RB i) rfl (fun m e he => hb.get hi he)
      (fun e he => ⟨(hmb i hi e he).1, (hmb i hi e he).2.1⟩) (by simp) g1 g3 (by omega)).mono ?_
    rintro ⟨nx2, br2, hd2, ln2⟩ ⟨k1, k2, k3⟩
    simp only at k1 k2 k3 ⊢
    subst k2
    have hRi : emitRow nz (fun k => op (sumFrom 0 (valuesIn (RA i) k)) (sumFrom 0 (valuesIn (RB i) k))) (pushAll (pushAll [] (RA i)) (RB i)) = R i := rfl
    have hRl := hRlen i
    have hfi := hflat i
    have hcap : (flat R i).length + (R i).length ≤ (flat RA n).length + (flat RB n).length := by omega
    refine (binop_flush_ok (op := op) (nz := nz) (lj := lj) (lx := lx) (W := flat R i) (fa := fun k => sumFrom 0 (valuesIn (RA i) k))
      (fb := fun k => sumFrom 0 (valuesIn (RB i) k)) k1 k3 (by simp) (by simp)
      (fun k hk => accum_zero_getX hA0 hk) (fun k hk => accum_zero_getX hB0 hk) ?_ ?_ ?_ h4.emit
      (by rw [hRi]; omega) (by rw [hRi]; omega) (by rw [hRi]; omega)).mono ?_
    · intro k _ hk
      refine fold_not_mem (L := []) hA0 (fun h => hk ?_)
      exact mem_pushAll.2 (Or.inl h)
    · intro k _ hk
      exact fold_not_mem hB0 hk
    · intro k hk
      rcases mem_pushAll.1 hk with hk | ⟨e, he, rfl⟩
      · rcases mem_pushAll.1 hk with hk | ⟨e, he, rfl⟩
        · simp at hk
        · have := hma i hi e he; omega
      · have := hmb i hi e he; omega
    · rintro ⟨nx3, ar3, br3, nn3, dj3, dx3⟩ ⟨q1, q2, q3, q4⟩
      simp only at q1 q2 q3 q4 ⊢
      rw [hRi] at q4
      obtain ⟨w1, w2⟩ := h4.step hi q4
      exact ⟨w1, _, rfl, q1, q2, q3, w2⟩
  · rintro ⟨nx, ar, br, nn, dp, dj, dx⟩ ⟨-, -, -, h4⟩
    exact h4.rep

/-- output row of the general method -/
def genRow [AddCommMonoid T] (op : T → T → T2) (nz : T2 → Bool) (A B : List (Int × T)) : List (Int × T2) :=
  emitRow nz (fun k => op (rowSum A k) (rowSum B k)) (pushAll (pushAll [] A) B)

theorem rowSum_not_mem [AddCommMonoid T] {r : List (Int × T)} (hr : ∀ e ∈ r, 0 ≤ e.1) {L : List Nat} {k : Nat} 
    (h : k ∉ pushAll L r) : rowSum r k = 0 := by
  apply rowSum_eq_zero
  intro e he hk
  exact absurd (mem_pushAll.2 (Or.inr ⟨e, he, by omega⟩)) h

theorem accum_zero_get [AddCommMonoid T] {r : List (Int × T)} (hr : ∀ e ∈ r, 0 ≤ e.1) {nc k : Nat} (hk : k < nc) :
    (accum (List.replicate nc 0) r)[k]? = some (rowSum r k) := by
  rw [accum_get _ hr]
  simp [hk]

theorem binop_general_ok [AddCommMonoid T] {t : IntTy} {n nc : Nat} {lj : List Int} {lx : List T2} {ap aj bp bj cp cj : List Int}
    {ax bx : List T} {cx : List T2} {op : T → T → T2} {nz : T2 → Bool} {RA RB : Nat → List (Int × T)}
    (ha : Rep ap aj ax n RA) (hb : Rep bp bj bx n RB)
    (hma : ∀ i < n, ∀ e ∈ RA i, 0 ≤ e.1 ∧ e.1 < nc ∧ e.1 ≤ t.hi)
    (hmb : ∀ i < n, ∀ e ∈ RB i, 0 ≤ e.1 ∧ e.1 < nc ∧ e.1 ≤ t.hi)
    (hcp : cp.length = n + 1) (hcj : cj = lj) (hcx : cx = lx)
    (hj : (flat RA n).length + (flat RB n).length ≤ lj.length) (hx : (flat RA n).length + (flat RB n).length ≤ lx.length)
    (hfit : (((flat RA n).length + (flat RB n).length : Nat) : Int) ≤ t.hi) :
    Ok (csr_binop_csr_general t n nc ap aj ax bp bj bx cp cj cx op nz) fun r =>
      Rep r.1 r.2.1 r.2.2 n (fun i => genRow op nz (RA i) (RB i)) ∧ r.2.1.length = lj.length ∧ r.2.2.length = lx.length ∧
      ∀ k, (flat (fun i => genRow op nz (RA i) (RB i)) n).length ≤ k → r.2.1[k]? = lj[k]? ∧ r.2.2[k]? = lx[k]? := by
  have e : ∀ A B, genRow op nz A B = genRowX op nz A B := by
    intro A B
    unfold genRow genRowX
    simp only [sumFrom_zero]
  simp only [e]
  exact binop_general_exact ha hb hma hmb hcp hcj hcx hj hx hfit

/-! ### canonical method -/

/-- `result` stored at column `k` unless it is zero -/
def emit1 (nz : T2 → Bool) (k : Int) (v : T2) : List (Int × T2) := if nz v then [(k, v)] else []

theorem emit1_length (nz : T2 → Bool) (k : Int) (v : T2) : (emit1 nz k v).length ≤ 1 := by
  unfold emit1; split <;> simp

/-- rows merged by column -/
def mergeRow [Zero T] (op : T → T → T2) (nz : T2 → Bool) : List (Int × T) → List (Int × T) → List (Int × T2)
  | [], B => B.flatMap fun e => emit1 nz e.1 (op 0 e.2)
  | A, [] => A.flatMap fun e => emit1 nz e.1 (op e.2 0)
  | a :: A, b :: B =>
    if a.1 = b.1 then emit1 nz a.1 (op a.2 b.2) ++ mergeRow op nz A B
    else if a.1 < b.1 then emit1 nz a.1 (op a.2 0) ++ mergeRow op nz A (b :: B)
    else emit1 nz b.1 (op 0 b.2) ++ mergeRow op nz (a :: A) B
termination_by A B => A.length + B.length

theorem flatMap_emit1_length (nz : T2 → Bool) (f : T → T2) (A : List (Int × T)) :
    (A.flatMap fun e => emit1 nz e.1 (f e.2)).length ≤ A.length := by
  induction A with
  | nil => simp
  | cons e A ih =>
    have := emit1_length nz e.1 (f e.2)
    rw [List.flatMap_cons, List.length_append, List.length_cons]; omega

theorem mergeRow_length [Zero T] (op : T → T → T2) (nz : T2 → Bool) (A B : List (Int × T)) :
    (mergeRow op nz A B).length ≤ A.length + B.length := by
  fun_induction mergeRow op nz A B with
  | case1 B => have := flatMap_emit1_length nz (op 0) B; simpa using this
  | case2 A => have := flatMap_emit1_length nz (op · 0) A; simpa using this
  | case3 a A b B h ih =>
    have := emit1_length nz a.1 (op a.2 b.2)
    simp only [List.length_append, List.length_cons]; omega
  | case4 a A b B h h2 ih =>
    have := emit1_length nz a.1 (op a.2 0)
    simp only [List.length_append, List.length_cons] at *; omega
  | case5 a A b B h h2 ih =>
    have := emit1_length nz b.1 (op 0 b.2)
    simp only [List.length_append, List.length_cons] at *; omega

theorem binop_emit_ok {lj : List Int} {lx : List T2} {nz : T2 → Bool} {W : List (Int × T2)} {nnz : Nat} {cj : List Int} {cx : List T2}
    (h : Emit lj lx W nnz cj cx) {k : Int} {v : T2} (hj : W.length + (emit1 nz k v).length ≤ lj.length)
    (hx : W.length + (emit1 nz k v).length ≤ lx.length) :
    Ok (binop_emit nz k v nnz cj cx) fun r => Emit lj lx (W ++ emit1 nz k v) r.1 r.2.1 r.2.2 := by
  unfold binop_emit emit1 at *
  rw [Ok_ite]
  constructor
  · intro hn
    simp only [hn, if_true, List.length_singleton] at hj hx ⊢
    wp
    have hnn := h.nnz
    have h1 := h.lenj
    have h2 := h.lenx
    refine ⟨by omega, by omega, ?_⟩
    have := h.emit (by omega) (by omega) (k, v)
    simpa using this
  · intro hn
    simp only [hn] 
    wp
    simpa using h

theorem tail_emit_eq {nz : T2 → Bool} {aj : List Int} {p : Nat} {k : Int} (h : aj[p]? = some k) (v : T2) (nnz : Nat) (cj : List Int)
    (cx : List T2) : tail_emit nz aj p v nnz cj cx = binop_emit nz k v nnz cj cx := by
  unfold tail_emit binop_emit
  have : aj.rd p = .ok k := by unfold List.rd; rw [h]; rfl
  rw [this]
  rfl

theorem canonical_tail_ok {lj : List Int} {lx : List T2} {nz : T2 → Bool} {f : T → T2} {aj : List Int} {ax : List T} {E : List (Int × T)}
    {W : List (Int × T2)} {o : Nat} {nnz : Nat} {cj : List Int} {cx : List T2} {b : Nat} (hb : b = o + E.length)
    (hrd : ∀ m e, E[m]? = some e → aj[o + m]? = some e.1 ∧ ax[o + m]? = some e.2)
    (h : Emit lj lx W nnz cj cx) (hj : W.length + (E.flatMap fun e => emit1 nz e.1 (f e.2)).length ≤ lj.length)
    (hx : W.length + (E.flatMap fun e => emit1 nz e.1 (f e.2)).length ≤ lx.length) :
    Ok (canonical_tail aj ax f nz b (o, nnz, cj, cx)) fun r =>
      Emit lj lx (W ++ E.flatMap fun e => emit1 nz e.1 (f e.2)) r.2.1 r.2.2.1 r.2.2.2 := by
  unfold canonical_tail
  refine Ok_while (fun s => ∃ W2 E2, W2 ++ E2.flatMap (fun e => emit1 nz e.1 (f e.2)) =
      W ++ E.flatMap (fun e => emit1 nz e.1 (f e.2)) ∧ b = s.1 + E2.length ∧
      (∀ m e, E2[m]? = some e → aj[s.1 + m]? = some e.1 ∧ ax[s.1 + m]? = some e.2) ∧
      Emit lj lx W2 s.2.1 s.2.2.1 s.2.2.2) (fun s => b - s.1) (by simp) ⟨W, E, rfl, hb, hrd, h⟩ ?_
  rintro ⟨p, nn, dj, dx⟩ ⟨W2, E2, h1, h2, h3, h4⟩
  simp only at h2 h3 h4 ⊢
  have hl := congrArg List.length h1
  rw [List.length_append, List.length_append] at hl
  rw [Ok_ite]
  constructor
  · intro hlt
    cases E2 with
    | nil => simp at h2; omega
    | cons e E2 =>
      obtain ⟨g1, g2⟩ := h3 0 e (by simp)
      rw [Nat.add_zero] at g1 g2
      wp
      rds [g2]
      rw [tail_emit_eq g1]
      rw [List.flatMap_cons, List.length_append] at hl
      refine (binop_emit_ok h4 (by omega) (by omega)).mono ?_
      rintro ⟨nn', dj', dx'⟩ h5
      wp
      simp only [List.length_cons] at h2
      refine ⟨⟨_, E2, ?_, by omega, ?_, h5⟩, by omega⟩
      · rw [← h1, List.flatMap_cons, List.append_assoc]
      · intro m e' he'
        have := h3 (m + 1) e' (by simpa using he')
        rw [show p + 1 + m = p + (m + 1) by omega]; exact this
  · intro hge
    wp
    have : E2 = [] := List.length_eq_zero_iff.1 (by omega)
    subst this
    simp only [List.flatMap_nil, List.append_nil] at h1
    rw [← h1]
    exact h4

theorem canonical_merge_ok [Zero T] {lj : List Int} {lx : List T2} {op : T → T → T2} {nz : T2 → Bool} {aj bj : List Int} {ax bx : List T}
    {A B : List (Int × T)} {W : List (Int × T2)} {oa ob : Nat} {nnz : Nat} {cj : List Int} {cx : List T2} {ea eb : Nat}
    (hea : ea = oa + A.length) (heb : eb = ob + B.length)
    (hra : ∀ m e, A[m]? = some e → aj[oa + m]? = some e.1 ∧ ax[oa + m]? = some e.2)
    (hrb : ∀ m e, B[m]? = some e → bj[ob + m]? = some e.1 ∧ bx[ob + m]? = some e.2)
    (h : Emit lj lx W nnz cj cx) (hj : W.length + (mergeRow op nz A B).length ≤ lj.length)
    (hx : W.length + (mergeRow op nz A B).length ≤ lx.length) :
    Ok (canonical_merge aj ax bj bx op nz ea eb (oa, ob, nnz, cj, cx)) fun s =>
      ∃ W2 A2 B2, W2 ++ mergeRow op nz A2 B2 = W ++ mergeRow op nz A B ∧ (A2 = [] ∨ B2 = []) ∧
        ea = s.1 + A2.length ∧ eb = s.2.1 + B2.length ∧
        (∀ m e, A2[m]? = some e → aj[s.1 + m]? = some e.1 ∧ ax[s.1 + m]? = some e.2) ∧
        (∀ m e, B2[m]? = some e → bj[s.2.1 + m]? = some e.1 ∧ bx[s.2.1 + m]? = some e.2) ∧
        Emit lj lx W2 s.2.2.1 s.2.2.2.1 s.2.2.2.2 := by
  unfold canonical_merge
  refine Ok_while (fun s => ∃ W2 A2 B2, W2 ++ mergeRow op nz A2 B2 = W ++ mergeRow op nz A B ∧ 
        ea = s.1 + A2.length ∧ eb = s.2.1 + B2.length ∧
        (∀ m e, A2[m]? = some e → aj[s.1 + m]? = some e.1 ∧ ax[s.1 + m]? = some e.2) ∧
        (∀ m e, B2[m]? = some e → bj[s.2.1 + m]? = some e.1 ∧ bx[s.2.1 + m]? = some e.2) ∧
        Emit lj lx W2 s.2.2.1 s.2.2.2.1 s.2.2.2.2) (fun s => (ea - s.1) + (eb - s.2.1)) (by simp)
      ⟨W, A, B, rfl, hea, heb, hra, hrb, h⟩ ?_
  rintro ⟨p, q, nn, dj, dx⟩ ⟨W2, A2, B2, h1, h2, h3, h4, h5, h6⟩
  simp only at h2 h3 h4 h5 h6 ⊢
  have hl := congrArg List.length h1
  rw [List.length_append, List.length_append] at hl
  rw [Ok_ite]
  constructor
  · rintro ⟨hlt1, hlt2⟩
    cases A2 with
    | nil => simp at h2; omega
    | cons a A2 =>
    cases B2 with
    | nil => simp at h3; omega
    | cons b B2 =>
      obtain ⟨g1, g2⟩ := h4 0 a (by simp)
      obtain ⟨g3, g4⟩ := h5 0 b (by simp)
      rw [Nat.add_zero] at g1 g2 g3 g4
      simp only [List.length_cons] at h2 h3
      have ta : ∀ m e, A2[m]? = some e → aj[p + 1 + m]? = some e.1 ∧ ax[p + 1 + m]? = some e.2 := by
        intro m e' he'
        have := h4 (m + 1) e' (by simpa using he')
        rw [show p + 1 + m = p + (m + 1) by omega]; exact this
      have tb : ∀ m e, B2[m]? = some e → bj[q + 1 + m]? = some e.1 ∧ bx[q + 1 + m]? = some e.2 := by
        intro m e' he'
        have := h5 (m + 1) e' (by simpa using he')
        rw [show q + 1 + m = q + (m + 1) by omega]; exact this
      wp
      rds [g1, g3]
      rw [mergeRow] at h1 hl
      rw [Ok_ite]
      constructor
      · intro hab
        rw [if_pos hab] at h1 hl
        rw [List.length_append] at hl
        wp
        rds [g2, g4]
        refine (binop_emit_ok h6 (by omega) (by omega)).mono ?_
        rintro ⟨nn', dj', dx'⟩ h7
        wp
        exact ⟨⟨_, A2, B2, by rw [← h1, List.append_assoc], by omega, by omega, ta, tb, h7⟩, by omega⟩
      · intro hab
        rw [if_neg hab] at h1 hl
        rw [Ok_ite]
        constructor
        · intro hab
          rw [if_pos hab] at h1 hl
          rw [List.length_append] at hl
          wp
          rds [g2]
          refine (binop_emit_ok h6 (by omega) (by omega)).mono ?_
          rintro ⟨nn', dj', dx'⟩ h7
          wp
          exact ⟨⟨_, A2, b :: B2, by rw [← h1, List.append_assoc], by omega, by simp; omega, ta, h5, h7⟩, by omega⟩
        · intro hab
          rw [if_neg hab] at h1 hl
          rw [List.length_append] at hl
          wp
          rds [g4]
          refine (binop_emit_ok h6 (by omega) (by omega)).mono ?_
          rintro ⟨nn', dj', dx'⟩ h7
          wp
          exact ⟨⟨_, a :: A2, B2, by rw [← h1, List.append_assoc], by simp; omega, by omega, h4, tb, h7⟩, by omega⟩
  · intro hge
    wp
    refine ⟨W2, A2, B2, h1, ?_, h2, h3, h4, h5, h6⟩
    rw [← List.length_eq_zero_iff, ← List.length_eq_zero_iff]
    omega

theorem binop_canonical_ok [Zero T] {t : IntTy} {n : Nat} {lj : List Int} {lx : List T2} {ap aj bp bj cp cj : List Int}
    {ax bx : List T} {cx : List T2} {op : T → T → T2} {nz : T2 → Bool} {RA RB : Nat → List (Int × T)}
    (ha : Rep ap aj ax n RA) (hb : Rep bp bj bx n RB)
    (hcp : cp.length = n + 1) (hcj : cj = lj) (hcx : cx = lx)
    (hj : (flat RA n).length + (flat RB n).length ≤ lj.length) (hx : (flat RA n).length + (flat RB n).length ≤ lx.length)
    (hfit : (((flat RA n).length + (flat RB n).length : Nat) : Int) ≤ t.hi) :
    Ok (csr_binop_csr_canonical t n ap aj ax bp bj bx cp cj cx op nz) fun r =>
      Rep r.1 r.2.1 r.2.2 n (fun i => mergeRow op nz (RA i) (RB i)) ∧ r.2.1.length = lj.length ∧ r.2.2.length = lx.length ∧
      ∀ k, (flat (fun i => mergeRow op nz (RA i) (RB i)) n).length ≤ k → r.2.1[k]? = lj[k]? ∧ r.2.2[k]? = lx[k]? := by
  set R : Nat → List (Int × T2) := fun i => mergeRow op nz (RA i) (RB i) with hR
  have hRlen : ∀ i, (R i).length ≤ (RA i).length + (RB i).length := fun i => mergeRow_length op nz _ _
  have hflat : ∀ i, (flat R i).length ≤ (flat RA i).length + (flat RB i).length := by
    intro i
    induction i with
    | zero => simp
    | succ i ih =>
      have := hRlen i
      rw [flat_length_succ, flat_length_succ, flat_length_succ]
      omega
  unfold csr_binop_csr_canonical
  wp
  refine ⟨by omega, ?_⟩
  refine Ok_forRange (fun i (s : List Int × Nat × List Int × List T2) =>
    COut n lj lx i R s.2.1 s.1 s.2.2.1 s.2.2.2) (by omega) (COut.init hcp hcj hcx) ?_ ?_
  · rintro i ⟨dp, nn, dj, dx⟩ - hi h4
    simp only at h4
    wp
    rds [ha.ptr i (by omega), ha.ptr_succ hi, hb.ptr i (by omega), hb.ptr_succ hi]
    have hfa := flat_length_mono RA (show i + 1 ≤ n by omega)
    have hfb := flat_length_mono RB (show i + 1 ≤ n by omega)
    rw [flat_length_succ] at hfa hfb
    have hRl := hRlen i
    have hfi := hflat i
    have hcap : (flat R i).length + (R i).length ≤ (flat RA n).length + (flat RB n).length := by omega
    have hRi : mergeRow op nz (RA i) (RB i) = R i := rfl
    refine (canonical_merge_ok (lj := lj) (lx := lx) (A := RA i) (B := RB i) (op := op) (nz := nz) (W := flat R i) rfl rfl
      (fun m e he => ha.get hi he) (fun m e he => hb.get hi he) h4.emit (by rw [hRi]; omega) (by rw [hRi]; omega)).mono ?_
    rintro ⟨p, q, nn', dj', dx'⟩ ⟨W2, A2, B2, g1, g2, g3, g4, g5, g6, g7⟩
    simp only at g3 g4 g5 g6 g7 ⊢
    have hmt : mergeRow op nz A2 B2 = (A2.flatMap fun e => emit1 nz e.1 (op e.2 0)) ++
        (B2.flatMap fun e => emit1 nz e.1 (op 0 e.2)) := by
      rcases g2 with rfl | rfl
      · simp [mergeRow]
      · cases A2 <;> simp [mergeRow]
    rw [hmt, hRi] at g1
    have hl := congrArg List.length g1
    simp only [List.length_append] at hl
    refine (canonical_tail_ok (f := fun x => op x 0) (E := A2) g3 g5 g7 (by omega) (by omega)).mono ?_
    rintro ⟨p2, nn2, dj2, dx2⟩ k1
    simp only at k1 ⊢
    refine (canonical_tail_ok (f := fun x => op 0 x) (E := B2) g4 g6 k1
      (by rw [List.length_append]; omega) (by rw [List.length_append]; omega)).mono ?_
    rintro ⟨q3, nn3, dj3, dx3⟩ k2
    simp only at k2 ⊢
    rw [List.append_assoc, g1] at k2
    obtain ⟨w1, w2⟩ := h4.step hi k2
    have hn3 := k2.nnz
    rw [List.length_append] at hn3
    refine ⟨by omega, w1, _, rfl, w2⟩
  · rintro ⟨dp, nn, dj, dx⟩ h4
    exact h4.rep

end
end Sparse

import Verif.Lemmas.BinRow
import Verif.Lemmas.MatMat
/-! Element-wise operations and products: as in Binop.lean, BinRow.lean and MatMat.lean, with bounds on the entries of the result
instead of bounds on the entries of the operands. -/
namespace Sparse

section
variable {T T2 : Type}

theorem binop_general_fit [Zero T] [Add T] {t : IntTy} {n nc : Nat} {lj : List Int} {lx : List T2} {ap aj bp bj cp cj : List Int}
    {ax bx : List T} {cx : List T2} {op : T → T → T2} {nz : T2 → Bool} {RA RB : Nat → List (Int × T)}
    (ha : Rep ap aj ax n RA) (hb : Rep bp bj bx n RB)
    (hma : ∀ i < n, ∀ e ∈ RA i, 0 ≤ e.1 ∧ e.1 < nc ∧ e.1 ≤ t.hi)
    (hmb : ∀ i < n, ∀ e ∈ RB i, 0 ≤ e.1 ∧ e.1 < nc ∧ e.1 ≤ t.hi)
    (hcp : cp.length = n + 1) (hcj : cj = lj) (hcx : cx = lx)
    (hj : (flat RA n).length + (flat RB n).length ≤ lj.length) (hx : (flat RA n).length + (flat RB n).length ≤ lx.length)
    (hpush : ∀ i < n, ((pushAll (pushAll [] (RA i)) (RB i)).length : Int) ≤ t.hi)
    (hfit : ((flat (fun i => genRowX op nz (RA i) (RB i)) n).length : Int) ≤ t.hi) :
    Ok (csr_binop_csr_general t n nc ap aj ax bp bj bx cp cj cx op nz) fun r =>
      Rep r.1 r.2.1 r.2.2 n (fun i => genRowX op nz (RA i) (RB i)) ∧ r.2.1.length = lj.length ∧ r.2.2.length = lx.length ∧
      ∀ k, (flat (fun i => genRowX op nz (RA i) (RB i)) n).length ≤ k → r.2.1[k]? = lj[k]? ∧ r.2.2[k]? = lx[k]? := by
  set R : Nat → List (Int × T2) := fun i => genRowX op nz (RA i) (RB i) with hR
  have hRlen : ∀ i, (R i).length ≤ (RA i).length + (RB i).length := by
    intro i
    have h1 := emitRow_length_le nz (fun k => op (sumFrom 0 (valuesIn (RA i) k)) (sumFrom 0 (valuesIn (RB i) k))) (pushAll (pushAll [] (RA i)) (RB i))
    have h2 := pushAll_length (pushAll [] (RA i)) (RB i)
    have h3 := pushAll_length [] (RA i)
    simp only [List.length_nil, Nat.zero_add] at h3
    simp only [hR, genRowX]
    omega
  have hflat : ∀ i, (flat R i).length ≤ (flat RA i).length + (flat RB i).length := by
    intro i
    induction i with
    | zero => simp
    | succ i ih =>
      have := hRlen i
      rw [flat_length_succ, flat_length_succ, flat_length_succ]
      omega
  unfold csr_binop_csr_general
  wp
  refine ⟨by omega, ?_⟩
  refine Ok_forRange (fun i (s : List Int × List T × List T × Int × List Int × List Int × List T2) =>
    LInv nc s.1 (-2) [] ∧ s.2.1 = List.replicate nc 0 ∧ s.2.2.1 = List.replicate nc 0 ∧
    COut n lj lx i R s.2.2.2.1 s.2.2.2.2.1 s.2.2.2.2.2.1 s.2.2.2.2.2.2) (by omega)
    ⟨LInv.init nc, rfl, rfl, COut.init hcp hcj hcx⟩ ?_ ?_
  · rintro i ⟨nx, ar, br, nn, dp, dj, dx⟩ - hi ⟨h1, h2, h3, h4⟩
    simp only at h1 h2 h3 h4
    subst h2 h3
    wp
    rds [ha.ptr i (by omega), ha.ptr_succ hi, hb.ptr i (by omega), hb.ptr_succ hi]
    have hfa := flat_length_mono RA (show i + 1 ≤ n by omega)
    have hfb := flat_length_mono RB (show i + 1 ≤ n by omega)
    rw [flat_length_succ] at hfa hfb
    have hfR := flat_length_mono R (show i + 1 ≤ n by omega)
    rw [flat_length_succ] at hfR
    have hpi := hpush i hi
    have hpa := pushAll_length [] (RA i)
    have hpb := pushAll_length (pushAll [] (RA i)) (RB i)
    simp only [List.length_nil, Nat.zero_add] at hpa
    have hA0 : ∀ e ∈ RA i, 0 ≤ e.1 := fun e he => (hma i hi e he).1
    have hB0 : ∀ e ∈ RB i, 0 ≤ e.1 := fun e he => (hmb i hi e he).1
    refine (binop_accum_ok (nc := nc) (E := RA i) rfl (fun m e he => ha.get hi he)
      (fun e he => ⟨(hma i hi e he).1, (hma i hi e he).2.1⟩) (by simp) h1 (by simp) (by omega)).mono ?_
    rintro ⟨nx1, ar1, hd1, ln1⟩ ⟨g1, g2, g3⟩
    simp only at g1 g2 g3 ⊢
    subst g2
    refine (binop_accum_ok (nc := nc) (E := RB i) rfl (fun m e he => hb.get hi he)
      (fun e he => ⟨(hmb i hi e he).1, (hmb i hi e he).2.1⟩) (by simp) g1 g3 (by omega)).mono ?_
    rintro ⟨nx2, br2, hd2, ln2⟩ ⟨k1, k2, k3⟩
    simp only at k1 k2 k3 ⊢
    subst k2
    have hRi : emitRow nz (fun k => op (sumFrom 0 (valuesIn (RA i) k)) (sumFrom 0 (valuesIn (RB i) k))) (pushAll (pushAll [] (RA i)) (RB i)) = R i := rfl
    have hRl := hRlen i
    have hfi := hflat i
    have hcap : (flat R i).length + (R i).length ≤ (flat RA n).length + (flat RB n).length := by omega
    refine (binop_flush_ok (op := op) (nz := nz) (lj := lj) (lx := lx) (W := flat R i) (fa := fun k => sumFrom 0 (valuesIn (RA i) k))
      (fb := fun k => sumFrom 0 (valuesIn (RB i) k)) k1 k3 (by simp) (by simp)
      (fun k hk => accum_zero_getX hA0 hk) (fun k hk => accum_zero_getX hB0 hk) ?_ ?_ ?_ h4.emit
      (by rw [hRi]; omega) (by rw [hRi]; omega) (by rw [hRi]; omega)).mono ?_
    · intro k _ hk
      refine fold_not_mem (L := []) hA0 (fun h => hk ?_)
      exact mem_pushAll.2 (Or.inl h)
    · intro k _ hk
      exact fold_not_mem hB0 hk
    · intro k hk
      rcases mem_pushAll.1 hk with hk | ⟨e, he, rfl⟩
      · rcases mem_pushAll.1 hk with hk | ⟨e, he, rfl⟩
        · simp at hk
        · have := hma i hi e he; omega
      · have := hmb i hi e he; omega
    · rintro ⟨nx3, ar3, br3, nn3, dj3, dx3⟩ ⟨q1, q2, q3, q4⟩
      simp only at q1 q2 q3 q4 ⊢
      rw [hRi] at q4
      obtain ⟨w1, w2⟩ := h4.step hi q4
      exact ⟨w1, _, rfl, q1, q2, q3, w2⟩
  · rintro ⟨nx, ar, br, nn, dp, dj, dx⟩ ⟨-, -, -, h4⟩
    exact h4.rep

theorem binop_canonical_fit [Zero T] {t : IntTy} {n : Nat} {lj : List Int} {lx : List T2} {ap aj bp bj cp cj : List Int}
    {ax bx : List T} {cx : List T2} {op : T → T → T2} {nz : T2 → Bool} {RA RB : Nat → List (Int × T)}
    (ha : Rep ap aj ax n RA) (hb : Rep bp bj bx n RB)
    (hcp : cp.length = n + 1) (hcj : cj = lj) (hcx : cx = lx)
    (hj : (flat RA n).length + (flat RB n).length ≤ lj.length) (hx : (flat RA n).length + (flat RB n).length ≤ lx.length)
    (hfit : ((flat (fun i => mergeRow op nz (RA i) (RB i)) n).length : Int) ≤ t.hi) :
    Ok (csr_binop_csr_canonical t n ap aj ax bp bj bx cp cj cx op nz) fun r =>
      Rep r.1 r.2.1 r.2.2 n (fun i => mergeRow op nz (RA i) (RB i)) ∧ r.2.1.length = lj.length ∧ r.2.2.length = lx.length ∧
      ∀ k, (flat (fun i => mergeRow op nz (RA i) (RB i)) n).length ≤ k → r.2.1[k]? = lj[k]? ∧ r.2.2[k]? = lx[k]? := by
  set R : Nat → List (Int × T2) := fun i => mergeRow op nz (RA i) (RB i) with hR
  have hRlen : ∀ i, (R i).length ≤ (RA i).length + (RB i).length := fun i => mergeRow_length op nz _ _
  have hflat : ∀ i, (flat R i).length ≤ (flat RA i).length + (flat RB i).length := by
    intro i
    induction i with
    | zero => simp
    | succ i ih =>
      have := hRlen i
      rw [flat_length_succ, flat_length_succ, flat_length_succ]
      omega
  unfold csr_binop_csr_canonical
  wp
  refine ⟨by omega, ?_⟩
  refine Ok_forRange (fun i (s : List Int × Nat × List Int × List T2) =>
    COut n lj lx i R s.2.1 s.1 s.2.2.1 s.2.2.2) (by omega) (COut.init hcp hcj hcx) ?_ ?_
  · rintro i ⟨dp, nn, dj, dx⟩ - hi h4
    simp only at h4
    wp
    rds [ha.ptr i (by omega), ha.ptr_succ hi, hb.ptr i (by omega), hb.ptr_succ hi]
    have hfa := flat_length_mono RA (show i + 1 ≤ n by omega)
    have hfb := flat_length_mono RB (show i + 1 ≤ n by omega)
    rw [flat_length_succ] at hfa hfb
    have hfR := flat_length_mono R (show i + 1 ≤ n by omega)
    rw [flat_length_succ] at hfR
    have hRl := hRlen i
    have hfi := hflat i
    have hcap : (flat R i).length + (R i).length ≤ (flat RA n).length + (flat RB n).length := by omega
    have hRi : mergeRow op nz (RA i) (RB i) = R i := rfl
    refine (canonical_merge_ok (lj := lj) (lx := lx) (A := RA i) (B := RB i) (op := op) (nz := nz) (W := flat R i) rfl rfl
      (fun m e he => ha.get hi he) (fun m e he => hb.get hi he) h4.emit (by rw [hRi]; omega) (by rw [hRi]; omega)).mono ?_
    rintro ⟨p, q, nn', dj', dx'⟩ ⟨W2, A2, B2, g1, g2, g3, g4, g5, g6, g7⟩
    simp only at g3 g4 g5 g6 g7 ⊢
    have hmt : mergeRow op nz A2 B2 = (A2.flatMap fun e => emit1 nz e.1 (op e.2 0)) ++
        (B2.flatMap fun e => emit1 nz e.1 (op 0 e.2)) := by
      rcases g2 with rfl | rfl
      · simp [mergeRow]
      · cases A2 <;> simp [mergeRow]
    rw [hmt, hRi] at g1
    have hl := congrArg List.length g1
    simp only [List.length_append] at hl
    refine (canonical_tail_ok (f := fun x => op x 0) (E := A2) g3 g5 g7 (by omega) (by omega)).mono ?_
    rintro ⟨p2, nn2, dj2, dx2⟩ k1
    simp only at k1 ⊢
    refine (canonical_tail_ok (f := fun x => op 0 x) (E := B2) g4 g6 k1
      (by rw [List.length_append]; omega) (by rw [List.length_append]; omega)).mono ?_
    rintro ⟨q3, nn3, dj3, dx3⟩ k2
    simp only at k2 ⊢
    rw [List.append_assoc, g1] at k2
    obtain ⟨w1, w2⟩ := h4.step hi k2
    have hn3 := k2.nnz
    rw [List.length_append] at hn3
    refine ⟨by omega, w1, _, rfl, w2⟩
  · rintro ⟨dp, nn, dj, dx⟩ h4
    exact h4.rep


theorem binop_exact_fit [Zero T] [Add T] {t : IntTy} {n nc : Nat} {lj : List Int} {lx : List T2} {ap aj bp bj cp cj : List Int}
    {ax bx : List T} {cx : List T2} (op : T → T → T2) (nz : T2 → Bool) {RA RB : Nat → List (Int × T)}
    (ha : Rep ap aj ax n RA) (hb : Rep bp bj bx n RB)
    (hma : ∀ i < n, ∀ e ∈ RA i, 0 ≤ e.1 ∧ e.1 < nc ∧ e.1 ≤ t.hi)
    (hmb : ∀ i < n, ∀ e ∈ RB i, 0 ≤ e.1 ∧ e.1 < nc ∧ e.1 ≤ t.hi)
    (hcp : cp.length = n + 1) (hcj : cj = lj) (hcx : cx = lx)
    (hj : (flat RA n).length + (flat RB n).length ≤ lj.length) (hx : (flat RA n).length + (flat RB n).length ≤ lx.length)
    (hfa : ∀ i < n, ((flat RA i).length : Int) < t.hi) (hfb : ∀ i < n, ((flat RB i).length : Int) < t.hi)
    (hpush : ∀ i < n, ((pushAll (pushAll [] (RA i)) (RB i)).length : Int) ≤ t.hi)
    (hfit : ∀ R : Nat → List (Int × T2), (∀ i < n,
      BinRowF (binVal ((∀ i < n, SRow (RA i)) ∧ ∀ i < n, SRow (RB i)) op (RA i) (RB i)) nz (RA i) (RB i) (R i)) →
      ((flat R n).length : Int) ≤ t.hi) :
    Ok (csr_binop_csr t n nc ap aj ax bp bj bx cp cj cx op nz) fun r =>
      ∃ R, Rep r.1 r.2.1 r.2.2 n R ∧ r.2.1.length = lj.length ∧ r.2.2.length = lx.length ∧
        (∀ i < n, BinRowF (binVal ((∀ i < n, SRow (RA i)) ∧ ∀ i < n, SRow (RB i)) op (RA i) (RB i)) nz (RA i) (RB i) (R i)) ∧
        ((∀ i < n, SRow (RA i)) → (∀ i < n, SRow (RB i)) → ∀ i < n, SRow (R i)) ∧
        ∀ k, (flat R n).length ≤ k → r.2.1[k]? = lj[k]? ∧ r.2.2[k]? = lx[k]? := by
  unfold csr_binop_csr
  obtain ⟨ca, hca, hcai⟩ := has_canonical_ok ha hfa
  obtain ⟨cb, hcb, hcbi⟩ := has_canonical_ok hb hfb
  rw [hca]
  rw [Ok_bind, Ok_ok]
  have G : (¬ ((∀ i < n, SRow (RA i)) ∧ (∀ i < n, SRow (RB i)))) → Ok (csr_binop_csr_general t n nc ap aj ax bp bj bx cp cj cx op nz) fun r =>
      ∃ R, Rep r.1 r.2.1 r.2.2 n R ∧ r.2.1.length = lj.length ∧ r.2.2.length = lx.length ∧
        (∀ i < n, BinRowF (binVal ((∀ i < n, SRow (RA i)) ∧ ∀ i < n, SRow (RB i)) op (RA i) (RB i)) nz (RA i) (RB i) (R i)) ∧
        ((∀ i < n, SRow (RA i)) → (∀ i < n, SRow (RB i)) → ∀ i < n, SRow (R i)) ∧
        ∀ k, (flat R n).length ≤ k → r.2.1[k]? = lj[k]? ∧ r.2.2[k]? = lx[k]? := by
    intro hn
    have hB : ∀ i < n, BinRowF (binVal ((∀ i < n, SRow (RA i)) ∧ ∀ i < n, SRow (RB i)) op (RA i) (RB i)) nz (RA i) (RB i)
        (genRowX op nz (RA i) (RB i)) := fun i hi => by
      have h := genRowX_binRowF op nz (fun e he => (hma i hi e he).1) (fun e he => (hmb i hi e he).1)
      exact ⟨h.nodup, fun k v => by rw [h.mem, binVal, if_neg hn]⟩
    refine (binop_general_fit (op := op) (nz := nz) ha hb hma hmb hcp hcj hcx hj hx hpush (hfit _ hB)).mono ?_
    rintro r ⟨h1, h2, h3, h4⟩
    exact ⟨_, h1, h2, h3, fun i hi => by
      have h := genRowX_binRowF op nz (fun e he => (hma i hi e he).1) (fun e he => (hmb i hi e he).1)
      exact ⟨h.nodup, fun k v => by rw [h.mem, binVal, if_neg hn]⟩,
      fun h h' => absurd ⟨h, h'⟩ hn, h4⟩
  cases ca with
  | false =>
    rw [if_neg (by simp), Ok_bind, Ok_pure]
    show Ok (if _ then _ else _) _
    rw [if_neg (by simp)]
    exact G (fun h => by simpa using hcai.2 h.1)
  | true =>
    rw [if_pos rfl, hcb, Ok_bind, Ok_ok]
    cases cb with
    | false =>
      show Ok (if _ then _ else _) _
      rw [if_neg (by simp)]
      exact G (fun h => by simpa using hcbi.2 h.2)
    | true =>
      show Ok (if _ then _ else _) _
      rw [if_pos rfl]
      have sa := hcai.1 rfl
      have sb := hcbi.1 rfl
      have hB : ∀ i < n, BinRowF (binVal ((∀ i < n, SRow (RA i)) ∧ ∀ i < n, SRow (RB i)) op (RA i) (RB i)) nz (RA i) (RB i)
          (mergeRow op nz (RA i) (RB i)) := fun i hi => by
        have h := mergeRow_binRowF op nz (sa i hi) (sb i hi)
        exact ⟨h.nodup, fun k v => by rw [h.mem, binVal, if_pos ⟨sa, sb⟩]⟩
      refine (binop_canonical_fit (t := t) (op := op) (nz := nz) ha hb hcp hcj hcx hj hx (hfit _ hB)).mono ?_
      rintro r ⟨h1, h2, h3, h4⟩
      exact ⟨_, h1, h2, h3, fun i hi => by
          have h := mergeRow_binRowF op nz (sa i hi) (sb i hi)
          exact ⟨h.nodup, fun k v => by rw [h.mem, binVal, if_pos ⟨sa, sb⟩]⟩,
        fun _ _ i hi => mergeRow_sorted op nz _ _ (sa i hi) (sb i hi), h4⟩

theorem csr_matmat_fit [Zero T] [Add T] [Mul T] [BEq T] {t : IntTy} {n m nc : Nat} {lj : List Int} {lx : List T}
    {ap aj bp bj cp cj : List Int} {ax bx cx : List T} {RA RB : Nat → List (Int × T)}
    (ha : Rep ap aj ax n RA) (hb : Rep bp bj bx m RB)
    (hma : ∀ i < n, ∀ e ∈ RA i, 0 ≤ e.1 ∧ e.1 < m)
    (hmb : ∀ i < m, ∀ e ∈ RB i, 0 ≤ e.1 ∧ e.1 < nc ∧ e.1 ≤ t.hi)
    (hcp : cp.length = n + 1) (hcj : cj = lj) (hcx : cx = lx)
    (hj : (flat (fun i => prodCols RB (RA i)) n).length ≤ lj.length) (hx : (flat (fun i => prodCols RB (RA i)) n).length ≤ lx.length)
    (hpush : ∀ i < n, ((prodCols RB (RA i)).length : Int) ≤ t.hi)
    (hfit : ((flat (fun i => prodRowX RB (RA i)) n).length : Int) ≤ t.hi) :
    Ok (csr_matmat t n nc ap aj ax bp bj bx cp cj cx) fun r =>
      Rep r.1 r.2.1 r.2.2 n (fun i => prodRowX RB (RA i)) ∧ r.2.1.length = lj.length ∧ r.2.2.length = lx.length ∧
      ∀ k, (flat (fun i => prodRowX RB (RA i)) n).length ≤ k → r.2.1[k]? = lj[k]? ∧ r.2.2[k]? = lx[k]? := by
  set R : Nat → List (Int × T) := fun i => prodRowX RB (RA i) with hR
  have hRlen : ∀ i, (R i).length ≤ (prodCols RB (RA i)).length := fun i => emitRow_length_le _ _ _
  have hflat : ∀ i, (flat R i).length ≤ (flat (fun i => prodCols RB (RA i)) i).length := by
    intro i
    exact flat_length_le fun i _ => hRlen i
  unfold csr_matmat
  wp
  refine ⟨by omega, ?_⟩
  refine Ok_forRange (fun i (s : List Int × List T × Int × List Int × List Int × List T) =>
    LInv nc s.1 (-2) [] ∧ s.2.1 = List.replicate nc 0 ∧
    COut n lj lx i R s.2.2.1 s.2.2.2.1 s.2.2.2.2.1 s.2.2.2.2.2) (by omega)
    ⟨LInv.init nc, rfl, COut.init hcp hcj hcx⟩ ?_ ?_
  · rintro i ⟨nx, sm, nn, dp, dj, dx⟩ - hi ⟨h1, h2, h4⟩
    simp only at h1 h2 h4
    subst h2
    wp
    rds [ha.ptr i (by omega), ha.ptr_succ hi]
    have hfa := flat_length_mono (fun i => prodCols RB (RA i)) (show i + 1 ≤ n by omega)
    rw [flat_length_succ] at hfa
    have hfR := flat_length_mono R (show i + 1 ≤ n by omega)
    rw [flat_length_succ] at hfR
    have hpi := hpush i hi
    have hitems : ∀ A : List (Int × T), (∀ e ∈ A, e ∈ RA i) → ∀ g ∈ prodItems RB A, 0 ≤ g.1 ∧ g.1 < nc ∧ g.1 ≤ t.hi := by
      intro A hA g hg
      obtain ⟨e, he, f, hf, h⟩ := mem_prodItems hg
      have := hma i hi e (hA e he)
      have := hmb e.1.toNat (by omega) f hf
      rw [h]; exact this
    have hself := hitems (RA i) (fun _ h => h)
    refine Ok_forRow ha hi (fun pre (s : List Int × List T × Int × Int) =>
      LInv nc s.1 s.2.2.1 (prodCols RB pre) ∧ s.2.1 = accum (List.replicate nc 0) (prodItems RB pre) ∧
      s.2.2.2 = ((prodCols RB pre).length : Int)) ⟨h1, rfl, by simp [prodCols]⟩ ?_ ?_
    · rintro pre e suf ⟨nx1, sm1, hd1, ln1⟩ hE ⟨g1, g2, g3⟩ hj hx
      simp only at g1 g2 g3
      subst g2
      have he := hma i hi e (by rw [hE]; simp)
      have hlt : e.1.toNat < m := by omega
      wp
      rds [hj, hx, he.1, hb.ptr e.1.toNat (by omega), hb.ptr_succ hlt]
      rw [matmat_accum_eq]
      have hcols : pushAll (prodCols RB pre) ((RB e.1.toNat).map fun f => (f.1, e.2 * f.2)) = prodCols RB (pre ++ [e]) := by
        unfold prodCols
        rw [prodItems_append, prodItems_one, pushAll_append]
      have hle : (prodCols RB (pre ++ [e])).length ≤ (prodCols RB (RA i)).length := by
        rw [hE, show pre ++ e :: suf = (pre ++ [e]) ++ suf by simp]
        unfold prodCols
        rw [prodItems_append RB (pre ++ [e]), pushAll_append]
        exact (pushAll_length _ _).1
      refine (binop_accum_ok (nc := nc) (E := (RB e.1.toNat).map fun f => (f.1, e.2 * f.2)) (L := prodCols RB pre) (by simp)
        ?_ ?_ (by simp) g1 g3 (by rw [hcols]; omega)).mono ?_
      · intro q g hg
        rw [List.getElem?_map] at hg
        obtain ⟨f, hf, rfl⟩ := Option.map_eq_some_iff.1 hg
        obtain ⟨w1, w2⟩ := hb.get hlt hf
        exact ⟨w1, by rw [List.getElem?_map, w2]; rfl⟩
      · intro g hg
        obtain ⟨f, hf, rfl⟩ := List.mem_map.1 hg
        have := hmb e.1.toNat hlt f hf
        exact ⟨this.1, this.2.1⟩
      · rintro ⟨nx2, sm2, hd2, ln2⟩ ⟨k1, k2, k3⟩
        simp only at k1 k2 k3
        rw [hcols] at k1 k3
        refine ⟨_, rfl, k1, ?_, k3⟩
        simp only
        rw [k2, prodItems_append, accum_append, prodItems_one]
    · rintro ⟨nx1, sm1, hd1, ln1⟩ ⟨g1, g2, g3⟩
      simp only at g1 g2 g3 ⊢
      subst g2
      have hRl := hRlen i
      have hfi := hflat i
      have hRi : emitRow nzT (fun k => sumFrom 0 (valuesIn (prodItems RB (RA i)) k)) (prodCols RB (RA i)) = R i := rfl
      have hnn : ∀ g ∈ prodItems RB (RA i), 0 ≤ g.1 := fun g hg => (hself g hg).1
      refine (matmat_flush_ok (lj := lj) (lx := lx) (W := flat R i) (fa := fun k => sumFrom 0 (valuesIn (prodItems RB (RA i)) k))
        g1 g3 (by simp) (fun k hk => accum_zero_getX hnn hk) ?_ ?_ h4.emit
        (by rw [hRi]; omega) (by rw [hRi]; omega) (by rw [hRi]; omega)).mono ?_
      · intro k _ hk
        exact fold_not_mem hnn hk
      · intro k hk
        rcases mem_pushAll.1 hk with hk | ⟨e, he, rfl⟩
        · simp at hk
        · have := hself e he; omega
      · rintro ⟨nx3, ar3, nn3, dj3, dx3⟩ ⟨q1, q2, q4⟩
        simp only at q1 q2 q4 ⊢
        rw [hRi] at q4
        obtain ⟨w1, w2⟩ := h4.step hi q4
        exact ⟨w1, _, rfl, q1, q2, w2⟩
  · rintro ⟨nx, ar, nn, dp, dj, dx⟩ ⟨-, -, h4⟩
    exact h4.rep

end
end Sparse

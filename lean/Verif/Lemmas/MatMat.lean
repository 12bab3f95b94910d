import Verif.Lemmas.BinRow
/-! The sparse matrix product: `csr_matmat_maxnnz`, `csr_matmat`. -/
namespace Sparse

section
variable {T : Type}

/-- the products `a_ij * b_jk` contributing to a row of the result, in the order they are formed -/
def prodItems [Mul T] (B : Nat → List (Int × T)) (A : List (Int × T)) : List (Int × T) :=
  A.flatMap fun e => (B e.1.toNat).map fun f => (f.1, e.2 * f.2)

@[simp] theorem prodItems_nil [Mul T] (B : Nat → List (Int × T)) : prodItems B [] = [] := rfl

theorem prodItems_append [Mul T] (B : Nat → List (Int × T)) (A A' : List (Int × T)) :
    prodItems B (A ++ A') = prodItems B A ++ prodItems B A' := by simp [prodItems]

theorem prodItems_one [Mul T] (B : Nat → List (Int × T)) (e : Int × T) :
    prodItems B [e] = (B e.1.toNat).map fun f => (f.1, e.2 * f.2) := by simp [prodItems]

theorem mem_prodItems [Mul T] {B : Nat → List (Int × T)} {A : List (Int × T)} {g : Int × T} (h : g ∈ prodItems B A) :
    ∃ e ∈ A, ∃ f ∈ B e.1.toNat, g.1 = f.1 := by
  unfold prodItems at h
  rw [List.mem_flatMap] at h
  obtain ⟨e, he, h⟩ := h
  obtain ⟨f, hf, rfl⟩ := List.mem_map.1 h
  exact ⟨e, he, f, hf, rfl⟩

/-- distinct columns of a row of the result before zeros are dropped -/
def prodCols [Mul T] (B : Nat → List (Int × T)) (A : List (Int × T)) : List Nat := pushAll [] (prodItems B A)

theorem pushAll_mem_lt {L : List Nat} {r : List (Int × T)} {nc : Nat} (hL : ∀ k ∈ L, k < nc)
    (hr : ∀ e ∈ r, 0 ≤ e.1 ∧ e.1 < nc) : ∀ k ∈ pushAll L r, k < nc := by
  intro k hk
  rcases mem_pushAll.1 hk with h | ⟨e, he, rfl⟩
  · exact hL k h
  · have := hr e he; omega

/-- the mask of `csr_matmat_maxnnz` while row `i` is counted -/
structure MInv (nc i : Nat) (mask : List Int) (L : List Nat) : Prop where
  len : mask.length = nc
  val : ∀ k < nc, ∃ v, mask[k]? = some v ∧ (k ∈ L → v = (i : Int)) ∧ (k ∉ L → v < (i : Int))

theorem maxnnz_ok [Mul T] {n m nc : Nat} {ap aj bp bj : List Int} {ax bx : List T} {RA RB : Nat → List (Int × T)}
    (ha : Rep ap aj ax n RA) (hb : Rep bp bj bx m RB)
    (hma : ∀ i < n, ∀ e ∈ RA i, 0 ≤ e.1 ∧ e.1 < m) (hmb : ∀ i < m, ∀ e ∈ RB i, 0 ≤ e.1 ∧ e.1 < nc) :
    csr_matmat_maxnnz n nc ap aj bp bj = .ok (flat (fun i => prodCols RB (RA i)) n).length := by
  suffices h : Ok (csr_matmat_maxnnz n nc ap aj bp bj) fun r => r = (flat (fun i => prodCols RB (RA i)) n).length by
    obtain ⟨r, h1, h2⟩ := h; rw [h1, h2]
  unfold csr_matmat_maxnnz
  wp
  refine Ok_forRange (fun i (s : List Int × Nat) => MInv nc i s.1 [] ∧ s.2 = (flat (fun i => prodCols RB (RA i)) i).length)
    (by omega) ⟨⟨by simp, ?_⟩, by simp⟩ ?_ ?_
  · intro k hk
    exact ⟨-1, by simp [hk], by simp, fun _ => by omega⟩
  · rintro i ⟨mask, nnz⟩ - hi ⟨h1, h2⟩
    simp only at h1 h2
    wp
    rds [ha.ptr i (by omega), ha.ptr_succ hi]
    refine Ok_forRow ha hi (fun pre (s : List Int × Nat) => MInv nc i s.1 (prodCols RB pre) ∧
      s.2 = (prodCols RB pre).length) ⟨by simpa [prodCols] using h1, by simp [prodCols]⟩ ?_ ?_
    · rintro pre e suf ⟨mk, rn⟩ hE ⟨g1, g2⟩ hj hx
      simp only at g1 g2
      have he := hma i hi e (by rw [hE]; simp)
      have hlt : e.1.toNat < m := by omega
      wp
      rds [hj, he.1, hb.ptr e.1.toNat (by omega), hb.ptr_succ hlt]
      refine Ok_forRow hb hlt (fun pre2 (s : List Int × Nat) =>
        MInv nc i s.1 (pushAll (prodCols RB pre) (pre2.map fun f => (f.1, e.2 * f.2))) ∧
        s.2 = (pushAll (prodCols RB pre) (pre2.map fun f => (f.1, e.2 * f.2))).length) ⟨by simpa using g1, by simpa using g2⟩ ?_ ?_
      · rintro pre2 f suf2 ⟨mk2, rn2⟩ hE2 ⟨k1, k2⟩ hj2 hx2
        simp only at k1 k2
        have hf := hmb e.1.toNat hlt f (by rw [hE2]; simp)
        have hflt : f.1.toNat < nc := by omega
        obtain ⟨v, hv, hin, hout⟩ := k1.val f.1.toNat hflt
        wp
        rds [hj2, hf.1, hv]
        have hstep : pushAll (prodCols RB pre) ((pre2 ++ [f]).map fun f => (f.1, e.2 * f.2)) =
            push (pushAll (prodCols RB pre) (pre2.map fun f => (f.1, e.2 * f.2))) f.1.toNat := by
          rw [List.map_append, pushAll_append]; rfl
        rw [hstep]
        generalize pushAll (prodCols RB pre) (pre2.map fun f => (f.1, e.2 * f.2)) = L at k1 k2 hin hout ⊢
        rw [Ok_ite]
        constructor
        · intro hne
          have hnm : f.1.toNat ∉ L := fun h => hne (hin h)
          wp
          refine ⟨by rw [k1.len]; omega, _, rfl, ⟨by simp [k1.len], ?_⟩, ?_⟩
          · intro k hk
            by_cases ek : f.1.toNat = k
            · subst ek
              refine ⟨i, set_get_eq (by rw [k1.len]; omega), fun _ => rfl, fun h => absurd (mem_push.2 (Or.inr rfl)) h⟩
            · obtain ⟨w, hw, hw1, hw2⟩ := k1.val k hk
              refine ⟨w, by rw [set_get_ne ek]; exact hw, ?_, ?_⟩
              · intro h
                rcases mem_push.1 h with h | h
                · exact hw1 h
                · exact absurd h.symm ek
              · intro h
                exact hw2 fun h' => h (mem_push.2 (Or.inl h'))
          · simp only [push, if_neg hnm, List.length_cons]; omega
        · intro hne
          simp only [not_not] at hne
          have hm : f.1.toNat ∈ L := by
            by_contra h
            have := hout h
            omega
          wp
          have : push L f.1.toNat = L := by simp [push, hm]
          rw [this]
          exact ⟨_, rfl, k1, k2⟩
      · rintro ⟨mk2, rn2⟩ ⟨k1, k2⟩
        have : pushAll (prodCols RB pre) ((RB e.1.toNat).map fun f => (f.1, e.2 * f.2)) = prodCols RB (pre ++ [e]) := by
          unfold prodCols
          rw [prodItems_append, prodItems_one, pushAll_append]
        rw [this] at k1 k2
        exact ⟨_, rfl, k1, k2⟩
    · rintro ⟨mk, rn⟩ ⟨g1, g2⟩
      simp only at g1 g2
      refine ⟨_, rfl, ⟨g1.len, ?_⟩, ?_⟩
      · intro k hk
        obtain ⟨v, hv, h3, h4⟩ := g1.val k hk
        refine ⟨v, hv, by simp, fun _ => ?_⟩
        by_cases h : k ∈ prodCols RB (RA i)
        · rw [h3 h]; push_cast; omega
        · have := h4 h; push_cast; omega
      · simp only [flat_length_succ]; omega
  · rintro ⟨mask, nnz⟩ ⟨-, h2⟩
    exact h2

theorem rd_map {α β : Type} (l : List α) (f : α → β) (i : Nat) : (l.map f).rd i = f <$> l.rd i := by
  unfold List.rd
  rw [List.getElem?_map]
  cases l[i]? <;> rfl

theorem matmat_accum_eq [Add T] [Mul T] (t : IntTy) (s e : Nat) (v : T) (bj : List Int) (bx : List T) (next : List Int)
    (sums : List T) (head length : Int) :
    matmat_accum t s e v bj bx next sums head length = binop_accum t s e bj (bx.map (v * ·)) next sums head length := by
  unfold matmat_accum binop_accum
  simp only [rd_map, bind_map_left]

theorem matmat_flush_ok [Zero T] [BEq T] {t : IntTy} {nc : Nat} {lj : List Int} {lx : List T} {next : List Int}
    {arow : List T} {head length nnz : Int} {L : List Nat} {cj : List Int} {cx : List T} {W : List (Int × T)}
    {fa : Nat → T} (hL : LInv nc next head L) (hlen : length = (L.length : Int))
    (hla : arow.length = nc) (ha : ∀ k < nc, arow[k]? = some (fa k)) (ha0 : ∀ k < nc, k ∉ L → fa k = 0)
    (hcol : ∀ k ∈ L, (k : Int) ≤ t.hi) (hE : Emit lj lx W nnz cj cx)
    (hj : W.length + (emitRow nzT fa L).length ≤ lj.length) (hx : W.length + (emitRow nzT fa L).length ≤ lx.length)
    (hfit : ((W.length + (emitRow nzT fa L).length : Nat) : Int) ≤ t.hi) :
    Ok (matmat_flush t length head next arow nnz cj cx) fun r =>
      LInv nc r.1 (-2) [] ∧ r.2.1 = List.replicate nc 0 ∧
      Emit lj lx (W ++ emitRow nzT fa L) r.2.2.1 r.2.2.2.1 r.2.2.2.2 := by
  unfold matmat_flush
  wp
  subst hlen
  refine ⟨by omega, ?_⟩
  refine Ok_forOff (E := L) (by simp) (fun pre (s : Int × List Int × List T × Int × List Int × List T) =>
    ∃ suf, L = pre ++ suf ∧ LInv nc s.2.1 s.1 suf ∧ s.2.2.1.length = nc ∧
      (∀ k < nc, s.2.2.1[k]? = some (if k ∈ suf then fa k else 0)) ∧
      Emit lj lx (W ++ emitRow nzT fa pre) s.2.2.2.1 s.2.2.2.2.1 s.2.2.2.2.2)
    ?_ ?_ ?_
  · refine ⟨L, rfl, hL, hla, ?_, ?_⟩
    · intro k hk
      rw [ha k hk]
      split
      · rfl
      · rename_i h; rw [ha0 k hk h]
    · simpa [emitRow] using hE
  · rintro pre k suf ⟨hd, nx, ar, nn, dj, dx⟩ hEq ⟨suf', hEq', h1, h2, h4, h6⟩
    simp only at h1 h2 h4 h6
    have : suf' = k :: suf := by
      rw [hEq] at hEq'; exact (List.append_cancel_left hEq').symm
    subst this
    obtain ⟨rfl, hklt, v, hv, hpop⟩ := h1.pop
    have hk : k < nc := by rw [← h1.len]; exact hklt
    have hnd := List.nodup_cons.1 h1.nodup
    have ea := h4 k hk
    simp only [List.mem_cons, true_or, if_true] at ea
    have hlo := t.lo_nonpos
    have hlenE : (emitRow nzT fa L).length =
        (emitRow nzT fa pre).length + (emitRow nzT fa [k]).length + (emitRow nzT fa suf).length := by
      rw [hEq, show pre ++ k :: suf = pre ++ [k] ++ suf by simp, emitRow_append, emitRow_append]
      simp only [List.length_append]
    have hclr : ∀ q < nc, (ar.set k 0)[q]? = some (if q ∈ suf then fa q else 0) := by
      intro q hq
      by_cases e : k = q
      · subst e
        rw [set_get_eq (by omega), if_neg hnd.1]
      · rw [set_get_ne e, h4 q hq]
        simp only [List.mem_cons, show ¬ q = k from fun h => e h.symm, false_or]
    have hnn := h6.nnz
    have hlj := h6.lenj
    have hlx := h6.lenx
    have hasIdx : asIdx (k : Int) = .ok k := by simp [asIdx, pure, Except.pure]
    simp only [hasIdx]
    wp
    rds [ea]
    rw [Ok_ite]
    constructor
    · intro hnz
      have hnz' : nzT (fa k) = true := hnz
      have hek : (emitRow nzT fa [k]).length = 1 := by simp [emitRow, hnz']
      have hnat : nn.toNat = W.length + (emitRow nzT fa pre).length := by
        rw [hnn, List.length_append]; omega
      wp
      rds [ea, hv]
      rw [hek] at hlenE
      have hem := h6.emit (e := ((k : Int), fa k)) (by rw [List.length_append]; omega)
        (by rw [List.length_append]; omega)
      have hck := hcol k (by rw [hEq]; simp)
      rw [List.length_append] at hnn
      refine ⟨by omega, ⟨by omega, by omega⟩, by omega, by omega, by omega, ⟨by omega, by omega⟩, hklt, by omega, ?_⟩
      refine ⟨_, rfl, suf, by simp [hEq], hpop, by simp [h2], hclr, ?_⟩
      simp only
      rw [emitRow_append, ← List.append_assoc]
      have : emitRow nzT fa [k] = [((k : Int), fa k)] := by simp [emitRow, hnz']
      rw [this]
      exact hem
    · intro hnz
      have hnz' : ¬ nzT (fa k) = true := hnz
      wp
      rds [hv]
      refine ⟨hklt, by omega, ?_⟩
      refine ⟨_, rfl, suf, by simp [hEq], hpop, by simp [h2], hclr, ?_⟩
      simp only
      have : emitRow nzT fa [k] = [] := by simp [emitRow, hnz']
      rw [emitRow_append, this, List.append_nil]
      exact h6
  · rintro ⟨hd, nx, ar, nn, dj, dx⟩ ⟨suf, hEq, h1, h2, h4, h6⟩
    have : suf = [] := by
      have := congrArg List.length hEq
      rw [List.length_append] at this
      exact List.length_eq_zero_iff.1 (by omega)
    subst this
    simp only [List.not_mem_nil, if_false] at h1 h2 h4 h6 ⊢
    have hc := h1.chain
    simp only [Chain] at hc
    subst hc
    refine ⟨h1, ?_, h6⟩
    apply List.ext_getElem?
    intro k
    rw [List.getElem?_replicate]
    split
    · rename_i h; exact h4 k h
    · rename_i h; simp; omega

/-- a row of the product, computed exactly as the code does -/
def prodRowX [Zero T] [Add T] [Mul T] [BEq T] (B : Nat → List (Int × T)) (A : List (Int × T)) : List (Int × T) :=
  emitRow nzT (fun k => sumFrom 0 (valuesIn (prodItems B A) k)) (prodCols B A)

theorem csr_matmat_exact [Zero T] [Add T] [Mul T] [BEq T] {t : IntTy} {n m nc : Nat} {lj : List Int} {lx : List T}
    {ap aj bp bj cp cj : List Int} {ax bx cx : List T} {RA RB : Nat → List (Int × T)}
    (ha : Rep ap aj ax n RA) (hb : Rep bp bj bx m RB)
    (hma : ∀ i < n, ∀ e ∈ RA i, 0 ≤ e.1 ∧ e.1 < m)
    (hmb : ∀ i < m, ∀ e ∈ RB i, 0 ≤ e.1 ∧ e.1 < nc ∧ e.1 ≤ t.hi)
    (hcp : cp.length = n + 1) (hcj : cj = lj) (hcx : cx = lx)
    (hj : (flat (fun i => prodCols RB (RA i)) n).length ≤ lj.length) (hx : (flat (fun i => prodCols RB (RA i)) n).length ≤ lx.length)
    (hfit : ((flat (fun i => prodCols RB (RA i)) n).length : Int) ≤ t.hi) :
    Ok (csr_matmat t n nc ap aj ax bp bj bx cp cj cx) fun r =>
      Rep r.1 r.2.1 r.2.2 n (fun i => prodRowX RB (RA i)) ∧ r.2.1.length = lj.length ∧ r.2.2.length = lx.length ∧
      ∀ k, (flat (fun i => prodRowX RB (RA i)) n).length ≤ k → r.2.1[k]? = lj[k]? ∧ r.2.2[k]? = lx[k]? := by
  set R : Nat → List (Int × T) := fun i => prodRowX RB (RA i) with hR
  have hRlen : ∀ i, (R i).length ≤ (prodCols RB (RA i)).length := fun i => emitRow_length_le _ _ _
  have hflat : ∀ i, (flat R i).length ≤ (flat (fun i => prodCols RB (RA i)) i).length := by
    intro i
    exact flat_length_le fun i _ => hRlen i
  unfold csr_matmat
  wp
  refine ⟨by omega, ?_⟩
  refine Ok_forRange (fun i (s : List Int × List T × Int × List Int × List Int × List T) =>
    LInv nc s.1 (-2) [] ∧ s.2.1 = List.replicate nc 0 ∧
    COut n lj lx i R s.2.2.1 s.2.2.2.1 s.2.2.2.2.1 s.2.2.2.2.2) (by omega)
    ⟨LInv.init nc, rfl, COut.init hcp hcj hcx⟩ ?_ ?_
  · rintro i ⟨nx, sm, nn, dp, dj, dx⟩ - hi ⟨h1, h2, h4⟩
    simp only at h1 h2 h4
    subst h2
    wp
    rds [ha.ptr i (by omega), ha.ptr_succ hi]
    have hfa := flat_length_mono (fun i => prodCols RB (RA i)) (show i + 1 ≤ n by omega)
    rw [flat_length_succ] at hfa
    have hitems : ∀ A : List (Int × T), (∀ e ∈ A, e ∈ RA i) → ∀ g ∈ prodItems RB A, 0 ≤ g.1 ∧ g.1 < nc ∧ g.1 ≤ t.hi := by
      intro A hA g hg
      obtain ⟨e, he, f, hf, h⟩ := mem_prodItems hg
      have := hma i hi e (hA e he)
      have := hmb e.1.toNat (by omega) f hf
      rw [h]; exact this
    have hself := hitems (RA i) (fun _ h => h)
    refine Ok_forRow ha hi (fun pre (s : List Int × List T × Int × Int) =>
      LInv nc s.1 s.2.2.1 (prodCols RB pre) ∧ s.2.1 = accum (List.replicate nc 0) (prodItems RB pre) ∧
      s.2.2.2 = ((prodCols RB pre).length : Int)) ⟨h1, rfl, by simp [prodCols]⟩ ?_ ?_
    · rintro pre e suf ⟨nx1, sm1, hd1, ln1⟩ hE ⟨g1, g2, g3⟩ hj hx
      simp only at g1 g2 g3
      subst g2
      have he := hma i hi e (by rw [hE]; simp)
      have hlt : e.1.toNat < m := by omega
      wp
      rds [hj, hx, he.1, hb.ptr e.1.toNat (by omega), hb.ptr_succ hlt]
      rw [matmat_accum_eq]
      have hcols : pushAll (prodCols RB pre) ((RB e.1.toNat).map fun f => (f.1, e.2 * f.2)) = prodCols RB (pre ++ [e]) := by
        unfold prodCols
        rw [prodItems_append, prodItems_one, pushAll_append]
      have hle : (prodCols RB (pre ++ [e])).length ≤ (prodCols RB (RA i)).length := by
        rw [hE, show pre ++ e :: suf = (pre ++ [e]) ++ suf by simp]
        unfold prodCols
        rw [prodItems_append RB (pre ++ [e]), pushAll_append]
        exact (pushAll_length _ _).1
      refine (binop_accum_ok (nc := nc) (E := (RB e.1.toNat).map fun f => (f.1, e.2 * f.2)) (L := prodCols RB pre) (by simp)
        ?_ ?_ (by simp) g1 g3 (by rw [hcols]; omega)).mono ?_
      · intro q g hg
        rw [List.getElem?_map] at hg
        obtain ⟨f, hf, rfl⟩ := Option.map_eq_some_iff.1 hg
        obtain ⟨w1, w2⟩ := hb.get hlt hf
        exact ⟨w1, by rw [List.getElem?_map, w2]; rfl⟩
      · intro g hg
        obtain ⟨f, hf, rfl⟩ := List.mem_map.1 hg
        have := hmb e.1.toNat hlt f hf
        exact ⟨this.1, this.2.1⟩
      · rintro ⟨nx2, sm2, hd2, ln2⟩ ⟨k1, k2, k3⟩
        simp only at k1 k2 k3
        rw [hcols] at k1 k3
        refine ⟨_, rfl, k1, ?_, k3⟩
        simp only
        rw [k2, prodItems_append, accum_append, prodItems_one]
    · rintro ⟨nx1, sm1, hd1, ln1⟩ ⟨g1, g2, g3⟩
      simp only at g1 g2 g3 ⊢
      subst g2
      have hRl := hRlen i
      have hfi := hflat i
      have hRi : emitRow nzT (fun k => sumFrom 0 (valuesIn (prodItems RB (RA i)) k)) (prodCols RB (RA i)) = R i := rfl
      have hnn : ∀ g ∈ prodItems RB (RA i), 0 ≤ g.1 := fun g hg => (hself g hg).1
      refine (matmat_flush_ok (lj := lj) (lx := lx) (W := flat R i) (fa := fun k => sumFrom 0 (valuesIn (prodItems RB (RA i)) k))
        g1 g3 (by simp) (fun k hk => accum_zero_getX hnn hk) ?_ ?_ h4.emit
        (by rw [hRi]; omega) (by rw [hRi]; omega) (by rw [hRi]; omega)).mono ?_
      · intro k _ hk
        exact fold_not_mem hnn hk
      · intro k hk
        rcases mem_pushAll.1 hk with hk | ⟨e, he, rfl⟩
        · simp at hk
        · have := hself e he; omega
      · rintro ⟨nx3, ar3, nn3, dj3, dx3⟩ ⟨q1, q2, q4⟩
        simp only at q1 q2 q4 ⊢
        rw [hRi] at q4
        obtain ⟨w1, w2⟩ := h4.step hi q4
        exact ⟨w1, _, rfl, q1, q2, w2⟩
  · rintro ⟨nx, ar, nn, dp, dj, dx⟩ ⟨-, -, h4⟩
    exact h4.rep

/-- a row of the product -/
def prodRow [NonUnitalNonAssocSemiring T] [DecidableEq T] (B : Nat → List (Int × T)) (A : List (Int × T)) : List (Int × T) :=
  emitRow nzT (fun k => rowSum (prodItems B A) k) (prodCols B A)

theorem csr_matmat_ok [NonUnitalNonAssocSemiring T] [DecidableEq T] {t : IntTy} {n m nc : Nat} {lj : List Int} {lx : List T}
    {ap aj bp bj cp cj : List Int} {ax bx cx : List T} {RA RB : Nat → List (Int × T)}
    (ha : Rep ap aj ax n RA) (hb : Rep bp bj bx m RB)
    (hma : ∀ i < n, ∀ e ∈ RA i, 0 ≤ e.1 ∧ e.1 < m)
    (hmb : ∀ i < m, ∀ e ∈ RB i, 0 ≤ e.1 ∧ e.1 < nc ∧ e.1 ≤ t.hi)
    (hcp : cp.length = n + 1) (hcj : cj = lj) (hcx : cx = lx)
    (hj : (flat (fun i => prodCols RB (RA i)) n).length ≤ lj.length) (hx : (flat (fun i => prodCols RB (RA i)) n).length ≤ lx.length)
    (hfit : ((flat (fun i => prodCols RB (RA i)) n).length : Int) ≤ t.hi) :
    Ok (csr_matmat t n nc ap aj ax bp bj bx cp cj cx) fun r =>
      Rep r.1 r.2.1 r.2.2 n (fun i => prodRow RB (RA i)) ∧ r.2.1.length = lj.length ∧ r.2.2.length = lx.length ∧
      ∀ k, (flat (fun i => prodRow RB (RA i)) n).length ≤ k → r.2.1[k]? = lj[k]? ∧ r.2.2[k]? = lx[k]? := by
  have e : ∀ B A, prodRow (T := T) B A = prodRowX B A := by
    intro B A
    unfold prodRow prodRowX
    simp only [sumFrom_zero]
  simp only [e]
  exact csr_matmat_exact ha hb hma hmb hcp hcj hcx hj hx hfit

end
end Sparse

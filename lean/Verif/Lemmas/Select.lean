import Verif.Lemmas.BinRow
/-! Kernels that pick rows and columns: `csr_select`, `get_csr_submatrix`. -/
namespace Sparse

section
variable {T : Type}

/-- the output of `csr_select` for requested column `k` (at position `c`) of a row -/
def selPart (r : List (Int × T)) (k : Int) (c : Nat) : List (Int × T) :=
  (valuesIn r k).map fun v => ((c : Int), v)

theorem valuesIn_of_nodup {r : List (Int × T)} (h : (r.map (·.1)).Nodup) {e : Int × T} (he : e ∈ r) :
    valuesIn r e.1 = [e.2] := by
  induction r with
  | nil => simp at he
  | cons f r ih =>
    rw [List.map_cons, List.nodup_cons] at h
    unfold valuesIn
    rw [List.filter_cons]
    rcases List.mem_cons.1 he with rfl | he
    · rw [if_pos (by simp), List.filter_eq_nil_iff.2]
      · simp
      · intro f hf hc
        exact h.1 (List.mem_map.2 ⟨f, hf, by simpa using hc⟩)
    · rw [if_neg]
      · exact ih h.2 he
      · intro hc
        exact h.1 (List.mem_map.2 ⟨e, he, by simpa using Eq.symm (by simpa using hc)⟩)

theorem valuesIn_of_none {r : List (Int × T)} {k : Int} (h : ¬ ∃ e ∈ r, e.1 = k) : valuesIn r k = [] := by
  unfold valuesIn
  rw [List.map_eq_nil_iff, List.filter_eq_nil_iff]
  intro e he hc
  exact h ⟨e, he, by simpa using hc⟩

theorem selPart_some {r : List (Int × T)} (h : (r.map (·.1)).Nodup) {e : Int × T} (he : e ∈ r) (c : Nat) :
    selPart r e.1 c = [((c : Int), e.2)] := by
  unfold selPart
  rw [valuesIn_of_nodup h he]
  rfl

theorem selPart_none {r : List (Int × T)} {k : Int} (h : ¬ ∃ e ∈ r, e.1 = k) (c : Nat) : selPart r k c = [] := by
  unfold selPart
  rw [valuesIn_of_none h]
  rfl

/-- the output of `csr_select` for one requested row -/
def selRow (r : List (Int × T)) (cols : List Int) : List (Int × T) :=
  cols.zipIdx.flatMap fun q => selPart r q.1 q.2

theorem selRow_snoc (r : List (Int × T)) (cols : List Int) (k : Int) :
    selRow r (cols ++ [k]) = selRow r cols ++ selPart r k cols.length := by
  unfold selRow
  rw [List.zipIdx_append]
  simp

theorem selRow_prefix (r : List (Int × T)) (c1 c2 : List Int) :
    (selRow r c1).length ≤ (selRow r (c1 ++ c2)).length := by
  unfold selRow
  rw [List.zipIdx_append]
  simp

theorem select_count_ok {n : Nat} {ap aj : List Int} {ax : List T} {RA : Nat → List (Int × T)}
    (ha : Rep ap aj ax n RA) (hma : ∀ i < n, ∀ e ∈ RA i, 0 ≤ e.1)
    (hs : ∀ i < n, ((RA i).map (·.1)).Nodup) {rows cols : List Int}
    (hr : ∀ r ∈ rows, 0 ≤ r ∧ r < n) (hc : ∀ c ∈ cols, 0 ≤ c) :
    select_count ap aj rows cols = .ok (rows.map fun r => (selRow (RA r.toNat) cols).length).sum := by
  suffices h : Ok (select_count ap aj rows cols) fun q => q = (rows.map fun r => (selRow (RA r.toNat) cols).length).sum by
    obtain ⟨r, h1, h2⟩ := h; rw [h1, h2]
  unfold select_count
  wp
  refine Ok_forList (fun pre (s : Nat) => s = (pre.map fun r => (selRow (RA r.toNat) cols).length).sum) rfl ?_ (fun s h => h)
  rintro pre r suf s hE rfl
  have hrr := hr r (by rw [hE]; simp)
  have hlt : r.toNat < n := by omega
  wp
  rds [hrr.1, ha.ptr r.toNat (by omega), ha.ptr_succ hlt]
  refine Ok_forRow ha hlt (fun pre (s : List Nat) => ∀ k : Nat, k ∈ s ↔ ∃ e ∈ pre, e.1 = (k : Int)) (by simp) ?_ ?_
  · rintro p e q s hE2 hP hj hx
    have he := hma r.toNat hlt e (by rw [hE2]; simp)
    wp
    rds [hj, he]
    refine ⟨_, rfl, ?_⟩
    intro k
    simp only [List.mem_cons, hP k, List.mem_append, List.not_mem_nil, or_false]
    constructor
    · rintro (rfl | ⟨f, hf, h⟩)
      · exact ⟨e, Or.inr rfl, by omega⟩
      · exact ⟨f, Or.inl hf, h⟩
    · rintro ⟨f, hf | rfl, h⟩
      · exact Or.inr ⟨f, hf, h⟩
      · exact Or.inl (by omega)
  · intro cp hcp
    refine Ok_forList (fun p (s : Nat) => s = (pre.map fun r => (selRow (RA r.toNat) cols).length).sum +
      (selRow (RA r.toNat) p).length) (by simp [selRow]) ?_ ?_
    · rintro p c q s hE2 rfl
      have hcc := hc c (by rw [hE2]; simp)
      wp
      rds [hcc]
      rw [Ok_ite]
      rw [selRow_snoc]
      constructor
      · intro h
        rw [hcp] at h
        obtain ⟨e, he, h⟩ := h
        obtain rfl : e.1 = c := by omega
        rw [selPart_some (hs _ hlt) he]
        wp
        exact ⟨_, rfl, by simp; omega⟩
      · intro h
        rw [hcp] at h
        rw [selPart_none (by rintro ⟨e, he, h'⟩; exact h ⟨e, he, by omega⟩)]
        wp
        exact ⟨_, rfl, by simp⟩
    · rintro s rfl
      exact ⟨_, rfl, by simp⟩

/-- the map from columns to storage positions built by `csr_select` for a prefix of a row -/
def ColMap (ax : List T) (pre : List (Int × T)) (m : List (Nat × Nat)) : Prop :=
  ∀ k : Nat, (∀ jj, m.lookup k = some jj → ∃ e ∈ pre, e.1 = (k : Int) ∧ ax[jj]? = some e.2) ∧
    (m.lookup k = none → ¬ ∃ e ∈ pre, e.1 = (k : Int))

theorem csr_select_ok [Zero T] {t : IntTy} {n : Nat} {ap aj bp0 bj0 : List Int} {ax bx0 : List T}
    {RA : Nat → List (Int × T)} (ha : Rep ap aj ax n RA) (hma : ∀ i < n, ∀ e ∈ RA i, 0 ≤ e.1)
    (hs : ∀ i < n, ((RA i).map (·.1)).Nodup) {rows cols : List Int}
    (hr : ∀ r ∈ rows, 0 ≤ r ∧ r < n) (hc : ∀ c ∈ cols, 0 ≤ c) (hcl : (cols.length : Int) ≤ t.hi + 1)
    (hfit : (((rows.map fun r => (selRow (RA r.toNat) cols).length).sum : Nat) : Int) ≤ t.hi) :
    Ok (csr_select t ap aj ax rows cols bp0 bj0 bx0) fun q =>
      Rep q.1 q.2.1 q.2.2 rows.length (fun i => selRow (RA (rows.getD i 0).toNat) cols) ∧
      q.2.1.length = (rows.map fun r => (selRow (RA r.toNat) cols).length).sum ∧
      q.2.2.length = (rows.map fun r => (selRow (RA r.toNat) cols).length).sum := by
  set N := (rows.map fun r => (selRow (RA r.toNat) cols).length).sum with hN
  set R : Nat → List (Int × T) := fun i => selRow (RA (rows.getD i 0).toNat) cols with hR
  have hNR : N = (flat R rows.length).length := by
    rw [flat_length_sum, hN]
    congr 1
    apply List.ext_getElem?
    intro i
    simp only [List.getElem?_map]
    by_cases hi : i < rows.length
    · rw [List.getElem?_range hi, List.getElem?_eq_getElem hi]
      simp [hR, hi]
    · simp [hi]
  unfold csr_select
  rw [select_count_ok ha hma hs hr hc, ← hN]
  wp
  refine ⟨by rw [resize_length]; omega, ?_⟩
  have hJJ : (bj0.resize N 0).length = N := resize_length _ _ _
  have hXX : (bx0.resize N 0).length = N := resize_length _ _ _
  generalize bj0.resize N 0 = JJ at hJJ ⊢
  generalize bx0.resize N 0 = XX at hXX ⊢
  refine Ok_forRange (fun i (s : List Int × List Int × List T × Nat) =>
    COut rows.length JJ XX i R (s.2.2.2 : Int) s.1 s.2.1 s.2.2.1) (by omega) ?_ ?_ ?_
  · exact COut.init (resize_length _ _ _) rfl rfl
  · rintro i ⟨bp, bj, bx, kk⟩ - hi h
    simp only at h
    have hrow : rows[i]? = some (rows.getD i 0) := by
      rw [List.getD_eq_getElem?_getD, List.getElem?_eq_getElem hi]; rfl
    have hrr := hr _ (List.mem_of_getElem? hrow)
    have hRi : R i = selRow (RA (rows.getD i 0).toNat) cols := rfl
    generalize rows.getD i 0 = r at hrow hrr hRi
    have hlt : r.toNat < n := by omega
    have hmono := flat_length_mono R (show i + 1 ≤ rows.length by omega)
    rw [flat_length_succ] at hmono
    wp
    rds [hrow, hrr.1, ha.ptr r.toNat (by omega), ha.ptr_succ hlt]
    refine Ok_forRow ha hlt (fun pre (s : List (Nat × Nat)) => ColMap ax pre s) ?_ ?_ ?_
    · intro k
      simp
    · rintro p e q s hE2 hP hj hx
      have he := hma r.toNat hlt e (by rw [hE2]; simp)
      wp
      rds [hj, he]
      refine ⟨_, rfl, ?_⟩
      intro k
      obtain ⟨h1, h2⟩ := hP k
      rw [List.lookup_cons]
      by_cases hk : k = e.1.toNat
      · subst hk
        simp only [beq_self_eq_true]
        refine ⟨?_, by simp⟩
        rintro jj h
        obtain rfl := Option.some.inj h
        exact ⟨e, by simp, by omega, hx⟩
      · have : (k == e.1.toNat) = false := by simpa using hk
        rw [this]
        simp only
        refine ⟨?_, ?_⟩
        · intro jj h
          obtain ⟨f, hf, h3, h4⟩ := h1 jj h
          exact ⟨f, by simp [hf], h3, h4⟩
        · intro h
          have := h2 h
          rintro ⟨f, hf, h3⟩
          simp only [List.mem_append, List.mem_singleton] at hf
          rcases hf with hf | rfl
          · exact this ⟨f, hf, h3⟩
          · omega
    · intro m hm
      refine Ok_forOff (E := cols) (by simp) (fun pre (s : List Int × List T × Nat) =>
        Emit JJ XX (flat R i ++ selRow (RA r.toNat) pre) (s.2.2 : Int) s.1 s.2.1) ?_ ?_ ?_
      · simpa [selRow] using h.emit
      · rintro p c q ⟨dj, dx, kn⟩ hE2 hP
        simp only at hP
        have hcc := hc c (by rw [hE2]; simp)
        have hcn : cols[0 + p.length]? = some c := by rw [hE2]; simp
        obtain ⟨h1, h2⟩ := hm c.toNat
        have hpl := selRow_prefix (RA r.toNat) (p ++ [c]) q
        have hEc : p ++ [c] ++ q = cols := by rw [hE2]; simp
        rw [hEc, selRow_snoc, List.length_append, ← hRi] at hpl
        wp
        rds [hcn, hcc]
        rw [selRow_snoc]
        have hkn := hP.nnz
        rw [List.length_append] at hkn
        have hlj := hP.lenj
        have hlx := hP.lenx
        cases hl : m.lookup c.toNat with
        | none =>
          have := h2 hl
          have hsp : selPart (RA r.toNat) c p.length = [] := by
            refine selPart_none ?_ _
            rintro ⟨e, he, h'⟩
            exact this ⟨e, he, by omega⟩
          wp
          rw [hsp, List.append_nil]
          exact ⟨_, rfl, hP⟩
        | some jj =>
          obtain ⟨e, he, h3, h4⟩ := h1 jj hl
          have h3' : e.1 = c := by omega
          have hsp : selPart (RA r.toNat) c p.length = [((p.length : Int), e.2)] := by
            rw [← h3', selPart_some (hs _ hlt) he]
          have hplen : p.length < cols.length := by rw [hE2]; simp
          rw [hsp] at hpl ⊢
          simp only [List.length_singleton] at hpl
          simp only
          have hlo := t.lo_nonpos
          wp
          rds [h4]
          have hem := hP.emit (e := ((p.length : Int), e.2)) (by rw [List.length_append]; omega) (by rw [List.length_append]; omega)
          refine ⟨by omega, by omega, by omega, _, rfl, ?_⟩
          simpa [List.append_assoc] using hem
      · rintro ⟨dj, dx, kn⟩ hP
        simp only at hP
        rw [← hRi] at hP
        obtain ⟨w1, w2⟩ := h.step hi hP
        have hkn := hP.nnz
        rw [List.length_append] at hkn
        have hlo := t.lo_nonpos
        wp
        exact ⟨by omega, w1, _, rfl, w2⟩
  · rintro ⟨bp, bj, bx, kk⟩ h
    obtain ⟨h1, h2, h3, -⟩ := h.rep
    exact ⟨h1, h2.trans hJJ, h3.trans hXX⟩

/-- a row restricted to columns `c0 ≤ . < c1`, shifted by `c0` -/
def cutRow (r : List (Int × T)) (c0 c1 : Int) : List (Int × T) :=
  (r.filter fun e => decide (c0 ≤ e.1 ∧ e.1 < c1)).map fun e => (e.1 - c0, e.2)

theorem cutRow_append (r s : List (Int × T)) (c0 c1 : Int) : cutRow (r ++ s) c0 c1 = cutRow r c0 c1 ++ cutRow s c0 c1 := by
  simp [cutRow]

theorem cutRow_one (e : Int × T) (c0 c1 : Int) :
    cutRow [e] c0 c1 = if c0 ≤ e.1 ∧ e.1 < c1 then [(e.1 - c0, e.2)] else [] := by
  unfold cutRow
  rw [List.filter_cons]
  split <;> rename_i h <;> simp only [decide_eq_true_eq] at h
  · rw [if_pos h]; simp
  · rw [if_neg h]; simp

theorem submatrix_count_ok {n : Nat} {ap aj : List Int} {ax : List T} {RA : Nat → List (Int × T)}
    (ha : Rep ap aj ax n RA) {r0 k : Nat} (hk : r0 + k ≤ n) (c0 c1 : Int) :
    submatrix_count k r0 ap aj c0 c1 = .ok (flat (fun i => cutRow (RA (r0 + i)) c0 c1) k).length := by
  suffices h : Ok (submatrix_count k r0 ap aj c0 c1) fun q => q = (flat (fun i => cutRow (RA (r0 + i)) c0 c1) k).length by
    obtain ⟨r, h1, h2⟩ := h; rw [h1, h2]
  unfold submatrix_count
  wp
  refine Ok_forRange (fun i (s : Nat) => s = (flat (fun i => cutRow (RA (r0 + i)) c0 c1) i).length) (by omega) (by simp) ?_ (fun s h => h)
  rintro i s - hi rfl
  have hlt : r0 + i < n := by omega
  wp
  rds [ha.ptr (r0 + i) (by omega), ha.ptr_succ hlt]
  refine Ok_forRow ha hlt (fun pre (s : Nat) => s = (flat (fun i => cutRow (RA (r0 + i)) c0 c1) i).length +
    (cutRow pre c0 c1).length) (by simp [cutRow]) ?_ ?_
  · rintro p e q s hE rfl hj hx
    wp
    rds [hj]
    rw [cutRow_append, cutRow_one, Ok_ite]
    constructor
    · intro h
      rw [if_pos ⟨h.1, h.2⟩]
      wp
      exact ⟨_, rfl, by simp; omega⟩
    · intro h
      rw [if_neg (fun h' => h ⟨h'.1, h'.2⟩)]
      wp
      exact ⟨_, rfl, by simp⟩
  · rintro s rfl
    exact ⟨_, rfl, by rw [flat_length_succ]⟩

theorem get_csr_submatrix_ok [Zero T] {t : IntTy} {n : Nat} {ap aj bp0 bj0 : List Int} {ax bx0 : List T}
    {RA : Nat → List (Int × T)} (ha : Rep ap aj ax n RA) {r0 r1 : Nat} {c0 c1 : Int} (hr : r0 ≤ r1) (hn : r1 ≤ n)
    (hr1 : (r1 : Int) ≤ t.hi) (hc0 : 0 ≤ c0) (hc1 : c1 ≤ t.hi) (hfit : ((flat RA n).length : Int) ≤ t.hi) :
    Ok (get_csr_submatrix t ap aj ax r0 r1 c0 c1 bp0 bj0 bx0) fun q =>
      Rep q.1 q.2.1 q.2.2 (r1 - r0) (fun i => cutRow (RA (r0 + i)) c0 c1) ∧
      q.2.1.length = (flat (fun i => cutRow (RA (r0 + i)) c0 c1) (r1 - r0)).length ∧
      q.2.2.length = (flat (fun i => cutRow (RA (r0 + i)) c0 c1) (r1 - r0)).length ∧
      ((flat (fun i => cutRow (RA (r0 + i)) c0 c1) (r1 - r0)).length : Int) ≤ t.hi := by
  set R : Nat → List (Int × T) := fun i => cutRow (RA (r0 + i)) c0 c1 with hR
  set N := (flat R (r1 - r0)).length with hN
  have hlo := t.lo_nonpos
  have hsub : ((r1 : Int) - (r0 : Int)).toNat = r1 - r0 := by omega
  have hshift : ∀ k, (flat (fun i => RA (r0 + i)) k).length + (flat RA r0).length = (flat RA (r0 + k)).length := by
    intro k
    induction k with
    | zero => simp
    | succ k ih => rw [flat_length_succ, ← Nat.add_assoc, flat_length_succ]; omega
  have hNle : (N : Int) ≤ t.hi := by
    have h1 : N ≤ (flat (fun i => RA (r0 + i)) (r1 - r0)).length := flat_length_le fun i _ => by
      simp only [hR, cutRow, List.length_map]; exact List.length_filter_le _ _
    have h2 := hshift (r1 - r0)
    have h3 := flat_length_mono RA (show r0 + (r1 - r0) ≤ n by omega)
    omega
  unfold get_csr_submatrix
  wp
  refine ⟨by omega, ⟨by omega, by omega⟩, by omega, ?_⟩
  rw [hsub, Int.toNat_natCast, submatrix_count_ok ha (by omega)]
  wp
  refine ⟨by rw [resize_length]; omega, ?_⟩
  have hJJ : (bj0.resize N 0).length = N := resize_length _ _ _
  have hXX : (bx0.resize N 0).length = N := resize_length _ _ _
  generalize bj0.resize N 0 = JJ at hJJ ⊢
  generalize bx0.resize N 0 = XX at hXX ⊢
  refine Ok_forRange (fun i (s : Nat × List Int × List Int × List T) =>
    COut (r1 - r0) JJ XX i R (s.1 : Int) s.2.1 s.2.2.1 s.2.2.2) (by omega) ?_ ?_ ?_
  · exact COut.init (resize_length _ _ _) rfl rfl
  · rintro i ⟨kk, bp, bj, bx⟩ - hi h
    simp only at h
    have hlt : r0 + i < n := by omega
    have hmono := flat_length_mono R (show i + 1 ≤ r1 - r0 by omega)
    rw [flat_length_succ] at hmono
    wp
    rds [ha.ptr (r0 + i) (by omega), ha.ptr_succ hlt]
    refine Ok_forRow ha hlt (fun pre (s : Nat × List Int × List T) =>
      Emit JJ XX (flat R i ++ cutRow pre c0 c1) (s.1 : Int) s.2.1 s.2.2) ?_ ?_ ?_
    · simpa [cutRow] using h.emit
    · rintro p e q ⟨kn, dj, dx⟩ hE hP hj hx
      simp only at hP
      wp
      rds [hj]
      have hRl : (R i).length = (cutRow p c0 c1).length + (cutRow [e] c0 c1).length + (cutRow q c0 c1).length := by
        show (cutRow (RA (r0 + i)) c0 c1).length = _
        rw [hE, show p ++ e :: q = p ++ [e] ++ q by simp, cutRow_append, cutRow_append]
        simp only [List.length_append]
      rw [cutRow_append]
      rw [cutRow_one] at hRl ⊢
      rw [Ok_ite]
      have hkn := hP.nnz
      rw [List.length_append] at hkn
      have hlj := hP.lenj
      have hlx := hP.lenx
      constructor
      · rintro ⟨h1, h2⟩
        rw [if_pos ⟨h1, h2⟩] at hRl ⊢
        simp only [List.length_singleton] at hRl
        wp
        rds [hj, hx]
        have hem := hP.emit (e := (e.1 - c0, e.2)) (by rw [List.length_append]; omega) (by rw [List.length_append]; omega)
        refine ⟨⟨by omega, by omega⟩, by omega, by omega, _, rfl, ?_⟩
        simpa [List.append_assoc] using hem
      · intro h'
        rw [if_neg (fun h1 => h' ⟨h1.1, h1.2⟩), List.append_nil]
        wp
        exact ⟨_, rfl, hP⟩
    · rintro ⟨kn, dj, dx⟩ hP
      simp only at hP
      have hP' : Emit JJ XX (flat R i ++ R i) (kn : Int) dj dx := hP
      obtain ⟨w1, w2⟩ := h.step hi hP'
      have hkn := hP'.nnz
      rw [List.length_append] at hkn
      wp
      exact ⟨by omega, w1, _, rfl, w2⟩
  · rintro ⟨kk, bp, bj, bx⟩ h
    obtain ⟨h1, h2, h3, -⟩ := h.rep
    exact ⟨h1, h2.trans hJJ, h3.trans hXX, hNle⟩

end
end Sparse

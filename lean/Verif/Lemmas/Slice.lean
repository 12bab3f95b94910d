import Verif.Lemmas.Select
import Verif.Lemmas.Fail
/-! Row slicing, column indexing and diagonal counting kernels. -/
namespace Sparse

section
variable {T : Type}

theorem Rep.slice_j {p j : List Int} {x : List T} {n : Nat} {R : Nat → List (Int × T)} (h : Rep p j x n R) {i : Nat}
    (hi : i < n) : (j.drop (flat R i).length).take (R i).length = (R i).map (·.1) := by
  apply List.ext_getElem?
  intro k
  by_cases hk : k < (R i).length
  · rw [List.getElem?_take_of_lt hk, List.getElem?_drop, List.getElem?_map, List.getElem?_eq_getElem hk]
    exact (h.get hi (List.getElem?_eq_getElem hk)).1
  · rw [List.getElem?_take_eq_none (by omega), List.getElem?_eq_none (by simpa using hk)]

theorem Rep.slice_x {p j : List Int} {x : List T} {n : Nat} {R : Nat → List (Int × T)} (h : Rep p j x n R) {i : Nat}
    (hi : i < n) : (x.drop (flat R i).length).take (R i).length = (R i).map (·.2) := by
  apply List.ext_getElem?
  intro k
  by_cases hk : k < (R i).length
  · rw [List.getElem?_take_of_lt hk, List.getElem?_drop, List.getElem?_map, List.getElem?_eq_getElem hk]
    exact (h.get hi (List.getElem?_eq_getElem hk)).2
  · rw [List.getElem?_take_eq_none (by omega), List.getElem?_eq_none (by simpa using hk)]

theorem csr_row_index_ok {n : Nat} {ap aj bj0 : List Int} {ax bx0 : List T} {RA : Nat → List (Int × T)}
    (ha : Rep ap aj ax n RA) {rows : List Nat} (hr : ∀ r ∈ rows, r < n) :
    csr_row_index rows.length rows ap aj ax bj0 bx0 =
      .ok (bj0 ++ (rows.flatMap RA).map (·.1), bx0 ++ (rows.flatMap RA).map (·.2)) := by
  suffices h : Ok (csr_row_index rows.length rows ap aj ax bj0 bx0) fun q =>
      q = (bj0 ++ (rows.flatMap RA).map (·.1), bx0 ++ (rows.flatMap RA).map (·.2)) by
    obtain ⟨r, h1, h2⟩ := h; rw [h1, h2]
  unfold csr_row_index
  wp
  refine Ok_forOff (E := rows) (by simp) (fun pre (s : List Int × List T) =>
    s = (bj0 ++ (pre.flatMap RA).map (·.1), bx0 ++ (pre.flatMap RA).map (·.2))) (by simp) ?_ ?_
  · rintro pre r suf s hE rfl
    have hlt := hr r (by rw [hE]; simp)
    have hrr : rows[0 + pre.length]? = some r := by rw [hE]; simp
    have hlj := ha.len_j
    have hlx := ha.len_x
    have hm := flat_length_mono RA (show r + 1 ≤ n by omega)
    rw [flat_length_succ] at hm
    wp
    rds [hrr, ha.ptr r (by omega), ha.ptr_succ hlt]
    rw [show (flat RA r).length + (RA r).length - (flat RA r).length = (RA r).length by omega, ha.slice_j hlt, ha.slice_x hlt]
    refine ⟨⟨by omega, by omega⟩, ⟨by omega, by omega⟩, _, rfl, ?_⟩
    simp
  · rintro s rfl
    trivial

/-- the rows visited by `csr_row_slice` below `b` -/
def sliceRows (start step b : Nat) : List Nat := (List.range b).filter fun r => decide (start ≤ r ∧ step ∣ r - start)

theorem sliceRows_le {start step b : Nat} (h : b ≤ start) : sliceRows start step b = [] := by
  unfold sliceRows
  rw [List.filter_eq_nil_iff]
  intro r hr
  simp only [List.mem_range] at hr
  simp only [decide_eq_true_eq]
  omega

theorem sliceRows_step {start step k a b : Nat} (hs : 0 < step) (ha : a = start + step * k) (hab : a < b) (hb : b ≤ a + step) :
    sliceRows start step b = sliceRows start step a ++ [a] := by
  obtain ⟨d, rfl⟩ : ∃ d, b = a + 1 + d := ⟨b - a - 1, by omega⟩
  induction d with
  | zero =>
    unfold sliceRows
    rw [Nat.add_zero, List.range_succ, List.filter_append]
    congr 1
    rw [List.filter_cons, if_pos]
    · rfl
    · simp only [decide_eq_true_eq]
      exact ⟨by omega, ⟨k, by omega⟩⟩
  | succ d ih =>
    rw [← ih (by omega) (by omega)]
    unfold sliceRows
    rw [← Nat.add_assoc, List.range_succ, List.filter_append, List.filter_cons, if_neg]
    · simp
    · simp only [decide_eq_true_eq]
      rintro ⟨-, h⟩
      have : step ∣ d + 1 := by
        have h2 : a + 1 + d - start = step * k + (d + 1) := by omega
        rw [h2] at h
        exact (Nat.dvd_add_right ⟨k, rfl⟩).1 h
      have := Nat.le_of_dvd (by omega) this
      omega

theorem csr_row_slice_ok {n : Nat} {ap aj bj0 : List Int} {ax bx0 : List T} {RA : Nat → List (Int × T)}
    (ha : Rep ap aj ax n RA) {fuel start stop step : Nat} (hs : 0 < step) (hn : stop ≤ n) (hf : stop - start < fuel) :
    csr_row_slice fuel start stop step ap aj ax bj0 bx0 =
      .ok (bj0 ++ ((sliceRows start step stop).flatMap RA).map (·.1), bx0 ++ ((sliceRows start step stop).flatMap RA).map (·.2)) := by
  suffices h : Ok (csr_row_slice fuel start stop step ap aj ax bj0 bx0) fun q =>
      q = (bj0 ++ ((sliceRows start step stop).flatMap RA).map (·.1), bx0 ++ ((sliceRows start step stop).flatMap RA).map (·.2)) by
    obtain ⟨r, h1, h2⟩ := h; rw [h1, h2]
  unfold csr_row_slice
  rw [if_pos hs]
  wp
  refine Ok_while (fun (s : Nat × List Int × List T) => (∃ k, s.1 = start + step * k) ∧
    s.2 = (bj0 ++ ((sliceRows start step (min s.1 stop)).flatMap RA).map (·.1),
      bx0 ++ ((sliceRows start step (min s.1 stop)).flatMap RA).map (·.2))) (fun s => stop - s.1) hf
    ⟨⟨0, by simp⟩, by simp [sliceRows_le]⟩ ?_
  rintro ⟨row, bj, bx⟩ ⟨⟨k, hk⟩, h⟩
  simp only at h hk
  rw [Prod.mk.injEq] at h
  obtain ⟨rfl, rfl⟩ := h
  simp only
  rw [Ok_ite]
  constructor
  · intro hlt
    have hlt' : row < n := by omega
    have hlj := ha.len_j
    have hlx := ha.len_x
    have hm := flat_length_mono RA (show row + 1 ≤ n by omega)
    rw [flat_length_succ] at hm
    wp
    rds [ha.ptr row (by omega), ha.ptr_succ hlt']
    rw [show (flat RA row).length + (RA row).length - (flat RA row).length = (RA row).length by omega, ha.slice_j hlt', ha.slice_x hlt']
    refine ⟨⟨by omega, by omega⟩, ⟨by omega, by omega⟩, ⟨⟨k + 1, by rw [hk, Nat.mul_succ]; omega⟩, ?_⟩, by omega⟩
    rw [Nat.min_eq_left (by omega : row ≤ stop), sliceRows_step (b := min (row + step) stop) hs hk (by omega) (by omega)]
    simp
  · intro hlt
    wp
    rw [Nat.min_eq_right (by omega)]

theorem csr_row_slice_zero {ap aj bj0 : List Int} {ax bx0 : List T} {fuel start stop : Nat} (h : start ≤ stop) :
    csr_row_slice (fuel + 1) start stop 0 ap aj ax bj0 bx0 = .ok (bj0, bx0) := by
  unfold csr_row_slice
  rw [if_neg (by omega)]
  simp only [whileM, if_neg (show ¬ start > stop by omega)]
  rfl

/-- a loop that can always go on never finishes, whatever the fuel -/
theorem while_forever {σ : Type} {step : σ → M (ForInStep σ)} (P : σ → Prop)
    (hs : ∀ s, P s → Ok (step s) (fun st => ∃ s', st = .yield s' ∧ P s')) (fuel : Nat) {s : σ} (h0 : P s) :
    whileM fuel s step = .error (.panic .fuel) := by
  induction fuel generalizing s with
  | zero => rfl
  | succ f ih =>
    obtain ⟨st, h1, s', rfl, h2⟩ := hs s h0
    unfold whileM
    rw [h1]
    exact ih h2

theorem csr_row_slice_loop {n : Nat} {ap aj bj0 : List Int} {ax bx0 : List T} {RA : Nat → List (Int × T)}
    (ha : Rep ap aj ax n RA) {start stop : Nat} (hn : start < n) (h : stop < start) (fuel : Nat) :
    csr_row_slice fuel start stop 0 ap aj ax bj0 bx0 = .error (.panic .fuel) := by
  have hlj := ha.len_j
  have hlx := ha.len_x
  have hm := flat_length_mono RA (show start + 1 ≤ n by omega)
  rw [flat_length_succ] at hm
  unfold csr_row_slice
  rw [if_neg (by omega), while_forever (fun s => s.1 = start) ?_ fuel rfl]
  · rfl
  · rintro ⟨row, bj, bx⟩ rfl
    simp only at hm ⊢
    rw [if_pos h]
    wp
    rds [ha.ptr row (by omega), ha.ptr_succ hn]
    exact ⟨⟨by omega, by omega⟩, ⟨by omega, by omega⟩, _, rfl, by simp⟩

/-! ### column indexing -/

/-- the part of a row's output contributed by its entries: `F j` lists the output positions of column `j` -/
def spread (F : Nat → List Int) (r : List (Int × T)) : List (Int × T) :=
  r.flatMap fun e => (F e.1.toNat).map fun c => (c, e.2)

theorem spread_append (F : Nat → List Int) (r s : List (Int × T)) : spread F (r ++ s) = spread F r ++ spread F s := by
  simp [spread]

theorem spread_one (F : Nat → List Int) (e : Int × T) : spread F [e] = (F e.1.toNat).map fun c => (c, e.2) := by
  simp [spread]

theorem flat_spread (F : Nat → List Int) (R : Nat → List (Int × T)) (n : Nat) :
    flat (fun i => spread F (R i)) n = spread F (flat R n) := by
  induction n with
  | zero => simp [spread]
  | succ n ih => rw [flat_succ, flat_succ, spread_append, ih]

theorem csr_column_index1_ok {t : IntTy} {n nc : Nat} {ap aj bp0 : List Int} {ax : List T} {RA : Nat → List (Int × T)}
    (ha : Rep ap aj ax n RA) (hma : ∀ i < n, ∀ e ∈ RA i, 0 ≤ e.1 ∧ e.1 < nc) {idx : List Nat} (hidx : ∀ j ∈ idx, j < nc)
    {F : Nat → List Int} (hF : ∀ j < nc, (F j).length = idx.count j) (hFn : (flat F nc).length = idx.length)
    (hbp : bp0.length = n + 1) (hn : (idx.length : Int) ≤ t.hi)
    (hfit : ((flat (fun i => spread F (RA i)) n).length : Int) ≤ t.hi) :
    Ok (csr_column_index1 t idx.length idx n nc ap aj (List.replicate nc 0) bp0) fun q =>
      (∀ j < nc, q.1[j]? = some ((flat F (j + 1)).length : Int)) ∧
      q.2.length = n + 1 ∧ ∀ k ≤ n, q.2[k]? = some ((flat (fun i => spread F (RA i)) k).length : Int) := by
  have hlo := t.lo_nonpos
  unfold csr_column_index1
  wp
  refine Ok_forOff (E := idx) (by simp) (fun pre (s : List Int) => s.length = nc ∧
    ∀ j < nc, s[j]? = some ((pre.count j : Nat) : Int)) ⟨by simp, fun j hj => by simp [hj]⟩ ?_ ?_
  · rintro pre j suf s hE ⟨h1, h2⟩
    have hlt := hidx j (by rw [hE]; simp)
    have hj : idx[0 + pre.length]? = some j := by rw [hE]; simp
    have hc : pre.count j + 1 ≤ idx.length := by
      have h3 := List.count_le_length (a := j) (l := pre)
      rw [hE, List.length_append, List.length_cons]
      omega
    wp
    rds [hj, h2 j hlt]
    refine ⟨⟨by omega, by omega⟩, by omega, _, rfl, by simp [h1], ?_⟩
    intro q hq
    by_cases e : j = q
    · subst e
      rw [set_get_eq (by omega)]
      simp
    · rw [set_get_ne e, h2 q hq]
      simp [List.count_append, List.count_cons, e]
  · rintro co ⟨h1, h2⟩
    refine ⟨by omega, ?_⟩
    refine Ok_forRange (fun i (s : Int × List Int) => s.1 = ((flat (fun i => spread F (RA i)) i).length : Int) ∧
      s.2.length = n + 1 ∧ ∀ k ≤ i, s.2[k]? = some ((flat (fun i => spread F (RA i)) k).length : Int)) (by omega) ?_ ?_ ?_
    · refine ⟨by simp, by simp [hbp], ?_⟩
      intro k hk
      have : k = 0 := by omega
      subst this
      rw [set_get_eq (by omega)]
      simp
    · rintro i ⟨nn, bp⟩ - hi ⟨g1, g2, g3⟩
      simp only at g1 g2 g3
      subst g1
      have hmono := flat_length_mono (fun i => spread F (RA i)) (show i + 1 ≤ n by omega)
      rw [flat_length_succ] at hmono
      wp
      rds [ha.ptr i (by omega), ha.ptr_succ hi]
      refine Ok_forRow ha hi (fun pre (s : Int) => s = ((flat (fun i => spread F (RA i)) i).length : Int) + ((spread F pre).length : Int))
        (by simp [spread]) ?_ ?_
      · rintro p e q s hE rfl hj hx
        have he := hma i hi e (by rw [hE]; simp)
        have hlen : (spread F (RA i)).length = (spread F p).length + (F e.1.toNat).length + (spread F q).length := by
          rw [hE, show p ++ e :: q = p ++ [e] ++ q by simp, spread_append, spread_append, spread_one]
          simp only [List.length_append, List.length_map]
        wp
        rds [hj, he.1, h2 e.1.toNat (by omega)]
        rw [← hF _ (by omega)]
        refine ⟨⟨by omega, by omega⟩, _, rfl, ?_⟩
        rw [spread_append, spread_one, List.length_append, List.length_map]
        push_cast
        omega
      · rintro s rfl
        refine ⟨by omega, _, rfl, ?_, by simp [g2], ?_⟩
        · simp only [flat_length_succ]; push_cast; omega
        · intro k hk
          simp only
          by_cases e : i + 1 = k
          · subst e
            rw [set_get_eq (by omega), flat_length_succ]
            push_cast
            rfl
          · rw [set_get_ne e, g3 k (by omega)]
    · rintro ⟨nn, bp⟩ ⟨g1, g2, g3⟩
      simp only at g1 g2 g3
      by_cases hnc : 1 ≤ nc
      · refine Ok_forRange (fun i (s : List Int) => s.length = nc ∧ (∀ j < i, s[j]? = some ((flat F (j + 1)).length : Int)) ∧
          ∀ j < nc, i ≤ j → s[j]? = some ((F j).length : Int)) hnc ?_ ?_ ?_
        · refine ⟨h1, ?_, ?_⟩
          · intro j hj
            have : j = 0 := by omega
            subst this
            rw [h2 0 (by omega), flat_length_succ, hF 0 (by omega)]
            simp
          · intro j hj _
            rw [h2 j hj, hF j hj]
        · rintro i s hi1 hi ⟨k1, k2, k3⟩
          have hmono := flat_length_mono F (show i + 1 ≤ nc by omega)
          rw [flat_length_succ] at hmono
          wp
          rds [k3 i hi (le_refl _), k2 (i - 1) (by omega)]
          rw [show i - 1 + 1 = i by omega]
          refine ⟨hi1, ⟨by omega, by omega⟩, by omega, _, rfl, by simp [k1], ?_, ?_⟩
          · intro j hj
            by_cases e : i = j
            · subst e
              rw [set_get_eq (by omega), flat_length_succ]
              push_cast
              rw [Int.add_comm]
            · rw [set_get_ne e, k2 j (by omega)]
          · intro j hj hij
            rw [set_get_ne (by omega), k3 j hj (by omega)]
        · rintro s ⟨k1, k2, k3⟩
          exact ⟨k2, g2, g3⟩
      · have : nc = 0 := by omega
        subst this
        simp only [rng, List.range'_zero, Nat.zero_sub, List.forIn_nil]
        wp
        exact ⟨by omega, g2, g3⟩

theorem csr_column_index2_ok {nc N : Nat} {lj : List Int} {lx : List T} {aj order offs bj0 : List Int} {ax bx0 : List T} {E : List (Int × T)}
    (hpre : E <+: aj.zip ax) (hma : ∀ e ∈ E, 0 ≤ e.1 ∧ e.1 < nc) {F : Nat → List Int}
    (hoff : ∀ j < nc, offs[j]? = some ((flat F (j + 1)).length : Int)) (hord : flat F nc <+: order)
    (hN : N = (spread F E).length) (hj : N ≤ lj.length) (hx : N ≤ lx.length) (hlj : bj0 = lj) (hlx : bx0 = lx) :
    Ok (csr_column_index2 order offs E.length aj ax bj0 bx0) fun q =>
      spread F E <+: q.1.zip q.2 ∧ q.1.length = lj.length ∧ q.2.length = lx.length := by
  unfold csr_column_index2
  wp
  refine Ok_forOff (E := E) (by simp) (fun pre (s : List Int × List T × Nat) => Emit lj lx (spread F pre) (s.2.2 : Int) s.1 s.2.1)
    (by subst hlj hlx; simpa [spread] using Emit.init bj0 bx0) ?_ ?_
  · rintro p e q ⟨bj, bx, n⟩ hE h
    simp only at h
    have he := hma e (by rw [hE]; simp)
    have hget : E[p.length]? = some e := by rw [hE]; simp
    have hz := isPrefix_iff_get.1 hpre _ _ hget
    rw [zip_get] at hz
    obtain ⟨hzj, hzx⟩ := hz
    have hlt : e.1.toNat < nc := by omega
    have hlen : (spread F E).length = (spread F p).length + (F e.1.toNat).length + (spread F q).length := by
      rw [hE, show p ++ e :: q = p ++ [e] ++ q by simp, spread_append, spread_append, spread_one]
      simp only [List.length_append, List.length_map]
    have hoffe := hoff _ hlt
    rw [Nat.zero_add]
    wp
    rds [hzj, he.1, hoffe]
    have key : ∀ po, po = (flat F e.1.toNat).length → Ok (if (flat F (e.1.toNat + 1)).length ≠ po then do
          let v ← ax.rd p.length
          let __s ← forIn (rng po (flat F (e.1.toNat + 1)).length) (bj, bx, n) fun k (__s : List Int × List T × Nat) => do
                let __do_lift ← order.rd k
                let b_j ← __s.1.wr __s.2.2 __do_lift
                let b_x ← __s.2.1.wr __s.2.2 v
                pure (ForInStep.yield (b_j, b_x, __s.2.2 + 1))
          pure (ForInStep.yield (__s.1, __s.2.1, __s.2.2))
        else pure (ForInStep.yield (bj, bx, n)) : M (ForInStep (List Int × List T × Nat)))
        fun st => ∃ s', st = ForInStep.yield s' ∧ Emit lj lx (spread F (p ++ [e])) (s'.2.2 : Int) s'.1 s'.2.1 := by
      rintro po rfl
      rw [flat_length_succ, spread_append, spread_one]
      rw [Ok_ite]
      constructor
      · intro _
        wp
        rds [hzx]
        refine Ok_forOff (E := F e.1.toNat) rfl (fun pre (s : List Int × List T × Nat) =>
          Emit lj lx (spread F p ++ pre.map fun c => (c, e.2)) (s.2.2 : Int) s.1 s.2.1) (by simpa using h) ?_ ?_
        · rintro p2 c q2 ⟨dj, dx, kn⟩ hE2 hP
          simp only at hP
          have hF2 : (F e.1.toNat)[p2.length]? = some c := by rw [hE2]; simp
          have ho := isPrefix_iff_get.1 hord _ _ (flat_getElem? hlt hF2)
          have hl2 : (F e.1.toNat).length = p2.length + 1 + q2.length := by
            rw [hE2, List.length_append, List.length_cons]; omega
          have hkn := hP.nnz
          rw [List.length_append, List.length_map] at hkn
          have hdj := hP.lenj
          have hdx := hP.lenx
          wp
          rds [ho]
          have hem := hP.emit (e := (c, e.2)) (by rw [List.length_append, List.length_map]; omega)
            (by rw [List.length_append, List.length_map]; omega)
          refine ⟨by omega, by omega, _, rfl, ?_⟩
          simpa [List.append_assoc] using hem
        · rintro ⟨dj, dx, kn⟩ hP
          exact ⟨_, rfl, hP⟩
      · intro h0
        have : (F e.1.toNat).length = 0 := by omega
        rw [List.length_eq_zero_iff.1 this]
        wp
        exact ⟨_, rfl, by simpa using h⟩
    rw [Ok_ite]
    constructor
    · intro h0
      exact key 0 (by rw [h0]; simp)
    · intro h0
      have hp := hoff (e.1.toNat - 1) (by omega)
      rw [show e.1.toNat - 1 + 1 = e.1.toNat by omega] at hp
      rw [Ok_bind, Ok_rd]
      rds [hp]
      rw [Ok_bind, Ok_toUsize]
      refine ⟨by omega, key _ (by simp)⟩
  · rintro ⟨bj, bx, n⟩ h
    exact ⟨h.pre, h.lenj, h.lenx⟩

/-- in a list sorted by `key`, the elements with key below `n`, grouped by key -/
theorem sorted_groups {α : Type} {key : α → Nat} {L : List α} (h : L.Pairwise fun a b => key a ≤ key b) (n : Nat) :
    L.filter (fun a => decide (key a < n)) = flat (fun j => L.filter fun a => decide (key a = j)) n := by
  induction n with
  | zero => simp
  | succ n ih =>
    rw [flat_succ, ← ih]
    clear ih
    induction L with
    | nil => simp
    | cons a L ih =>
      obtain ⟨h1, h2⟩ := List.pairwise_cons.1 h
      have hi := ih h2
      rcases Nat.lt_trichotomy (key a) n with hk | hk | hk
      · simp only [List.filter_cons, decide_eq_true_eq, if_pos hk, if_pos (show key a < n + 1 by omega), if_neg (show ¬ key a = n by omega)]
        rw [hi]
        rfl
      · have : L.filter (fun a => decide (key a < n)) = [] := by
          rw [List.filter_eq_nil_iff]
          intro b hb
          have := h1 b hb
          simp only [decide_eq_true_eq]
          omega
        rw [this, List.nil_append] at hi
        simp only [List.filter_cons, decide_eq_true_eq, if_neg (show ¬ key a < n by omega), if_pos (show key a < n + 1 by omega), if_pos hk]
        rw [this, hi]
        rfl
      · have e1 : ∀ m, m ≤ n + 1 → L.filter (fun a => decide (key a < m)) = [] := by
          intro m hm
          rw [List.filter_eq_nil_iff]
          intro b hb
          have := h1 b hb
          simp only [decide_eq_true_eq]
          omega
        have e2 : L.filter (fun a => decide (key a = n)) = [] := by
          rw [List.filter_eq_nil_iff]
          intro b hb
          have := h1 b hb
          simp only [decide_eq_true_eq]
          omega
        simp only [List.filter_cons, decide_eq_true_eq, if_neg (show ¬ key a < n by omega), if_neg (show ¬ key a < n + 1 by omega), if_neg (show ¬ key a = n by omega)]
        rw [e1 _ (le_refl _), e1 n (by omega), e2]
        rfl

/-- `csr_count_diagonals` on a matrix without entries below the diagonal -/
theorem csr_count_diagonals_ok {n : Nat} {ap aj : List Int} {ax : List T} {RA : Nat → List (Int × T)}
    (ha : Rep ap aj ax n RA) (hma : ∀ i < n, ∀ e ∈ RA i, (i : Int) ≤ e.1) :
    csr_count_diagonals n ap aj =
      .ok ((flat (fun i => (RA i).map fun e => e.1 - (i : Int)) n).toFinset.card) := by
  suffices h : Ok (csr_count_diagonals n ap aj) fun q =>
      q = (flat (fun i => (RA i).map fun e => e.1 - (i : Int)) n).toFinset.card by
    obtain ⟨r, h1, h2⟩ := h; rw [h1, h2]
  unfold csr_count_diagonals
  wp
  refine Ok_forRange (fun i (s : List Nat) => s.Nodup ∧ ∀ d : Nat, d ∈ s ↔ (d : Int) ∈ flat (fun i => (RA i).map fun e => e.1 - (i : Int)) i)
    (by omega) (by simp) ?_ ?_
  · rintro i s - hi ⟨h1, h2⟩
    wp
    rds [ha.ptr i (by omega), ha.ptr_succ hi]
    refine Ok_forRow ha hi (fun pre (s : List Nat) => s.Nodup ∧ ∀ d : Nat, d ∈ s ↔
      (d : Int) ∈ flat (fun i => (RA i).map fun e => e.1 - (i : Int)) i ∨ (d : Int) ∈ pre.map fun e => e.1 - (i : Int)) ⟨h1, by simpa using h2⟩ ?_ ?_
    · rintro p e q s hE ⟨g1, g2⟩ hj hx
      have he := hma i hi e (by rw [hE]; simp)
      wp
      rds [hj]
      refine ⟨by omega, by omega, _, rfl, g1.insert, ?_⟩
      intro d
      rw [List.mem_insert_iff, g2 d]
      simp only [List.map_append, List.map_cons, List.map_nil, List.mem_append, List.mem_singleton]
      constructor
      · rintro (rfl | h | h)
        · exact Or.inr (Or.inr (by omega))
        · exact Or.inl h
        · exact Or.inr (Or.inl h)
      · rintro (h | h | h)
        · exact Or.inr (Or.inl h)
        · exact Or.inr (Or.inr h)
        · exact Or.inl (by omega)
    · rintro s ⟨g1, g2⟩
      refine ⟨_, rfl, g1, ?_⟩
      intro d
      rw [g2 d, flat_succ, List.mem_append]
  · rintro s ⟨h1, h2⟩
    rw [← List.toFinset_card_of_nodup h1]
    refine Finset.card_bij (fun d _ => (d : Int)) ?_ ?_ ?_
    · intro d hd
      simp only [List.mem_toFinset] at hd ⊢
      exact (h2 d).1 hd
    · intro a _ b _ h
      exact Int.natCast_inj.1 h
    · intro z hz
      simp only [List.mem_toFinset] at hz
      have h0 : 0 ≤ z := by
        obtain ⟨i, hi, hz⟩ := mem_flat.1 hz
        obtain ⟨e, he, rfl⟩ := List.mem_map.1 hz
        have := hma i hi e he
        omega
      obtain ⟨d, rfl⟩ := Int.eq_ofNat_of_zero_le h0
      exact ⟨d, by simpa using (h2 d).2 hz, rfl⟩

/-- and with an entry below the diagonal -/
theorem csr_count_diagonals_below {n : Nat} {ap aj : List Int} {ax : List T} {RA : Nat → List (Int × T)}
    (ha : Rep ap aj ax n RA) (hma : ∀ i < n, ∀ e ∈ RA i, 0 ≤ e.1) {i0 : Nat} (hi0 : i0 < n) {e0 : Int × T} (he0 : e0 ∈ RA i0)
    (hlt : e0.1 < (i0 : Int)) : csr_count_diagonals n ap aj = .error (.panic .arith) := by
  obtain ⟨m, hm⟩ := List.getElem?_of_mem he0
  have hml : m < (RA i0).length := by
    by_contra h
    rw [List.getElem?_eq_none (by omega)] at hm
    simp at hm
  suffices hw : WP (csr_count_diagonals n ap aj) (fun _ => False) (fun e => e = .panic .arith) from hw.fails_eq
  unfold csr_count_diagonals
  wpe
  refine WP_forRange (fun i _ => i ≤ i0) (fun _ => False) (by omega) (by omega) ?_ (by simp) (by intro s h; omega)
  intro i s _ hi hP
  wpe
  rw [ha.ptr i (by omega), ha.ptr_succ hi]
  refine ⟨?_, by simp⟩
  intro v hv
  obtain rfl := Option.some.inj hv
  refine ⟨fun _ => ?_, by omega⟩
  refine ⟨?_, by simp⟩
  intro v hv
  obtain rfl := Option.some.inj hv
  refine ⟨fun _ => ?_, by omega⟩
  simp only [Int.toNat_natCast]
  have hto : ((flat RA i).length + (RA i).length : Int).toNat = (flat RA i).length + (RA i).length := by omega
  refine WP_forRange (fun jj _ => i = i0 → jj ≤ (flat RA i0).length + m) (fun _ => False) (by omega) (by rintro rfl; omega)
    ?_ (by simp) ?_
  · intro jj s h1 h2 h3
    obtain ⟨q, rfl⟩ : ∃ q, jj = (flat RA i).length + q := ⟨jj - (flat RA i).length, by omega⟩
    have hq : q < (RA i).length := by omega
    have hg := ha.get hi (List.getElem?_eq_getElem hq)
    have hpos := hma i hi _ (List.getElem_mem hq)
    wpe
    rw [hg.1]
    refine ⟨?_, by simp⟩
    intro v hv
    obtain rfl := Option.some.inj hv
    refine ⟨fun _ => ?_, fun h => absurd hpos h⟩
    refine ⟨?_, fun _ => trivial⟩
    rintro hle rfl
    have := h3 rfl
    rcases Nat.lt_or_ge q m with h | h
    · omega
    · have : q = m := by omega
      subst this
      rw [List.getElem?_eq_getElem hq] at hm
      rw [Option.some.inj hm] at hle
      have := hma i hi e0 he0
      omega
  · intro s h
    have : i ≠ i0 := by
      rintro rfl
      have := h rfl
      omega
    omega

end
end Sparse

import Verif.Props.Dok
import Verif.Props.Build
import Verif.Props.Blocks
import Verif.Props.FromDense
import Verif.Props.Powers
/-!
C107: assembling a matrix in a dictionary of keys and as a list of triplets.
-/
namespace Sparse

section
variable {T : Type}

/-- the sum of the values that the triplets `es` give for position `(i, j)` -/
def gathered [AddCommMonoid T] (es : List (Int × Int × T)) (i j : Int) : T :=
  ((es.filter fun e => decide (e.1 = i ∧ e.2.1 = j)).map (·.2.2)).sum

theorem gathered_cons [AddCommMonoid T] (e : Int × Int × T) (es : List (Int × Int × T)) (i j : Int) :
    gathered (e :: es) i j = (if e.1 = i ∧ e.2.1 = j then e.2.2 else 0) + gathered es i j := by
  unfold gathered
  rw [List.filter_cons]
  by_cases h : e.1 = i ∧ e.2.1 = j
  · rw [if_pos (by simpa using h), if_pos h]; simp
  · rw [if_neg (by simpa using h), if_neg h]; simp

theorem gathered_perm [AddCommMonoid T] {es es' : List (Int × Int × T)} (h : es.Perm es') (i j : Int) :
    gathered es i j = gathered es' i j := ((h.filter _).map _).sum_eq

theorem dok_fold_add [AddCommMonoid T] [Sub T] (n m : Nat) (es : List (Int × Int × T))
    (hin : ∀ e ∈ es, inDims n m (e.1, e.2.1)) (f : Int → Int → T) (i j : Int) :
    (es.map fun e => DoKOp.add e.1 e.2.1 e.2.2).foldl (DoKOp.onArray n m) f i j = f i j + gathered es i j := by
  induction es generalizing f with
  | nil => simp [gathered]
  | cons e es ih =>
    rw [List.map_cons, List.foldl_cons, ih (fun x hx => hin x (by simp [hx])), gathered_cons, ← add_assoc]
    congr 1
    unfold DoKOp.onArray
    by_cases h : e.1 = i ∧ e.2.1 = j
    · obtain ⟨rfl, rfl⟩ := h
      rw [if_pos ⟨hin e (by simp), rfl⟩, if_pos ⟨rfl, rfl⟩]; rfl
    · rw [if_neg (by
        rintro ⟨-, h2⟩
        have h2 : (i, j) = (e.1, e.2.1) := h2
        rw [Prod.mk.injEq] at h2
        exact h ⟨h2.1.symm, h2.2.symm⟩), if_neg h, add_zero]

theorem dok_fold_sub [AddCommGroup T] (n m : Nat) (es : List (Int × Int × T))
    (hin : ∀ e ∈ es, inDims n m (e.1, e.2.1)) (f : Int → Int → T) (i j : Int) :
    (es.map fun e => DoKOp.sub e.1 e.2.1 e.2.2).foldl (DoKOp.onArray n m) f i j = f i j - gathered es i j := by
  induction es generalizing f with
  | nil => simp [gathered]
  | cons e es ih =>
    rw [List.map_cons, List.foldl_cons, ih (fun x hx => hin x (by simp [hx])), gathered_cons, ← sub_sub]
    congr 1
    unfold DoKOp.onArray
    by_cases h : e.1 = i ∧ e.2.1 = j
    · obtain ⟨rfl, rfl⟩ := h
      rw [if_pos ⟨hin e (by simp), rfl⟩, if_pos ⟨rfl, rfl⟩]; rfl
    · rw [if_neg (by
        rintro ⟨-, h2⟩
        have h2 : (i, j) = (e.1, e.2.1) := h2
        rw [Prod.mk.injEq] at h2
        exact h ⟨h2.1.symm, h2.2.symm⟩), if_neg h, sub_zero]

/-- C107. What `get` reports decides what a dictionary stores: two dictionaries of the same shape, whatever their histories,
that report the same elements hold the same entries, and are converted to the same arrays. -/
theorem C107_content [AddCommMonoid T] [Sub T] [DecidableEq T] (t : IntTy) (d d' : DoK T) (hd : d.Reachable t) (hd' : d'.Reachable t)
    (hr : d.rows = d'.rows) (hc : d.cols = d'.cols) (h : ∀ i j, d.get i j = d'.get i j) :
    d.values.Perm d'.values ∧
    ((d.nnz : Int) < t.hi → ∃ r c, ∀ es es' : KMap T, es.Perm d.values → es'.Perm d'.values →
      d.to_csr t es = .ok r ∧ d'.to_csr t es' = .ok r ∧ d.to_csc t es = .ok c ∧ d'.to_csc t es' = .ok c) := by
  have mem : ∀ {d : DoK T}, d.Reachable t → ∀ e, e ∈ d.values ↔ d.get e.1.1 e.1.2 = e.2 ∧ e.2 ≠ 0 := by
    intro d hd e
    constructor
    · intro he
      refine ⟨?_, hd.inv.ne e he⟩
      unfold DoK.get
      rw [show (e.1.1, e.1.2) = e.1 from rfl, KMap.get_of_mem hd.inv.nodup he]
    · rintro ⟨h1, h2⟩
      unfold DoK.get at h1
      cases hg : d.values.get (e.1.1, e.1.2) with
      | none => rw [hg] at h1; exact absurd h1.symm h2
      | some v =>
        rw [hg] at h1
        have := KMap.mem_of_get hg
        simp only at h1
        rw [h1] at this
        exact this
  have hp : d.values.Perm d'.values := by
    rw [List.perm_ext_iff_of_nodup hd.inv.nodup.of_map hd'.inv.nodup.of_map]
    intro e
    rw [mem hd, mem hd', h]
  refine ⟨hp, fun hn => ?_⟩
  obtain ⟨r, c, h1, -⟩ := C32_dok_conversions t d hd hn
  refine ⟨r, c, fun es es' he he' => ?_⟩
  obtain ⟨a1, a2, -⟩ := h1 es he
  obtain ⟨b1, b2, -⟩ := h1 es' (he'.trans hp.symm)
  refine ⟨a1, ?_, a2, ?_⟩
  · rw [← b1]; unfold DoK.to_csr DoK.to_coo; rw [hr, hc]
  · rw [← b2]; unfold DoK.to_csc DoK.to_coo; rw [hr, hc]

theorem DoK.nnz_le_positions [AddCommMonoid T] [Sub T] [DecidableEq T] {t : IntTy} {d : DoK T} (hd : d.Reachable t)
    (es : List (Int × Int × T)) (h : ∀ i j, d.get i j = gathered es i j) : d.nnz ≤ es.length := by
  have hsub : (d.values.map (·.1)) ⊆ es.map fun e => (e.1, e.2.1) := by
    intro k hk
    obtain ⟨e, he, rfl⟩ := List.mem_map.1 hk
    by_contra hno
    have h0 : d.get e.1.1 e.1.2 = 0 := by
      rw [h]
      unfold gathered
      rw [List.filter_eq_nil_iff.2]
      · rfl
      · intro x hx hxx
        have hxx : x.1 = e.1.1 ∧ x.2.1 = e.1.2 := by simpa using hxx
        exact hno (List.mem_map.2 ⟨x, hx, Prod.ext hxx.1 hxx.2⟩)
    have h1 : d.get e.1.1 e.1.2 = e.2 := by
      unfold DoK.get
      rw [show (e.1.1, e.1.2) = e.1 from rfl, KMap.get_of_mem hd.inv.nodup he]
    exact hd.inv.ne e he (h1.symm.trans h0)
  have := (hd.inv.nodup.subperm hsub).length_le
  rw [List.length_map, List.length_map] at this
  exact this

/-- C107. Adding the values of a list of triplets to an empty dictionary, one `add` call each, always succeeds, and the matrix
that `to_csr` and `to_csc` make of it, whatever the enumeration order of the hash map, has the elements of the matrix made of
the triplets by pushing them to a coordinate matrix and converting that: it is what `csr_eliminate_zeros` leaves of it (the
coordinate matrix keeps an entry of the positions whose values cancel, the dictionary does not). -/
theorem C107_assembly [AddCommMonoid T] [Sub T] [DecidableEq T] (t : IntTy) (rows cols : Nat) (hr : (rows : Int) ≤ t.hi)
    (hc : (cols : Int) ≤ t.hi) (es : List (Int × Int × T))
    (hin : ∀ e ∈ es, (0 ≤ e.1 ∧ e.1 < (rows : Int)) ∧ 0 ≤ e.2.1 ∧ e.2.1 < (cols : Int)) (hn : (es.length : Int) < t.hi) :
    ∃ d r c s u p j x, (DoK.new rows cols : DoK T).runAll t (es.map fun e => .add e.1 e.2.1 e.2.2) = .ok (d, es.map fun _ => true) ∧
      (∀ ms : KMap T, ms.Perm d.values → d.to_csr t ms = .ok r ∧ d.to_csc t ms = .ok c ∧ d.to_dense ms = s.to_dense) ∧
      (es.foldl (fun a e => a.push e.1 e.2.1 e.2.2) (Coo.with_size rows cols : Coo T)).to_csr t = .ok s ∧
      (es.foldl (fun a e => a.push e.1 e.2.1 e.2.2) (Coo.with_size rows cols : Coo T)).to_csc t = .ok u ∧
      r.to_dense = s.to_dense ∧ c.to_dense t = u.to_dense t ∧
      csr_eliminate_zeros t s.rows s.rowptr s.colidx s.values = .ok (p, j, x) ∧
      p = r.rowptr ∧ (⟨rows, cols, p, j, x⟩ : CSR T).triples = r.triples := by
  have hin' : ∀ e ∈ es, inDims rows cols (e.1, e.2.1) := fun e he => ⟨(hin e he).1.1, (hin e he).1.2, (hin e he).2.1, (hin e he).2.2⟩
  obtain ⟨d, d1, d2, d3, d4, d5⟩ := C30_dok_updates t (DoK.new rows cols : DoK T) (.new rows cols) hr hc
    (es.map fun e => .add e.1 e.2.1 e.2.2)
  have d3 : d.rows = rows := d3
  have d4 : d.cols = cols := d4
  have hget : ∀ i j, d.get i j = gathered es i j := by
    intro i j
    rw [d5]
    change (es.map fun e => DoKOp.add e.1 e.2.1 e.2.2).foldl (DoKOp.onArray rows cols) (DoK.new rows cols : DoK T).get i j = _
    rw [dok_fold_add _ _ _ hin', C30_dok_new, zero_add]
  have hnn : (d.nnz : Int) < t.hi := by have := DoK.nnz_le_positions d2 es hget; omega
  obtain ⟨r, c, e1, r1, r2, r3, r4, r5, r6, c1, c2, c3, c4, c5, c6⟩ := C32_dok_conversions t d d2 hnn
  have hb := C72_build t rows cols (es.map fun e => CooEdit.push e.1 e.2.1 e.2.2) (by
      intro e he
      obtain ⟨x, -, rfl⟩ := List.mem_map.1 he
      trivial) (by
      intro e he x hx
      obtain ⟨y, hy, rfl⟩ := List.mem_map.1 he
      have hx : x = (y.1, y.2.1, y.2.2) := by simpa [CooEdit.adds] using hx
      subst hx
      have := hin y hy
      simp only
      omega)
  have hfl : (es.map fun e => CooEdit.push e.1 e.2.1 e.2.2).flatMap CooEdit.adds = es := by
    rw [List.flatMap_map]
    simp [CooEdit.adds]
  have hfo : (es.map fun e => CooEdit.push e.1 e.2.1 e.2.2).foldl CooEdit.run (Coo.with_size rows cols : Coo T) =
      es.foldl (fun a e => a.push e.1 e.2.1 e.2.2) (Coo.with_size rows cols : Coo T) := by
    rw [List.foldl_map]; rfl
  have hle : ((es.map fun e => CooEdit.push e.1 e.2.1 e.2.2).map fun e => e.adds.length).sum = es.length := by
    rw [List.map_map, show ((fun e : CooEdit T => e.adds.length) ∘ fun e : Int × Int × T => CooEdit.push e.1 e.2.1 e.2.2) = fun _ => 1 from rfl]
    simp
  simp only [hfl, hfo, hle] at hb
  obtain ⟨-, hb⟩ := hb
  obtain ⟨⟨s, s1, s2, s3, s4, s5, s6⟩, u, u1, u2, u3, u4, u5, u6⟩ := hb hn
  obtain ⟨p, j, x, p1, p2, p3, p4, p5, p6, p7⟩ := C29_eliminate_zeros t s s2
  have hre : ∀ i j, r.entry i j = s.entry i j := fun i j => by rw [r5, hget, s6]; rfl
  have hce : ∀ i j, c.entry i j = u.entry i j := fun i j => by rw [c5, hget, u6]; rfl
  have hdense : r.to_dense = s.to_dense := by
    rw [C06_csr_to_dense t r r1, C06_csr_to_dense t s s2, r3, r4, s4, s5, d3, d4]
    congr 2
    funext i j; exact hre i j
  have hzr : ∀ i < r.rows, ∀ e ∈ r.row i, e.2 ≠ 0 := by
    intro i hi e he
    have hnn := (r6 i e.1).1 ⟨e.2, (CSR.WF.mem_triples r1 hi).1 he⟩
    have hm := r1.mem hi he
    have hj : e.1 = ((e.1.toNat : Nat) : Int) := by omega
    have : r.entry i e.1.toNat = e.2 := CSR.entry_of_mem r1 r2.noDup hi he
    rw [hj, ← r5, this] at hnn
    exact hnn
  have hcan : (⟨s.rows, s.cols, p, j, x⟩ : CSR T).Canonical := by
    intro i hi
    rw [p3 i hi]
    exact (s3 i hi).sublist List.filter_sublist
  obtain ⟨q1, -, q3⟩ := C63_unique t (⟨s.rows, s.cols, p, j, x⟩ : CSR T) r p2 r1 (by simp only; omega) hcan r2 (by
    intro i hi e he
    rw [p3 i hi] at he
    simpa using (List.mem_filter.1 he).2) hzr fun i j => by rw [p4, hre]
  refine ⟨d, r, c, s, u, p, j, x, ?_, ?_, s1, u1, hdense, ?_, p1, q1, ?_⟩
  · rw [d1, List.map_map]
    congr 2
    refine List.map_congr_left fun e he => ?_
    exact decide_eq_true (hin' e he)
  · intro ms hms
    obtain ⟨g1, g2, g3⟩ := e1 ms hms
    refine ⟨g1, g2, ?_⟩
    rw [g3, C06_csr_to_dense t s s2, s4, s5, d3, d4]
    congr 2
    funext i j
    rw [← hre, r5]
  · rw [C06_csc_to_dense t c c1 (by omega), C06_csc_to_dense t u u2 (by omega), c3, c4, u4, u5, d3, d4]
    congr 2
    funext i j; exact hce i j
  · rw [← s4, ← s5]; exact q3

/-- C107. The order of the `add` calls does not matter: any rearrangement of the triplets ends in a dictionary with the same
entries, converted to the same arrays. -/
theorem C107_order [AddCommMonoid T] [Sub T] [DecidableEq T] (t : IntTy) (rows cols : Nat) (hr : (rows : Int) ≤ t.hi)
    (hc : (cols : Int) ≤ t.hi) (es es' : List (Int × Int × T)) (hp : es.Perm es')
    (hin : ∀ e ∈ es, (0 ≤ e.1 ∧ e.1 < (rows : Int)) ∧ 0 ≤ e.2.1 ∧ e.2.1 < (cols : Int)) (hn : (es.length : Int) < t.hi) :
    ∃ d d' o o' r c, (DoK.new rows cols : DoK T).runAll t (es.map fun e => .add e.1 e.2.1 e.2.2) = .ok (d, o) ∧
      (DoK.new rows cols : DoK T).runAll t (es'.map fun e => .add e.1 e.2.1 e.2.2) = .ok (d', o') ∧ d.values.Perm d'.values ∧
      ∀ ms ms' : KMap T, ms.Perm d.values → ms'.Perm d'.values →
        d.to_csr t ms = .ok r ∧ d'.to_csr t ms' = .ok r ∧ d.to_csc t ms = .ok c ∧ d'.to_csc t ms' = .ok c := by
  have run : ∀ es : List (Int × Int × T), (∀ e ∈ es, (0 ≤ e.1 ∧ e.1 < (rows : Int)) ∧ 0 ≤ e.2.1 ∧ e.2.1 < (cols : Int)) →
      ∃ d o, (DoK.new rows cols : DoK T).runAll t (es.map fun e => .add e.1 e.2.1 e.2.2) = .ok (d, o) ∧ d.Reachable t ∧
        d.rows = rows ∧ d.cols = cols ∧ ∀ i j, d.get i j = gathered es i j := by
    intro es hin
    obtain ⟨d, d1, d2, d3, d4, d5⟩ := C30_dok_updates t (DoK.new rows cols : DoK T) (.new rows cols) hr hc
      (es.map fun e => .add e.1 e.2.1 e.2.2)
    refine ⟨d, _, d1, d2, d3, d4, fun i j => ?_⟩
    rw [d5]
    change (es.map fun e => DoKOp.add e.1 e.2.1 e.2.2).foldl (DoKOp.onArray rows cols) (DoK.new rows cols : DoK T).get i j = _
    rw [dok_fold_add _ _ _ (fun e he => ⟨(hin e he).1.1, (hin e he).1.2, (hin e he).2.1, (hin e he).2.2⟩), C30_dok_new, zero_add]
  obtain ⟨d, o, d1, d2, d3, d4, d5⟩ := run es hin
  obtain ⟨d', o', g1, g2, g3, g4, g5⟩ := run es' fun e he => hin e (hp.mem_iff.2 he)
  obtain ⟨k1, k2⟩ := C107_content t d d' d2 g2 (by omega) (by omega) fun i j => by rw [d5, g5, gathered_perm hp]
  obtain ⟨r, c, k3⟩ := k2 (by have := DoK.nnz_le_positions d2 es d5; omega)
  exact ⟨d, d', o, o', r, c, d1, g1, k1, k3⟩

/-- C107. `sub` undoes `add`: adding the values of a list of triplets to any dictionary and subtracting them again, in any
order, leaves the entries it had before; positions that held nothing hold nothing again. -/
theorem C107_undo [AddCommGroup T] [DecidableEq T] (t : IntTy) (d : DoK T) (hd : d.Reachable t) (hr : (d.rows : Int) ≤ t.hi)
    (hc : (d.cols : Int) ≤ t.hi) (es es' : List (Int × Int × T)) (hp : es.Perm es')
    (hin : ∀ e ∈ es, (0 ≤ e.1 ∧ e.1 < (d.rows : Int)) ∧ 0 ≤ e.2.1 ∧ e.2.1 < (d.cols : Int)) :
    ∃ d' o, d.runAll t ((es.map fun e => .add e.1 e.2.1 e.2.2) ++ es'.map fun e => .sub e.1 e.2.1 e.2.2) = .ok (d', o) ∧
      d'.rows = d.rows ∧ d'.cols = d.cols ∧ d'.values.Perm d.values := by
  obtain ⟨d', d1, d2, d3, d4, d5⟩ := C30_dok_updates t d hd hr hc
    ((es.map fun e => .add e.1 e.2.1 e.2.2) ++ es'.map fun e => .sub e.1 e.2.1 e.2.2)
  have h1 : ∀ e ∈ es, inDims d.rows d.cols (e.1, e.2.1) := fun e he => ⟨(hin e he).1.1, (hin e he).1.2, (hin e he).2.1, (hin e he).2.2⟩
  refine ⟨d', _, d1, d3, d4, (C107_content t d' d d2 hd d3 d4 fun i j => ?_).1⟩
  rw [d5, List.foldl_append, dok_fold_sub _ _ _ (fun e he => h1 e (hp.mem_iff.2 he)), dok_fold_add _ _ _ h1, gathered_perm hp,
    add_sub_cancel_right]

theorem dense_inj {n m : Nat} {f g : Nat → Nat → T} (h : dense n m f = dense n m g) {i j : Nat} (hi : i < n) (hj : j < m) :
    f i j = g i j := by
  have h1 := congrArg (fun l => (l[i]?).bind (·[j]?)) h
  simpa [dense, hi, hj] using h1

theorem DoK.get_outside [Zero T] [Add T] [Sub T] [DecidableEq T] {t : IntTy} {d : DoK T} (hd : d.Reachable t) {i j : Nat}
    (h : ¬ (i < d.rows ∧ j < d.cols)) : d.get i j = 0 := by
  by_contra hne
  obtain ⟨h1, h2, h3, h4⟩ := (C31_dok_invariant t d hd).2.2.2.1 i j hne
  exact h ⟨by simpa using h2, by simpa using h4⟩

/-- C107. Reading a dense array into a dictionary and converting that gives the same arrays as reading it into a CSR or CSC
matrix at once, whatever the enumeration order of the hash map. -/
theorem C107_from_dense [AddCommMonoid T] [Sub T] [DecidableEq T] (t : IntTy) (A : List (List T)) (n : Nat) (hA : A ≠ [])
    (hrect : ∀ r ∈ A, r.length = n) (hr : (A.length : Int) ≤ t.hi) (hc : (n : Int) ≤ t.hi) (hz : (denseNnz A : Int) < t.hi) :
    ∃ d r c, DoK.from_dense t A = .ok d ∧ CSR.from_dense t A = .ok r ∧ CSC.from_dense t A = .ok c ∧
      ∀ ms : KMap T, ms.Perm d.values → d.to_csr t ms = .ok r ∧ d.to_csc t ms = .ok c := by
  obtain ⟨d, d1, d2, d3, d4, d5, d6⟩ := C33_dok_from_dense t A n (fun h => absurd h hA) hrect hr hc
  obtain ⟨r, r1, r2, r3, r4, r5, r6, r7, r8, r9, r10⟩ := C33_csr_from_dense t A n hA hrect (by omega) (by omega)
  obtain ⟨c, c1, c2, c3, c4, c5, c6, c7, c8, c9, c10⟩ := C33_csc_from_dense t A n hA hrect (by omega) (by omega) (by omega)
  have hd : d.Reachable t := .from_dense d1
  have hnn : (d.nnz : Int) < t.hi := by omega
  refine ⟨d, r, c, d1, r1, c1, fun ms hms => ?_⟩
  obtain ⟨w1, w2, w3⟩ := DoK.coo_ok hd.inv hms
  have hlen : ((ms.map (·.2)).length : Int) < t.hi := by
    have := hms.length_eq
    unfold DoK.nnz at hnn
    rw [List.length_map]
    omega
  have hstored : ∀ i j, (∃ v, ((i, j), v) ∈ d.values) ↔ d.get i j ≠ 0 := by
    intro i j
    constructor
    · rintro ⟨v, hv⟩
      unfold DoK.get
      rw [KMap.get_of_mem hd.inv.nodup hv]
      exact hd.inv.ne _ hv
    · intro h
      unfold DoK.get at h
      cases hg : d.values.get (i, j) with
      | none => rw [hg] at h; exact absurd rfl h
      | some v => exact ⟨v, KMap.mem_of_get hg⟩
  have hget : dense A.length n (fun i j => d.get i j) = A := by
    have h1 := d4 ms hms
    rw [DoK.to_dense_eq hd.inv hms, d2, d3] at h1
    exact Except.ok.inj h1
  have hre : ∀ i j : Nat, r.entry i j = d.get i j := by
    intro i j
    by_cases hij : i < d.rows ∧ j < d.cols
    · have h1 := r6
      rw [C06_csr_to_dense t r r2, r4, r5] at h1
      exact dense_inj ((Except.ok.inj h1).trans hget.symm) (by omega) (by omega)
    · rw [DoK.get_outside hd hij]
      exact CSR.entry_of_not_has fun h => hij (by have := r2.has_lt h; omega)
  have hce : ∀ i j : Nat, c.entry i j = d.get i j := by
    intro i j
    by_cases hij : i < d.rows ∧ j < d.cols
    · have h1 := c6
      rw [C06_csc_to_dense t c c2 (by omega), c4, c5] at h1
      exact dense_inj ((Except.ok.inj h1).trans hget.symm) (by omega) (by omega)
    · rw [DoK.get_outside hd hij]
      exact CSR.entry_of_not_has (a := c.asCSR) fun h => hij (by
        have h1 : j < c.cols ∧ i < c.rows := CSR.WF.has_lt (t := t) (a := c.asCSR) c2 h
        omega)
  obtain ⟨r', a1, a2, a3, a4, a5, a6, a7, a8, a9, a10, -⟩ := C01_coo_to_csr t _ w1 hlen
  obtain ⟨c', b1, b2, b3, b4, b5, b6, b7, b8, b9, b10, -⟩ := C02_coo_to_csc t _ w1 hlen
  have hval : ∀ {p q : List Int} {x : List T} {k : Nat} {e : Int × T}, e ∈ rowOf p q x k → e.2 ∈ x := by
    intro p q x k e he
    unfold rowOf at he
    split at he
    · exact (List.of_mem_zip (List.mem_of_mem_drop (List.mem_of_mem_take he))).2
    · simp at he
  have hzr : ∀ i < r'.rows, ∀ e ∈ r'.row i, e.2 ≠ 0 := by
    intro i hi e he
    have hnn := (hstored i e.1).1 ((w3 _ _).1 ((a7 i e.1).1 ⟨e.2, (CSR.WF.mem_triples a2 hi).1 he⟩))
    have hj : e.1 = ((e.1.toNat : Nat) : Int) := by have := a2.mem hi he; omega
    rw [hj, ← w2, ← a6, CSR.entry_of_mem a2 a5.noDup hi he] at hnn
    exact hnn
  have hzc : ∀ j < c'.cols, ∀ e ∈ c'.col j, e.2 ≠ 0 := by
    intro j hj e he
    have ht : (e.1, (j : Int), e.2) ∈ c'.triples := by
      unfold CSC.triples
      rw [List.mem_flatMap]
      exact ⟨j, by simpa using hj, List.mem_map.2 ⟨e, he, rfl⟩⟩
    have hnn := (hstored e.1 j).1 ((w3 _ _).1 ((b7 e.1 j).1 ⟨e.2, ht⟩))
    have hi : e.1 = ((e.1.toNat : Nat) : Int) := by have := b2.mem hj he; omega
    rw [hi, ← w2, ← b6, CSC.entry_of_mem b2 b5.noDup hj he] at hnn
    exact hnn
  have hr' : r' = r := by
    obtain ⟨-, h2, -⟩ := C63_unique t r' r a2 r2 (by rw [r4, a3, d2]) a5 r3 hzr (fun i _ e he => r10 _ (hval he)) fun i j => by
      rw [a6, w2, hre]
    exact CSR.ext_of a2 r2 (by rw [r4, a3, d2]) (by rw [r5, a4, d3]) a5.sorted r3.sorted a9 a10 r8 r9 fun i j => by
      unfold CSR.valuesAt; rw [h2]
  have hc' : c' = c := by
    obtain ⟨-, h2, -⟩ := C63_unique t c'.asCSR c.asCSR b2 c2 (by show c.cols = c'.cols; rw [c5, b4, d3]) b5 c3 hzc
      (fun i _ e he => c10 _ (hval he)) fun i j => by
        show c'.entry j i = c.entry j i
        rw [b6, w2, hce]
    exact CSC.ext_of b2 c2 (by rw [c4, b3, d2]) (by rw [c5, b4, d3]) b5.sorted c3.sorted b9 b10 c8 c9 fun i j => by
      unfold CSC.valuesAt; rw [show c'.col j = c.col j from h2 j]
  constructor
  · unfold DoK.to_csr
    rw [DoK.to_coo_eq, ← hr']
    exact a1
  · unfold DoK.to_csc
    rw [DoK.to_coo_eq, ← hc']
    exact b1

/-! ### the hypotheses can be met -/

/-- two triplets of one position cancel -/
def exGather : List (Int × Int × Int) := [(0, 1, 5), (1, 0, 3), (0, 1, -5), (1, 1, 2), (1, 0, 4)]

example : (∀ e ∈ exGather, (0 ≤ e.1 ∧ e.1 < ((2 : Nat) : Int)) ∧ 0 ≤ e.2.1 ∧ e.2.1 < ((3 : Nat) : Int)) ∧
    (exGather.length : Int) < IntTy.i8.hi ∧
    (DoK.new 2 3 : DoK Int).runAll .i8 (exGather.map fun e => .add e.1 e.2.1 e.2.2) =
      .ok (⟨2, 3, [((1, 0), 7), ((1, 1), 2)]⟩, exGather.map fun _ => true) ∧
    (exGather.foldl (fun a e => a.push e.1 e.2.1 e.2.2) (Coo.with_size 2 3 : Coo Int)).nnz = 5 := by decide +kernel

example : ∃ d : DoK Int, d.Reachable .i8 ∧ d.rows = 2 ∧ d.cols = 3 ∧ d.nnz = 1 ∧
    ∀ e ∈ exGather, (0 ≤ e.1 ∧ e.1 < (d.rows : Int)) ∧ 0 ≤ e.2.1 ∧ e.2.1 < (d.cols : Int) :=
  ⟨⟨2, 3, [((0, 1), 5)]⟩, .from_dense (a := [[0, 5, 0], [0, 0, 0]]) (by decide), rfl, rfl, rfl, by decide⟩

example : (∀ r ∈ [[0, 5, 0], [1, 0, (2 : Int)]], r.length = 3) ∧ (denseNnz [[0, 5, 0], [1, 0, (2 : Int)]] : Int) < IntTy.i8.hi ∧
    CSR.from_dense .i8 [[0, 5, 0], [1, 0, (2 : Int)]] = .ok ⟨2, 3, [0, 1, 3], [1, 0, 2], [5, 1, 2]⟩ := by decide +kernel

end
end Sparse

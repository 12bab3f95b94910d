import Verif.Lemmas.Accum
/-! Diagonal extraction, pointer expansion, scaling, products with several vectors. -/
namespace Sparse

section
variable {T : Type}

theorem valuesIn_snoc (r : List (Int × T)) (e : Int × T) (k : Int) :
    valuesIn (r ++ [e]) k = valuesIn r k ++ if e.1 = k then [e.2] else [] := by
  unfold valuesIn
  rw [List.filter_append, List.map_append]
  congr 1
  by_cases h : e.1 = k <;> simp [h]

theorem csr_diagonal_exact [Zero T] [Add T] {k : Int} {n m : Nat} {p j : List Int} {x y : List T}
    {R : Nat → List (Int × T)} (hr : Rep p j x n R) (hm : ∀ i < n, ∀ e ∈ R i, 0 ≤ e.1)
    (h1 : (-k).toNat ≤ n) (h2 : k.toNat ≤ m) (hy : min (n - (-k).toNat) (m - k.toNat) ≤ y.length) :
    Ok (csr_diagonal k n m p j x y) fun r => r.length = y.length ∧
      (∀ i < min (n - (-k).toNat) (m - k.toNat), r[i]? = some (sumFrom 0 (valuesIn (R ((-k).toNat + i)) ((k.toNat + i : Nat) : Int)))) ∧
      ∀ i, min (n - (-k).toNat) (m - k.toNat) ≤ i → r[i]? = y[i]? := by
  unfold csr_diagonal
  have e1 : (if k ≥ 0 then 0 else (-1 * k).toNat) = (-k).toNat := by split <;> omega
  have e2 : (if k ≥ 0 then k.toNat else 0) = k.toNat := by split <;> omega
  simp only [e1, e2]
  wp
  refine ⟨h1, h2, ?_⟩
  generalize hN : min (n - (-k).toNat) (m - k.toNat) = N at *
  refine Ok_forRange (fun q s => s.length = y.length ∧
      (∀ i < q, s[i]? = some (sumFrom 0 (valuesIn (R ((-k).toNat + i)) ((k.toNat + i : Nat) : Int)))) ∧
      ∀ i, q ≤ i → s[i]? = y[i]?) (by omega) (by simp) ?_ (by rintro s ⟨h1, h2, h3⟩; exact ⟨h1, h2, h3⟩)
  rintro i s - hi ⟨hl, g1, g2⟩
  have hlt : (-k).toNat + i < n := by omega
  wp
  rds [hr.ptr _ (Nat.le_of_lt hlt), hr.ptr_succ hlt]
  refine Ok_forRow hr hlt (fun pre s => s = sumFrom 0 (valuesIn pre ((k.toNat + i : Nat) : Int))) rfl ?_ ?_
  · rintro pre e suf s' hE rfl hj hx
    have he := hm _ hlt e (by rw [hE]; simp)
    wp
    rds [hj]
    refine ⟨he, ?_⟩
    rw [Ok_ite]
    constructor
    · intro hc
      wp
      rds [hx]
      refine ⟨_, rfl, ?_⟩
      rw [valuesIn_snoc, if_pos (by omega), sumFrom_append]; rfl
    · intro hc
      wp
      refine ⟨_, rfl, ?_⟩
      rw [valuesIn_snoc, if_neg (by omega), List.append_nil]
  · rintro s' rfl
    refine ⟨by omega, _, rfl, by simpa using hl, ?_, ?_⟩
    · intro q hq
      rw [List.getElem?_set]
      split
      · rename_i e; subst e
        rw [if_pos (by omega)]
      · exact g1 q (by omega)
    · intro q hq
      rw [List.getElem?_set, if_neg (by omega)]
      exact g2 q (by omega)

theorem csr_diagonal_ok [AddCommMonoid T] {k : Int} {n m : Nat} {p j : List Int} {x y : List T}
    {R : Nat → List (Int × T)} (hr : Rep p j x n R) (hm : ∀ i < n, ∀ e ∈ R i, 0 ≤ e.1)
    (h1 : (-k).toNat ≤ n) (h2 : k.toNat ≤ m) (hy : min (n - (-k).toNat) (m - k.toNat) ≤ y.length) :
    Ok (csr_diagonal k n m p j x y) fun r => r.length = y.length ∧
      (∀ i < min (n - (-k).toNat) (m - k.toNat), r[i]? = some (rowSum (R ((-k).toNat + i)) ((k.toNat + i : Nat) : Int))) ∧
      ∀ i, min (n - (-k).toNat) (m - k.toNat) ≤ i → r[i]? = y[i]? := by
  simp only [← sumFrom_zero]
  exact csr_diagonal_exact hr hm h1 h2 hy

theorem app_drop_set {α : Type} {A b : List α} {k : Nat} (hk : k = A.length) (h : k < b.length) (v : α) :
    (A ++ b.drop k).set k v = (A ++ [v]) ++ b.drop (k + 1) := by
  subst hk
  have e : b.drop A.length = b[A.length] :: b.drop (A.length + 1) := List.drop_eq_getElem_cons h
  rw [List.set_append, if_neg (by omega), Nat.sub_self, e]
  simp only [List.set_cons_zero, List.append_assoc, List.cons_append, List.nil_append]

theorem app_drop_length {α : Type} {A b : List α} {k : Nat} (hk : k = A.length) (h : k ≤ b.length) :
    (A ++ b.drop k).length = b.length := by
  subst hk; rw [List.length_append, List.length_drop]; omega

theorem app_drop_get {α : Type} {A b : List α} {k : Nat} (hk : k = A.length) :
    (A ++ b.drop k)[k]? = b[k]? := by
  subst hk
  rw [List.getElem?_append_right (le_refl _)]; simp

/-- the row number of every stored entry -/
def rowNums (R : Nat → List (Int × T)) (n : Nat) : List Int := flat (fun i => (R i).map fun _ => (i : Int)) n

theorem rowNums_length (R : Nat → List (Int × T)) (n : Nat) : (rowNums R n).length = (flat R n).length :=
  flat_length_congr fun i _ => by simp

theorem expandptr_ok {t : IntTy} {n : Nat} {p j b : List Int} {x : List T}
    {R : Nat → List (Int × T)} (hr : Rep p j x n R) (ht : ∀ i < n, R i ≠ [] → (i : Int) ≤ t.hi)
    (hb : (flat R n).length ≤ b.length) :
    expandptr t n p b = .ok (rowNums R n ++ b.drop (flat R n).length) := by
  suffices h : Ok (expandptr t n p b) fun r => r = rowNums R n ++ b.drop (flat R n).length by
    obtain ⟨r, h1, h2⟩ := h; rw [h1, h2]
  unfold expandptr
  wp
  refine Ok_forRange (fun i s => s = rowNums R i ++ b.drop (flat R i).length) (by omega) (by simp [rowNums]) ?_
    (fun s hs => hs)
  rintro i s - hi rfl
  wp
  rds [hr.ptr i (by omega), hr.ptr_succ hi]
  have hle := flat_length_mono R (show i + 1 ≤ n by omega)
  rw [flat_length_succ] at hle
  refine Ok_forRow hr hi (fun pre s => s = (rowNums R i ++ pre.map fun _ => (i : Int)) ++
    b.drop ((flat R i).length + pre.length)) (by simp) ?_ ?_
  · rintro pre e suf s' hE rfl hj hx
    have hpl : pre.length < (R i).length := by rw [hE]; simp
    have hA : (flat R i).length + pre.length = (rowNums R i ++ pre.map fun _ => (i : Int)).length := by
      rw [List.length_append, rowNums_length, List.length_map]
    wp
    refine ⟨ht i hi (by rw [hE]; simp), by rw [app_drop_length hA (by omega)]; omega, _, rfl, ?_⟩
    rw [app_drop_set hA (by omega)]
    simp [Nat.add_assoc]
  · rintro s' rfl
    refine ⟨_, rfl, ?_⟩
    rw [flat_length_succ, rowNums, rowNums, flat_succ]

theorem csr_tocoo_ok {t : IntTy} {n : Nat} {p j bi bj : List Int} {x bx : List T}
    {R : Nat → List (Int × T)} (hr : Rep p j x n R) (ht : ∀ i < n, R i ≠ [] → (i : Int) ≤ t.hi)
    (hbi : (flat R n).length ≤ bi.length) (hbj : (flat R n).length ≤ bj.length)
    (hbx : (flat R n).length ≤ bx.length) :
    csr_tocoo t n p j x bi bj bx = .ok (rowNums R n ++ bi.drop (flat R n).length,
      (flat R n).map (·.1) ++ bj.drop (flat R n).length, (flat R n).map (·.2) ++ bx.drop (flat R n).length) := by
  suffices h : Ok (csr_tocoo t n p j x bi bj bx) fun r => r = (rowNums R n ++ bi.drop (flat R n).length,
      (flat R n).map (·.1) ++ bj.drop (flat R n).length, (flat R n).map (·.2) ++ bx.drop (flat R n).length) by
    obtain ⟨r, h1, h2⟩ := h; rw [h1, h2]
  unfold csr_tocoo
  wp
  refine Ok_forRange (fun i s => s = (rowNums R i ++ bi.drop (flat R i).length,
      (flat R i).map (·.1) ++ bj.drop (flat R i).length, (flat R i).map (·.2) ++ bx.drop (flat R i).length,
      (flat R i).length)) (by omega) (by simp [rowNums]) ?_
    (by rintro ⟨s1, s2, s3, s4⟩ hs; simp only [Prod.mk.injEq] at hs ⊢; exact ⟨hs.1, hs.2.1, hs.2.2.1⟩)
  rintro i s - hi rfl
  wp
  rds [hr.ptr i (by omega), hr.ptr_succ hi]
  have hle := flat_length_mono R (show i + 1 ≤ n by omega)
  rw [flat_length_succ] at hle
  refine Ok_forRow hr hi (fun pre s => s = ((rowNums R i ++ pre.map fun _ => (i : Int)) ++
      bi.drop ((flat R i).length + pre.length),
      ((flat R i).map (·.1) ++ pre.map (·.1)) ++ bj.drop ((flat R i).length + pre.length),
      ((flat R i).map (·.2) ++ pre.map (·.2)) ++ bx.drop ((flat R i).length + pre.length),
      (flat R i).length + pre.length)) (by simp) ?_ ?_
  · rintro pre e suf s' hE rfl hj hx
    have hpl : pre.length < (R i).length := by rw [hE]; simp
    have hA : (flat R i).length + pre.length = (rowNums R i ++ pre.map fun _ => (i : Int)).length := by
      rw [List.length_append, rowNums_length, List.length_map]
    have hB : (flat R i).length + pre.length = ((flat R i).map (·.1) ++ pre.map (·.1)).length := by simp
    have hC : (flat R i).length + pre.length = ((flat R i).map (·.2) ++ pre.map (·.2)).length := by simp
    wp
    rds [hj, hx]
    refine ⟨ht i hi (by rw [hE]; simp), by rw [app_drop_length hA (by omega)]; omega,
      by rw [app_drop_length hB (by omega)]; omega, by rw [app_drop_length hC (by omega)]; omega, _, rfl, ?_⟩
    rw [app_drop_set hA (by omega), app_drop_set hB (by omega), app_drop_set hC (by omega)]
    simp [Nat.add_assoc]
  · rintro s' rfl
    refine ⟨_, rfl, ?_⟩
    simp only [rowNums, flat_succ, List.map_append, List.length_append]

/-- replacing the values only -/
theorem Rep.newValues {p j : List Int} {x x' : List T} {n : Nat} {R R' : Nat → List (Int × T)}
    (h : Rep p j x n R) (hk : ∀ i < n, (R' i).map (·.1) = (R i).map (·.1)) {rest : List T}
    (hx : x' = (flat R' n).map (·.2) ++ rest) : Rep p j x' n R' := by
  have hl : ∀ i ≤ n, (flat R' i).length = (flat R i).length := fun i hi =>
    flat_length_congr fun k hk' => by
      have := congrArg List.length (hk k (by omega)); simpa using this
  have hfst : (flat R' n).map (·.1) = (flat R n).map (·.1) := by
    rw [← flat_map, ← flat_map]; exact flat_congr hk
  refine ⟨h.len, ?_, ?_⟩
  · intro i hi
    rw [h.ptr i hi, hl i hi]
  · have hj : j.take (flat R n).length = (flat R n).map (·.1) := by
      have hp : (flat R n).map (·.1) <+: j := by
        rw [isPrefix_iff_get]
        intro k a hk
        rw [List.getElem?_map, Option.map_eq_some_iff] at hk
        obtain ⟨e, he, rfl⟩ := hk
        exact (zip_get.1 (isPrefix_iff_get.1 h.pre k e he)).1
      have := List.prefix_iff_eq_take.1 hp
      rw [List.length_map] at this
      exact this.symm
    have hj2 : j = (flat R' n).map (·.1) ++ j.drop (flat R n).length := by
      rw [hfst, ← hj, List.take_append_drop]
    refine ⟨(j.drop (flat R n).length).zip rest, ?_⟩
    conv_rhs => rw [hj2, hx]
    rw [List.zip_append (by simp), ← List.unzip_fst, ← List.unzip_snd, List.zip_unzip]

theorem csr_scale_rows_ok [Mul T] [Zero T] {n : Nat} {p j : List Int} {x v : List T}
    {R : Nat → List (Int × T)} (hr : Rep p j x n R) (hv : n ≤ v.length) :
    Ok (csr_scale_rows n p x v) fun r => r.length = x.length ∧
      Rep p j r n (fun i => (R i).map fun e => (e.1, e.2 * v.getD i 0)) := by
  have hlx := hr.len_x
  suffices h : Ok (csr_scale_rows n p x v) fun r =>
      r = (flat (fun i => (R i).map fun e => (e.1, e.2 * v.getD i 0)) n).map (·.2) ++ x.drop (flat R n).length by
    refine h.mono ?_
    intro r hrr
    refine ⟨?_, hr.newValues (fun i _ => by simp) hrr⟩
    rw [hrr]
    apply app_drop_length _ hlx
    rw [List.length_map]
    exact flat_length_congr fun i _ => by simp
  unfold csr_scale_rows
  wp
  refine Ok_forRange (fun i s => s = (flat (fun i => (R i).map fun e => (e.1, e.2 * v.getD i 0)) i).map (·.2) ++
    x.drop (flat R i).length) (by omega) (by simp) ?_ (fun s hs => hs)
  rintro i s - hi rfl
  wp
  rds [hr.ptr i (by omega), hr.ptr_succ hi]
  have hle := flat_length_mono R (show i + 1 ≤ n by omega)
  rw [flat_length_succ] at hle
  refine Ok_forRow hr hi (fun pre s => s = ((flat (fun i => (R i).map fun e => (e.1, e.2 * v.getD i 0)) i).map (·.2) ++
      pre.map fun e => e.2 * v.getD i 0) ++ x.drop ((flat R i).length + pre.length)) (by simp) ?_ ?_
  · rintro pre e suf s' hE rfl hj hx
    have hpl : pre.length < (R i).length := by rw [hE]; simp
    have hA : (flat R i).length + pre.length = ((flat (fun i => (R i).map fun e => (e.1, e.2 * v.getD i 0)) i).map (·.2) ++
      pre.map fun e => e.2 * v.getD i 0).length := by
      rw [List.length_append, List.length_map, List.length_map,
        flat_length_congr (R := fun i => (R i).map fun e => (e.1, e.2 * v.getD i 0)) (S := R) (fun i _ => by simp)]
    wp
    rw [app_drop_get hA]
    rds [hx]
    refine ⟨v.getD i 0, ?_, by rw [app_drop_length hA (by omega)]; omega, _, rfl, ?_⟩
    · rw [List.getD_eq_getElem?_getD]
      have : i < v.length := by omega
      simp [this]
    · rw [app_drop_set hA (by omega)]
      simp [Nat.add_assoc]
  · rintro s' rfl
    refine ⟨_, rfl, ?_⟩
    rw [flat_length_succ, flat_succ]
    simp

theorem csr_scale_columns_ok [Mul T] [Zero T] {n m : Nat} {p j : List Int} {x v : List T}
    {R : Nat → List (Int × T)} (hr : Rep p j x n R) (hm : ∀ i < n, ∀ e ∈ R i, 0 ≤ e.1 ∧ e.1 < m)
    (hv : m ≤ v.length) :
    Ok (csr_scale_columns n p j x v) fun r => r.length = x.length ∧
      Rep p j r n (fun i => (R i).map fun e => (e.1, e.2 * v.getD e.1.toNat 0)) := by
  have hlx := hr.len_x
  suffices h : Ok (csr_scale_columns n p j x v) fun r =>
      r = (flat R n).map (fun e => e.2 * v.getD e.1.toNat 0) ++ x.drop (flat R n).length by
    refine h.mono ?_
    intro r hrr
    refine ⟨?_, hr.newValues (rest := x.drop (flat R n).length) (fun i _ => by simp) ?_⟩
    · rw [hrr]
      exact app_drop_length (by simp) hlx
    · rw [hrr, flat_map]; simp
  unfold csr_scale_columns
  wp
  rds [hr.ptr n (le_refl _)]
  refine Ok_forOff (E := flat R n) (by simp) (fun pre s => s = pre.map (fun e => e.2 * v.getD e.1.toNat 0) ++ x.drop pre.length)
    (by simp) ?_ (fun s hs => hs)
  rintro pre e suf s hE rfl
  have hg := isPrefix_iff_get.1 hr.pre pre.length e (by rw [hE]; simp)
  rw [zip_get] at hg
  have hA : pre.length = (pre.map (fun e => e.2 * v.getD e.1.toNat 0)).length := by simp
  have hpl : pre.length < (flat R n).length := by rw [hE]; simp
  obtain ⟨i, hi, he⟩ := mem_flat.1 (show e ∈ flat R n by rw [hE]; simp)
  have he := hm i hi e he
  rw [Nat.zero_add]
  wp
  rw [app_drop_get hA]
  rds [hg.1, hg.2]
  refine ⟨he.1, v.getD e.1.toNat 0, ?_, by rw [app_drop_length hA (by omega)]; omega, _, rfl, ?_⟩
  · rw [List.getD_eq_getElem?_getD]
    have : e.1.toNat < v.length := by omega
    simp [this]
  · rw [app_drop_set hA (by omega)]
    simp

/-! ### several vectors -/

/-- the updates made by one `axpy` call -/
def axpyL [Mul T] [Zero T] (n : Nat) (a : T) (x : List T) (xo yo : Nat) : List (Int × T) :=
  (List.range n).map fun q => (((yo + q : Nat) : Int), a * x.getD (xo + q) 0)

theorem axpy_ok [Add T] [Mul T] [Zero T] {n xo yo : Nat} {a : T} {x y : List T} (hx : xo + n ≤ x.length)
    (hy : yo + n ≤ y.length) : axpy n a x xo y yo = .ok (accum y (axpyL n a x xo yo)) := by
  suffices h : Ok (axpy n a x xo y yo) fun r => r = accum y (axpyL n a x xo yo) by
    obtain ⟨r, h1, h2⟩ := h; rw [h1, h2]
  unfold axpy
  rw [if_neg (by omega)]
  wp
  refine Ok_forRange (fun i s => s = accum y (axpyL i a x xo yo)) (by omega) (by simp [axpyL]) ?_ (fun s hs => hs)
  rintro i s - hi hs
  have hlen : s.length = y.length := by rw [hs]; simp
  wp
  refine ⟨s[yo + i]'(by omega), by simp, x[xo + i]'(by omega), by simp, by omega, _, rfl, ?_⟩
  rw [set_add_eq_modify (by simp), axpyL, List.range_succ, List.map_append, accum_append, ← axpyL, ← hs]
  simp only [List.map_cons, List.map_nil, accum_one, Int.toNat_natCast]
  rw [List.getD_eq_getElem?_getD]
  have : xo + i < x.length := by omega
  simp [this]

theorem valuesIn_axpyL [Zero T] [Mul T] {nv i i' q : Nat} (hq : q < nv) (a : T) (x : List T) (xo : Nat) :
    valuesIn (axpyL nv a x xo (nv * i')) ((nv * i + q : Nat) : Int) = if i' = i then [a * x.getD (xo + q) 0] else [] := by
  have huniq : ∀ q' < nv, nv * i' + q' = nv * i + q → i' = i ∧ q' = q := by
    intro q' hq' h
    have h1 : (nv * i' + q') / nv = i' := by
      rw [Nat.mul_add_div (by omega), Nat.div_eq_of_lt hq']; omega
    have h2 : (nv * i + q) / nv = i := by
      rw [Nat.mul_add_div (by omega), Nat.div_eq_of_lt hq]; omega
    have h3 : i' = i := by rw [← h1, ← h2, h]
    subst h3
    exact ⟨rfl, by omega⟩
  have key : ∀ N ≤ nv, valuesIn (axpyL N a x xo (nv * i')) ((nv * i + q : Nat) : Int) =
      if i' = i ∧ q < N then [a * x.getD (xo + q) 0] else [] := by
    intro N hN
    induction N with
    | zero => simp [axpyL, valuesIn]
    | succ N ih =>
      rw [axpyL, List.range_succ, List.map_append, List.map_singleton, valuesIn_snoc, ← axpyL, ih (by omega)]
      by_cases h1 : i' = i ∧ q = N
      · obtain ⟨rfl, rfl⟩ := h1
        simp
      · have h2 : ¬ (nv * i' + N = nv * i + q) := fun h => h1 (by
          have := huniq N (by omega) h; exact ⟨this.1, this.2.symm⟩)
        have h3 : ¬ (((nv * i' + N : Nat) : Int) = ((nv * i + q : Nat) : Int)) := by omega
        rw [if_neg h3, List.append_nil]
        by_cases h4 : i' = i ∧ q < N
        · rw [if_pos h4, if_pos ⟨h4.1, by omega⟩]
        · rw [if_neg h4, if_neg]
          rintro ⟨h5, h6⟩
          apply h1
          refine ⟨h5, ?_⟩
          by_contra h7
          exact h4 ⟨h5, by omega⟩
  rw [key nv (le_refl _)]
  by_cases h : i' = i
  · rw [if_pos ⟨h, hq⟩, if_pos h]
  · rw [if_neg (fun h' => h h'.1), if_neg h]

theorem rowSum_axpyL [NonUnitalNonAssocSemiring T] {nv i i' q : Nat} (hq : q < nv) (a : T) (x : List T) (xo : Nat) :
    rowSum (axpyL nv a x xo (nv * i')) ((nv * i + q : Nat) : Int) = if i' = i then a * x.getD (xo + q) 0 else 0 := by
  change (valuesIn _ _).sum = _
  rw [valuesIn_axpyL hq]
  split <;> simp

theorem rowSum_flatMap [AddCommMonoid T] {α : Type} (l : List α) (f : α → List (Int × T)) (k : Int) :
    rowSum (l.flatMap f) k = (l.map fun e => rowSum (f e) k).sum := by
  induction l with
  | nil => simp
  | cons e l ih => rw [List.flatMap_cons, rowSum_append, ih]; simp

theorem axpyL_nonneg [Mul T] [Zero T] {n : Nat} {a : T} {x : List T} {xo yo : Nat} {e : Int × T}
    (he : e ∈ axpyL n a x xo yo) : 0 ≤ e.1 ∧ e.1 < ((yo + n : Nat) : Int) := by
  unfold axpyL at he
  rw [List.mem_map] at he
  obtain ⟨q, hq, rfl⟩ := he
  rw [List.mem_range] at hq
  simp only; omega

theorem csr_matvecs_exact [Zero T] [Add T] [Mul T] {n m nv : Nat} {p j : List Int} {x : List T}
    {R : Nat → List (Int × T)} {v y : List T} (hr : Rep p j x n R)
    (hm : ∀ i < n, ∀ e ∈ R i, 0 ≤ e.1 ∧ e.1 < m) (hv : nv * m ≤ v.length) (hy : nv * n ≤ y.length) :
    Ok (csr_matvecs n nv p j x v y) fun r =>
      r = accum y (flat (fun i => (R i).flatMap fun e => axpyL nv e.2 v (nv * e.1.toNat) (nv * i)) n) := by
  have hmul : ∀ a b : Nat, a < b → nv * a + nv ≤ nv * b := by
    intro a b h
    calc nv * a + nv = nv * (a + 1) := by rw [Nat.mul_succ]
      _ ≤ nv * b := Nat.mul_le_mul_left _ h
  unfold csr_matvecs
  wp
  refine Ok_forRange (fun i s => s = accum y (flat (fun i => (R i).flatMap fun e => axpyL nv e.2 v (nv * e.1.toNat) (nv * i)) i))
    (by omega) (by simp) ?_ (fun s hs => hs)
  rintro i s - hi hs
  have hlen : s.length = y.length := by rw [hs]; simp
  have hi' := hmul i n hi
  rw [if_neg (by omega)]
  wp
  rds [hr.ptr i (by omega), hr.ptr_succ hi]
  refine Ok_forRow hr hi (fun pre s => s = accum y (flat (fun i => (R i).flatMap fun e => axpyL nv e.2 v (nv * e.1.toNat) (nv * i)) i ++
      pre.flatMap fun e => axpyL nv e.2 v (nv * e.1.toNat) (nv * i))) (by simp [hs]) ?_ ?_
  · rintro pre e suf s' hE hs' hj hx
    have he := hm i hi e (by rw [hE]; simp)
    have hlen' : s'.length = y.length := by rw [hs']; simp
    have hm' := hmul e.1.toNat m (by omega)
    wp
    rds [hj, hx]
    refine ⟨he.1, ?_⟩
    rw [axpy_ok (by omega) (by omega)]
    wp
    refine ⟨_, rfl, ?_⟩
    rw [List.flatMap_append, ← List.append_assoc, accum_append, ← hs']
    simp
  · rintro s' hs'
    exact ⟨_, rfl, by rw [hs', flat_succ]⟩

theorem csr_matvecs_ok [NonUnitalNonAssocSemiring T] {n m nv : Nat} {p j : List Int} {x : List T}
    {R : Nat → List (Int × T)} {v y : List T} (hr : Rep p j x n R)
    (hm : ∀ i < n, ∀ e ∈ R i, 0 ≤ e.1 ∧ e.1 < m) (hv : nv * m ≤ v.length) (hy : nv * n ≤ y.length) :
    Ok (csr_matvecs n nv p j x v y) fun r => r.length = y.length ∧
      (∀ i < n, ∀ q < nv, r[nv * i + q]? = y[nv * i + q]?.map
        (· + ∑ k ∈ Finset.range m, rowSum (R i) k * v.getD (nv * k + q) 0)) ∧
      ∀ k, nv * n ≤ k → r[k]? = y[k]? := by
  have hmul : ∀ a b : Nat, a < b → nv * a + nv ≤ nv * b := by
    intro a b h
    calc nv * a + nv = nv * (a + 1) := by rw [Nat.mul_succ]
      _ ≤ nv * b := Nat.mul_le_mul_left _ h
  refine (csr_matvecs_exact hr hm hv hy).mono ?_
  rintro r rfl
  have hpos : ∀ e ∈ flat (fun i => (R i).flatMap fun e => axpyL nv e.2 v (nv * e.1.toNat) (nv * i)) n,
      0 ≤ e.1 ∧ e.1 < ((nv * n : Nat) : Int) := by
    intro e he
    obtain ⟨i, hi, he⟩ := mem_flat.1 he
    obtain ⟨f, hf, he⟩ := List.mem_flatMap.1 he
    have h1 := axpyL_nonneg he
    have := hmul i n hi
    exact ⟨h1.1, by omega⟩
  refine ⟨by simp, ?_, ?_⟩
  · intro i hi q hq
    rw [accum_get _ fun e he => (hpos e he).1]
    congr 2
    funext z
    congr 1
    rw [rowSum_flat, Finset.sum_eq_single i]
    · rw [rowSum_flatMap]
      simp only [rowSum_axpyL hq, if_true]
      exact rowDot (hm i hi) fun k => v.getD (nv * k + q) 0
    · intro b _ hb
      rw [rowSum_flatMap]
      simp only [rowSum_axpyL hq, if_neg hb]
      simp
    · intro h; simp at h; omega
  · intro k hk
    rw [accum_get _ fun e he => (hpos e he).1, rowSum_eq_zero]
    · simp
    · intro e he hek
      have := hpos e he
      omega

theorem csc_matvecs_exact [Zero T] [Add T] [Mul T] {n m nv : Nat} {p j : List Int} {x : List T}
    {R : Nat → List (Int × T)} {v y : List T} (hr : Rep p j x n R)
    (hm : ∀ i < n, ∀ e ∈ R i, 0 ≤ e.1 ∧ e.1 < m) (hv : nv * n ≤ v.length) (hy : nv * m ≤ y.length) :
    Ok (csc_matvecs n nv p j x v y) fun r =>
      r = accum y (flat (fun i => (R i).flatMap fun e => axpyL nv e.2 v (nv * i) (nv * e.1.toNat)) n) := by
  have hmul : ∀ a b : Nat, a < b → nv * a + nv ≤ nv * b := by
    intro a b h
    calc nv * a + nv = nv * (a + 1) := by rw [Nat.mul_succ]
      _ ≤ nv * b := Nat.mul_le_mul_left _ h
  unfold csc_matvecs
  wp
  refine Ok_forRange (fun i s => s = accum y (flat (fun i => (R i).flatMap fun e => axpyL nv e.2 v (nv * i) (nv * e.1.toNat)) i))
    (by omega) (by simp) ?_ (fun s hs => hs)
  rintro i s - hi hs
  have hi' := hmul i n hi
  wp
  rds [hr.ptr i (by omega), hr.ptr_succ hi]
  refine Ok_forRow hr hi (fun pre s => s = accum y (flat (fun i => (R i).flatMap fun e => axpyL nv e.2 v (nv * i) (nv * e.1.toNat)) i ++
      pre.flatMap fun e => axpyL nv e.2 v (nv * i) (nv * e.1.toNat))) (by simp [hs]) ?_ ?_
  · rintro pre e suf s' hE hs' hj hx
    have he := hm i hi e (by rw [hE]; simp)
    have hlen' : s'.length = y.length := by rw [hs']; simp
    have hm' := hmul e.1.toNat m (by omega)
    wp
    rds [hj, hx]
    refine ⟨he.1, ?_⟩
    rw [axpy_ok (by omega) (by omega)]
    wp
    refine ⟨_, rfl, ?_⟩
    rw [List.flatMap_append, ← List.append_assoc, accum_append, ← hs']
    simp
  · rintro s' hs'
    exact ⟨_, rfl, by rw [hs', flat_succ]⟩

theorem csc_matvecs_ok [NonUnitalNonAssocSemiring T] {n m nv : Nat} {p j : List Int} {x : List T}
    {R : Nat → List (Int × T)} {v y : List T} (hr : Rep p j x n R)
    (hm : ∀ i < n, ∀ e ∈ R i, 0 ≤ e.1 ∧ e.1 < m) (hv : nv * n ≤ v.length) (hy : nv * m ≤ y.length) :
    Ok (csc_matvecs n nv p j x v y) fun r => r.length = y.length ∧
      (∀ i < m, ∀ q < nv, r[nv * i + q]? = y[nv * i + q]?.map
        (· + ∑ k ∈ Finset.range n, rowSum (R k) i * v.getD (nv * k + q) 0)) ∧
      ∀ k, nv * m ≤ k → r[k]? = y[k]? := by
  have hmul : ∀ a b : Nat, a < b → nv * a + nv ≤ nv * b := by
    intro a b h
    calc nv * a + nv = nv * (a + 1) := by rw [Nat.mul_succ]
      _ ≤ nv * b := Nat.mul_le_mul_left _ h
  refine (csc_matvecs_exact hr hm hv hy).mono ?_
  rintro r rfl
  have hpos : ∀ e ∈ flat (fun i => (R i).flatMap fun e => axpyL nv e.2 v (nv * i) (nv * e.1.toNat)) n,
      0 ≤ e.1 ∧ e.1 < ((nv * m : Nat) : Int) := by
    intro e he
    obtain ⟨i, hi, he⟩ := mem_flat.1 he
    obtain ⟨f, hf, he⟩ := List.mem_flatMap.1 he
    have h1 := axpyL_nonneg he
    have h2 := hm i hi f hf
    have := hmul f.1.toNat m (by omega)
    exact ⟨h1.1, by omega⟩
  refine ⟨by simp, ?_, ?_⟩
  · intro i hi q hq
    rw [accum_get _ fun e he => (hpos e he).1]
    congr 2
    funext z
    congr 1
    rw [rowSum_flat]
    apply Finset.sum_congr rfl
    intro k hk
    rw [Finset.mem_range] at hk
    rw [rowSum_flatMap]
    simp only [rowSum_axpyL hq]
    have hmk := hm k hk
    generalize R k = r at hmk
    induction r with
    | nil => simp
    | cons e r ih =>
      rw [List.map_cons, List.sum_cons, ih fun f hf => hmk f (by simp [hf]), rowSum_cons, add_mul]
      congr 1
      have := hmk e (by simp)
      by_cases h : e.1 = (i : Int)
      · rw [if_pos (by omega), if_pos h]
      · rw [if_neg (by omega), if_neg h, zero_mul]
  · intro k hk
    rw [accum_get _ fun e he => (hpos e he).1, rowSum_eq_zero]
    · simp
    · intro e he hek
      have := hpos e he
      omega

end
end Sparse

import Verif.SpecEigen
import Verif.Props.Dense
import Verif.Lemmas.Fail
import Verif.Lemmas.Graph
/-! Lemmas about the model of `eigs`. -/
namespace Sparse

section
variable {T : Type}

theorem eigs_check_eq (a : CSC T) (nev : Nat) : eigs_check a nev =
    if a.rows ≠ a.cols then .error .err else if a.rows = 0 then .error (.panic .arith)
    else if a.rows ≤ nev + 1 then .error .err else .ok (a.rows, min a.rows (2 * nev + 1)) := by
  unfold eigs_check usub
  by_cases h : a.rows = a.cols
  · by_cases h0 : a.rows = 0
    · simp [← h, h0]; rfl
    · by_cases h1 : a.rows ≤ nev + 1
      · have h2 : 1 ≤ a.rows := by omega
        have h3 : a.rows - 1 ≤ nev := by omega
        simp only [← h, ne_eq, not_true_eq_false, if_false, if_pos h2, pure_bind, if_pos h3, h0, if_pos h1, ge_iff_le]
        rfl
      · have h2 : 1 ≤ a.rows := by omega
        have h3 : ¬ a.rows - 1 ≤ nev := by omega
        simp only [← h, ne_eq, not_true_eq_false, if_false, if_pos h2, pure_bind, if_neg h3, h0, if_neg h1, ge_iff_le]
        rfl
  · simp only [ne_eq, h, not_false_eq_true, if_true]
    rfl

theorem eigs_init_eq [Zero T] (n ncv : Nat) : eigs_init (T := T) n ncv = .ok
    { ido := 0, resid := List.replicate n 0, v := List.replicate (n * ncv) 0,
      iparam := [1, 0, asI32 (n * 10), 1, 0, 0, 1, 0, 0, 0, 0],
      ipntr := List.replicate 14 0, workd := List.replicate (3 * n) 0,
      workl := List.replicate (3 * ncv * (ncv + 2)) 0, info := 0 } := rfl

/-- all positions of `l` hold the values of `f` up to `j` -/
theorem rows_full {α : Type} {r : List α} {n : Nat} {f : Nat → α} (hn : r.length = n)
    (h : ∀ j < n, r[j]? = some (f j)) : r = (List.range n).map f := by
  apply List.ext_getElem? 
  intro k
  by_cases hk : k < n
  · rw [h k hk]; simp [hk]
  · simp [hk]; omega

theorem RitzHead.gap [Zero T] {di : List T} {j : Nat} (hj : RitzHead di j) {i : Nat} (hi : RitzHead di i) (hij : i < j)
    {x : T} (hx : di[i]? = some x) (h0 : x ≠ 0) : i + 2 ≤ j := by
  induction j using Nat.strong_induction_on generalizing i x with
  | _ j ih =>
    cases hj with
    | first => omega
    | @real k hk hd =>
      by_cases h : i = k
      · subst h; rw [hx] at hd; cases hd; exact absurd rfl h0
      · have := ih k (by omega) hk hi (by omega) hx h0; omega
    | @pair k y hk hd hy =>
      by_cases h : i = k + 1
      · subst h
        have := ih (k + 1) (by omega) hi hk (by omega) hd hy; omega
      · by_cases h' : i = k
        · omega
        · have := ih k (by omega) hk hi (by omega) hx h0; omega

/-- setting an element of a dense matrix -/
theorem matSet_ok {α : Type} {m : List (List α)} {r : List α} {i j : Nat} {z : α} (hm : m[i]? = some r)
    (hj : j < r.length) : matSet m i j z = .ok (m.set i (r.set j z)) := by
  have h1 : i < m.length := by
    by_contra h
    simp [List.getElem?_eq_none (by omega : m.length ≤ i)] at hm
  have e1 : m.rd i = .ok r := by unfold List.rd; rw [hm]; rfl
  have e2 : r.wr j z = .ok (r.set j z) := by unfold List.wr; rw [if_pos hj]; rfl
  have e3 : m.wr i (r.set j z) = .ok (m.set i (r.set j z)) := by unfold List.wr; rw [if_pos h1]; rfl
  unfold matSet
  rw [e1]
  show (r.wr j z >>= fun q => m.wr i q) = _
  rw [e2]
  exact e3

/-- the row of a real Ritz value, as the code fills it -/
def ritzReal [Zero T] (n : Nat) (z : List T) (i : Nat) : List (Cx T) :=
  (List.range n).map fun _ => ⟨z.getD (i * n + i) 0, 0⟩

/-- the row of the first Ritz value of a complex pair -/
def ritzPair [Zero T] (n : Nat) (z : List T) (i : Nat) : List (Cx T) :=
  (List.range n).map fun j => ⟨z.getD (i * n + j) 0, z.getD ((i + 1) * n + j) 0⟩

structure AsmInv [Zero T] [Neg T] (n nev : Nat) (r : Ritz T) (c i nc : Nat) (zz : List (List (Cx T))) : Prop where
  head : i ≤ nev → RitzHead r.di i
  le : i ≤ nev + 1
  nc1 : i ≤ nev → nc = c
  nc2 : i = nev + 1 → (RitzHead r.di nev → r.di[nev]? ≠ some 0 → nc = c - 1) ∧
    (¬ RitzHead r.di nev ∨ r.di[nev]? = some 0 → nc = c)
  len : zz.length = nev + 1
  row : ∀ q ∈ zz, q.length = n
  real : ∀ k < i, RitzHead r.di k → r.di[k]? = some 0 → zz[k]? = some (ritzReal n r.z k)
  pair : ∀ k < i, RitzHead r.di k → k < nev → r.di[k]? ≠ some 0 →
    zz[k]? = some (ritzPair n r.z k) ∧ zz[k + 1]? = some ((ritzPair n r.z k).map Cx.conj)

theorem eigs_assemble_ok [Zero T] [Neg T] [DecidableEq T] {n nev : Nat} {s : Arpack T} {r : Ritz T} {c : Int}
    (hn : nev < n) (hc : s.iparam[4]? = some c) (hc1 : 1 ≤ c) (hc2 : c < 2 ^ 31) (hdr : r.dr.length = nev + 1)
    (hdi : r.di.length = nev + 1) (hz : r.z.length = n * (nev + 1)) :
    Ok (eigs_assemble n nev s r) fun o => ∃ nc, AsmInv n nev r c.toNat (nev + 1) nc o.2 ∧
      o.1 = (r.dr.map fun x => ⟨x, x⟩).take nc := by
  have hcu : asUsize c = c.toNat := by unfold asUsize; omega
  unfold eigs_assemble
  simp only [Ok_bind, Ok_rd]
  refine ⟨c, hc, ?_⟩
  rw [hcu]
  refine Ok_forRange (fun i d => d = (r.dr.take i).map fun x => (⟨x, x⟩ : Cx T)) (by omega) (by simp) ?_ ?_
  · rintro i d _ hi rfl
    wp
    refine ⟨r.dr[i], by simp [hdr, hi], _, rfl, ?_⟩
    rw [List.take_add_one, List.map_append]
    simp [hdr, hi]
  rintro d rfl
  have hfull : r.dr.take (nev + 1) = r.dr := List.take_of_length_le (by omega)
  rw [hfull]
  refine Ok_whileN (fun k st => k = nev + 1 - st.1 ∧ AsmInv n nev r c.toNat st.1 st.2.1 st.2.2) (k := nev + 1) (by omega)
    ⟨by simp, ?_⟩ ?_
  · exact ⟨fun _ => .first, by omega, fun _ => rfl, by omega, by simp, by simp, by omega, by omega⟩
  · rintro k ⟨i, nc, zz⟩ ⟨hk, h⟩
    simp only at hk h ⊢
    by_cases hi : i < nev + 1
    · rw [if_pos hi]
      wp
      have hdi' : i < r.di.length := by omega
      refine ⟨r.di[i], by simp [hdi'], ?_⟩
      have hin : i * n + n ≤ r.z.length := by
        have := Nat.mul_le_mul_right n (by omega : i + 1 ≤ nev + 1)
        rw [hz, Nat.mul_comm n]; rw [Nat.add_mul] at this; omega
      have hh0 : RitzHead r.di i := h.head (by omega)
      by_cases h0 : r.di[i] = 0
      · have h0' : r.di[i]? = some 0 := by simp [hdi', h0]
        rw [if_pos (by simpa using h0)]
        wp
        refine ⟨⟨by omega, hin⟩, ?_⟩
        refine Ok_forRange (fun j (m : List (List (Cx T))) => m.length = nev + 1 ∧ (∀ q ∈ m, q.length = n) ∧ (∀ k ≠ i, m[k]? = zz[k]?) ∧
          ∃ q, m[i]? = some q ∧ ∀ j' < j, q[j']? = some ⟨r.z.getD (i * n + i) 0, 0⟩) (by omega) ?_ ?_ ?_
        · have : i < zz.length := by rw [h.len]; omega
          exact ⟨h.len, h.row, fun _ _ => rfl, zz[i], by simp, by omega⟩
        · rintro j m _ hj ⟨hm1, hm2, hm3, q, hq, hq2⟩
          wp
          have hql : q.length = n := hm2 _ (List.mem_of_getElem? hq)
          have hi' : i < m.length := by omega
          refine ⟨r.z.getD (i * n + i) 0, ?_, ?_⟩
          · rw [List.getElem?_take, if_pos (by omega), List.getElem?_drop, List.getD_eq_getElem?_getD,
              List.getElem?_eq_getElem (by omega)]
            rfl
          refine Ok_of_eq (matSet_ok hq (by omega)) ?_
          refine ⟨_, rfl, by simpa using hm1, ?_, ?_, q.set j ⟨r.z.getD (i * n + i) 0, 0⟩, by simp [hi'], ?_⟩
          · intro q' hq'
            rcases List.mem_or_eq_of_mem_set hq' with h1 | h1
            · exact hm2 _ h1
            · rw [h1]; simpa using hql
          · intro k hk
            rw [List.getElem?_set_ne (by omega)]
            exact hm3 k hk
          · intro j' hj'
            by_cases e : j = j'
            · subst e; simp [hql, hj]
            · rw [List.getElem?_set_ne e]; exact hq2 _ (by omega)
        · rintro m ⟨hm1, hm2, hm3, q, hq, hq2⟩
          have hql : q.length = n := hm2 _ (List.mem_of_getElem? hq)
          have hqe := rows_full hql hq2
          refine ⟨nev + 1 - (i + 1), by omega, rfl, fun _ => .real hh0 h0', by omega, fun hle => h.nc1 (by omega), ?_, hm1, hm2, ?_, ?_⟩
          · intro e
            have : i = nev := by omega
            subst this
            exact ⟨fun _ h1 => absurd h0' h1, fun _ => h.nc1 (by omega)⟩
          · intro k hk hh hd
            by_cases e : k = i
            · subst e; rw [hq, hqe]; rfl
            · rw [hm3 k e]; exact h.real k (by omega) hh hd
          · intro k hk hh hkn hd
            have e : k ≠ i := by rintro rfl; exact hd h0'
            obtain ⟨h1, h2⟩ := h.pair k (by omega) hh hkn hd
            obtain ⟨x, hx⟩ : ∃ x, r.di[k]? = some x := ⟨_, List.getElem?_eq_getElem (by omega)⟩
            have := hh0.gap hh (by omega) hx (by rintro rfl; exact hd hx)
            rw [hm3 k e, hm3 (k + 1) (by omega)]
            exact ⟨h1, h2⟩
      · have h0' : r.di[i]? ≠ some 0 := by simp [hdi', h0]
        rw [if_neg (by simpa using h0)]
        by_cases hin' : i < nev
        · rw [if_pos hin']
          wp
          have hin2 : (i + 1) * n + n ≤ r.z.length := by
            have := Nat.mul_le_mul_right n (by omega : i + 1 + 1 ≤ nev + 1)
            rw [hz, Nat.mul_comm n]; rw [Nat.add_mul] at this; omega
          refine ⟨⟨by omega, hin⟩, ⟨by omega, hin2⟩, ?_⟩
          refine Ok_forRange (fun j (m : List (List (Cx T))) => m.length = nev + 1 ∧ (∀ q ∈ m, q.length = n) ∧
            (∀ k ≠ i, k ≠ i + 1 → m[k]? = zz[k]?) ∧
            ∃ q q', m[i]? = some q ∧ m[i + 1]? = some q' ∧ ∀ j' < j,
              q[j']? = some ⟨r.z.getD (i * n + j') 0, r.z.getD ((i + 1) * n + j') 0⟩ ∧
              q'[j']? = some (Cx.conj ⟨r.z.getD (i * n + j') 0, r.z.getD ((i + 1) * n + j') 0⟩)) (by omega) ?_ ?_ ?_
          · have h1 : i < zz.length := by rw [h.len]; omega
            have h2 : i + 1 < zz.length := by rw [h.len]; omega
            exact ⟨h.len, h.row, fun _ _ _ => rfl, zz[i], zz[i + 1], by simp, by simp, by omega⟩
          · rintro j m _ hj ⟨hm1, hm2, hm3, q, q', hq, hq', hq2⟩
            wp
            have hql : q.length = n := hm2 _ (List.mem_of_getElem? hq)
            have hql' : q'.length = n := hm2 _ (List.mem_of_getElem? hq')
            have hi' : i < m.length := by omega
            refine ⟨r.z.getD (i * n + j) 0, ?_, r.z.getD ((i + 1) * n + j) 0, ?_, ?_⟩
            · rw [List.getElem?_take, if_pos (by omega), List.getElem?_drop, List.getD_eq_getElem?_getD,
                List.getElem?_eq_getElem (by omega)]
              rfl
            · rw [List.getElem?_take, if_pos (by omega), List.getElem?_drop, List.getD_eq_getElem?_getD,
                List.getElem?_eq_getElem (by omega)]
              rfl
            refine Ok_of_eq (matSet_ok hq (by omega)) ?_
            unfold matGet
            wp
            refine ⟨_, List.getElem?_set_self (by omega), _, List.getElem?_set_self (by omega), ?_⟩
            refine Ok_of_eq (matSet_ok (r := q') (by rw [List.getElem?_set_ne (by omega)]; exact hq') (by omega)) ?_
            refine ⟨_, rfl, by simpa using hm1, ?_, ?_, q.set j ⟨r.z.getD (i * n + j) 0, r.z.getD ((i + 1) * n + j) 0⟩,
              q'.set j (Cx.conj ⟨r.z.getD (i * n + j) 0, r.z.getD ((i + 1) * n + j) 0⟩), ?_, ?_, ?_⟩
            · intro w hw
              rcases List.mem_or_eq_of_mem_set hw with h1 | h1
              · rcases List.mem_or_eq_of_mem_set h1 with h1 | h1
                · exact hm2 _ h1
                · rw [h1]; simpa using hql
              · rw [h1]; simpa using hql'
            · intro k hk hk'
              rw [List.getElem?_set_ne (by omega), List.getElem?_set_ne (by omega)]
              exact hm3 k hk hk'
            · rw [List.getElem?_set_ne (by omega), List.getElem?_set_self (by omega)]
            · rw [List.getElem?_set_self (by simp; omega)]
            · intro j' hj'
              by_cases e : j = j'
              · subst e; simp [hql, hql', hj]
              · rw [List.getElem?_set_ne e, List.getElem?_set_ne e]; exact hq2 _ (by omega)
          · rintro m ⟨hm1, hm2, hm3, q, q', hq, hq', hq2⟩
            have hql : q.length = n := hm2 _ (List.mem_of_getElem? hq)
            have hql' : q'.length = n := hm2 _ (List.mem_of_getElem? hq')
            have hqe := rows_full hql fun j hj => (hq2 j hj).1
            have hqe' := rows_full hql' fun j hj => (hq2 j hj).2
            have hhead : RitzHead r.di (i + 2) := .pair hh0 (x := r.di[i]) (by simp) h0
            refine ⟨nev + 1 - (i + 2), by omega, rfl, fun _ => hhead, by omega, fun hle => h.nc1 (by omega), ?_, hm1, hm2, ?_, ?_⟩
            · intro e
              refine ⟨fun h1 _ => ?_, fun _ => h.nc1 (by omega)⟩
              · have := h1.gap hh0 (by omega) (x := r.di[i]) (by simp) h0
                omega
            · intro k hk hh hd
              have e1 : k ≠ i := by rintro rfl; exact h0' hd
              have e2 : k ≠ i + 1 := by
                rintro rfl
                have := hh.gap hh0 (by omega) (x := r.di[i]) (by simp) h0
                omega
              rw [hm3 k e1 e2]; exact h.real k (by omega) hh hd
            · intro k hk hh hkn hd
              have e2 : k ≠ i + 1 := by
                rintro rfl
                have := hh.gap hh0 (by omega) (x := r.di[i]) (by simp) h0
                omega
              by_cases e : k = i
              · subst e
                rw [hq, hq', hqe, hqe']
                simp [ritzPair]
              · obtain ⟨h1, h2⟩ := h.pair k (by omega) hh hkn hd
                obtain ⟨x, hx⟩ : ∃ x, r.di[k]? = some x := ⟨_, List.getElem?_eq_getElem (by omega)⟩
                have := hh0.gap hh (by omega) hx (by rintro rfl; exact hd hx)
                rw [hm3 k e e2, hm3 (k + 1) (by omega) (by omega)]
                exact ⟨h1, h2⟩
        · rw [if_neg hin']
          have : i = nev := by omega
          subst this
          wp
          have hnc := h.nc1 (by omega)
          refine ⟨by omega, i + 1 - (i + 1), by omega, rfl, by omega, by omega, by omega, ?_, h.len, h.row, ?_, ?_⟩
          · exact fun _ => ⟨fun _ _ => by rw [hnc], fun h1 => absurd (h1.resolve_left (fun h2 => h2 hh0)) h0'⟩
          · intro k hk hh hd
            by_cases e : k = i
            · subst e; exact absurd hd h0'
            · exact h.real k (by omega) hh hd
          · intro k hk hh hkn hd
            exact h.pair k hkn hh hkn hd
    · rw [if_neg hi]
      wp
      have hi' : i = nev + 1 := by have := h.le; omega
      subst hi'
      by_cases hnc : nc ≤ nev
      · rw [if_pos hnc]
        wp
        refine ⟨⟨by omega, by simp; omega⟩, nc, h, by simp⟩
      · rw [if_neg hnc]
        wp
        refine ⟨nc, h, ?_⟩
        rw [List.take_of_length_le (by simp; omega)]


theorem eigs_product_ok [NonUnitalNonAssocSemiring T] {t : IntTy} {a : CSC T} (ha : a.WF t) {n : Nat} (hr : a.rows = n)
    (hc : a.cols = n) {s : Arpack T} (hw : s.workd.length = 3 * n) {p : Int} (hp : s.ipntr[0]? = some p) (hp1 : 1 ≤ p)
    (hp2 : p ≤ 2 * n + 1) (hp3 : p < 2 ^ 31) (hq : s.ipntr[1]? = some (2 * (n : Int) + 1)) (hq2 : (2 * n + 1 : Int) < 2 ^ 31) :
    eigs_product a n s = .ok { s with
      workd := s.workd.take (2 * n) ++ (List.range n).map fun i =>
        ∑ k ∈ Finset.range n, a.entry i k * s.workd.getD (p.toNat - 1 + k) 0 } := by
  have hpu : asUsize p = p.toNat := by unfold asUsize; omega
  have hqu : asUsize (2 * n + 1) = 2 * n + 1 := by unfold asUsize; omega
  suffices h : Ok (eigs_product a n s) (· = { s with
      workd := s.workd.take (2 * n) ++ (List.range n).map fun i =>
        ∑ k ∈ Finset.range n, a.entry i k * s.workd.getD (p.toNat - 1 + k) 0 }) by
    obtain ⟨b, h1, rfl⟩ := h; exact h1
  unfold eigs_product
  wp
  refine ⟨p, hp, ?_, ⟨by omega, by omega⟩, ?_⟩
  · omega
  refine Ok_of_eq ((C12_csc_mat_vec t a ha _).2 ?_) ?_
  · simp; omega
  refine ⟨_, hq, by rw [hqu]; omega, ?_⟩
  unfold copyFrom
  wp
  rw [hqu]
  refine ⟨by omega, ?_⟩
  rw [if_neg (by simp; omega)]
  wp
  congr 1
  rw [show 2 * n + 1 - 1 = 2 * n by omega, hr, hc]
  congr 1
  apply List.map_congr_left
  intro i _
  apply Finset.sum_congr rfl
  intro k hk
  have hk := Finset.mem_range.1 hk
  congr 1
  rw [List.getD_eq_getElem?_getD, List.getD_eq_getElem?_getD, List.getElem?_take, if_pos (by omega), List.getElem?_drop, hpu]


/-- lengths of the buffers during the iteration -/
structure ArpackLen (n ncv : Nat) (s : Arpack T) : Prop where
  resid : s.resid.length = n
  v : s.v.length = n * ncv
  iparam : s.iparam.length = 11
  ipntr : s.ipntr.length = 14
  workd : s.workd.length = 3 * n
  workl : s.workl.length = 3 * ncv * (ncv + 2)

theorem ArpackLen.naupd {n ncv : Nat} {s : Arpack T} (h : ArpackLen n ncv s) {lib : ArpackLib T} (hl : lib.Sized) (k : Nat)
    (c : ArpackArgs) : ArpackLen n ncv (lib.naupd k c s) :=
  ⟨(hl.resid k c s).trans h.resid, (hl.v k c s).trans h.v, (hl.iparam k c s).trans h.iparam,
    (hl.ipntr k c s).trans h.ipntr, (hl.workd k c s).trans h.workd, (hl.workl k c s).trans h.workl⟩

theorem ArpackLen.product [Zero T] [Add T] [Mul T] {n ncv : Nat} {s s' : Arpack T} (h : ArpackLen n ncv s) {a : CSC T}
    (hp : eigs_product a n s = .ok s') : ArpackLen n ncv s' := by
  suffices hw : WP (eigs_product a n s) (ArpackLen n ncv) (fun _ => True) by
    rw [hp] at hw; exact hw
  unfold eigs_product
  rw [WP_bind]
  refine WP_any fun _ => ?_
  rw [WP_bind]
  refine WP_any fun _ => ?_
  rw [WP_bind]
  refine WP_any fun _ => ?_
  rw [WP_bind]
  refine WP_any fun y => ?_
  rw [WP_bind]
  refine WP_any fun _ => ?_
  rw [WP_bind]
  refine WP_any fun y0 => ?_
  unfold copyFrom List.sliceFrom
  rw [WP_bind, WP_bind, WP_ite]
  refine ⟨fun h1 => ?_, fun _ => trivial⟩
  rw [WP_pure, WP_ite]
  refine ⟨fun _ => trivial, fun h2 => ?_⟩
  refine ⟨h.resid, h.v, h.iparam, h.ipntr, ?_, h.workl⟩
  have := h.workd
  simp at h2 ⊢
  omega

theorem eigs_iterate_ok [NonUnitalNonAssocSemiring T] {t : IntTy} {a : CSC T} (ha : a.WF t) {n ncv nev fuel : Nat}
    (hr : a.rows = n) (hc : a.cols = n) (hn : (2 * n + 1 : Int) < 2 ^ 31) {lib : ArpackLib T} (hl : lib.Sized) (hs : lib.Serves n fuel) :
    Ok (eigs_iterate lib fuel a n ncv nev) (ArpackLen n ncv) := by
  obtain ⟨K, hK, hstop⟩ := hs.stops
  unfold eigs_iterate
  rw [eigs_init_eq]
  wp
  refine Ok_whileN (fun k st => st.1 = K + 1 - k ∧ k ≤ K ∧ ArpackLen n ncv st.2 ∧ ∃ c s0, st.2 = lib.naupd (K - k) c s0) (k := K)
    (by omega) ⟨by simp, Nat.le_refl _, ?_, _, _, by rw [Nat.sub_self]⟩ ?_
  · exact ArpackLen.naupd ⟨by simp, by simp, by simp, by simp, by simp, by simp⟩ hl 0 _
  · rintro k ⟨j, s⟩ ⟨hj, hk, hlen, c, s0, rfl⟩
    simp only at hj hlen ⊢
    by_cases hi : (lib.naupd (K - k) c s0).ido = 1
    · rw [if_pos hi]
      obtain ⟨p, h1, h2, h3, h4⟩ := hs.request _ _ _ ((hl.ipntr _ _ _).symm.trans hlen.ipntr) hi
      have hk0 : k ≠ 0 := by
        rintro rfl
        exact hstop _ _ hi
      obtain rfl : j = K - (k - 1) := by omega
      rw [Ok_bind]
      have hprod := eigs_product_ok ha hr hc hlen.workd h1 h2 h3 (by omega) h4 hn
      refine Ok_of_eq hprod ?_
      wp
      refine ⟨k - 1, by omega, by omega, by omega, ?_, _, _, rfl⟩
      exact (hlen.product hprod).naupd hl _ _
    · rw [if_neg hi]
      wp
      rw [if_neg (by have := hs.info (K - k) c s0; omega)]
      wp
      exact hlen

end
end Sparse

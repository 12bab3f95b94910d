import Verif.Lemmas.Eigen
import Verif.Props.Complex
/-! C51 and C52: the eigenvalue driver `eigs`, for every behaviour of the foreign library. -/
namespace Sparse

section
variable {T : Type} [Zero T] [Add T] [Mul T] [Neg T] [DecidableEq T]

/-! ### C51: validation -/

/-- C51: a matrix that is not square, and a number of eigenvalues too large for the matrix, are refused. -/
theorem C51_eigs_rejects (lib : ArpackLib T) (fuel : Nat) (a : CSC T) (nev : Nat) :
    (a.rows ≠ a.cols → eigs lib fuel a nev = .error .err) ∧
    (a.rows = a.cols → 0 < a.rows → a.rows ≤ nev + 1 → eigs lib fuel a nev = .error .err) := by
  constructor
  · intro h
    unfold eigs
    rw [eigs_check_eq, if_pos h]
    rfl
  · intro h h0 h1
    unfold eigs
    rw [eigs_check_eq, if_neg (by omega), if_neg (by omega), if_pos h1]
    rfl

/-- C51 fails for the matrix without rows: the call panics where it should refuse. -/
theorem C51_eigs_empty_panics (lib : ArpackLib T) (fuel : Nat) (a : CSC T) (nev : Nat) (h0 : a.rows = 0)
    (h1 : a.cols = 0) : eigs lib fuel a nev = .error (.panic .arith) := by
  unfold eigs
  rw [eigs_check_eq, if_neg (by omega), if_pos h0]
  rfl

end

/-! ### C51: the reverse communication loop -/

section
variable {T : Type} [NonUnitalNonAssocSemiring T] [Neg T] [DecidableEq T]

/-- C51 fails: a library whose first call asks for a product with the result anywhere in `workd` but the last third
makes the driver panic (`copy_from_slice` gets slices of different lengths). -/
theorem C51_eigs_request_panics (lib : ArpackLib T) (hl : lib.Sized) (fuel : Nat) (a : CSC T) (ha : a.WF .usize) (nev : Nat)
    (hsq : a.rows = a.cols) (hnev : nev + 1 < a.rows) (p q : Int)
    (hreq : ∀ c s, s.ipntr.length = 14 → (lib.naupd 0 c s).ido = 1 ∧ (lib.naupd 0 c s).ipntr[0]? = some p ∧ (lib.naupd 0 c s).ipntr[1]? = some q)
    (hp : 1 ≤ p ∧ p ≤ 2 * a.rows + 1 ∧ p < 2 ^ 31) (hq : 1 ≤ q ∧ q ≤ 2 * a.rows ∧ q < 2 ^ 31) :
    eigs lib (fuel + 1) a nev = .error (.panic .assert) := by
  apply WP.fails_eq
  unfold eigs
  rw [eigs_check_eq, if_neg (by omega), if_neg (by omega), if_neg (by omega)]
  simp only [WP_bind, WP_ok]
  unfold eigs_iterate
  rw [eigs_init_eq]
  simp only [WP_bind, WP_ok]
  generalize hs : lib.naupd 0 _ _ = s
  obtain ⟨h1, h2, h3⟩ : s.ido = 1 ∧ s.ipntr[0]? = some p ∧ s.ipntr[1]? = some q := hs ▸ hreq _ _ rfl
  have hw : s.workd.length = 3 * a.rows := by rw [← hs, hl.workd]; simp
  have hpu : asUsize p = p.toNat := by unfold asUsize; omega
  have hqu : asUsize q = q.toNat := by unfold asUsize; omega
  have hprod : eigs_product a a.rows s = .error (.panic .assert) := by
    apply WP.fails_eq
    unfold eigs_product copyFrom List.slice List.sliceFrom
    wpe
    rw [h2, h3]
    simp only [Option.some.injEq, reduceCtorEq, false_implies, and_true, forall_eq', hpu, hqu]
    refine ⟨fun h4 => ?_, fun h4 => by omega⟩
    rw [if_pos (by omega), WP_pure]
    refine WP_of_ok (Ok_of_eq ((C12_csc_mat_vec _ a ha _).2 (by simp; omega)) ?_)
    refine ⟨fun h5 => ?_, fun h5 => by omega⟩
    rw [if_pos (by omega), WP_pure, if_pos (by simp; omega)]
    rfl
  unfold whileM
  simp only [WP_bind]
  rw [if_pos h1, WP_bind, hprod]
  rfl

/-- C51: a request that can be served is served with the product of the matrix and the block of `workd` starting at
the (1-based) position `p` asked for; the rest of the variables is left alone. -/
theorem C51_eigs_product (a : CSC T) (ha : a.WF .usize) (hsq : a.rows = a.cols) (s : Arpack T) (hw : s.workd.length = 3 * a.rows)
    (p : Int) (hp : s.ipntr[0]? = some p) (hp1 : 1 ≤ p) (hp2 : p ≤ 2 * a.rows + 1)
    (hq : s.ipntr[1]? = some (2 * (a.rows : Int) + 1)) (hn : (2 * a.rows + 1 : Int) < 2 ^ 31) :
    ∃ s', eigs_product a a.rows s = .ok s' ∧ s' = { s with workd := s'.workd } ∧ s'.workd.length = 3 * a.rows ∧
      (∀ k < 2 * a.rows, s'.workd[k]? = s.workd[k]?) ∧
      ∀ i < a.rows, s'.workd[2 * a.rows + i]? =
        some (∑ k ∈ Finset.range a.cols, a.entry i k * s.workd.getD (p.toNat - 1 + k) 0) := by
  refine ⟨_, eigs_product_ok ha rfl hsq.symm hw hp hp1 hp2 (by omega) hq hn, rfl, by simp; omega, ?_, ?_⟩
  · intro k hk
    simp only
    rw [List.getElem?_append_left (by simp; omega), List.getElem?_take, if_pos hk]
  · intro i hi
    simp only
    rw [List.getElem?_append_right (by simp), ← hsq]
    have : 2 * a.rows + i - min (2 * a.rows) s.workd.length = i := by omega
    simp [this, hi]

/-! ### C51: the result -/

/-- C51, the part that holds. The full statement says that the eigenvalues returned are `dr[i] + i di[i]` and that
row `k` of the second result is the Ritz vector of eigenvalue `k`. Proved: the real parts of the eigenvalues, their
number, and the vectors of complex pairs. Missing because false: the imaginary parts and the vectors of real
eigenvalues (see the counterexamples). `o` is what `dneupd` delivers. -/
theorem C51_eigs_result_partial (lib : ArpackLib T) (hl : lib.Sized) (fuel : Nat) (a : CSC T) (ha : a.WF .usize) (nev : Nat)
    (hsq : a.rows = a.cols) (hnev : nev + 1 < a.rows) (hn : (2 * a.rows + 1 : Int) < 2 ^ 31) (hs : lib.Serves a.rows fuel) :
    ∃ d zz c ldz s r, eigs lib fuel a nev = .ok (d, zz) ∧
      let o := lib.neupd c ldz s r
      (∀ (i : Nat) z, d[i]? = some z → o.2.dr[i]? = some z.re) ∧
      (∀ m, o.1.iparam[4]? = some m →
        (RitzHead o.2.di nev ∧ o.2.di[nev]? ≠ some 0 → d.length = min (m.toNat - 1) (nev + 1)) ∧
        (¬ RitzHead o.2.di nev ∨ o.2.di[nev]? = some 0 → d.length = min m.toNat (nev + 1))) ∧
      zz.length = nev + 1 ∧ (∀ q ∈ zz, q.length = a.rows) ∧
      ∀ k < nev, RitzHead o.2.di k → o.2.di[k]? ≠ some 0 → ∀ j < a.rows,
        ∃ re im, o.2.z[k * a.rows + j]? = some re ∧ o.2.z[(k + 1) * a.rows + j]? = some im ∧
          (zz[k]?.bind fun q => q[j]?) = some ⟨re, im⟩ ∧ (zz[k + 1]?.bind fun q => q[j]?) = some ⟨re, -im⟩ := by
  obtain ⟨s, hit, hlen⟩ := eigs_iterate_ok (nev := nev) (ncv := min a.rows (2 * nev + 1)) ha rfl hsq.symm hn hl hs
  let r0 : Ritz T := ⟨List.replicate (nev + 1) 0, List.replicate (nev + 1) 0, List.replicate (a.rows * (nev + 1)) 0⟩
  let c := eigs_args a.rows (min a.rows (2 * nev + 1)) nev
  let ldz := asI32 (a.rows + 1)
  let o := lib.neupd c ldz s r0
  obtain ⟨m, hm, hm1, hm2⟩ := hs.conv c ldz s r0 hlen.iparam
  have hdr : o.2.dr.length = nev + 1 := (hl.dr c ldz s r0).trans (by simp [r0])
  have hdi : o.2.di.length = nev + 1 := (hl.di c ldz s r0).trans (by simp [r0])
  have hz : o.2.z.length = a.rows * (nev + 1) := (hl.z c ldz s r0).trans (by simp [r0])
  obtain ⟨⟨d, zz⟩, hasm, nc, hinv, hd⟩ := eigs_assemble_ok (s := o.1) (r := o.2) (by omega : nev < a.rows) hm hm1 hm2 hdr hdi hz
  refine ⟨d, zz, c, ldz, s, r0, ?_, ?_⟩
  · unfold eigs
    rw [eigs_check_eq, if_neg (by omega), if_neg (by omega), if_neg (by omega)]
    change (eigs_iterate lib fuel a a.rows (min a.rows (2 * nev + 1)) nev >>= fun s =>
      eigs_extract lib a.rows (min a.rows (2 * nev + 1)) nev s >>= fun x => eigs_assemble a.rows nev x.1 x.2) = _
    rw [hit]
    change (eigs_extract lib a.rows (min a.rows (2 * nev + 1)) nev s >>= fun x => eigs_assemble a.rows nev x.1 x.2) = _
    have : eigs_extract lib a.rows (min a.rows (2 * nev + 1)) nev s = .ok o := by
      unfold eigs_extract
      simp only
      rw [if_neg (by simpa using hs.info' c ldz s r0)]
      rfl
    rw [this]
    exact hasm
  · simp only at hd hinv ⊢
    change (∀ (i : Nat) z, d[i]? = some z → o.2.dr[i]? = some z.re) ∧ _
    refine ⟨?_, ?_, hinv.len, hinv.row, ?_⟩
    · intro i z hz
      rw [hd, List.getElem?_take] at hz
      split at hz
      · rw [List.getElem?_map] at hz
        cases hx : o.2.dr[i]? with
        | none => simp [hx] at hz
        | some x => simp [hx] at hz; rw [← hz]
      · simp at hz
    · intro m' hm'
      rw [show lib.neupd c ldz s r0 = o from rfl] at hm hm' ⊢
      rw [hm] at hm'
      cases hm'
      have hlen : d.length = min nc (nev + 1) := by rw [hd]; simp [hdr]
      obtain ⟨h1, h2⟩ := hinv.nc2 rfl
      exact ⟨fun h => by rw [hlen, h1 h.1 h.2], fun h => by rw [hlen, h2 h]⟩
    · intro k hk hh hd0 j hj
      obtain ⟨h1, h2⟩ := hinv.pair k (by omega) hh hk hd0
      have hb1 := Nat.mul_le_mul_right a.rows (by omega : k + 2 ≤ nev + 1)
      have hb1' : (k + 1) * a.rows + j < o.2.z.length := by
        rw [hz, Nat.mul_comm a.rows]; rw [Nat.add_mul] at hb1 ⊢; omega
      have hb2' : k * a.rows + j < o.2.z.length := by
        rw [Nat.add_mul] at hb1'; omega
      refine ⟨_, _, List.getElem?_eq_getElem hb2', List.getElem?_eq_getElem hb1', ?_, ?_⟩
      · rw [h1]
        simp [ritzPair, hj, List.getElem?_eq_getElem hb1', List.getElem?_eq_getElem hb2']
      · rw [h2]
        simp [ritzPair, hj, List.getElem?_eq_getElem hb1', List.getElem?_eq_getElem hb2', Cx.conj]

end

/-! ### C51: what is wrong with the result -/

/-- a library that needs no iteration and delivers `dr = [2, 3, 5]`, `di = [0, 4, -4]` and the vectors `z` -/
def exLib : ArpackLib Int where
  naupd _ _ s := { s with ido := 99, info := 0 }
  neupd _ _ s r := ({ s with info := 0, iparam := s.iparam.set 4 3 },
    ⟨[2, 3, 5].take r.dr.length ++ List.replicate (r.dr.length - 3) 0,
     [0, 4, -4].take r.di.length ++ List.replicate (r.di.length - 3) 0,
     (List.range r.z.length).map fun k => (k : Int) + 10⟩)

/-- a library that asks for one product, served in the last third of `workd`, before it delivers the same -/
def exLib' : ArpackLib Int where
  naupd k _ s := { s with ido := if k = 0 then 1 else 99, ipntr := (s.ipntr.set 0 1).set 1 9, info := 0 }
  neupd := exLib.neupd

theorem exLib_sized : exLib.Sized := by
  constructor <;> intros <;> simp [exLib] <;> omega

theorem exLib_serves (n fuel : Nat) : exLib.Serves n (fuel + 1) := by
  constructor <;> intros <;> simp_all [exLib]
  exact ⟨0, by omega⟩

/-- a 4 by 4 matrix -/
def exEig : CSC Int := ⟨4, 4, [0, 1, 2, 3], [0, 1, 2, 3, 4], [1, 2, 3, 4]⟩

theorem exEig_wf : exEig.WF .usize := CSC.wf_of (by decide)

theorem exLib'_sized : exLib'.Sized := by
  constructor <;> intros <;> simp [exLib', exLib] <;> omega

theorem exLib'_serves (fuel : Nat) : exLib'.Serves 4 (fuel + 2) := by
  constructor <;> intros <;> simp_all [exLib', exLib]
  exact ⟨1, by omega, by omega⟩

/-- the hypotheses of `C51_eigs_result_partial` are met, with and without products -/
example : exEig.WF .usize ∧ exEig.rows = exEig.cols ∧ 2 + 1 < exEig.rows ∧ exLib.Sized ∧ exLib.Serves exEig.rows 1 ∧
    exLib'.Sized ∧ exLib'.Serves exEig.rows 2 :=
  ⟨exEig_wf, rfl, by decide, exLib_sized, exLib_serves _ _, exLib'_sized, exLib'_serves _⟩

/-- C51 fails: the eigenvalue 2 delivered as `dr[0] = 2`, `di[0] = 0` is returned as `2 + 2i`, and `3 + 4i` as `3 + 3i`. -/
theorem C51_eigs_values_counterexample : ∃ d zz, eigs exLib 1 exEig 2 = .ok (d, zz) ∧
    (∀ c ldz s, let o := (exLib.neupd c ldz s ⟨[0, 0, 0], [0, 0, 0], List.replicate 12 0⟩).2
      o.dr = [2, 3, 5] ∧ o.di = [0, 4, -4]) ∧
    d[0]? = some ⟨2, 2⟩ ∧ d[1]? = some ⟨3, 3⟩ := by
  refine ⟨_, _, rfl, ?_, ?_⟩
  · intros; exact ⟨rfl, rfl⟩
  · decide +kernel

/-- C51 fails: the vector `10, 11, 12, 13` of the first, real eigenvalue is returned as `10, 10, 10, 10`. -/
theorem C51_eigs_vector_counterexample : ∃ d zz, eigs exLib 1 exEig 2 = .ok (d, zz) ∧
    (∀ c ldz s, let o := (exLib.neupd c ldz s ⟨[0, 0, 0], [0, 0, 0], List.replicate 12 0⟩).2
      o.di[0]? = some 0 ∧ o.z.take 4 = [10, 11, 12, 13]) ∧
    zz[0]? = some [⟨10, 0⟩, ⟨10, 0⟩, ⟨10, 0⟩, ⟨10, 0⟩] := by
  refine ⟨_, _, rfl, ?_, ?_⟩
  · intros; exact ⟨rfl, rfl⟩
  · decide +kernel

/-- C51 fails: `nev = 0` lies outside the documented range `0 < nev < n - 1` and is not refused. -/
theorem C51_eigs_zero_nev_accepted : ∃ r, eigs exLib 1 exEig 0 = .ok r := ⟨_, rfl⟩

/-- a library that asks for a product as ARPACK's first step does: from the first third of `workd` to the second -/
def exAsk : ArpackLib Int where
  naupd k _ s := { s with ido := if k = 0 then 1 else 99, ipntr := (s.ipntr.set 0 1).set 1 5, info := 0 }
  neupd := exLib.neupd

/-- it meets the hypotheses of `C51_eigs_request_panics` -/
example : exAsk.Sized ∧ ∀ c s, s.ipntr.length = 14 → (exAsk.naupd 0 c s).ido = 1 ∧
    (exAsk.naupd 0 c s).ipntr[0]? = some 1 ∧ (exAsk.naupd 0 c s).ipntr[1]? = some 5 := by
  refine ⟨?_, ?_⟩
  · constructor <;> intros <;> simp [exAsk, exLib] <;> omega
  · intros; simp_all [exAsk]

/-! ### C52: the buffers lent to the library -/

section
variable {T : Type} [Zero T] [Add T] [Mul T] [Neg T] [DecidableEq T]

theorem asI32_id {n : Nat} (h : n < 2 ^ 31) : asI32 n = n := by
  unfold asI32
  rw [if_pos (by omega)]
  omega

theorem ArpackLen.pre {n nev : Nat} (h0 : 0 < nev) (h1 : nev + 1 < n) (h4 : n < 2 ^ 31)
    (h2 : 3 * min n (2 * nev + 1) * (min n (2 * nev + 1) + 2) < 2 ^ 31) {s : Arpack T}
    (hs : ArpackLen n (min n (2 * nev + 1)) s) : NaupdPre (eigs_args n (min n (2 * nev + 1)) nev) s := by
  generalize hm : min n (2 * nev + 1) = m at hs h2 ⊢
  have hmn : m ≤ n := by omega
  have e1 := asI32_id h4
  have e2 : asI32 m = m := asI32_id (by omega)
  have e3 : asI32 nev = nev := asI32_id (by omega)
  have e4 := asI32_id (n := 3 * m * (m + 2)) (by omega)
  unfold eigs_args
  rw [e1, e2, e3, e4]
  refine ⟨by simp; omega, ⟨by simp; omega, by simp; omega⟩, by simp [hs.resid], by simp, by simp [hs.v], by simp [hs.workd], ?_,
    by simp [hs.workl], hs.iparam, hs.ipntr⟩
  show 3 * ((m : Int) * m) + 6 * m ≤ ((3 * m * (m + 2) : Nat) : Int)
  push_cast
  rw [Int.mul_add, Int.mul_assoc]
  omega

theorem eigs_iterate_congr {lib lib' : ArpackLib T} (hl : lib.Sized) {n nev : Nat} (h0 : 0 < nev) (h1 : nev + 1 < n) (h4 : n < 2 ^ 31)
    (h2 : 3 * min n (2 * nev + 1) * (min n (2 * nev + 1) + 2) < 2 ^ 31) (hag : ∀ k c s, NaupdPre c s → lib.naupd k c s = lib'.naupd k c s) (a : CSC T) (fuel : Nat) :
    eigs_iterate lib fuel a n (min n (2 * nev + 1)) nev = eigs_iterate lib' fuel a n (min n (2 * nev + 1)) nev := by
  have key : ∀ (fuel k : Nat) (s : Arpack T), ArpackLen n (min n (2 * nev + 1)) s →
      (whileM fuel (k, s) fun (k, s) => do
        if s.ido = 1 then
          let s ← eigs_product a n s
          pure (.yield (k + 1, lib.naupd k (eigs_args n (min n (2 * nev + 1)) nev) s))
        else pure (.done (k, s)) : M (Nat × Arpack T)) =
      (whileM fuel (k, s) fun (k, s) => do
        if s.ido = 1 then
          let s ← eigs_product a n s
          pure (.yield (k + 1, lib'.naupd k (eigs_args n (min n (2 * nev + 1)) nev) s))
        else pure (.done (k, s))) := by
    intro fuel
    induction fuel with
    | zero => intros; rfl
    | succ f ih =>
      intro k s hs
      unfold whileM
      simp only
      by_cases hi : s.ido = 1
      · rw [if_pos hi, if_pos hi]
        cases hp : eigs_product a n s with
        | error e => rfl
        | ok s' =>
          have hs' := hs.product hp
          have e := hag k _ _ (hs'.pre h0 h1 h4 h2)
          change whileM f (k + 1, lib.naupd k _ s') _ = whileM f (k + 1, lib'.naupd k _ s') _
          rw [← e]
          exact ih _ _ (hs'.naupd hl _ _)
      · rw [if_neg hi, if_neg hi]
        rfl
  unfold eigs_iterate
  rw [eigs_init_eq]
  have hi : ArpackLen (T := T) n (min n (2 * nev + 1))
    { ido := 0, resid := List.replicate n 0, v := List.replicate (n * min n (2 * nev + 1)) 0,
      iparam := [1, 0, asI32 (n * 10), 1, 0, 0, 1, 0, 0, 0, 0],
      ipntr := List.replicate 14 0, workd := List.replicate (3 * n) 0,
      workl := List.replicate (3 * min n (2 * nev + 1) * (min n (2 * nev + 1) + 2)) 0, info := 0 } :=
    ⟨by simp, by simp, by simp, by simp, by simp, by simp⟩
  have e := hag 0 _ _ (hi.pre h0 h1 h4 h2)
  change (whileM fuel (1, lib.naupd 0 _ _) _ >>= _) = (whileM fuel (1, lib'.naupd 0 _ _) _ >>= _)
  rw [← e]
  rw [key fuel 1 _ (hi.naupd hl _ _)]

/-- C52: every call of `dnaupd` meets the documented preconditions: replacing the library by one that may do
anything at all when they are not met changes nothing. -/
theorem C52_naupd_preconditions (lib lib' : ArpackLib T) (hl : lib.Sized) (fuel : Nat) (a : CSC T) (nev : Nat) (h0 : 0 < nev)
    (hn : a.rows < 2 ^ 31) (hm : 3 * min a.rows (2 * nev + 1) * (min a.rows (2 * nev + 1) + 2) < 2 ^ 31)
    (hag : ∀ k c s, NaupdPre c s → lib.naupd k c s = lib'.naupd k c s)
    (hag' : lib.neupd = lib'.neupd) : eigs lib fuel a nev = eigs lib' fuel a nev := by
  unfold eigs
  rw [eigs_check_eq]
  by_cases h1 : a.rows ≠ a.cols
  · rw [if_pos h1]; rfl
  rw [if_neg h1]
  by_cases h2 : a.rows = 0
  · rw [if_pos h2]; rfl
  rw [if_neg h2]
  by_cases h3 : a.rows ≤ nev + 1
  · rw [if_pos h3]; rfl
  rw [if_neg h3]
  change (eigs_iterate lib fuel a a.rows (min a.rows (2 * nev + 1)) nev >>= _) =
    (eigs_iterate lib' fuel a a.rows (min a.rows (2 * nev + 1)) nev >>= _)
  rw [eigs_iterate_congr hl h0 (by omega) hn hm hag]
  unfold eigs_extract
  rw [hag']

end

/-- the hypotheses of `C52_naupd_preconditions` are met by libraries that differ -/
example : exLib.Sized ∧ exEig.rows < 2 ^ 31 ∧ 3 * min exEig.rows (2 * 1 + 1) * (min exEig.rows (2 * 1 + 1) + 2) < 2 ^ 31 ∧ ∃ lib' : ArpackLib Int,
    (∀ k c s, NaupdPre c s → exLib.naupd k c s = lib'.naupd k c s) ∧ exLib.neupd = lib'.neupd ∧ exLib.naupd ≠ lib'.naupd := by
  refine ⟨exLib_sized, by decide, by decide, { exLib with naupd := fun k c s => if c.nev ≤ 0 then { s with info := -3 } else exLib.naupd k c s },
    ?_, rfl, ?_⟩
  · intro k c s h
    simp only
    rw [if_neg (by have := h.nev; omega)]
  · intro h
    have := congrArg Arpack.info (congrFun (congrFun (congrFun h 0) ⟨0, 0, 0, 0, 0⟩) ⟨0, [], [], [], [], [], [], 0⟩)
    exact absurd this (by decide)

section
variable {T : Type} [Zero T] [Add T] [Mul T] [Neg T] [DecidableEq T]

/-- C52 fails for large bases: the length of the work array `workl` does not fit the 32-bit argument. Whatever the matrix, a library
that checks this argument as documented (error -7) makes `eigs` fail. -/
theorem C52_large_basis_fails (lib : ArpackLib T) (a : CSC T) (nev : Nat) (hsq : a.rows = a.cols) (hnev : nev + 1 < a.rows)
    (h1 : 2 ^ 31 ≤ 3 * min a.rows (2 * nev + 1) * (min a.rows (2 * nev + 1) + 2))
    (h2 : 3 * min a.rows (2 * nev + 1) * (min a.rows (2 * nev + 1) + 2) < 2 ^ 32)
    (hlib : ∀ k c s, c.lworkl < 3 * (c.ncv * c.ncv) + 6 * c.ncv → lib.naupd k c s = { s with ido := 99, info := -7 })
    (fuel : Nat) (hf : 0 < fuel) :
    (∀ s : Arpack T, ¬ NaupdPre (eigs_args a.rows (min a.rows (2 * nev + 1)) nev) s) ∧ eigs lib fuel a nev = .error .err := by
  have hneg : (eigs_args a.rows (min a.rows (2 * nev + 1)) nev).lworkl < 0 := by
    show asI32 _ < 0
    generalize 3 * min a.rows (2 * nev + 1) * (min a.rows (2 * nev + 1) + 2) = w at h1 h2
    unfold asI32
    rw [Nat.mod_eq_of_lt h2, if_neg (by omega)]
    omega
  have hm : min a.rows (2 * nev + 1) < 2 ^ 31 := by
    generalize min a.rows (2 * nev + 1) = m at h1 h2
    have := Nat.mul_le_mul_left (3 * m) (by omega : 1 ≤ m + 2)
    omega
  have hncv : (eigs_args a.rows (min a.rows (2 * nev + 1)) nev).ncv = (min a.rows (2 * nev + 1) : Nat) := asI32_id hm
  have hlt : (eigs_args a.rows (min a.rows (2 * nev + 1)) nev).lworkl <
      3 * ((eigs_args a.rows (min a.rows (2 * nev + 1)) nev).ncv * (eigs_args a.rows (min a.rows (2 * nev + 1)) nev).ncv) +
        6 * (eigs_args a.rows (min a.rows (2 * nev + 1)) nev).ncv := by
    have h0 : (0 : Int) ≤ (eigs_args a.rows (min a.rows (2 * nev + 1)) nev).ncv := by rw [hncv]; exact Int.natCast_nonneg _
    have := Int.mul_nonneg h0 h0
    omega
  refine ⟨fun s hs => absurd hs.lworkl (by omega), ?_⟩
  unfold eigs
  rw [eigs_check_eq, if_neg (by omega), if_neg (by omega), if_neg (by omega)]
  change (eigs_iterate lib fuel a a.rows (min a.rows (2 * nev + 1)) nev >>= _) = _
  unfold eigs_iterate
  rw [eigs_init_eq]
  obtain ⟨f, rfl⟩ : ∃ f, fuel = f + 1 := ⟨fuel - 1, by omega⟩
  change ((whileM (f + 1) (1, lib.naupd 0 _ _) _ >>= _) >>= _) = _
  rw [hlib 0 _ _ hlt]
  rfl

end

/-- a square matrix with 30000 rows, and 15000 eigenvalues wanted -/
example : let a : CSC Int := ⟨30000, 30000, [], [], []⟩
    a.rows = a.cols ∧ 15000 + 1 < a.rows ∧ 2 ^ 31 ≤ 3 * min a.rows (2 * 15000 + 1) * (min a.rows (2 * 15000 + 1) + 2) ∧
    3 * min a.rows (2 * 15000 + 1) * (min a.rows (2 * 15000 + 1) + 2) < 2 ^ 32 := by decide

/-- C52 fails for `nev = 0`: `dnaupd` is called outside its preconditions. -/
theorem C52_zero_nev_counterexample : ∃ lib lib' : ArpackLib Int, lib.Sized ∧
    (∀ k c s, NaupdPre c s → lib.naupd k c s = lib'.naupd k c s) ∧ lib.neupd = lib'.neupd ∧
    (∃ r, eigs lib 1 exEig 0 = .ok r) ∧ eigs lib' 1 exEig 0 = .error .err := by
  refine ⟨exLib, { exLib with naupd := fun k c s => if c.nev ≤ 0 then { s with info := -3 } else exLib.naupd k c s },
    exLib_sized, ?_, rfl, ⟨_, rfl⟩, rfl⟩
  intro k c s h
  simp only
  rw [if_neg (by have := h.nev; omega)]

/-- C52 fails for `dneupd`: the leading dimension given for `z` is larger than the rows of the array allocated. A library
that refuses a `z` too small for its documented use refuses a call that another one answers. -/
theorem C52_neupd_counterexample : ∃ lib lib' : ArpackLib Int, lib.Sized ∧ lib.naupd = lib'.naupd ∧
    (∀ c ldz s r, ZFits c ldz r → lib.neupd c ldz s r = lib'.neupd c ldz s r) ∧
    (∃ r, eigs lib 1 exEig 2 = .ok r) ∧ eigs lib' 1 exEig 2 = .error .err := by
  refine ⟨exLib, { exLib with neupd := fun c ldz s r =>
      if ldz * c.nev + c.n ≤ r.z.length then exLib.neupd c ldz s r else ({ s with info := -14 }, r) },
    exLib_sized, rfl, ?_, ⟨_, rfl⟩, rfl⟩
  intro c ldz s r h
  simp only
  rw [if_pos (show _ ≤ _ from h)]

end Sparse

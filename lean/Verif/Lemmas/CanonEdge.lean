import Verif.Lemmas.Canon
import Verif.Lemmas.Fail
/-! `csr_has_canonical_format` on every valid matrix, including rows that start at the largest index value. -/
namespace Sparse

section
variable {T : Type}

theorem has_canonical_wp {t : IntTy} {n : Nat} {p j : List Int} {x : List T} {R : Nat → List (Int × T)}
    (hr : Rep p j x n R) (hfit : ((flat R n).length : Int) ≤ t.hi) :
    WP (csr_has_canonical_format t n p j)
      (fun b => (b = true ↔ ∀ i < n, SRow (R i)) ∧ (b = true → ∀ i < n, ((flat R i).length : Int) < t.hi))
      (fun e => e = .panic .arith ∧ (∀ i < n, SRow (R i)) ∧ ∃ i < n, ((flat R i).length : Int) = t.hi) := by
  unfold csr_has_canonical_format
  wpe
  refine WP_forRange (fun i (s : Option Bool × Unit) => s.1 = none ∧ (∀ k < i, SRow (R k)) ∧
      ∀ k < i, ((flat R k).length : Int) < t.hi)
    (fun s => s.1 = some false ∧ ¬ ∀ i < n, SRow (R i)) (by omega) ⟨rfl, by simp, by simp⟩ ?_ ?_ ?_
  · rintro i s - hi ⟨-, hs, hs'⟩
    have p1 := hr.ptr i (by omega)
    have p2 := hr.ptr_succ hi
    have hle : ((flat R i).length : Int) ≤ t.hi := by
      have := flat_length_mono R (i := i) (n := n) (by omega)
      omega
    have := t.lo_nonpos
    by_cases hlt : ((flat R i).length : Int) < t.hi
    · have hall : ∀ k < i + 1, ((flat R k).length : Int) < t.hi := by
        intro k hk
        by_cases h : k = i
        · subst h; exact hlt
        · exact hs' k (by omega)
      apply WP_of_ok
      wp
      rds [hr.ptr i (by omega), hr.ptr_succ hi]
      rw [Ok_ite]
      refine ⟨by omega, fun _ => ?_⟩
      wp
      rds [hr.ptr i (by omega), hr.ptr_succ hi]
      refine ⟨⟨by omega, by omega⟩, by omega, ?_⟩
      have e1 : ((flat R i).length + 1 : Int).toNat = (flat R i).length + 1 := by omega
      rw [e1]
      by_cases hemp : (R i).length = 0
      · rw [rng_eq_nil (by omega)]
        simp only [List.forIn_nil]
        wp
        refine ⟨trivial, ?_, hall⟩
        intro k hk
        by_cases hki : k = i
        · subst hki; rw [List.length_eq_zero_iff.1 hemp]; simp
        · exact hs k (by omega)
      refine Ok_forRange' (fun jj (s : Option Bool × Unit) => s.1 = none ∧
        SRow ((R i).take (jj - (flat R i).length)))
        (fun s => s.1 = some false ∧ ¬ SRow (R i)) (by omega) ⟨rfl, ?_⟩ ?_ ?_ ?_
      · rw [Nat.add_sub_cancel_left, List.take_add_one]
        cases h : (R i)[0]? <;> simp
      · rintro jj s hj1 hj2 ⟨-, hs2⟩
        obtain ⟨q, rfl⟩ : ∃ q, jj = (flat R i).length + (q + 1) := ⟨jj - (flat R i).length - 1, by omega⟩
        have hq : q + 1 < (R i).length := by omega
        have g1 := hr.get hi (e := (R i)[q]) (m := q) (by simp)
        have g2 := hr.get hi (e := (R i)[q + 1]) (m := q + 1) (by simp)
        wp
        refine ⟨by omega, ?_⟩
        rw [show (flat R i).length + (q + 1) - 1 = (flat R i).length + q by omega]
        rds [g1.1, g2.1]
        rw [Ok_ite]
        wp
        rw [Nat.add_sub_cancel_left] at hs2
        constructor
        · intro hnl
          refine ⟨trivial, ?_⟩
          intro hsr
          exact hnl (List.pairwise_iff_getElem.1 hsr q (q + 1) (by omega) hq (by omega))
        · intro hl
          refine ⟨trivial, ?_⟩
          rw [show (flat R i).length + (q + 1) + 1 - (flat R i).length = q + 1 + 1 by omega,
            List.take_add_one, List.take_add_one]
          rw [List.take_add_one] at hs2
          simp only [List.getElem?_eq_getElem hq, List.getElem?_eq_getElem (Nat.lt_of_succ_lt hq),
            Option.toList_some] at hs2 ⊢
          exact pairwise_snoc_lt hs2 (by simpa using hl)
      · rintro ⟨s, u⟩ ⟨hs2, hs3⟩
        simp only at hs2
        subst hs2
        wp
        exact ⟨trivial, fun h => hs3 (h i hi)⟩
      · rintro ⟨s, u⟩ ⟨hs2, hs3⟩
        simp only at hs2
        subst hs2
        wp
        refine ⟨trivial, ?_, hall⟩
        intro k hk
        by_cases hki : k = i
        · subst hki; simpa using hs3
        · exact hs k (by omega)
    · have hz : ∀ k, i ≤ k → k < n → R k = [] := by
        intro k h1 h2
        have e1 := flat_length_mono R (i := i) (n := k) h1
        have e2 := flat_length_mono R (i := k + 1) (n := n) h2
        rw [flat_length_succ] at e2
        exact List.length_eq_zero_iff.1 (by omega)
      simp only [List.rd, p1, p2, toUsize, usub, IntTy.checked_add, Int.natCast_nonneg, if_true, pure_bind, Int.toNat_natCast]
      rw [WP_ite]
      refine ⟨by omega, fun _ => ?_⟩
      rw [if_neg (by omega)]
      refine ⟨rfl, ?_, i, hi, by omega⟩
      intro k hk
      by_cases h : k < i
      · exact hs k h
      · rw [hz k (by omega) hk]; simp
  · rintro ⟨s, u⟩ ⟨h1, h2⟩
    simp only at h1
    subst h1
    wpe
    exact ⟨⟨by simp, fun h => (h2 h).elim⟩, by simp⟩
  · rintro ⟨s, u⟩ ⟨h1, h2, h3⟩
    simp only at h1
    subst h1
    wpe
    exact ⟨⟨fun _ => h2, fun _ => trivial⟩, fun _ => h3⟩

theorem has_canonical_edge {t : IntTy} {n : Nat} {p j : List Int} {x : List T} {R : Nat → List (Int × T)}
    (hr : Rep p j x n R) (hfit : ((flat R n).length : Int) ≤ t.hi) (h : ∃ i < n, p[i]? = some t.hi) :
    ((∀ i < n, SRow (R i)) → csr_has_canonical_format t n p j = .error (.panic .arith)) ∧
    (¬ (∀ i < n, SRow (R i)) → csr_has_canonical_format t n p j = .ok false) := by
  obtain ⟨i, hi, hp⟩ := h
  have hw := has_canonical_wp hr hfit
  rw [hr.ptr i (by omega)] at hp
  have hp' : ((flat R i).length : Int) = t.hi := by simpa using hp
  cases hm : csr_has_canonical_format t n p j with
  | error e =>
    rw [hm, WP_error] at hw
    exact ⟨fun _ => by rw [hw.1], fun hn => (hn hw.2.1).elim⟩
  | ok b =>
    rw [hm, WP_ok] at hw
    have hb : b = false := by
      cases b with
      | false => rfl
      | true =>
        have := hw.2 rfl i hi
        omega
    subst hb
    exact ⟨fun hc => absurd (hw.1.2 hc) (by simp), fun _ => rfl⟩

end
end Sparse

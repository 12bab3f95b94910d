import Verif.Lemmas.MatBasic
/-! csr_has_sorted_indices -/
namespace Sparse

section
variable {T : Type}

theorem has_sorted_ok {t : IntTy} {n : Nat} {p j : List Int} {x : List T} {R : Nat → List (Int × T)}
    (hr : Rep p j x n R) (hne : n = 0 ∨ R 0 ≠ []) (hfit : ((flat R n).length : Int) ≤ t.hi) :
    Ok (csr_has_sorted_indices t n p j) fun b => (b = true ↔ ∀ i < n, WRow (R i)) := by
  unfold csr_has_sorted_indices
  wp
  refine Ok_forRange' (fun i (s : Option Bool × Unit) => s.1 = none ∧ ∀ k < i, WRow (R k))
    (fun s => s.1 = some false ∧ ¬ ∀ i < n, WRow (R i)) (by omega) ⟨rfl, by simp⟩ ?_ ?_ ?_
  · rintro i s - hi ⟨-, hs⟩
    have hpos : 0 < (flat R (i + 1)).length := by
      have h1 := flat_length_mono R (show 1 ≤ i + 1 by omega)
      have h2 : flat R 1 = R 0 := by rw [show 1 = 0 + 1 from rfl, flat_succ]; simp
      rw [h2] at h1
      have h3 : 0 < (R 0).length := List.length_pos_iff.2 (by
        rcases hne with h | h
        · omega
        · exact h)
      omega
    have hle := flat_length_mono R (show i + 1 ≤ n by omega)
    rw [flat_length_succ] at hpos hle
    wp
    rds [hr.ptr i (by omega), hr.ptr_succ hi]
    have := t.lo_nonpos
    refine ⟨⟨by omega, by omega⟩, by omega, ?_⟩
    have e1 : (((flat R i).length + (R i).length : Nat) - 1 : Int).toNat =
        (flat R i).length + (R i).length - 1 := by omega
    rw [e1]
    by_cases hemp : (R i).length = 0
    · rw [rng_eq_nil (by omega)]
      simp only [List.forIn_nil]
      wp
      refine ⟨trivial, ?_⟩
      intro k hk
      by_cases hki : k = i
      · subst hki; rw [List.length_eq_zero_iff.1 hemp]; simp
      · exact hs k (by omega)
    refine Ok_forRange' (fun jj (s : Option Bool × Unit) => s.1 = none ∧
      WRow ((R i).take (jj - (flat R i).length + 1)))
      (fun s => s.1 = some false ∧ ¬ WRow (R i)) (by omega) ⟨rfl, ?_⟩ ?_ ?_ ?_
    · rw [Nat.sub_self, Nat.zero_add, List.take_one]
      cases h : (R i).head? <;> simp
    · rintro jj s hj1 hj2 ⟨-, hs2⟩
      obtain ⟨q, rfl⟩ : ∃ q, jj = (flat R i).length + q := ⟨jj - (flat R i).length, by omega⟩
      have hq : q + 1 < (R i).length := by omega
      have g1 := hr.get hi (e := (R i)[q]) (m := q) (by simp)
      have g2 := hr.get hi (e := (R i)[q + 1]) (m := q + 1) (by simp)
      wp
      rw [show (flat R i).length + q + 1 = (flat R i).length + (q + 1) by omega]
      rds [g1.1, g2.1]
      rw [Ok_ite]
      wp
      rw [Nat.add_sub_cancel_left] at hs2
      constructor
      · intro hnl
        refine ⟨trivial, ?_⟩
        intro hsr
        have := List.pairwise_iff_getElem.1 hsr q (q + 1) (by omega) hq (by omega)
        omega
      · intro hl
        refine ⟨trivial, ?_⟩
        rw [show (flat R i).length + (q + 1) - (flat R i).length + 1 = q + 1 + 1 by omega,
          List.take_add_one, List.take_add_one]
        rw [List.take_add_one] at hs2
        simp only [List.getElem?_eq_getElem hq, List.getElem?_eq_getElem (Nat.lt_of_succ_lt hq),
          Option.toList_some] at hs2 ⊢
        exact pairwise_snoc_le hs2 (by omega)
    · rintro ⟨s, u⟩ ⟨hs2, hs3⟩
      simp only at hs2
      subst hs2
      wp
      exact ⟨trivial, fun h => hs3 (h i hi)⟩
    · rintro ⟨s, u⟩ ⟨hs2, hs3⟩
      simp only at hs2
      subst hs2
      wp
      refine ⟨trivial, ?_⟩
      intro k hk
      by_cases hki : k = i
      · subst hki
        rw [List.take_of_length_le (by omega)] at hs3
        exact hs3
      · exact hs k (by omega)
  · rintro ⟨s, u⟩ ⟨hs2, hs3⟩
    simp only at hs2
    subst hs2
    wp
    simpa using hs3
  · rintro ⟨s, u⟩ ⟨hs2, hs3⟩
    simp only at hs2
    subst hs2
    wp
    simpa using hs3

theorem has_sorted_panic {t : IntTy} {n : Nat} {p j : List Int} {x : List T} {R : Nat → List (Int × T)}
    (hr : Rep p j x n R) (hn : 0 < n) (h0 : R 0 = []) :
    ∃ q, csr_has_sorted_indices t n p j = .error (.panic q) := by
  unfold csr_has_sorted_indices
  have g0 := hr.ptr 0 (by omega)
  have g1 := hr.ptr_succ hn
  rw [h0] at g1
  simp only [flat_zero, List.length_nil, Nat.add_zero, Int.natCast_zero, Nat.zero_add] at g0 g1
  rw [rng_cons hn, List.forIn_cons]
  simp only [List.rd, g0, g1, Nat.zero_add, pure_bind, toUsize, le_refl, if_true, IntTy.checked_sub]
  by_cases hc : t.lo ≤ 0 - 1 ∧ 0 - 1 ≤ t.hi
  · rw [if_pos hc]
    exact ⟨_, rfl⟩
  · rw [if_neg hc]
    exact ⟨_, rfl⟩

end
end Sparse

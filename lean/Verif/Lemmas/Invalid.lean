import Verif.Lemmas.Rows
import Verif.Lemmas.Fail
/-!
Calls on matrices with valid pointers and arbitrary minor indices: they return only if the indices are in range.
-/
namespace Sparse

section
variable {T : Type}

/-- a fault that unwinds (as opposed to `Err`) -/
def IsPanic (f : Fault) : Prop := ∃ p, f = .panic p

theorem isPanic_panic (p : Panic) : IsPanic (.panic p) = True := by simp [IsPanic]

/-- straight-line code in which every fault is a panic -/
macro "wpp" : tactic => `(tactic| simp only [WP_bind, WP_pure, WP_ok, WP_error, WP_map, WP_throw, WP_rd, WP_wr,
  WP_ofUsize, WP_ofInt, WP_add, WP_sub, WP_toUsize, WP_usub, isPanic_panic, implies_true, and_true])

/-- a call of which nothing matters but that its faults are panics -/
theorem WP.and {m : M α} {Q R : α → Prop} {E F : Fault → Prop} (h : WP m Q E) (h' : WP m R F) :
    WP m (fun a => Q a ∧ R a) E := by
  cases m with
  | ok a => exact ⟨h, h'⟩
  | error e => exact h

/-- the pairs of the rows before position `(i, jj)` satisfy `G` -/
def Seen (R : Nat → List (Int × T)) (G : Int → Prop) (i : Nat) : Prop := ∀ i' < i, ∀ e ∈ R i', G e.1

def SeenIn (L : List (Int × T)) (b : Nat) (G : Int → Prop) (jj : Nat) : Prop :=
  ∀ q e, b + q < jj → L[q]? = some e → G e.1

theorem SeenIn.start {L : List (Int × T)} {b : Nat} {G : Int → Prop} : SeenIn L b G b := by
  intro q e h; omega

theorem SeenIn.step {L : List (Int × T)} {b jj : Nat} {G : Int → Prop} (h : SeenIn L b G jj) {e : Int × T}
    (he : L[jj - b]? = some e) (hb : b ≤ jj) (hg : G e.1) : SeenIn L b G (jj + 1) := by
  intro q e' hq he'
  rcases Nat.lt_or_ge (b + q) jj with h1 | h1
  · exact h q e' h1 he'
  · have : q = jj - b := by omega
    subst this
    rw [he] at he'
    obtain rfl := Option.some.inj he'
    exact hg

theorem Seen.step {R : Nat → List (Int × T)} {G : Int → Prop} {i : Nat} (h : Seen R G i) {b : Nat}
    (h' : SeenIn (R i) b G (b + (R i).length)) : Seen R G (i + 1) := by
  intro i' hi' e he
  rcases Nat.lt_or_ge i' i with h1 | h1
  · exact h i' h1 e he
  · have : i' = i := by omega
    subst this
    obtain ⟨q, hq⟩ := List.getElem?_of_mem he
    have : q < (R i').length := (List.getElem?_eq_some_iff.1 hq).1
    exact h' q e (by omega) hq

/-- rule for the loop over the entries of row `i` -/
theorem WP_row {p j : List Int} {x : List T} {n : Nat} {R : Nat → List (Int × T)} (h : Rep p j x n R) {i : Nat} (hi : i < n)
    {G : Int → Prop} {s : σ} {f : Nat → σ → M (ForInStep σ)} {Q : σ → Prop} {E : Fault → Prop} (I : σ → Prop)
    (h0 : I s)
    (hs : ∀ jj s (e : Int × T), I s → j[jj]? = some e.1 → x[jj]? = some e.2 → e ∈ R i →
      WP (f jj s) (fun st => ∃ s', st = .yield s' ∧ I s' ∧ G e.1) E)
    (hQ : ∀ s, I s → SeenIn (R i) (flat R i).length G ((flat R i).length + (R i).length) → Q s) :
    WP (forIn (rng (flat R i).length ((flat R i).length + (R i).length)) s f) Q E := by
  refine WP_forRange (fun jj s => I s ∧ SeenIn (R i) (flat R i).length G jj) (fun _ => False) (by omega)
    ⟨h0, SeenIn.start⟩ ?_ (by simp) (fun s hP => hQ s hP.1 hP.2)
  rintro jj s h1 h2 ⟨hI, hS⟩
  have hq : jj - (flat R i).length < (R i).length := by omega
  have hg := h.get hi (List.getElem?_eq_getElem hq)
  rw [show (flat R i).length + (jj - (flat R i).length) = jj by omega] at hg
  refine (hs jj s _ hI hg.1 hg.2 (List.getElem_mem hq)).mono ?_ (fun _ h => h)
  rintro _ ⟨s', rfl, h3, h4⟩
  exact ⟨h3, hS.step (List.getElem?_eq_getElem hq) h1 h4⟩

/-- reading the pointers of row `i` -/
theorem Rep.bounds {p j : List Int} {x : List T} {n : Nat} {R : Nat → List (Int × T)} (h : Rep p j x n R) {i : Nat} (hi : i < n)
    {v w : Int} (hv : p[i]? = some v) (hw : p[i + 1]? = some w) :
    v.toNat = (flat R i).length ∧ w.toNat = (flat R i).length + (R i).length := by
  rw [h.ptr i (by omega)] at hv
  rw [h.ptr_succ hi] at hw
  obtain rfl := Option.some.inj hv
  obtain rfl := Option.some.inj hw
  exact ⟨by omega, by omega⟩

theorem csr_matvec_checks [Add T] [Mul T] {p j : List Int} {ax x y : List T} {n : Nat} {R : Nat → List (Int × T)}
    (h : Rep p j ax n R) : WP (csr_matvec n p j ax x y) (fun _ => Seen R (fun c => 0 ≤ c ∧ c < x.length) n) IsPanic := by
  unfold csr_matvec
  wpp
  refine WP_forRange (fun i _ => Seen R (fun c => 0 ≤ c ∧ c < x.length) i) (fun _ => False) (by omega)
    (by intro i hi; omega) ?_ (by simp) (fun _ h => h)
  intro i s _ hi hP
  wpp
  intro s0 _ v hv _ w hw _
  obtain ⟨e1, e2⟩ := h.bounds hi hv hw
  rw [e1, e2]
  refine WP_row h hi (G := fun c => 0 ≤ c ∧ c < x.length) (fun _ => True) trivial ?_ ?_
  · intro jj s e _ hj hx he
    wpp
    intro a _ c hc hc0 b hb
    rw [hj] at hc
    obtain rfl := Option.some.inj hc
    have := (List.getElem?_eq_some_iff.1 hb).1
    exact ⟨_, rfl, trivial, hc0, by omega⟩
  · intro s _ hS _
    exact hP.step hS

theorem csc_matvec_checks [Add T] [Mul T] {p j : List Int} {ax x y : List T} {n : Nat} {R : Nat → List (Int × T)}
    (h : Rep p j ax n R) : WP (csc_matvec n p j ax x y) (fun _ => Seen R (fun c => 0 ≤ c ∧ c < y.length) n) IsPanic := by
  unfold csc_matvec
  wpp
  refine WP_forRange (fun i s => s.length = y.length ∧ Seen R (fun c => 0 ≤ c ∧ c < y.length) i) (fun _ => False) (by omega)
    ⟨rfl, by intro i hi; omega⟩ ?_ (by simp) (fun _ h => h.2)
  intro i s _ hi hP
  wpp
  intro v hv _ w hw _
  obtain ⟨e1, e2⟩ := h.bounds hi hv hw
  rw [e1, e2]
  refine WP_row h hi (G := fun c => 0 ≤ c ∧ c < y.length) (fun s => s.length = y.length) hP.1 ?_ ?_
  · intro jj s e hs hj hx he
    wpp
    intro c hc hc0 a _ b _ d _ hlt
    rw [hj] at hc
    obtain rfl := Option.some.inj hc
    exact ⟨_, rfl, by simpa using hs, hc0, by omega⟩
  · intro s hs hS
    exact ⟨hs, hP.2.step hS⟩

theorem csr_todense_checks [Add T] {p j : List Int} {ax : List T} {b : List (List T)} {n m : Nat} {R : Nat → List (Int × T)}
    (h : Rep p j ax n R) (hb : ∀ r ∈ b, r.length = m) :
    WP (csr_todense n p j ax b) (fun _ => Seen R (fun c => 0 ≤ c ∧ c < m) n) IsPanic := by
  unfold csr_todense
  wpp
  refine WP_forRange (fun i s => (∀ r ∈ s, r.length = m) ∧ Seen R (fun c => 0 ≤ c ∧ c < m) i) (fun _ => False) (by omega)
    ⟨hb, by intro i hi; omega⟩ ?_ (by simp) (fun _ h => h.2)
  intro i s _ hi hP
  wpp
  intro v hv _ w hw _
  obtain ⟨e1, e2⟩ := h.bounds hi hv hw
  rw [e1, e2]
  refine WP_row h hi (G := fun c => 0 ≤ c ∧ c < m) (fun s => ∀ r ∈ s, r.length = m) hP.1 ?_ ?_
  · intro jj s e hs hj hx he
    wpp
    intro c hc hc0 r hr a ha b _ hlt hlt'
    rw [hj] at hc
    obtain rfl := Option.some.inj hc
    have hrl := hs r (List.mem_of_getElem? hr)
    refine ⟨_, rfl, ?_, hc0, by omega⟩
    intro r' hr'
    rcases List.mem_or_eq_of_mem_set hr' with h' | rfl
    · exact hs r' h'
    · simpa using hrl
  · intro s hs hS
    exact ⟨hs, hP.2.step hS⟩

/-- counting and prefix sums keep the length and fail only by a panic -/
theorem count_loop_len {t : IntTy} {nnz : Nat} {key b : List Int} :
    WP (count_loop t nnz key b) (fun r => r.length = b.length) IsPanic := by
  unfold count_loop
  wpp
  refine WP_forRange (fun _ s => s.length = b.length) (fun _ => False) (by omega) rfl ?_ (by simp) (fun _ h => h)
  intro i s _ _ hs
  wpp
  intro a _ _ v _ _ _
  simpa using hs

theorem cumsum_loop_len {t : IntTy} {n : Nat} {b : List Int} :
    WP (cumsum_loop t n b) (fun r => r.length = b.length) IsPanic := by
  unfold cumsum_loop
  wpp
  refine WP_forRange (fun _ s => s.fst.length = b.length) (fun _ => False) (by omega) rfl ?_ (by simp) (fun _ h => h)
  intro i s _ _ hs
  wpp
  intro v _ _ _
  simpa using hs

theorem shift_loop_any {n : Nat} {b : List Int} : WP (shift_loop n b) (fun _ => True) IsPanic := by
  unfold shift_loop
  wpp
  refine WP_forRange (fun _ _ => True) (fun _ => False) (by omega) trivial ?_ (by simp) (fun _ h => h)
  intro i s _ _ hs
  wpp

theorem csr_scatter_checks {t : IntTy} {p j bp bi : List Int} {ax bx : List T} {n m : Nat} {R : Nat → List (Int × T)}
    (h : Rep p j ax n R) (hl : bp.length = m + 1) (hn : bp[m]? = some (bi.length : Int)) :
    WP (csr_scatter t n p j ax bp bi bx) (fun _ => Seen R (fun c => 0 ≤ c ∧ c < m) n) IsPanic := by
  unfold csr_scatter
  wpp
  refine WP_forRange (fun i s => (s.fst.length = m + 1 ∧ s.fst[m]? = some (bi.length : Int) ∧ s.snd.fst.length = bi.length) ∧
    Seen R (fun c => 0 ≤ c ∧ c < m) i) (fun _ => False) (by omega)
    ⟨⟨hl, hn, rfl⟩, by intro i hi; omega⟩ ?_ (by simp) (fun _ h => h.2)
  intro i s _ hi hP
  wpp
  intro v hv _ w hw _
  obtain ⟨e1, e2⟩ := h.bounds hi hv hw
  rw [e1, e2]
  refine WP_row h hi (G := fun c => 0 ≤ c ∧ c < m) (fun s => s.fst.length = m + 1 ∧ s.fst[m]? = some (bi.length : Int) ∧
    s.snd.fst.length = bi.length) hP.1 ?_ ?_
  · rintro jj s e ⟨hs1, hs2, hs3⟩ hj hx he
    wpp
    intro c hc hc0 d hd hd0 _ hlt a _ _ b _ _ hlt'
    rw [hj] at hc
    obtain rfl := Option.some.inj hc
    have hne : e.1.toNat ≠ m := by
      intro h'
      rw [h', hs2] at hd
      obtain rfl := Option.some.inj hd
      omega
    refine ⟨_, rfl, ⟨by simpa using hs1, ?_, by simpa using hs3⟩, hc0, by omega⟩
    rw [List.getElem?_set_ne hne]
    exact hs2
  · intro s hs hS
    exact ⟨hs, hP.2.step hS⟩

theorem csr_tocsc_checks {t : IntTy} {p j bp bi : List Int} {ax bx : List T} {n m : Nat} {R : Nat → List (Int × T)}
    (h : Rep p j ax n R) (hl : bp.length = m + 1) (hn : bi.length = (flat R n).length) :
    WP (csr_tocsc t n m p j ax bp bi bx) (fun _ => Seen R (fun c => 0 ≤ c ∧ c < m) n) IsPanic := by
  unfold csr_tocsc
  wpp
  intro nnz hnnz hpos
  rw [h.ptr n (le_refl _)] at hnnz
  obtain rfl := Option.some.inj hnnz
  refine count_loop_len.mono ?_ (fun _ h => h)
  intro b1 h1
  refine cumsum_loop_len.mono ?_ (fun _ h => h)
  intro b2 h2 h3
  have h4 : b2.length = m + 1 := by rw [h2, h1]; simpa using hl
  refine (csr_scatter_checks h (m := m) (by simpa using h4) ?_).mono ?_ (fun _ h => h)
  · rw [List.getElem?_set_self (by omega), hn]
  · intro r hr
    exact shift_loop_any.mono (fun _ _ => hr) (fun _ h => h)

theorem csr_matmat_maxnnz_checks {p j bp bj : List Int} {ax : List T} {n k m : Nat} {R : Nat → List (Int × T)}
    (h : Rep p j ax n R) (hl : bp.length = k + 1) :
    WP (csr_matmat_maxnnz n m p j bp bj) (fun _ => Seen R (fun c => 0 ≤ c ∧ c < k) n) IsPanic := by
  unfold csr_matmat_maxnnz
  wpp
  refine WP_forRange (fun i _ => Seen R (fun c => 0 ≤ c ∧ c < k) i) (fun _ => False) (by omega)
    (by intro i hi; omega) ?_ (by simp) (fun _ h => h)
  intro i s _ hi hP
  wpp
  intro v hv _ w hw _
  obtain ⟨e1, e2⟩ := h.bounds hi hv hw
  rw [e1, e2]
  refine WP_row h hi (G := fun c => 0 ≤ c ∧ c < k) (fun _ => True) trivial ?_ ?_
  · intro jj s e _ hj hx he
    wpp
    intro c hc hc0 a _ _ b hb _
    rw [hj] at hc
    obtain rfl := Option.some.inj hc
    have hlt := (List.getElem?_eq_some_iff.1 hb).1
    have hgood : 0 ≤ e.1 ∧ e.1 < (k : Int) := ⟨hc0, by omega⟩
    rcases Nat.lt_or_ge b.toNat a.toNat with hba | hba
    · rw [rng_eq_nil (by omega), List.forIn_nil, WP_pure]
      exact ⟨_, rfl, trivial, hgood⟩
    · refine WP_forRange (fun _ _ => True) (fun _ => False) hba trivial ?_ (by simp) (fun _ _ => ⟨_, rfl, trivial, hgood⟩)
      intro kk s _ _ _
      wpp
      intro v _ _ v' _
      rw [WP_ite]
      refine ⟨fun _ => ?_, fun _ => ?_⟩ <;> wpp
  · intro s _ hS
    exact hP.step hS

theorem csr_scale_columns_checks [Mul T] {p j : List Int} {ax x : List T} {n : Nat} {R : Nat → List (Int × T)}
    (h : Rep p j ax n R) : WP (csr_scale_columns n p j ax x) (fun _ => Seen R (fun c => 0 ≤ c ∧ c < x.length) n) IsPanic := by
  unfold csr_scale_columns
  wpp
  intro nnz hnnz hpos
  rw [h.ptr n (le_refl _)] at hnnz
  obtain rfl := Option.some.inj hnnz
  refine WP_forRange (fun k _ => ∀ k' < k, ∀ c, j[k']? = some c → 0 ≤ c ∧ c < x.length) (fun _ => False) (by omega)
    (by intro k hk; omega) ?_ (by simp) ?_
  · intro k s _ hk hP
    wpp
    intro a _ c hc hc0 b hb _ k' hk' c' hc'
    rcases Nat.lt_or_ge k' k with h1 | h1
    · exact hP k' h1 c' hc'
    · have : k' = k := by omega
      subst this
      rw [hc] at hc'
      obtain rfl := Option.some.inj hc'
      have := (List.getElem?_eq_some_iff.1 hb).1
      exact ⟨hc0, by omega⟩
  · intro s hP i hi e he
    obtain ⟨q, hq⟩ := List.getElem?_of_mem he
    have h1 := flat_getElem? hi hq
    exact hP _ (by simpa using (List.getElem?_eq_some_iff.1 h1).1) _ (h.get hi hq).1

end
end Sparse

import Verif.Model.Usize
import Verif.Lemmas.Fail
import Verif.Lemmas.Slice
/-! Machine words: equality with the unbounded model. -/
namespace Sparse

theorem uadd_eq {u : Usz} {a b : Nat} (h : a + b ≤ u.max) : u.add a b = pure (a + b) := if_pos h
theorem umul_eq {u : Usz} {a b : Nat} (h : a * b ≤ u.max) : u.mul a b = pure (a * b) := if_pos h
theorem uszsub_eq {u : Usz} {a b : Nat} (h : b ≤ a) : u.sub a b = pure (a - b) := if_pos h
theorem usub_checked {u : Usz} (hu : u.wraps = false) (a b : Nat) : u.sub a b = usub a b := by
  unfold Usz.sub usub
  rw [hu]
  rfl
theorem ucap_eq {u : Usz} {sz n : Nat} (h : sz * n ≤ u.imax) : u.cap sz n = pure () := if_pos h
theorem imax_le (u : Usz) : u.imax ≤ u.max := Nat.div_le_self ..

theorem rd_congr {l : List α} {i : Nat} {f g : α → M β} (h : ∀ a, l[i]? = some a → f a = g a) :
    (l.rd i >>= f) = (l.rd i >>= g) := by
  unfold List.rd
  split
  · exact h _ ‹_›
  · rfl

theorem forIn_rng_congr {a b : Nat} {s : σ} {f g : Nat → σ → M (ForInStep σ)} (h : ∀ i, a ≤ i → i < b → ∀ s, f i s = g i s) :
    forIn (rng a b) s f = forIn (rng a b) s g := by
  have : ∀ l : List Nat, (∀ i ∈ l, a ≤ i ∧ i < b) → ∀ s : σ, forIn l s f = forIn l s g := by
    intro l hl
    induction l with
    | nil => intro s; rfl
    | cons x l ih =>
      intro s
      have hx := hl x (by simp)
      rw [List.forIn_cons, List.forIn_cons, h x hx.1 hx.2 s]
      congr 1
      funext st
      cases st with
      | done s => rfl
      | yield s => exact ih (fun i hi => hl i (by simp [hi])) s
  refine this _ ?_ s
  intro i hi
  unfold rng at hi
  rw [List.mem_range'] at hi
  obtain ⟨k, hk, rfl⟩ := hi
  omega

theorem toUsize_congr {x : Int} {f g : Nat → M β} (h : 0 ≤ x → f x.toNat = g x.toNat) : (toUsize x >>= f) = (toUsize x >>= g) := by
  unfold toUsize
  split
  · exact h ‹_›
  · rfl

theorem bind_congrM {m : M α} {f g : α → M β} (h : ∀ a, m = .ok a → f a = g a) : (m >>= f) = (m >>= g) := by
  cases m with
  | error e => rfl
  | ok a => exact h a rfl

theorem bind_okM {m : M α} {f : α → M β} {b : β} (h : (m >>= f) = .ok b) : ∃ a, m = .ok a ∧ f a = .ok b := by
  cases m with
  | error e => cases h
  | ok a => exact ⟨a, rfl, h⟩

theorem bind_alt {m : M α} {f g : α → M β} {P B : β → Prop}
    (h : ∀ a, m = .ok a → (f a = g a ∧ ∀ s', g a = .ok s' → P s') ∨ ((∃ p, f a = .error (.panic p)) ∧ ∀ s', g a = .ok s' → B s')) :
    ((m >>= f) = (m >>= g) ∧ ∀ s', (m >>= g) = .ok s' → P s') ∨ ((∃ p, (m >>= f) = .error (.panic p)) ∧ ∀ s', (m >>= g) = .ok s' → B s') := by
  cases m with
  | error e => exact .inl ⟨rfl, fun s' h => by cases h⟩
  | ok a => exact h a rfl

theorem whileM_congr {n : Nat} {s : σ} {f g : σ → M (ForInStep σ)} (h : ∀ s, f s = g s) : whileM n s f = whileM n s g := by
  rw [show f = g from funext h]

section
variable {T : Type}

theorem csr_diagonalU_eq [Zero T] [Add T] {u : Usz} {k : Int} {n m : Nat} (a_p a_j : List Int) (a_x y : List T)
    (hk : -((u.imax : Int) + 1) ≤ k) (hn : n ≤ u.imax) (hm : m ≤ u.max) (h : u.wraps = false ∨ (-k).toNat ≤ n ∧ k.toNat ≤ m) :
    csr_diagonalU u k n m a_p a_j a_x y = csr_diagonal k n m a_p a_j a_x y := by
  have him := imax_le u
  have main : ∀ fr fc : Nat, (u.wraps = false ∨ fr ≤ n ∧ fc ≤ m) → (do
      let n' := min (← u.sub n fr) (← u.sub m fc)
      let mut y_x := y
      for i in rng 0 n' do
        let row ← u.add fr i
        let col ← u.add fc i
        let row_begin ← toUsize (← a_p.rd row)
        let row_end ← toUsize (← a_p.rd (← u.add row 1))
        let mut diag : T := 0
        for j in rng row_begin row_end do
          if (← toUsize (← a_j.rd j)) = col then
            diag := diag + (← a_x.rd j)
        y_x ← y_x.wr i diag
      return y_x : M (List T)) = (do
      let n' := min (← usub n fr) (← usub m fc)
      let mut y_x := y
      for i in rng 0 n' do
        let row := fr + i
        let col := fc + i
        let row_begin ← toUsize (← a_p.rd row)
        let row_end ← toUsize (← a_p.rd (row + 1))
        let mut diag : T := 0
        for j in rng row_begin row_end do
          if (← toUsize (← a_j.rd j)) = col then
            diag := diag + (← a_x.rd j)
        y_x ← y_x.wr i diag
      return y_x) := by
    intro fr fc h
    have e1 : u.sub n fr = usub n fr := by
      rcases h with h | h
      · exact usub_checked h _ _
      · unfold Usz.sub usub; rw [if_pos h.1, if_pos h.1]
    have e2 : u.sub m fc = usub m fc := by
      rcases h with h | h
      · exact usub_checked h _ _
      · unfold Usz.sub usub; rw [if_pos h.2, if_pos h.2]
    rw [e1, e2]
    refine bind_congrM fun x hx => bind_congrM fun x' hx' => ?_
    have hx : fr ≤ n ∧ x = n - fr := by
      unfold usub at hx; split at hx
      · cases hx; exact ⟨‹_›, rfl⟩
      · cases hx
    have hx' : fc ≤ m ∧ x' = m - fc := by
      unfold usub at hx'; split at hx'
      · cases hx'; exact ⟨‹_›, rfl⟩
      · cases hx'
    dsimp only
    congr 1
    refine forIn_rng_congr fun i _ hi s => ?_
    rw [uadd_eq (by omega), uadd_eq (by omega), pure_bind, pure_bind]
    refine rd_congr fun a _ => bind_congrM fun b _ => ?_
    rw [uadd_eq (by omega), pure_bind]
  unfold csr_diagonalU csr_diagonal
  by_cases hk0 : k ≥ 0
  · simp only [hk0, if_true, pure_bind]
    exact main 0 k.toNat (h.imp id fun h => ⟨by omega, h.2⟩)
  · simp only [hk0, if_false]
    by_cases hk1 : -k ≤ u.imax
    · unfold Usz.neg
      rw [if_pos hk1, pure_bind, show -1 * k = -k by omega]
      exact main (-k).toNat 0 (h.imp id fun h => ⟨h.1, by omega⟩)
    · rcases h with h | h
      · unfold Usz.neg usub
        rw [if_neg hk1, h, if_neg (by omega : ¬ (-1 * k).toNat ≤ n)]
        rfl
      · omega

/-- two loops with equal bodies as long as an invariant holds -/
theorem forIn_inv_congr {l : List β} {s : σ} {f g : β → σ → M (ForInStep σ)} (Inv : σ → Prop) (h0 : Inv s)
    (h : ∀ x ∈ l, ∀ s, Inv s → f x s = g x s ∧ ∀ st, g x s = .ok st → ∃ s', st = .yield s' ∧ Inv s') :
    forIn l s f = forIn l s g ∧ ∀ r, forIn l s g = .ok r → Inv r := by
  induction l generalizing s with
  | nil => exact ⟨rfl, fun r hr => by cases hr; exact h0⟩
  | cons x l ih =>
    obtain ⟨h1, h2⟩ := h x (by simp) s h0
    rw [List.forIn_cons, List.forIn_cons, h1]
    cases hg : g x s with
    | error e => exact ⟨rfl, fun r hr => by cases hr⟩
    | ok st =>
      obtain ⟨s', rfl, hs'⟩ := h2 st hg
      exact ih hs' fun y hy => h y (by simp [hy])

/-- two loops with equal bodies until the first one panics; then the second one ends in a bad state, if it returns -/
theorem forIn_panic_congr {a b : Nat} {s : σ} {f g : Nat → σ → M (ForInStep σ)} (Inv : Nat → σ → Prop) (Bad : σ → Prop) (hab : a ≤ b) (h0 : Inv a s)
    (hy : ∀ i s st, g i s = .ok st → ∃ s', st = .yield s' ∧ (Bad s → Bad s'))
    (h : ∀ i s, a ≤ i → i < b → Inv i s → (f i s = g i s ∧ ∀ s', g i s = .ok (.yield s') → Inv (i + 1) s') ∨
      ((∃ p, f i s = .error (.panic p)) ∧ ∀ s', g i s = .ok (.yield s') → Bad s')) :
    (forIn (rng a b) s f = forIn (rng a b) s g ∧ ∀ r, forIn (rng a b) s g = .ok r → Inv b r) ∨
      ((∃ p, forIn (rng a b) s f = .error (.panic p)) ∧ ∀ r, forIn (rng a b) s g = .ok r → Bad r) := by
  have bad : ∀ (l : List Nat) (s : σ), Bad s → ∀ r, forIn l s g = .ok r → Bad r := by
    intro l
    induction l with
    | nil => intro s hs r hr; cases hr; exact hs
    | cons x l ih =>
      intro s hs r hr
      rw [List.forIn_cons] at hr
      cases hg : g x s with
      | error e => rw [hg] at hr; cases hr
      | ok st =>
        obtain ⟨s', rfl, hs'⟩ := hy x s st hg
        rw [hg] at hr
        exact ih s' (hs' hs) r hr
  obtain ⟨d, hd⟩ : ∃ d, b - a = d := ⟨_, rfl⟩
  induction d generalizing a s with
  | zero =>
    have : a = b := by omega
    subst this
    simp only [rng, Nat.sub_self, List.range'_zero, List.forIn_nil]
    exact .inl ⟨trivial, fun r hr => by cases hr; exact h0⟩
  | succ d ih =>
    rw [rng_cons (by omega), List.forIn_cons, List.forIn_cons]
    rcases h a s (Nat.le_refl _) (by omega) h0 with ⟨h1, h2⟩ | ⟨⟨p, h1⟩, h2⟩
    · rw [h1]
      cases hg : g a s with
      | error e => exact .inl ⟨rfl, fun r hr => by cases hr⟩
      | ok st =>
        obtain ⟨s', rfl, -⟩ := hy a s st hg
        exact ih (a := a + 1) (s := s') (by omega) (h2 s' hg) (fun i s hi => h i s (by omega)) (by omega)
    · rw [h1]
      refine .inr ⟨⟨p, rfl⟩, ?_⟩
      intro r hr
      cases hg : g a s with
      | error e => rw [hg] at hr; cases hr
      | ok st =>
        obtain ⟨s', rfl, -⟩ := hy a s st hg
        rw [hg] at hr
        exact bad _ s' (h2 s' hg) r hr


theorem csr_row_sliceU_eq {u : Usz} {fuel start stop step : Nat} {a_p : List Int} (a_j : List Int) (a_x : List T)
    (b_j : List Int) (b_x : List T) (hp : a_p.length ≤ u.max) (h : 0 < step → stop + step ≤ u.max + 1) :
    csr_row_sliceU u fuel start stop step a_p a_j a_x b_j b_x = csr_row_slice fuel start stop step a_p a_j a_x b_j b_x := by
  unfold csr_row_sliceU csr_row_slice
  by_cases hs : step > 0
  · simp only [hs, if_true]
    have := h hs
    congr 1
    refine whileM_congr fun s => ?_
    obtain ⟨row, bj, bx⟩ := s
    dsimp only
    by_cases hr : row < stop
    · simp only [hr, if_true]
      rw [uadd_eq (by omega : row + 1 ≤ u.max), uadd_eq (by omega : row + step ≤ u.max)]
      simp only [pure_bind]
    · simp only [hr, if_false]
  · simp only [hs, if_false]
    congr 1
    refine whileM_congr fun s => ?_
    obtain ⟨row, bj, bx⟩ := s
    dsimp only
    by_cases hr : row > stop
    · simp only [hr, if_true]
      refine rd_congr fun a ha => ?_
      have : row < a_p.length := by
        rw [List.getElem?_eq_some_iff] at ha; exact ha.1
      rw [uadd_eq (by omega : row + 1 ≤ u.max), uadd_eq (by omega : row + step ≤ u.max)]
      simp only [pure_bind]
    · simp only [hr, if_false]

theorem coo_todenseU_eq [Add T] {u : Usz} {n m nnz : Nat} {a_i a_j : List Int} (a_x b_x : List T) (fortran : Bool)
    (hi : ∀ k < nnz, ∀ v, a_i[k]? = some v → v < n) (hj : ∀ k < nnz, ∀ v, a_j[k]? = some v → v < m) (h : n * m ≤ u.max) :
    coo_todenseU u n m nnz a_i a_j a_x b_x fortran = coo_todense n m nnz a_i a_j a_x b_x fortran := by
  unfold coo_todenseU coo_todense
  cases fortran
  · simp only [Bool.not_false, if_true]
    congr 1
    refine forIn_rng_congr fun k _ hk s => ?_
    refine rd_congr fun v hv => toUsize_congr fun hv0 => ?_
    have h1 := hi k hk v hv
    have h2 : m * v.toNat + m ≤ n * m := by
      rw [← Nat.mul_succ, Nat.mul_comm n m]
      exact Nat.mul_le_mul_left _ (by omega)
    rw [umul_eq (by omega), pure_bind]
    refine rd_congr fun w hw => toUsize_congr fun hw0 => ?_
    have h3 := hj k hk w hw
    rw [uadd_eq (by omega), pure_bind]
  · simp only [Bool.not_true, Bool.false_eq_true, if_false]
    congr 1
    refine forIn_rng_congr fun k _ hk s => ?_
    refine rd_congr fun v hv => toUsize_congr fun hv0 => ?_
    have h1 := hj k hk v hv
    have h2 : n * v.toNat + n ≤ n * m := by
      rw [← Nat.mul_succ]
      exact Nat.mul_le_mul_left _ (by omega)
    rw [umul_eq (by omega), pure_bind]
    refine rd_congr fun w hw => toUsize_congr fun hw0 => ?_
    have h3 := hi k hk w hw
    rw [uadd_eq (by omega), pure_bind]

theorem csr_matvecsU_eq [Add T] [Mul T] {u : Usz} {n m k : Nat} {a_p a_j : List Int} (a_x x_x y_x : List T)
    (hj : ∀ (i jj : Nat) (a b v : Int), a_p[i]? = some a → a_p[i + 1]? = some b → i < n → a ≤ jj → jj < b → a_j[jj]? = some v → v < m)
    (hn : n ≤ u.max) (h1 : k * n ≤ u.max) (h2 : k * m ≤ u.max) :
    csr_matvecsU u n k a_p a_j a_x x_x y_x = csr_matvecs n k a_p a_j a_x x_x y_x := by
  unfold csr_matvecsU csr_matvecs
  dsimp only
  congr 1
  refine forIn_rng_congr fun i _ hi s => ?_
  have e1 : k * i ≤ u.max := Nat.le_trans (Nat.mul_le_mul_left _ (by omega)) h1
  rw [umul_eq e1, pure_bind]
  split
  · rfl
  · refine rd_congr fun a ha => toUsize_congr fun ha0 => ?_
    rw [uadd_eq (by omega : i + 1 ≤ u.max), pure_bind]
    refine rd_congr fun b hb => toUsize_congr fun hb0 => ?_
    congr 1
    refine forIn_rng_congr fun jj hj1 hj2 s => ?_
    refine rd_congr fun v hv => toUsize_congr fun hv0 => bind_congrM fun _ _ => ?_
    have := hj i jj a b v ha hb hi (by omega) (by omega) hv
    rw [umul_eq (Nat.le_trans (Nat.mul_le_mul_left _ (by omega)) h2), pure_bind]

theorem csc_matvecsU_eq [Add T] [Mul T] {u : Usz} {n m k : Nat} {a_p a_i : List Int} (a_x x_x y_x : List T)
    (hj : ∀ (j jj : Nat) (a b v : Int), a_p[j]? = some a → a_p[j + 1]? = some b → j < m → a ≤ jj → jj < b → a_i[jj]? = some v → v < n)
    (hn : m ≤ u.max) (h1 : k * n ≤ u.max) (h2 : k * m ≤ u.max) :
    csc_matvecsU u m k a_p a_i a_x x_x y_x = csc_matvecs m k a_p a_i a_x x_x y_x := by
  unfold csc_matvecsU csc_matvecs
  dsimp only
  congr 1
  refine forIn_rng_congr fun j _ hi s => ?_
  refine rd_congr fun a ha => toUsize_congr fun ha0 => ?_
  rw [uadd_eq (by omega : j + 1 ≤ u.max), pure_bind]
  refine rd_congr fun b hb => toUsize_congr fun hb0 => ?_
  congr 1
  refine forIn_rng_congr fun ii hj1 hj2 s => ?_
  refine rd_congr fun v hv => toUsize_congr fun hv0 => bind_congrM fun _ _ => ?_
  have := hj j ii a b v ha hb hi (by omega) (by omega) hv
  rw [umul_eq (Nat.le_trans (Nat.mul_le_mul_left _ (by omega)) h2), pure_bind,
    umul_eq (Nat.le_trans (Nat.mul_le_mul_left _ (by omega)) h1), pure_bind]

/-- the number of distinct diagonals with subtraction modulo the word size -/
theorem csr_count_diagonalsU_ok {u : Usz} (hu : u.wraps = true) {n : Nat} {ap aj : List Int} {ax : List T} {RA : Nat → List (Int × T)}
    (ha : Rep ap aj ax n RA) (hn : n ≤ u.imax) (hma : ∀ i < n, ∀ e ∈ RA i, 0 ≤ e.1 ∧ e.1 ≤ u.imax) :
    csr_count_diagonalsU u n ap aj = .ok ((flat (fun i => (RA i).map fun e => e.1 - (i : Int)) n).toFinset.card) := by
  have him := imax_le u
  have him2 : 2 * u.imax ≤ u.max := by unfold Usz.imax; omega
  set W : Int → Nat := fun z => if 0 ≤ z then z.toNat else (z + u.max + 1).toNat with hW
  suffices h : Ok (csr_count_diagonalsU u n ap aj) fun q =>
      q = (flat (fun i => (RA i).map fun e => e.1 - (i : Int)) n).toFinset.card by
    obtain ⟨r, h1, h2⟩ := h; rw [h1, h2]
  have hsub : ∀ x i : Nat, x ≤ u.imax → i ≤ u.imax → u.sub x i = pure (W ((x : Int) - i)) := by
    intro x i hx hi
    unfold Usz.sub
    simp only [hW]
    by_cases h : i ≤ x
    · rw [if_pos h, if_pos (by omega)]
      congr 1
      omega
    · rw [if_neg h, if_pos hu, if_neg (by omega)]
      congr 1
      omega
  unfold csr_count_diagonalsU
  wp
  refine Ok_forRange (fun i (s : List Nat) => s.Nodup ∧ ∀ d : Nat, d ∈ s ↔ d ∈ (flat (fun i => (RA i).map fun e => e.1 - (i : Int)) i).map W)
    (by omega) (by simp) ?_ ?_
  · rintro i s - hi ⟨h1, h2⟩
    rw [uadd_eq (by omega : i + 1 ≤ u.max)]
    wp
    rds [ha.ptr i (by omega), ha.ptr_succ hi]
    refine Ok_forRow ha hi (fun pre (s : List Nat) => s.Nodup ∧ ∀ d : Nat, d ∈ s ↔
      d ∈ (flat (fun i => (RA i).map fun e => e.1 - (i : Int)) i).map W ∨ d ∈ (pre.map fun e => e.1 - (i : Int)).map W) ⟨h1, by simpa using h2⟩ ?_ ?_
    · rintro p e q s hE ⟨g1, g2⟩ hj hx
      have he := hma i hi e (by rw [hE]; simp)
      wp
      rds [hj]
      refine ⟨by omega, ?_⟩
      rw [hsub _ _ (by omega) (by omega)]
      wp
      refine ⟨_, rfl, g1.insert, ?_⟩
      intro d
      rw [List.mem_insert_iff, g2 d]
      simp only [List.map_append, List.map_cons, List.map_nil, List.mem_append, List.mem_singleton]
      rw [show ((e.1.toNat : Nat) : Int) - i = e.1 - i by omega]
      tauto
    · rintro s ⟨g1, g2⟩
      refine ⟨_, rfl, g1, ?_⟩
      intro d
      rw [g2 d, flat_succ, List.map_append, List.mem_append]
  · rintro s ⟨h1, h2⟩
    rw [← List.toFinset_card_of_nodup h1]
    have : s.toFinset = (flat (fun i => (RA i).map fun e => e.1 - (i : Int)) n).toFinset.image W := by
      ext d
      rw [List.mem_toFinset, h2 d, Finset.mem_image]
      simp only [List.mem_map, List.mem_toFinset]
    rw [this]
    refine Finset.card_image_of_injOn ?_
    intro x hx y hy hxy
    simp only [List.coe_toFinset, Set.mem_ofPred_eq] at hx hy
    obtain ⟨i, hi, hx⟩ := mem_flat.1 hx
    obtain ⟨e, he, rfl⟩ := List.mem_map.1 hx
    obtain ⟨i', hi', hy⟩ := mem_flat.1 hy
    obtain ⟨e', he', rfl⟩ := List.mem_map.1 hy
    have := hma i hi e he
    have := hma i' hi' e' he'
    simp only [hW] at hxy
    split at hxy <;> split at hxy <;> omega


theorem maxnnzU_rel {u : Usz} {n m : Nat} {a_p a_j b_p b_j : List Int} (hn : n ≤ u.max) (hm : m ≤ u.max) (hb : b_p.length ≤ u.max) :
    (csr_matmat_maxnnzU u n m a_p a_j b_p b_j = csr_matmat_maxnnz n m a_p a_j b_p b_j ∧
      ∀ k, csr_matmat_maxnnz n m a_p a_j b_p b_j = .ok k → k ≤ u.max) ∨
    ((∃ p, csr_matmat_maxnnzU u n m a_p a_j b_p b_j = .error (.panic p)) ∧
      ∀ k, csr_matmat_maxnnz n m a_p a_j b_p b_j = .ok k → u.max < k) := by
  unfold csr_matmat_maxnnzU csr_matmat_maxnnz
  dsimp only
  have main := forIn_panic_congr (a := 0) (b := n) (s := (List.replicate m (-1 : Int), 0))
    (f := fun i (s : List Int × Nat) => do
      let start ← toUsize (← a_p.rd i)
      let stop ← toUsize (← a_p.rd (← u.add i 1))
      let r ← forIn (rng start stop) (s.1, 0) fun jj (s : List Int × Nat) => do
        let j ← toUsize (← a_j.rd jj)
        let b_start ← toUsize (← b_p.rd j)
        let b_end ← toUsize (← b_p.rd (← u.add j 1))
        let r ← forIn (rng b_start b_end) (s.1, s.2) fun kk (s : List Int × Nat) => do
          let k ← toUsize (← b_j.rd kk)
          if (← s.1.rd k) ≠ (i : Int) then
            let mask ← s.1.wr k (i : Int)
            let row_nnz ← u.add s.2 1
            pure (ForInStep.yield (mask, row_nnz))
          else
            pure (ForInStep.yield (s.1, s.2))
        pure (ForInStep.yield (r.1, r.2))
      let next_nnz ← u.add s.2 r.2
      let d ← u.sub u.max s.2
      if r.2 > d then do
        throw (.panic .assert)
      else
        pure (ForInStep.yield (r.1, next_nnz)))
    (g := fun i (s : List Int × Nat) => do
      let start ← toUsize (← a_p.rd i)
      let stop ← toUsize (← a_p.rd (i + 1))
      let r ← forIn (rng start stop) (s.1, 0) fun jj (s : List Int × Nat) => do
        let j ← toUsize (← a_j.rd jj)
        let b_start ← toUsize (← b_p.rd j)
        let b_end ← toUsize (← b_p.rd (j + 1))
        let r ← forIn (rng b_start b_end) (s.1, s.2) fun kk (s : List Int × Nat) => do
          let k ← toUsize (← b_j.rd kk)
          if (← s.1.rd k) ≠ (i : Int) then
            let mask ← s.1.wr k (i : Int)
            pure (ForInStep.yield (mask, s.2 + 1))
          else
            pure (ForInStep.yield (s.1, s.2))
        pure (ForInStep.yield (r.1, r.2))
      pure (ForInStep.yield (r.1, s.2 + r.2)))
    (fun i s => (s.1.length = m ∧ ∀ v ∈ s.1, v < (i : Int)) ∧ s.2 ≤ u.max) (fun s => u.max < s.2) (Nat.zero_le n) ?_ ?_ ?_
  · have tr : ∀ (F G : M (List Int × Nat)), ((F = G ∧ ∀ r, G = .ok r → (r.1.length = m ∧ ∀ v ∈ r.1, v < (n : Int)) ∧ r.2 ≤ u.max) ∨
        ((∃ p, F = .error (.panic p)) ∧ ∀ r, G = .ok r → u.max < r.2)) →
        ((F >>= fun r => pure r.2) = (G >>= fun r => pure r.2) ∧ ∀ k, (G >>= fun r => pure r.2) = .ok k → k ≤ u.max) ∨
        ((∃ p, (F >>= fun r => pure r.2) = .error (.panic p)) ∧ ∀ k, (G >>= fun r => pure r.2) = .ok k → u.max < k) := by
      rintro F G (⟨rfl, h⟩ | ⟨⟨p, rfl⟩, h⟩)
      · refine .inl ⟨rfl, fun k hk => ?_⟩
        cases F with
        | error e => cases hk
        | ok r => cases hk; exact (h r rfl).2
      · refine .inr ⟨⟨p, rfl⟩, fun k hk => ?_⟩
        cases G with
        | error e => cases hk
        | ok r => cases hk; exact h r rfl
    exact tr _ _ main
  · exact ⟨⟨by simp, fun v hv => by rw [List.eq_of_mem_replicate hv]; omega⟩, Nat.zero_le _⟩
  · intro i s st h
    obtain ⟨_, -, h⟩ := bind_okM h
    obtain ⟨_, -, h⟩ := bind_okM h
    obtain ⟨_, -, h⟩ := bind_okM h
    obtain ⟨_, -, h⟩ := bind_okM h
    obtain ⟨r, -, h⟩ := bind_okM h
    cases h
    exact ⟨_, rfl, fun hb => by simp only; omega⟩
  · rintro i ⟨mask, nnz⟩ - hi ⟨⟨hlen, hlt⟩, hnz⟩
    simp only at hlen hlt hnz
    -- the loops over the row are the same, and count the positions of the mask that hold `i`
    have inner := fun start stop : Nat => forIn_inv_congr (l := rng start stop) (s := (mask, 0))
        (f := fun jj (s : List Int × Nat) => do
          let j ← toUsize (← a_j.rd jj)
          let b_start ← toUsize (← b_p.rd j)
          let b_end ← toUsize (← b_p.rd (← u.add j 1))
          let r ← forIn (rng b_start b_end) (s.1, s.2) fun kk (s : List Int × Nat) => do
            let k ← toUsize (← b_j.rd kk)
            if (← s.1.rd k) ≠ (i : Int) then
              let mask ← s.1.wr k (i : Int)
              let row_nnz ← u.add s.2 1
              pure (ForInStep.yield (mask, row_nnz))
            else
              pure (ForInStep.yield (s.1, s.2))
          pure (ForInStep.yield (r.1, r.2)))
        (g := fun jj (s : List Int × Nat) => do
          let j ← toUsize (← a_j.rd jj)
          let b_start ← toUsize (← b_p.rd j)
          let b_end ← toUsize (← b_p.rd (j + 1))
          let r ← forIn (rng b_start b_end) (s.1, s.2) fun kk (s : List Int × Nat) => do
            let k ← toUsize (← b_j.rd kk)
            if (← s.1.rd k) ≠ (i : Int) then
              let mask ← s.1.wr k (i : Int)
              pure (ForInStep.yield (mask, s.2 + 1))
            else
              pure (ForInStep.yield (s.1, s.2))
          pure (ForInStep.yield (r.1, r.2)))
        (fun s => s.1.length = m ∧ (∀ v ∈ s.1, v ≤ (i : Int)) ∧ s.1.count (i : Int) = s.2) (by
        refine ⟨hlen, fun v hv => ?_, ?_⟩
        · have := hlt v hv; omega
        · rw [List.count_eq_zero]
          intro hc
          have := hlt _ hc
          omega) (by
        rintro jj - ⟨mk, rn⟩ hinv
        have body := fun b_start b_end : Nat => forIn_inv_congr (l := rng b_start b_end) (s := (mk, rn))
          (f := fun kk (s : List Int × Nat) => do
            let k ← toUsize (← b_j.rd kk)
            if (← s.1.rd k) ≠ (i : Int) then
              let mask ← s.1.wr k (i : Int)
              let row_nnz ← u.add s.2 1
              pure (ForInStep.yield (mask, row_nnz))
            else
              pure (ForInStep.yield (s.1, s.2)))
          (g := fun kk (s : List Int × Nat) => do
            let k ← toUsize (← b_j.rd kk)
            if (← s.1.rd k) ≠ (i : Int) then
              let mask ← s.1.wr k (i : Int)
              pure (ForInStep.yield (mask, s.2 + 1))
            else
              pure (ForInStep.yield (s.1, s.2)))
          (fun s => s.1.length = m ∧ (∀ v ∈ s.1, v ≤ (i : Int)) ∧ s.1.count (i : Int) = s.2) hinv (by
            rintro kk - ⟨mk, rn⟩ ⟨h1, h2, h3⟩
            simp only at h1 h2 h3
            have cnt : ∀ (k : Nat) (x : Int), mk[k]? = some x → x ≠ (i : Int) → (mk.set k (i : Int)).count (i : Int) = rn + 1 := by
              intro k x hx hne
              obtain ⟨hk, hx⟩ := List.getElem?_eq_some_iff.1 hx
              rw [List.count_set hk, hx, h3]
              simp [hne]
            constructor
            · refine bind_congrM fun a _ => bind_congrM fun k _ => rd_congr fun x hx => ?_
              by_cases hne : x ≠ (i : Int)
              · simp only [hne, ne_eq, not_false_eq_true, if_true]
                refine bind_congrM fun mk' hmk => ?_
                have hle : rn + 1 ≤ m := by
                  rw [← cnt k x hx hne, ← h1, ← List.length_set (as := mk) (i := k) (a := (i : Int))]
                  exact List.count_le_length
                rw [uadd_eq (by omega), pure_bind]
              · simp only [hne, if_false]
            · intro st hst
              obtain ⟨a, -, hst⟩ := bind_okM hst
              obtain ⟨k, -, hst⟩ := bind_okM hst
              obtain ⟨x, hx, hst⟩ := bind_okM hst
              have hx : mk[k]? = some x := by
                unfold List.rd at hx
                split at hx
                · cases hx; assumption
                · cases hx
              by_cases hne : x ≠ (i : Int)
              · simp only [hne, ne_eq, not_false_eq_true, if_true] at hst
                obtain ⟨mk', hmk, hst⟩ := bind_okM hst
                unfold List.wr at hmk
                split at hmk
                · cases hmk
                  cases hst
                  refine ⟨_, rfl, by simpa using h1, ?_, cnt k x hx hne⟩
                  intro v hv
                  rcases List.mem_or_eq_of_mem_set hv with h | h
                  · exact h2 v h
                  · omega
                · cases hmk
              · simp only [hne, if_false] at hst
                cases hst
                exact ⟨_, rfl, h1, h2, h3⟩)
        constructor
        · refine bind_congrM fun a _ => bind_congrM fun j _ => rd_congr fun x hx => bind_congrM fun b _ => ?_
          have := (List.getElem?_eq_some_iff.1 hx).1
          rw [uadd_eq (by omega : j + 1 ≤ u.max), pure_bind]
          refine bind_congrM fun c _ => bind_congrM fun d _ => ?_
          rw [(body b d).1]
        · intro st hst
          obtain ⟨_, -, hst⟩ := bind_okM hst
          obtain ⟨_, -, hst⟩ := bind_okM hst
          obtain ⟨_, -, hst⟩ := bind_okM hst
          obtain ⟨_, -, hst⟩ := bind_okM hst
          obtain ⟨_, -, hst⟩ := bind_okM hst
          obtain ⟨_, -, hst⟩ := bind_okM hst
          obtain ⟨r, hr, hst⟩ := bind_okM hst
          cases hst
          exact ⟨_, rfl, (body _ _).2 r hr⟩)
    have key : ∀ F G : M (ForInStep (List Int × Nat)),
        ((F = G ∧ ∀ s', G = .ok s' → ∃ r, s' = .yield r ∧ (r.1.length = m ∧ ∀ v ∈ r.1, v < ((i + 1 : Nat) : Int)) ∧ r.2 ≤ u.max) ∨
          ((∃ p, F = .error (.panic p)) ∧ ∀ s', G = .ok s' → ∃ r, s' = .yield r ∧ u.max < r.2)) →
        (F = G ∧ ∀ s', G = .ok (.yield s') → (s'.1.length = m ∧ ∀ v ∈ s'.1, v < ((i + 1 : Nat) : Int)) ∧ s'.2 ≤ u.max) ∨
          ((∃ p, F = .error (.panic p)) ∧ ∀ s', G = .ok (.yield s') → u.max < s'.2) := by
      rintro F G (⟨h1, h2⟩ | ⟨h1, h2⟩)
      · refine .inl ⟨h1, fun s' h => ?_⟩
        obtain ⟨r, hr, h3⟩ := h2 _ h
        cases hr
        exact h3
      · refine .inr ⟨h1, fun s' h => ?_⟩
        obtain ⟨r, hr, h3⟩ := h2 _ h
        cases hr
        exact h3
    apply key
    refine bind_alt fun x _ => bind_alt fun start _ => ?_
    rw [uadd_eq (by omega : i + 1 ≤ u.max), pure_bind]
    refine bind_alt fun x _ => bind_alt fun stop _ => ?_
    rw [(inner start stop).1]
    refine bind_alt fun r hr => ?_
    obtain ⟨h1, h2, h3⟩ := (inner start stop).2 r hr
    simp only
    have hle : r.2 ≤ m := by rw [← h3, ← h1]; exact List.count_le_length
    rw [uszsub_eq hnz]
    simp only [pure_bind]
    by_cases hfit : nnz + r.2 ≤ u.max
    · rw [uadd_eq hfit, pure_bind, if_neg (by omega)]
      refine .inl ⟨rfl, fun s' hs => ?_⟩
      cases hs
      exact ⟨_, rfl, ⟨h1, fun v hv => by have := h2 v hv; omega⟩, hfit⟩
    · refine .inr ⟨?_, fun s' hs => ?_⟩
      · unfold Usz.add
        rw [if_neg hfit]
        by_cases hw : u.wraps = true
        · rw [if_pos hw, pure_bind, if_pos (by omega)]
          exact ⟨_, rfl⟩
        · rw [if_neg hw]
          exact ⟨_, rfl⟩
      · cases hs
        exact ⟨_, rfl, by simp only; omega⟩

/-! ## Strong components -/

/-- whatever `m` returns, `m'` returns -/
def Refi (m m' : M α) : Prop := ∀ r, m = .ok r → m' = .ok r

theorem Refi.rfl' {m : M α} : Refi m m := fun _ h => h

theorem Refi.bind {m m' : M α} {f f' : α → M β} (h : Refi m m') (hf : ∀ a, Refi (f a) (f' a)) : Refi (m >>= f) (m' >>= f') := by
  intro r hr
  obtain ⟨a, h1, h2⟩ := bind_okM hr
  rw [h a h1]
  exact hf a r h2

theorem Refi.ite {c : Prop} [Decidable c] {m m' n n' : M α} (h : Refi m m') (hn : Refi n n') : Refi (if c then m else n) (if c then m' else n') := by
  split
  · exact h
  · exact hn

theorem Refi.whileM {f f' : σ → M (ForInStep σ)} (h : ∀ s, Refi (f s) (f' s)) (n : Nat) (s : σ) : Refi (whileM n s f) (whileM n s f') := by
  induction n generalizing s with
  | zero => exact Refi.rfl'
  | succ n ih =>
    refine Refi.bind (h s) fun st => ?_
    cases st with
    | done s => exact Refi.rfl'
    | yield s => exact ih s

theorem Refi.forIn {l : List β} {f f' : β → σ → M (ForInStep σ)} (h : ∀ x s, Refi (f x s) (f' x s)) (s : σ) : Refi (forIn l s f) (forIn l s f') := by
  induction l generalizing s with
  | nil => exact Refi.rfl'
  | cons x l ih =>
    rw [List.forIn_cons, List.forIn_cons]
    refine Refi.bind (h x s) fun st => ?_
    cases st with
    | done s => exact Refi.rfl'
    | yield s => exact ih s

theorem Refi.usub (u : Usz) (a b : Nat) : Refi (usub a b) (u.sub a b) := by
  intro r h
  unfold Sparse.usub at h
  split at h
  · rw [uszsub_eq ‹_›]; exact h
  · cases h

theorem scc_popU_refi (u : Usz) (fuel v : Nat) (label : Node) (labels ss : List Node) (h : Node) (index : Nat) :
    Refi (scc_pop fuel v label labels ss h index) (scc_popU u fuel v label labels ss h index) := by
  unfold scc_pop scc_popU
  refine Refi.whileM (fun s => ?_) _ _
  refine Refi.ite Refi.rfl' <| Refi.bind Refi.rfl' fun a => Refi.bind Refi.rfl' fun x => Refi.bind Refi.rfl' fun b => ?_
  refine Refi.ite Refi.rfl' <| Refi.bind Refi.rfl' fun a => Refi.bind Refi.rfl' fun x => Refi.bind Refi.rfl' fun b => ?_
  exact Refi.bind Refi.rfl' fun a => Refi.bind (Refi.usub _ _ _) fun x => Refi.rfl'

theorem scc_stepU_refi (u : Usz) (fuel : Nat) (indices indptr : List Int) (s : Scc) (h : Node) :
    Refi (scc_step fuel indices indptr s h) (scc_stepU u fuel indices indptr s h) := by
  unfold scc_step scc_stepU
  refine Refi.bind Refi.rfl' fun a => Refi.bind Refi.rfl' fun x => Refi.ite Refi.rfl' ?_
  have tail : ∀ (stack_head' : Node) (stack_b : List Node) (v : Nat), Refi (do
      let ss ← s.ss.wr v .void
      let stack_b ← stack_b.wr v .void
      let (root, low_v) ← scc_low v indices indptr s.labels
      let labels ← s.labels.wr v low_v
      if root then
        let index ← usub s.index 1
        let (labels, ss, ss_head, index) ← scc_pop fuel v s.label labels ss s.ss_head index
        let labels ← labels.wr v s.label
        let label ← scc_next s.label
        return (({ labels, ss, stack_b, ss_head, index, label } : Scc), stack_head')
      else
        let ss ← ss.wr v s.ss_head
        return ({ s with labels, ss, stack_b, ss_head := .label v }, stack_head')) (do
      let ss ← s.ss.wr v .void
      let stack_b ← stack_b.wr v .void
      let (root, low_v) ← scc_low v indices indptr s.labels
      let labels ← s.labels.wr v low_v
      if root then
        let index ← u.sub s.index 1
        let (labels, ss, ss_head, index) ← scc_popU u fuel v s.label labels ss s.ss_head index
        let labels ← labels.wr v s.label
        let label ← scc_next s.label
        return (({ labels, ss, stack_b, ss_head, index, label } : Scc), stack_head')
      else
        let ss ← ss.wr v s.ss_head
        return ({ s with labels, ss, stack_b, ss_head := .label v }, stack_head')) := by
    intro h b v
    refine Refi.bind Refi.rfl' fun ss => Refi.bind Refi.rfl' fun sb => Refi.bind Refi.rfl' fun ⟨root, low⟩ => Refi.bind Refi.rfl' fun l => ?_
    refine Refi.ite (Refi.bind (Refi.usub _ _ _) fun ix => Refi.bind (scc_popU_refi _ _ _ _ _ _ _ _) fun r => Refi.rfl') Refi.rfl'
  refine Refi.bind Refi.rfl' fun sh => ?_
  dsimp only
  split
  · exact Refi.bind Refi.rfl' fun x => Refi.bind Refi.rfl' fun y => tail _ _ _
  · exact tail _ _ _

theorem connected_components_directedU_refi (u : Usz) (fuel n : Nat) (indices indptr : List Int) :
    Refi (connected_components_directed fuel n indices indptr) (connected_components_directedU u fuel n indices indptr) := by
  unfold connected_components_directed connected_components_directedU
  refine Refi.bind (Refi.usub _ _ _) fun l => Refi.bind (Refi.forIn (fun v s => ?_) _) fun s => ?_
  · refine Refi.bind Refi.rfl' fun a => Refi.ite (Refi.bind Refi.rfl' fun b => Refi.bind Refi.rfl' fun c => Refi.bind (Refi.whileM (fun s => ?_) _ _) fun r => Refi.rfl') Refi.rfl'
    exact Refi.ite Refi.rfl' (Refi.bind (scc_stepU_refi _ _ _ _ _ _) fun r => Refi.rfl')
  · have tail : ∀ c : Nat, Refi (do
        let mut out : List Nat := []
        for l in s.labels do
          out := out ++ [← usub (← usub n 1) (← l.unwrap)]
        return (c, out)) (do
        let mut out : List Nat := []
        for l in s.labels do
          out := out ++ [← u.sub (← u.sub n 1) (← l.unwrap)]
        return (c, out)) := by
      intro c
      refine Refi.bind (Refi.forIn (fun v s => ?_) _) fun s => Refi.rfl'
      exact Refi.bind (Refi.usub _ _ _) fun a => Refi.bind Refi.rfl' fun b => Refi.bind (Refi.usub _ _ _) fun x => Refi.rfl'
    obtain ⟨_, _, _, _, _, lab⟩ := s
    cases lab
    · exact Refi.bind (Refi.usub _ _ _) fun a => Refi.bind (Refi.usub _ _ _) fun b => tail _
    · exact tail _
    · exact tail _

theorem connected_components_directedU_empty {u : Usz} (hu : u.wraps = true) (fuel : Nat) (indices indptr : List Int) :
    connected_components_directedU u fuel 0 indices indptr = .ok (0, []) := by
  have h1 : u.sub 0 1 = .ok u.max := by
    unfold Usz.sub
    rw [if_neg (by omega), if_pos hu]
    simp only [Nat.zero_add, Nat.add_sub_cancel]
    rfl
  have h2 : u.sub u.max u.max = .ok 0 := by rw [uszsub_eq (Nat.le_refl _), Nat.sub_self]; rfl
  unfold connected_components_directedU
  simp only [h1, rng, Nat.sub_self, List.range'_zero, List.forIn_nil, List.replicate_zero]
  show (do
    let d ← u.sub u.max u.max
    pure (d, ([] : List Nat))) = _
  rw [h2]
  rfl

/-! ## Returned values are those of the unbounded functions -/

theorem Refi.ucap {u : Usz} {sz n : Nat} {f g : M α} (h : Refi f g) : Refi (u.cap sz n >>= fun _ => f) g := by
  intro r hr
  obtain ⟨a, -, h2⟩ := bind_okM hr
  exact h r h2

theorem Refi.uadd {u : Usz} (hu : u.wraps = false) {a b : Nat} {f : Nat → M α} {g : M α} (h : Refi (f (a + b)) g) : Refi (u.add a b >>= f) g := by
  unfold Usz.add
  split
  · exact h
  · rw [hu]
    intro r hr
    cases hr

theorem Refi.umul {u : Usz} (hu : u.wraps = false) {a b : Nat} {f : Nat → M α} {g : M α} (h : Refi (f (a * b)) g) : Refi (u.mul a b >>= f) g := by
  unfold Usz.mul
  split
  · exact h
  · rw [hu]
    intro r hr
    cases hr

theorem Refi.tail {m : M α} {f g : α → M β} (h : ∀ a, Refi (f a) (g a)) : Refi (m >>= f) (m >>= g) := Refi.bind Refi.rfl' h

theorem newU_max {u : Usz} {cols : Nat} {p j : List Int} {x : List T} {r : CSR T} : CSR.newU u u.max cols p j x ≠ .ok r := by
  intro h
  unfold CSR.newU Usz.add at h
  rw [if_neg (by omega)] at h
  by_cases hw : u.wraps = true
  · rw [if_pos hw, pure_bind, Nat.mod_self] at h
    split at h
    · cases h
    · rename_i hl
      have hl : p = [] := List.length_eq_zero_iff.1 (by omega)
      subst hl
      unfold Usz.sub at h
      rw [List.length_nil, if_neg (by omega), if_pos hw, pure_bind] at h
      simp only [List.rd, List.getElem?_nil] at h
      cases h
  · rw [if_neg hw] at h
    cases h

theorem newU_eq {u : Usz} {rows : Nat} (hr : rows < u.max) (cols : Nat) (p j : List Int) (x : List T) :
    CSR.newU u rows cols p j x = CSR.new rows cols p j x := by
  unfold CSR.newU CSR.new
  rw [uadd_eq (by omega), pure_bind]
  split
  · rfl
  · have : p.length = rows + 1 := by omega
    rw [uszsub_eq (by omega : 1 ≤ p.length), show usub p.length 1 = pure (p.length - 1) from if_pos (by omega)]

theorem newU_refi {u : Usz} {rows : Nat} (hr : rows ≤ u.max) (cols : Nat) (p j : List Int) (x : List T) :
    Refi (CSR.newU u rows cols p j x) (CSR.new rows cols p j x) := by
  rcases Nat.lt_or_ge rows u.max with h | h
  · rw [newU_eq h]; exact Refi.rfl'
  · have : rows = u.max := by omega
    subst this
    exact fun r h => absurd h newU_max

theorem mat_matU_refi [Zero T] [Add T] [Mul T] [BEq T] {u : Usz} {isz sz : Nat} {t : IdxTy} {a x : CSR T}
    (hr : a.rows ≤ u.max) (hc : x.cols ≤ u.max) (hb : x.rowptr.length ≤ u.max) : Refi (a.mat_matU u isz sz t x) (a.mat_mat t x) := by
  rcases Nat.lt_or_ge a.rows u.max with hr' | hr'
  · unfold CSR.mat_matU CSR.mat_mat
    refine Refi.ite Refi.rfl' ?_
    dsimp only
    rw [uadd_eq (by omega), pure_bind]
    refine Refi.ucap ?_
    rcases maxnnzU_rel (u := u) (n := a.rows) (m := x.cols) (a_p := a.rowptr) (a_j := a.colidx) (b_p := x.rowptr) (b_j := x.colidx)
      (by omega) hc hb with ⟨h, -⟩ | ⟨⟨p, h⟩, -⟩
    · rw [h]
      refine Refi.tail fun k => Refi.ucap <| Refi.ucap <| Refi.tail fun r => newU_refi (by omega) _ _ _ _
    · rw [h]
      intro r h
      cases h
  · intro r h
    exfalso
    unfold CSR.mat_matU at h
    dsimp only at h
    split at h
    · cases h
    · obtain ⟨_, -, h⟩ := bind_okM h
      obtain ⟨_, -, h⟩ := bind_okM h
      obtain ⟨_, -, h⟩ := bind_okM h
      obtain ⟨_, -, h⟩ := bind_okM h
      obtain ⟨_, -, h⟩ := bind_okM h
      obtain ⟨_, -, h⟩ := bind_okM h
      rw [show a.rows = u.max by omega] at h
      exact newU_max h

theorem mat_matU_eq [Zero T] [Add T] [Mul T] [BEq T] {u : Usz} {isz sz : Nat} {t : IdxTy} {a x : CSR T}
    (hr : a.rows < u.max) (hri : isz * (a.rows + 1) ≤ u.imax) (hc : x.cols ≤ u.max) (hb : x.rowptr.length ≤ u.max)
    (hk : ∀ k, csr_matmat_maxnnz a.rows x.cols a.rowptr a.colidx x.rowptr x.colidx = .ok k → k ≤ u.max ∧ isz * k ≤ u.imax ∧ sz * k ≤ u.imax)
    (hok : ∃ k, csr_matmat_maxnnz a.rows x.cols a.rowptr a.colidx x.rowptr x.colidx = .ok k) :
    a.mat_matU u isz sz t x = a.mat_mat t x := by
  unfold CSR.mat_matU CSR.mat_mat
  dsimp only
  split
  · rfl
  rw [uadd_eq (by omega), pure_bind, ucap_eq hri]
  show (do let nnz ← csr_matmat_maxnnzU .. ; _) = _
  rcases maxnnzU_rel (u := u) (n := a.rows) (m := x.cols) (a_p := a.rowptr) (a_j := a.colidx) (b_p := x.rowptr) (b_j := x.colidx)
    (by omega) hc hb with ⟨h, -⟩ | ⟨-, h⟩
  · rw [h]
    refine bind_congrM fun k hk' => ?_
    obtain ⟨-, h1, h2⟩ := hk k hk'
    rw [ucap_eq h1, ucap_eq h2]
    show (do let r ← csr_matmat .. ; _) = _
    exact bind_congrM fun r _ => newU_eq hr ..
  · obtain ⟨k, hk'⟩ := hok
    have := h k hk'
    have := (hk k hk').1
    omega

theorem v_stackU_eq {u : Usz} {t : IdxTy} {a b : Coo T} (h : a.rows + b.rows ≤ u.max) : Coo.v_stackU u t a b = Coo.v_stack t a b := by
  unfold Coo.v_stackU Coo.v_stack
  rw [uadd_eq h]
  rfl

theorem h_stackU_eq {u : Usz} {t : IdxTy} {a b : Coo T} (h : a.cols + b.cols ≤ u.max) : Coo.h_stackU u t a b = Coo.h_stack t a b := by
  unfold Coo.h_stackU Coo.h_stack
  rw [uadd_eq h]
  rfl

theorem v_stackU_refi {u : Usz} (hu : u.wraps = false) {t : IdxTy} {a b : Coo T} : Refi (Coo.v_stackU u t a b) (Coo.v_stack t a b) := by
  unfold Coo.v_stackU Coo.v_stack
  exact Refi.ite Refi.rfl' (Refi.uadd hu Refi.rfl')

theorem h_stackU_refi {u : Usz} (hu : u.wraps = false) {t : IdxTy} {a b : Coo T} : Refi (Coo.h_stackU u t a b) (Coo.h_stack t a b) := by
  unfold Coo.h_stackU Coo.h_stack
  exact Refi.ite Refi.rfl' (Refi.uadd hu Refi.rfl')

theorem composeU_refi {u : Usz} (hu : u.wraps = false) {t : IdxTy} {a b c d : Coo T} : Refi (Coo.composeU u t a b c d) (Coo.compose t a b c d) :=
  Refi.bind (h_stackU_refi hu) fun _ => Refi.bind (h_stackU_refi hu) fun _ => v_stackU_refi hu

theorem h_stack_shape {t : IdxTy} {a b r : Coo T} (h : Coo.h_stack t a b = .ok r) : r.rows = a.rows ∧ r.cols = a.cols + b.cols := by
  unfold Coo.h_stack at h
  split at h
  · cases h
  · obtain ⟨s, -, h⟩ := bind_okM h
    unfold Coo.new at h
    dsimp only at h
    split at h <;> cases h
    exact ⟨rfl, rfl⟩

theorem composeU_eq {u : Usz} {t : IdxTy} {a b c d : Coo T} (h1 : a.cols + b.cols ≤ u.max) (h2 : c.cols + d.cols ≤ u.max) (h3 : a.rows + c.rows ≤ u.max) :
    Coo.composeU u t a b c d = Coo.compose t a b c d := by
  unfold Coo.composeU Coo.compose
  rw [h_stackU_eq h1, h_stackU_eq h2]
  refine bind_congrM fun x hx => bind_congrM fun y hy => v_stackU_eq ?_
  rw [(h_stack_shape hx).1, (h_stack_shape hy).1]
  exact h3

theorem upperU_refi {u : Usz} {isz sz : Nat} {t : IdxTy} {a : Coo T} {k : Int} : Refi (Coo.upperU u isz sz t a k) (a.upper t k) := by
  intro r h
  obtain ⟨c, -, h⟩ := bind_okM h
  exact Refi.ucap (Refi.ucap (Refi.ucap Refi.rfl')) r h

theorem upperU_eq {u : Usz} {isz sz : Nat} {t : IdxTy} {a : Coo T} {k : Int} (h0 : a.nnz / 2 + a.cols ≤ u.max)
    (h1 : isz * (a.nnz / 2 + a.cols) ≤ u.imax) (h2 : sz * (a.nnz / 2 + a.cols) ≤ u.imax) : Coo.upperU u isz sz t a k = a.upper t k := by
  unfold Coo.upperU
  rw [uadd_eq h0, pure_bind, ucap_eq h1, ucap_eq h2]
  rfl

theorem from_denseU_refi [Zero T] [BEq T] {u : Usz} {isz sz : Nat} {t : IdxTy} {a : List (List T)} :
    Refi (Coo.from_denseU u isz sz t a) (Coo.from_dense t a) := by
  intro r h
  unfold Coo.from_denseU at h
  dsimp only at h
  split at h
  all_goals
    obtain ⟨n, -, h⟩ := bind_okM h
    obtain ⟨c, -, h⟩ := bind_okM h
  · obtain ⟨_, -, h⟩ := bind_okM h
    exact Refi.ucap (Refi.ucap (Refi.ucap Refi.rfl')) r h
  exact Refi.ucap (Refi.ucap (Refi.ucap Refi.rfl')) r h

theorem from_denseU_eq [Zero T] [BEq T] {u : Usz} {isz sz : Nat} {t : IdxTy} {a : List (List T)}
    (h : ∀ r, a[0]? = some r → a.length * r.length ≤ u.max ∧ isz * (a.length * r.length) ≤ u.imax ∧ sz * (a.length * r.length) ≤ u.imax) :
    Coo.from_denseU u isz sz t a = Coo.from_dense t a := by
  unfold Coo.from_denseU
  cases a with
  | nil =>
    show (do let c ← u.mul 0 0; u.cap isz c; u.cap isz c; u.cap sz c; _) = _
    rw [umul_eq (by omega), pure_bind, ucap_eq (by omega), ucap_eq (by omega)]
    rfl
  | cons r l =>
    obtain ⟨h0, h1, h2⟩ := h r rfl
    show (do let c ← u.mul (r :: l).length r.length; u.cap isz c; u.cap isz c; u.cap sz c; _) = _
    rw [umul_eq h0, pure_bind, ucap_eq h1, ucap_eq h2]
    rfl

theorem to_csrU_refi [Zero T] [Add T] {u : Usz} {isz : Nat} {t : IdxTy} {a : Coo T} (hr : a.rows ≤ u.max) : Refi (Coo.to_csrU u isz t a) (a.to_csr t) := by
  rcases Nat.lt_or_ge a.rows u.max with hr' | hr'
  · unfold Coo.to_csrU Coo.to_csr
    dsimp only
    rw [uadd_eq (by omega), pure_bind]
    refine Refi.ucap <| Refi.tail fun r => Refi.bind ?_ fun m => Refi.rfl'
    rw [newU_eq hr']
    exact Refi.rfl'
  · intro r h
    exfalso
    unfold Coo.to_csrU at h
    dsimp only at h
    obtain ⟨_, -, h⟩ := bind_okM h
    obtain ⟨_, -, h⟩ := bind_okM h
    obtain ⟨_, -, h⟩ := bind_okM h
    obtain ⟨m, hm, h⟩ := bind_okM h
    rw [show a.rows = u.max by omega] at hm
    unfold unwrapR at hm
    split at hm
    · cases hm
    · exact newU_max hm

theorem to_csrU_eq [Zero T] [Add T] {u : Usz} {isz : Nat} {t : IdxTy} {a : Coo T} (hr : a.rows < u.max) (hi : isz * (a.rows + 1) ≤ u.imax) :
    Coo.to_csrU u isz t a = a.to_csr t := by
  unfold Coo.to_csrU Coo.to_csr
  dsimp only
  rw [uadd_eq (by omega), pure_bind, ucap_eq hi]
  show (do let r ← coo_tocsr .. ; _) = _
  refine bind_congrM fun r _ => ?_
  rw [newU_eq hr]

/-! ## Builds with overflow checks -/

theorem csr_row_sliceU_refi {u : Usz} (hu : u.wraps = false) {fuel start stop step : Nat} {a_p a_j : List Int} {a_x : List T} {b_j : List Int} {b_x : List T} :
    Refi (csr_row_sliceU u fuel start stop step a_p a_j a_x b_j b_x) (csr_row_slice fuel start stop step a_p a_j a_x b_j b_x) := by
  unfold csr_row_sliceU csr_row_slice
  refine Refi.ite (Refi.bind (Refi.whileM (fun s => ?_) _ _) fun _ => Refi.rfl') (Refi.bind (Refi.whileM (fun s => ?_) _ _) fun _ => Refi.rfl') <;>
  exact Refi.ite (Refi.tail fun _ => Refi.tail fun _ => Refi.uadd hu <| Refi.tail fun _ => Refi.tail fun _ => Refi.tail fun _ => Refi.tail fun _ => Refi.uadd hu Refi.rfl') Refi.rfl'

theorem csr_count_diagonalsU_eq {u : Usz} (hu : u.wraps = false) {n : Nat} (hn : n ≤ u.max) (a_p a_j : List Int) :
    csr_count_diagonalsU u n a_p a_j = csr_count_diagonals n a_p a_j := by
  unfold csr_count_diagonalsU csr_count_diagonals
  dsimp only
  congr 1
  refine forIn_rng_congr fun i _ hi s => ?_
  simp only [usub_checked hu]
  rw [uadd_eq (by omega)]
  simp only [pure_bind]

theorem coo_todenseU_refi [Add T] {u : Usz} (hu : u.wraps = false) {n m nnz : Nat} {a_i a_j : List Int} {a_x b_x : List T} {fortran : Bool} :
    Refi (coo_todenseU u n m nnz a_i a_j a_x b_x fortran) (coo_todense n m nnz a_i a_j a_x b_x fortran) := by
  unfold coo_todenseU coo_todense
  dsimp only
  cases fortran
  · simp only [Bool.not_false, if_true]
    refine Refi.bind (Refi.forIn (fun k s => ?_) _) fun _ => Refi.rfl'
    exact Refi.tail fun _ => Refi.tail fun _ => Refi.umul hu <| Refi.tail fun _ => Refi.tail fun _ => Refi.uadd hu Refi.rfl'
  · simp only [Bool.not_true, Bool.false_eq_true, if_false]
    refine Refi.bind (Refi.forIn (fun k s => ?_) _) fun _ => Refi.rfl'
    exact Refi.tail fun _ => Refi.tail fun _ => Refi.umul hu <| Refi.tail fun _ => Refi.tail fun _ => Refi.uadd hu Refi.rfl'

theorem csr_matvecsU_refi [Add T] [Mul T] {u : Usz} (hu : u.wraps = false) {n k : Nat} {a_p a_j : List Int} {a_x x_x y_x : List T} :
    Refi (csr_matvecsU u n k a_p a_j a_x x_x y_x) (csr_matvecs n k a_p a_j a_x x_x y_x) := by
  unfold csr_matvecsU csr_matvecs
  dsimp only
  refine Refi.bind (Refi.forIn (fun i s => Refi.umul hu <| Refi.ite Refi.rfl' ?_) _) fun _ => Refi.rfl'
  refine Refi.tail fun _ => Refi.tail fun _ => Refi.uadd hu <| Refi.tail fun _ => Refi.tail fun _ => Refi.bind (Refi.forIn (fun jj s => ?_) _) fun _ => Refi.rfl'
  exact Refi.tail fun _ => Refi.tail fun _ => Refi.tail fun _ => Refi.umul hu Refi.rfl'

theorem csc_matvecsU_refi [Add T] [Mul T] {u : Usz} (hu : u.wraps = false) {n k : Nat} {a_p a_i : List Int} {a_x x_x y_x : List T} :
    Refi (csc_matvecsU u n k a_p a_i a_x x_x y_x) (csc_matvecs n k a_p a_i a_x x_x y_x) := by
  unfold csc_matvecsU csc_matvecs
  dsimp only
  refine Refi.bind (Refi.forIn (fun i s => ?_) _) fun _ => Refi.rfl'
  refine Refi.tail fun _ => Refi.tail fun _ => Refi.uadd hu <| Refi.tail fun _ => Refi.tail fun _ => Refi.bind (Refi.forIn (fun jj s => ?_) _) fun _ => Refi.rfl'
  exact Refi.tail fun _ => Refi.tail fun _ => Refi.tail fun _ => Refi.umul hu <| Refi.umul hu Refi.rfl'

end
end Sparse

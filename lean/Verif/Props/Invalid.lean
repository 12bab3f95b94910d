import Verif.Lemmas.Invalid
import Verif.Props.Build
/-!
C73: indices outside the matrix and arrays of different lengths.
-/
namespace Sparse

section
variable {T : Type}

/-- the call panics -/
def Panics (m : M α) : Prop := ∃ p, m = .error (.panic p)

theorem panics_of {m : M α} {G : Prop} (h : WP m (fun _ => G) IsPanic) (hn : ¬ G) : Panics m := by
  obtain ⟨e, h1, p, rfl⟩ := (h.mono (fun _ h => hn h) (fun _ h => h)).fails
  exact ⟨p, h1⟩

theorem panics_bind {m : M α} {f : α → M β} (h : Panics m) : Panics (m >>= f) := by
  obtain ⟨p, rfl⟩ := h
  exact ⟨p, rfl⟩

/-- some row `i` stores a column index that the matrix does not have -/
def CSR.BadColumn (a : CSR T) : Prop := ∃ i < a.rows, ∃ e ∈ a.row i, ¬ (0 ≤ e.1 ∧ e.1 < (a.cols : Int))

/-- some column `j` stores a row index that the matrix does not have -/
def CSC.BadRow (a : CSC T) : Prop := ∃ j < a.cols, ∃ e ∈ a.col j, ¬ (0 ≤ e.1 ∧ e.1 < (a.rows : Int))

/-- the triplet at position `k` is incomplete, or lies outside the matrix -/
def Coo.BadAt (a : Coo T) (k : Nat) : Prop :=
  ¬ ∃ i j, a.rowidx[k]? = some i ∧ a.colidx[k]? = some j ∧ (0 ≤ i ∧ i < (a.rows : Int)) ∧ 0 ≤ j ∧ j < (a.cols : Int)

theorem Seen.not_bad {R : Nat → List (Int × T)} {n m : Nat} (h : ∃ i < n, ∃ e ∈ R i, ¬ (0 ≤ e.1 ∧ e.1 < (m : Int))) :
    ¬ Seen R (fun c => 0 ≤ c ∧ c < (m : Int)) n := by
  obtain ⟨i, hi, e, he, hn⟩ := h
  exact fun h => hn (h i hi e he)

/-- C73. A CSR matrix with valid row pointers but some column index outside the matrix makes `mat_vec`, `to_dense`,
`to_csc` and `mat_mat` (as left operand) panic; so does column scaling. -/
theorem C73_csr_partial [Zero T] [Add T] [Mul T] [BEq T] (t : IntTy) (a : CSR T)
    (hp : Pointers a.rows a.rowptr a.colidx a.values) (hbad : a.BadColumn) :
    (∀ x : List T, x.length = a.cols → Panics (a.mat_vec x)) ∧
    Panics a.to_dense ∧
    Panics (a.to_csc t) ∧
    (∀ b : CSR T, a.cols = b.rows → b.rowptr.length = b.rows + 1 → Panics (a.mat_mat t b)) ∧
    ∀ x : List T, x.length = a.cols → Panics (csr_scale_columns a.rows a.rowptr a.colidx a.values x) := by
  have hr := hp.rep
  have hb := Seen.not_bad hbad
  refine ⟨?_, ?_, ?_, ?_, ?_⟩
  · intro x hx
    unfold CSR.mat_vec
    rw [if_neg (by simpa using hx)]
    refine panics_of (csr_matvec_checks (x := x) hr) ?_
    rw [hx]
    exact hb
  · refine panics_of (csr_todense_checks hr (m := a.cols) ?_) hb
    intro r h
    rw [List.eq_of_mem_replicate h]
    simp
  · unfold CSR.to_csc
    have hn : a.nnz = .ok (flat (Sparse.rowOf a.rowptr a.colidx a.values) a.rows).length := by
      have he : a.rowptr.isEmpty = false := by
        rw [List.isEmpty_eq_false_iff]
        intro h
        have := hp.len
        rw [h] at this
        simp at this
      unfold CSR.nnz List.rd usub
      rw [he, hp.len]
      simp [hr.ptr a.rows (le_refl _), toUsize, bind, Except.bind, pure, Except.pure]
    rw [hn]
    refine panics_bind (m := csr_tocsc _ _ _ _ _ _ _ _ _) ?_
    exact panics_of (csr_tocsc_checks hr (m := a.cols) (by simp) (by simp)) hb
  · intro b h1 h2
    unfold CSR.mat_mat
    rw [if_neg (by simpa using h1)]
    exact panics_bind (panics_of (csr_matmat_maxnnz_checks hr (k := a.cols) (by rw [h1, h2])) hb)
  · intro x hx
    refine panics_of (csr_scale_columns_checks (x := x) hr) ?_
    rw [hx]
    exact hb

/-- C73. The same for a CSC matrix with valid column pointers but some row index outside the matrix (right operand of
`mat_mat`). -/
theorem C73_csc_partial [Zero T] [Add T] [Mul T] [BEq T] (t : IntTy) (a : CSC T)
    (hp : Pointers a.cols a.colptr a.rowidx a.values) (hbad : a.BadRow) :
    (∀ x : List T, x.length = a.cols → Panics (a.mat_vec x)) ∧
    Panics (a.to_dense t) ∧
    Panics (a.to_csr t) ∧
    (∀ b : CSC T, b.cols = a.rows → b.colptr.length = b.cols + 1 → Panics (b.mat_mat t a)) := by
  have hr := hp.rep
  have hb := Seen.not_bad hbad
  have hcsr : Panics (a.to_csr t) := by
    unfold CSC.to_csr
    have hn : a.nnz = .ok (flat (Sparse.rowOf a.colptr a.rowidx a.values) a.cols).length := by
      unfold CSC.nnz List.rd usub
      rw [hp.len]
      simp [hr.ptr a.cols (le_refl _), toUsize, bind, Except.bind, pure, Except.pure]
    rw [hn]
    refine panics_bind (m := csr_tocsc _ _ _ _ _ _ _ _ _) ?_
    exact panics_of (csr_tocsc_checks hr (m := a.rows) (by simp) (by simp)) hb
  refine ⟨?_, panics_bind hcsr, hcsr, ?_⟩
  · intro x hx
    unfold CSC.mat_vec
    rw [if_neg (by simpa using hx)]
    refine panics_of (csc_matvec_checks (y := List.replicate a.rows 0) hr) ?_
    rw [List.length_replicate]
    exact hb
  · intro b h1 h2
    unfold CSC.mat_mat
    rw [if_neg (by simp [h1])]
    exact panics_bind (panics_of (csr_matmat_maxnnz_checks hr (k := a.rows) (by rw [h2, h1])) hb)

theorem coo_tocsr_checks {t : IntTy} {nnz n : Nat} {ai aj bp bj : List Int} {ax bx : List T}
    (hl : bp.length = n + 1) (hn : bj.length = nnz) :
    WP (coo_tocsr t n nnz ai aj ax bp bj bx) (fun _ => ∀ k < nnz, ∃ i j, ai[k]? = some i ∧ aj[k]? = some j ∧
      0 ≤ i ∧ i < (n : Int)) IsPanic := by
  unfold coo_tocsr
  wpp
  refine count_loop_len.mono ?_ (fun _ h => h)
  intro b1 h1
  refine cumsum_loop_len.mono ?_ (fun _ h => h)
  intro b2 h2 _ h3
  have h4 : b2.length = n + 1 := by rw [h2, h1]; simpa using hl
  refine WP.mono (Q := fun _ => ∀ k < nnz, ∃ i j, ai[k]? = some i ∧ aj[k]? = some j ∧
      0 ≤ i ∧ i < (n : Int)) ?_ (fun r hr => shift_loop_any.mono (fun _ _ => hr) (fun _ h => h)) (fun _ h => h)
  unfold coo_scatter
  wpp
  refine WP_forRange (fun k s => (s.fst.length = n + 1 ∧ s.fst[n]? = some (nnz : Int) ∧ s.snd.fst.length = nnz) ∧
    ∀ k' < k, ∃ i j, ai[k']? = some i ∧ aj[k']? = some j ∧ 0 ≤ i ∧ i < (n : Int)) (fun _ => False) (by omega)
    ⟨⟨by simpa using h4, List.getElem?_set_self (by omega), hn⟩, by intro k hk; omega⟩ ?_ (by simp) (fun _ h => h.2)
  rintro k s _ hk ⟨⟨hs1, hs2, hs3⟩, hP⟩
  wpp
  intro i hi hi0 d hd hd0 j hj hlt v _ _ w _ _ hlt'
  have hne : i.toNat ≠ n := by
    intro h'
    rw [h', hs2] at hd
    obtain rfl := Option.some.inj hd
    omega
  refine ⟨⟨by simpa using hs1, by rw [List.getElem?_set_ne hne]; exact hs2, by simpa using hs3⟩, ?_⟩
  intro k' hk'
  rcases Nat.lt_or_ge k' k with h5 | h5
  · exact hP k' h5
  · have : k' = k := by omega
    subst this
    exact ⟨i, j, hi, hj, hi0, by omega⟩

/-- C73. A coordinate matrix in which the triplet at some position is incomplete (fewer row or column indices than
values) or lies outside the matrix makes `to_dense` panic. -/
theorem C73_coo_to_dense_partial [Zero T] [Add T] (a : Coo T) (k : Nat) (hk : k < a.nnz) (hbad : a.BadAt k) :
    Panics a.to_dense := by
  refine panics_of (G := ∀ k < a.nnz, ∃ i j, a.rowidx[k]? = some i ∧ a.colidx[k]? = some j ∧
      (0 ≤ i ∧ i < (a.rows : Int)) ∧ 0 ≤ j ∧ j < (a.cols : Int)) ?_ (fun h => hbad (h k hk))
  unfold Coo.to_dense
  wpp
  refine WP_forRange (fun k s => (s.length = a.rows ∧ ∀ r ∈ s, r.length = a.cols) ∧
    ∀ k' < k, ∃ i j, a.rowidx[k']? = some i ∧ a.colidx[k']? = some j ∧
      (0 ≤ i ∧ i < (a.rows : Int)) ∧ 0 ≤ j ∧ j < (a.cols : Int)) (fun _ => False) (by omega)
    ⟨⟨by simp, fun r h => by rw [List.eq_of_mem_replicate h]; simp⟩, by intro k hk; omega⟩ ?_ (by simp) (fun _ h => h.2)
  rintro k s _ hk ⟨⟨hs1, hs2⟩, hP⟩
  wpp
  intro i hi hi0 j hj hj0 r hr v _ w _ hlt hlt'
  have hrl := hs2 r (List.mem_of_getElem? hr)
  refine ⟨⟨by simpa using hs1, ?_⟩, ?_⟩
  · intro r' hr'
    rcases List.mem_or_eq_of_mem_set hr' with h' | rfl
    · exact hs2 r' h'
    · simpa using hrl
  · intro k' hk'
    rcases Nat.lt_or_ge k' k with h5 | h5
    · exact hP k' h5
    · have : k' = k := by omega
      subst this
      exact ⟨i, j, hi, hj, ⟨hi0, by omega⟩, hj0, by omega⟩

/-- C73. `to_csr` panics if some row index is outside the matrix or an index is missing, `to_csc` if some column index is
outside the matrix or an index is missing. -/
theorem C73_coo_conversions_partial [Zero T] [Add T] (t : IntTy) (a : Coo T) (k : Nat) (hk : k < a.nnz) :
    ((¬ ∃ i j, a.rowidx[k]? = some i ∧ a.colidx[k]? = some j ∧ 0 ≤ i ∧ i < (a.rows : Int)) → Panics (a.to_csr t)) ∧
    ((¬ ∃ i j, a.rowidx[k]? = some i ∧ a.colidx[k]? = some j ∧ 0 ≤ j ∧ j < (a.cols : Int)) → Panics (a.to_csc t)) := by
  constructor
  · intro h
    exact panics_bind (panics_of (coo_tocsr_checks (by simp) (by simp)) (fun h' => h (h' k hk)))
  · intro h
    refine panics_bind (panics_of (coo_tocsr_checks (by simp) (by simp)) (fun h' => h ?_))
    obtain ⟨i, j, h1, h2, h3⟩ := h' k hk
    exact ⟨j, i, h2, h1, h3⟩

/-- C73. `coo_matvec` panics if some index does not fit the vectors it is used on. -/
theorem C73_coo_matvec_partial [Add T] [Mul T] (nnz : Nat) (ai aj : List Int) (ax x y : List T) (k : Nat) (hk : k < nnz)
    (hbad : ¬ ∃ i j, ai[k]? = some i ∧ aj[k]? = some j ∧ (0 ≤ i ∧ i < (y.length : Int)) ∧ 0 ≤ j ∧ j < (x.length : Int)) :
    Panics (coo_matvec nnz ai aj ax x y) := by
  refine panics_of (G := ∀ k < nnz, ∃ i j, ai[k]? = some i ∧ aj[k]? = some j ∧
      (0 ≤ i ∧ i < (y.length : Int)) ∧ 0 ≤ j ∧ j < (x.length : Int)) ?_ (fun h => hbad (h k hk))
  unfold coo_matvec
  wpp
  refine WP_forRange (fun k s => s.length = y.length ∧
    ∀ k' < k, ∃ i j, ai[k']? = some i ∧ aj[k']? = some j ∧
      (0 ≤ i ∧ i < (y.length : Int)) ∧ 0 ≤ j ∧ j < (x.length : Int)) (fun _ => False) (by omega)
    ⟨rfl, by intro k hk; omega⟩ ?_ (by simp) (fun _ h => h.2)
  rintro k s _ hk ⟨hs1, hP⟩
  wpp
  intro i hi hi0 j hj hj0 v _ w _ u hu hlt
  refine ⟨by simpa using hs1, ?_⟩
  intro k' hk'
  rcases Nat.lt_or_ge k' k with h5 | h5
  · exact hP k' h5
  · have : k' = k := by omega
    subst this
    have := (List.getElem?_eq_some_iff.1 hu).1
    exact ⟨i, j, hi, hj, ⟨hi0, by omega⟩, hj0, by omega⟩

/-- a column index equal to the number of columns -/
def exBadCSR : CSR Int := { rows := 2, cols := 2, rowptr := [0, 1, 2], colidx := [1, 2], values := [5, 7] }

example : Pointers exBadCSR.rows exBadCSR.rowptr exBadCSR.colidx exBadCSR.values ∧ exBadCSR.BadColumn := by
  refine ⟨⟨rfl, rfl, ?_, ?_⟩, 1, by decide, (2, 7), by decide, by decide⟩
  · intro i a b h1 h2
    match i, h1, h2 with
    | 0, h1, h2 => simp [exBadCSR] at h1 h2; omega
    | 1, h1, h2 => simp [exBadCSR] at h1 h2; omega
    | i + 2, h1, h2 => simp [exBadCSR] at h2
  · intro c hc
    simp [exBadCSR] at hc
    subst hc
    decide

/-- the transposed matrix in compressed columns -/
example : let a : CSC Int := { rows := 2, cols := 2, rowidx := [1, 2], colptr := [0, 1, 2], values := [5, 7] }
    Pointers a.cols a.colptr a.rowidx a.values ∧ a.BadRow := by
  refine ⟨⟨rfl, rfl, ?_, ?_⟩, 1, by decide, (2, 7), by decide, by decide⟩
  · intro i a b h1 h2
    match i, h1, h2 with
    | 0, h1, h2 => simp at h1 h2; omega
    | 1, h1, h2 => simp at h1 h2; omega
    | i + 2, h1, h2 => simp at h2
  · intro c hc
    simp at hc
    subst hc
    decide

/-- a triplet outside the matrix, and a value without a row index -/
example : (⟨2, 2, [0, 2], [1, 0], [5, 7]⟩ : Coo Int).BadAt 1 ∧ (⟨2, 2, [0], [1, 0], [5, 7]⟩ : Coo Int).BadAt 1 ∧
    Panics ((⟨2, 2, [0, 2], [1, 0], [5, 7]⟩ : Coo Int).to_csr IntTy.u8) := by
  have h : (⟨2, 2, [0, 2], [1, 0], [5, 7]⟩ : Coo Int).BadAt 1 := by
    rintro ⟨i, j, h1, -, h2, -⟩
    simp at h1
    subst h1
    simp at h2
  refine ⟨h, ?_, (C73_coo_conversions_partial IntTy.u8 _ 1 (by decide)).1 ?_⟩
  · rintro ⟨i, j, h1, -⟩
    simp at h1
  · rintro ⟨i, j, h1, -, h2⟩
    simp at h1
    subst h1
    simp at h2

/-- C73: the full statement (no result is computed from an index outside the matrix or from arrays of different lengths)
is false. `Coo::to_csr` copies a column index outside the matrix into an invalid CSR matrix, `+` on such matrices succeeds,
and the flat kernel `coo_todense` adds the value to another position. `Coo::extend` accepts fewer values than
indices: a value pushed afterwards at (0, 1) ends up at (1, 1). -/
theorem C73_counterexample :
    (∃ a : Coo Int, Coo.new 2 2 [0, 1] [1, 2] [5, 7] = .ok a ∧ a.BadAt 1 ∧ a.to_csr IntTy.u8 = .ok exBadCSR) ∧
    (∃ r, exBadCSR.add IntTy.u8 exBadCSR = .ok r ∧ r.BadColumn) ∧
    coo_todense 2 2 2 [0, 0] [1, 2] [5, 7] [0, 0, 0, 0] false = .ok [0, 5, (7 : Int), 0] ∧
    (((Coo.with_size 2 2).extend [0, 1] [0, 1] [5]).push 0 1 7).to_dense = .ok [[5, 0], [0, (7 : Int)]] := by
  refine ⟨⟨_, rfl, ?_, by decide +kernel⟩, ⟨_, rfl, 1, by decide, (2, 14), by decide, by decide⟩, by decide, by decide⟩
  rintro ⟨i, j, h1, h2, -, h3⟩
  simp at h2
  subst h2
  simp at h3

end
end Sparse

import Verif.Props.Param
import Verif.Props.Laws
/-! C99: complex matrices obey the laws of complex matrix algebra. -/
namespace Sparse

section
variable {F : Type}

theorem Cx.conj_sum [CommRing F] {ι : Type} (s : Finset ι) (f : ι → Cx F) : Cx.conj (∑ i ∈ s, f i) = ∑ i ∈ s, Cx.conj (f i) :=
  map_sum (Cx.conjRing (F := F)) f s

theorem Cx.conj_mul [CommRing F] (x y : Cx F) : Cx.conj (x * y) = Cx.conj x * Cx.conj y := map_mul (Cx.conjRing (F := F)) x y

theorem Cx.re_sum [CommRing F] {ι : Type} (s : Finset ι) (f : ι → Cx F) : (∑ i ∈ s, f i).re = ∑ i ∈ s, (f i).re :=
  map_sum (Cx.reHom (F := F)) f s

theorem Cx.im_sum [CommRing F] {ι : Type} (s : Finset ι) (f : ι → Cx F) : (∑ i ∈ s, f i).im = ∑ i ∈ s, (f i).im :=
  map_sum (Cx.imHom (F := F)) f s

theorem Cx.conj_injective [CommRing F] : Function.Injective (Cx.conjRing (F := F)) := fun x y h => by
  have := congrArg Cx.conj (show Cx.conj x = Cx.conj y from h)
  rwa [Cx.conj_conj, Cx.conj_conj] at this

/-- the product and the sum of the conjugates are the conjugates of the product and the sum -/
theorem CSR.mul_conj [CommRing F] [DecidableEq F] (t : IntTy) (a b : CSR (Cx F)) :
    (a.mapV Cx.conj).mul t (b.mapV Cx.conj) = (a.mul t b).map fun r => r.mapV Cx.conj :=
  C86_rings (Cx.conjRing (F := F)) Cx.conj_injective t (.csrMul (.csr a) (.csr b))

theorem CSR.add_conj [CommRing F] [DecidableEq F] (t : IntTy) (a b : CSR (Cx F)) :
    (a.mapV Cx.conj).add t (b.mapV Cx.conj) = (a.add t b).map fun r => r.mapV Cx.conj :=
  C86_rings (Cx.conjRing (F := F)) Cx.conj_injective t (.csrAdd (.csr a) (.csr b))

/-- C99. The conjugate transpose of a product is the product of the conjugate transposes in reverse order, and that of a sum is
the sum of the conjugate transposes, array by array. -/
theorem C99_h_mul_add [CommRing F] [DecidableEq F] (t : IntTy) (a b : CSR (Cx F)) (ha : a.WF t) (hb : b.WF t) :
    (a.cols = b.rows → ((a.rows * b.cols : Nat) : Int) < t.hi →
      ∃ a' b' r r', a.h = .ok a' ∧ b.h = .ok b' ∧ a.mul t b = .ok r ∧ r.h = .ok r' ∧ b'.mul t a' = .ok r') ∧
    (b.rows = a.rows → b.cols = a.cols → ((a.stored + b.stored : Nat) : Int) < t.hi →
      ∃ a' b' r r', a.h = .ok a' ∧ b.h = .ok b' ∧ a.add t b = .ok r ∧ r.h = .ok r' ∧ a'.add_op t b' = .ok r') := by
  have hca : (a.mapV Cx.conj).WF t := CSR.mapV_wf _ ha
  have hcb : (b.mapV Cx.conj).WF t := CSR.mapV_wf _ hb
  have hh : ∀ c : CSR (Cx F), c.WF t → c.h = (c.mapV Cx.conj).transpose := fun c hc => by
    unfold CSR.h; rw [CSR.conj_ok hc]; rfl
  constructor
  · intro hd hfit
    obtain ⟨r, r1, r2, -⟩ := CSR.mul_facts ha hb hd hfit
    obtain ⟨a', b', h1, h2, h3⟩ := C93_transpose_mul t _ _ hca hcb
    obtain ⟨r', h4, -⟩ := C25_csr_transpose t _ (CSR.mapV_wf Cx.conj r2)
    refine ⟨a', b', r, r', (hh a ha).trans h1, (hh b hb).trans h2, r1, (hh r r2).trans h4, ?_⟩
    rw [h3, CSR.mul_conj, r1]
    exact h4
  · intro hr hc hfit
    obtain ⟨r, r1, r2, -⟩ := CSR.add_facts ha hb hr hc hfit
    obtain ⟨a', b', h1, h2, h3⟩ := C93_transpose_add t _ _ hca hcb
    obtain ⟨r', h4, -⟩ := C25_csr_transpose t _ (CSR.mapV_wf Cx.conj r2)
    refine ⟨a', b', r, r', (hh a ha).trans h1, (hh b hb).trans h2, r1, (hh r r2).trans h4, ?_⟩
    rw [h3, CSR.add_conj, r1]
    exact h4

/-- the conjugate transpose of `[[1 + 2i, 3], [0, 4i]] * [[i], [2 - i]]` -/
example : let a : CSR (Cx Int) := ⟨2, 2, [0, 3, 4], [0, 1, 0, 1], [⟨1, 1⟩, ⟨3, 0⟩, ⟨0, 1⟩, ⟨0, 4⟩]⟩
    let b : CSR (Cx Int) := ⟨2, 1, [0, 1, 2], [0, 0], [⟨0, 1⟩, ⟨2, -1⟩]⟩
    a.WF .i8 ∧ b.WF .i8 ∧ a.cols = b.rows ∧ ((a.rows * b.cols : Nat) : Int) < IntTy.i8.hi ∧
    (do let a' ← a.h; let b' ← b.h; let r ← b'.mul IntTy.i8 a'; r.to_dense IntTy.i8) = .ok [[⟨4, 2⟩, ⟨4, -8⟩]] :=
  ⟨CSR.wf_of (by decide), CSR.wf_of (by decide), by decide, by decide, by decide +kernel⟩

/-- C99. A matrix and its conjugate transpose are adjoint: the inner product of `A x` with `y` is that of `x` with `A.h() y`. -/
theorem C99_adjoint [CommRing F] (t : IntTy) (a : CSR (Cx F)) (ha : a.WF t) (x y : List (Cx F))
    (hx : x.length = a.cols) (hy : y.length = a.rows) :
    ∃ a' ax ay, a.h = .ok a' ∧ a.mat_vec x = .ok ax ∧ a'.mat_vec y = .ok ay ∧ ax.length = a.rows ∧ ay.length = a.cols ∧
      ∑ i ∈ Finset.range a.rows, (⟨(y.getD i 0).re, -(y.getD i 0).im⟩ : Cx F) * ax.getD i 0 =
      ∑ j ∈ Finset.range a.cols, (⟨(ay.getD j 0).re, -(ay.getD j 0).im⟩ : Cx F) * x.getD j 0 := by
  obtain ⟨-, -, -, a', h1, h2, h3, h4, h5, -⟩ := C46_csr_views t a ha
  refine ⟨a', _, _, h1, (C11_csr_mat_vec t a ha x).2 hx, (C12_csc_mat_vec t a' h2 y).2 (by omega), by simp, by simp [h3], ?_⟩
  have e1 : ∀ i ∈ Finset.range a.rows, Cx.conj (y.getD i 0) *
      ((List.range a.rows).map fun i => ∑ j ∈ Finset.range a.cols, a.entry i j * x.getD j 0).getD i 0 =
      ∑ j ∈ Finset.range a.cols, Cx.conj (y.getD i 0) * (a.entry i j * x.getD j 0) := fun i hi => by
    rw [← Finset.mul_sum]
    congr 1
    simp [List.getD_eq_getElem?_getD, Finset.mem_range.1 hi]
  have e2 : ∀ j ∈ Finset.range a.cols,
      Cx.conj (((List.range a'.rows).map fun i => ∑ j ∈ Finset.range a'.cols, a'.entry i j * y.getD j 0).getD j 0) * x.getD j 0 =
      ∑ i ∈ Finset.range a.rows, Cx.conj (y.getD i 0) * (a.entry i j * x.getD j 0) := fun j hj => by
    rw [show ((List.range a'.rows).map fun i => ∑ j ∈ Finset.range a'.cols, a'.entry i j * y.getD j 0).getD j 0 =
        ∑ i ∈ Finset.range a.rows, a'.entry j i * y.getD i 0 by
      simp [List.getD_eq_getElem?_getD, h3, h4, Finset.mem_range.1 hj], Cx.conj_sum, Finset.sum_mul]
    refine Finset.sum_congr rfl fun i _ => ?_
    rw [Cx.conj_mul, h5, show (⟨(a.entry i j).re, -(a.entry i j).im⟩ : Cx F) = Cx.conj (a.entry i j) from rfl, Cx.conj_conj]
    ring
  refine (Finset.sum_congr rfl e1).trans (Eq.trans ?_ (Finset.sum_congr rfl e2).symm)
  exact Finset.sum_comm

/-- both inner products are `-21 + 38 i` -/
example : let a : CSR (Cx Int) := ⟨2, 2, [0, 3, 4], [0, 1, 0, 1], [⟨1, 1⟩, ⟨3, 0⟩, ⟨0, 1⟩, ⟨0, 4⟩]⟩
    let x : List (Cx Int) := [⟨1, 1⟩, ⟨0, 5⟩]
    let y : List (Cx Int) := [⟨1, 0⟩, ⟨1, 1⟩]
    a.WF .i8 ∧ x.length = a.cols ∧ y.length = a.rows ∧ a.mat_vec x = .ok [⟨-1, 18⟩, ⟨-20, 0⟩] ∧
    (a.h >>= fun h => h.mat_vec y) = .ok [⟨1, -2⟩, ⟨7, -4⟩] :=
  ⟨CSR.wf_of (by decide), by decide, by decide, by decide +kernel, by decide +kernel⟩

/-- C99. `A * A.h()` is Hermitian: it equals its own conjugate transpose, and its diagonal holds the sums of the squared moduli of
the rows. -/
theorem C99_gram [CommRing F] [DecidableEq F] (t : IntTy) (a : CSR (Cx F)) (ha : a.WF t) (hr : (a.rows : Int) ≤ t.hi + 1)
    (hfit : ((a.rows * a.rows : Nat) : Int) < t.hi) :
    ∃ a' b g g' D, a.h = .ok a' ∧ a'.to_csr t = .ok b ∧ a.mul t b = .ok g ∧ g.h = .ok g' ∧ g.to_dense = .ok D ∧
      g'.to_dense t = .ok D ∧
      ∀ i, g.entry i i = ⟨∑ j ∈ Finset.range a.cols, ((a.entry i j).re * (a.entry i j).re + (a.entry i j).im * (a.entry i j).im), 0⟩ := by
  obtain ⟨-, -, -, a', h1, h2, h3, h4, h5, -⟩ := C46_csr_views t a ha
  obtain ⟨b, b1, b2, b3, b4, b5, -⟩ := C04_csc_to_csr t a' h2 (by omega)
  obtain ⟨g, g1, g2, g3, g4, g5, -⟩ := CSR.mul_facts (t := t) ha b2 (by omega) (by rw [b4, h4]; exact hfit)
  obtain ⟨-, -, -, g', k1, k2, k3, k4, k5, -⟩ := C46_csr_views t g g2
  have e : ∀ i j, g.entry i j = ∑ k ∈ Finset.range a.cols, a.entry i k * Cx.conj (a.entry j k) := fun i j => by
    rw [g5]
    exact Finset.sum_congr rfl fun k _ => by rw [b5, h5]; rfl
  have e' : g'.entry = g.entry := funext fun i => funext fun j => by
    rw [k5, show (⟨(g.entry j i).re, -(g.entry j i).im⟩ : Cx F) = Cx.conj (g.entry j i) from rfl, e, e, Cx.conj_sum]
    exact Finset.sum_congr rfl fun k _ => by rw [Cx.conj_mul, Cx.conj_conj, mul_comm]
  refine ⟨a', b, g, g', _, h1, b1, g1, k1, C06_csr_to_dense t g g2, ?_, fun i => ?_⟩
  · rw [C06_csc_to_dense t g' k2 (by omega), k3, k4, g3, g4, b4, h4, e']
  · rw [e]
    refine Cx.ext' ?_ ?_
    · rw [Cx.re_sum]
      exact Finset.sum_congr rfl fun k _ => by
        rw [Cx.mul_re]
        change (a.entry i k).re * (a.entry i k).re - (a.entry i k).im * -(a.entry i k).im = _
        ring
    · rw [Cx.im_sum]
      exact Finset.sum_eq_zero fun k _ => by
        rw [Cx.mul_im]
        change (a.entry i k).re * -(a.entry i k).im + (a.entry i k).im * (a.entry i k).re = 0
        ring

/-- `A = [[1 + 2i, 3], [0, 4i]]`, a matrix with a repeated position, and its Gram matrix `[[14, -12i], [12i, 16]]` -/
example : let a : CSR (Cx Int) := ⟨2, 2, [0, 3, 4], [0, 1, 0, 1], [⟨1, 1⟩, ⟨3, 0⟩, ⟨0, 1⟩, ⟨0, 4⟩]⟩
    a.WF .i8 ∧ (do let h ← a.h; let b ← h.to_csr IntTy.i8; let g ← a.mul IntTy.i8 b; g.to_dense) =
      .ok [[⟨14, 0⟩, ⟨0, -12⟩], [⟨0, 12⟩, ⟨16, 0⟩]] :=
  ⟨CSR.wf_of (by decide), by decide +kernel⟩

/-- C99. The real and the imaginary part of a complex product, sum and matrix-vector product are the known combinations of the real
and imaginary parts of the operands. -/
theorem C99_parts [CommRing F] [DecidableEq F] (t : IntTy) (a b : CSR (Cx F)) (ha : a.WF t) (hb : b.WF t) (hd : a.cols = b.rows)
    (hfit : ((2 * (a.rows * b.cols) : Nat) : Int) < t.hi) :
    ∃ ar ai br bi ab rr ii ri ir u v D E abr abi, a.real = .ok ar ∧ a.imag = .ok ai ∧ b.real = .ok br ∧ b.imag = .ok bi ∧
      a.mul t b = .ok ab ∧ ab.real = .ok abr ∧ ab.imag = .ok abi ∧
      ar.mul t br = .ok rr ∧ ai.mul t bi = .ok ii ∧ ar.mul t bi = .ok ri ∧ ai.mul t br = .ok ir ∧
      rr.sub t ii = .ok u ∧ ri.add t ir = .ok v ∧
      abr.to_dense = .ok D ∧ u.to_dense = .ok D ∧ abi.to_dense = .ok E ∧ v.to_dense = .ok E ∧
      ∀ x : List (Cx F), x.length = a.cols → ∃ y yrr yii yri yir, a.mat_vec x = .ok y ∧ ar.mat_vec (x.map Cx.re) = .ok yrr ∧
        ai.mat_vec (x.map Cx.im) = .ok yii ∧ ar.mat_vec (x.map Cx.im) = .ok yri ∧ ai.mat_vec (x.map Cx.re) = .ok yir ∧
        y.map Cx.re = yrr.zipWith (· - ·) yii ∧ y.map Cx.im = yri.zipWith (· + ·) yir := by
  obtain ⟨-, ⟨ar, ar1, ar2, ar3, ar4, -, -, -, ar5⟩, ⟨ai, ai1, ai2, ai3, ai4, -, -, -, ai5⟩, -⟩ := C46_csr_views t a ha
  obtain ⟨-, ⟨br, br1, br2, br3, br4, -, -, -, br5⟩, ⟨bi, bi1, bi2, bi3, bi4, -, -, -, bi5⟩, -⟩ := C46_csr_views t b hb
  have hf : ∀ p q : CSR F, p.rows = a.rows → q.cols = b.cols → ((p.rows * q.cols : Nat) : Int) < t.hi := fun p q h1 h2 => by
    rw [h1, h2]; omega
  obtain ⟨ab, g1, g2, g3, g4, g5, -⟩ := CSR.mul_facts (t := t) ha hb hd (by omega)
  obtain ⟨rr, p1, p2, p3, p4, p5, -, -, p6⟩ := CSR.mul_facts (t := t) ar2 br2 (by omega) (hf _ _ ar3 br4)
  obtain ⟨ii, q1, q2, q3, q4, q5, -, -, q6⟩ := CSR.mul_facts (t := t) ai2 bi2 (by omega) (hf _ _ ai3 bi4)
  obtain ⟨ri, r1, r2, r3, r4, r5, -, -, r6⟩ := CSR.mul_facts (t := t) ar2 bi2 (by omega) (hf _ _ ar3 bi4)
  obtain ⟨ir, s1, s2, s3, s4, s5, -, -, s6⟩ := CSR.mul_facts (t := t) ai2 br2 (by omega) (hf _ _ ai3 br4)
  rw [ar3, br4] at p6
  rw [ai3, bi4] at q6
  rw [ar3, bi4] at r6
  rw [ai3, br4] at s6
  obtain ⟨u, u1, u2, u3, u4, u5, -⟩ := CSR.sub_facts (t := t) p2 q2 (by omega) (by omega) (by omega)
  obtain ⟨v, v1, v2, v3, v4, v5, -⟩ := CSR.add_facts (t := t) r2 s2 (by omega) (by omega) (by omega)
  obtain ⟨-, ⟨abr, k1, k2, k3, k4, -, -, -, k5⟩, ⟨abi, l1, l2, l3, l4, -, -, -, l5⟩, -⟩ := C46_csr_views t ab g2
  refine ⟨ar, ai, br, bi, ab, rr, ii, ri, ir, u, v, _, _, abr, abi, ar1, ai1, br1, bi1, g1, k1, l1, p1, q1, r1, s1, u1, v1,
    C06_csr_to_dense t abr k2, ?_, C06_csr_to_dense t abi l2, ?_, fun x hx => ?_⟩
  · rw [C06_csr_to_dense t u u2, u3, u4, p3, p4, ar3, br4, k3, k4, g3, g4]
    congr 2
    funext i j
    rw [u5, k5, g5, p5, q5, Cx.re_sum, ar4, ai4, ← Finset.sum_sub_distrib]
    exact Finset.sum_congr rfl fun k _ => by rw [Cx.mul_re, ar5, ai5, br5, bi5]
  · rw [C06_csr_to_dense t v v2, v3, v4, r3, r4, ar3, bi4, l3, l4, g3, g4]
    congr 2
    funext i j
    rw [v5, l5, g5, r5, s5, Cx.im_sum, ar4, ai4, ← Finset.sum_add_distrib]
    exact Finset.sum_congr rfl fun k _ => by rw [Cx.mul_im, ar5, ai5, br5, bi5]
  · have gre : ∀ j < a.cols, (x.map Cx.re).getD j 0 = (x.getD j 0).re := fun j hj => by
      simp [List.getD_eq_getElem?_getD, List.getElem?_eq_getElem (hx ▸ hj : j < x.length)]
    have gim : ∀ j < a.cols, (x.map Cx.im).getD j 0 = (x.getD j 0).im := fun j hj => by
      simp [List.getD_eq_getElem?_getD, List.getElem?_eq_getElem (hx ▸ hj : j < x.length)]
    refine ⟨_, _, _, _, _, (C11_csr_mat_vec t a ha x).2 hx, (C11_csr_mat_vec t ar ar2 _).2 (by simp; omega),
      (C11_csr_mat_vec t ai ai2 _).2 (by simp; omega), (C11_csr_mat_vec t ar ar2 _).2 (by simp; omega),
      (C11_csr_mat_vec t ai ai2 _).2 (by simp; omega), ?_, ?_⟩
    · rw [ar3, ai3, ar4, ai4, List.zipWith_map, List.zipWith_self, List.map_map]
      refine List.map_congr_left fun i _ => ?_
      change Cx.re _ = _
      rw [Cx.re_sum, ← Finset.sum_sub_distrib]
      refine Finset.sum_congr rfl fun k hk => ?_
      rw [Finset.mem_range] at hk
      rw [Cx.mul_re, ar5, ai5, gre k hk, gim k hk]
    · rw [ar3, ai3, ar4, ai4, List.zipWith_map, List.zipWith_self, List.map_map]
      refine List.map_congr_left fun i _ => ?_
      change Cx.im _ = _
      rw [Cx.im_sum, ← Finset.sum_add_distrib]
      refine Finset.sum_congr rfl fun k hk => ?_
      rw [Finset.mem_range] at hk
      rw [Cx.mul_im, ar5, ai5, gre k hk, gim k hk]

/-- hypotheses met by `[[1 + 2i, 3], [0, 4i]]` and `[[i], [2 - i]]` -/
example : let a : CSR (Cx Int) := ⟨2, 2, [0, 3, 4], [0, 1, 0, 1], [⟨1, 1⟩, ⟨3, 0⟩, ⟨0, 1⟩, ⟨0, 4⟩]⟩
    let b : CSR (Cx Int) := ⟨2, 1, [0, 1, 2], [0, 0], [⟨0, 1⟩, ⟨2, -1⟩]⟩
    a.WF .i8 ∧ b.WF .i8 ∧ a.cols = b.rows ∧ ((2 * (a.rows * b.cols) : Nat) : Int) < IntTy.i8.hi ∧
    (do let ab ← a.mul IntTy.i8 b; let r ← ab.real; r.to_dense) = .ok [[4], [4]] ∧
    (do let ab ← a.mul IntTy.i8 b; let r ← ab.imag; r.to_dense) = .ok [[-2], [8]] :=
  ⟨CSR.wf_of (by decide), CSR.wf_of (by decide), by decide, by decide, by decide +kernel, by decide +kernel⟩

end
end Sparse

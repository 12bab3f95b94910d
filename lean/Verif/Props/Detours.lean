import Verif.Props.Mirror
import Verif.Props.Blocks
import Verif.Props.Scc
/-!
C111: for the operations that are wrong or fail on some valid matrices (C05, C16, C19, C20, C26, C35, C45), a detour through other operations of
the crate that is right on every valid matrix.
-/
namespace Sparse

section
variable {T : Type}

theorem CSR.length_triples (a : CSR T) : a.triples.length = a.stored := by
  unfold CSR.triples CSR.stored
  simp [List.length_flatMap]

theorem CSC.length_triples (a : CSC T) : a.triples.length = a.stored := by
  unfold CSC.triples CSC.stored
  simp [List.length_flatMap]

/-- C111: `a - b` in the column format (C19: the operator is wrong) as `a + (-b)`. -/
theorem C111_csc_difference [AddCommGroup T] [DecidableEq T] (t : IntTy) (a b : CSC T) (ha : a.WF t) (hb : b.WF t)
    (hr : b.rows = a.rows) (hc : b.cols = a.cols) (hfit : ((a.stored + b.stored : Nat) : Int) < t.hi) :
    ∃ nb r, b.neg = .ok nb ∧ a.add_op t nb = .ok r ∧ r.WF t ∧ r.rows = a.rows ∧ r.cols = a.cols ∧
      ∀ i j, r.entry i j = a.entry i j - b.entry i j := by
  obtain ⟨nb, h1, h2, h3, h4, h5, h6, h7, -⟩ := C21_csc_neg t b hb
  have hst : nb.stored = b.stored := by
    have e1 := h2.rep.ptr nb.cols (le_refl _)
    have e2 := hb.rep.ptr b.cols (le_refl _)
    rw [h6, h4] at e1
    rw [h2.stored_eq, hb.stored_eq, h4]
    have := e1.symm.trans e2
    simpa using this
  obtain ⟨r, r1, r2, r3, r4, r5, -⟩ := C18_csc_add_op t a nb ha h2 (by omega) (by omega) (by rw [hst]; exact hfit)
  exact ⟨nb, r, h1, r1, r2, r3, r4, fun i j => by rw [r5, h7, sub_eq_add_neg]⟩

/-- C111: scalar multiples in the column format (C20: both operators are wrong): transpose, multiply, transpose back. -/
theorem C111_csc_scalar [NonUnitalNonAssocSemiring T] (t : IntTy) (a : CSC T) (ha : a.WF t) (s : T) :
    ∃ b l r l' r', a.transpose = .ok b ∧ CSR.scalar_mul s b = .ok l ∧ b.mul_scalar s = .ok r ∧ l.transpose = .ok l' ∧ r.transpose = .ok r' ∧
      l'.WF t ∧ r'.WF t ∧ l'.rows = a.rows ∧ l'.cols = a.cols ∧ r'.rows = a.rows ∧ r'.cols = a.cols ∧
      l'.colptr = a.colptr ∧ l'.rowidx = a.rowidx ∧ r'.colptr = a.colptr ∧ r'.rowidx = a.rowidx ∧
      (∀ i j, l'.entry i j = s * a.entry i j) ∧ ∀ i j, r'.entry i j = a.entry i j * s := by
  obtain ⟨b, b1, b2, b3, b4, b5, b6⟩ := C25_csc_transpose t a ha
  obtain ⟨l, l1, l2, l3, l4, l5, l6, l7⟩ := C20_csr_scalar_mul t b b2 s
  obtain ⟨r, r1, r2, r3, r4, r5, r6, r7⟩ := C20_csr_mul_scalar t b b2 s
  obtain ⟨l', m1, m2, m3, m4, m5, -⟩ := C25_csr_transpose t l l2
  obtain ⟨r', n1, n2, n3, n4, n5, -⟩ := C25_csr_transpose t r r2
  obtain ⟨-, rfl⟩ := CSR.transpose_iff.1 b6
  obtain ⟨-, rfl⟩ := CSR.transpose_iff.1 m1
  obtain ⟨-, rfl⟩ := CSR.transpose_iff.1 n1
  exact ⟨b, l, r, _, _, b1, l1, r1, m1, n1, m2, n2, l4, l3, r4, r3, l5, l6, r5, r6,
    fun i j => by rw [m5, l7, b5], fun i j => by rw [n5, r7, b5]⟩

/-- C111: the triplets of a CSR matrix with unused storage (C05: `to_coo` adds entries or panics) through the column format. -/
theorem C111_to_coo [AddCommMonoid T] (t : IntTy) (a : CSR T) (ha : a.WF t) (hr : (a.rows : Int) ≤ t.hi + 1) (hc : (a.cols : Int) ≤ t.hi + 1) :
    ∃ c k, a.to_csc t = .ok c ∧ c.to_coo t = .ok k ∧ k.WF t ∧ k.rows = a.rows ∧ k.cols = a.cols ∧ k.triples.Perm a.triples ∧
      ∀ i j, k.entry i j = a.entry i j := by
  obtain ⟨c, c1, c2, c3, c4, c5, c6, -⟩ := C03_csr_to_csc t a ha hr
  obtain ⟨k, k1, k2, k3, k4, k5, -, k6⟩ := C05_csc_to_coo t c c2 (by omega)
  exact ⟨c, k, c1, k1, k2, k3.trans c3, k4.trans c4, k5 ▸ c6, fun i j => (k6 i j).trans (c5 i j)⟩

/-- through the column format and back: a matrix without unused storage, with the same stored entries -/
theorem CSR.tight_detour [AddCommMonoid T] (t : IntTy) (a : CSR T) (ha : a.WF t) (hr : (a.rows : Int) ≤ t.hi + 1) (hc : (a.cols : Int) ≤ t.hi + 1) :
    ∃ c b, a.to_csc t = .ok c ∧ c.to_csr t = .ok b ∧ b.WF t ∧ b.rows = a.rows ∧ b.cols = a.cols ∧ (∀ i j, b.entry i j = a.entry i j) ∧
      b.triples.Perm a.triples ∧ b.stored = a.stored ∧ b.colidx.length = b.stored ∧ b.values.length = b.stored := by
  obtain ⟨c, c1, c2, c3, c4, c5, c6, -⟩ := C03_csr_to_csc t a ha hr
  obtain ⟨b, b1, b2, b3, b4, b5, b6, -, -, b7, b8⟩ := C04_csc_to_csr t c c2 (by omega)
  have e1 : c.stored = a.stored := by
    have := c6.length_eq
    simpa only [CSR.length_triples, CSC.length_triples] using this
  have e2 : b.stored = c.stored := by
    have := b6.length_eq
    simpa only [CSR.length_triples, CSC.length_triples] using this
  exact ⟨c, b, c1, b1, b2, b3.trans c3, b4.trans c4, fun i j => (b5 i j).trans (c5 i j), b6.trans c6, e2.trans e1, b7.trans e2.symm, b8.trans e2.symm⟩

/-- C111: `CSR::h_stack` of matrices with unused storage (C26: wrong entries or a panic): convert both to the column format and back first. -/
theorem C111_h_stack [AddCommMonoid T] (t : IntTy) (a b : CSR T) (ha : a.WF t) (hb : b.WF t) (h : a.rows = b.rows)
    (hr : (a.rows : Int) ≤ t.hi + 1) (hc : ((a.cols + b.cols : Nat) : Int) ≤ t.hi + 1) (hf : ((a.stored + b.stored : Nat) : Int) < t.hi) :
    ∃ ca a' cb b' r, a.to_csc t = .ok ca ∧ ca.to_csr t = .ok a' ∧ b.to_csc t = .ok cb ∧ cb.to_csr t = .ok b' ∧ CSR.h_stack t a' b' = .ok r ∧
      r.WF t ∧ r.Canonical ∧ r.rows = a.rows ∧ r.cols = a.cols + b.cols ∧ ∀ i j, r.entry i j = hcat a.cols a.entry b.entry i j := by
  obtain ⟨ca, a', a1, a2, a3, a4, a5, a6, -, a7, a8, a9⟩ := CSR.tight_detour t a ha hr (by omega)
  obtain ⟨cb, b', b1, b2, b3, b4, b5, b6, -, b7, b8, b9⟩ := CSR.tight_detour t b hb (by omega) (by omega)
  obtain ⟨r, r1, r2, r3, r4, r5, r6⟩ := (C26_csr_h_stack_partial t a' b' a3 b3 a8 a9 b8 b9 (by omega) (by omega)).2 (by omega) (by omega) (by omega)
  refine ⟨ca, a', cb, b', r, a1, a2, b1, b2, r1, r2, r3, by omega, by omega, fun i j => ?_⟩
  rw [r6, a5]
  unfold hcat
  rw [a6, b6]

/-- C111: sums of CSR matrices with a check of the shapes (C16: `+` does not reject all operands of different shapes): in the column
format, `add` answers `Err` exactly if the shapes differ. -/
theorem C111_checked_sum [AddCommGroup T] [DecidableEq T] (t : IntTy) (a b : CSR T) (ha : a.WF t) (hb : b.WF t)
    (hra : (a.rows : Int) ≤ t.hi + 1) (hrb : (b.rows : Int) ≤ t.hi + 1) (hca : (a.cols : Int) ≤ t.hi + 1)
    (hf : ((a.stored + b.stored : Nat) : Int) < t.hi) :
    ∃ ca cb, a.to_csc t = .ok ca ∧ b.to_csc t = .ok cb ∧
      ((b.rows ≠ a.rows ∨ b.cols ≠ a.cols) → ca.add t cb = .error .err ∧ ca.subtract t cb = .error .err) ∧
      (b.rows = a.rows → b.cols = a.cols → ∃ s d s' d', ca.add t cb = .ok s ∧ ca.subtract t cb = .ok d ∧
        s.to_csr t = .ok s' ∧ d.to_csr t = .ok d' ∧ s'.WF t ∧ d'.WF t ∧
        s'.rows = a.rows ∧ s'.cols = a.cols ∧ d'.rows = a.rows ∧ d'.cols = a.cols ∧
        (∀ i j, s'.entry i j = a.entry i j + b.entry i j) ∧ ∀ i j, d'.entry i j = a.entry i j - b.entry i j) := by
  obtain ⟨ca, a1, a2, a3, a4, a5, a6, -⟩ := C03_csr_to_csc t a ha hra
  obtain ⟨cb, b1, b2, b3, b4, b5, b6, -⟩ := C03_csr_to_csc t b hb hrb
  have ea : ca.stored = a.stored := by
    have := a6.length_eq
    simpa only [CSR.length_triples, CSC.length_triples] using this
  have eb : cb.stored = b.stored := by
    have := b6.length_eq
    simpa only [CSR.length_triples, CSC.length_triples] using this
  refine ⟨ca, cb, a1, b1, fun h => C18_csc_shape_err t ca cb (by omega), fun h1 h2 => ?_⟩
  obtain ⟨s, s1, s2, s3, s4, s5, -⟩ := C18_csc_add t ca cb a2 b2 (by omega) (by omega) (by omega)
  obtain ⟨d, d1, d2, d3, d4, d5, -⟩ := C18_csc_subtract t ca cb a2 b2 (by omega) (by omega) (by omega)
  obtain ⟨s', u1, u2, u3, u4, u5, -⟩ := C04_csc_to_csr t s s2 (by omega)
  obtain ⟨d', v1, v2, v3, v4, v5, -⟩ := C04_csc_to_csr t d d2 (by omega)
  exact ⟨s, d, s', d', s1, d1, u1, v1, u2, v2, by omega, by omega, by omega, by omega, fun i j => by rw [u5, s5, a5, b5],
    fun i j => by rw [v5, d5, a5, b5]⟩

/-- C111: single entries of a CSR matrix with repeated positions (C45: `get` returns the first one): merge them first. -/
theorem C111_get [AddCommMonoid T] (t : IntTy) (a : CSR T) (ha : a.WF t) (hs : (a.stored : Int) < t.hi) :
    ∃ b, a.sum_duplicates t = .ok b ∧ ∀ i j : Nat, i < a.rows → b.get i j = .ok (a.entry i j) := by
  obtain ⟨b, b1, b2, b3, b4, b5, b6, -⟩ := C07_csr_sum_duplicates t a ha hs
  exact ⟨b, b1, fun i j hi => by rw [C45_csr_get_canonical_partial t b b2 b5 i j (by omega), b6]⟩

theorem CSR.Canonical.nodup_keys' {a : CSR T} (hc : a.Canonical) {u : Nat} (hu : u < a.rows) : ((a.row u).map (·.1)).Nodup := by
  rw [List.Nodup, List.pairwise_map]
  exact (hc u hu).imp fun h => by omega

/-- the edges of a graph given by triplets, repeated edges allowed -/
def Coo.EdgeOf (g : Coo T) (u v : Nat) : Prop := ∃ w, ((u : Int), (v : Int), w) ∈ g.triples

/-- C111: strong components of a graph given as triplets, repeated edges allowed (C35: with repeated entries in the CSR matrix the call
panics or returns wrong labels): `to_csr` merges them. -/
theorem C111_components [AddCommMonoid T] (t : IntTy) (g : Coo T) (hg : g.WF t) (hsq : g.rows = g.cols) (hn : 0 < g.rows)
    (hs : (g.values.length : Int) < t.hi) (fuel : Nat) (hf : 2 * g.rows < fuel) :
    ∃ a k labels, g.to_csr t = .ok a ∧ connected_components t fuel a true .strong = .ok (k, labels) ∧ labels.length = g.rows ∧
      (∀ l, l ∈ labels ↔ l < k) ∧
      ∀ u v : Nat, u < g.rows → v < g.rows →
        (labels[u]? = labels[v]? ↔ Relation.ReflTransGen g.EdgeOf u v ∧ Relation.ReflTransGen g.EdgeOf v u) := by
  obtain ⟨a, a1, a2, a3, a4, a5, -, a6, -⟩ := C01_coo_to_csr t g hg hs
  have hE : a.has = g.EdgeOf := by
    funext u v
    exact propext (a2.has_triples.trans (a6 _ _))
  obtain ⟨k, labels, g1, g2, g3, g4, -⟩ := C35_strong_components_partial t a a2 (by omega) (by omega)
    (fun u hu => (CSR.Canonical.nodup_keys' a5 hu).filter _) fuel (by omega)
  refine ⟨a, k, labels, a1, g1, g2.trans a3, g4, fun u v hu hv => ?_⟩
  rw [g3 u v (by omega) (by omega)]
  unfold CSR.Reach
  rw [hE]

end

/-! ### Examples: matrices on which the direct way is wrong -/

/-- unused storage that `to_coo` and `h_stack` take for entries -/
def exLoose : CSR Int := ⟨2, 2, [0, 0, 1], [1, 1], [5, 9]⟩
/-- one column with two entries: `-` and scalar multiples return wrong matrices -/
def exOneCol : CSC Int := ⟨2, 1, [0, 1], [0, 2], [5, 7]⟩

example : exLoose.WF .u8 ∧ exOneCol.WF .u8 ∧ (exLoose.rows : Int) ≤ IntTy.u8.hi + 1 ∧ ((exLoose.cols + exLoose.cols : Nat) : Int) ≤ IntTy.u8.hi + 1 ∧
    ((exLoose.stored + exLoose.stored : Nat) : Int) < IntTy.u8.hi ∧ ((exOneCol.stored + exOneCol.stored : Nat) : Int) < IntTy.u8.hi ∧
    (do return (← exLoose.to_coo .u8).triples) = .ok [(1, 1, 5), (0, 1, 9)] ∧
    (do return (← (← exLoose.to_csc .u8).to_coo .u8).triples) = .ok [(1, 1, 5)] ∧
    exOneCol.mul_scalar 2 = .ok ⟨2, 1, [0, 2], [0, 1], [10, 14]⟩ ∧
    (do (← (← exOneCol.transpose).mul_scalar 2).transpose) = .ok ⟨2, 1, [0, 1], [0, 2], [10, 14]⟩ ∧
    (do return (← exOneCol.add_op .u8 (← exOneCol.neg)).triples) = .ok [] :=
  ⟨CSR.wf_of (by decide), CSC.wf_of (by decide), by decide, by decide, by decide, by decide, by decide +kernel, by decide +kernel,
    by decide +kernel, by decide +kernel, by decide +kernel⟩

/-- a cycle with a repeated edge, and a node outside it -/
def exRepeated : Coo Int := ⟨3, 3, [0, 0, 1, 2, 0], [1, 1, 0, 1, 1], [1, 2, 3, 4, 5]⟩

example : exRepeated.WF .u8 ∧ exRepeated.rows = exRepeated.cols ∧ 0 < exRepeated.rows ∧ (exRepeated.values.length : Int) < IntTy.u8.hi ∧
    exRepeated.EdgeOf 0 1 ∧ exRepeated.EdgeOf 1 0 ∧ ¬ exRepeated.EdgeOf 1 2 :=
  ⟨Coo.wf_of (by decide), rfl, by decide, by decide, ⟨1, by decide⟩, ⟨3, by decide⟩, fun ⟨w, hw⟩ => by
    have : ∀ e ∈ exRepeated.triples, e.2.1 ≠ 2 := by decide
    exact this _ hw rfl⟩

end Sparse

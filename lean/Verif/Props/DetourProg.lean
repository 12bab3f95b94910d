import Verif.Props.Detours
import Verif.Props.Expr
import Verif.Props.Widen
import Verif.Props.Scalar
import Verif.Props.Wrap
/-!
C111 for whole programs: every expression of C50, with the three wrong operations replaced by their detours.
-/
open scoped BigOperators
namespace Sparse
section
variable {T : Type}
namespace Expr

/-- the expression with the wrong operations of the column format replaced: `a - b` by `a.subtract(&b)`, scalar multiples by those of the
transposed matrix -/
def detour : {f : Fmt} → Expr T f → Expr T f
  | _, coo a => coo a
  | _, csr a => csr a
  | _, csc a => csc a
  | _, cooDiag d => cooDiag d
  | _, csrDiag d => csrDiag d
  | _, cscDiag d => cscDiag d
  | _, cooEye n => cooEye n
  | _, cooZero m n => cooZero m n
  | _, csrZero m n => csrZero m n
  | _, cooDense A => cooDense A
  | _, csrDense A => csrDense A
  | _, cscDense A => cscDense A
  | _, cooToCsr e => cooToCsr e.detour
  | _, cooToCsc e => cooToCsc e.detour
  | _, csrToCoo e => csrToCoo e.detour
  | _, csrToCsc e => csrToCsc e.detour
  | _, cscToCoo e => cscToCoo e.detour
  | _, cscToCsr e => cscToCsr e.detour
  | _, cooT e => cooT e.detour
  | _, csrT e => csrT e.detour
  | _, cscT e => cscT e.detour
  | _, cooNeg e => cooNeg e.detour
  | _, csrNeg e => csrNeg e.detour
  | _, cscNeg e => cscNeg e.detour
  | _, csrSort e => csrSort e.detour
  | _, cscSort e => cscSort e.detour
  | _, csrSum e => csrSum e.detour
  | _, cscSum e => cscSum e.detour
  | _, cooAdd e f => cooAdd e.detour f.detour
  | _, csrAdd e f => csrAdd e.detour f.detour
  | _, csrSub e f => csrSub e.detour f.detour
  | _, cscAdd e f => cscAdd e.detour f.detour
  | _, cscAddMethod e f => cscAddMethod e.detour f.detour
  | _, cscSubMethod e f => cscSubMethod e.detour f.detour
  | _, csrMul e f => csrMul e.detour f.detour
  | _, cscMul e f => cscMul e.detour f.detour
  | _, cscMulCsr e f => cscMulCsr e.detour f.detour
  | _, cooV e f => cooV e.detour f.detour
  | _, cooH e f => cooH e.detour f.detour
  | _, csrH e f => csrH e.detour f.detour
  | _, cooV3 e f g => cooV3 e.detour f.detour g.detour
  | _, cooH3 e f g => cooH3 e.detour f.detour g.detour
  | _, cooBlock e f g h => cooBlock e.detour f.detour g.detour h.detour
  | _, cscBlock e f g h => cscBlock e.detour f.detour g.detour h.detour
  | _, csrScale e s => csrScale e.detour s
  | _, csrScaleL s e => csrScaleL s e.detour
  | _, cooUpper e k => cooUpper e.detour k
  | _, csrSelect e ri ci => csrSelect e.detour ri ci
  | _, cscSelect e ri ci => cscSelect e.detour ri ci
  | _, cscSub e f => cscSubMethod e.detour f.detour
  | _, cscScale e s => csrT (csrScale (cscT e.detour) s)
  | _, cscScaleL s e => csrT (csrScaleL s (cscT e.detour))

theorem detour_shape {f : Fmt} (e : Expr T f) : e.detour.shape = e.shape := by
  induction e <;> simp_all [detour, shape]

theorem detour_denote [CommRing T] {f : Fmt} (e : Expr T f) : e.detour.denote = e.denote := by
  induction e <;> simp_all [detour, denote, detour_shape, sub_eq_add_neg]

theorem detour_pos [Zero T] {f : Fmt} (e : Expr T f) : e.detour.pos = e.pos := by
  induction e <;> simp_all [detour, pos, detour_shape]

theorem detour_size [Zero T] {f : Fmt} (e : Expr T f) : e.detour.size = e.size := by
  induction e <;> simp_all [detour, size, detour_shape, detour_pos]

theorem detour_fits [Zero T] (t : IntTy) {f : Fmt} (e : Expr T f) : e.detour.Fits t ↔ e.Fits t := by
  induction e <;> simp_all [detour, Fits, shape, size, detour_shape, detour_pos, detour_size]

theorem detour_avoids {f : Fmt} (e : Expr T f) : e.detour.AvoidsCscSubScale := by
  induction e <;> simp_all [detour, AvoidsCscSubScale]

theorem detour_shaped (t : IntTy) {f : Fmt} (e : Expr T f) : e.detour.Shaped t ↔ e.Shaped t := by
  induction e <;> simp_all [detour, Shaped, shape, detour_shape]

theorem detour_mapValues {T' : Type} (g : T → T') {f : Fmt} (e : Expr T f) : e.detour.mapValues g = (e.mapValues g).detour := by
  induction e <;> simp_all [detour, mapValues]

theorem detour_id {f : Fmt} (e : Expr T f) (h : e.AvoidsCscSubScale) : e.detour = e := by
  induction e <;> simp_all [detour, AvoidsCscSubScale]

end Expr

/-- C111: every expression of C50, CSC differences and scalar multiples included, with the three wrong operations replaced by their
detours, evaluates to a valid matrix of the right shape with the right entries; nothing else is changed. -/
theorem C111_programs [CommRing T] [DecidableEq T] (t : IntTy) {f : Fmt} (e : Expr T f) (hf : e.Fits t) :
    (∃ r, e.detour.eval t = .ok r ∧ r.WF t ∧ r.rows = e.shape.1 ∧ r.cols = e.shape.2 ∧ ∀ i j, r.entry i j = e.denote i j) ∧
      (e.AvoidsCscSubScale → e.detour = e) := by
  obtain ⟨r, h1, h2, h3, h4, h5⟩ := C50_compositions_partial e.detour ((e.detour_fits t).2 hf) e.detour_avoids
  rw [e.detour_shape] at h3 h4
  rw [e.detour_denote] at h5
  exact ⟨⟨r, h1, h2, h3, h4, h5⟩, e.detour_id⟩

/-- C111: whatever the sizes, the program with the detours returns the right matrix or panics because the result does not fit the index
type; it never returns a wrong one (C70 without exceptions). -/
theorem C111_overflow [CommRing T] [DecidableEq T] (t : IntTy) {f : Fmt} (e : Expr T f) (h : e.Shaped t) :
    (∃ r, e.detour.eval t = .ok r ∧ r.WF t ∧ r.rows = e.shape.1 ∧ r.cols = e.shape.2 ∧ ∀ i j, r.entry i j = e.denote i j) ∨
    e.detour.eval t = .error (.panic .unwrap) ∨ e.detour.eval t = .error (.panic .arith) := by
  have := C70_right_or_overflow_partial e.detour ((e.detour_shaped t).2 h) e.detour_avoids
  rwa [e.detour_shape, e.detour_denote] at this

/-- C111: the same with integer scalars of any width: the right matrix or a panic (C76 without exceptions). -/
theorem C111_integers (s t : IntTy) {f : Fmt} (e : Expr Int f) (h : e.Shaped t) :
    (∃ r, e.detour.evalS s.ops t = .ok r ∧ r.WF t ∧ r.rows = e.shape.1 ∧ r.cols = e.shape.2 ∧ ∀ i j, r.entry i j = e.denote i j) ∨
    e.detour.evalS s.ops t = .error (.panic .unwrap) ∨ e.detour.evalS s.ops t = .error (.panic .arith) := by
  have := C76_compositions_partial (s := s) e.detour ((e.detour_shaped t).2 h) e.detour_avoids
  rwa [e.detour_shape, e.detour_denote] at this

/-- C111: builds without overflow checks, with machine integers as scalars: the entries are exact modulo `2 ^ w`, whether the bit patterns
are read as signed or as unsigned numbers (C77 without exceptions). -/
theorem C111_wrapping (t : IntTy) {w : Nat} {f : Fmt} (e : Expr (BitVec w) f) (hf : e.Fits t) :
    ∃ r, e.detour.eval t = .ok r ∧ e.detour.eval t.unchecked = .ok r ∧ r.WF t ∧ r.rows = e.shape.1 ∧ r.cols = e.shape.2 ∧
      ∀ i j, r.entry i j = BitVec.ofInt w (e.signed.denote i j) ∧ r.entry i j = BitVec.ofInt w (e.unsigned.denote i j) := by
  obtain ⟨r, h1, h2, h3, h4, h5, h6⟩ := C77_signed_partial e.detour ((e.detour_fits t).2 hf) e.detour_avoids
  obtain ⟨r', g1, -, -, -, -, g6⟩ := C77_unsigned_partial e.detour ((e.detour_fits t).2 hf) e.detour_avoids
  cases g1.symm.trans h1
  rw [e.detour_shape] at h4 h5
  refine ⟨r, h1, h2, h3, h4, h5, fun i j => ⟨?_, ?_⟩⟩
  · rw [h6, Expr.signed, Expr.signed, Expr.detour_mapValues, Expr.detour_denote]
  · rw [g6, Expr.unsigned, Expr.unsigned, Expr.detour_mapValues, Expr.detour_denote]

/-- the two expressions of C50_csc_counterexample: the direct evaluation panics, the detours give the result -/
example :
    (let e : Expr Int .csc := .cscSub (.csrToCsc (.csr ⟨2, 2, [0, 1, 2], [1, 0], [5, 7]⟩)) (.cscDiag [1, 1])
     e.Fits .u8 ∧ e.eval .u8 = .error (.panic .unwrap) ∧
       (e.detour.eval .u8 >>= fun (r : CSC Int) => r.to_dense .u8) = .ok [[-1, 5], [7, -1]]) ∧
    (let e : Expr Int .csc := .cscScale (.csrToCsc (.csr ⟨2, 2, [0, 1, 2], [1, 0], [5, 7]⟩)) 2
     e.Fits .u8 ∧ e.eval .u8 = .error (.panic .unwrap) ∧
       (e.detour.eval .u8 >>= fun (r : CSC Int) => r.to_dense .u8) = .ok [[0, 10], [14, 0]]) :=
  ⟨⟨C50_csc_counterexample.1.1, C50_csc_counterexample.1.2, by decide +kernel⟩, C50_csc_counterexample.2.1, C50_csc_counterexample.2.2,
    by decide +kernel⟩

/-- the expression of C70, C76 and C77_csc_counterexample, on which the direct evaluation returns a wrong matrix -/
example :
    (let e : Expr Int .csc := .cscScale (.csc ⟨2, 1, [0, 1], [0, 2], [5, 7]⟩) 2
     e.Shaped .u8 ∧ (e.eval .u8 >>= fun (r : CSC Int) => .ok (r.entry 1 0)) = .ok 0 ∧
       (e.detour.eval .u8 >>= fun (r : CSC Int) => r.to_dense .u8) = .ok [[10], [14]] ∧
       (e.detour.evalS IntTy.i8.ops .u8 >>= fun (r : CSC Int) => r.to_dense .u8) = .ok [[10], [14]]) ∧
    (let e : Expr (BitVec 8) .csc := .cscScale (.csc ⟨2, 1, [0, 1], [0, 2], [100, 7]⟩) 3
     e.Fits .u8 ∧ (e.detour.eval IntTy.u8.unchecked >>= fun (r : CSC (BitVec 8)) => r.to_dense .u8) = .ok [[44], [21]]) :=
  ⟨⟨⟨CSC.wf_of (by decide), by decide, by decide⟩, by decide +kernel, by decide +kernel, by decide +kernel⟩,
    ⟨CSC.wf_of (by decide), by decide, by decide⟩, by decide +kernel⟩

end
end Sparse

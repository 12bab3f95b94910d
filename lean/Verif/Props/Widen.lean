import Verif.Lemmas.TypedExpr
import Verif.Lemmas.Widen
import Verif.Props.Expr
/-!
The index type and the build profile do not influence results (C69); no overflow goes unnoticed in a build with overflow
checks (C70), but some do without the checks (C71). A plain `t : IntTy` is the type in a build with overflow checks;
`t' : IdxTy` is a type in either build.
-/
namespace Sparse
variable {T : Type} {t : IntTy} {t' : IdxTy}

theorem WFptr.widen {t t' : IntTy} {n m : Nat} {p j : List Int} {x : List T} (h : WFptr t n m p j x) (hs : t.Sub t') : WFptr t' n m p j x where
  len := h.len
  first := h.first
  mono := h.mono
  last c hc := by have := h.last c hc; unfold IntTy.Sub at hs; omega
  idx c k v hc hv hk := by have := h.idx c k v hc hv hk; unfold IntTy.Sub at hs; omega

theorem Coo.WF.widen {t t' : IntTy} {a : Coo T} (h : a.WF t) (hs : t.Sub t') : a.WF t' where
  lenr := h.lenr
  lenc := h.lenc
  row r hr := by have := h.row r hr; unfold IntTy.Sub at hs; omega
  col r hr := by have := h.col r hr; unfold IntTy.Sub at hs; omega

namespace Expr

/-- the evaluation at a wider type -/
theorem eval_wd [CommRing T] [DecidableEq T] {t : IdxTy} (h : t.Sub t') : {f : Fmt} → (e : Expr T f) →
    SameOrOverflow (e.eval t) (e.eval t')
  | _, coo a => by unfold eval; widen
  | _, csr a => by unfold eval; widen
  | _, csc a => by unfold eval; widen
  | _, cooDiag d => by unfold eval; widen [Coo_with_diagonal_wd]
  | _, csrDiag d => by unfold eval; widen [CSR_with_diagonal_wd]
  | _, cscDiag d => by unfold eval; widen [CSC_with_diagonal_wd]
  | _, cooEye n => by unfold eval; widen [Coo_identity_wd]
  | _, cooZero m n => by unfold eval; widen
  | _, csrZero m n => by unfold eval; widen
  | _, cooDense A => by unfold eval; widen [Coo_from_dense_wd]
  | _, csrDense A => by unfold eval; widen [CSR_from_dense_wd]
  | _, cscDense A => by unfold eval; widen [CSC_from_dense_wd]
  | _, cooToCsr e => by have := e.eval_wd h; unfold eval; widen [Coo_to_csr_wd]
  | _, cooToCsc e => by have := e.eval_wd h; unfold eval; widen [Coo_to_csc_wd]
  | _, csrToCoo e => by have := e.eval_wd h; unfold eval; widen [CSR_to_coo_wd]
  | _, csrToCsc e => by have := e.eval_wd h; unfold eval; widen [CSR_to_csc_wd]
  | _, cscToCoo e => by have := e.eval_wd h; unfold eval; widen [CSC_to_coo_wd]
  | _, cscToCsr e => by have := e.eval_wd h; unfold eval; widen [CSC_to_csr_wd]
  | _, cooT e => by have := e.eval_wd h; unfold eval; widen
  | _, csrT e => by have := e.eval_wd h; unfold eval; widen
  | _, cscT e => by have := e.eval_wd h; unfold eval; widen
  | _, cooNeg e => by have := e.eval_wd h; unfold eval; widen
  | _, csrNeg e => by have := e.eval_wd h; unfold eval; widen
  | _, cscNeg e => by have := e.eval_wd h; unfold eval; widen
  | _, cooAdd e f => by have := e.eval_wd h; have := f.eval_wd h; unfold eval; widen [Coo_add_wd]
  | _, csrAdd e f => by have := e.eval_wd h; have := f.eval_wd h; unfold eval; widen [CSR_add_wd]
  | _, csrSub e f => by have := e.eval_wd h; have := f.eval_wd h; unfold eval; widen [CSR_sub_wd]
  | _, cscAdd e f => by have := e.eval_wd h; have := f.eval_wd h; unfold eval; widen [CSC_add_op_wd]
  | _, cscSub e f => by have := e.eval_wd h; have := f.eval_wd h; unfold eval; widen [CSC_sub_op_wd]
  | _, cscAddMethod e f => by have := e.eval_wd h; have := f.eval_wd h; unfold eval; widen [CSC_add_wd]
  | _, cscSubMethod e f => by have := e.eval_wd h; have := f.eval_wd h; unfold eval; widen [CSC_subtract_wd]
  | _, csrMul e f => by have := e.eval_wd h; have := f.eval_wd h; unfold eval; widen [CSR_mul_wd]
  | _, cscMul e f => by have := e.eval_wd h; have := f.eval_wd h; unfold eval; widen [CSC_mul_wd]
  | _, cscMulCsr e f => by have := e.eval_wd h; have := f.eval_wd h; unfold eval; widen [CSC_mul_csr_wd]
  | _, csrScale e s => by have := e.eval_wd h; unfold eval; widen
  | _, csrScaleL s e => by have := e.eval_wd h; unfold eval; widen
  | _, cscScale e s => by have := e.eval_wd h; unfold eval; widen
  | _, cscScaleL s e => by have := e.eval_wd h; unfold eval; widen
  | _, csrSort e => by have := e.eval_wd h; unfold eval; widen
  | _, cscSort e => by have := e.eval_wd h; unfold eval; widen
  | _, csrSum e => by have := e.eval_wd h; unfold eval; widen [CSR_sum_duplicates_wd]
  | _, cscSum e => by have := e.eval_wd h; unfold eval; widen [CSC_sum_duplicates_wd]
  | _, cooUpper e k => by have := e.eval_wd h; unfold eval; widen [Coo_upper_wd]
  | _, cooV e f => by have := e.eval_wd h; have := f.eval_wd h; unfold eval; widen [Coo_v_stack_wd]
  | _, cooV3 e f g => by
    have := e.eval_wd h; have := f.eval_wd h; have := g.eval_wd h; unfold eval; widen [Coo_v_stack3_wd]
  | _, cooH e f => by have := e.eval_wd h; have := f.eval_wd h; unfold eval; widen [Coo_h_stack_wd]
  | _, cooH3 e f g => by
    have := e.eval_wd h; have := f.eval_wd h; have := g.eval_wd h; unfold eval; widen [Coo_h_stack3_wd]
  | _, csrH e f => by have := e.eval_wd h; have := f.eval_wd h; unfold eval; widen [CSR_h_stack_wd]
  | _, cooBlock e f g k => by
    have := e.eval_wd h; have := f.eval_wd h; have := g.eval_wd h; have := k.eval_wd h; unfold eval; widen [Coo_compose_wd]
  | _, cscBlock e f g k => by
    have := e.eval_wd h; have := f.eval_wd h; have := g.eval_wd h; have := k.eval_wd h; unfold eval; widen [CSC_compose_wd]
  | _, csrSelect e ri ci => by have := e.eval_wd h; unfold eval; widen [CSR_sum_duplicates_wd, CSR_select_wd]
  | _, cscSelect e ri ci => by have := e.eval_wd h; unfold eval; widen [CSC_sum_duplicates_wd, CSC_select_wd]

/-- every shaped expression fits a sufficiently wide type -/
theorem fits_wide [Zero T] : {f : Fmt} → (e : Expr T f) → e.Shaped t →
    ∃ N : Nat, ∀ t' : IntTy, t.Sub t' → (N : Int) ≤ t'.hi → t'.lo ≤ -N → e.Fits t'
  | _, coo a => fun h => ⟨a.rows + a.cols + a.values.length + 1, fun t' hs h1 h2 =>
      ⟨Coo.WF.widen h hs, by unfold Dims; omega, by omega⟩⟩
  | _, csr a => fun h => ⟨a.rows + a.cols + a.values.length + 1, fun t' hs h1 h2 =>
      ⟨WFptr.widen h.1 hs, h.2.1, h.2.2, by unfold Dims; omega, by omega⟩⟩
  | _, csc a => fun h => ⟨a.rows + a.cols + a.values.length + 1, fun t' hs h1 h2 =>
      ⟨WFptr.widen h.1 hs, h.2.1, h.2.2, by unfold Dims; omega, by omega⟩⟩
  | _, cooDiag d | _, csrDiag d | _, cscDiag d => fun _ => ⟨d.length + 1, fun t' hs h1 h2 => by unfold Fits; omega⟩
  | _, cooEye n => fun _ => ⟨n + 1, fun t' hs h1 h2 => by unfold Fits; omega⟩
  | _, cooZero m n | _, csrZero m n => fun _ => ⟨m + n, fun t' hs h1 h2 => by unfold Fits Dims; omega⟩
  | _, cooDense A => fun h => ⟨A.length + (A.headD []).length + nonzeros A + 1, fun t' hs h1 h2 =>
      ⟨h, by unfold Dims; omega, by omega⟩⟩
  | _, csrDense A | _, cscDense A => fun h => ⟨A.length + (A.headD []).length + nonzeros A + 1, fun t' hs h1 h2 =>
      ⟨h.1, h.2, by unfold Dims; omega, by omega⟩⟩
  | _, cooToCsr e => fun h => e.fits_wide h
  | _, cooToCsc e => fun h => e.fits_wide h
  | _, cooNeg e => fun h => e.fits_wide h
  | _, cooT e => fun h => e.fits_wide h
  | _, csrToCoo e => fun h => e.fits_wide h
  | _, csrToCsc e => fun h => e.fits_wide h
  | _, csrNeg e => fun h => e.fits_wide h
  | _, csrScale e _ => fun h => e.fits_wide h
  | _, csrScaleL _ e => fun h => e.fits_wide h
  | _, csrSort e => fun h => e.fits_wide h
  | _, csrSum e => fun h => e.fits_wide h
  | _, csrT e => fun h => e.fits_wide h
  | _, cscToCoo e => fun h => e.fits_wide h
  | _, cscToCsr e => fun h => e.fits_wide h
  | _, cscNeg e => fun h => e.fits_wide h
  | _, cscScale e _ => fun h => e.fits_wide h
  | _, cscScaleL _ e => fun h => e.fits_wide h
  | _, cscSort e => fun h => e.fits_wide h
  | _, cscSum e => fun h => e.fits_wide h
  | _, cscT e => fun h => e.fits_wide h
  | _, cooAdd e f => fun h => by
    obtain ⟨N, hN⟩ := e.fits_wide h.1
    obtain ⟨K, hK⟩ := f.fits_wide h.2.1
    exact ⟨N + K + (e.size + f.size) + 1, fun t' hs h1 h2 =>
      ⟨hN t' hs (by omega) (by omega), hK t' hs (by omega) (by omega), h.2.2, by omega⟩⟩
  | _, csrAdd e f => fun h => by
    obtain ⟨N, hN⟩ := e.fits_wide h.1
    obtain ⟨K, hK⟩ := f.fits_wide h.2.1
    exact ⟨N + K + (e.size + f.size) + 1, fun t' hs h1 h2 =>
      ⟨hN t' hs (by omega) (by omega), hK t' hs (by omega) (by omega), h.2.2, by omega⟩⟩
  | _, csrSub e f => fun h => by
    obtain ⟨N, hN⟩ := e.fits_wide h.1
    obtain ⟨K, hK⟩ := f.fits_wide h.2.1
    exact ⟨N + K + (e.size + f.size) + 1, fun t' hs h1 h2 =>
      ⟨hN t' hs (by omega) (by omega), hK t' hs (by omega) (by omega), h.2.2, by omega⟩⟩
  | _, cscAdd e f => fun h => by
    obtain ⟨N, hN⟩ := e.fits_wide h.1
    obtain ⟨K, hK⟩ := f.fits_wide h.2.1
    exact ⟨N + K + (e.size + f.size) + 1, fun t' hs h1 h2 =>
      ⟨hN t' hs (by omega) (by omega), hK t' hs (by omega) (by omega), h.2.2, by omega⟩⟩
  | _, cscSub e f => fun h => by
    obtain ⟨N, hN⟩ := e.fits_wide h.1
    obtain ⟨K, hK⟩ := f.fits_wide h.2.1
    exact ⟨N + K + (e.size + f.size) + 1, fun t' hs h1 h2 =>
      ⟨hN t' hs (by omega) (by omega), hK t' hs (by omega) (by omega), h.2.2, by omega⟩⟩
  | _, cscAddMethod e f => fun h => by
    obtain ⟨N, hN⟩ := e.fits_wide h.1
    obtain ⟨K, hK⟩ := f.fits_wide h.2.1
    exact ⟨N + K + (e.size + f.size) + 1, fun t' hs h1 h2 =>
      ⟨hN t' hs (by omega) (by omega), hK t' hs (by omega) (by omega), h.2.2, by omega⟩⟩
  | _, cscSubMethod e f => fun h => by
    obtain ⟨N, hN⟩ := e.fits_wide h.1
    obtain ⟨K, hK⟩ := f.fits_wide h.2.1
    exact ⟨N + K + (e.size + f.size) + 1, fun t' hs h1 h2 =>
      ⟨hN t' hs (by omega) (by omega), hK t' hs (by omega) (by omega), h.2.2, by omega⟩⟩
  | _, csrMul e f => fun h => by
    obtain ⟨N, hN⟩ := e.fits_wide h.1
    obtain ⟨K, hK⟩ := f.fits_wide h.2.1
    exact ⟨N + K + (csrMul e f).size + 1, fun t' hs h1 h2 =>
      ⟨hN t' hs (by omega) (by omega), hK t' hs (by omega) (by omega), h.2.2, by omega⟩⟩
  | _, cscMul e f => fun h => by
    obtain ⟨N, hN⟩ := e.fits_wide h.1
    obtain ⟨K, hK⟩ := f.fits_wide h.2.1
    exact ⟨N + K + (cscMul e f).size + 1, fun t' hs h1 h2 =>
      ⟨hN t' hs (by omega) (by omega), hK t' hs (by omega) (by omega), h.2.2, by omega⟩⟩
  | _, cscMulCsr e f => fun h => by
    obtain ⟨N, hN⟩ := e.fits_wide h.1
    obtain ⟨K, hK⟩ := f.fits_wide h.2.1
    exact ⟨N + K + (cscMulCsr e f).size + 1, fun t' hs h1 h2 =>
      ⟨hN t' hs (by omega) (by omega), hK t' hs (by omega) (by omega), h.2.2, by omega⟩⟩
  | _, cooUpper e k => fun h => by
    obtain ⟨N, hN⟩ := e.fits_wide h
    exact ⟨N + e.shape.1 + k.natAbs, fun t' hs h1 h2 => ⟨hN t' hs (by omega) (by omega), by omega, by omega⟩⟩
  | _, cooV e f => fun h => by
    obtain ⟨N, hN⟩ := e.fits_wide h.1
    obtain ⟨K, hK⟩ := f.fits_wide h.2.1
    exact ⟨N + K + (e.shape.1 + f.shape.1) + (e.size + f.size) + 1, fun t' hs h1 h2 =>
      ⟨hN t' hs (by omega) (by omega), hK t' hs (by omega) (by omega), h.2.2, by omega, by omega⟩⟩
  | _, cooH e f => fun h => by
    obtain ⟨N, hN⟩ := e.fits_wide h.1
    obtain ⟨K, hK⟩ := f.fits_wide h.2.1
    exact ⟨N + K + (e.shape.2 + f.shape.2) + (e.size + f.size) + 1, fun t' hs h1 h2 =>
      ⟨hN t' hs (by omega) (by omega), hK t' hs (by omega) (by omega), h.2.2, by omega, by omega⟩⟩
  | _, csrH e f => fun h => by
    obtain ⟨N, hN⟩ := e.fits_wide h.1
    obtain ⟨K, hK⟩ := f.fits_wide h.2.1
    exact ⟨N + K + (e.shape.2 + f.shape.2) + (e.size + f.size) + 1, fun t' hs h1 h2 =>
      ⟨hN t' hs (by omega) (by omega), hK t' hs (by omega) (by omega), h.2.2, by omega, by omega⟩⟩
  | _, cooV3 e f g => fun h => by
    obtain ⟨N, hN⟩ := e.fits_wide h.1
    obtain ⟨K, hK⟩ := f.fits_wide h.2.1
    obtain ⟨L, hL⟩ := g.fits_wide h.2.2.1
    exact ⟨N + K + L + (e.shape.1 + f.shape.1 + g.shape.1) + (e.size + f.size + g.size) + 1, fun t' hs h1 h2 =>
      ⟨hN t' hs (by omega) (by omega), hK t' hs (by omega) (by omega), hL t' hs (by omega) (by omega), h.2.2.2.1, h.2.2.2.2,
        by omega, by omega⟩⟩
  | _, cooH3 e f g => fun h => by
    obtain ⟨N, hN⟩ := e.fits_wide h.1
    obtain ⟨K, hK⟩ := f.fits_wide h.2.1
    obtain ⟨L, hL⟩ := g.fits_wide h.2.2.1
    exact ⟨N + K + L + (e.shape.2 + f.shape.2 + g.shape.2) + (e.size + f.size + g.size) + 1, fun t' hs h1 h2 =>
      ⟨hN t' hs (by omega) (by omega), hK t' hs (by omega) (by omega), hL t' hs (by omega) (by omega), h.2.2.2.1, h.2.2.2.2,
        by omega, by omega⟩⟩
  | _, cooBlock e f g k => fun h => by
    obtain ⟨h1, h2, h3, h4, h5, h6, h7, h8⟩ := h
    obtain ⟨N, hN⟩ := e.fits_wide h1
    obtain ⟨K, hK⟩ := f.fits_wide h2
    obtain ⟨L, hL⟩ := g.fits_wide h3
    obtain ⟨P, hP⟩ := k.fits_wide h4
    exact ⟨N + K + L + P + (e.shape.1 + g.shape.1) + (e.shape.2 + f.shape.2) + (e.size + f.size + (g.size + k.size)) + 1,
      fun t' hs _ _ => ⟨hN t' hs (by omega) (by omega), hK t' hs (by omega) (by omega), hL t' hs (by omega) (by omega),
        hP t' hs (by omega) (by omega), h5, h6, h7, h8, by unfold Dims; omega, by omega⟩⟩
  | _, cscBlock e f g k => fun h => by
    obtain ⟨h1, h2, h3, h4, h5, h6, h7, h8⟩ := h
    obtain ⟨N, hN⟩ := e.fits_wide h1
    obtain ⟨K, hK⟩ := f.fits_wide h2
    obtain ⟨L, hL⟩ := g.fits_wide h3
    obtain ⟨P, hP⟩ := k.fits_wide h4
    exact ⟨N + K + L + P + (e.shape.1 + g.shape.1) + (e.shape.2 + f.shape.2) + (e.size + f.size + (g.size + k.size)) + 1,
      fun t' hs _ _ => ⟨hN t' hs (by omega) (by omega), hK t' hs (by omega) (by omega), hL t' hs (by omega) (by omega),
        hP t' hs (by omega) (by omega), h5, h6, h7, h8, by unfold Dims; omega, by omega⟩⟩
  | _, csrSelect e ri ci => fun h => by
    obtain ⟨N, hN⟩ := e.fits_wide h.1
    exact ⟨N + e.shape.1 + e.shape.2 + (chosen e.shape.1 ri).length + (chosen e.shape.2 ci).length + (csrSelect e ri ci).size + 1,
      fun t' hs _ _ => ⟨hN t' hs (by omega) (by omega), by omega, by omega, h.2.1, h.2.2, by unfold Dims; omega, by omega⟩⟩
  | _, cscSelect e ri ci => fun h => by
    obtain ⟨N, hN⟩ := e.fits_wide h.1
    exact ⟨N + e.shape.1 + e.shape.2 + (chosen e.shape.1 ri).length + (chosen e.shape.2 ci).length + (cscSelect e ri ci).size + 1,
      fun t' hs _ _ => ⟨hN t' hs (by omega) (by omega), by omega, by omega, h.2.1, h.2.2, by unfold Dims; omega, by omega⟩⟩

end Expr

/-- a type with the values of `t` and all integers between `-N` and `N` -/
def IntTy.extend (t : IntTy) (N : Nat) : IntTy where
  lo := min t.lo (-N)
  hi := max t.hi N
  lo_nonpos := by have := t.lo_nonpos; omega
  hi_ge := by have := t.hi_ge; omega

theorem IntTy.sub_extend (t : IntTy) (N : Nat) : t.Sub (t.extend N) := by
  unfold IntTy.Sub IntTy.extend; dsimp only; omega

section
variable [Zero T] [One T] [Add T] [Sub T] [Mul T] [BEq T]

/-- **C69** for the methods and operators of coordinate matrices that use the index type -/
theorem C69_coo (h : t.Sub t'.toIntTy) :
    (∀ A : List (List T), SameOrOverflow (Coo.from_dense t A) (Coo.from_dense t' A)) ∧
    (∀ d : List T, SameOrOverflow (Coo.with_diagonal t d) (Coo.with_diagonal t' d)) ∧
    (∀ n, SameOrOverflow (Coo.identity (T := T) t n) (Coo.identity (T := T) t' n)) ∧
    (∀ a : Coo T, SameOrOverflow (a.to_csr t) (a.to_csr t')) ∧
    (∀ a : Coo T, SameOrOverflow (a.to_csc t) (a.to_csc t')) ∧
    (∀ (a : Coo T) (k : Int), SameOrOverflow (a.upper t k) (a.upper t' k)) ∧
    (∀ a b : Coo T, SameOrOverflow (Coo.add t a b) (Coo.add t' a b)) ∧
    (∀ a b : Coo T, SameOrOverflow (Coo.v_stack t a b) (Coo.v_stack t' a b)) ∧
    (∀ a b : Coo T, SameOrOverflow (Coo.h_stack t a b) (Coo.h_stack t' a b)) ∧
    (∀ a b c : Coo T, SameOrOverflow (Coo.v_stack3 t a b c) (Coo.v_stack3 t' a b c)) ∧
    (∀ a b c : Coo T, SameOrOverflow (Coo.h_stack3 t a b c) (Coo.h_stack3 t' a b c)) ∧
    (∀ a b c d : Coo T, SameOrOverflow (Coo.compose t a b c d) (Coo.compose t' a b c d)) ∧
    (∀ a b c d e f g k l : Coo T, SameOrOverflow (Coo.compose3 t a b c d e f g k l) (Coo.compose3 t' a b c d e f g k l)) :=
  ⟨Coo_from_dense_wd h.idx, Coo_with_diagonal_wd h.idx, Coo_identity_wd h.idx, Coo_to_csr_wd h.idx, Coo_to_csc_wd h.idx, Coo_upper_wd h.idx, Coo_add_wd h.idx, Coo_v_stack_wd h.idx, Coo_h_stack_wd h.idx, Coo_v_stack3_wd h.idx, Coo_h_stack3_wd h.idx, Coo_compose_wd h.idx, Coo_compose3_wd h.idx⟩

/-- **C69** for CSR matrices -/
theorem C69_csr (h : t.Sub t'.toIntTy) :
    (∀ A : List (List T), SameOrOverflow (CSR.from_dense t A) (CSR.from_dense t' A)) ∧
    (∀ d : List T, SameOrOverflow (CSR.with_diagonal t d) (CSR.with_diagonal t' d)) ∧
    (∀ a : CSR T, SameOrOverflow (a.has_sorted_indexes t) (a.has_sorted_indexes t')) ∧
    (∀ a : CSR T, SameOrOverflow (a.has_canonical_format t) (a.has_canonical_format t')) ∧
    (∀ a : CSR T, SameOrOverflow (a.sum_duplicates t) (a.sum_duplicates t')) ∧
    (∀ a : CSR T, SameOrOverflow (a.to_csc t) (a.to_csc t')) ∧
    (∀ a : CSR T, SameOrOverflow (a.to_coo t) (a.to_coo t')) ∧
    (∀ (a : CSR T) (ri ci : Option (List Int)), SameOrOverflow (a.select t ri ci) (a.select t' ri ci)) ∧
    (∀ a b : CSR T, SameOrOverflow (CSR.mat_mat t a b) (CSR.mat_mat t' a b)) ∧
    (∀ a b : CSR T, SameOrOverflow (CSR.mul t a b) (CSR.mul t' a b)) ∧
    (∀ a b : CSR T, SameOrOverflow (CSR.add t a b) (CSR.add t' a b)) ∧
    (∀ a b : CSR T, SameOrOverflow (CSR.sub t a b) (CSR.sub t' a b)) ∧
    (∀ a b : CSR T, SameOrOverflow (CSR.h_stack t a b) (CSR.h_stack t' a b)) :=
  ⟨CSR_from_dense_wd h.idx, CSR_with_diagonal_wd h.idx, CSR_has_sorted_indexes_wd h.idx, CSR_has_canonical_format_wd h.idx, CSR_sum_duplicates_wd h.idx, CSR_to_csc_wd h.idx, CSR_to_coo_wd h.idx, CSR_select_wd h.idx, CSR_mat_mat_wd h.idx, CSR_mul_wd h.idx, CSR_add_wd h.idx, CSR_sub_wd h.idx, CSR_h_stack_wd h.idx⟩

/-- **C69** for CSC matrices -/
theorem C69_csc (h : t.Sub t'.toIntTy) :
    (∀ A : List (List T), SameOrOverflow (CSC.from_dense t A) (CSC.from_dense t' A)) ∧
    (∀ d : List T, SameOrOverflow (CSC.with_diagonal t d) (CSC.with_diagonal t' d)) ∧
    (∀ a : CSC T, SameOrOverflow (a.has_sorted_indexes t) (a.has_sorted_indexes t')) ∧
    (∀ a : CSC T, SameOrOverflow (a.has_canonical_format t) (a.has_canonical_format t')) ∧
    (∀ a : CSC T, SameOrOverflow (a.sum_duplicates t) (a.sum_duplicates t')) ∧
    (∀ a : CSC T, SameOrOverflow (a.to_csr t) (a.to_csr t')) ∧
    (∀ a : CSC T, SameOrOverflow (a.to_coo t) (a.to_coo t')) ∧
    (∀ a : CSC T, SameOrOverflow (a.to_dense t) (a.to_dense t')) ∧
    (∀ (a : CSC T) (ri ci : Option (List Int)), SameOrOverflow (a.select t ri ci) (a.select t' ri ci)) ∧
    (∀ a b : CSC T, SameOrOverflow (CSC.mat_mat t a b) (CSC.mat_mat t' a b)) ∧
    (∀ a b : CSC T, SameOrOverflow (CSC.mul t a b) (CSC.mul t' a b)) ∧
    (∀ (a : CSC T) (b : CSR T), SameOrOverflow (CSC.mul_csr t a b) (CSC.mul_csr t' a b)) ∧
    (∀ a b : CSC T, SameOrOverflow (CSC.add_op t a b) (CSC.add_op t' a b)) ∧
    (∀ a b : CSC T, SameOrOverflow (CSC.sub_op t a b) (CSC.sub_op t' a b)) ∧
    (∀ a b : CSC T, SameOrOverflow (CSC.add t a b) (CSC.add t' a b)) ∧
    (∀ a b : CSC T, SameOrOverflow (CSC.subtract t a b) (CSC.subtract t' a b)) ∧
    (∀ a b c d : CSC T, SameOrOverflow (CSC.compose t a b c d) (CSC.compose t' a b c d)) :=
  ⟨CSC_from_dense_wd h.idx, CSC_with_diagonal_wd h.idx, CSC_has_sorted_indexes_wd h.idx, CSC_has_canonical_format_wd h.idx, CSC_sum_duplicates_wd h.idx, CSC_to_csr_wd h.idx, CSC_to_coo_wd h.idx, CSC_to_dense_wd h.idx, CSC_select_wd h.idx, CSC_mat_mat_wd h.idx, CSC_mul_wd h.idx, CSC_mul_csr_wd h.idx, CSC_add_op_wd h.idx, CSC_sub_op_wd h.idx, CSC_add_wd h.idx, CSC_subtract_wd h.idx, CSC_compose_wd h.idx⟩

/-- **C69** for the dictionary of keys (`es` is the order in which the map is traversed) -/
theorem C69_dok (h : t.Sub t'.toIntTy) :
    (∀ A : List (List T), SameOrOverflow (DoK.from_dense t A) (DoK.from_dense t' A)) ∧
    (∀ (d : DoK T) (i j : Int) (v : T), SameOrOverflow (d.set t i j v) (d.set t' i j v)) ∧
    (∀ (d : DoK T) (i j : Int) (v : T), SameOrOverflow (d.add t i j v) (d.add t' i j v)) ∧
    (∀ (d : DoK T) (i j : Int) (v : T), SameOrOverflow (d.sub t i j v) (d.sub t' i j v)) ∧
    (∀ (d : DoK T) (es : KMap T), SameOrOverflow (d.to_csr t es) (d.to_csr t' es)) ∧
    (∀ (d : DoK T) (es : KMap T), SameOrOverflow (d.to_csc t es) (d.to_csc t' es)) :=
  ⟨DoK_from_dense_wd h.idx, DoK_set_wd h.idx, DoK_add_wd h.idx, DoK_sub_wd h.idx, DoK_to_csr_wd h.idx, DoK_to_csc_wd h.idx⟩

/-- **C69** for the graph algorithms (`fuel` bounds the number of loop iterations) -/
theorem C69_graph {ft : IntTy} {ft' : IdxTy} (h : t.Sub t'.toIntTy) (hf : ft.Sub ft'.toIntTy) (fuel : Nat) (g : CSR T) :
    (∀ directed connection, SameOrOverflow (connected_components t fuel g directed connection)
      (connected_components t' fuel g directed connection)) ∧
    (∀ start directed, SameOrOverflow (depth_first_order t fuel g start directed)
      (depth_first_order t' fuel g start directed)) ∧
    SameOrOverflow (g.connected_components t ft fuel) (g.connected_components t' ft' fuel) :=
  ⟨connected_components_wd h.idx fuel g, depth_first_order_wd h.idx fuel g, CSR_connected_components_wd h.idx hf.idx fuel g⟩

/-- the index types of the crate, by increasing range -/
theorem index_types_sub : IntTy.i8.Sub .i16 ∧ IntTy.i16.Sub .i32 ∧ IntTy.i32.Sub .i64 ∧ IntTy.u8.Sub .u16 ∧ IntTy.u16.Sub .u32 ∧
    IntTy.u32.Sub .u64 ∧ IntTy.u8.Sub .i16 ∧ IntTy.u16.Sub .i32 ∧ IntTy.u32.Sub .i64 := by
  unfold IntTy.Sub; decide

end

variable [CommRing T] [DecidableEq T]

/-- **C69** for every expression: no shapes need to agree, and given matrices need not be valid -/
theorem C69_expressions {f : Fmt} (h : t.Sub t'.toIntTy) (e : Expr T f) : SameOrOverflow (e.eval t) (e.eval t') := e.eval_wd h.idx

/-- both outcomes of C69: the identity of order 9 fits `i8`; that of order 130 makes the program panic with `i8`, and
gives the matrix with `i16` -/
example :
    (Expr.cooEye (T := Int) 9).eval .i8 = (Expr.cooEye (T := Int) 9).eval .i16 ∧
    (Expr.cooEye (T := Int) 130).eval .i8 = .error (.panic .unwrap) ∧
    ((Expr.cooEye (T := Int) 130).eval .i16).toOption.map (fun (r : Coo Int) => (r.rows, r.values.length)) =
      some (130, 130) := by
  decide +kernel

/-- **C70**, partial (C19, C20): a well-shaped expression of any size is evaluated to the right matrix or panics because a
number is not representable; it never returns a wrong matrix or `Err`. The result is a valid
matrix over the same index type. -/
theorem C70_right_or_overflow_partial {f : Fmt} (e : Expr T f) (h : e.Shaped t) (hb : e.AvoidsCscSubScale) :
    (∃ r, e.eval t = .ok r ∧ r.WF t ∧ r.rows = e.shape.1 ∧ r.cols = e.shape.2 ∧
      ∀ i j, r.entry i j = e.denote i j) ∨
    e.eval t = .error (.panic .unwrap) ∨ e.eval t = .error (.panic .arith) := by
  obtain ⟨N, hN⟩ := e.fits_wide h
  have hs := t.sub_extend N
  obtain ⟨r, h1, h2, h3, h4, h5⟩ := C50_compositions_partial e
    (hN (t.extend N) hs (by unfold IntTy.extend; dsimp only; omega) (by unfold IntTy.extend; dsimp only; omega)) hb
  rcases e.eval_wd (t' := t.extend N) hs.idx with h' | h'
  · exact .inl ⟨r, h'.trans h1, Val.retype h2 (e.eval_ty (t := t) h.given r (h'.trans h1)), h3, h4, h5⟩
  · exact .inr h'

/-- **C70**, partial (C19, C20): observed by `to_dense` -/
theorem C70_observed_partial {f : Fmt} (e : Expr T f) (h : e.Shaped t) (hb : e.AvoidsCscSubScale) :
    let out := (e.eval t) >>= fun r => r.to_dense t
    out = .ok (dense e.shape.1 e.shape.2 e.denote) ∨ out = .error (.panic .unwrap) ∨ out = .error (.panic .arith) := by
  obtain ⟨N, hN⟩ := e.fits_wide h
  have hs := t.sub_extend N
  obtain ⟨r, h1, h2, -⟩ := C50_observed_partial e
    (hN (t.extend N) hs (by unfold IntTy.extend; dsimp only; omega) (by unfold IntTy.extend; dsimp only; omega)) hb
  have hw : SameOrOverflow (e.eval t >>= fun r => r.to_dense t)
      (e.eval (t.extend N) >>= fun r => r.to_dense (t.extend N)) := by
    refine (e.eval_wd (t' := t.extend N) hs.idx).bind fun r => ?_
    cases f with
    | coo => exact .refl _
    | csr => exact .refl _
    | csc => exact CSC_to_dense_wd (t' := t.extend N) hs.idx r
  rw [h1] at hw
  rcases hw with h' | h'
  · exact .inl (h'.trans h2)
  · exact .inr h'

/-- an expression of the required shape that does not fit: the stacked matrix has 135 rows -/
def exOver : Expr Int .coo := .cooV (.cooEye 45) (.cooV (.cooEye 45) (.cooEye 45))

example : exOver.Shaped .i8 ∧ exOver.AvoidsCscSubScale ∧ exOver.eval .i8 = .error (.panic .arith) ∧
    ¬ exOver.Fits .i8 := by
  refine ⟨?_, ?_, by decide +kernel, ?_⟩
  · simp [exOver, Expr.Shaped, Expr.shape]
  · simp [exOver, Expr.AvoidsCscSubScale]
  · simp [exOver, Expr.Fits, Expr.shape, IntTy.i8]

/-- negation of the full C70: the scalar multiple of a CSC matrix can be a wrong matrix (C20) -/
theorem C70_csc_counterexample :
    let e : Expr Int .csc := .cscScale (.csc ⟨2, 1, [0, 1], [0, 2], [5, 7]⟩) 2
    e.Shaped .u8 ∧ ∃ r : CSC Int, e.eval .u8 = .ok r ∧ r.entry 1 0 = 0 ∧ e.denote 1 0 = 14 :=
  ⟨⟨CSC.wf_of (by decide), by decide, by decide⟩, _, rfl, by decide, by decide⟩

/-! ### C71: builds without overflow checks -/

/-- **C71**, partial: what a build with overflow checks returns is returned without them. -/
theorem C71_same_partial {f : Fmt} (e : Expr T f) :
    (∀ r, e.eval t = .ok r → e.eval t.unchecked = .ok r) ∧ (e.eval t = .error .err → e.eval t.unchecked = .error .err) := by
  have h := C69_expressions (t' := t.unchecked) (IntTy.Sub.refl t) e
  constructor
  · intro r hr
    rcases h with h | h | h
    · rw [← h, hr]
    · rw [hr] at h; cases h
    · rw [hr] at h; cases h
  · intro hr
    rcases h with h | h | h
    · rw [← h, hr]
    · rw [hr] at h; cases h
    · rw [hr] at h; cases h

/-- **C71**, partial: expressions whose sizes fit the index type have the right value without overflow checks (C50). -/
theorem C71_compositions_partial {f : Fmt} (e : Expr T f) (hf : e.Fits t) (hb : e.AvoidsCscSubScale) :
    ∃ r, e.eval t.unchecked = .ok r ∧ r.WF t ∧ r.rows = e.shape.1 ∧ r.cols = e.shape.2 ∧
      ∀ i j, r.entry i j = e.denote i j := by
  obtain ⟨r, h1, h⟩ := C50_compositions_partial e hf hb
  exact ⟨r, (C71_same_partial e).1 r h1, h⟩

/-- a row with the columns 1, 0, 2, 3, …, 127 -/
def exLeft : CSR Int :=
  ⟨1, 256, [0, 128], 1 :: 0 :: (List.range 126).map (fun (i : Nat) => (i : Int) + 2), List.replicate 128 1⟩
/-- a row with the columns 128, 129, …, 255 -/
def exRight : CSR Int := ⟨1, 256, [0, 128], (List.range 128).map (fun (i : Nat) => (i : Int) + 128), List.replicate 128 1⟩

theorem ok_of_map {α β : Type} {m : M α} {g : α → β} {c : β} (h : m.toOption.map g = some c) : ∃ r, m = .ok r ∧ g r = c := by
  cases m with
  | error e => cases h
  | ok r => exact ⟨r, rfl, Option.some.inj h⟩

theorem eval_csrAdd_csr (t : IdxTy) (a b : CSR T) : (Expr.csrAdd (.csr a) (.csr b)).eval t = CSR.add t a b := rfl

/-- negation of the full C71: without overflow checks, `v_stack` moves an entry to a wrong row, `upper` keeps an entry
below the diagonal, and the sum of two rows is empty; with overflow checks these calls panic -/
theorem C71_counterexample :
    (let e : Expr Int .coo := .cooV (.cooZero 200 1) (.coo ⟨101, 1, [100], [0], [7]⟩)
     e.Shaped .u8 ∧ e.denote 44 0 = 0 ∧ e.denote 300 0 = 7 ∧ e.eval .u8 = .error (.panic .arith) ∧
      ∃ r : Coo Int, e.eval IntTy.u8.unchecked = .ok r ∧ r.entry 44 0 = 7 ∧ r.entry 300 0 = 0) ∧
    (let e : Expr Int .coo := .cooUpper (.coo ⟨121, 1, [120], [0], [7]⟩) 10
     e.Shaped .i8 ∧ e.denote 120 0 = 0 ∧ e.eval .i8 = .error (.panic .arith) ∧
      ∃ r : Coo Int, e.eval IntTy.i8.unchecked = .ok r ∧ r.entry 120 0 = 7) ∧
    (let e : Expr Int .csr := .csrAdd (.csr exLeft) (.csr exRight)
     e.Shaped .u8 ∧ e.denote 0 0 = 1 ∧ e.eval .u8 = .error (.panic .arith) ∧
      ∃ r : CSR Int, e.eval IntTy.u8.unchecked = .ok r ∧ r.entry 0 0 = 0) := by
  refine ⟨⟨?_, by decide +kernel, by decide +kernel, by decide +kernel, _, rfl, by decide +kernel, by decide +kernel⟩,
    ⟨?_, by decide +kernel, by decide +kernel, _, rfl, by decide +kernel⟩,
    ⟨⟨?_, ?_, rfl⟩, by decide +kernel, by decide +kernel, ?_⟩⟩
  · exact ⟨trivial, ⟨rfl, rfl, by decide, by decide⟩, rfl⟩
  · exact ⟨rfl, rfl, by decide, by decide⟩
  · exact ⟨CSR.wf_of (by decide +kernel), by decide +kernel, by decide +kernel⟩
  · exact ⟨CSR.wf_of (by decide +kernel), by decide +kernel, by decide +kernel⟩
  · rw [eval_csrAdd_csr]
    exact ok_of_map (by decide +kernel)

end Sparse

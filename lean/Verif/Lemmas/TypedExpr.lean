import Verif.Lemmas.Typed
import Verif.Lemmas.Expr
import Verif.SpecWiden
/-! The value of an expression stores values of the index type. -/
namespace Sparse
open Idx
section
variable {T : Type} [CommRing T] [DecidableEq T] {t : IdxTy}

theorem Expr.eval_ty : {f : Fmt} → (e : Expr T f) → e.Given t.toIntTy → Ret (e.eval t) (fun r => r.HasType t.toIntTy)
  | _, .coo _, h => .ok h
  | _, .csr _, h => .ok h
  | _, .csc _, h => .ok h
  | _, .cooDiag _, _ => Coo_with_diagonal_ty
  | _, .csrDiag _, _ => CSR_with_diagonal_ty
  | _, .cscDiag _, _ => CSC_with_diagonal_ty
  | _, .cooEye _, _ => Coo_identity_ty
  | _, .cooZero _ _, _ => .ok ⟨t.hasAll_nil, t.hasAll_nil⟩
  | _, .csrZero _ _, _ => .ok ⟨t.hasAll_zeros, t.hasAll_nil⟩
  | _, .cooDense _, _ => Coo_from_dense_ty
  | _, .csrDense _, _ => CSR_from_dense_ty
  | _, .cscDense _, _ => CSC_from_dense_ty
  | _, .cooToCsr e, h => .bind' (e.eval_ty h) fun _ ha => Coo_to_csr_ty ha
  | _, .cooToCsc e, h => .bind' (e.eval_ty h) fun _ ha => Coo_to_csc_ty ha
  | _, .csrToCoo e, h => .bind' (e.eval_ty h) fun _ ha => CSR_to_coo_ty ha
  | _, .csrToCsc e, h => .bind' (e.eval_ty h) fun _ ha => CSR_to_csc_ty ha
  | _, .cscToCoo e, h => .bind' (e.eval_ty h) fun _ ha => CSC_to_coo_ty ha
  | _, .cscToCsr e, h => .bind' (e.eval_ty h) fun _ ha => CSC_to_csr_ty ha
  | _, .cooT e, h => .bind' (e.eval_ty h) fun _ ha => .pure ⟨ha.2, ha.1⟩
  | _, .csrT e, h => .bind' (e.eval_ty h) fun _ ha => CSR_transpose_ty ha
  | _, .cscT e, h => .bind' (e.eval_ty h) fun _ ha => CSC_transpose_ty ha
  | _, .cooNeg e, h => .bind' (e.eval_ty h) fun _ ha => Coo_neg_ty ha
  | _, .csrNeg e, h => .bind' (e.eval_ty h) fun _ ha => CSR_neg_ty ha
  | _, .cscNeg e, h => .bind' (e.eval_ty h) fun _ ha => CSC_neg_ty ha
  | _, .cooAdd e f, h => .bind' (e.eval_ty h.1) fun _ ha => .bind' (f.eval_ty h.2) fun _ hb => Coo_add_ty ha hb
  | _, .csrAdd e f, h => .bind' (e.eval_ty h.1) fun _ ha => .bind' (f.eval_ty h.2) fun _ hb => CSR_add_ty ha hb
  | _, .csrSub e f, h => .bind' (e.eval_ty h.1) fun _ ha => .bind' (f.eval_ty h.2) fun _ hb => CSR_sub_ty ha hb
  | _, .cscAdd e f, h => .bind' (e.eval_ty h.1) fun _ ha => .bind' (f.eval_ty h.2) fun _ hb => CSC_add_op_ty ha hb
  | _, .cscSub e f, h => .bind' (e.eval_ty h.1) fun _ ha => .bind' (f.eval_ty h.2) fun _ hb => CSC_sub_op_ty ha hb
  | _, .cscAddMethod e f, h => .bind' (e.eval_ty h.1) fun _ ha => .bind' (f.eval_ty h.2) fun _ hb => CSC_add_ty ha hb
  | _, .cscSubMethod e f, h => .bind' (e.eval_ty h.1) fun _ ha => .bind' (f.eval_ty h.2) fun _ hb => CSC_subtract_ty ha hb
  | _, .csrMul e f, h => .bind' (e.eval_ty h.1) fun _ _ => .bind' (f.eval_ty h.2) fun _ _ => CSR_mul_ty
  | _, .cscMul e f, h => .bind' (e.eval_ty h.1) fun _ _ => .bind' (f.eval_ty h.2) fun _ _ => CSC_mul_ty
  | _, .cscMulCsr e f, h => .bind' (e.eval_ty h.1) fun _ _ => .bind' (f.eval_ty h.2) fun _ hb => CSC_mul_csr_ty hb
  | _, .csrScale e _, h => .bind' (e.eval_ty h) fun _ ha => CSR_mul_scalar_ty ha
  | _, .csrScaleL _ e, h => .bind' (e.eval_ty h) fun _ ha => CSR_scalar_mul_ty ha
  | _, .cscScale e _, h => .bind' (e.eval_ty h) fun _ ha => CSC_mul_scalar_ty ha
  | _, .cscScaleL _ e, h => .bind' (e.eval_ty h) fun _ ha => CSC_scalar_mul_ty ha
  | _, .csrSort e, h => .bind' (e.eval_ty h) fun _ ha => CSR_sort_indexes_ty ha
  | _, .cscSort e, h => .bind' (e.eval_ty h) fun _ ha => CSC_sort_indexes_ty ha
  | _, .csrSum e, h => .bind' (e.eval_ty h) fun _ ha => CSR_sum_duplicates_ty ha
  | _, .cscSum e, h => .bind' (e.eval_ty h) fun _ ha => CSC_sum_duplicates_ty ha
  | _, .cooUpper e _, h => .bind' (e.eval_ty h) fun _ ha => Coo_upper_ty ha
  | _, .cooV e f, h => .bind' (e.eval_ty h.1) fun _ ha => .bind' (f.eval_ty h.2) fun _ hb => Coo_v_stack_ty ha hb
  | _, .cooV3 e f g, h => .bind' (e.eval_ty h.1) fun _ ha => .bind' (f.eval_ty h.2.1) fun _ hb => .bind' (g.eval_ty h.2.2) fun _ hc =>
      Coo_v_stack3_ty ha hb hc
  | _, .cooH e f, h => .bind' (e.eval_ty h.1) fun _ ha => .bind' (f.eval_ty h.2) fun _ hb => Coo_h_stack_ty ha hb
  | _, .cooH3 e f g, h => .bind' (e.eval_ty h.1) fun _ ha => .bind' (f.eval_ty h.2.1) fun _ hb => .bind' (g.eval_ty h.2.2) fun _ hc =>
      Coo_h_stack3_ty ha hb hc
  | _, .csrH e f, h => .bind' (e.eval_ty h.1) fun _ ha => .bind' (f.eval_ty h.2) fun _ hb => CSR_h_stack_ty ha hb
  | _, .cooBlock e f g k, h => .bind' (e.eval_ty h.1) fun _ ha => .bind' (f.eval_ty h.2.1) fun _ hb => .bind' (g.eval_ty h.2.2.1) fun _ hc =>
      .bind' (k.eval_ty h.2.2.2) fun _ hd => Coo_compose_ty ha hb hc hd
  | _, .cscBlock e f g k, h => .bind' (e.eval_ty h.1) fun _ ha => .bind' (f.eval_ty h.2.1) fun _ hb => .bind' (g.eval_ty h.2.2.1) fun _ hc =>
      .bind' (k.eval_ty h.2.2.2) fun _ hd => CSC_compose_ty ha hb hc hd
  | _, .csrSelect e _ _, h => .bind' (e.eval_ty h) fun _ ha => .bind' (CSR_sum_duplicates_ty ha) fun _ hb => CSR_select_ty hb
  | _, .cscSelect e _ _, h => .bind' (e.eval_ty h) fun _ ha => .bind' (CSC_sum_duplicates_ty ha) fun _ hb => CSC_select_ty hb
omit [CommRing T] [DecidableEq T]

theorem WFptr.hasAll {t : IntTy} {n m : Nat} {p j : List Int} {x : List T} (h : WFptr t n m p j x) : t.HasAll p := by
  intro v hv
  obtain ⟨i, hi, rfl⟩ := List.mem_iff_getElem.1 hv
  have hlen := h.len
  have hp := h.rep.ptr i (by omega)
  rw [List.getElem?_eq_getElem hi, Option.some.injEq] at hp
  have h1 := flat_length_mono (rowOf p j x) (show i ≤ n by omega)
  have h2 := h.fits
  have h3 := t.lo_nonpos
  rw [hp]
  exact ⟨by omega, by omega⟩

theorem WFptr.hasAll_idx {t : IntTy} {n m : Nat} {p j : List Int} {x : List T} (h : WFptr t n m p j x)
    (hj : j.length = (flat (rowOf p j x) n).length) : t.HasAll j := by
  intro v hv
  obtain ⟨k, hk, rfl⟩ := List.mem_iff_getElem.1 hv
  have h1 := h.idx _ k _ (h.rep.ptr n (le_refl _)) (List.getElem?_eq_getElem hk) (by omega)
  have h3 := t.lo_nonpos
  exact ⟨by omega, h1.2.2⟩

theorem WFptr.retype {t t' : IntTy} {n m : Nat} {p j : List Int} {x : List T} (h : WFptr t' n m p j x) (hp : t.HasAll p) (hj : t.HasAll j) :
    WFptr t n m p j x :=
  ⟨h.len, h.first, h.mono, fun c hc => ⟨(hp c (List.mem_of_getElem? hc)).2, (h.last c hc).2⟩,
    fun c k v hc hk hlt => ⟨(h.idx c k v hc hk hlt).1, (h.idx c k v hc hk hlt).2.1, (hj v (List.mem_of_getElem? hk)).2⟩⟩

theorem Val.retype {t t' : IntTy} : {f : Fmt} → {r : Val T f} → r.WF t' → r.HasType t → r.WF t
  | .coo, _, h, ht => ⟨h.lenr, h.lenc, fun v hv => ⟨(h.row v hv).1, (h.row v hv).2.1, (ht.1 v hv).2⟩,
      fun v hv => ⟨(h.col v hv).1, (h.col v hv).2.1, (ht.2 v hv).2⟩⟩
  | .csr, _, h, ht => WFptr.retype h ht.1 ht.2
  | .csc, _, h, ht => WFptr.retype h ht.2 ht.1

theorem Expr.Shaped.given {t : IntTy} : {f : Fmt} → {e : Expr T f} → e.Shaped t → e.Given t
  | _, .coo _, h => by
    have h3 := t.lo_nonpos
    exact ⟨fun v hv => ⟨by have := h.row v hv; omega, (h.row v hv).2.2⟩, fun v hv => ⟨by have := h.col v hv; omega, (h.col v hv).2.2⟩⟩
  | _, .csr _, h => ⟨h.1.hasAll, h.1.hasAll_idx (h.2.1.trans h.1.stored_eq)⟩
  | _, .csc _, h => ⟨h.1.hasAll_idx (h.2.1.trans h.1.stored_eq), h.1.hasAll⟩
  | _, .cooDiag _, _ | _, .csrDiag _, _ | _, .cscDiag _, _ | _, .cooEye _, _ | _, .cooZero _ _, _ | _, .csrZero _ _, _ => trivial
  | _, .cooDense _, _ | _, .csrDense _, _ | _, .cscDense _, _ => trivial
  | _, .cooToCsr e, h | _, .cooToCsc e, h | _, .cooNeg e, h | _, .cooT e, h | _, .cooUpper e _, h => given (e := e) h
  | _, .csrToCoo e, h | _, .csrToCsc e, h | _, .csrNeg e, h | _, .csrScale e _, h | _, .csrScaleL _ e, h | _, .csrSort e, h
  | _, .csrSum e, h | _, .csrT e, h => given (e := e) h
  | _, .cscToCoo e, h | _, .cscToCsr e, h | _, .cscNeg e, h | _, .cscScale e _, h | _, .cscScaleL _ e, h | _, .cscSort e, h
  | _, .cscSum e, h | _, .cscT e, h => given (e := e) h
  | _, .cooAdd e f, h | _, .csrAdd e f, h | _, .csrSub e f, h => ⟨given (e := e) h.1, given (e := f) h.2.1⟩
  | _, .cscAdd e f, h | _, .cscSub e f, h | _, .cscAddMethod e f, h | _, .cscSubMethod e f, h => ⟨given (e := e) h.1, given (e := f) h.2.1⟩
  | _, .csrMul e f, h => ⟨given (e := e) h.1, given (e := f) h.2.1⟩
  | _, .cscMul e f, h => ⟨given (e := e) h.1, given (e := f) h.2.1⟩
  | _, .cscMulCsr e f, h => ⟨given (e := e) h.1, given (e := f) h.2.1⟩
  | _, .cooV e f, h => ⟨given (e := e) h.1, given (e := f) h.2.1⟩
  | _, .cooV3 e f g, h => ⟨given (e := e) h.1, given (e := f) h.2.1, given (e := g) h.2.2.1⟩
  | _, .cooH e f, h | _, .csrH e f, h => ⟨given (e := e) h.1, given (e := f) h.2.1⟩
  | _, .cooH3 e f g, h => ⟨given (e := e) h.1, given (e := f) h.2.1, given (e := g) h.2.2.1⟩
  | _, .cooBlock e f g k, h | _, .cscBlock e f g k, h =>
      ⟨given (e := e) h.1, given (e := f) h.2.1, given (e := g) h.2.2.1, given (e := k) h.2.2.2.1⟩
  | _, .csrSelect e _ _, h | _, .cscSelect e _ _, h => given (e := e) h.1

end
end Sparse

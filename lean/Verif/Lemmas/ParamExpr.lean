import Verif.Lemmas.ParamMat
import Verif.SpecParam
/-! Programs run in the same way on related scalars. -/
namespace Sparse

section
variable {T T' : Type} [SRel T T'] {φ : T → T'}

/-- related matrices of one format -/
def VR : {f : Fmt} → Val T f → Val T' f → Prop
  | .coo, a, b => rel (α := Coo T) (β := Coo T') a b
  | .csr, a, b => rel (α := CSR T) (β := CSR T') a b
  | .csc, a, b => rel (α := CSC T) (β := CSC T') a b

theorem LR.map_right {l : List α} {r : α → β → Prop} {φ : α → β} (h : ∀ x, r x (φ x)) : LR r l (l.map φ) := by
  induction l with
  | nil => exact .nil
  | cons x l ih => exact .cons (h x) ih
theorem vec_map_rel (hφ : ∀ x, SRel.r x (φ x)) (x : List T) : rel x (x.map φ) := LR.map_right hφ
theorem dense_map_rel (hφ : ∀ x, SRel.r x (φ x)) (A : List (List T)) : rel A (A.map (·.map φ)) :=
  LR.map_right fun x => vec_map_rel hφ x
theorem coo_map_rel (hφ : ∀ x, SRel.r x (φ x)) (a : Coo T) : rel a (a.mapValues φ) := ⟨rfl, rfl, rfl, rfl, vec_map_rel hφ _⟩
theorem csr_map_rel (hφ : ∀ x, SRel.r x (φ x)) (a : CSR T) : rel a (a.mapValues φ) := ⟨rfl, rfl, rfl, rfl, vec_map_rel hφ _⟩
theorem csc_map_rel (hφ : ∀ x, SRel.r x (φ x)) (a : CSC T) : rel a (a.mapValues φ) := ⟨rfl, rfl, rfl, rfl, vec_map_rel hφ _⟩
theorem coo_transpose_rel {a : Coo T} {a' : Coo T'} (h : rel a a') : rel a.transpose a'.transpose :=
  ⟨h.2.1, h.1, h.2.2.2.1, h.2.2.1, h.2.2.2.2⟩

variable [Zero T] [One T] [Add T] [Sub T] [Neg T] [Mul T] [BEq T] [Zero T'] [One T'] [Add T'] [Sub T'] [Neg T'] [Mul T'] [BEq T']
  [SZero T T'] [SOne T T'] [SAdd T T'] [SSub T T'] [SNeg T T'] [SMul T T']

theorem run_par [SNz T T'] (hφ : ∀ x, SRel.r x (φ x)) (t : IdxTy) : {f : Fmt} → (e : Expr T f) → Par VR (e.run t) ((e.mapValues φ).run t)
  | _, .coo _ => Par.pure (coo_map_rel hφ _)
  | _, .csr _ => Par.pure (csr_map_rel hφ _)
  | _, .csc _ => Par.pure (csc_map_rel hφ _)
  | _, .cooDiag _ => Coo_with_diagonal_par _ (vec_map_rel hφ _)
  | _, .csrDiag _ => CSR_with_diagonal_par _ (vec_map_rel hφ _)
  | _, .cscDiag _ => CSC_with_diagonal_par _ (vec_map_rel hφ _)
  | _, .cooEye _ => Coo_identity_par _ _
  | _, .cooZero _ _ => Par.pure ⟨rfl, rfl, rfl, rfl, LR.nil⟩
  | _, .csrZero _ _ => Par.pure ⟨rfl, rfl, rfl, rfl, LR.nil⟩
  | _, .cooDense _ => Coo_from_dense_par _ (dense_map_rel hφ _)
  | _, .csrDense _ => CSR_from_dense_par _ (dense_map_rel hφ _)
  | _, .cscDense _ => CSC_from_dense_par _ (dense_map_rel hφ _)
  | _, .cooToCsr e => Par.bind (run_par hφ t e) fun _ _ ha => Coo_to_csr_par t ha
  | _, .cooToCsc e => Par.bind (run_par hφ t e) fun _ _ ha => Coo_to_csc_par t ha
  | _, .csrToCoo e => Par.bind (run_par hφ t e) fun _ _ ha => CSR_to_coo_par t ha
  | _, .csrToCsc e => Par.bind (run_par hφ t e) fun _ _ ha => CSR_to_csc_par t ha
  | _, .cscToCoo e => Par.bind (run_par hφ t e) fun _ _ ha => CSC_to_coo_par t ha
  | _, .cscToCsr e => Par.bind (run_par hφ t e) fun _ _ ha => CSC_to_csr_par t ha
  | _, .cooT e => Par.bind (run_par hφ t e) fun _ _ ha => Par.pure (coo_transpose_rel ha)
  | _, .csrT e => Par.bind (run_par hφ t e) fun _ _ ha => CSR_transpose_par ha
  | _, .cscT e => Par.bind (run_par hφ t e) fun _ _ ha => CSC_transpose_par ha
  | _, .cooNeg e => Par.bind (run_par hφ t e) fun _ _ ha => Coo_neg_par ha
  | _, .csrNeg e => Par.bind (run_par hφ t e) fun _ _ ha => CSR_neg_par ha
  | _, .cscNeg e => Par.bind (run_par hφ t e) fun _ _ ha => CSC_neg_par ha
  | _, .cooAdd e f => Par.bind (run_par hφ t e) fun _ _ ha => Par.bind (run_par hφ t f) fun _ _ hb => Coo_add_par t ha hb
  | _, .csrAdd e f => Par.bind (run_par hφ t e) fun _ _ ha => Par.bind (run_par hφ t f) fun _ _ hb => CSR_add_par t ha hb
  | _, .csrSub e f => Par.bind (run_par hφ t e) fun _ _ ha => Par.bind (run_par hφ t f) fun _ _ hb => CSR_sub_par t ha hb
  | _, .cscAdd e f => Par.bind (run_par hφ t e) fun _ _ ha => Par.bind (run_par hφ t f) fun _ _ hb => CSC_add_op_par t ha hb
  | _, .cscSub e f => Par.bind (run_par hφ t e) fun _ _ ha => Par.bind (run_par hφ t f) fun _ _ hb => CSC_sub_op_par t ha hb
  | _, .cscAddMethod e f => Par.bind (run_par hφ t e) fun _ _ ha => Par.bind (run_par hφ t f) fun _ _ hb => CSC_add_par t ha hb
  | _, .cscSubMethod e f => Par.bind (run_par hφ t e) fun _ _ ha => Par.bind (run_par hφ t f) fun _ _ hb => CSC_subtract_par t ha hb
  | _, .csrMul e f => Par.bind (run_par hφ t e) fun _ _ ha => Par.bind (run_par hφ t f) fun _ _ hb => CSR_mul_par t ha hb
  | _, .cscMul e f => Par.bind (run_par hφ t e) fun _ _ ha => Par.bind (run_par hφ t f) fun _ _ hb => CSC_mul_par t ha hb
  | _, .cscMulCsr e f => Par.bind (run_par hφ t e) fun _ _ ha => Par.bind (run_par hφ t f) fun _ _ hb => CSC_mul_csr_par t ha hb
  | _, .csrScale e s => Par.bind (run_par hφ t e) fun _ _ ha => CSR_mul_scalar_par ha (hφ s)
  | _, .csrScaleL s e => Par.bind (run_par hφ t e) fun _ _ ha => CSR_scalar_mul_par (hφ s) ha
  | _, .cscScale e s => Par.bind (run_par hφ t e) fun _ _ ha => CSC_mul_scalar_par ha (hφ s)
  | _, .cscScaleL s e => Par.bind (run_par hφ t e) fun _ _ ha => CSC_scalar_mul_par (hφ s) ha
  | _, .csrSort e => Par.bind (run_par hφ t e) fun _ _ ha => CSR_sort_indexes_par ha
  | _, .cscSort e => Par.bind (run_par hφ t e) fun _ _ ha => CSC_sort_indexes_par ha
  | _, .csrSum e => Par.bind (run_par hφ t e) fun _ _ ha => CSR_sum_duplicates_par t ha
  | _, .cscSum e => Par.bind (run_par hφ t e) fun _ _ ha => CSC_sum_duplicates_par t ha
  | _, .cooUpper e k => Par.bind (run_par hφ t e) fun _ _ ha => Coo_upper_par t ha k
  | _, .cooV e f => Par.bind (run_par hφ t e) fun _ _ ha => Par.bind (run_par hφ t f) fun _ _ hb => Coo_v_stack_par t ha hb
  | _, .cooV3 e f g => Par.bind (run_par hφ t e) fun _ _ ha => Par.bind (run_par hφ t f) fun _ _ hb => Par.bind (run_par hφ t g) fun _ _ hc => Coo_v_stack3_par t ha hb hc
  | _, .cooH e f => Par.bind (run_par hφ t e) fun _ _ ha => Par.bind (run_par hφ t f) fun _ _ hb => Coo_h_stack_par t ha hb
  | _, .cooH3 e f g => Par.bind (run_par hφ t e) fun _ _ ha => Par.bind (run_par hφ t f) fun _ _ hb => Par.bind (run_par hφ t g) fun _ _ hc => Coo_h_stack3_par t ha hb hc
  | _, .csrH e f => Par.bind (run_par hφ t e) fun _ _ ha => Par.bind (run_par hφ t f) fun _ _ hb => CSR_h_stack_par t ha hb
  | _, .cooBlock e f g h => Par.bind (run_par hφ t e) fun _ _ ha => Par.bind (run_par hφ t f) fun _ _ hb => Par.bind (run_par hφ t g) fun _ _ hc => Par.bind (run_par hφ t h) fun _ _ hd => Coo_compose_par t ha hb hc hd
  | _, .cscBlock e f g h => Par.bind (run_par hφ t e) fun _ _ ha => Par.bind (run_par hφ t f) fun _ _ hb => Par.bind (run_par hφ t g) fun _ _ hc => Par.bind (run_par hφ t h) fun _ _ hd => CSC_compose_par t ha hb hc hd
  | _, .csrSelect e ri ci => Par.bind (run_par hφ t e) fun _ _ ha => Par.bind (CSR_sum_duplicates_par t ha) fun _ _ hb => CSR_select_par t hb ri ci
  | _, .cscSelect e ri ci => Par.bind (run_par hφ t e) fun _ _ ha => Par.bind (CSC_sum_duplicates_par t ha) fun _ _ hb => CSC_select_par t hb ri ci

theorem run_par_rigid (hφ : ∀ x, SRel.r x (φ x)) (t : IdxTy) : {f : Fmt} → (e : Expr T f) → e.Rigid → Par VR (e.run t) ((e.mapValues φ).run t)
  | _, .coo _, _ => Par.pure (coo_map_rel hφ _)
  | _, .csr _, _ => Par.pure (csr_map_rel hφ _)
  | _, .csc _, _ => Par.pure (csc_map_rel hφ _)
  | _, .cooDiag _, _ => Coo_with_diagonal_par _ (vec_map_rel hφ _)
  | _, .csrDiag _, _ => CSR_with_diagonal_par _ (vec_map_rel hφ _)
  | _, .cscDiag _, _ => CSC_with_diagonal_par _ (vec_map_rel hφ _)
  | _, .cooEye _, _ => Coo_identity_par _ _
  | _, .cooZero _ _, _ => Par.pure ⟨rfl, rfl, rfl, rfl, LR.nil⟩
  | _, .csrZero _ _, _ => Par.pure ⟨rfl, rfl, rfl, rfl, LR.nil⟩
  | _, .cooDense _, h => False.elim h
  | _, .csrDense _, h => False.elim h
  | _, .cscDense _, h => False.elim h
  | _, .cooToCsr e, h => Par.bind (run_par_rigid hφ t e h) fun _ _ ha => Coo_to_csr_par t ha
  | _, .cooToCsc e, h => Par.bind (run_par_rigid hφ t e h) fun _ _ ha => Coo_to_csc_par t ha
  | _, .csrToCoo e, h => Par.bind (run_par_rigid hφ t e h) fun _ _ ha => CSR_to_coo_par t ha
  | _, .csrToCsc e, h => Par.bind (run_par_rigid hφ t e h) fun _ _ ha => CSR_to_csc_par t ha
  | _, .cscToCoo e, h => Par.bind (run_par_rigid hφ t e h) fun _ _ ha => CSC_to_coo_par t ha
  | _, .cscToCsr e, h => Par.bind (run_par_rigid hφ t e h) fun _ _ ha => CSC_to_csr_par t ha
  | _, .cooT e, h => Par.bind (run_par_rigid hφ t e h) fun _ _ ha => Par.pure (coo_transpose_rel ha)
  | _, .csrT e, h => Par.bind (run_par_rigid hφ t e h) fun _ _ ha => CSR_transpose_par ha
  | _, .cscT e, h => Par.bind (run_par_rigid hφ t e h) fun _ _ ha => CSC_transpose_par ha
  | _, .cooNeg e, h => Par.bind (run_par_rigid hφ t e h) fun _ _ ha => Coo_neg_par ha
  | _, .csrNeg e, h => Par.bind (run_par_rigid hφ t e h) fun _ _ ha => CSR_neg_par ha
  | _, .cscNeg e, h => Par.bind (run_par_rigid hφ t e h) fun _ _ ha => CSC_neg_par ha
  | _, .cooAdd e f, h => Par.bind (run_par_rigid hφ t e h.1) fun _ _ ha => Par.bind (run_par_rigid hφ t f h.2) fun _ _ hb => Coo_add_par t ha hb
  | _, .csrAdd _ _, h => False.elim h
  | _, .csrSub _ _, h => False.elim h
  | _, .cscAdd _ _, h => False.elim h
  | _, .cscSub _ _, h => False.elim h
  | _, .cscAddMethod _ _, h => False.elim h
  | _, .cscSubMethod _ _, h => False.elim h
  | _, .csrMul _ _, h => False.elim h
  | _, .cscMul _ _, h => False.elim h
  | _, .cscMulCsr _ _, h => False.elim h
  | _, .csrScale e s, h => Par.bind (run_par_rigid hφ t e h) fun _ _ ha => CSR_mul_scalar_par ha (hφ s)
  | _, .csrScaleL s e, h => Par.bind (run_par_rigid hφ t e h) fun _ _ ha => CSR_scalar_mul_par (hφ s) ha
  | _, .cscScale e s, h => Par.bind (run_par_rigid hφ t e h) fun _ _ ha => CSC_mul_scalar_par ha (hφ s)
  | _, .cscScaleL s e, h => Par.bind (run_par_rigid hφ t e h) fun _ _ ha => CSC_scalar_mul_par (hφ s) ha
  | _, .csrSort e, h => Par.bind (run_par_rigid hφ t e h) fun _ _ ha => CSR_sort_indexes_par ha
  | _, .cscSort e, h => Par.bind (run_par_rigid hφ t e h) fun _ _ ha => CSC_sort_indexes_par ha
  | _, .csrSum e, h => Par.bind (run_par_rigid hφ t e h) fun _ _ ha => CSR_sum_duplicates_par t ha
  | _, .cscSum e, h => Par.bind (run_par_rigid hφ t e h) fun _ _ ha => CSC_sum_duplicates_par t ha
  | _, .cooUpper e k, h => Par.bind (run_par_rigid hφ t e h) fun _ _ ha => Coo_upper_par t ha k
  | _, .cooV e f, h => Par.bind (run_par_rigid hφ t e h.1) fun _ _ ha => Par.bind (run_par_rigid hφ t f h.2) fun _ _ hb => Coo_v_stack_par t ha hb
  | _, .cooV3 e f g, h => Par.bind (run_par_rigid hφ t e h.1) fun _ _ ha => Par.bind (run_par_rigid hφ t f h.2.1) fun _ _ hb => Par.bind (run_par_rigid hφ t g h.2.2) fun _ _ hc => Coo_v_stack3_par t ha hb hc
  | _, .cooH e f, h => Par.bind (run_par_rigid hφ t e h.1) fun _ _ ha => Par.bind (run_par_rigid hφ t f h.2) fun _ _ hb => Coo_h_stack_par t ha hb
  | _, .cooH3 e f g, h => Par.bind (run_par_rigid hφ t e h.1) fun _ _ ha => Par.bind (run_par_rigid hφ t f h.2.1) fun _ _ hb => Par.bind (run_par_rigid hφ t g h.2.2) fun _ _ hc => Coo_h_stack3_par t ha hb hc
  | _, .csrH e f, h => Par.bind (run_par_rigid hφ t e h.1) fun _ _ ha => Par.bind (run_par_rigid hφ t f h.2) fun _ _ hb => CSR_h_stack_par t ha hb
  | _, .cooBlock e f g h, hr => Par.bind (run_par_rigid hφ t e hr.1) fun _ _ ha => Par.bind (run_par_rigid hφ t f hr.2.1) fun _ _ hb => Par.bind (run_par_rigid hφ t g hr.2.2.1) fun _ _ hc => Par.bind (run_par_rigid hφ t h hr.2.2.2) fun _ _ hd => Coo_compose_par t ha hb hc hd
  | _, .cscBlock e f g h, hr => Par.bind (run_par_rigid hφ t e hr.1) fun _ _ ha => Par.bind (run_par_rigid hφ t f hr.2.1) fun _ _ hb => Par.bind (run_par_rigid hφ t g hr.2.2.1) fun _ _ hc => Par.bind (run_par_rigid hφ t h hr.2.2.2) fun _ _ hd => CSC_compose_par t ha hb hc hd
  | _, .csrSelect e ri ci, h => Par.bind (run_par_rigid hφ t e h) fun _ _ ha => Par.bind (CSR_sum_duplicates_par t ha) fun _ _ hb => CSR_select_par t hb ri ci
  | _, .cscSelect e ri ci, h => Par.bind (run_par_rigid hφ t e h) fun _ _ ha => Par.bind (CSC_sum_duplicates_par t ha) fun _ _ hb => CSC_select_par t hb ri ci

end
end Sparse

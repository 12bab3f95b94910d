import Verif.Lemmas.TypedExpr
import Verif.Lemmas.TypedGraph
/-!
C79: the index values stored in a result are values of the index type, with or without overflow checks, whatever the arguments: they
need not be valid matrices. The model represents values of the index type by unbounded integers; C79 says that no operation leaves
the range of the type, so this representation is faithful.
-/
namespace Sparse
variable {T : Type} {t : IdxTy}

section
variable [Zero T] [Add T]

/-- **C79** for compressed sparse rows -/
theorem C79_csr [Mul T] [Sub T] [Neg T] [BEq T] :
    (∀ (A : List (List T)) r, CSR.from_dense t A = .ok r → r.HasType t.toIntTy) ∧
    (∀ (d : List T) r, CSR.with_diagonal t d = .ok r → r.HasType t.toIntTy) ∧
    (∀ m n, (CSR.with_size m n : CSR T).HasType t.toIntTy) ∧
    (∀ m n p j (x : List T) r, t.HasAll p → t.HasAll j → CSR.new m n p j x = .ok r → r.HasType t.toIntTy) ∧
    ∀ a : CSR T, a.HasType t.toIntTy →
      (∀ r, a.prune = .ok r → r.HasType t.toIntTy) ∧
      (∀ r, a.sort_indexes = .ok r → r.HasType t.toIntTy) ∧
      (∀ r, a.sum_duplicates t = .ok r → r.HasType t.toIntTy) ∧
      (∀ r, a.transpose = .ok r → r.HasType t.toIntTy) ∧
      (∀ r, a.to_csc t = .ok r → r.HasType t.toIntTy) ∧
      (∀ r, a.to_coo t = .ok r → r.HasType t.toIntTy) ∧
      (∀ ri ci r, a.select t ri ci = .ok r → r.HasType t.toIntTy) ∧
      (∀ r, a.neg = .ok r → r.HasType t.toIntTy) ∧
      (∀ s r, a.mul_scalar s = .ok r → r.HasType t.toIntTy) ∧
      (∀ s r, CSR.scalar_mul s a = .ok r → r.HasType t.toIntTy) ∧
      ∀ b : CSR T, b.HasType t.toIntTy →
        (∀ r, a.mat_mat t b = .ok r → r.HasType t.toIntTy) ∧
        (∀ r, a.mul t b = .ok r → r.HasType t.toIntTy) ∧
        (∀ r, a.add t b = .ok r → r.HasType t.toIntTy) ∧
        (∀ r, a.sub t b = .ok r → r.HasType t.toIntTy) ∧
        (∀ r, a.h_stack t b = .ok r → r.HasType t.toIntTy) :=
  ⟨fun _ => CSR_from_dense_ty, fun _ => CSR_with_diagonal_ty, fun _ _ => ⟨t.hasAll_zeros, t.hasAll_nil⟩,
    fun _ _ _ _ _ r hp hj hr => CSR_new_ty hp hj r hr,
    fun _ h => ⟨CSR_prune_ty h, CSR_sort_indexes_ty h, CSR_sum_duplicates_ty h, CSR_transpose_ty h, CSR_to_csc_ty h, CSR_to_coo_ty h,
      fun _ _ => CSR_select_ty h, CSR_neg_ty h, fun _ => CSR_mul_scalar_ty h, fun _ => CSR_scalar_mul_ty h,
      fun _ h' => ⟨CSR_mat_mat_ty, CSR_mul_ty, CSR_add_ty h h', CSR_sub_ty h h', CSR_h_stack_ty h h'⟩⟩⟩

/-- **C79** for compressed sparse columns -/
theorem C79_csc [Mul T] [Sub T] [Neg T] [BEq T] :
    (∀ (A : List (List T)) r, CSC.from_dense t A = .ok r → r.HasType t.toIntTy) ∧
    (∀ (d : List T) r, CSC.with_diagonal t d = .ok r → r.HasType t.toIntTy) ∧
    (∀ m n j p (x : List T) r, t.HasAll j → t.HasAll p → CSC.new m n j p x = .ok r → r.HasType t.toIntTy) ∧
    ∀ a : CSC T, a.HasType t.toIntTy →
      (∀ r, a.prune = .ok r → r.HasType t.toIntTy) ∧
      (∀ r, a.sort_indexes = .ok r → r.HasType t.toIntTy) ∧
      (∀ r, a.sum_duplicates t = .ok r → r.HasType t.toIntTy) ∧
      (∀ r, a.transpose = .ok r → r.HasType t.toIntTy) ∧
      (∀ r, a.to_csr t = .ok r → r.HasType t.toIntTy) ∧
      (∀ r, a.to_coo t = .ok r → r.HasType t.toIntTy) ∧
      (∀ ri ci r, a.select t ri ci = .ok r → r.HasType t.toIntTy) ∧
      (∀ r, a.neg = .ok r → r.HasType t.toIntTy) ∧
      (∀ s r, a.mul_scalar s = .ok r → r.HasType t.toIntTy) ∧
      (∀ s r, CSC.scalar_mul s a = .ok r → r.HasType t.toIntTy) ∧
      (∀ (b : CSR T) r, b.HasType t.toIntTy → a.mul_csr t b = .ok r → r.HasType t.toIntTy) ∧
      (∀ b : CSC T, b.HasType t.toIntTy →
        (∀ r, a.mat_mat t b = .ok r → r.HasType t.toIntTy) ∧
        (∀ r, a.mul t b = .ok r → r.HasType t.toIntTy) ∧
        (∀ r, a.add t b = .ok r → r.HasType t.toIntTy) ∧
        (∀ r, a.subtract t b = .ok r → r.HasType t.toIntTy) ∧
        (∀ r, a.add_op t b = .ok r → r.HasType t.toIntTy) ∧
        (∀ r, a.sub_op t b = .ok r → r.HasType t.toIntTy)) ∧
      ∀ b c d : CSC T, b.HasType t.toIntTy → c.HasType t.toIntTy → d.HasType t.toIntTy →
        ∀ r, CSC.compose t a b c d = .ok r → r.HasType t.toIntTy :=
  ⟨fun _ => CSC_from_dense_ty, fun _ => CSC_with_diagonal_ty, fun _ _ _ _ _ r hp hj hr => CSC_new_ty hp hj r hr,
    fun _ h => ⟨CSC_prune_ty h, CSC_sort_indexes_ty h, CSC_sum_duplicates_ty h, CSC_transpose_ty h, CSC_to_csr_ty h, CSC_to_coo_ty h,
      fun _ _ => CSC_select_ty h, CSC_neg_ty h, fun _ => CSC_mul_scalar_ty h, fun _ => CSC_scalar_mul_ty h,
      fun _ r h' hr => CSC_mul_csr_ty h' r hr,
      fun _ h' => ⟨CSC_mat_mat_ty, CSC_mul_ty, CSC_add_ty h h', CSC_subtract_ty h h', CSC_add_op_ty h h', CSC_sub_op_ty h h'⟩,
      fun _ _ _ hb hc hd => CSC_compose_ty h hb hc hd⟩⟩

/-- **C79** for coordinate matrices -/
theorem C79_coo [One T] [Neg T] [BEq T] :
    (∀ (A : List (List T)) r, Coo.from_dense t A = .ok r → r.HasType t.toIntTy) ∧
    (∀ (d : List T) r, Coo.with_diagonal t d = .ok r → r.HasType t.toIntTy) ∧
    (∀ n (r : Coo T), Coo.identity t n = .ok r → r.HasType t.toIntTy) ∧
    (∀ m n i j (x : List T) r, t.HasAll i → t.HasAll j → Coo.new m n i j x = .ok r → r.HasType t.toIntTy) ∧
    ∀ a : Coo T, a.HasType t.toIntTy →
      (∀ i j v, t.Has i → t.Has j → (a.push i j v).HasType t.toIntTy) ∧
      (∀ i j v, t.HasAll i → t.HasAll j → (a.extend i j v).HasType t.toIntTy) ∧
      a.transpose.HasType t.toIntTy ∧
      (∀ r, a.to_csr t = .ok r → r.HasType t.toIntTy) ∧
      (∀ r, a.to_csc t = .ok r → r.HasType t.toIntTy) ∧
      (∀ k r, a.upper t k = .ok r → r.HasType t.toIntTy) ∧
      (∀ r, a.neg = .ok r → r.HasType t.toIntTy) ∧
      ∀ b c : Coo T, b.HasType t.toIntTy → c.HasType t.toIntTy →
        (∀ r, a.add t b = .ok r → r.HasType t.toIntTy) ∧
        (∀ r, a.v_stack t b = .ok r → r.HasType t.toIntTy) ∧
        (∀ r, a.h_stack t b = .ok r → r.HasType t.toIntTy) ∧
        (∀ r, Coo.v_stack3 t a b c = .ok r → r.HasType t.toIntTy) ∧
        (∀ r, Coo.h_stack3 t a b c = .ok r → r.HasType t.toIntTy) ∧
        (∀ d r, d.HasType t.toIntTy → Coo.compose t a b c d = .ok r → r.HasType t.toIntTy) ∧
        (∀ d e f g h i r, d.HasType t.toIntTy → e.HasType t.toIntTy → f.HasType t.toIntTy → g.HasType t.toIntTy → h.HasType t.toIntTy →
          i.HasType t.toIntTy → Coo.compose3 t a b c d e f g h i = .ok r → r.HasType t.toIntTy) :=
  ⟨fun _ => Coo_from_dense_ty, fun _ => Coo_with_diagonal_ty, fun _ => Coo_identity_ty,
    fun _ _ _ _ _ r hp hj hr => Coo_new_ty hp hj r hr,
    fun _ h => ⟨fun _ _ _ hi hj => ⟨t.hasAll_append.2 ⟨h.1, t.hasAll_single.2 hi⟩, t.hasAll_append.2 ⟨h.2, t.hasAll_single.2 hj⟩⟩,
      fun _ _ _ hi hj => ⟨t.hasAll_append.2 ⟨h.1, hi⟩, t.hasAll_append.2 ⟨h.2, hj⟩⟩, ⟨h.2, h.1⟩, Coo_to_csr_ty h, Coo_to_csc_ty h,
      fun _ => Coo_upper_ty h, Coo_neg_ty h,
      fun _ _ hb hc => ⟨Coo_add_ty h hb, Coo_v_stack_ty h hb, Coo_h_stack_ty h hb, Coo_v_stack3_ty h hb hc, Coo_h_stack3_ty h hb hc,
        fun _ r hd hr => Coo_compose_ty h hb hc hd r hr,
        fun _ _ _ _ _ _ r hd he hf hg hh hi hr => Coo_compose3_ty h hb hc hd he hf hg hh hi r hr⟩⟩⟩

/-- **C79** for the dictionary of keys (`es` is the order in which the map is traversed) -/
theorem C79_dok [Sub T] [BEq T] :
    (∀ (A : List (List T)) r, DoK.from_dense t A = .ok r → r.values.HasType t.toIntTy) ∧
    ∀ d : DoK T, d.values.HasType t.toIntTy →
      (∀ i j v r, t.Has i → t.Has j → d.set t i j v = .ok r → r.1.values.HasType t.toIntTy) ∧
      (∀ i j v r, t.Has i → t.Has j → d.add t i j v = .ok r → r.1.values.HasType t.toIntTy) ∧
      (∀ i j v r, t.Has i → t.Has j → d.sub t i j v = .ok r → r.1.values.HasType t.toIntTy) ∧
      ∀ es, es.Perm d.values →
        (∀ r, d.to_coo es = .ok r → r.HasType t.toIntTy) ∧
        (∀ r, d.to_csr t es = .ok r → r.HasType t.toIntTy) ∧
        (∀ r, d.to_csc t es = .ok r → r.HasType t.toIntTy) :=
  ⟨fun _ => DoK_from_dense_ty,
    fun _ h => ⟨fun _ _ _ r hi hj hr => DoK_set_ty h hi hj r hr, fun _ _ _ r hi hj hr => DoK_set_ty h hi hj r hr,
      fun _ _ _ r hi hj hr => DoK_set_ty h hi hj r hr,
      fun es hp => by
        have he : es.HasType t.toIntTy := fun e he => h e (hp.mem_iff.1 he)
        exact ⟨DoK_to_coo_ty he, DoK_to_csr_ty he, DoK_to_csc_ty he⟩⟩⟩

/-- **C79** for the kernels that the matrix types do not call, and for the element-wise operations with any operator -/
theorem C79_kernels [BEq T] {T2 : Type} {a_p a_j : List Int} {a_x : List T} (h1 : t.HasAll a_p) (h2 : t.HasAll a_j) :
    (∀ n_row r, csr_eliminate_zeros t n_row a_p a_j a_x = .ok r → t.HasAll r.1 ∧ t.HasAll r.2.1) ∧
    (∀ i0 i1 j0 j1 b_p b_j (b_x : List T) r, t.HasAll b_p → t.HasAll b_j →
      get_csr_submatrix t a_p a_j a_x i0 i1 j0 j1 b_p b_j b_x = .ok r → t.HasAll r.1 ∧ t.HasAll r.2.1) ∧
    (∀ n rows b_j (b_x : List T) r, t.HasAll b_j → csr_row_index n rows a_p a_j a_x b_j b_x = .ok r → t.HasAll r.1) ∧
    (∀ fuel start stop step b_j (b_x : List T) r, t.HasAll b_j →
      csr_row_slice fuel start stop step a_p a_j a_x b_j b_x = .ok r → t.HasAll r.1) ∧
    (∀ n_idx cols n_row n_col offs b_p r, t.HasAll offs → t.HasAll b_p →
      csr_column_index1 t n_idx cols n_row n_col a_p a_j offs b_p = .ok r → t.HasAll r.1 ∧ t.HasAll r.2) ∧
    (∀ order offs nnz b_j (b_x : List T) r, t.HasAll order → t.HasAll offs → t.HasAll b_j →
      csr_column_index2 order offs nnz a_j a_x b_j b_x = .ok r → t.HasAll r.1) ∧
    ∀ n_row n_col b_p b_j (b_x : List T) c_p c_j (c_x : List T2) (op : T → T → T2) nz r,
      t.HasAll b_p → t.HasAll b_j → t.HasAll c_p → t.HasAll c_j →
      csr_binop_csr t n_row n_col a_p a_j a_x b_p b_j b_x c_p c_j c_x op nz = .ok r → t.HasAll r.1 ∧ t.HasAll r.2.1 :=
  ⟨fun _ r hr => have h := csr_eliminate_zeros_ty h1 h2 r hr; ⟨h.1, h.2.1⟩,
    fun _ _ _ _ _ _ _ r h3 h4 hr => have h := get_csr_submatrix_ty h1 h2 h3 h4 r hr; ⟨h.1, h.2.1⟩,
    fun _ _ _ _ r h3 hr => (csr_row_index_ty h1 h2 h3 r hr).1,
    fun _ _ _ _ _ _ r h3 hr => (csr_row_slice_ty h1 h2 h3 r hr).1,
    fun _ _ _ _ _ _ r h3 h4 hr => csr_column_index1_ty h1 h2 h3 h4 r hr,
    fun _ _ _ _ _ r h3 h4 h5 hr => (csr_column_index2_ty h3 h4 h2 h5 r hr).1,
    fun _ _ _ _ _ _ _ _ _ _ r h3 h4 h5 h6 hr => have h := csr_binop_csr_ty h1 h2 h3 h4 h5 h6 r hr; ⟨h.1, h.2.1⟩⟩

end

/-- **C79** for the component numbers: the flags are values of the flag type, the count is a value of the index type -/
theorem C79_components {ft : IdxTy} (fuel : Nat) (a : CSR T) :
    ∀ r, a.connected_components t ft fuel = .ok r → t.Has r.1 ∧ ft.HasAll r.2 := CSR_connected_components_ty

/-- **C79** for every expression -/
theorem C79_expressions [CommRing T] [DecidableEq T] {f : Fmt} (e : Expr T f) (h : e.Given t.toIntTy) :
    ∀ r, e.eval t = .ok r → r.HasType t.toIntTy := e.eval_ty h

/-- without overflow checks an index wraps around: it is wrong, but it is a value of the type. 200 + 100 is 44 in `u8`. -/
example :
    let a : Coo Int := ⟨200, 1, [199], [0], [5]⟩
    let b : Coo Int := ⟨200, 1, [100], [0], [7]⟩
    a.HasType .u8 ∧ b.HasType .u8 ∧ Coo.v_stack IntTy.u8.unchecked a b = .ok ⟨400, 1, [199, 44], [0, 0], [5, 7]⟩ ∧
    (Coo.mk 400 1 [199, 44] [0, 0] [5, 7] : Coo Int).HasType .u8 := by
  simp only [Coo.HasType, IntTy.HasAll, IntTy.Has]
  decide +kernel

end Sparse

import Verif.Lemmas.ParamExpr
import Verif.Props.Complex
import Mathlib.Tactic.Ring
/-! Properties C86 and C87: programs on other scalars; what depends on the values and what does not. -/
namespace Sparse

section
variable {T T' : Type}

theorem Par.to_map {R : α → β → Prop} {g : α → β} {m : M α} {m' : M β} (hR : ∀ a b, R a b → b = g a) (h : Par R m m') :
    m' = m.map g := by
  match m, m', h with
  | .error _, .error _, h => exact congrArg Except.error h.symm
  | .ok _, .ok _, h => exact congrArg Except.ok (hR _ _ h)

theorem LR.to_map {φ : α → β} {r : α → β → Prop} (hr : ∀ x y, r x y → y = φ x) {l : List α} {l' : List β}
    (h : LR r l l') : l' = l.map φ := by
  induction h with
  | nil => rfl
  | cons hx _ ih => rw [List.map_cons, ← ih, hr _ _ hx]

theorem LR.of_length {l : List α} {l' : List β} (h : l.length = l'.length) : LR (fun _ _ => True) l l' := by
  induction l generalizing l' with
  | nil =>
    cases l' with
    | nil => exact .nil
    | cons _ _ => exact absurd h (by simp)
  | cons x l ih =>
    cases l' with
    | nil => exact absurd h (by simp)
    | cons y l' => exact .cons True.intro (ih (by simpa using h))

section
variable [SRel T T'] {φ : T → T'} (hr : ∀ (x : T) (y : T'), SRel.r x y → y = φ x)
include hr
theorem vec_to_map (x : List T) (x' : List T') (h : rel x x') : x' = x.map φ := LR.to_map hr h
theorem dense_to_map (A : List (List T)) (A' : List (List T')) (h : rel A A') : A' = A.map (·.map φ) :=
  LR.to_map (vec_to_map hr) h
theorem val_to_map : {f : Fmt} → (a : Val T f) → (b : Val T' f) → VR a b → b = Val.mapValues φ a
  | .coo, ⟨_, _, _, _, _⟩, ⟨_, _, _, _, _⟩, ⟨h1, h2, h3, h4, h5⟩ => by
    simp only [Val.mapValues, Coo.mapValues]
    congr 1
    exacts [h1.symm, h2.symm, h3.symm, h4.symm, LR.to_map hr h5]
  | .csr, ⟨_, _, _, _, _⟩, ⟨_, _, _, _, _⟩, ⟨h1, h2, h3, h4, h5⟩ => by
    simp only [Val.mapValues, CSR.mapValues]
    congr 1
    exacts [h1.symm, h2.symm, h3.symm, h4.symm, LR.to_map hr h5]
  | .csc, ⟨_, _, _, _, _⟩, ⟨_, _, _, _, _⟩, ⟨h1, h2, h3, h4, h5⟩ => by
    simp only [Val.mapValues, CSC.mapValues]
    congr 1
    exacts [h1.symm, h2.symm, h3.symm, h4.symm, LR.to_map hr h5]
end

/-- the relation of a scalar and its image -/
@[reducible] def mapRel (φ : T → T') : SRel T T' := ⟨fun x y => y = φ x⟩

section
variable [Zero T] [One T] [Add T] [Sub T] [Neg T] [Mul T] [BEq T] [Zero T'] [One T'] [Add T'] [Sub T'] [Neg T'] [Mul T'] [BEq T']
variable {φ : T → T'}

/-- C86. Changing the scalars commutes with every program: if `φ` preserves `0`, `1`, the arithmetic and the test
`!= 0`, then the program run on the images returns exactly the image of its result, the same arrays in the same
order, and it panics or returns `Err` exactly when the original does. Nothing is assumed of the arithmetic or of the
given matrices. -/
theorem C86_programs (hφ : ScalarMap φ) (t : IdxTy) {f : Fmt} (e : Expr T f) :
    (e.mapValues φ).run t = (e.run t).map (Val.mapValues φ) := by
  let : SRel T T' := mapRel φ
  have : SZero T T' := ⟨hφ.zero.symm⟩
  have : SOne T T' := ⟨hφ.one.symm⟩
  have : SAdd T T' := ⟨fun h h' => by change _ = _ at h; change _ = _ at h'; change _ = _; rw [hφ.add, h, h']⟩
  have : SSub T T' := ⟨fun h h' => by change _ = _ at h; change _ = _ at h'; change _ = _; rw [hφ.sub, h, h']⟩
  have : SMul T T' := ⟨fun h h' => by change _ = _ at h; change _ = _ at h'; change _ = _; rw [hφ.mul, h, h']⟩
  have : SNeg T T' := ⟨fun h => by change _ = _ at h; change _ = _; rw [hφ.neg, h]⟩
  have : SNz T T' := ⟨fun h => by change _ = _ at h; rw [h, hφ.ne_zero]⟩
  exact Par.to_map (val_to_map fun _ _ h => h) (run_par (fun _ => rfl) t e)

/-- C86, observers: `to_dense`, `diagonal`, `mat_vec`, `matrix * vector`, `get`. -/
theorem C86_observers (hφ : ScalarMap φ) (t : IdxTy) :
    (∀ a : Coo T, (a.mapValues φ).to_dense = a.to_dense.map (·.map (·.map φ)) ∧
      (a.mapValues φ).diagonal = a.diagonal.map (·.map φ)) ∧
    (∀ a : CSR T, (a.mapValues φ).to_dense = a.to_dense.map (·.map (·.map φ)) ∧
      (a.mapValues φ).diagonal = a.diagonal.map (·.map φ) ∧
      (∀ x, (a.mapValues φ).mat_vec (x.map φ) = (a.mat_vec x).map (·.map φ)) ∧
      (∀ x, (a.mapValues φ).mul_vec (x.map φ) = (a.mul_vec x).map (·.map φ)) ∧
      (∀ i j, (a.mapValues φ).get i j = (a.get i j).map φ)) ∧
    (∀ a : CSC T, (a.mapValues φ).to_dense t = (a.to_dense t).map (·.map (·.map φ)) ∧
      (a.mapValues φ).diagonal = a.diagonal.map (·.map φ) ∧
      (∀ x, (a.mapValues φ).mat_vec (x.map φ) = (a.mat_vec x).map (·.map φ)) ∧
      (∀ x, (a.mapValues φ).mul_vec (x.map φ) = (a.mul_vec x).map (·.map φ))) := by
  let : SRel T T' := mapRel φ
  have : SZero T T' := ⟨hφ.zero.symm⟩
  have : SAdd T T' := ⟨fun h h' => by change _ = _ at h; change _ = _ at h'; change _ = _; rw [hφ.add, h, h']⟩
  have : SMul T T' := ⟨fun h h' => by change _ = _ at h; change _ = _ at h'; change _ = _; rw [hφ.mul, h, h']⟩
  have hr : ∀ (x : T) (y : T'), SRel.r x y → y = φ x := fun _ _ h => h
  have hm : ∀ x : T, SRel.r x (φ x) := fun _ => rfl
  refine ⟨fun a => ⟨?_, ?_⟩, fun a => ⟨?_, ?_, fun x => ?_, fun x => ?_, fun i j => ?_⟩, fun a => ⟨?_, ?_, fun x => ?_, fun x => ?_⟩⟩
  · exact Par.to_map (dense_to_map hr) (Coo_to_dense_par (coo_map_rel hm a))
  · exact Par.to_map (vec_to_map hr) (Coo_diagonal_par (coo_map_rel hm a))
  · exact Par.to_map (dense_to_map hr) (CSR_to_dense_par (csr_map_rel hm a))
  · exact Par.to_map (vec_to_map hr) (CSR_diagonal_par (csr_map_rel hm a))
  · exact Par.to_map (vec_to_map hr) (CSR_mat_vec_par (csr_map_rel hm a) (vec_map_rel hm x))
  · exact Par.to_map (vec_to_map hr) (CSR_mul_vec_par (csr_map_rel hm a) (vec_map_rel hm x))
  · exact Par.to_map hr (CSR_get_par (csr_map_rel hm a) i j)
  · exact Par.to_map (dense_to_map hr) (CSC_to_dense_par t (csc_map_rel hm a))
  · exact Par.to_map (vec_to_map hr) (CSC_diagonal_par (csc_map_rel hm a))
  · exact Par.to_map (vec_to_map hr) (CSC_mat_vec_par (csc_map_rel hm a) (vec_map_rel hm x))
  · exact Par.to_map (vec_to_map hr) (CSC_mul_vec_par (csc_map_rel hm a) (vec_map_rel hm x))
end

/-- over a commutative ring `run` is the evaluation of SpecExpr -/
theorem Expr.run_eq_eval [CommRing T] [DecidableEq T] (t : IdxTy) {f : Fmt} (e : Expr T f) : e.run t = e.eval t := by
  induction e <;> simp only [Expr.run, Expr.eval, *]

/-- an injective homomorphism of rings preserves all that programs use -/
theorem ScalarMap.ofRingHom [CommRing T] [DecidableEq T] [CommRing T'] [DecidableEq T'] (φ : T →+* T') (h : Function.Injective φ) :
    ScalarMap (φ : T → T') where
  zero := map_zero φ
  one := map_one φ
  add := map_add φ
  sub := map_sub φ
  neg := map_neg φ
  mul := map_mul φ
  ne_zero x := by
    by_cases hx : x = 0
    · subst hx
      rw [map_zero]
      simp
    · have : φ x ≠ 0 := fun h0 => hx (h (h0.trans (map_zero φ).symm))
      rw [bne_iff_ne.2 hx, bne_iff_ne.2 this]

/-- C86 for rings: an injective homomorphism commutes with every program. -/
theorem C86_rings [CommRing T] [DecidableEq T] [CommRing T'] [DecidableEq T'] (φ : T →+* T') (h : Function.Injective φ)
    (t : IdxTy) {f : Fmt} (e : Expr T f) : (e.mapValues φ).eval t = (e.eval t).map (Val.mapValues φ) := by
  rw [← Expr.run_eq_eval, ← Expr.run_eq_eval]
  exact C86_programs (ScalarMap.ofRingHom φ h) t e

/-! ### complex scalars -/

section
variable {F : Type}

instance [Zero F] [One F] : One (Cx F) := ⟨⟨1, 0⟩⟩
instance [Sub F] : Sub (Cx F) := ⟨fun x y => ⟨x.re - y.re, x.im - y.im⟩⟩
/-- the product of `num_complex` -/
instance [Add F] [Sub F] [Mul F] : Mul (Cx F) := ⟨fun x y => ⟨x.re * y.re - x.im * y.im, x.re * y.im + x.im * y.re⟩⟩

theorem Cx.add_re [Add F] (x y : Cx F) : (x + y).re = x.re + y.re := rfl
theorem Cx.add_im [Add F] (x y : Cx F) : (x + y).im = x.im + y.im := rfl
theorem Cx.mul_re [Add F] [Sub F] [Mul F] (x y : Cx F) : (x * y).re = x.re * y.re - x.im * y.im := rfl
theorem Cx.mul_im [Add F] [Sub F] [Mul F] (x y : Cx F) : (x * y).im = x.re * y.im + x.im * y.re := rfl

instance [CommRing F] : CommRing (Cx F) where
  add_assoc := add_assoc
  zero_add := zero_add
  add_zero := add_zero
  add_comm := add_comm
  nsmul := nsmulRec
  zsmul := zsmulRec
  neg_add_cancel x := Cx.ext' (neg_add_cancel x.re) (neg_add_cancel x.im)
  sub_eq_add_neg x y := Cx.ext' (sub_eq_add_neg x.re y.re) (sub_eq_add_neg x.im y.im)
  mul_assoc x y z := Cx.ext' (by simp only [Cx.mul_re, Cx.mul_im]; ring) (by simp only [Cx.mul_re, Cx.mul_im]; ring)
  left_distrib x y z := Cx.ext' (by simp only [Cx.mul_re, Cx.add_re, Cx.add_im]; ring)
    (by simp only [Cx.mul_im, Cx.add_re, Cx.add_im]; ring)
  right_distrib x y z := Cx.ext' (by simp only [Cx.mul_re, Cx.add_re, Cx.add_im]; ring)
    (by simp only [Cx.mul_im, Cx.add_re, Cx.add_im]; ring)
  mul_comm x y := Cx.ext' (by simp only [Cx.mul_re]; ring) (by simp only [Cx.mul_im]; ring)
  one_mul x := Cx.ext' (by change 1 * x.re - 0 * x.im = _; ring) (by change 1 * x.im + 0 * x.re = _; ring)
  mul_one x := Cx.ext' (by change x.re * 1 - x.im * 0 = _; ring) (by change x.re * 0 + x.im * 1 = _; ring)
  zero_mul x := Cx.ext' (by change 0 * x.re - 0 * x.im = (0 : F); ring) (by change 0 * x.im + 0 * x.re = (0 : F); ring)
  mul_zero x := Cx.ext' (by change x.re * 0 - x.im * 0 = (0 : F); ring) (by change x.re * 0 + x.im * 0 = (0 : F); ring)

/-- conjugation of scalars -/
def Cx.conjRing [CommRing F] : Cx F →+* Cx F where
  toFun := Cx.conj
  map_zero' := Cx.ext' rfl neg_zero
  map_add' x y := Cx.ext' rfl (neg_add x.im y.im)
  map_one' := Cx.ext' rfl neg_zero
  map_mul' x y := Cx.ext' (by change x.re * y.re - x.im * y.im = x.re * y.re - -x.im * -y.im; ring)
    (by change -(x.re * y.im + x.im * y.re) = x.re * -y.im + -x.im * y.re; ring)

/-- `x + 0 i` -/
def Cx.ofRealRing [CommRing F] : F →+* Cx F where
  toFun x := ⟨x, 0⟩
  map_zero' := rfl
  map_add' x y := Cx.ext' rfl (add_zero 0).symm
  map_one' := rfl
  map_mul' x y := Cx.ext' (by change x * y = x * y - 0 * 0; ring) (by change 0 = x * 0 + 0 * y; ring)

/-- C86 for the conjugate: conjugating the matrices and scalars a complex program is given conjugates its result;
with the crate's own `conj`, the program on the conjugates returns the `conj` of its result. -/
theorem C86_conj [CommRing F] [DecidableEq F] (t : IdxTy) :
    (∀ (f : Fmt) (e : Expr (Cx F) f), (e.mapValues fun z => (⟨z.re, -z.im⟩ : Cx F)).eval t = (e.eval t).map (Val.mapValues fun z => (⟨z.re, -z.im⟩ : Cx F))) ∧
    (∀ (e : Expr (Cx F) .csr) r, e.eval t = .ok r → r.WF t.toIntTy → (e.mapValues fun z => (⟨z.re, -z.im⟩ : Cx F)).eval t = CSR.conj r) ∧
    (∀ (e : Expr (Cx F) .csc) r, e.eval t = .ok r → r.WF t.toIntTy → (e.mapValues fun z => (⟨z.re, -z.im⟩ : Cx F)).eval t = CSC.conj r) ∧
    (∀ (e : Expr (Cx F) .coo) r, e.eval t = .ok r → r.WF t.toIntTy → (e.mapValues fun z => (⟨z.re, -z.im⟩ : Cx F)).eval t = Coo.conj r) := by
  have h : ∀ (f : Fmt) (e : Expr (Cx F) f), (e.mapValues Cx.conj).eval t = (e.eval t).map (Val.mapValues Cx.conj) := fun f e =>
    C86_rings (Cx.conjRing (F := F)) (fun x y hxy => by
      have := congrArg Cx.conj (show Cx.conj x = Cx.conj y from hxy)
      rwa [Cx.conj_conj, Cx.conj_conj] at this) t e
  change (∀ (f : Fmt) (e : Expr (Cx F) f), (e.mapValues Cx.conj).eval t = (e.eval t).map (Val.mapValues Cx.conj)) ∧
    (∀ (e : Expr (Cx F) .csr) r, e.eval t = .ok r → r.WF t.toIntTy → (e.mapValues Cx.conj).eval t = CSR.conj r) ∧
    (∀ (e : Expr (Cx F) .csc) r, e.eval t = .ok r → r.WF t.toIntTy → (e.mapValues Cx.conj).eval t = CSC.conj r) ∧
    (∀ (e : Expr (Cx F) .coo) r, e.eval t = .ok r → r.WF t.toIntTy → (e.mapValues Cx.conj).eval t = Coo.conj r)
  refine ⟨h, fun e r hr hw => ?_, fun e r hr hw => ?_, fun e r hr hw => ?_⟩
  · rw [h, hr, CSR.conj_ok hw]; rfl
  · rw [h, hr, CSC.conj_ok hw]; rfl
  · rw [h, hr, Coo.conj_ok hw]; rfl

/-- C86 for real matrices among complex ones: a complex program on matrices with zero imaginary parts computes what
the real program computes, with zero imaginary parts. -/
theorem C86_real [CommRing F] [DecidableEq F] (t : IdxTy) {f : Fmt} (e : Expr F f) :
    (e.mapValues fun x => (⟨x, 0⟩ : Cx F)).eval t = (e.eval t).map (Val.mapValues fun x => ⟨x, 0⟩) :=
  C86_rings (Cx.ofRealRing (F := F)) (fun _ _ h => congrArg Cx.re h) t e
end

/-- a program over the Gaussian integers: `A * A + A` with `A = [[i, 1], [0, 2 - i]]`, where the sum of the entries
at (0, 0) is `-1 + i` -/
example :
    let a : CSR (Cx Int) := ⟨2, 2, [0, 2, 3], [0, 1, 1], [⟨0, 1⟩, ⟨1, 0⟩, ⟨2, -1⟩]⟩
    let e : Expr (Cx Int) .csr := .csrAdd (.csrMul (.csr a) (.csr a)) (.csr a)
    a.WF .i32 ∧ (e.eval IntTy.i32.unchecked >>= CSR.to_dense) = .ok [[⟨-1, 1⟩, ⟨3, 0⟩], [0, ⟨5, -5⟩]] ∧
    ((e.mapValues Cx.conj).eval IntTy.i32.unchecked >>= CSR.to_dense) = .ok [[⟨-1, -1⟩, ⟨3, 0⟩], [0, ⟨5, 5⟩]] :=
  ⟨CSR.wf_of (by decide), by decide +kernel, by decide +kernel⟩

/-- the test `!= 0` must be preserved: reducing `[1] + [1]` modulo 2 drops the entry, so that the arrays differ -/
example : let a : CSR Int := ⟨1, 1, [0, 1], [0], [1]⟩
    let e : Expr Int .csr := .csrAdd (.csr a) (.csr a)
    (e.eval IntTy.i32.unchecked).map CSR.rowptr = .ok [0, 1] ∧
    ((e.mapValues (BitVec.ofInt 1)).eval IntTy.i32.unchecked).map CSR.rowptr = .ok [0, 0] := by decide +kernel

/-! ### patterns -/

theorem Expr.rigid_mapValues (φ : T → T') {f : Fmt} (e : Expr T f) : (e.mapValues φ).Rigid ↔ e.Rigid := by
  induction e <;> simp only [Expr.mapValues, Expr.Rigid, *]

theorem rigid_pattern [Zero T] [One T] [Add T] [Sub T] [Neg T] [Mul T] [BEq T] (t : IdxTy) {f : Fmt} (e : Expr T f)
    (h : e.Rigid) : e.pattern.run t = (e.run t).map Val.pattern := by
  let : SRel T Unit := mapRel fun _ => ()
  have : SZero T Unit := ⟨rfl⟩
  have : SOne T Unit := ⟨rfl⟩
  have : SAdd T Unit := ⟨fun _ _ => rfl⟩
  have : SSub T Unit := ⟨fun _ _ => rfl⟩
  have : SMul T Unit := ⟨fun _ _ => rfl⟩
  have : SNeg T Unit := ⟨fun _ => rfl⟩
  exact Par.to_map (val_to_map fun _ _ h => h) (run_par_rigid (fun _ => rfl) t e h)

/-- C87. The pattern of a result depends on patterns only: two programs that differ in their values alone, whose
scalars may even be of different types with any arithmetic, and that use no operation which tests for zero, return
matrices of the same shape with the same index arrays, or panic or fail in the same way. -/
theorem C87_programs [Zero T] [One T] [Add T] [Sub T] [Neg T] [Mul T] [BEq T]
    [Zero T'] [One T'] [Add T'] [Sub T'] [Neg T'] [Mul T'] [BEq T'] (t : IdxTy) {f : Fmt} (e : Expr T f) (e' : Expr T' f)
    (h : e.Rigid) (hp : e.pattern = e'.pattern) : (e.run t).map Val.pattern = (e'.run t).map Val.pattern := by
  have h' : e'.Rigid := by
    rw [← Expr.rigid_mapValues fun _ => ()]
    change e'.pattern.Rigid
    rw [← hp]
    exact (Expr.rigid_mapValues _ e).2 h
  rw [← rigid_pattern t e h, ← rigid_pattern t e' h', hp]

/-- C87, graphs: connected components (both functions) and the order of a depth-first search depend on the pattern
only. -/
theorem C87_graph [Zero T] [Zero T'] (t ft : IdxTy) (fuel : Nat) (a : CSR T) (b : CSR T')
    (hp : (Val.pattern (f := .csr) a) = Val.pattern (f := .csr) b) :
    (∀ d c, connected_components t fuel a d c = connected_components t fuel b d c) ∧
    CSR.connected_components t ft fuel a = CSR.connected_components t ft fuel b ∧
    (∀ i d, depth_first_order t fuel a i d = depth_first_order t fuel b i d) := by
  let : SRel T T' := ⟨fun _ _ => True⟩
  have : SZero T T' := ⟨True.intro⟩
  obtain ⟨m, n, p, j, x⟩ := a
  obtain ⟨m', n', p', j', x'⟩ := b
  simp only [Val.pattern, Val.mapValues, CSR.mapValues, CSR.mk.injEq] at hp
  obtain ⟨rfl, rfl, rfl, rfl, hx⟩ := hp
  have hl : x.length = x'.length := by simpa using congrArg List.length hx
  have hrel : rel (⟨m, n, p, j, x⟩ : CSR T) (⟨m, n, p, j, x'⟩ : CSR T') := ⟨rfl, rfl, rfl, rfl, LR.of_length hl⟩
  have key : ∀ {γ : Type} (k : List Int → List Int → M γ),
      ((⟨m, n, p, j, x⟩ : CSR T).transpose >>= fun u => u.to_csr t >>= fun g => k g.colidx g.rowptr) =
      ((⟨m, n, p, j, x'⟩ : CSR T').transpose >>= fun u => u.to_csr t >>= fun g => k g.colidx g.rowptr) := by
    intro γ k
    have : Par Eq ((⟨m, n, p, j, x⟩ : CSR T).transpose >>= fun u => u.to_csr t >>= fun g => k g.colidx g.rowptr)
        ((⟨m, n, p, j, x'⟩ : CSR T').transpose >>= fun u => u.to_csr t >>= fun g => k g.colidx g.rowptr) := by
      refine Par.bind (CSR_transpose_par hrel) fun u u' hu => Par.bind (CSC_to_csr_par t hu) fun g g' hg => ?_
      rw [hg.2.2.1, hg.2.2.2.1]
      exact Par.eq _
    have := Par.to_map (g := id) (fun _ _ h => h.symm) this
    rw [this]
    cases ((⟨m, n, p, j, x⟩ : CSR T).transpose >>= fun u => u.to_csr t >>= fun g => k g.colidx g.rowptr) <;> rfl
  refine ⟨fun d c => ?_, rfl, fun i d => ?_⟩
  · unfold connected_components validate_graph
    dsimp only
    have e := key fun u v => connected_components_undirected fuel n j p u v
    rw [e]
  · unfold depth_first_order validate_graph
    dsimp only
    have e := key fun u v => depth_first_undirected fuel i j p u v (List.replicate n 0) (List.replicate n none) >>= fun s =>
      s.1.slice 0 s.2.2 >>= fun l => pure (l, s.2.1)
    rw [e]

/-- the negated transpose by rows of a matrix with a duplicate and a stored zero, over the integers and over bit
patterns of 8 bits (where the duplicates sum to zero): the same index array -/
example : let e : Expr Int .csr := .cscToCsr (.cscNeg (.csrT (.csr ⟨2, 2, [0, 2, 3], [1, 1, 0], [2, 3, 0]⟩)))
    let e' : Expr (BitVec 8) .csr := .cscToCsr (.cscNeg (.csrT (.csr ⟨2, 2, [0, 2, 3], [1, 1, 0], [200, 56, 7]⟩)))
    e.Rigid ∧ e.pattern = e'.pattern ∧ (e.run IntTy.i32.unchecked).map CSR.colidx = .ok [1, 0, 0] ∧
    (e'.run IntTy.i32.unchecked).map CSR.colidx = .ok [1, 0, 0] :=
  ⟨trivial, rfl, by decide +kernel, by decide +kernel⟩

/-- a stored zero is an edge: with it the two vertices are strongly connected -/
example : let a : CSR Int := ⟨2, 2, [0, 1, 2], [1, 0], [3, 0]⟩
    let b : CSR Bool := ⟨2, 2, [0, 1, 2], [1, 0], [true, true]⟩
    Val.pattern (f := .csr) a = Val.pattern (f := .csr) b ∧
    (connected_components IntTy.i32.unchecked 100 a true .strong).map Prod.fst = .ok 1 ∧
    (connected_components IntTy.i32.unchecked 100 (⟨2, 2, [0, 1, 1], [1], [3]⟩ : CSR Int) true .strong).map Prod.fst = .ok 2 :=
  ⟨rfl, by decide +kernel, by decide +kernel⟩
end
end Sparse

import Verif.SpecWrap
import Verif.Props.Widen
import Verif.Props.Dense
/-!
Integer scalars in a build without overflow checks (C77): results are exact modulo `2 ^ w`.
-/
set_option linter.unusedSimpArgs false

namespace Sparse
variable {T T' : Type} {t : IntTy}

theorem rowOf_mapValues (g : T → T') (p j : List Int) (x : List T) (i : Nat) :
    rowOf p j (x.map g) i = (rowOf p j x i).map fun e => (e.1, g e.2) := by
  unfold rowOf
  split
  · rw [List.zip_map_right, List.map_take, List.map_drop]; rfl
  · rfl

theorem rowSum_mapValues [AddCommMonoid T] [AddCommMonoid T'] (φ : T →+ T') (r : List (Int × T)) (k : Int) :
    rowSum (r.map fun e => (e.1, φ e.2)) k = φ (rowSum r k) := by
  unfold rowSum
  rw [List.filter_map, List.map_map, map_list_sum, List.map_map]
  rfl

theorem CSR.entry_mapValues [AddCommMonoid T] [AddCommMonoid T'] (φ : T →+ T') (a : CSR T) (i j : Nat) :
    (a.mapValues φ).entry i j = φ (a.entry i j) := by
  unfold CSR.entry CSR.row CSR.mapValues
  rw [rowOf_mapValues, rowSum_mapValues]

theorem CSC.entry_mapValues [AddCommMonoid T] [AddCommMonoid T'] (φ : T →+ T') (a : CSC T) (i j : Nat) :
    (a.mapValues φ).entry i j = φ (a.entry i j) := by
  unfold CSC.entry CSC.col CSC.mapValues
  rw [rowOf_mapValues, rowSum_mapValues]

theorem Coo.entry_mapValues [AddCommMonoid T] [AddCommMonoid T'] (φ : T →+ T') (a : Coo T) (i j : Nat) :
    (a.mapValues φ).entry i j = φ (a.entry i j) := by
  unfold Coo.entry Coo.triples Coo.mapValues
  dsimp only
  rw [List.zip_map_right, List.zip_map_right, List.filter_map, List.map_map, map_list_sum, List.map_map]
  rfl

namespace Expr

/-- replacing values and replacing them back -/
theorem mapValues_inv {g : T → T'} {g' : T' → T} (h0 : ∀ v, g' (g v) = v) : {f : Fmt} → (e : Expr T f) →
    (e.mapValues g).mapValues g' = e
  | _, coo a => by simp [mapValues, Coo.mapValues, CSR.mapValues, CSC.mapValues, List.map_map, Function.comp_def, h0]
  | _, csr a => by simp [mapValues, Coo.mapValues, CSR.mapValues, CSC.mapValues, List.map_map, Function.comp_def, h0]
  | _, csc a => by simp [mapValues, Coo.mapValues, CSR.mapValues, CSC.mapValues, List.map_map, Function.comp_def, h0]
  | _, cooDiag d => by simp [mapValues, Coo.mapValues, CSR.mapValues, CSC.mapValues, List.map_map, Function.comp_def, h0]
  | _, csrDiag d => by simp [mapValues, Coo.mapValues, CSR.mapValues, CSC.mapValues, List.map_map, Function.comp_def, h0]
  | _, cscDiag d => by simp [mapValues, Coo.mapValues, CSR.mapValues, CSC.mapValues, List.map_map, Function.comp_def, h0]
  | _, cooEye n => by simp [mapValues, Coo.mapValues, CSR.mapValues, CSC.mapValues, List.map_map, Function.comp_def, h0]
  | _, cooZero m n => by simp [mapValues, Coo.mapValues, CSR.mapValues, CSC.mapValues, List.map_map, Function.comp_def, h0]
  | _, csrZero m n => by simp [mapValues, Coo.mapValues, CSR.mapValues, CSC.mapValues, List.map_map, Function.comp_def, h0]
  | _, cooDense A => by simp [mapValues, Coo.mapValues, CSR.mapValues, CSC.mapValues, List.map_map, Function.comp_def, h0]
  | _, csrDense A => by simp [mapValues, Coo.mapValues, CSR.mapValues, CSC.mapValues, List.map_map, Function.comp_def, h0]
  | _, cscDense A => by simp [mapValues, Coo.mapValues, CSR.mapValues, CSC.mapValues, List.map_map, Function.comp_def, h0]
  | _, cooToCsr e => by simp only [mapValues, e.mapValues_inv h0]
  | _, cooToCsc e => by simp only [mapValues, e.mapValues_inv h0]
  | _, csrToCoo e => by simp only [mapValues, e.mapValues_inv h0]
  | _, csrToCsc e => by simp only [mapValues, e.mapValues_inv h0]
  | _, cscToCoo e => by simp only [mapValues, e.mapValues_inv h0]
  | _, cscToCsr e => by simp only [mapValues, e.mapValues_inv h0]
  | _, cooT e => by simp only [mapValues, e.mapValues_inv h0]
  | _, csrT e => by simp only [mapValues, e.mapValues_inv h0]
  | _, cscT e => by simp only [mapValues, e.mapValues_inv h0]
  | _, cooNeg e => by simp only [mapValues, e.mapValues_inv h0]
  | _, csrNeg e => by simp only [mapValues, e.mapValues_inv h0]
  | _, cscNeg e => by simp only [mapValues, e.mapValues_inv h0]
  | _, cooAdd e f => by simp only [mapValues, e.mapValues_inv h0, f.mapValues_inv h0]
  | _, csrAdd e f => by simp only [mapValues, e.mapValues_inv h0, f.mapValues_inv h0]
  | _, csrSub e f => by simp only [mapValues, e.mapValues_inv h0, f.mapValues_inv h0]
  | _, cscAdd e f => by simp only [mapValues, e.mapValues_inv h0, f.mapValues_inv h0]
  | _, cscSub e f => by simp only [mapValues, e.mapValues_inv h0, f.mapValues_inv h0]
  | _, cscAddMethod e f => by simp only [mapValues, e.mapValues_inv h0, f.mapValues_inv h0]
  | _, cscSubMethod e f => by simp only [mapValues, e.mapValues_inv h0, f.mapValues_inv h0]
  | _, csrMul e f => by simp only [mapValues, e.mapValues_inv h0, f.mapValues_inv h0]
  | _, cscMul e f => by simp only [mapValues, e.mapValues_inv h0, f.mapValues_inv h0]
  | _, cscMulCsr e f => by simp only [mapValues, e.mapValues_inv h0, f.mapValues_inv h0]
  | _, csrScale e s => by simp only [mapValues, e.mapValues_inv h0, h0]
  | _, csrScaleL s e => by simp only [mapValues, e.mapValues_inv h0, h0]
  | _, cscScale e s => by simp only [mapValues, e.mapValues_inv h0, h0]
  | _, cscScaleL s e => by simp only [mapValues, e.mapValues_inv h0, h0]
  | _, csrSort e => by simp only [mapValues, e.mapValues_inv h0]
  | _, cscSort e => by simp only [mapValues, e.mapValues_inv h0]
  | _, csrSum e => by simp only [mapValues, e.mapValues_inv h0]
  | _, cscSum e => by simp only [mapValues, e.mapValues_inv h0]
  | _, cooUpper e k => by simp only [mapValues, e.mapValues_inv h0]
  | _, cooV e f => by simp only [mapValues, e.mapValues_inv h0, f.mapValues_inv h0]
  | _, cooV3 e f h => by simp only [mapValues, e.mapValues_inv h0, f.mapValues_inv h0, h.mapValues_inv h0]
  | _, cooH e f => by simp only [mapValues, e.mapValues_inv h0, f.mapValues_inv h0]
  | _, cooH3 e f h => by simp only [mapValues, e.mapValues_inv h0, f.mapValues_inv h0, h.mapValues_inv h0]
  | _, csrH e f => by simp only [mapValues, e.mapValues_inv h0, f.mapValues_inv h0]
  | _, cooBlock e f h k => by simp only [mapValues, e.mapValues_inv h0, f.mapValues_inv h0, h.mapValues_inv h0, k.mapValues_inv h0]
  | _, cscBlock e f h k => by simp only [mapValues, e.mapValues_inv h0, f.mapValues_inv h0, h.mapValues_inv h0, k.mapValues_inv h0]
  | _, csrSelect e ri ci => by simp only [mapValues, e.mapValues_inv h0]
  | _, cscSelect e ri ci => by simp only [mapValues, e.mapValues_inv h0]

theorem shape_mapValues (q : T → T') : {f : Fmt} → (e : Expr T f) → (e.mapValues q).shape = e.shape
  | _, coo a => by rfl
  | _, csr a => by rfl
  | _, csc a => by rfl
  | _, cooDiag d => by unfold mapValues shape; simp
  | _, csrDiag d => by unfold mapValues shape; simp
  | _, cscDiag d => by unfold mapValues shape; simp
  | _, cooEye n => by rfl
  | _, cooZero m n => by rfl
  | _, csrZero m n => by rfl
  | _, cooDense A => by unfold mapValues shape; cases A <;> simp
  | _, csrDense A => by unfold mapValues shape; cases A <;> simp
  | _, cscDense A => by unfold mapValues shape; cases A <;> simp
  | _, cooToCsr e => by unfold mapValues shape; simp only [e.shape_mapValues q]
  | _, cooToCsc e => by unfold mapValues shape; simp only [e.shape_mapValues q]
  | _, csrToCoo e => by unfold mapValues shape; simp only [e.shape_mapValues q]
  | _, csrToCsc e => by unfold mapValues shape; simp only [e.shape_mapValues q]
  | _, cscToCoo e => by unfold mapValues shape; simp only [e.shape_mapValues q]
  | _, cscToCsr e => by unfold mapValues shape; simp only [e.shape_mapValues q]
  | _, cooT e => by unfold mapValues shape; simp only [e.shape_mapValues q]
  | _, csrT e => by unfold mapValues shape; simp only [e.shape_mapValues q]
  | _, cscT e => by unfold mapValues shape; simp only [e.shape_mapValues q]
  | _, cooNeg e => by unfold mapValues shape; simp only [e.shape_mapValues q]
  | _, csrNeg e => by unfold mapValues shape; simp only [e.shape_mapValues q]
  | _, cscNeg e => by unfold mapValues shape; simp only [e.shape_mapValues q]
  | _, cooAdd e f => by unfold mapValues shape; simp only [e.shape_mapValues q, f.shape_mapValues q]
  | _, csrAdd e f => by unfold mapValues shape; simp only [e.shape_mapValues q, f.shape_mapValues q]
  | _, csrSub e f => by unfold mapValues shape; simp only [e.shape_mapValues q, f.shape_mapValues q]
  | _, cscAdd e f => by unfold mapValues shape; simp only [e.shape_mapValues q, f.shape_mapValues q]
  | _, cscSub e f => by unfold mapValues shape; simp only [e.shape_mapValues q, f.shape_mapValues q]
  | _, cscAddMethod e f => by unfold mapValues shape; simp only [e.shape_mapValues q, f.shape_mapValues q]
  | _, cscSubMethod e f => by unfold mapValues shape; simp only [e.shape_mapValues q, f.shape_mapValues q]
  | _, csrMul e f => by unfold mapValues shape; simp only [e.shape_mapValues q, f.shape_mapValues q]
  | _, cscMul e f => by unfold mapValues shape; simp only [e.shape_mapValues q, f.shape_mapValues q]
  | _, cscMulCsr e f => by unfold mapValues shape; simp only [e.shape_mapValues q, f.shape_mapValues q]
  | _, csrScale e s => by unfold mapValues shape; simp only [e.shape_mapValues q]
  | _, csrScaleL s e => by unfold mapValues shape; simp only [e.shape_mapValues q]
  | _, cscScale e s => by unfold mapValues shape; simp only [e.shape_mapValues q]
  | _, cscScaleL s e => by unfold mapValues shape; simp only [e.shape_mapValues q]
  | _, csrSort e => by unfold mapValues shape; simp only [e.shape_mapValues q]
  | _, cscSort e => by unfold mapValues shape; simp only [e.shape_mapValues q]
  | _, csrSum e => by unfold mapValues shape; simp only [e.shape_mapValues q]
  | _, cscSum e => by unfold mapValues shape; simp only [e.shape_mapValues q]
  | _, cooUpper e k => by unfold mapValues shape; simp only [e.shape_mapValues q]
  | _, cooV e f => by unfold mapValues shape; simp only [e.shape_mapValues q, f.shape_mapValues q]
  | _, cooV3 e f h => by unfold mapValues shape; simp only [e.shape_mapValues q, f.shape_mapValues q, h.shape_mapValues q]
  | _, cooH e f => by unfold mapValues shape; simp only [e.shape_mapValues q, f.shape_mapValues q]
  | _, cooH3 e f h => by unfold mapValues shape; simp only [e.shape_mapValues q, f.shape_mapValues q, h.shape_mapValues q]
  | _, csrH e f => by unfold mapValues shape; simp only [e.shape_mapValues q, f.shape_mapValues q]
  | _, cooBlock e f h k => by unfold mapValues shape; simp only [e.shape_mapValues q, f.shape_mapValues q, h.shape_mapValues q, k.shape_mapValues q]
  | _, cscBlock e f h k => by unfold mapValues shape; simp only [e.shape_mapValues q, f.shape_mapValues q, h.shape_mapValues q, k.shape_mapValues q]
  | _, csrSelect e ri ci => by unfold mapValues shape; simp only [e.shape_mapValues q]
  | _, cscSelect e ri ci => by unfold mapValues shape; simp only [e.shape_mapValues q]

section
variable [CommRing T] [CommRing T'] (φ : T →+* T')

theorem φ_vcat (n : Nat) (f g : Nat → Nat → T) (i j : Nat) :
    vcat n (fun i j => φ (f i j)) (fun i j => φ (g i j)) i j = φ (vcat n f g i j) := by
  unfold vcat; split <;> rfl
theorem φ_hcat (n : Nat) (f g : Nat → Nat → T) (i j : Nat) :
    hcat n (fun i j => φ (f i j)) (fun i j => φ (g i j)) i j = φ (hcat n f g i j) := by
  unfold hcat; split <;> rfl
theorem φ_block (m n : Nat) (f g h k : Nat → Nat → T) (i j : Nat) :
    block m n (fun i j => φ (f i j)) (fun i j => φ (g i j)) (fun i j => φ (h i j)) (fun i j => φ (k i j)) i j =
      φ (block m n f g h k i j) := by
  unfold block vcat hcat; split <;> split <;> rfl
theorem φ_pick (r c : List Int) (f : Nat → Nat → T) (i j : Nat) :
    pick 0 r c (fun i j => φ (f i j)) i j = φ (pick 0 r c f i j) := by
  unfold pick; split <;> simp
theorem φ_upper (k : Int) (f : Nat → Nat → T) (i j : Nat) :
    (if (i : Int) + k ≤ j then φ (f i j) else 0) = φ (if (i : Int) + k ≤ j then f i j else 0) := by
  split <;> simp
theorem denoteDiag_map (d : List T) (i j : Nat) :
    (if i = j then ((d.map φ)[i]?).getD 0 else 0) = φ (if i = j then (d[i]?).getD 0 else 0) := by
  split
  · rw [List.getElem?_map]; cases d[i]? <;> simp
  · simp
theorem denoteDense_map (A : List (List T)) (i j : Nat) :
    (((A.map (·.map φ))[i]?).bind (·[j]?)).getD 0 = φ (((A[i]?).bind (·[j]?)).getD 0) := by
  rw [List.getElem?_map]
  cases A[i]? with
  | none => simp
  | some r => simp only [Option.map_some, Option.bind_some, List.getElem?_map]; cases r[j]? <;> simp

/-- a ring homomorphism commutes with the meaning of expressions -/
theorem denote_mapValues : {f : Fmt} → (e : Expr T f) →
    (e.mapValues φ).denote = fun i j => φ (e.denote i j)
  | _, coo a => by funext i j; exact Coo.entry_mapValues φ.toAddMonoidHom a i j
  | _, csr a => by funext i j; exact CSR.entry_mapValues φ.toAddMonoidHom a i j
  | _, csc a => by funext i j; exact CSC.entry_mapValues φ.toAddMonoidHom a i j
  | _, cooDiag d => by funext i j; exact denoteDiag_map φ d i j
  | _, csrDiag d => by funext i j; exact denoteDiag_map φ d i j
  | _, cscDiag d => by funext i j; exact denoteDiag_map φ d i j
  | _, cooEye n => by funext i j; simp only [mapValues, denote]; split <;> simp
  | _, cooZero m n => by funext i j; simp [mapValues, denote]
  | _, csrZero m n => by funext i j; simp [mapValues, denote]
  | _, cooDense A => by funext i j; exact denoteDense_map φ A i j
  | _, csrDense A => by funext i j; exact denoteDense_map φ A i j
  | _, cscDense A => by funext i j; exact denoteDense_map φ A i j
  | _, cooToCsr e => by funext i j; simp only [mapValues, denote, map_neg, map_add, map_sub, map_mul, map_sum, φ_vcat φ, φ_hcat φ, φ_block φ, φ_pick φ, φ_upper φ, e.shape_mapValues, e.denote_mapValues]
  | _, cooToCsc e => by funext i j; simp only [mapValues, denote, map_neg, map_add, map_sub, map_mul, map_sum, φ_vcat φ, φ_hcat φ, φ_block φ, φ_pick φ, φ_upper φ, e.shape_mapValues, e.denote_mapValues]
  | _, csrToCoo e => by funext i j; simp only [mapValues, denote, map_neg, map_add, map_sub, map_mul, map_sum, φ_vcat φ, φ_hcat φ, φ_block φ, φ_pick φ, φ_upper φ, e.shape_mapValues, e.denote_mapValues]
  | _, csrToCsc e => by funext i j; simp only [mapValues, denote, map_neg, map_add, map_sub, map_mul, map_sum, φ_vcat φ, φ_hcat φ, φ_block φ, φ_pick φ, φ_upper φ, e.shape_mapValues, e.denote_mapValues]
  | _, cscToCoo e => by funext i j; simp only [mapValues, denote, map_neg, map_add, map_sub, map_mul, map_sum, φ_vcat φ, φ_hcat φ, φ_block φ, φ_pick φ, φ_upper φ, e.shape_mapValues, e.denote_mapValues]
  | _, cscToCsr e => by funext i j; simp only [mapValues, denote, map_neg, map_add, map_sub, map_mul, map_sum, φ_vcat φ, φ_hcat φ, φ_block φ, φ_pick φ, φ_upper φ, e.shape_mapValues, e.denote_mapValues]
  | _, cooT e => by funext i j; simp only [mapValues, denote, map_neg, map_add, map_sub, map_mul, map_sum, φ_vcat φ, φ_hcat φ, φ_block φ, φ_pick φ, φ_upper φ, e.shape_mapValues, e.denote_mapValues]
  | _, csrT e => by funext i j; simp only [mapValues, denote, map_neg, map_add, map_sub, map_mul, map_sum, φ_vcat φ, φ_hcat φ, φ_block φ, φ_pick φ, φ_upper φ, e.shape_mapValues, e.denote_mapValues]
  | _, cscT e => by funext i j; simp only [mapValues, denote, map_neg, map_add, map_sub, map_mul, map_sum, φ_vcat φ, φ_hcat φ, φ_block φ, φ_pick φ, φ_upper φ, e.shape_mapValues, e.denote_mapValues]
  | _, cooNeg e => by funext i j; simp only [mapValues, denote, map_neg, map_add, map_sub, map_mul, map_sum, φ_vcat φ, φ_hcat φ, φ_block φ, φ_pick φ, φ_upper φ, e.shape_mapValues, e.denote_mapValues]
  | _, csrNeg e => by funext i j; simp only [mapValues, denote, map_neg, map_add, map_sub, map_mul, map_sum, φ_vcat φ, φ_hcat φ, φ_block φ, φ_pick φ, φ_upper φ, e.shape_mapValues, e.denote_mapValues]
  | _, cscNeg e => by funext i j; simp only [mapValues, denote, map_neg, map_add, map_sub, map_mul, map_sum, φ_vcat φ, φ_hcat φ, φ_block φ, φ_pick φ, φ_upper φ, e.shape_mapValues, e.denote_mapValues]
  | _, cooAdd e f => by funext i j; simp only [mapValues, denote, map_neg, map_add, map_sub, map_mul, map_sum, φ_vcat φ, φ_hcat φ, φ_block φ, φ_pick φ, φ_upper φ, e.shape_mapValues, f.shape_mapValues, e.denote_mapValues, f.denote_mapValues]
  | _, csrAdd e f => by funext i j; simp only [mapValues, denote, map_neg, map_add, map_sub, map_mul, map_sum, φ_vcat φ, φ_hcat φ, φ_block φ, φ_pick φ, φ_upper φ, e.shape_mapValues, f.shape_mapValues, e.denote_mapValues, f.denote_mapValues]
  | _, csrSub e f => by funext i j; simp only [mapValues, denote, map_neg, map_add, map_sub, map_mul, map_sum, φ_vcat φ, φ_hcat φ, φ_block φ, φ_pick φ, φ_upper φ, e.shape_mapValues, f.shape_mapValues, e.denote_mapValues, f.denote_mapValues]
  | _, cscAdd e f => by funext i j; simp only [mapValues, denote, map_neg, map_add, map_sub, map_mul, map_sum, φ_vcat φ, φ_hcat φ, φ_block φ, φ_pick φ, φ_upper φ, e.shape_mapValues, f.shape_mapValues, e.denote_mapValues, f.denote_mapValues]
  | _, cscSub e f => by funext i j; simp only [mapValues, denote, map_neg, map_add, map_sub, map_mul, map_sum, φ_vcat φ, φ_hcat φ, φ_block φ, φ_pick φ, φ_upper φ, e.shape_mapValues, f.shape_mapValues, e.denote_mapValues, f.denote_mapValues]
  | _, cscAddMethod e f => by funext i j; simp only [mapValues, denote, map_neg, map_add, map_sub, map_mul, map_sum, φ_vcat φ, φ_hcat φ, φ_block φ, φ_pick φ, φ_upper φ, e.shape_mapValues, f.shape_mapValues, e.denote_mapValues, f.denote_mapValues]
  | _, cscSubMethod e f => by funext i j; simp only [mapValues, denote, map_neg, map_add, map_sub, map_mul, map_sum, φ_vcat φ, φ_hcat φ, φ_block φ, φ_pick φ, φ_upper φ, e.shape_mapValues, f.shape_mapValues, e.denote_mapValues, f.denote_mapValues]
  | _, csrMul e f => by funext i j; simp only [mapValues, denote, map_neg, map_add, map_sub, map_mul, map_sum, φ_vcat φ, φ_hcat φ, φ_block φ, φ_pick φ, φ_upper φ, e.shape_mapValues, f.shape_mapValues, e.denote_mapValues, f.denote_mapValues]
  | _, cscMul e f => by funext i j; simp only [mapValues, denote, map_neg, map_add, map_sub, map_mul, map_sum, φ_vcat φ, φ_hcat φ, φ_block φ, φ_pick φ, φ_upper φ, e.shape_mapValues, f.shape_mapValues, e.denote_mapValues, f.denote_mapValues]
  | _, cscMulCsr e f => by funext i j; simp only [mapValues, denote, map_neg, map_add, map_sub, map_mul, map_sum, φ_vcat φ, φ_hcat φ, φ_block φ, φ_pick φ, φ_upper φ, e.shape_mapValues, f.shape_mapValues, e.denote_mapValues, f.denote_mapValues]
  | _, csrScale e s => by funext i j; simp only [mapValues, denote, map_neg, map_add, map_sub, map_mul, map_sum, φ_vcat φ, φ_hcat φ, φ_block φ, φ_pick φ, φ_upper φ, e.shape_mapValues, e.denote_mapValues]
  | _, csrScaleL s e => by funext i j; simp only [mapValues, denote, map_neg, map_add, map_sub, map_mul, map_sum, φ_vcat φ, φ_hcat φ, φ_block φ, φ_pick φ, φ_upper φ, e.shape_mapValues, e.denote_mapValues]
  | _, cscScale e s => by funext i j; simp only [mapValues, denote, map_neg, map_add, map_sub, map_mul, map_sum, φ_vcat φ, φ_hcat φ, φ_block φ, φ_pick φ, φ_upper φ, e.shape_mapValues, e.denote_mapValues]
  | _, cscScaleL s e => by funext i j; simp only [mapValues, denote, map_neg, map_add, map_sub, map_mul, map_sum, φ_vcat φ, φ_hcat φ, φ_block φ, φ_pick φ, φ_upper φ, e.shape_mapValues, e.denote_mapValues]
  | _, csrSort e => by funext i j; simp only [mapValues, denote, map_neg, map_add, map_sub, map_mul, map_sum, φ_vcat φ, φ_hcat φ, φ_block φ, φ_pick φ, φ_upper φ, e.shape_mapValues, e.denote_mapValues]
  | _, cscSort e => by funext i j; simp only [mapValues, denote, map_neg, map_add, map_sub, map_mul, map_sum, φ_vcat φ, φ_hcat φ, φ_block φ, φ_pick φ, φ_upper φ, e.shape_mapValues, e.denote_mapValues]
  | _, csrSum e => by funext i j; simp only [mapValues, denote, map_neg, map_add, map_sub, map_mul, map_sum, φ_vcat φ, φ_hcat φ, φ_block φ, φ_pick φ, φ_upper φ, e.shape_mapValues, e.denote_mapValues]
  | _, cscSum e => by funext i j; simp only [mapValues, denote, map_neg, map_add, map_sub, map_mul, map_sum, φ_vcat φ, φ_hcat φ, φ_block φ, φ_pick φ, φ_upper φ, e.shape_mapValues, e.denote_mapValues]
  | _, cooUpper e k => by funext i j; simp only [mapValues, denote, map_neg, map_add, map_sub, map_mul, map_sum, φ_vcat φ, φ_hcat φ, φ_block φ, φ_pick φ, φ_upper φ, e.shape_mapValues, e.denote_mapValues]
  | _, cooV e f => by funext i j; simp only [mapValues, denote, map_neg, map_add, map_sub, map_mul, map_sum, φ_vcat φ, φ_hcat φ, φ_block φ, φ_pick φ, φ_upper φ, e.shape_mapValues, f.shape_mapValues, e.denote_mapValues, f.denote_mapValues]
  | _, cooV3 e f h => by funext i j; simp only [mapValues, denote, e.shape_mapValues, f.shape_mapValues, e.denote_mapValues, f.denote_mapValues, h.denote_mapValues]; unfold vcat; split <;> [split <;> rfl; rfl]
  | _, cooH e f => by funext i j; simp only [mapValues, denote, map_neg, map_add, map_sub, map_mul, map_sum, φ_vcat φ, φ_hcat φ, φ_block φ, φ_pick φ, φ_upper φ, e.shape_mapValues, f.shape_mapValues, e.denote_mapValues, f.denote_mapValues]
  | _, cooH3 e f h => by funext i j; simp only [mapValues, denote, e.shape_mapValues, f.shape_mapValues, e.denote_mapValues, f.denote_mapValues, h.denote_mapValues]; unfold hcat; split <;> [split <;> rfl; rfl]
  | _, csrH e f => by funext i j; simp only [mapValues, denote, map_neg, map_add, map_sub, map_mul, map_sum, φ_vcat φ, φ_hcat φ, φ_block φ, φ_pick φ, φ_upper φ, e.shape_mapValues, f.shape_mapValues, e.denote_mapValues, f.denote_mapValues]
  | _, cooBlock e f h k => by funext i j; simp only [mapValues, denote, map_neg, map_add, map_sub, map_mul, map_sum, φ_vcat φ, φ_hcat φ, φ_block φ, φ_pick φ, φ_upper φ, e.shape_mapValues, f.shape_mapValues, h.shape_mapValues, k.shape_mapValues, e.denote_mapValues, f.denote_mapValues, h.denote_mapValues, k.denote_mapValues]
  | _, cscBlock e f h k => by funext i j; simp only [mapValues, denote, map_neg, map_add, map_sub, map_mul, map_sum, φ_vcat φ, φ_hcat φ, φ_block φ, φ_pick φ, φ_upper φ, e.shape_mapValues, f.shape_mapValues, h.shape_mapValues, k.shape_mapValues, e.denote_mapValues, f.denote_mapValues, h.denote_mapValues, k.denote_mapValues]
  | _, csrSelect e ri ci => by funext i j; simp only [mapValues, denote, map_neg, map_add, map_sub, map_mul, map_sum, φ_vcat φ, φ_hcat φ, φ_block φ, φ_pick φ, φ_upper φ, e.shape_mapValues, e.denote_mapValues]
  | _, cscSelect e ri ci => by funext i j; simp only [mapValues, denote, map_neg, map_add, map_sub, map_mul, map_sum, φ_vcat φ, φ_hcat φ, φ_block φ, φ_pick φ, φ_upper φ, e.shape_mapValues, e.denote_mapValues]
end
end Expr

theorem castHom_apply {w : Nat} (z : Int) : Int.castRingHom (BitVec w) z = BitVec.ofInt w z := rfl

theorem ofInt_toInt' {w : Nat} (v : BitVec w) : Int.castRingHom (BitVec w) v.toInt = v := BitVec.ofInt_toInt

theorem ofInt_toNat' {w : Nat} (v : BitVec w) : Int.castRingHom (BitVec w) (v.toNat : Int) = v := by
  rw [castHom_apply, BitVec.ofInt_natCast, BitVec.ofNat_toNat, BitVec.setWidth_eq]

theorem toInt_ofInt_of {w : Nat} {z : Int} (h1 : -2 ^ (w - 1) ≤ z) (h2 : z < 2 ^ (w - 1)) (hw : 0 < w) :
    (BitVec.ofInt w z).toInt = z := BitVec.toInt_ofInt_eq_self hw h1 h2

theorem toNat_ofInt_of {w : Nat} {z : Int} (h1 : 0 ≤ z) (h2 : z < 2 ^ w) : ((BitVec.ofInt w z).toNat : Int) = z := by
  rw [BitVec.toNat_ofInt]
  have h3 : (0 : Int) < 2 ^ w := Int.pow_pos (by decide)
  rw [Int.toNat_of_nonneg (Int.emod_nonneg _ (by push_cast; omega))]
  push_cast
  exact Int.emod_eq_of_lt h1 h2

/-- **C77**, partial: the entries are the integer entries modulo `2 ^ w`, bit patterns read as signed numbers. -/
theorem C77_signed_partial {w : Nat} {f : Fmt} (e : Expr (BitVec w) f) (hf : e.Fits t) (hb : e.AvoidsCscSubScale) :
    ∃ r, e.eval t = .ok r ∧ e.eval t.unchecked = .ok r ∧ r.WF t ∧ r.rows = e.shape.1 ∧ r.cols = e.shape.2 ∧
      ∀ i j, r.entry i j = BitVec.ofInt w (e.signed.denote i j) := by
  obtain ⟨r, h1, h2, h3, h4, h5⟩ := C50_compositions_partial e hf hb
  refine ⟨r, h1, (C71_same_partial e).1 r h1, h2, h3, h4, fun i j => (h5 i j).trans ?_⟩
  have h6 := congrFun (congrFun (Expr.denote_mapValues (Int.castRingHom (BitVec w)) e.signed) i) j
  rwa [Expr.signed, Expr.mapValues_inv ofInt_toInt'] at h6

/-- **C77**, partial: the same, bit patterns read as unsigned numbers. -/
theorem C77_unsigned_partial {w : Nat} {f : Fmt} (e : Expr (BitVec w) f) (hf : e.Fits t) (hb : e.AvoidsCscSubScale) :
    ∃ r, e.eval t = .ok r ∧ e.eval t.unchecked = .ok r ∧ r.WF t ∧ r.rows = e.shape.1 ∧ r.cols = e.shape.2 ∧
      ∀ i j, r.entry i j = BitVec.ofInt w (e.unsigned.denote i j) := by
  obtain ⟨r, h1, h2, h3, h4, h5⟩ := C50_compositions_partial e hf hb
  refine ⟨r, h1, (C71_same_partial e).1 r h1, h2, h3, h4, fun i j => (h5 i j).trans ?_⟩
  have h6 := congrFun (congrFun (Expr.denote_mapValues (Int.castRingHom (BitVec w)) e.unsigned) i) j
  rwa [Expr.unsigned, Expr.mapValues_inv ofInt_toNat'] at h6

/-- **C77**, partial: an entry whose exact value is representable is that value, whatever overflowed on the way. -/
theorem C77_representable_partial {w : Nat} {f : Fmt} (e : Expr (BitVec w) f) (hf : e.Fits t) (hb : e.AvoidsCscSubScale) :
    ∃ r, e.eval t.unchecked = .ok r ∧ ∀ i j,
      (0 < w → -2 ^ (w - 1) ≤ e.signed.denote i j → e.signed.denote i j < 2 ^ (w - 1) →
        (r.entry i j).toInt = e.signed.denote i j) ∧
      (0 ≤ e.unsigned.denote i j → e.unsigned.denote i j < 2 ^ w →
        ((r.entry i j).toNat : Int) = e.unsigned.denote i j) := by
  obtain ⟨r, _, h1, _, _, _, h2⟩ := C77_signed_partial e hf hb
  obtain ⟨r', _, h1', _, _, _, h2'⟩ := C77_unsigned_partial e hf hb
  cases h1.symm.trans h1'
  refine ⟨r, h1, fun i j => ⟨fun hw h3 h4 => ?_, fun h3 h4 => ?_⟩⟩
  · rw [h2]; exact toInt_ofInt_of h3 h4 hw
  · rw [h2']; exact toNat_ofInt_of h3 h4

theorem sum_ofInt {w : Nat} (n : Nat) (f g : Nat → Int) :
    ∑ k ∈ Finset.range n, BitVec.ofInt w (f k) * BitVec.ofInt w (g k) =
      BitVec.ofInt w (∑ k ∈ Finset.range n, f k * g k) := by
  rw [← castHom_apply, map_sum]
  refine Finset.sum_congr rfl fun k _ => ?_
  rw [map_mul]
  rfl

/-- **C77**: the product of a matrix and a vector is the integer product modulo `2 ^ w`. -/
theorem C77_mat_vec {w : Nat} (x : List (BitVec w)) :
    (∀ a : CSR (BitVec w), a.WF t → x.length = a.cols → a.mat_vec x = .ok ((List.range a.rows).map fun i =>
      BitVec.ofInt w (∑ k ∈ Finset.range a.cols, (a.mapValues BitVec.toInt).entry i k * (x.getD k 0).toInt))) ∧
    ∀ a : CSC (BitVec w), a.WF t → x.length = a.cols → a.mat_vec x = .ok ((List.range a.rows).map fun i =>
      BitVec.ofInt w (∑ k ∈ Finset.range a.cols, (a.mapValues BitVec.toInt).entry i k * (x.getD k 0).toInt)) := by
  constructor
  · intro a ha hx
    rw [(C11_csr_mat_vec t a ha x).2 hx]
    congr 2
    funext i
    rw [← sum_ofInt]
    refine Finset.sum_congr rfl fun k _ => ?_
    have h := CSR.entry_mapValues (Int.castRingHom (BitVec w)).toAddMonoidHom (a.mapValues BitVec.toInt) i k
    have h' : (a.mapValues BitVec.toInt).mapValues (Int.castRingHom (BitVec w)) = a := by
      unfold CSR.mapValues
      simp only [List.map_map, Function.comp_def, ofInt_toInt', List.map_id']
    rw [BitVec.ofInt_toInt]
    congr 1
    have h2 := h
    change ((a.mapValues BitVec.toInt).mapValues (Int.castRingHom (BitVec w))).entry i k = _ at h2
    rw [h'] at h2
    exact h2
  · intro a ha hx
    rw [(C12_csc_mat_vec t a ha x).2 hx]
    congr 2
    funext i
    rw [← sum_ofInt]
    refine Finset.sum_congr rfl fun k _ => ?_
    have h := CSC.entry_mapValues (Int.castRingHom (BitVec w)).toAddMonoidHom (a.mapValues BitVec.toInt) i k
    have h' : (a.mapValues BitVec.toInt).mapValues (Int.castRingHom (BitVec w)) = a := by
      unfold CSC.mapValues
      simp only [List.map_map, Function.comp_def, ofInt_toInt', List.map_id']
    rw [BitVec.ofInt_toInt]
    congr 1
    have h2 := h
    change ((a.mapValues BitVec.toInt).mapValues (Int.castRingHom (BitVec w))).entry i k = _ at h2
    rw [h'] at h2
    exact h2

/-- one entry 100 -/
def exHundred : Expr (BitVec 8) .csr := .csr ⟨1, 1, [0, 1], [0], [100]⟩

theorem exHundred_fits : exHundred.Fits .u8 := ⟨CSR.wf_of (by decide), by decide, by decide⟩

/-- 100 + 100 wraps to -56 -/
example : let e : Expr (BitVec 8) .csr := .csrAdd exHundred exHundred
    e.Fits .u8 ∧ e.AvoidsCscSubScale ∧ e.signed.denote 0 0 = 200 ∧ (BitVec.ofInt 8 200).toInt = -56 ∧
    ∃ r, e.eval IntTy.u8.unchecked = .ok r ∧ (r.entry 0 0).toInt = -56 := by
  have hf : (Expr.csrAdd exHundred exHundred).Fits .u8 := ⟨exHundred_fits, exHundred_fits, rfl, by decide⟩
  have hb : (Expr.csrAdd exHundred exHundred).AvoidsCscSubScale := by simp [exHundred, Expr.AvoidsCscSubScale]
  obtain ⟨r, _, h1, _, _, _, h2⟩ := C77_signed_partial _ hf hb
  refine ⟨hf, hb, by decide, by decide, r, h1, ?_⟩
  rw [h2]
  decide

/-- 100 + 100 - 100 is 100 although the sum overflows -/
example : let e : Expr (BitVec 8) .csr := .csrSub (.csrAdd exHundred exHundred) exHundred
    e.Fits .u8 ∧ e.AvoidsCscSubScale ∧ ∃ r, e.eval IntTy.u8.unchecked = .ok r ∧ (r.entry 0 0).toInt = 100 := by
  have hf : (Expr.csrSub (.csrAdd exHundred exHundred) exHundred).Fits .u8 :=
    ⟨⟨exHundred_fits, exHundred_fits, rfl, by decide⟩, exHundred_fits, rfl, by decide⟩
  have hb : (Expr.csrSub (.csrAdd exHundred exHundred) exHundred).AvoidsCscSubScale := by simp [exHundred, Expr.AvoidsCscSubScale]
  obtain ⟨r, h1, h2⟩ := C77_representable_partial _ hf hb
  exact ⟨hf, hb, r, h1, ((h2 0 0).1 (by decide) (by decide) (by decide)).trans (by decide)⟩

/-- the row (100, 100) times the vector (1, 1) and times the vector (2, -1) -/
example : let a : CSR (BitVec 8) := ⟨1, 2, [0, 2], [0, 1], [100, 100]⟩
    a.WF .u8 ∧ a.mat_vec [1, 1] = .ok [BitVec.ofInt 8 (-56)] ∧ a.mat_vec [2, -1] = .ok [100] :=
  ⟨CSR.wf_of (by decide), by decide +kernel, by decide +kernel⟩

/-- negation of the full C77: the scalar multiple of a CSC matrix can be a wrong matrix (C20) -/
theorem C77_csc_counterexample :
    let e : Expr (BitVec 8) .csc := .cscScale (.csc ⟨2, 1, [0, 1], [0, 2], [5, 7]⟩) 2
    e.Fits .u8 ∧ ∃ r : CSC (BitVec 8), e.eval IntTy.u8.unchecked = .ok r ∧ r.entry 1 0 = 0 ∧ e.signed.denote 1 0 = 14 :=
  ⟨⟨CSC.wf_of (by decide), by decide, by decide⟩, _, rfl, by decide, by decide⟩

end Sparse

import Verif.Model.Cost
/-! Running times: rules for the outcome without the counter, and for bounds on the counter. -/
namespace Sparse
open MT

namespace MT
theorem outcome_pure (a : α) : (pure a : MT α).outcome = pure a := rfl
theorem outcome_bind (m : MT α) (f : α → MT β) : (m >>= f).outcome = m.outcome >>= fun a => (f a).outcome := by
  obtain ⟨m, c⟩ := m
  cases m <;> rfl
theorem outcome_lift (n : Nat) (m : M α) : (lift n m).outcome = m := rfl
theorem outcome_monadLift (m : M α) : (monadLift m : MT α).outcome = m := rfl
theorem outcome_liftM (m : M α) : (liftM m : MT α).outcome = m := rfl
theorem outcome_tick : tick.outcome = pure () := rfl
theorem outcome_rdT (l : List α) (i : Nat) : (l.rdT i).outcome = l.rd i := rfl
theorem outcome_wrT (l : List α) (i : Nat) (a : α) : (l.wrT i a).outcome = l.wr i a := rfl
theorem outcome_vecT (n : Nat) (a : α) : (vecT n a).outcome = pure (List.replicate n a) := rfl
theorem outcome_fillT (l : List α) (a : α) : (l.fillT a).outcome = pure (l.map fun _ => a) := rfl
theorem outcome_ite {c : Prop} [Decidable c] (a b : MT α) :
    (if c then a else b).outcome = if c then a.outcome else b.outcome := by split <;> rfl
theorem outcome_forIn (l : List α) (s : σ) (f : α → σ → MT (ForInStep σ)) :
    (forIn l s f).outcome = forIn l s fun a s => (f a s).outcome := by
  induction l generalizing s with
  | nil => rfl
  | cons a l ih =>
    rw [List.forIn_cons, List.forIn_cons, outcome_bind]
    congr 1
    funext st
    cases st with
    | done s => rfl
    | yield s => exact ih s
theorem outcome_whileT (fuel : Nat) (s : σ) (step : σ → MT (ForInStep σ)) :
    (whileT fuel s step).outcome = whileM fuel s fun s => (step s).outcome := by
  induction fuel generalizing s with
  | zero => rfl
  | succ n ih =>
    unfold whileT whileM
    rw [outcome_bind, outcome_tick, pure_bind, outcome_bind]
    congr 1
    funext st
    cases st with
    | done s => rfl
    | yield s => exact ih s
end MT

/-- removes the counter -/
macro "erase" "[" ls:Lean.Parser.Tactic.simpLemma,* "]" : tactic => `(tactic|
  simp only [MT.outcome_pure, MT.outcome_bind, MT.outcome_lift, MT.outcome_monadLift, MT.outcome_liftM, MT.outcome_tick, MT.outcome_rdT, MT.outcome_wrT,
    MT.outcome_vecT, MT.outcome_fillT, MT.outcome_ite, MT.outcome_forIn, MT.outcome_whileT, pure_bind, $ls,*])

section
variable {T : Type}
theorem count_loopT_outcome (t : IdxTy) (nnz : Nat) (key b_p : List Int) :
    (count_loopT t nnz key b_p).outcome = count_loop t nnz key b_p := by
  unfold count_loopT count_loop
  erase []
theorem cumsum_loopT_outcome (t : IdxTy) (n : Nat) (b_p : List Int) :
    (cumsum_loopT t n b_p).outcome = cumsum_loop t n b_p := by
  unfold cumsum_loopT cumsum_loop
  erase []
theorem shift_loopT_outcome (n : Nat) (b_p : List Int) :
    (shift_loopT n b_p).outcome = shift_loop n b_p := by
  unfold shift_loopT shift_loop
  erase []
theorem coo_scatterT_outcome (t : IdxTy) (nnz : Nat) (a_i a_j : List Int) (a_x : List T) (b_p b_j : List Int) (b_x : List T) :
    (coo_scatterT t nnz a_i a_j a_x b_p b_j b_x).outcome = coo_scatter t nnz a_i a_j a_x b_p b_j b_x := by
  unfold coo_scatterT coo_scatter
  erase []
theorem coo_tocsrT_outcome (t : IdxTy) (n_row nnz : Nat) (a_i a_j : List Int) (a_x : List T) (b_p b_j : List Int) (b_x : List T) :
    (coo_tocsrT t n_row nnz a_i a_j a_x b_p b_j b_x).outcome = coo_tocsr t n_row nnz a_i a_j a_x b_p b_j b_x := by
  unfold coo_tocsrT coo_tocsr
  erase [count_loopT_outcome, cumsum_loopT_outcome, shift_loopT_outcome, coo_scatterT_outcome]
theorem coo_matvecT_outcome [Add T] [Mul T] (nnz : Nat) (a_i a_j : List Int) (a_x x_x y_x : List T) :
    (coo_matvecT nnz a_i a_j a_x x_x y_x).outcome = coo_matvec nnz a_i a_j a_x x_x y_x := by
  unfold coo_matvecT coo_matvec
  erase []
theorem csr_diagonalT_outcome [Zero T] [Add T] (k : Int) (n_row n_col : Nat) (a_p a_j : List Int) (a_x y_x : List T) :
    (csr_diagonalT k n_row n_col a_p a_j a_x y_x).outcome = csr_diagonal k n_row n_col a_p a_j a_x y_x := by
  unfold csr_diagonalT csr_diagonal
  erase []
theorem expandptrT_outcome (t : IdxTy) (n : Nat) (a_p b_i : List Int) :
    (expandptrT t n a_p b_i).outcome = expandptr t n a_p b_i := by
  unfold expandptrT expandptr
  erase []
theorem csr_scatterT_outcome (t : IdxTy) (n : Nat) (a_p a_j : List Int) (a_x : List T) (b_p b_j : List Int) (b_x : List T) :
    (csr_scatterT t n a_p a_j a_x b_p b_j b_x).outcome = csr_scatter t n a_p a_j a_x b_p b_j b_x := by
  unfold csr_scatterT csr_scatter
  erase []
theorem csr_tocscT_outcome (t : IdxTy) (n m : Nat) (a_p a_j : List Int) (a_x : List T) (b_p b_j : List Int) (b_x : List T) :
    (csr_tocscT t n m a_p a_j a_x b_p b_j b_x).outcome = csr_tocsc t n m a_p a_j a_x b_p b_j b_x := by
  unfold csr_tocscT csr_tocsc
  erase [count_loopT_outcome, cumsum_loopT_outcome, shift_loopT_outcome, csr_scatterT_outcome]
theorem csr_matvecT_outcome [Add T] [Mul T] (n : Nat) (a_p a_j : List Int) (a_x x_x y_x : List T) :
    (csr_matvecT n a_p a_j a_x x_x y_x).outcome = csr_matvec n a_p a_j a_x x_x y_x := by
  unfold csr_matvecT csr_matvec
  erase []
theorem csc_matvecT_outcome [Add T] [Mul T] (n : Nat) (a_p a_j : List Int) (a_x x_x y_x : List T) :
    (csc_matvecT n a_p a_j a_x x_x y_x).outcome = csc_matvec n a_p a_j a_x x_x y_x := by
  unfold csc_matvecT csc_matvec
  erase []
theorem matmat_accumT_outcome [Add T] [Mul T] (t : IdxTy) (a b : Nat) (v : T) (b_j : List Int) (b_x : List T) (next : List Int)
    (sums : List T) (head length : Int) :
    (matmat_accumT t a b v b_j b_x next sums head length).outcome = matmat_accum t a b v b_j b_x next sums head length := by
  unfold matmat_accumT matmat_accum
  erase []
theorem matmat_flushT_outcome [Zero T] [BEq T] (t : IdxTy) (length head : Int) (next : List Int)
    (sums : List T) (nnz : Int) (c_j : List Int) (c_x : List T) :
    (matmat_flushT t length head next sums nnz c_j c_x).outcome = matmat_flush t length head next sums nnz c_j c_x := by
  unfold matmat_flushT matmat_flush
  erase []
theorem csr_matmatT_outcome [Zero T] [Add T] [Mul T] [BEq T] (t : IdxTy) (n_row n_col : Nat)
    (a_p a_j : List Int) (a_x : List T) (b_p b_j : List Int) (b_x : List T) (c_p c_j : List Int) (c_x : List T) :
    (csr_matmatT t n_row n_col a_p a_j a_x b_p b_j b_x c_p c_j c_x).outcome
      = csr_matmat t n_row n_col a_p a_j a_x b_p b_j b_x c_p c_j c_x := by
  unfold csr_matmatT csr_matmat
  erase [matmat_accumT_outcome, matmat_flushT_outcome]
theorem csr_matmat_maxnnzT_outcome (n_row n_col : Nat) (a_p a_j b_p b_j : List Int) :
    (csr_matmat_maxnnzT n_row n_col a_p a_j b_p b_j).outcome = csr_matmat_maxnnz n_row n_col a_p a_j b_p b_j := by
  unfold csr_matmat_maxnnzT csr_matmat_maxnnz
  erase []
theorem scc_pushT_outcome (v : Nat) (j p : List Int) (labels ss sb : List Node) (h : Node) :
    (scc_pushT v j p labels ss sb h).outcome = scc_push v j p labels ss sb h := by
  unfold scc_pushT scc_push
  erase []
theorem scc_lowT_outcome (v : Nat) (j p : List Int) (labels : List Node) :
    (scc_lowT v j p labels).outcome = scc_low v j p labels := by
  unfold scc_lowT scc_low
  erase []
theorem scc_popT_outcome (fuel v : Nat) (label : Node) (labels ss : List Node) (h : Node) (ix : Nat) :
    (scc_popT fuel v label labels ss h ix).outcome = scc_pop fuel v label labels ss h ix := by
  unfold scc_popT scc_pop
  erase []
theorem scc_stepT_outcome (fuel : Nat) (j p : List Int) (s : Scc) (h : Node) :
    (scc_stepT fuel j p s h).outcome = scc_step fuel j p s h := by
  unfold scc_stepT scc_step
  erase [scc_pushT_outcome, scc_lowT_outcome, scc_popT_outcome]
theorem connected_components_directedT_outcome (fuel n : Nat) (j p : List Int) :
    (connected_components_directedT fuel n j p).outcome = connected_components_directed fuel n j p := by
  unfold connected_components_directedT connected_components_directed
  erase [scc_stepT_outcome]
  congr 1
  funext a
  congr 1
  funext b
  cases b.label <;> erase [bind_assoc]
end
end Sparse

import Verif.Lemmas.CostBound
/-! Lower bounds on the number of steps. -/
namespace Sparse
open MT

/-- a body of a loop that never breaks -/
def YT (m : MT (ForInStep σ)) : Prop := ∀ st, m.outcome = .ok st → ∃ s', st = .yield s'
namespace YT
theorem skip {m : MT α} {f : α → MT (ForInStep σ)} (h : ∀ a, YT (f a)) : YT (m >>= f) := by
  obtain ⟨m, c⟩ := m
  intro st hst
  cases m with
  | error e => cases hst
  | ok a => exact h a st hst
theorem pure {s : σ} : YT (Pure.pure (ForInStep.yield s) : MT (ForInStep σ)) := fun st h => by cases h; exact ⟨_, rfl⟩
end YT

macro "yt" : tactic => `(tactic| repeat (first | exact YT.pure | refine YT.skip fun _ => ?_ | (dsimp only; split)))

theorem TL.tick_bind {f : Unit → MT β} {L : Nat} (h : TL (f ()) (L - 1)) : TL (tick >>= f) L :=
  TL.bind (L1 := 1) (fun _ _ => Nat.le_refl _) fun _ _ => h

theorem TL.rd_bind {l : List α} {i : Nat} {f : α → MT β} {L : Nat} (h : ∀ a, l[i]? = some a → TL (f a) L) :
    TL (l.rdT i >>= f) L := by
  refine TL.skip fun a e => h a ?_
  have e : l.rd i = .ok a := e
  unfold List.rd at e
  split at e
  · cases e; assumption
  · cases e

theorem TL.toUsize_bind {x : Nat} {f : Nat → MT β} {L : Nat} (h : TL (f x) L) :
    TL ((monadLift (toUsize (x : Int)) : MT Nat) >>= f) L := by
  refine TL.skip fun a e => ?_
  have e : toUsize (x : Int) = .ok a := e
  unfold toUsize at e
  simp at e
  cases e
  exact h

variable {T : Type}

theorem matmat_accumT_tl [Add T] [Mul T] (t : IdxTy) (s e : Nat) (v : T) (b_j : List Int)
    (b_x : List T) (next : List Int) (sums : List T) (head length : Int) :
    TL (matmat_accumT t s e v b_j b_x next sums head length) (e - s) := by
  unfold matmat_accumT
  refine TL.bind (L1 := e - s) ?_ fun _ _ => (TL.zero _).mono (by omega)
  refine (TL.forRange 1 ?_ ?_).mono (by omega)
  · intro i s
    change YT _
    yt
  · intro i s _ _
    exact TL.tick_bind ((TL.zero _).mono (by omega))

/-- the product of a column of `n` ones and a row of `n` ones takes at least `n*n` steps, if it returns -/
theorem outer_tl [Zero T] [Add T] [Mul T] [BEq T] (t : IdxTy) (n : Nat) (a_x b_x : List T) (b_j c_p c_j : List Int) (c_x : List T) :
    TL (csr_matmatT t n n ((List.range (n + 1)).map Int.ofNat) (List.replicate n 0) a_x [0, (n : Int)] b_j b_x c_p c_j c_x) (n * n) := by
  unfold csr_matmatT
  refine TL.skip fun _ _ => TL.skip fun _ _ => TL.skip fun _ _ => ?_
  refine TL.bind (L1 := n * n) ?_ fun _ _ => (TL.zero _).mono (by omega)
  refine (TL.forRange n ?_ ?_).mono (by simp)
  · intro i s
    change YT _
    yt
  · intro i s _ hi
    have hg : ∀ k : Nat, k < n + 1 → ((List.range (n + 1)).map Int.ofNat)[k]? = some (k : Int) := by
      intro k hk
      simp [hk]
    refine TL.skip fun _ _ => TL.rd_bind fun x hx => ?_
    rw [hg i (by omega)] at hx
    cases hx
    refine TL.toUsize_bind (TL.rd_bind fun x hx => ?_)
    rw [hg (i + 1) (by omega)] at hx
    cases hx
    refine TL.toUsize_bind ?_
    refine TL.bind (L1 := n) ?_ fun _ _ => (TL.zero _).mono (by omega)
    refine (TL.forRange n ?_ ?_).mono (by simp)
    · intro i s
      change YT _
      yt
    · intro k s h1 h2
      refine TL.skip fun _ _ => TL.rd_bind fun x hx => ?_
      rw [List.getElem?_replicate] at hx
      split at hx
      · cases hx
        refine TL.toUsize_bind (x := 0) (TL.rd_bind fun v hv => TL.rd_bind fun x hx => ?_)
        simp at hx
        cases hx
        refine TL.toUsize_bind (x := 0) (TL.rd_bind fun x hx => ?_)
        simp at hx
        cases hx
        refine TL.toUsize_bind ?_
        refine TL.bind (L1 := n - 0) (matmat_accumT_tl t 0 n v b_j b_x s.1 s.2.1 s.2.2.1 s.2.2.2) fun _ _ => (TL.zero _).mono (by omega)
      · cases hx

end Sparse

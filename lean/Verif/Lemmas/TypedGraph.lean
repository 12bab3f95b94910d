import Verif.Lemmas.Typed
import Verif.Model.Graph
/-! The component numbers of `cs_graph_components` are values of the flag type, their count is one of the index type (C79). -/
namespace Sparse
open Idx
variable {T : Type} {t ft : IdxTy}

theorem csg_round_ty {icomp : Nat} {a_p a_j : List Int} {n_pos0 n_pos : Nat} {flag pos : List Int} {k : Nat} (h : ft.HasAll flag) :
    Ret (csg_round ft icomp a_p a_j n_pos0 n_pos flag pos k) fun r => ft.HasAll r.1 := by
  unfold csg_round
  refine .bind' (P := fun s => ft.HasAll s.1) (.forIn' (fun s => ft.HasAll s.1) h (fun ir s hs => ?_) fun s hs => hs)
    fun s hs => .pure hs
  refine .bind' .true fun _ _ => .bind' .true fun _ _ => .bind' .true fun _ _ => .bind' .true fun _ _ => .bind' .true fun _ _ => .bind' .true fun _ _ => ?_
  refine .bind' (P := fun s => ft.HasAll s.1) (.forIn' (fun s => ft.HasAll s.1) hs (fun ic s hs => ?_) fun s hs => hs)
    fun s hs => .pure hs
  refine .bind' .true fun _ _ => .bind' .true fun _ _ => .bind' .true fun _ _ => .bind' .true fun _ _ => .ite ?_ (.pure hs)
  exact .bind' (.ofUsize _) fun x hx => .bind' (.wrInt hs hx) fun _ hf => .bind' .true fun _ _ => .bind' .true fun _ _ => .pure hf

theorem csg_search_ty {n icomp : Nat} {a_p a_j : List Int} {flag pos : List Int} (h : ft.HasAll flag) :
    Ret (csg_search ft n icomp a_p a_j flag pos) fun r => ft.HasAll r.1 := by
  unfold csg_search
  refine .bind' (P := fun s => ft.HasAll s.1) (.forIn' (fun s => ft.HasAll s.1) h (fun ir s hs => ?_) fun s hs => hs)
    fun s hs => .pure hs
  exact .bind' (csg_round_ty hs) fun _ hr => .ite (.pure hr) (.pure hr)

theorem cs_graph_components_ty {fuel n : Nat} {a_p a_j flag : List Int} (h : ft.HasAll flag) :
    Ret (cs_graph_components t ft fuel n a_p a_j flag) fun r => t.Has r.1 ∧ ft.HasAll r.2 := by
  unfold cs_graph_components
  refine .bind' (P := fun s => ft.HasAll s.1) (.forIn' (fun s => ft.HasAll s.1) h (fun ir s hs => ?_) fun s hs => hs)
    fun s hs => ?_
  · refine .bind' (.ofInt _) fun x hx => .bind' (.wrInt hs hx) fun f hf => .bind' .true fun _ _ => .bind' .true fun _ _ => .ite ?_ (.pure hf)
    exact .bind' .true fun _ _ => .bind' (.ofInt _) fun x hx => .bind' (.wrInt hf hx) fun f hf => .pure hf
  · refine .bind' (P := fun s => ft.HasAll s.1 ∧ t.Has s.2.2.1)
      (.forIn' (fun s => ft.HasAll s.1 ∧ t.Has s.2.2.1) ⟨hs, t.has_zero⟩ (fun ir s hs => ?_) fun s hs => hs)
      fun s hs => .pure ⟨hs.2, hs.1⟩
    refine .bind' .true fun _ _ => .bind' (.ofUsize _) fun x hx => .bind' (.wrInt hs.1 hx) fun f hf => .bind' .true fun _ _ => .bind' .true fun _ _ =>
      .bind' (csg_search_ty hf) fun r hr => .ite (.bind' (.ofUsize _) fun x hx => .pure ⟨hr, hx⟩) (.pure ⟨hr, hs.2⟩)

theorem CSR_connected_components_ty {fuel : Nat} {a : CSR T} :
    Ret (CSR.connected_components t ft fuel a) fun r => t.Has r.1 ∧ ft.HasAll r.2 := by
  unfold CSR.connected_components
  refine .ite .throw (cs_graph_components_ty ft.hasAll_zeros)

end Sparse

import Verif.SpecTyped
/-! Every function of the model returns values of the index type (C79). -/
namespace Sparse

/-- the index values stored in something of type `α` -/
class Idx (α : Type) where
  ty : IntTy → α → Prop
open Idx

instance (priority := low) idxAny : Idx α := ⟨fun _ _ => True⟩
instance idxInt : Idx Int := ⟨fun t x => t.Has x⟩
instance idxList : Idx (List Int) := ⟨fun t x => t.HasAll x⟩
instance idxProd [Idx α] [Idx β] : Idx (α × β) := ⟨fun t x => ty t x.1 ∧ ty t x.2⟩
instance idxMProd [Idx α] [Idx β] : Idx (MProd α β) := ⟨fun t x => ty t x.1 ∧ ty t x.2⟩
instance idxPairs : Idx (List (Int × T)) := ⟨fun t x => ∀ e ∈ x, t.Has e.1⟩
instance idxCSR : Idx (CSR T) := ⟨fun t a => a.HasType t⟩
instance idxCSC : Idx (CSC T) := ⟨fun t a => a.HasType t⟩
instance idxCoo : Idx (Coo T) := ⟨fun t a => a.HasType t⟩
instance idxStep [Idx α] : Idx (ForInStep α) := ⟨fun t s => match s with | .yield a => ty t a | .done a => ty t a⟩

section
variable {T T2 : Type} {t : IntTy}

theorem ty_any (x : α) : (idxAny (α := α)).ty t x ↔ True := Iff.rfl
theorem ty_int (x : Int) : ty t x ↔ t.Has x := Iff.rfl
theorem ty_list (x : List Int) : ty t x ↔ t.HasAll x := Iff.rfl
theorem ty_prod [Idx α] [Idx β] (x : α × β) : ty t x ↔ ty t x.1 ∧ ty t x.2 := Iff.rfl
theorem ty_mprod [Idx α] [Idx β] (x : MProd α β) : ty t x ↔ ty t x.1 ∧ ty t x.2 := Iff.rfl
theorem ty_csr (x : CSR T) : ty t x ↔ t.HasAll x.rowptr ∧ t.HasAll x.colidx := Iff.rfl
theorem ty_csc (x : CSC T) : ty t x ↔ t.HasAll x.rowidx ∧ t.HasAll x.colptr := Iff.rfl
theorem ty_coo (x : Coo T) : ty t x ↔ t.HasAll x.rowidx ∧ t.HasAll x.colidx := Iff.rfl
theorem ty_yield [Idx α] (x : α) : ty t (ForInStep.yield x) ↔ ty t x := Iff.rfl
theorem ty_done [Idx α] (x : α) : ty t (ForInStep.done x) ↔ ty t x := Iff.rfl

theorem IntTy.has_zero : t.Has 0 := ⟨t.lo_nonpos, by have := t.hi_ge; omega⟩
theorem IntTy.has_one : t.Has 1 := ⟨by have := t.lo_nonpos; omega, by have := t.hi_ge; omega⟩
theorem IntTy.hasAll_nil : t.HasAll [] := by intro x hx; simp at hx
theorem IntTy.hasAll_append {a b : List Int} : t.HasAll (a ++ b) ↔ t.HasAll a ∧ t.HasAll b := by
  unfold IntTy.HasAll
  simp only [List.mem_append]
  exact ⟨fun h => ⟨fun x hx => h x (.inl hx), fun x hx => h x (.inr hx)⟩, fun h x hx => hx.elim (h.1 x) (h.2 x)⟩
theorem IntTy.hasAll_single {a : Int} : t.HasAll [a] ↔ t.Has a := by
  simp [IntTy.HasAll]
theorem IntTy.hasAll_replicate {n : Nat} {a : Int} (h : t.Has a) : t.HasAll (List.replicate n a) := by
  intro x hx; rw [List.eq_of_mem_replicate hx]; exact h
theorem IntTy.hasAll_zeros {n : Nat} : t.HasAll (List.replicate n 0) := t.hasAll_replicate t.has_zero
theorem IntTy.hasAll_map0 {l : List α} : t.HasAll (l.map fun _ => (0 : Int)) := by
  intro x hx; simp only [List.mem_map] at hx; obtain ⟨_, _, rfl⟩ := hx; exact t.has_zero
theorem IntTy.hasAll_resize {l : List Int} {n : Nat} (h : t.HasAll l) : t.HasAll (l.resize n 0) := by
  unfold List.resize
  exact t.hasAll_append.2 ⟨fun x hx => h x (List.mem_of_mem_take hx), t.hasAll_zeros⟩

theorem Ret.pure {a : α} {Q : α → Prop} (h : Q a) : Ret (pure a) Q := by
  intro b hb; cases hb; exact h
theorem Ret.ok {a : α} {Q : α → Prop} (h : Q a) : Ret (.ok a) Q := .pure h
theorem Ret.throw {e : Fault} {Q : α → Prop} : Ret (throw e) Q := by intro b hb; cases hb
theorem Ret.any {m : M α} : Ret m ((idxAny (α := α)).ty t) := fun _ _ => trivial
theorem Ret.mono {m : M α} {P Q : α → Prop} (h : Ret m P) (hQ : ∀ a, P a → Q a) : Ret m Q := fun a ha => hQ a (h a ha)
theorem Ret.bind' {m : M α} {f : α → M β} {P : α → Prop} {Q : β → Prop} (h : Ret m P) (hf : ∀ a, P a → Ret (f a) Q) : Ret (m >>= f) Q := by
  intro b hb
  cases m with
  | ok a => exact hf a (h a rfl) b hb
  | error e => cases hb
theorem Ret.bind (t : IntTy) [Idx α] {m : M α} {f : α → M β} {Q : β → Prop} (h : Ret m (ty t)) (hf : ∀ a, ty t a → Ret (f a) Q) :
    Ret (m >>= f) Q := .bind' h hf
theorem Ret.map' {m : M α} {f : α → β} {P : α → Prop} {Q : β → Prop} (h : Ret m P) (hf : ∀ a, P a → Q (f a)) : Ret (f <$> m) Q := by
  intro b hb
  cases m with
  | ok a => cases hb; exact hf a (h a rfl)
  | error e => cases hb
theorem Ret.map (t : IntTy) [Idx α] {m : M α} {f : α → β} {Q : β → Prop} (h : Ret m (ty t)) (hf : ∀ a, ty t a → Q (f a)) :
    Ret (f <$> m) Q := .map' h hf
theorem Ret.ite {c : Prop} [Decidable c] {a b : M α} {Q : α → Prop} (h1 : Ret a Q) (h2 : Ret b Q) : Ret (if c then a else b) Q := by
  split <;> assumption
theorem Ret.ite' {c : Prop} [Decidable c] {a b : M α} {Q : α → Prop} (h1 : c → Ret a Q) (h2 : ¬ c → Ret b Q) :
    Ret (if c then a else b) Q := by
  split
  · exact h1 ‹_›
  · exact h2 ‹_›
theorem Ret.unwrapR {m : M α} {Q : α → Prop} (h : Ret m Q) : Ret (unwrapR m) Q := by
  cases m with
  | ok a => exact h
  | error e => cases e <;> exact .throw

/-- a loop with an invariant -/
theorem Ret.forIn' {l : List α} {s : σ} {f : α → σ → M (ForInStep σ)} (I : σ → Prop) {Q : σ → Prop} (h0 : I s)
    (hs : ∀ a s, I s → Ret (f a s) fun r => match r with | .yield s' => I s' | .done s' => I s') (hQ : ∀ s, I s → Q s) :
    Ret (forIn l s f) Q := by
  induction l generalizing s with
  | nil => exact .pure (hQ _ h0)
  | cons a l ih =>
    rw [List.forIn_cons]
    refine .bind' (hs a s h0) fun r hr => ?_
    cases r with
    | done b => exact .pure (hQ _ hr)
    | yield b => exact ih hr
theorem Ret.forIn [Idx σ] {l : List α} {s : σ} {f : α → σ → M (ForInStep σ)} (h0 : ty t s) (hs : ∀ a s, ty t s → Ret (f a s) (ty t)) :
    Ret (forIn l s f) (ty t) :=
  .forIn' (ty t) h0 (fun a s h => (hs a s h).mono fun r hr => by cases r <;> exact hr) fun _ h => h
theorem Ret.whileM' {fuel : Nat} {s : σ} {f : σ → M (ForInStep σ)} (I : σ → Prop) {Q : σ → Prop} (h0 : I s)
    (hs : ∀ s, I s → Ret (f s) fun r => match r with | .yield s' => I s' | .done s' => I s') (hQ : ∀ s, I s → Q s) :
    Ret (whileM fuel s f) Q := by
  induction fuel generalizing s with
  | zero => exact .throw
  | succ n ih =>
    refine .bind' (hs s h0) fun r hr => ?_
    cases r with
    | done b => exact .pure (hQ _ hr)
    | yield b => exact ih hr
theorem Ret.whileM [Idx σ] {fuel : Nat} {s : σ} {f : σ → M (ForInStep σ)} (h0 : ty t s) (hs : ∀ s, ty t s → Ret (f s) (ty t)) :
    Ret (whileM fuel s f) (ty t) :=
  .whileM' (ty t) h0 (fun s h => (hs s h).mono fun r hr => by cases r <;> exact hr) fun _ h => h
theorem Ret.mapM {l : List Int} {f : Int → M Int} (hl : t.HasAll l) (h : ∀ a, t.Has a → Ret (f a) (ty t)) : Ret (l.mapM f) (ty t) := by
  induction l with
  | nil => exact .pure t.hasAll_nil
  | cons a l ih =>
    rw [List.mapM_cons]
    refine .bind' (h a (hl a (by simp))) fun b hb => .bind' (ih fun x hx => hl x (by simp [hx])) fun bs hbs => .pure ?_
    intro x hx
    rcases List.mem_cons.1 hx with rfl | hx
    · exact hb
    · exact hbs x hx

theorem Ret.rdInt {l : List Int} {i : Nat} (h : t.HasAll l) : Ret (l.rd i) (ty t) := by
  intro a ha
  unfold List.rd at ha
  split at ha
  · rename_i h'; cases ha; exact h _ (List.mem_of_getElem? h')
  · cases ha
theorem Ret.wrInt {l : List Int} {i : Nat} {x : Int} (h : t.HasAll l) (hx : t.Has x) : Ret (l.wr i x) (ty t) := by
  intro a ha
  unfold List.wr at ha
  split at ha
  · cases ha; intro y hy
    rcases List.mem_or_eq_of_mem_set hy with hy | rfl
    · exact h y hy
    · exact hx
  · cases ha
theorem Ret.sliceInt {l : List Int} {i j : Nat} (h : t.HasAll l) : Ret (l.slice i j) (ty t) := by
  intro a ha
  unfold List.slice at ha
  split at ha
  · cases ha; intro y hy
    exact h y (List.mem_of_mem_drop (List.mem_of_mem_take hy))
  · cases ha
theorem Ret.sliceFromInt {l : List Int} {i : Nat} (h : t.HasAll l) : Ret (l.sliceFrom i) (ty t) := by
  intro a ha
  unfold List.sliceFrom at ha
  split at ha
  · cases ha; intro y hy
    exact h y (List.mem_of_mem_drop hy)
  · cases ha
theorem Ret.rdPair {l : List (Int × T)} {i : Nat} (h : ∀ e ∈ l, t.Has e.1) : Ret (l.rd i) (ty t) := by
  intro a ha
  unfold List.rd at ha
  split at ha
  · rename_i h'; cases ha; exact ⟨h _ (List.mem_of_getElem? h'), trivial⟩
  · cases ha
theorem Ret.wrPair {l : List (Int × T)} {i : Nat} {x : Int × T} (h : ∀ e ∈ l, t.Has e.1) (hx : t.Has x.1) : Ret (l.wr i x) (ty t) := by
  intro a ha
  unfold List.wr at ha
  split at ha
  · cases ha; intro y hy
    rcases List.mem_or_eq_of_mem_set hy with hy | rfl
    · exact h y hy
    · exact hx
  · cases ha

theorem Ret.ofInt {t : IdxTy} (z : Int) : Ret (t.ofInt z) (ty t.toIntTy) := by
  intro a ha
  unfold IdxTy.ofInt at ha
  split at ha
  · cases ha; assumption
  · cases ha
theorem Ret.ofUsize {t : IdxTy} (n : Nat) : Ret (t.ofUsize n) (ty t.toIntTy) := by
  intro a ha
  unfold IdxTy.ofUsize at ha
  split at ha
  · cases ha; exact ⟨by have := t.lo_nonpos; omega, by assumption⟩
  · cases ha
theorem IdxTy.wrap_has (t : IdxTy) (z : Int) : t.Has (t.wrap z) := by
  have h1 := t.lo_nonpos
  have h2 := t.hi_ge
  have h3 := Int.emod_nonneg (z - t.lo) (b := t.hi - t.lo + 1) (by omega)
  have h4 := Int.emod_lt_of_pos (z - t.lo) (b := t.hi - t.lo + 1) (by omega)
  unfold IdxTy.wrap
  exact ⟨by omega, by omega⟩
theorem Ret.arith {t : IdxTy} (z : Int) : Ret (t.arith z) (ty t.toIntTy) := by
  intro a ha
  unfold IdxTy.arith at ha
  split at ha
  · cases ha; assumption
  · split at ha
    · cases ha; exact t.wrap_has z
    · cases ha
theorem Ret.add {t : IdxTy} (a b : Int) : Ret (t.add a b) (ty t.toIntTy) := .arith _
theorem Ret.sub {t : IdxTy} (a b : Int) : Ret (t.sub a b) (ty t.toIntTy) := .arith _

/-- facts about values that are in the context -/
macro "tyfact" : tactic => `(tactic| first
  | with_reducible assumption
  | ((try simp only [ty_any, ty_int, ty_list, ty_prod, ty_mprod, ty_csr, ty_csc, ty_coo, ty_yield, ty_done, IntTy.hasAll_append,
      IntTy.hasAll_single, CSR.HasType, CSC.HasType, Coo.HasType] at *); simp only [*, IntTy.has_zero, IntTy.has_one, IntTy.hasAll_nil, IntTy.hasAll_zeros, IntTy.hasAll_map0,
      IntTy.hasAll_resize, and_self, true_and, and_true]; done))

/-- go through the code of a function -/
syntax "typ " term:max (" [" term,* "]")? : tactic
macro_rules
  | `(tactic| typ $t) => `(tactic| typ $t [])
  | `(tactic| typ $t [$ts,*]) => do
    let alts ← ts.getElems.mapM fun x => `(tactic| (with_reducible apply $x (t := $t)))
    `(tactic| repeat' first
      | with_reducible intro _
      | with_reducible exact Ret.throw
      | with_reducible exact Ret.any
      | with_reducible exact Ret.ofInt _
      | with_reducible exact Ret.ofUsize _
      | with_reducible exact Ret.add _ _
      | with_reducible exact Ret.sub _ _
      | with_reducible apply Ret.rdInt (t := ($t).toIntTy)
      | with_reducible apply Ret.wrInt (t := ($t).toIntTy)
      | with_reducible apply Ret.sliceInt (t := ($t).toIntTy)
      | with_reducible apply Ret.sliceFromInt (t := ($t).toIntTy)
      | with_reducible apply Ret.rdPair (t := ($t).toIntTy)
      | with_reducible apply Ret.wrPair (t := ($t).toIntTy)
      $[| $alts:tactic]*
      | with_reducible apply Ret.pure
      | with_reducible apply Ret.ok
      | with_reducible apply Ret.bind ($t).toIntTy
      | with_reducible apply Ret.ite
      | with_reducible apply Ret.forIn (t := ($t).toIntTy)
      | with_reducible apply Ret.map ($t).toIntTy
      | with_reducible apply Ret.whileM (t := ($t).toIntTy)
      | with_reducible apply Ret.unwrapR
      | split
      | tyfact)

end

section
variable {T T2 : Type} {t : IdxTy}

theorem count_loop_ty {nnz : Nat} {key b_p0 : List Int} (hk : t.HasAll key) (h : t.HasAll b_p0) : Ret (count_loop t nnz key b_p0) (ty t.toIntTy) := by
  unfold count_loop; typ t
theorem cumsum_loop_ty {n_row : Nat} {b_p0 : List Int} (h : t.HasAll b_p0) : Ret (cumsum_loop t n_row b_p0) (ty t.toIntTy) := by
  unfold cumsum_loop; typ t
theorem shift_loop_ty {n_row : Nat} {b_p0 : List Int} (h : t.HasAll b_p0) : Ret (shift_loop n_row b_p0) (ty t.toIntTy) := by
  unfold shift_loop; typ t
theorem coo_scatter_ty {nnz : Nat} {a_i a_j : List Int} {a_x : List T} {b_p0 b_j0 : List Int} {b_x0 : List T} (hi : t.HasAll a_i) (hj : t.HasAll a_j)
    (h1 : t.HasAll b_p0) (h2 : t.HasAll b_j0) : Ret (coo_scatter t nnz a_i a_j a_x b_p0 b_j0 b_x0) (ty t.toIntTy) := by
  unfold coo_scatter; typ t
theorem coo_tocsr_ty {n_row nnz : Nat} {a_i a_j : List Int} {a_x : List T} {b_p b_j : List Int} {b_x : List T} (hi : t.HasAll a_i) (hj : t.HasAll a_j)
    (h2 : t.HasAll b_j) : Ret (coo_tocsr t n_row nnz a_i a_j a_x b_p b_j b_x) (ty t.toIntTy) := by
  unfold coo_tocsr; typ t [count_loop_ty, cumsum_loop_ty, shift_loop_ty, coo_scatter_ty]
theorem expandptr_ty {n_row : Nat} {a_p b_i0 : List Int} (h_a_p : t.HasAll a_p) (h_b_i0 : t.HasAll b_i0) :
    Ret (expandptr t n_row a_p b_i0) (ty t.toIntTy) := by
  unfold expandptr; typ t

theorem csr_scatter_ty {n_row : Nat} {a_p a_j : List Int} {a_x : List T} {b_p0 b_i0 : List Int} {b_x0 : List T} (h_a_p : t.HasAll a_p) (h_a_j : t.HasAll a_j) (h_b_p0 : t.HasAll b_p0) (h_b_i0 : t.HasAll b_i0) :
    Ret (csr_scatter t n_row a_p a_j a_x b_p0 b_i0 b_x0) (ty t.toIntTy) := by
  unfold csr_scatter; typ t

theorem csr_tocsc_ty {n_row n_col : Nat} {a_p a_j : List Int} {a_x : List T} {b_p b_i : List Int} {b_x : List T} (h_a_p : t.HasAll a_p) (h_a_j : t.HasAll a_j) (h_b_i : t.HasAll b_i) :
    Ret (csr_tocsc t n_row n_col a_p a_j a_x b_p b_i b_x) (ty t.toIntTy) := by
  unfold csr_tocsc; typ t [count_loop_ty, cumsum_loop_ty, csr_scatter_ty, shift_loop_ty]
theorem Ret.true {m : M α} : Ret m (fun _ => True) := fun _ _ => trivial
theorem Ret.bindTrue {m : M α} {f : α → M β} {Q : β → Prop} (hf : ∀ a, Ret (f a) Q) : Ret (m >>= f) Q :=
  .bind' .true fun a _ => hf a

/-- go through straight-line code; what cannot be shown of an intermediate value is forgotten -/
syntax "typx " term:max (" [" term,* "]")? : tactic
macro_rules
  | `(tactic| typx $t) => `(tactic| typx $t [])
  | `(tactic| typx $t [$ts,*]) => do
    let alts ← ts.getElems.mapM fun x => `(tactic| (with_reducible apply Ret.bind' $x))
    `(tactic| repeat' first
      | with_reducible intro _
      | with_reducible exact Ret.throw
      $[| $alts:tactic]*
      | with_reducible apply Ret.bind ($t).toIntTy (Ret.ofInt _)
      | with_reducible apply Ret.bind ($t).toIntTy (Ret.ofUsize _)
      | with_reducible apply Ret.bind ($t).toIntTy (Ret.add _ _)
      | with_reducible apply Ret.bind ($t).toIntTy (Ret.sub _ _)
      | with_reducible apply Ret.bind ($t).toIntTy (Ret.rdInt (by tyfact))
      | with_reducible apply Ret.bind ($t).toIntTy (Ret.wrInt (by tyfact) (by tyfact))
      | with_reducible apply Ret.bindTrue
      | (with_reducible apply Ret.pure; dsimp only; tyfact)
      | with_reducible apply Ret.pure
      | with_reducible apply Ret.ite
      | split
      | tyfact)

/-- the state of the accumulation loops: the linked list is made of `isize` values -/
theorem matmat_accum_ty [Add T] [Mul T] {kk_start kk_end : Nat} {v : T} {b_j : List Int} {b_x : List T} {next0 : List Int} {sums0 : List T}
    {head0 length0 : Int} (h : t.Has length0) :
    Ret (matmat_accum t kk_start kk_end v b_j b_x next0 sums0 head0 length0) (fun r => t.Has r.2.2.2) := by
  unfold matmat_accum
  dsimp only
  refine .bind' (.forIn' (fun s => t.Has s.2.2.2) h ?_ fun s hs => hs) fun s hs => .pure hs
  typx t

theorem matmat_flush_ty [Zero T] [BEq T] {length head0 : Int} {next0 : List Int} {sums0 : List T} {nnz0 : Int} {c_j0 : List Int} {c_x0 : List T}
    (h1 : t.Has nnz0) (h2 : t.HasAll c_j0) :
    Ret (matmat_flush t length head0 next0 sums0 nnz0 c_j0 c_x0) (fun r => t.Has r.2.2.1 ∧ t.HasAll r.2.2.2.1) := by
  unfold matmat_flush
  dsimp only
  refine .bindTrue fun k => .bind' (.forIn' (fun s => t.Has s.2.2.2.1 ∧ t.HasAll s.2.2.2.2.1) ⟨h1, h2⟩ ?_ fun s hs => hs) fun s hs => .pure hs
  typx t
-- REST
theorem csr_matmat_ty [Zero T] [Add T] [Mul T] [BEq T] {n_row n_col : Nat} {a_p a_j : List Int} {a_x : List T} {b_p b_j : List Int}
    {b_x : List T} {c_p0 c_j0 : List Int} {c_x0 : List T} (h1 : t.HasAll c_p0) (h2 : t.HasAll c_j0) :
    Ret (csr_matmat t n_row n_col a_p a_j a_x b_p b_j b_x c_p0 c_j0 c_x0) (ty t.toIntTy) := by
  unfold csr_matmat
  refine .bind t.toIntTy (.wrInt h1 t.has_zero) fun c_p hp => ?_
  dsimp only
  refine .bind' (.forIn' (fun s => t.Has s.2.2.1 ∧ t.HasAll s.2.2.2.1 ∧ t.HasAll s.2.2.2.2.1) ⟨t.has_zero, hp, h2⟩ ?_ fun s hs => hs)
    fun s hs => .pure ⟨hs.2.1, hs.2.2, trivial⟩
  intro i s hs
  refine .bindTrue fun _ => .bindTrue fun _ => .bindTrue fun _ => .bindTrue fun _ => ?_
  refine .bind' (.forIn' (fun s => t.Has s.2.2.2) t.has_zero ?_ fun s hs => hs) fun r hr => ?_
  · typx t [matmat_accum_ty (by assumption)]
  · refine .bind' (matmat_flush_ty hs.1 hs.2.2) fun q hq => ?_
    refine .bind t.toIntTy (.wrInt hs.2.1 hq.1) fun c hc => .pure ⟨hq.1, hc, hq.2⟩

theorem binop_accum_ty [Add T] {i_start i_end : Nat} {a_j : List Int} {a_x : List T} {next0 : List Int} {row0 : List T} {head0 length0 : Int}
    (h : t.Has length0) : Ret (binop_accum t i_start i_end a_j a_x next0 row0 head0 length0) (fun r => t.Has r.2.2.2) := by
  unfold binop_accum
  dsimp only
  refine .bind' (.forIn' (fun s => t.Has s.2.2.2) h ?_ fun s hs => hs) fun s hs => .pure hs
  typx t

theorem binop_flush_ty [Zero T] {op : T → T → T2} {nz : T2 → Bool} {length head0 : Int} {next0 : List Int} {a_row0 b_row0 : List T} {nnz0 : Int}
    {c_j0 : List Int} {c_x0 : List T2} (h1 : t.Has nnz0) (h2 : t.HasAll c_j0) :
    Ret (binop_flush t op nz length head0 next0 a_row0 b_row0 nnz0 c_j0 c_x0) (fun r => t.Has r.2.2.2.1 ∧ t.HasAll r.2.2.2.2.1) := by
  unfold binop_flush
  dsimp only
  refine .bindTrue fun k => .bind' (.forIn' (fun s => t.Has s.2.2.2.2.1 ∧ t.HasAll s.2.2.2.2.2.1) ⟨h1, h2⟩ ?_ fun s hs => hs) fun s hs => .pure hs
  typx t

theorem csr_binop_csr_general_ty [Zero T] [Add T] {n_row n_col : Nat} {a_p a_j : List Int} {a_x : List T} {b_p b_j : List Int} {b_x : List T}
    {c_p0 c_j0 : List Int} {c_x0 : List T2} {op : T → T → T2} {nz : T2 → Bool} (h1 : t.HasAll c_p0) (h2 : t.HasAll c_j0) :
    Ret (csr_binop_csr_general t n_row n_col a_p a_j a_x b_p b_j b_x c_p0 c_j0 c_x0 op nz) (ty t.toIntTy) := by
  unfold csr_binop_csr_general
  refine .bind t.toIntTy (.wrInt h1 t.has_zero) fun c_p hp => ?_
  dsimp only
  refine .bind' (.forIn' (fun s => t.Has s.2.2.2.1 ∧ t.HasAll s.2.2.2.2.1 ∧ t.HasAll s.2.2.2.2.2.1) ⟨t.has_zero, hp, h2⟩ ?_ fun s hs => hs)
    fun s hs => .pure ⟨hs.2.1, hs.2.2, trivial⟩
  intro i s hs
  refine .bindTrue fun _ => .bindTrue fun _ => .bindTrue fun _ => .bindTrue fun _ => ?_
  refine .bind' (binop_accum_ty t.has_zero) fun ra hra => ?_
  refine .bindTrue fun _ => .bindTrue fun _ => .bindTrue fun _ => .bindTrue fun _ => ?_
  refine .bind' (binop_accum_ty hra) fun rb hrb => ?_
  refine .bind' (binop_flush_ty hs.1 hs.2.2) fun q hq => ?_
  exact .bind t.toIntTy (.wrInt hs.2.1 hq.1) fun c hc => .pure ⟨hq.1, hc, hq.2⟩

theorem binop_emit_ty {t : IntTy} {nz : T2 → Bool} {j : Int} {result : T2} {nnz : Nat} {c_j : List Int} {c_x : List T2} (hj : t.Has j)
    (h : t.HasAll c_j) : Ret (binop_emit nz j result nnz c_j c_x) (ty t) := by
  unfold binop_emit
  refine .ite (.bind t (.wrInt h hj) fun a ha => .bindTrue fun _ => .pure ⟨trivial, ha, trivial⟩) (.pure ⟨trivial, h, trivial⟩)

theorem canonical_merge_ty [Zero T] {a_j : List Int} {a_x : List T} {b_j : List Int} {b_x : List T} {op : T → T → T2} {nz : T2 → Bool}
    {a_end b_end : Nat} {s : Nat × Nat × Nat × List Int × List T2} (h1 : t.HasAll a_j) (h2 : t.HasAll b_j) (hs : ty t.toIntTy s) :
    Ret (canonical_merge a_j a_x b_j b_x op nz a_end b_end s) (ty t.toIntTy) := by
  unfold canonical_merge
  refine .whileM hs ?_
  rintro ⟨a_pos, b_pos, nnz, c_j, c_x⟩ ⟨-, -, -, hj, -⟩
  dsimp only at hj ⊢
  refine .ite ?_ (.pure ⟨trivial, trivial, trivial, hj, trivial⟩)
  refine .bind t.toIntTy (.rdInt h1) fun aj haj => .bind t.toIntTy (.rdInt h2) fun bj hbj => ?_
  refine .ite (.bindTrue fun _ => .bindTrue fun _ => ?_) (.ite (.bindTrue fun _ => ?_) (.bindTrue fun _ => ?_))
  · exact .bind t.toIntTy (binop_emit_ty haj hj) fun r hr => .pure ⟨trivial, trivial, hr⟩
  · exact .bind t.toIntTy (binop_emit_ty haj hj) fun r hr => .pure ⟨trivial, trivial, hr⟩
  · exact .bind t.toIntTy (binop_emit_ty hbj hj) fun r hr => .pure ⟨trivial, trivial, hr⟩

theorem tail_emit_ty {nz : T2 → Bool} {a_j : List Int} {p : Nat} {result : T2} {nnz : Nat} {c_j : List Int} {c_x : List T2}
    (h1 : t.HasAll a_j) (h : t.HasAll c_j) : Ret (tail_emit nz a_j p result nnz c_j c_x) (ty t.toIntTy) := by
  unfold tail_emit
  refine .ite (.bind t.toIntTy (.rdInt h1) fun k hk => .bind t.toIntTy (.wrInt h hk) fun a ha => .bindTrue fun _ => .pure ⟨trivial, ha, trivial⟩)
    (.pure ⟨trivial, h, trivial⟩)

theorem canonical_tail_ty {a_j : List Int} {a_x : List T} {f : T → T2} {nz : T2 → Bool} {a_end : Nat} {s : Nat × Nat × List Int × List T2}
    (h1 : t.HasAll a_j) (hs : ty t.toIntTy s) : Ret (canonical_tail a_j a_x f nz a_end s) (ty t.toIntTy) := by
  unfold canonical_tail
  refine .whileM hs ?_
  rintro ⟨a_pos, nnz, c_j, c_x⟩ ⟨-, -, hj, -⟩
  dsimp only at hj ⊢
  refine .ite (.bindTrue fun _ => ?_) (.pure ⟨trivial, trivial, hj, trivial⟩)
  exact .bind t.toIntTy (tail_emit_ty h1 hj) fun r hr => .pure ⟨trivial, hr⟩

theorem sum_row_ty [Add T] {row_end : Nat} {s : Nat × Nat × List Int × List T} (hs : ty t.toIntTy s) :
    Ret (sum_row row_end s) (ty t.toIntTy) := by
  unfold sum_row
  refine .whileM hs ?_
  rintro ⟨jj, nnz, a_j, a_x⟩ ⟨-, -, hj, -⟩
  dsimp only at hj ⊢
  refine .ite ?_ (.pure ⟨trivial, trivial, hj, trivial⟩)
  refine .bind t.toIntTy (.rdInt hj) fun aj haj => .bindTrue fun _ => .bindTrue fun _ => ?_
  exact .bind t.toIntTy (.wrInt hj haj) fun r hr => .bindTrue fun _ => .pure ⟨trivial, trivial, hr, trivial⟩

theorem elim_row_ty [Zero T] [BEq T] {row_end : Nat} {s : Nat × Nat × List Int × List T} (hs : ty t.toIntTy s) :
    Ret (elim_row row_end s) (ty t.toIntTy) := by
  unfold elim_row
  refine .whileM hs ?_
  rintro ⟨jj, nnz, a_j, a_x⟩ ⟨-, -, hj, -⟩
  dsimp only at hj ⊢
  refine .ite ?_ (.pure ⟨trivial, trivial, hj, trivial⟩)
  refine .bind t.toIntTy (.rdInt hj) fun aj haj => .bindTrue fun _ => .ite ?_ (.pure ⟨trivial, trivial, hj, trivial⟩)
  exact .bind t.toIntTy (.wrInt hj haj) fun r hr => .bindTrue fun _ => .pure ⟨trivial, trivial, hr, trivial⟩


theorem csr_binop_csr_canonical_ty [Zero T] {n_row : Nat} {a_p a_j : List Int} {a_x : List T} {b_p b_j : List Int} {b_x : List T} {c_p0 c_j0 : List Int} {c_x0 : List T2} {op : T → T → T2} {nz : T2 → Bool} (h_a_p : t.HasAll a_p) (h_a_j : t.HasAll a_j) (h_b_p : t.HasAll b_p) (h_b_j : t.HasAll b_j) (h_c_p0 : t.HasAll c_p0) (h_c_j0 : t.HasAll c_j0) :
    Ret (csr_binop_csr_canonical t n_row a_p a_j a_x b_p b_j b_x c_p0 c_j0 c_x0 op nz) (ty t.toIntTy) := by
  unfold csr_binop_csr_canonical; typ t [canonical_merge_ty, canonical_tail_ty]

theorem csr_binop_csr_ty [Zero T] [Add T] {n_row n_col : Nat} {a_p a_j : List Int} {a_x : List T} {b_p b_j : List Int} {b_x : List T} {c_p c_j : List Int} {c_x : List T2} {op : T → T → T2} {nz : T2 → Bool} (h_a_p : t.HasAll a_p) (h_a_j : t.HasAll a_j) (h_b_p : t.HasAll b_p) (h_b_j : t.HasAll b_j) (h_c_p : t.HasAll c_p) (h_c_j : t.HasAll c_j) :
    Ret (csr_binop_csr t n_row n_col a_p a_j a_x b_p b_j b_x c_p c_j c_x op nz) (ty t.toIntTy) := by
  unfold csr_binop_csr; typ t [csr_binop_csr_general_ty, csr_binop_csr_canonical_ty]

theorem csr_ne_csr_ty [Zero T] [Add T] [BEq T] {n_row n_col : Nat} {a_p a_j : List Int} {a_x : List T} {b_p b_j : List Int} {b_x : List T}
    {c_p c_j : List Int} {c_x : List Bool} (h1 : t.HasAll a_p) (h2 : t.HasAll a_j) (h3 : t.HasAll b_p) (h4 : t.HasAll b_j) (h5 : t.HasAll c_p)
    (h6 : t.HasAll c_j) : Ret (csr_ne_csr t n_row n_col a_p a_j a_x b_p b_j b_x c_p c_j c_x) (ty t.toIntTy) :=
  csr_binop_csr_ty h1 h2 h3 h4 h5 h6

theorem csr_eq_csr_ty [Zero T] [Add T] [BEq T] {n_row n_col : Nat} {a_p a_j : List Int} {a_x : List T} {b_p b_j : List Int} {b_x : List T}
    {c_p c_j : List Int} {c_x : List Bool} (h1 : t.HasAll a_p) (h2 : t.HasAll a_j) (h3 : t.HasAll b_p) (h4 : t.HasAll b_j) (h5 : t.HasAll c_p)
    (h6 : t.HasAll c_j) : Ret (csr_eq_csr t n_row n_col a_p a_j a_x b_p b_j b_x c_p c_j c_x) (ty t.toIntTy) :=
  csr_binop_csr_ty h1 h2 h3 h4 h5 h6

theorem csr_lt_csr_ty [Zero T] [Add T] [BEq T] [LT T] [DecidableRel (α := T) (· < ·)] {n_row n_col : Nat} {a_p a_j : List Int} {a_x : List T} {b_p b_j : List Int} {b_x : List T}
    {c_p c_j : List Int} {c_x : List Bool} (h1 : t.HasAll a_p) (h2 : t.HasAll a_j) (h3 : t.HasAll b_p) (h4 : t.HasAll b_j) (h5 : t.HasAll c_p)
    (h6 : t.HasAll c_j) : Ret (csr_lt_csr t n_row n_col a_p a_j a_x b_p b_j b_x c_p c_j c_x) (ty t.toIntTy) :=
  csr_binop_csr_ty h1 h2 h3 h4 h5 h6

theorem csr_le_csr_ty [Zero T] [Add T] [BEq T] [LE T] [DecidableRel (α := T) (· ≤ ·)] {n_row n_col : Nat} {a_p a_j : List Int} {a_x : List T} {b_p b_j : List Int} {b_x : List T}
    {c_p c_j : List Int} {c_x : List Bool} (h1 : t.HasAll a_p) (h2 : t.HasAll a_j) (h3 : t.HasAll b_p) (h4 : t.HasAll b_j) (h5 : t.HasAll c_p)
    (h6 : t.HasAll c_j) : Ret (csr_le_csr t n_row n_col a_p a_j a_x b_p b_j b_x c_p c_j c_x) (ty t.toIntTy) :=
  csr_binop_csr_ty h1 h2 h3 h4 h5 h6

theorem csr_gt_csr_ty [Zero T] [Add T] [BEq T] [LT T] [DecidableRel (α := T) (· < ·)] {n_row n_col : Nat} {a_p a_j : List Int} {a_x : List T} {b_p b_j : List Int} {b_x : List T}
    {c_p c_j : List Int} {c_x : List Bool} (h1 : t.HasAll a_p) (h2 : t.HasAll a_j) (h3 : t.HasAll b_p) (h4 : t.HasAll b_j) (h5 : t.HasAll c_p)
    (h6 : t.HasAll c_j) : Ret (csr_gt_csr t n_row n_col a_p a_j a_x b_p b_j b_x c_p c_j c_x) (ty t.toIntTy) :=
  csr_binop_csr_ty h1 h2 h3 h4 h5 h6

theorem csr_ge_csr_ty [Zero T] [Add T] [BEq T] [LE T] [DecidableRel (α := T) (· ≤ ·)] {n_row n_col : Nat} {a_p a_j : List Int} {a_x : List T} {b_p b_j : List Int} {b_x : List T}
    {c_p c_j : List Int} {c_x : List Bool} (h1 : t.HasAll a_p) (h2 : t.HasAll a_j) (h3 : t.HasAll b_p) (h4 : t.HasAll b_j) (h5 : t.HasAll c_p)
    (h6 : t.HasAll c_j) : Ret (csr_ge_csr t n_row n_col a_p a_j a_x b_p b_j b_x c_p c_j c_x) (ty t.toIntTy) :=
  csr_binop_csr_ty h1 h2 h3 h4 h5 h6

theorem csr_mul_csr_ty [Zero T] [Add T] [BEq T] [Mul T] {n_row n_col : Nat} {a_p a_j : List Int} {a_x : List T} {b_p b_j : List Int} {b_x : List T}
    {c_p c_j : List Int} {c_x : List T} (h1 : t.HasAll a_p) (h2 : t.HasAll a_j) (h3 : t.HasAll b_p) (h4 : t.HasAll b_j) (h5 : t.HasAll c_p)
    (h6 : t.HasAll c_j) : Ret (csr_mul_csr t n_row n_col a_p a_j a_x b_p b_j b_x c_p c_j c_x) (ty t.toIntTy) :=
  csr_binop_csr_ty h1 h2 h3 h4 h5 h6

theorem csr_div_csr_ty [Zero T] [Add T] [BEq T] [Div T] {n_row n_col : Nat} {a_p a_j : List Int} {a_x : List T} {b_p b_j : List Int} {b_x : List T}
    {c_p c_j : List Int} {c_x : List T} (h1 : t.HasAll a_p) (h2 : t.HasAll a_j) (h3 : t.HasAll b_p) (h4 : t.HasAll b_j) (h5 : t.HasAll c_p)
    (h6 : t.HasAll c_j) : Ret (csr_div_csr t n_row n_col a_p a_j a_x b_p b_j b_x c_p c_j c_x) (ty t.toIntTy) :=
  csr_binop_csr_ty h1 h2 h3 h4 h5 h6

theorem csr_add_csr_ty [Zero T] [Add T] [BEq T] {n_row n_col : Nat} {a_p a_j : List Int} {a_x : List T} {b_p b_j : List Int} {b_x : List T}
    {c_p c_j : List Int} {c_x : List T} (h1 : t.HasAll a_p) (h2 : t.HasAll a_j) (h3 : t.HasAll b_p) (h4 : t.HasAll b_j) (h5 : t.HasAll c_p)
    (h6 : t.HasAll c_j) : Ret (csr_add_csr t n_row n_col a_p a_j a_x b_p b_j b_x c_p c_j c_x) (ty t.toIntTy) :=
  csr_binop_csr_ty h1 h2 h3 h4 h5 h6

theorem csr_sub_csr_ty [Zero T] [Add T] [BEq T] [Sub T] {n_row n_col : Nat} {a_p a_j : List Int} {a_x : List T} {b_p b_j : List Int} {b_x : List T}
    {c_p c_j : List Int} {c_x : List T} (h1 : t.HasAll a_p) (h2 : t.HasAll a_j) (h3 : t.HasAll b_p) (h4 : t.HasAll b_j) (h5 : t.HasAll c_p)
    (h6 : t.HasAll c_j) : Ret (csr_sub_csr t n_row n_col a_p a_j a_x b_p b_j b_x c_p c_j c_x) (ty t.toIntTy) :=
  csr_binop_csr_ty h1 h2 h3 h4 h5 h6

theorem csr_max_csr_ty [Zero T] [Add T] [BEq T] [LT T] [DecidableRel (α := T) (· < ·)] {n_row n_col : Nat} {a_p a_j : List Int} {a_x : List T} {b_p b_j : List Int} {b_x : List T}
    {c_p c_j : List Int} {c_x : List T} (h1 : t.HasAll a_p) (h2 : t.HasAll a_j) (h3 : t.HasAll b_p) (h4 : t.HasAll b_j) (h5 : t.HasAll c_p)
    (h6 : t.HasAll c_j) : Ret (csr_max_csr t n_row n_col a_p a_j a_x b_p b_j b_x c_p c_j c_x) (ty t.toIntTy) :=
  csr_binop_csr_ty h1 h2 h3 h4 h5 h6

theorem csr_min_csr_ty [Zero T] [Add T] [BEq T] [LT T] [DecidableRel (α := T) (· < ·)] {n_row n_col : Nat} {a_p a_j : List Int} {a_x : List T} {b_p b_j : List Int} {b_x : List T}
    {c_p c_j : List Int} {c_x : List T} (h1 : t.HasAll a_p) (h2 : t.HasAll a_j) (h3 : t.HasAll b_p) (h4 : t.HasAll b_j) (h5 : t.HasAll c_p)
    (h6 : t.HasAll c_j) : Ret (csr_min_csr t n_row n_col a_p a_j a_x b_p b_j b_x c_p c_j c_x) (ty t.toIntTy) :=
  csr_binop_csr_ty h1 h2 h3 h4 h5 h6

theorem csr_sum_duplicates_ty [Add T] {n_row : Nat} {a_p0 a_j0 : List Int} {a_x0 : List T} (h_a_p0 : t.HasAll a_p0) (h_a_j0 : t.HasAll a_j0) :
    Ret (csr_sum_duplicates t n_row a_p0 a_j0 a_x0) (ty t.toIntTy) := by
  unfold csr_sum_duplicates; typ t [sum_row_ty]

theorem csr_eliminate_zeros_ty [Zero T] [BEq T] {n_row : Nat} {a_p0 a_j0 : List Int} {a_x0 : List T} (h_a_p0 : t.HasAll a_p0) (h_a_j0 : t.HasAll a_j0) :
    Ret (csr_eliminate_zeros t n_row a_p0 a_j0 a_x0) (ty t.toIntTy) := by
  unfold csr_eliminate_zeros; typ t [elim_row_ty]

theorem csr_select_ty [Zero T] {a_p a_j : List Int} {a_x : List T} {rowidx colidx : List Int} {b_p0 b_j0 : List Int} {b_x0 : List T} (h_a_p : t.HasAll a_p) (h_rowidx : t.HasAll rowidx) (h_colidx : t.HasAll colidx) (h_b_p0 : t.HasAll b_p0) (h_b_j0 : t.HasAll b_j0) :
    Ret (csr_select t a_p a_j a_x rowidx colidx b_p0 b_j0 b_x0) (ty t.toIntTy) := by
  unfold csr_select; typ t

theorem get_csr_submatrix_ty [Zero T] {a_p a_j : List Int} {a_x : List T} {ir0 ir1 ic0 ic1 : Int} {b_p0 b_j0 : List Int} {b_x0 : List T} (h_a_p : t.HasAll a_p) (h_a_j : t.HasAll a_j) (h_b_p0 : t.HasAll b_p0) (h_b_j0 : t.HasAll b_j0) :
    Ret (get_csr_submatrix t a_p a_j a_x ir0 ir1 ic0 ic1 b_p0 b_j0 b_x0) (ty t.toIntTy) := by
  unfold get_csr_submatrix; typ t

theorem csr_column_index1_ty {n_idx : Nat} {col_idxs : List Nat} {n_row n_col : Nat} {a_p a_j : List Int} {col_offsets0 b_p0 : List Int} (h_a_p : t.HasAll a_p) (h_a_j : t.HasAll a_j) (h_col_offsets0 : t.HasAll col_offsets0) (h_b_p0 : t.HasAll b_p0) :
    Ret (csr_column_index1 t n_idx col_idxs n_row n_col a_p a_j col_offsets0 b_p0) (ty t.toIntTy) := by
  unfold csr_column_index1; typ t

theorem csr_tocoo_ty {n_row : Nat} {a_p a_j : List Int} {a_x : List T} {a_i0 b_j0 : List Int} {b_x0 : List T} (h_a_p : t.HasAll a_p) (h_a_j : t.HasAll a_j) (h_a_i0 : t.HasAll a_i0) (h_b_j0 : t.HasAll b_j0) :
    Ret (csr_tocoo t n_row a_p a_j a_x a_i0 b_j0 b_x0) (ty t.toIntTy) := by
  unfold csr_tocoo; typ t

theorem csc_tocsr_ty {n_row n_col : Nat} {a_p a_i : List Int} {a_x : List T} {b_p b_j : List Int} {b_x : List T} (h_a_p : t.HasAll a_p) (h_a_i : t.HasAll a_i) (h_b_j : t.HasAll b_j) :
    Ret (csc_tocsr t n_row n_col a_p a_i a_x b_p b_j b_x) (ty t.toIntTy) := by
  unfold csc_tocsr; typ t [csr_tocsc_ty]

theorem csc_matmat_ty [Zero T] [Add T] [Mul T] [BEq T] {n_row n_col : Nat} {a_p a_i : List Int} {a_x : List T} {b_p b_i : List Int} {b_x : List T} {c_p c_i : List Int} {c_x : List T} (h_c_p : t.HasAll c_p) (h_c_i : t.HasAll c_i) :
    Ret (csc_matmat t n_row n_col a_p a_i a_x b_p b_i b_x c_p c_i c_x) (ty t.toIntTy) := by
  unfold csc_matmat; typ t [csr_matmat_ty]

theorem csr_sort_indices_ty [Zero T] {n_row : Nat} {a_p a_j0 : List Int} {a_x0 : List T} (h2 : t.HasAll a_j0) :
    Ret (csr_sort_indices n_row a_p a_j0 a_x0) (ty t.toIntTy) := by
  unfold csr_sort_indices
  dsimp only
  have hz : ∀ (l : List (Int × T)) (n : Nat), (∀ e ∈ l, t.Has e.1) → ∀ e ∈ l.resize n (0, 0), t.Has e.1 := by
    intro l n h e he
    unfold List.resize at he
    rcases List.mem_append.1 he with he | he
    · exact h e (List.mem_of_mem_take he)
    · rw [List.eq_of_mem_replicate he]; exact t.has_zero
  refine .bind' (.forIn' (fun s => t.HasAll s.1 ∧ ∀ e ∈ s.2.2, t.Has e.1) ⟨h2, by simp⟩ ?_ fun s hs => hs) fun s hs => .pure ⟨hs.1, trivial⟩
  intro i s hs
  refine .bindTrue fun _ => .bindTrue fun _ => .bindTrue fun _ => .bindTrue fun _ => .bindTrue fun _ => ?_
  refine .bind' (.forIn' (fun s => ∀ e ∈ s.1, t.Has e.1) (hz _ _ hs.2) ?_ fun s hs => hs) fun r hr => ?_
  · intro jj q hq
    refine .bind t.toIntTy (.rdInt hs.1) fun a ha => .bindTrue fun _ => ?_
    refine .bind t.toIntTy (.wrPair hq ha) fun w hw => .bind t.toIntTy (.rdPair hw) fun p hp => .bindTrue fun _ => ?_
    exact .bind t.toIntTy (.wrPair hw hp.1) fun w hw => .pure hw
  · have hr' : ∀ e ∈ r.1.mergeSort (fun a b => decide (a.1 ≤ b.1)), t.Has e.1 := fun e he => hr e (List.mem_mergeSort.1 he)
    refine .bind' (.forIn' (fun s => t.HasAll s.1) hs.1 ?_ fun s hs => hs) fun r hr => ?_
    · intro jj q hq
      refine .bind t.toIntTy (.rdPair hr') fun p hp => ?_
      refine .bind t.toIntTy (.wrInt hq hp.1) fun w hw => .bindTrue fun _ => .bindTrue fun _ => ?_
      exact .pure hw
    · exact .pure ⟨hr, hr'⟩

theorem CSR_new_ty {rows cols : Nat} {rowptr colidx : List Int} {values : List T} (h1 : t.HasAll rowptr) (h2 : t.HasAll colidx) :
    Ret (CSR.new rows cols rowptr colidx values) (ty t.toIntTy) := by
  unfold CSR.new; typ t
theorem CSC_new_ty {rows cols : Nat} {rowidx colptr : List Int} {values : List T} (h1 : t.HasAll rowidx) (h2 : t.HasAll colptr) :
    Ret (CSC.new rows cols rowidx colptr values) (ty t.toIntTy) := by
  unfold CSC.new; typ t
theorem Coo_new_ty {rows cols : Nat} {rowidx colidx : List Int} {values : List T} (h1 : t.HasAll rowidx) (h2 : t.HasAll colidx) :
    Ret (Coo.new rows cols rowidx colidx values) (ty t.toIntTy) := by
  unfold Coo.new; typ t
theorem CSR_prune_ty [Zero T] {a : CSR T} (h : a.HasType t.toIntTy) : Ret (CSR.prune a) (ty t.toIntTy) := by
  unfold CSR.prune; typ t
theorem CSC_prune_ty {a : CSC T} (h : a.HasType t.toIntTy) : Ret (CSC.prune a) (ty t.toIntTy) := by
  unfold CSC.prune; typ t
theorem CSR_sort_indexes_ty [Zero T] {a : CSR T} (h : a.HasType t.toIntTy) : Ret (CSR.sort_indexes a) (ty t.toIntTy) := by
  unfold CSR.sort_indexes; typ t [csr_sort_indices_ty]
theorem CSC_sort_indexes_ty [Zero T] {a : CSC T} (h : a.HasType t.toIntTy) : Ret (CSC.sort_indexes a) (ty t.toIntTy) := by
  unfold CSC.sort_indexes; typ t [csr_sort_indices_ty]


theorem iotaM_ty {n : Nat} :
    Ret (iotaM t n) (ty t.toIntTy) := by
  unfold iotaM; typ t

theorem CSR_from_dense_ty [Zero T] [BEq T] {a : List (List T)} :
    Ret (CSR.from_dense t a) (ty t.toIntTy) := by
  unfold CSR.from_dense; typ t [CSR_new_ty, CSC_new_ty, Coo_new_ty, CSR_prune_ty, CSC_prune_ty, CSR_sort_indexes_ty, CSC_sort_indexes_ty]

theorem CSR_with_diagonal_ty {values : List T} :
    Ret (CSR.with_diagonal t values) (ty t.toIntTy) := by
  unfold CSR.with_diagonal; typ t [iotaM_ty, CSR_new_ty, CSC_new_ty, Coo_new_ty, CSR_prune_ty, CSC_prune_ty, CSR_sort_indexes_ty, CSC_sort_indexes_ty]

theorem CSR_sum_duplicates_ty [Zero T] [Add T] {a : CSR T} (h_a : a.HasType t.toIntTy) :
    Ret (CSR.sum_duplicates t a) (ty t.toIntTy) := by
  unfold CSR.sum_duplicates; typ t [csr_sum_duplicates_ty, CSR_new_ty, CSC_new_ty, Coo_new_ty, CSR_prune_ty, CSC_prune_ty, CSR_sort_indexes_ty, CSC_sort_indexes_ty]

theorem CSR_mat_mat_ty [Zero T] [Add T] [Mul T] [BEq T] {a x : CSR T} :
    Ret (CSR.mat_mat t a x) (ty t.toIntTy) := by
  unfold CSR.mat_mat; typ t [csr_matmat_ty, CSR_new_ty, CSC_new_ty, Coo_new_ty, CSR_prune_ty, CSC_prune_ty, CSR_sort_indexes_ty, CSC_sort_indexes_ty]

theorem select_idx_ty {n : Nat} {idx : Option (List Int)} : Ret (select_idx t n idx) (ty t.toIntTy) := by
  unfold select_idx
  cases idx with
  | none => exact iotaM_ty
  | some idx =>
    dsimp only
    refine .bind' (P := fun _ => t.HasAll idx) ?_ fun _ h => .pure h
    generalize PUnit.unit = u
    induction idx generalizing u with
    | nil => exact fun _ _ => t.hasAll_nil
    | cons x l ih =>
      rw [List.forIn_cons]
      refine .bind' (P := fun r => (∃ u, r = .yield u) ∧ t.Has x) ?_ ?_
      · have hlo := t.lo_nonpos
        refine .ite' (fun _ => .bind' (P := fun _ => False) .throw fun _ h => h.elim) fun h1 => ?_
        refine .bind t.toIntTy (.ofUsize n) fun y hy => ?_
        refine .ite' (fun _ => .bind' (P := fun _ => False) .throw fun _ h => h.elim) fun h2 => ?_
        exact .pure ⟨⟨_, rfl⟩, by have := hy.2; exact ⟨by omega, by omega⟩⟩
      · rintro _ ⟨⟨u, rfl⟩, hx⟩
        refine (ih u).mono fun _ h y hy => ?_
        rcases List.mem_cons.1 hy with rfl | hy
        · exact hx
        · exact h y hy

theorem CSR_select_ty [Zero T] {a : CSR T} {rowidx colidx : Option (List Int)} (h_a : a.HasType t.toIntTy) :
    Ret (CSR.select t a rowidx colidx) (ty t.toIntTy) := by
  unfold CSR.select; typ t [csr_select_ty, select_idx_ty, CSR_new_ty, CSC_new_ty, Coo_new_ty, CSR_prune_ty, CSC_prune_ty, CSR_sort_indexes_ty, CSC_sort_indexes_ty]

theorem CSC_from_dense_ty [Zero T] [BEq T] {a : List (List T)} :
    Ret (CSC.from_dense t a) (ty t.toIntTy) := by
  unfold CSC.from_dense; typ t [CSR_new_ty, CSC_new_ty, Coo_new_ty, CSR_prune_ty, CSC_prune_ty, CSR_sort_indexes_ty, CSC_sort_indexes_ty]

theorem CSC_with_diagonal_ty {values : List T} :
    Ret (CSC.with_diagonal t values) (ty t.toIntTy) := by
  unfold CSC.with_diagonal; typ t [iotaM_ty, CSR_new_ty, CSC_new_ty, Coo_new_ty, CSR_prune_ty, CSC_prune_ty, CSR_sort_indexes_ty, CSC_sort_indexes_ty]

theorem CSC_sum_duplicates_ty [Zero T] [Add T] {a : CSC T} (h_a : a.HasType t.toIntTy) :
    Ret (CSC.sum_duplicates t a) (ty t.toIntTy) := by
  unfold CSC.sum_duplicates; typ t [csr_sum_duplicates_ty, CSR_new_ty, CSC_new_ty, Coo_new_ty, CSR_prune_ty, CSC_prune_ty, CSR_sort_indexes_ty, CSC_sort_indexes_ty]

theorem CSC_mat_mat_ty [Zero T] [Add T] [Mul T] [BEq T] {a x : CSC T} :
    Ret (CSC.mat_mat t a x) (ty t.toIntTy) := by
  unfold CSC.mat_mat; typ t [csc_matmat_ty, CSR_new_ty, CSC_new_ty, Coo_new_ty, CSR_prune_ty, CSC_prune_ty, CSR_sort_indexes_ty, CSC_sort_indexes_ty]

theorem CSC_select_ty [Zero T] {a : CSC T} {rowidx colidx : Option (List Int)} (h_a : a.HasType t.toIntTy) :
    Ret (CSC.select t a rowidx colidx) (ty t.toIntTy) := by
  unfold CSC.select; typ t [csr_select_ty, select_idx_ty, CSR_new_ty, CSC_new_ty, Coo_new_ty, CSR_prune_ty, CSC_prune_ty, CSR_sort_indexes_ty, CSC_sort_indexes_ty]

theorem CSC_add_ty [Zero T] [Add T] [BEq T] {a x : CSC T} (h_a : a.HasType t.toIntTy) (h_x : x.HasType t.toIntTy) :
    Ret (CSC.add t a x) (ty t.toIntTy) := by
  unfold CSC.add; typ t [csr_add_csr_ty, CSR_new_ty, CSC_new_ty, Coo_new_ty, CSR_prune_ty, CSC_prune_ty, CSR_sort_indexes_ty, CSC_sort_indexes_ty]

theorem CSC_subtract_ty [Zero T] [Add T] [Sub T] [BEq T] {a x : CSC T} (h_a : a.HasType t.toIntTy) (h_x : x.HasType t.toIntTy) :
    Ret (CSC.subtract t a x) (ty t.toIntTy) := by
  unfold CSC.subtract; typ t [csr_sub_csr_ty, CSR_new_ty, CSC_new_ty, Coo_new_ty, CSR_prune_ty, CSC_prune_ty, CSR_sort_indexes_ty, CSC_sort_indexes_ty]

theorem CSC_to_csr_ty [Zero T] {a : CSC T} (h_a : a.HasType t.toIntTy) :
    Ret (CSC.to_csr t a) (ty t.toIntTy) := by
  unfold CSC.to_csr; typ t [csr_tocsc_ty, CSR_new_ty, CSC_new_ty, Coo_new_ty, CSR_prune_ty, CSC_prune_ty, CSR_sort_indexes_ty, CSC_sort_indexes_ty]

theorem CSR_to_csc_ty [Zero T] {a : CSR T} (h_a : a.HasType t.toIntTy) :
    Ret (CSR.to_csc t a) (ty t.toIntTy) := by
  unfold CSR.to_csc; typ t [csr_tocsc_ty, CSR_new_ty, CSC_new_ty, Coo_new_ty, CSR_prune_ty, CSC_prune_ty, CSR_sort_indexes_ty, CSC_sort_indexes_ty]

theorem Coo_from_dense_ty [Zero T] [BEq T] {a : List (List T)} :
    Ret (Coo.from_dense t a) (ty t.toIntTy) := by
  unfold Coo.from_dense; typ t [CSR_new_ty, CSC_new_ty, Coo_new_ty, CSR_prune_ty, CSC_prune_ty, CSR_sort_indexes_ty, CSC_sort_indexes_ty]

theorem Coo_with_diagonal_ty [Zero T] {diag : List T} :
    Ret (Coo.with_diagonal t diag) (ty t.toIntTy) := by
  unfold Coo.with_diagonal; typ t [CSR_new_ty, CSC_new_ty, Coo_new_ty, CSR_prune_ty, CSC_prune_ty, CSR_sort_indexes_ty, CSC_sort_indexes_ty]

theorem Coo_identity_ty [Zero T] [One T] {n : Nat} :
    Ret (Coo.identity (T := T) t n) (ty t.toIntTy) := by
  unfold Coo.identity; typ t [CSR_new_ty, CSC_new_ty, Coo_new_ty, CSR_prune_ty, CSC_prune_ty, CSR_sort_indexes_ty, CSC_sort_indexes_ty]

theorem Coo_to_csc_ty [Zero T] [Add T] {a : Coo T} (h_a : a.HasType t.toIntTy) :
    Ret (Coo.to_csc t a) (ty t.toIntTy) := by
  unfold Coo.to_csc; typ t [coo_tocsr_ty, CSR_sum_duplicates_ty, CSC_sum_duplicates_ty, CSR_new_ty, CSC_new_ty, Coo_new_ty, CSR_prune_ty, CSC_prune_ty, CSR_sort_indexes_ty, CSC_sort_indexes_ty]

theorem Coo_to_csr_ty [Zero T] [Add T] {a : Coo T} (h_a : a.HasType t.toIntTy) :
    Ret (Coo.to_csr t a) (ty t.toIntTy) := by
  unfold Coo.to_csr; typ t [coo_tocsr_ty, CSR_sum_duplicates_ty, CSC_sum_duplicates_ty, CSR_new_ty, CSC_new_ty, Coo_new_ty, CSR_prune_ty, CSC_prune_ty, CSR_sort_indexes_ty, CSC_sort_indexes_ty]

theorem Coo_upper_ty {a : Coo T} {k : Int} (h_a : a.HasType t.toIntTy) :
    Ret (Coo.upper t a k) (ty t.toIntTy) := by
  unfold Coo.upper; typ t [CSC_add_ty, CSR_new_ty, CSC_new_ty, Coo_new_ty, CSR_prune_ty, CSC_prune_ty, CSR_sort_indexes_ty, CSC_sort_indexes_ty]

theorem shiftM_ty {off : Nat} {idx : List Int} (h_idx : t.HasAll idx) :
    Ret (shiftM t off idx) (ty t.toIntTy) := by
  unfold shiftM
  exact .mapM h_idx fun a ha => .bind t.toIntTy (.ofUsize _) fun b hb => .add _ _

theorem Coo_v_stack_ty {a b : Coo T} (h_a : a.HasType t.toIntTy) (h_b : b.HasType t.toIntTy) :
    Ret (Coo.v_stack t a b) (ty t.toIntTy) := by
  unfold Coo.v_stack; typ t [shiftM_ty, CSR_new_ty, CSC_new_ty, Coo_new_ty, CSR_prune_ty, CSC_prune_ty, CSR_sort_indexes_ty, CSC_sort_indexes_ty]

theorem Coo_v_stack3_ty {a b c : Coo T} (h_a : a.HasType t.toIntTy) (h_b : b.HasType t.toIntTy) (h_c : c.HasType t.toIntTy) :
    Ret (Coo.v_stack3 t a b c) (ty t.toIntTy) := by
  unfold Coo.v_stack3; typ t [Coo_v_stack_ty, CSR_new_ty, CSC_new_ty, Coo_new_ty, CSR_prune_ty, CSC_prune_ty, CSR_sort_indexes_ty, CSC_sort_indexes_ty]

theorem Coo_h_stack_ty {a b : Coo T} (h_a : a.HasType t.toIntTy) (h_b : b.HasType t.toIntTy) :
    Ret (Coo.h_stack t a b) (ty t.toIntTy) := by
  unfold Coo.h_stack; typ t [shiftM_ty, CSR_new_ty, CSC_new_ty, Coo_new_ty, CSR_prune_ty, CSC_prune_ty, CSR_sort_indexes_ty, CSC_sort_indexes_ty]

theorem Coo_h_stack3_ty {a b c : Coo T} (h_a : a.HasType t.toIntTy) (h_b : b.HasType t.toIntTy) (h_c : c.HasType t.toIntTy) :
    Ret (Coo.h_stack3 t a b c) (ty t.toIntTy) := by
  unfold Coo.h_stack3; typ t [Coo_h_stack_ty, CSR_new_ty, CSC_new_ty, Coo_new_ty, CSR_prune_ty, CSC_prune_ty, CSR_sort_indexes_ty, CSC_sort_indexes_ty]

theorem Coo_compose_ty {j11 j12 j21 j22 : Coo T} (h_j11 : j11.HasType t.toIntTy) (h_j12 : j12.HasType t.toIntTy) (h_j21 : j21.HasType t.toIntTy) (h_j22 : j22.HasType t.toIntTy) :
    Ret (Coo.compose t j11 j12 j21 j22) (ty t.toIntTy) := by
  unfold Coo.compose; typ t [Coo_v_stack_ty, Coo_h_stack_ty, CSR_new_ty, CSC_new_ty, Coo_new_ty, CSR_prune_ty, CSC_prune_ty, CSR_sort_indexes_ty, CSC_sort_indexes_ty]

theorem Coo_compose3_ty {j11 j12 j13 j21 j22 j23 j31 j32 j33 : Coo T} (h_j11 : j11.HasType t.toIntTy) (h_j12 : j12.HasType t.toIntTy) (h_j13 : j13.HasType t.toIntTy) (h_j21 : j21.HasType t.toIntTy) (h_j22 : j22.HasType t.toIntTy) (h_j23 : j23.HasType t.toIntTy) (h_j31 : j31.HasType t.toIntTy) (h_j32 : j32.HasType t.toIntTy) (h_j33 : j33.HasType t.toIntTy) :
    Ret (Coo.compose3 t j11 j12 j13 j21 j22 j23 j31 j32 j33) (ty t.toIntTy) := by
  unfold Coo.compose3; typ t [Coo_v_stack3_ty, Coo_h_stack3_ty, CSR_new_ty, CSC_new_ty, Coo_new_ty, CSR_prune_ty, CSC_prune_ty, CSR_sort_indexes_ty, CSC_sort_indexes_ty]

theorem CSR_to_coo_ty {a : CSR T} (h_a : a.HasType t.toIntTy) :
    Ret (CSR.to_coo t a) (ty t.toIntTy) := by
  unfold CSR.to_coo; typ t [expandptr_ty, CSR_new_ty, CSC_new_ty, Coo_new_ty, CSR_prune_ty, CSC_prune_ty, CSR_sort_indexes_ty, CSC_sort_indexes_ty]

theorem CSC_to_coo_ty [Zero T] {a : CSC T} (h_a : a.HasType t.toIntTy) :
    Ret (CSC.to_coo t a) (ty t.toIntTy) := by
  unfold CSC.to_coo; typ t [csr_tocoo_ty, CSR_new_ty, CSC_new_ty, Coo_new_ty, CSR_prune_ty, CSC_prune_ty, CSR_sort_indexes_ty, CSC_sort_indexes_ty]

theorem CSR_h_stack_ty [Zero T] [Add T] {a b : CSR T} (h_a : a.HasType t.toIntTy) (h_b : b.HasType t.toIntTy) :
    Ret (CSR.h_stack t a b) (ty t.toIntTy) := by
  unfold CSR.h_stack; typ t [CSC_to_csr_ty, Coo_to_csr_ty, Coo_h_stack_ty, CSR_to_coo_ty, CSC_to_coo_ty, CSR_new_ty, CSC_new_ty, Coo_new_ty, CSR_prune_ty, CSC_prune_ty, CSR_sort_indexes_ty, CSC_sort_indexes_ty]

theorem CSC_compose_ty [Zero T] [Add T] {j11 j12 j21 j22 : CSC T} (h_j11 : j11.HasType t.toIntTy) (h_j12 : j12.HasType t.toIntTy) (h_j21 : j21.HasType t.toIntTy) (h_j22 : j22.HasType t.toIntTy) :
    Ret (CSC.compose t j11 j12 j21 j22) (ty t.toIntTy) := by
  unfold CSC.compose; typ t [CSR_to_csc_ty, Coo_to_csc_ty, Coo_v_stack_ty, Coo_h_stack_ty, CSR_to_coo_ty, CSC_to_coo_ty, CSR_h_stack_ty, CSR_new_ty, CSC_new_ty, Coo_new_ty, CSR_prune_ty, CSC_prune_ty, CSR_sort_indexes_ty, CSC_sort_indexes_ty]

theorem CSR_add_ty [Zero T] [Add T] [BEq T] {a b : CSR T} (h_a : a.HasType t.toIntTy) (h_b : b.HasType t.toIntTy) :
    Ret (CSR.add t a b) (ty t.toIntTy) := by
  unfold CSR.add; typ t [csr_add_csr_ty, CSR_new_ty, CSC_new_ty, Coo_new_ty, CSR_prune_ty, CSC_prune_ty, CSR_sort_indexes_ty, CSC_sort_indexes_ty]

theorem CSR_sub_ty [Zero T] [Add T] [Sub T] [BEq T] {a b : CSR T} (h_a : a.HasType t.toIntTy) (h_b : b.HasType t.toIntTy) :
    Ret (CSR.sub t a b) (ty t.toIntTy) := by
  unfold CSR.sub; typ t [csr_sub_csr_ty, CSR_new_ty, CSC_new_ty, Coo_new_ty, CSR_prune_ty, CSC_prune_ty, CSR_sort_indexes_ty, CSC_sort_indexes_ty]

theorem CSR_mul_ty [Zero T] [Add T] [Mul T] [BEq T] {a b : CSR T} :
    Ret (CSR.mul t a b) (ty t.toIntTy) := by
  unfold CSR.mul; typ t [CSR_mat_mat_ty, CSC_mat_mat_ty, CSR_new_ty, CSC_new_ty, Coo_new_ty, CSR_prune_ty, CSC_prune_ty, CSR_sort_indexes_ty, CSC_sort_indexes_ty]

theorem CSC_add_op_ty [Zero T] [Add T] [BEq T] {a b : CSC T} (h_a : a.HasType t.toIntTy) (h_b : b.HasType t.toIntTy) :
    Ret (CSC.add_op t a b) (ty t.toIntTy) := by
  unfold CSC.add_op; typ t [csr_add_csr_ty, CSR_new_ty, CSC_new_ty, Coo_new_ty, CSR_prune_ty, CSC_prune_ty, CSR_sort_indexes_ty, CSC_sort_indexes_ty]

theorem CSC_sub_op_ty [Zero T] [Add T] [Sub T] [BEq T] {a b : CSC T} (h_a : a.HasType t.toIntTy) (h_b : b.HasType t.toIntTy) :
    Ret (CSC.sub_op t a b) (ty t.toIntTy) := by
  unfold CSC.sub_op; typ t [csr_sub_csr_ty, CSR_new_ty, CSC_new_ty, Coo_new_ty, CSR_prune_ty, CSC_prune_ty, CSR_sort_indexes_ty, CSC_sort_indexes_ty]

theorem CSC_mul_ty [Zero T] [Add T] [Mul T] [BEq T] {a b : CSC T} :
    Ret (CSC.mul t a b) (ty t.toIntTy) := by
  unfold CSC.mul; typ t [CSR_mat_mat_ty, CSC_mat_mat_ty, CSR_new_ty, CSC_new_ty, Coo_new_ty, CSR_prune_ty, CSC_prune_ty, CSR_sort_indexes_ty, CSC_sort_indexes_ty]

theorem CSC_mul_csr_ty [Zero T] [Add T] [Mul T] [BEq T] {a : CSC T} {b : CSR T} (h_b : b.HasType t.toIntTy) :
    Ret (CSC.mul_csr t a b) (ty t.toIntTy) := by
  unfold CSC.mul_csr; typ t [CSR_mat_mat_ty, CSC_mat_mat_ty, CSR_to_csc_ty, Coo_to_csc_ty, CSR_new_ty, CSC_new_ty, Coo_new_ty, CSR_prune_ty, CSC_prune_ty, CSR_sort_indexes_ty, CSC_sort_indexes_ty]

theorem Coo_add_ty [Zero T] [Add T] {a b : Coo T} (h_a : a.HasType t.toIntTy) (h_b : b.HasType t.toIntTy) :
    Ret (Coo.add t a b) (ty t.toIntTy) := by
  unfold Coo.add; typ t [CSC_to_csr_ty, Coo_to_csr_ty, CSR_new_ty, CSC_new_ty, Coo_new_ty, CSR_prune_ty, CSC_prune_ty, CSR_sort_indexes_ty, CSC_sort_indexes_ty]

theorem CSR_transpose_ty {a : CSR T} (h : a.HasType t.toIntTy) : Ret (CSR.transpose a) (ty t.toIntTy) := by
  unfold CSR.transpose; typ t [CSC_new_ty]
theorem CSC_transpose_ty {a : CSC T} (h : a.HasType t.toIntTy) : Ret (CSC.transpose a) (ty t.toIntTy) := by
  unfold CSC.transpose; typ t [CSR_new_ty]
theorem CSR_neg_ty [Neg T] {a : CSR T} (h : a.HasType t.toIntTy) : Ret (CSR.neg a) (ty t.toIntTy) := by
  unfold CSR.neg; typ t [CSR_new_ty]
theorem CSC_neg_ty [Neg T] {a : CSC T} (h : a.HasType t.toIntTy) : Ret (CSC.neg a) (ty t.toIntTy) := by
  unfold CSC.neg; typ t [CSC_new_ty]
theorem Coo_neg_ty [Neg T] {a : Coo T} (h : a.HasType t.toIntTy) : Ret (Coo.neg a) (ty t.toIntTy) := by
  unfold Coo.neg; typ t [Coo_new_ty]
theorem CSR_mul_scalar_ty [Mul T] {a : CSR T} {s : T} (h : a.HasType t.toIntTy) : Ret (CSR.mul_scalar a s) (ty t.toIntTy) := by
  unfold CSR.mul_scalar; typ t [CSR_new_ty]
theorem CSR_scalar_mul_ty [Mul T] {a : CSR T} {s : T} (h : a.HasType t.toIntTy) : Ret (CSR.scalar_mul s a) (ty t.toIntTy) := by
  unfold CSR.scalar_mul; typ t [CSR_new_ty]
theorem CSC_mul_scalar_ty [Mul T] {a : CSC T} {s : T} (h : a.HasType t.toIntTy) : Ret (CSC.mul_scalar a s) (ty t.toIntTy) := by
  unfold CSC.mul_scalar; typ t [CSC_new_ty]
theorem CSC_scalar_mul_ty [Mul T] {a : CSC T} {s : T} (h : a.HasType t.toIntTy) : Ret (CSC.scalar_mul s a) (ty t.toIntTy) := by
  unfold CSC.scalar_mul; typ t [CSC_new_ty]
theorem csr_row_index_ty {n : Nat} {rows : List Nat} {a_p a_j : List Int} {a_x : List T} {b_j : List Int} {b_x : List T}
    (hp : t.HasAll a_p) (h1 : t.HasAll a_j) (h2 : t.HasAll b_j) : Ret (csr_row_index n rows a_p a_j a_x b_j b_x) (ty t.toIntTy) := by
  unfold csr_row_index; typ t
theorem csr_row_slice_ty {fuel start stop step : Nat} {a_p a_j : List Int} {a_x : List T} {b_j : List Int} {b_x : List T}
    (hp : t.HasAll a_p) (h1 : t.HasAll a_j) (h2 : t.HasAll b_j) :
    Ret (csr_row_slice fuel start stop step a_p a_j a_x b_j b_x) (ty t.toIntTy) := by
  unfold csr_row_slice; typ t
theorem csr_column_index2_ty {col_order col_offsets : List Int} {nnz : Nat} {a_j : List Int} {a_x : List T} {b_j : List Int} {b_x : List T}
    (ho : t.HasAll col_order) (hf : t.HasAll col_offsets) (h1 : t.HasAll a_j) (h2 : t.HasAll b_j) :
    Ret (csr_column_index2 col_order col_offsets nnz a_j a_x b_j b_x) (ty t.toIntTy) := by
  unfold csr_column_index2; typ t

theorem KMap.hasType_remove {t : IntTy} {m : KMap T} {k : Int × Int} (h : m.HasType t) : (m.remove k).HasType t :=
  fun e he => h e (List.mem_filter.1 he).1
theorem KMap.hasType_insert {t : IntTy} {m : KMap T} {k : Int × Int} {v : T} (h : m.HasType t) (hk : t.Has k.1 ∧ t.Has k.2) :
    (m.insert k v).HasType t := by
  intro e he
  rcases List.mem_cons.1 he with rfl | he
  · exact hk
  · exact KMap.hasType_remove h e he
theorem DoK_set_ty [Zero T] [BEq T] {d : DoK T} {i j : Int} {v : T} (h : d.values.HasType t.toIntTy) (hi : t.Has i) (hj : t.Has j) :
    Ret (DoK.set t d i j v) (fun r => r.1.values.HasType t.toIntTy) := by
  unfold DoK.set
  refine .ite (.pure h) (.bindTrue fun _ => .ite (.pure h) (.ite (.pure h) (.bindTrue fun _ => .ite (.pure h)
    (.ite (.pure (KMap.hasType_remove h)) (.pure (KMap.hasType_insert h ⟨hi, hj⟩))))))
theorem DoK_from_dense_ty [Zero T] [BEq T] {a : List (List T)} : Ret (DoK.from_dense t a) (fun d => d.values.HasType t.toIntTy) := by
  unfold DoK.from_dense
  have key : ∀ (m n : Nat) (f : Nat → DoK T → M (ForInStep (DoK T))),
      (∀ i s, s.values.HasType t.toIntTy → Ret (f i s) fun r => match r with | .yield d => d.values.HasType t.toIntTy | .done d => d.values.HasType t.toIntTy) →
      Ret (forIn (rng 0 a.length) (DoK.new m n) f >>= fun s => pure s) (fun d => d.values.HasType t.toIntTy) := by
    intro m n f hf
    refine .bind' (P := fun d => d.values.HasType t.toIntTy) (.forIn' (fun d => d.values.HasType t.toIntTy) ?_ (fun i s h => (hf i s h).mono fun r hr => by cases r <;> exact hr)
      fun s hs => hs) fun s hs => .pure hs
    intro e he; simp [DoK.new] at he
  have body : ∀ i (s : DoK T), s.values.HasType t.toIntTy → Ret (do
      let r ← a.rd i
      let s ← forIn (rng 0 r.length) s fun j s => do
        let v ← r.rd j
        if (v != 0) = true then do
          let x ← t.ofUsize i
          let y ← t.ofUsize j
          let q ← DoK.set t s x y v
          if q.2 = false then do
            let _ ← (throw (.panic .unwrap) : M Unit)
            pure (ForInStep.yield q.1)
          else pure (ForInStep.yield q.1)
        else pure (ForInStep.yield s)
      pure (ForInStep.yield s)) fun r => match r with | .yield d => d.values.HasType t.toIntTy | .done d => d.values.HasType t.toIntTy := by
    intro i s hs
    refine .bindTrue fun r => .bind' (P := fun d => d.values.HasType t.toIntTy) (.forIn' (fun d => d.values.HasType t.toIntTy) hs ?_ fun s hs => hs) fun s hs => .pure hs
    intro j s hs
    refine .bindTrue fun v => .ite (.bind t.toIntTy (.ofUsize _) fun x hx => .bind t.toIntTy (.ofUsize _) fun y hy => ?_) (.pure hs)
    exact .bind' (DoK_set_ty hs hx hy) fun q hq => .ite (.bind' (P := fun _ => True) .throw fun _ _ => .pure hq) (.pure hq)
  dsimp only
  split
  · exact .bindTrue fun _ => .bindTrue fun _ => key _ _ _ body
  · exact .bindTrue fun _ => key _ _ _ body
theorem DoK_to_coo_ty {d : DoK T} {es : KMap T} (h : es.HasType t.toIntTy) : Ret (DoK.to_coo d es) (ty t.toIntTy) := by
  unfold DoK.to_coo
  dsimp only
  have : ∀ (l : KMap T) (s : List Int × List Int × List T), l.HasType t.toIntTy → ty t.toIntTy s →
      Ret (forIn l s fun e r => (pure (ForInStep.yield (r.1 ++ [e.1.1], r.2.1 ++ [e.1.2], r.2.2 ++ [e.2])) : M _)) (ty t.toIntTy) := by
    intro l
    induction l with
    | nil => exact fun s _ hs => .pure hs
    | cons e l ih =>
      intro s hl hs
      rw [List.forIn_cons]
      refine ih _ (fun x hx => hl x (by simp [hx])) ?_
      exact ⟨t.hasAll_append.2 ⟨hs.1, t.hasAll_single.2 (hl e (by simp)).1⟩, t.hasAll_append.2 ⟨hs.2.1, t.hasAll_single.2 (hl e (by simp)).2⟩, trivial⟩
  refine .bind t.toIntTy (this _ _ h ⟨t.hasAll_nil, t.hasAll_nil, trivial⟩) fun s hs => ?_
  exact .unwrapR (Coo_new_ty hs.1 hs.2.1)
theorem DoK_to_csr_ty [Zero T] [Add T] {d : DoK T} {es : KMap T} (h : es.HasType t.toIntTy) : Ret (DoK.to_csr t d es) (ty t.toIntTy) :=
  .bind t.toIntTy (DoK_to_coo_ty h) fun _ ha => Coo_to_csr_ty ha
theorem DoK_to_csc_ty [Zero T] [Add T] {d : DoK T} {es : KMap T} (h : es.HasType t.toIntTy) : Ret (DoK.to_csc t d es) (ty t.toIntTy) :=
  .bind t.toIntTy (DoK_to_coo_ty h) fun _ ha => Coo_to_csc_ty ha
end
end Sparse

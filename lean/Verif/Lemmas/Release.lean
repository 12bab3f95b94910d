import Verif.Props.Widen
import Verif.Props.Invalid
import Verif.Lemmas.Unique
/-!
Conversions in a build without overflow checks: they fail where the build with overflow checks fails.
-/
namespace Sparse

section
variable {T α β σ : Type}

/-- equal outcomes, or both calls panic -/
def SamePanics (m m' : M α) : Prop := m = m' ∨ Panics m ∧ Panics m'

theorem SamePanics.refl (m : M α) : SamePanics m m := .inl rfl

theorem SamePanics.bind {m m' : M α} {f f' : α → M β} (h : SamePanics m m')
    (hf : ∀ a, m = .ok a → SamePanics (f a) (f' a)) : SamePanics (m >>= f) (m' >>= f') := by
  rcases h with rfl | ⟨h1, h2⟩
  · cases m with
    | ok a => exact hf a rfl
    | error e => exact .inl rfl
  · exact .inr ⟨panics_bind h1, panics_bind h2⟩

theorem SamePanics.forIn {l : List α} {s : σ} {f f' : α → σ → M (ForInStep σ)} (h : ∀ a ∈ l, ∀ s, SamePanics (f a s) (f' a s)) :
    SamePanics (forIn l s f) (forIn l s f') := by
  induction l generalizing s with
  | nil => exact .inl rfl
  | cons a l ih =>
    rw [List.forIn_cons, List.forIn_cons]
    refine (h a (by simp) s).bind fun r _ => ?_
    cases r with
    | done b => exact .inl rfl
    | yield b => exact ih fun a ha => h a (by simp [ha])

theorem SamePanics.unwrapR {m m' : M α} (h : SamePanics m m') : SamePanics (unwrapR m) (unwrapR m') := by
  rcases h with rfl | ⟨⟨p, rfl⟩, ⟨q, rfl⟩⟩
  · exact .inl rfl
  · exact .inr ⟨⟨p, rfl⟩, ⟨q, rfl⟩⟩

/-- the call does not return `Err` -/
structure NoErr (m : M α) : Prop where
  ne : m ≠ .error .err

theorem NoErr.bind {m : M α} {f : α → M β} (h : NoErr m) (hf : ∀ a, NoErr (f a)) : NoErr (m >>= f) := by
  cases m with
  | ok a => exact hf a
  | error e => exact ⟨fun h' => h.ne (by cases h'; rfl)⟩
theorem NoErr.pure (a : α) : NoErr (Pure.pure a : M α) := ⟨fun h => by cases h⟩
theorem NoErr.rd (l : List α) (i : Nat) : NoErr (l.rd i) := by
  unfold List.rd; split <;> exact ⟨fun h => by cases h⟩
theorem NoErr.wr (l : List α) (i : Nat) (v : α) : NoErr (l.wr i v) := by
  unfold List.wr; split <;> exact ⟨fun h => by cases h⟩
theorem NoErr.toUsize (z : Int) : NoErr (toUsize z) := by
  unfold Sparse.toUsize; split <;> exact ⟨fun h => by cases h⟩
theorem NoErr.add (t : IdxTy) (a b : Int) : NoErr (t.add a b) := by
  unfold IdxTy.add IdxTy.arith; split
  · exact ⟨fun h => by cases h⟩
  · split <;> exact ⟨fun h => by cases h⟩
theorem NoErr.forIn {l : List α} {s : σ} {f : α → σ → M (ForInStep σ)} (h : ∀ a s, NoErr (f a s)) : NoErr (forIn l s f) := by
  induction l generalizing s with
  | nil => exact .pure _
  | cons a l ih =>
    rw [List.forIn_cons]
    refine (h a s).bind fun r => ?_
    cases r with
    | done b => exact .pure _
    | yield b => exact ih

macro "noerr" : tactic => `(tactic| repeat' first
  | with_reducible exact NoErr.pure _
  | with_reducible exact NoErr.rd _ _
  | with_reducible exact NoErr.wr _ _ _
  | with_reducible exact NoErr.toUsize _
  | with_reducible exact NoErr.add _ _ _
  | intro _
  | with_reducible apply NoErr.bind
  | with_reducible apply NoErr.forIn)

/-- too many triplets: `I::from(nnz).unwrap()` panics, with or without overflow checks -/
theorem coo_tocsr_too_many (t : IdxTy) (n nnz : Nat) (a_i a_j : List Int) (a_x : List T) (bp bj : List Int) (bx : List T)
    (h : t.hi < (nnz : Int)) : Panics (coo_tocsr t n nnz a_i a_j a_x bp bj bx) := by
  have h1 : ∀ b, NoErr (count_loop t nnz a_i b) := by intro b; unfold count_loop; noerr
  have h2 : ∀ b, NoErr (cumsum_loop t n b) := by intro b; unfold cumsum_loop; noerr
  unfold coo_tocsr
  simp only
  cases e1 : count_loop t nnz a_i (bp.map fun _ => 0) with
  | error e =>
    cases e with
    | err => exact absurd e1 (h1 _).ne
    | panic p => exact ⟨p, rfl⟩
  | ok b1 =>
    change Panics (cumsum_loop t n b1 >>= _)
    cases e2 : cumsum_loop t n b1 with
    | error e =>
      cases e with
      | err => exact absurd e2 (h2 _).ne
      | panic p => exact ⟨p, rfl⟩
    | ok b2 =>
      have : t.ofUsize nnz = .error (.panic .unwrap) := by
        unfold IdxTy.ofUsize; rw [if_neg (by omega)]; rfl
      change Panics (t.ofUsize nnz >>= _)
      rw [this]
      exact ⟨_, rfl⟩

theorem IntTy.unchecked_ofUsize (t : IntTy) (n : Nat) : IdxTy.ofUsize t.unchecked n = IdxTy.ofUsize t n := rfl

theorem IntTy.unchecked_add {t : IntTy} {a b : Int} (h : t.lo ≤ a + b ∧ a + b ≤ t.hi) :
    IdxTy.add t.unchecked a b = IdxTy.add t a b := by
  have h1 : IdxTy.add t a b = .ok (a + b) := if_pos h
  have h2 : IdxTy.add t.unchecked a b = .ok (a + b) := if_pos h
  rw [h1, h2]

theorem has_canonical_unchecked {t : IntTy} {n : Nat} {p j : List Int} {x : List T} {R : Nat → List (Int × T)}
    (hr : Rep p j x n R) (hfit : ((flat R n).length : Int) ≤ t.hi) :
    SamePanics (csr_has_canonical_format t n p j) (csr_has_canonical_format t.unchecked n p j) := by
  unfold csr_has_canonical_format
  refine SamePanics.bind ?_ fun r _ => .refl _
  refine SamePanics.forIn ?_
  intro i hi s
  have hi : i < n := by simp [rng] at hi; omega
  have p1 : p.rd i = .ok ((flat R i).length : Int) := by unfold List.rd; rw [hr.ptr i (by omega)]; rfl
  have p2 : p.rd (i + 1) = .ok (((flat R i).length + (R i).length : Nat) : Int) := by
    unfold List.rd; rw [hr.ptr_succ hi]; rfl
  have hm := flat_length_mono R (show i + 1 ≤ n by omega)
  rw [flat_length_succ] at hm
  have hlo := t.lo_nonpos
  have u1 : toUsize ((flat R i).length : Int) = .ok (flat R i).length := by simp [toUsize, pure, Except.pure]
  have u2 : toUsize (((flat R i).length + (R i).length : Nat) : Int) = .ok ((flat R i).length + (R i).length) := by
    unfold toUsize; rw [if_pos (by omega)]; rfl
  rw [p1, p2]
  simp only [bind, Except.bind, u1, u2]
  rw [if_neg (by omega), if_neg (by omega)]
  by_cases h : ((flat R i).length : Int) + 1 ≤ t.hi
  · rw [IntTy.unchecked_add (t := t) ⟨by omega, h⟩]
    exact .refl _
  · have a1 : IdxTy.add t ((flat R i).length : Int) 1 = .error (.panic .arith) := by
      unfold IdxTy.add IdxTy.arith
      rw [if_neg (fun h' => h h'.2)]
      rfl
    have hge := t.hi_ge
    have a2 : IdxTy.add t.unchecked ((flat R i).length : Int) 1 = .ok t.lo := by
      unfold IdxTy.add IdxTy.arith
      rw [if_neg (fun h' => h h'.2)]
      have : ((flat R i).length : Int) + 1 - t.lo = t.hi - t.lo + 1 := by omega
      change Except.ok (t.lo + (((flat R i).length : Int) + 1 - t.lo) % (t.hi - t.lo + 1)) = _
      rw [this, Int.emod_self, add_zero]
    rw [a1, a2]
    refine .inr ⟨⟨_, rfl⟩, ?_⟩
    simp only
    by_cases h0 : t.lo = 0
    · rw [h0]
      have u3 : toUsize 0 = .ok 0 := rfl
      rw [u3]
      simp only
      rw [rng_cons (by omega), List.forIn_cons]
      exact ⟨.arith, rfl⟩
    · have u3 : toUsize t.lo = .error (.panic .unwrap) := by
        unfold toUsize; rw [if_neg (by omega)]; rfl
      rw [u3]
      exact ⟨_, rfl⟩

theorem CSR.has_canonical_unchecked {t : IntTy} {a : CSR T} (ha : a.WF t) :
    SamePanics (a.has_canonical_format t) (a.has_canonical_format t.unchecked) := by
  unfold CSR.has_canonical_format
  refine SamePanics.bind (.refl _) fun n hn => ?_
  have hl := ha.rep.len
  have : n = a.rows := by
    unfold usub at hn
    rw [if_pos (by omega)] at hn
    cases hn
    omega
  subst this
  exact Sparse.has_canonical_unchecked ha.rep ha.fits

theorem CSC.has_canonical_unchecked {t : IntTy} {a : CSC T} (ha : a.WF t) :
    SamePanics (a.has_canonical_format t) (a.has_canonical_format t.unchecked) := by
  unfold CSC.has_canonical_format
  refine SamePanics.bind (.refl _) fun n hn => ?_
  have hl := ha.rep.len
  have : n = a.cols := by
    unfold usub at hn
    rw [if_pos (by omega)] at hn
    cases hn
    omega
  subst this
  exact Sparse.has_canonical_unchecked ha.rep ha.fits

theorem CSR.sum_duplicates_unchecked [Zero T] [Add T] {t : IntTy} {a : CSR T} (ha : a.WF t) :
    SamePanics (a.sum_duplicates t) (a.sum_duplicates t.unchecked) := by
  unfold CSR.sum_duplicates
  exact SamePanics.bind (CSR.has_canonical_unchecked ha) fun b _ => .inl rfl

theorem CSC.sum_duplicates_unchecked [Zero T] [Add T] {t : IntTy} {a : CSC T} (ha : a.WF t) :
    SamePanics (a.sum_duplicates t) (a.sum_duplicates t.unchecked) := by
  unfold CSC.sum_duplicates
  exact SamePanics.bind (CSC.has_canonical_unchecked ha) fun b _ => .inl rfl

theorem Coo.items_facts {t : IntTy} {a : Coo T} (ha : a.WF t) :
    a.items.length = a.values.length ∧ (∀ e ∈ a.items, e.1 < a.rows) ∧
    (∀ e ∈ a.items, 0 ≤ e.2.1 ∧ e.2.1 < (a.cols : Int) ∧ e.2.1 ≤ t.hi) ∧
    ∀ (k : Nat) e, a.items[k]? = some e →
      a.rowidx[k]? = some (e.1 : Int) ∧ a.colidx[k]? = some e.2.1 ∧ a.values[k]? = some e.2.2 := by
  refine ⟨?_, ?_, ?_, ?_⟩
  · unfold Coo.items; rw [List.length_map, Coo.triples_length ha]
  · intro e he
    unfold Coo.items at he
    rw [List.mem_map] at he
    obtain ⟨d, hd, rfl⟩ := he
    have := Coo.triples_mem ha hd
    simp only; omega
  · intro e he
    unfold Coo.items at he
    rw [List.mem_map] at he
    obtain ⟨d, hd, rfl⟩ := he
    exact (Coo.triples_mem ha hd).2
  · intro k e he
    unfold Coo.items at he
    rw [List.getElem?_map] at he
    cases hh : a.triples[k]? with
    | none => rw [hh] at he; simp at he
    | some d =>
      rw [hh] at he
      simp at he
      subst he
      have h1 := Coo.triples_get hh
      have h2 := Coo.triples_mem ha (List.mem_of_getElem? hh)
      refine ⟨?_, h1.2.1, h1.2.2⟩
      rw [h1.1]; simp only; congr 1; omega

theorem Coo.itemsT_facts {t : IntTy} {a : Coo T} (ha : a.WF t) :
    a.itemsT.length = a.values.length ∧ (∀ e ∈ a.itemsT, e.1 < a.cols) ∧
    (∀ e ∈ a.itemsT, 0 ≤ e.2.1 ∧ e.2.1 < (a.rows : Int) ∧ e.2.1 ≤ t.hi) ∧
    ∀ (k : Nat) e, a.itemsT[k]? = some e →
      a.colidx[k]? = some (e.1 : Int) ∧ a.rowidx[k]? = some e.2.1 ∧ a.values[k]? = some e.2.2 := by
  refine ⟨?_, ?_, ?_, ?_⟩
  · unfold Coo.itemsT; rw [List.length_map, Coo.triples_length ha]
  · intro e he
    unfold Coo.itemsT at he
    rw [List.mem_map] at he
    obtain ⟨d, hd, rfl⟩ := he
    have := Coo.triples_mem ha hd
    simp only; omega
  · intro e he
    unfold Coo.itemsT at he
    rw [List.mem_map] at he
    obtain ⟨d, hd, rfl⟩ := he
    exact (Coo.triples_mem ha hd).1
  · intro k e he
    unfold Coo.itemsT at he
    rw [List.getElem?_map] at he
    cases hh : a.triples[k]? with
    | none => rw [hh] at he; simp at he
    | some d =>
      rw [hh] at he
      simp at he
      subst he
      have h1 := Coo.triples_get hh
      have h2 := Coo.triples_mem ha (List.mem_of_getElem? hh)
      refine ⟨?_, h1.1, h1.2.2⟩
      rw [h1.2.1]; simp only; congr 1; omega

theorem Coo.to_csr_unchecked [Zero T] [Add T] {t : IntTy} {a : Coo T} (ha : a.WF t) :
    SamePanics (a.to_csr t) (a.to_csr t.unchecked) := by
  obtain ⟨hlen, hall, hcol, hget⟩ := Coo.items_facts ha
  have hnnz : a.nnz = a.items.length := hlen.symm
  by_cases hn : (a.items.length : Int) ≤ t.hi
  · obtain ⟨⟨p, j, x⟩, e1, hr, hlj, hlx⟩ := coo_tocsr_ok (t := t) (bp := List.replicate (a.rows + 1) 0)
      (bj := List.replicate a.items.length 0) (bx := List.replicate a.items.length 0) hget hall hn (by simp) (by simp) (by simp)
    have e2 := coo_tocsr_wd (t' := t.unchecked) (IntTy.Sub.refl t).idx a.rows a.items.length a.rowidx a.colidx a.values
      (List.replicate (a.rows + 1) 0) (List.replicate a.items.length 0) (List.replicate a.items.length 0)
    rw [e1] at e2
    rcases e2 with e2 | e2 | e2
    · unfold Coo.to_csr
      simp only
      rw [hnnz, e1, ← e2]
      simp only at hr
      have hnew := CSR.new_ok (m := a.cols) hr
      simp only [bind, Except.bind]
      rw [hnew]
      have hfl := flat_bucket_length_eq hall
      have hwf : (⟨a.rows, a.cols, p, j, x⟩ : CSR T).WF t := hr.wf (fun i hi e he => by
        unfold bucket at he
        rw [List.mem_map] at he
        obtain ⟨d, hd, rfl⟩ := he
        exact hcol d (List.mem_filter.1 hd).1) (by omega)
      exact (CSR.sum_duplicates_unchecked hwf).unwrapR
    · cases e2
    · cases e2
  · unfold Coo.to_csr
    simp only
    rw [hnnz]
    exact .inr ⟨panics_bind (coo_tocsr_too_many _ _ _ _ _ _ _ _ _ (by change t.hi < _; omega)),
      panics_bind (coo_tocsr_too_many _ _ _ _ _ _ _ _ _ (by change t.hi < _; omega))⟩

theorem Coo.to_csc_unchecked [Zero T] [Add T] {t : IntTy} {a : Coo T} (ha : a.WF t) :
    SamePanics (a.to_csc t) (a.to_csc t.unchecked) := by
  obtain ⟨hlen, hall, hcol, hget⟩ := Coo.itemsT_facts ha
  have hnnz : a.nnz = a.itemsT.length := hlen.symm
  by_cases hn : (a.itemsT.length : Int) ≤ t.hi
  · obtain ⟨⟨p, j, x⟩, e1, hr, hlj, hlx⟩ := coo_tocsr_ok (t := t) (bp := List.replicate (a.cols + 1) 0)
      (bj := List.replicate a.itemsT.length 0) (bx := List.replicate a.itemsT.length 0) hget hall hn (by simp) (by simp) (by simp)
    have e2 := coo_tocsr_wd (t' := t.unchecked) (IntTy.Sub.refl t).idx a.cols a.itemsT.length a.colidx a.rowidx a.values
      (List.replicate (a.cols + 1) 0) (List.replicate a.itemsT.length 0) (List.replicate a.itemsT.length 0)
    rw [e1] at e2
    rcases e2 with e2 | e2 | e2
    · unfold Coo.to_csc
      simp only
      rw [hnnz, e1, ← e2]
      simp only at hr
      have hnew := CSC.new_ok (m := a.rows) hr
      simp only [bind, Except.bind]
      rw [hnew]
      have hfl := flat_bucket_length_eq hall
      have hwf : (⟨a.rows, a.cols, j, p, x⟩ : CSC T).WF t := hr.wf (fun i hi e he => by
        unfold bucket at he
        rw [List.mem_map] at he
        obtain ⟨d, hd, rfl⟩ := he
        exact hcol d (List.mem_filter.1 hd).1) (by omega)
      exact CSC.sum_duplicates_unchecked hwf
    · cases e2
    · cases e2
  · unfold Coo.to_csc
    simp only
    rw [hnnz]
    exact .inr ⟨panics_bind (coo_tocsr_too_many _ _ _ _ _ _ _ _ _ (by change t.hi < _; omega)),
      panics_bind (coo_tocsr_too_many _ _ _ _ _ _ _ _ _ (by change t.hi < _; omega))⟩

end
end Sparse

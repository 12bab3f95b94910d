import Verif.Props.Laws

/-! C108: the two compressed formats mirror each other. -/

namespace Sparse
variable {T : Type}

/-- A program of methods that CSR and CSC both have. `input k` is the `k`-th given matrix. -/
inductive TwinProg (T : Type) where
  | input (k : Nat)
  | neg (p : TwinProg T)
  | add (p q : TwinProg T)
  | mul (p q : TwinProg T)
  | sort (p : TwinProg T)
  | merge (p : TwinProg T)
  | prune (p : TwinProg T)
  | select (p : TwinProg T) (rows cols : Option (List Int))
  | there_and_back (p : TwinProg T)

/-- the program run with the methods of CSR -/
def TwinProg.onCSR [Zero T] [Add T] [Mul T] [Neg T] [BEq T] (t : IdxTy) (inp : Nat → CSR T) : TwinProg T → M (CSR T)
  | .input k => .ok (inp k)
  | .neg p => do (← p.onCSR t inp).neg
  | .add p q => do let a ← p.onCSR t inp; let b ← q.onCSR t inp; a.add t b
  | .mul p q => do let a ← p.onCSR t inp; let b ← q.onCSR t inp; a.mul t b
  | .sort p => do (← p.onCSR t inp).sort_indexes
  | .merge p => do (← p.onCSR t inp).sum_duplicates t
  | .prune p => do (← p.onCSR t inp).prune
  | .select p rows cols => do (← p.onCSR t inp).select t rows cols
  | .there_and_back p => do (← (← p.onCSR t inp).to_csc t).to_csr t

/-- the program run with the methods of CSC on transposed matrices: products take their factors in reverse order, selections
exchange rows and columns, nothing else changes -/
def TwinProg.onCSC [Zero T] [Add T] [Mul T] [Neg T] [BEq T] (t : IdxTy) (inp : Nat → CSC T) : TwinProg T → M (CSC T)
  | .input k => .ok (inp k)
  | .neg p => do (← p.onCSC t inp).neg
  | .add p q => do let a ← p.onCSC t inp; let b ← q.onCSC t inp; a.add_op t b
  | .mul p q => do let a ← p.onCSC t inp; let b ← q.onCSC t inp; b.mul t a
  | .sort p => do (← p.onCSC t inp).sort_indexes
  | .merge p => do (← p.onCSC t inp).sum_duplicates t
  | .prune p => do (← p.onCSC t inp).prune
  | .select p rows cols => do (← p.onCSC t inp).select t cols rows
  | .there_and_back p => do (← (← p.onCSC t inp).to_csr t).to_csc t

/-- both calls return, the second one the transpose of what the first one returns (the same arrays), or both fail -/
def Twins (m : M (CSR T)) (m' : M (CSC T)) : Prop :=
  (∃ r c, m = .ok r ∧ m' = .ok c ∧ r.transpose = .ok c) ∨ ∃ e e', m = .error e ∧ m' = .error e'

/-! ### proofs -/

/-- the arrays of a CSR matrix read as a CSC matrix -/
def CSR.flip (a : CSR T) : CSC T := ⟨a.cols, a.rows, a.colidx, a.rowptr, a.values⟩

/-- what `CSR::new` and `CSC::new` check -/
def CSR.Checked (a : CSR T) : Prop :=
  a.rowptr.length = a.rows + 1 ∧ ∃ n : Nat, a.rowptr[a.rows]? = some (n : Int) ∧ n ≤ a.colidx.length ∧ n ≤ a.values.length

theorem CSR.Checked.nnz {a : CSR T} (h : a.Checked) :
    ∃ n : Nat, a.nnz = .ok n ∧ a.flip.nnz = .ok n ∧ n ≤ a.colidx.length ∧ n ≤ a.values.length := by
  obtain ⟨h1, n, h2, h3, h4⟩ := h
  have hr : a.rowptr.rd a.rows = .ok (n : Int) := by unfold List.rd; rw [h2]; rfl
  have hne : a.rowptr ≠ [] := by intro h; rw [h] at h1; simp at h1
  have hu : usub a.rowptr.length 1 = .ok a.rows := by unfold usub; rw [if_pos (by omega), h1]; rfl
  have ht : toUsize (n : Int) = .ok n := by unfold toUsize; rw [if_pos (by omega)]; rfl
  refine ⟨n, ?_, ?_, h3, h4⟩
  · unfold CSR.nnz
    rw [if_neg (by simpa using hne)]
    simp [hu, bind, Except.bind, hr, ht]
  · unfold CSC.nnz CSR.flip
    rw [if_neg (by simpa using hne)]
    simp [hu, bind, Except.bind, hr, ht]

theorem CSR.Checked.new {a : CSR T} (h : a.Checked) : CSR.new a.rows a.cols a.rowptr a.colidx a.values = .ok a := by
  obtain ⟨h1, n, h2, h3, h4⟩ := h
  have hr : a.rowptr.rd a.rows = .ok (n : Int) := by unfold List.rd; rw [h2]; rfl
  have hu : usub a.rowptr.length 1 = .ok a.rows := by unfold usub; rw [if_pos (by omega), h1]; rfl
  have ht : toUsize (n : Int) = .ok n := by unfold toUsize; rw [if_pos (by omega)]; rfl
  unfold CSR.new
  rw [if_neg (by omega)]
  simp only [hu, bind, Except.bind, hr, ht]
  rw [if_neg (by omega), if_neg (by omega)]
  rfl

theorem CSR.new_checked {n m : Nat} {p j : List Int} {x : List T} {r : CSR T} (h : CSR.new n m p j x = .ok r) :
    r = ⟨n, m, p, j, x⟩ ∧ r.Checked := by
  unfold CSR.new at h
  by_cases h1 : p.length ≠ n + 1
  · rw [if_pos h1] at h; cases h
  rw [if_neg h1] at h
  have h1 : p.length = n + 1 := by omega
  have hu : usub p.length 1 = .ok n := by unfold usub; rw [if_pos (by omega), h1]; rfl
  simp only [hu, bind, Except.bind] at h
  unfold List.rd at h
  cases h2 : p[n]? with
  | none => rw [h2] at h; cases h
  | some z =>
    rw [h2] at h
    simp only [pure, Except.pure] at h
    unfold toUsize at h
    by_cases h3 : 0 ≤ z
    · rw [if_pos h3] at h
      simp only [pure, Except.pure] at h
      by_cases h4 : j.length < z.toNat
      · rw [if_pos h4] at h; cases h
      rw [if_neg h4] at h
      by_cases h5 : x.length < z.toNat
      · rw [if_pos h5] at h; cases h
      rw [if_neg h5] at h
      cases h
      exact ⟨rfl, h1, z.toNat, by rw [Int.toNat_of_nonneg h3]; exact h2, by simp only; omega, by simp only; omega⟩
    · rw [if_neg h3] at h; cases h

theorem CSR.Checked.transpose {a : CSR T} (h : a.Checked) : a.transpose = .ok a.flip := by
  unfold CSR.transpose
  rw [CSC.new_eq_map, h.new]
  rfl

theorem CSR.transpose_iff {a : CSR T} {c : CSC T} : a.transpose = .ok c ↔ a.Checked ∧ c = a.flip := by
  constructor
  · intro h
    unfold CSR.transpose at h
    rw [CSC.new_eq_map] at h
    cases h' : CSR.new a.rows a.cols a.rowptr a.colidx a.values with
    | error e => rw [h'] at h; cases e <;> cases h
    | ok r =>
      obtain ⟨rfl, hc⟩ := CSR.new_checked h'
      rw [h'] at h
      cases h
      exact ⟨hc, rfl⟩
  · rintro ⟨h, rfl⟩
    exact h.transpose

/-- what is needed of each method: it maps twins to twins -/
theorem Twins.bind {m : M (CSR T)} {m' : M (CSC T)} (h : Twins m m') {f : CSR T → M (CSR T)} {g : CSC T → M (CSC T)}
    (hf : ∀ a : CSR T, a.Checked → Twins (f a) (g a.flip)) : Twins (m >>= f) (m' >>= g) := by
  obtain ⟨r, c, rfl, rfl, h3⟩ | ⟨e, e', rfl, rfl⟩ := h
  · obtain ⟨h4, rfl⟩ := CSR.transpose_iff.1 h3
    exact hf r h4
  · exact .inr ⟨e, e', rfl, rfl⟩

theorem Twins.ok {a : CSR T} (h : a.Checked) : Twins (.ok a) (.ok a.flip) := .inl ⟨a, a.flip, rfl, rfl, h.transpose⟩
theorem Twins.fail {e e' : Fault} : Twins (T := T) (.error e) (.error e') := .inr ⟨e, e', rfl, rfl⟩

theorem Twins.unwrap {m : M (CSR T)} {m' : M (CSC T)} (h : Twins m m') : Twins (unwrapR m) (unwrapR m') := by
  obtain ⟨r, c, rfl, rfl, h3⟩ | ⟨e, e', rfl, rfl⟩ := h
  · exact .inl ⟨r, c, rfl, rfl, h3⟩
  · cases e <;> cases e' <;> exact .fail

theorem Twins.unwrap_right {m : M (CSR T)} {m' : M (CSC T)} (h : Twins m m') : Twins m (unwrapR m') := by
  obtain ⟨r, c, rfl, rfl, h3⟩ | ⟨e, e', rfl, rfl⟩ := h
  · exact .inl ⟨r, c, rfl, rfl, h3⟩
  · cases e' <;> exact .fail

theorem Twins.new (n m : Nat) (p j : List Int) (x : List T) : Twins (CSR.new n m p j x) (CSC.new m n j p x) := by
  rw [CSC.new_eq_map]
  cases h : CSR.new n m p j x with
  | error e => exact .fail
  | ok r =>
    obtain ⟨rfl, hc⟩ := CSR.new_checked h
    exact .inl ⟨_, _, rfl, rfl, hc.transpose⟩

theorem Twins.step {α : Type} {f : α → M (CSR T)} {g : α → M (CSC T)} (m : M α) (h : ∀ a, m = .ok a → Twins (f a) (g a)) :
    Twins (m >>= f) (m >>= g) := by
  cases hm : m with
  | error e => exact .fail
  | ok a => exact h a hm

theorem List.wr_length {α : Type} {l : List α} {i : Nat} {x : α} : Ret (l.wr i x) fun l' => l'.length = l.length ∧ i < l.length := by
  unfold List.wr
  refine Ret.ite' (fun h => Ret.pure ⟨by simp, h⟩) fun _ => Ret.throw

theorem List.wr_set {α : Type} {l : List α} {i : Nat} {x : α} : Ret (l.wr i x) fun l' => l' = l.set i x ∧ i < l.length := by
  unfold List.wr
  refine Ret.ite' (fun h => Ret.pure ⟨rfl, h⟩) fun _ => Ret.throw

theorem IdxTy.ofUsize_eq (t : IdxTy) (n : Nat) : Ret (t.ofUsize n) fun z => z = (n : Int) := by
  unfold IdxTy.ofUsize
  exact Ret.ite (Ret.pure rfl) Ret.throw

theorem csr_sort_indices_length [Zero T] (n : Nat) (p j : List Int) (x : List T) :
    Ret (csr_sort_indices n p j x) fun r => r.1.length = j.length ∧ r.2.length = x.length := by
  unfold csr_sort_indices
  refine Ret.bind' (Ret.forIn' (fun s => s.1.length = j.length ∧ s.2.1.length = x.length) ⟨rfl, rfl⟩ ?_ fun s h => h) fun s h => Ret.pure h
  rintro i ⟨aj, ax, temp⟩ ⟨h1, h2⟩
  refine Ret.bindTrue fun _ => Ret.bindTrue fun _ => Ret.bindTrue fun _ => Ret.bindTrue fun _ => Ret.bindTrue fun _ => ?_
  refine Ret.bindTrue fun _ => ?_
  refine Ret.bind' (Ret.forIn' (fun s => s.1.length = j.length ∧ s.2.1.length = x.length) ⟨h1, h2⟩ ?_ fun s h => h) fun s h => Ret.pure h
  rintro jj ⟨aj, ax, n⟩ ⟨h1, h2⟩
  refine Ret.bindTrue fun _ => Ret.bind' List.wr_length fun aj' h3 => ?_
  refine Ret.bindTrue fun _ => Ret.bind' List.wr_length fun ax' h4 => ?_
  exact Ret.pure ⟨h3.1.trans h1, h4.1.trans h2⟩

theorem csr_select_length [Zero T] (t : IdxTy) (ap aj : List Int) (ax : List T) (ri ci : List Int) :
    Ret (csr_select t ap aj ax ri ci [] [] []) fun r => r.1.length = ri.length + 1 ∧
      ∃ n : Nat, r.1[ri.length]? = some (n : Int) ∧ n ≤ r.2.1.length ∧ n ≤ r.2.2.length := by
  unfold csr_select
  refine Ret.bindTrue fun N => ?_
  refine Ret.bind' List.wr_set fun bp hbp => ?_
  have key : ∀ {bp : List Int}, bp.length = ri.length + 1 → (∀ z ∈ bp, ∃ k : Nat, z = (k : Int) ∧ k ≤ N) →
      ∃ n : Nat, bp[ri.length]? = some (n : Int) ∧ n ≤ N := by
    intro bp h1 h2
    have hlt : ri.length < bp.length := by omega
    obtain ⟨k, hk, hkN⟩ := h2 bp[ri.length] (List.getElem_mem hlt)
    exact ⟨k, by rw [List.getElem?_eq_getElem hlt, hk], hkN⟩
  have hset : ∀ {bp : List Int} {i k : Nat}, (∀ z ∈ bp, ∃ k : Nat, z = (k : Int) ∧ k ≤ N) → k ≤ N →
      ∀ z ∈ bp.set i (k : Int), ∃ k : Nat, z = (k : Int) ∧ k ≤ N := by
    intro bp i k h hk z hz
    rcases List.mem_or_eq_of_mem_set hz with h' | rfl
    · exact h z h'
    · exact ⟨k, rfl, hk⟩
  refine Ret.bind' (Ret.forIn' (fun s => s.1.length = ri.length + 1 ∧ s.2.1.length = N ∧ s.2.2.1.length = N ∧ s.2.2.2 ≤ N ∧
      ∀ z ∈ s.1, ∃ k : Nat, z = (k : Int) ∧ k ≤ N) ?_ ?_ fun s h => h) fun s h => Ret.pure ?_
  · obtain ⟨rfl, -⟩ := hbp
    refine ⟨by simp [List.resize], by simp [List.resize], by simp [List.resize], Nat.zero_le _, ?_⟩
    refine hset (k := 0) ?_ (Nat.zero_le _)
    intro z hz
    have : z = 0 := by simpa [List.resize] using hz
    exact ⟨0, by simpa using this, Nat.zero_le _⟩
  · rintro r ⟨bp, bj, bx, kk⟩ ⟨h1, h2, h3, h4, h5⟩
    simp only at h1 h2 h3 h4 h5
    refine Ret.bindTrue fun _ => Ret.bindTrue fun _ => Ret.bindTrue fun _ => Ret.bindTrue fun _ => Ret.bindTrue fun _ => ?_
    refine Ret.bindTrue fun _ => Ret.bindTrue fun ptrs => ?_
    refine Ret.bind' (Ret.forIn' (fun s => s.1.length = N ∧ s.2.1.length = N ∧ s.2.2 ≤ N) ⟨h2, h3, h4⟩ ?_ fun s h => h) fun s h => ?_
    · rintro c ⟨bj, bx, kk⟩ ⟨h2, h3, h4⟩
      simp only at h2 h3 h4
      refine Ret.bindTrue fun _ => Ret.bindTrue fun _ => ?_
      split
      · refine Ret.bindTrue fun _ => Ret.bind' List.wr_length fun bj' hj => ?_
        refine Ret.bindTrue fun _ => Ret.bind' List.wr_length fun bx' hx => ?_
        have h6 : kk < bj.length := hj.2
        exact Ret.pure ⟨hj.1.trans h2, hx.1.trans h3, show kk + 1 ≤ N by omega⟩
      · exact Ret.pure ⟨h2, h3, h4⟩
    · refine Ret.bind' (IdxTy.ofUsize_eq t _) fun z hz => ?_
      subst hz
      refine Ret.bind' List.wr_set fun bp' hb => ?_
      obtain ⟨rfl, -⟩ := hb
      exact Ret.pure ⟨by simpa using h1, h.1, h.2.1, h.2.2, hset h5 h.2.2⟩
  · obtain ⟨h1, h2, h3, h4, h5⟩ := h
    obtain ⟨n, hn, hN⟩ := key h1 h5
    exact ⟨h1, n, hn, by rw [h2]; exact hN, by rw [h3]; exact hN⟩

theorem Twins.prune [Zero T] (a : CSR T) : Twins a.prune a.flip.prune := by
  unfold CSR.prune CSC.prune
  change Twins _ (if a.rowptr.length ≠ a.rows + 1 then _ else _)
  by_cases h1 : a.rowptr.length ≠ a.rows + 1
  · rw [if_pos h1, if_pos h1]; exact .fail
  rw [if_neg h1, if_neg h1]
  have h1 : a.rowptr.length = a.rows + 1 := by omega
  have hnn : a.flip.nnz = a.nnz := by
    unfold CSR.nnz CSC.nnz CSR.flip
    simp only [List.isEmpty_iff, List.length_eq_zero_iff]
  rw [hnn]
  refine Twins.step _ fun n hn => ?_
  change Twins (if a.colidx.length < n then _ else _) (if a.colidx.length < n then _ else _)
  by_cases h2 : a.colidx.length < n
  · rw [if_pos h2, if_pos h2]; exact .fail
  rw [if_neg h2, if_neg h2]
  change Twins (if a.values.length < n then _ else _) (if a.values.length < n then _ else _)
  by_cases h3 : a.values.length < n
  · rw [if_pos h3, if_pos h3]; exact .fail
  rw [if_neg h3, if_neg h3]
  have hp : a.rowptr[a.rows]? = some (n : Int) := by
    unfold CSR.nnz at hn
    rw [if_neg (by rw [List.isEmpty_iff]; intro h; rw [h] at h1; simp at h1)] at hn
    have hu : usub a.rowptr.length 1 = .ok a.rows := by unfold usub; rw [if_pos (by omega), h1]; rfl
    rw [hu] at hn
    change (a.rowptr.rd a.rows >>= toUsize) = _ at hn
    unfold List.rd at hn
    cases h4 : a.rowptr[a.rows]? with
    | none => rw [h4] at hn; cases hn
    | some z =>
      rw [h4] at hn
      change toUsize z = _ at hn
      unfold toUsize at hn
      by_cases h5 : 0 ≤ z
      · rw [if_pos h5] at hn
        cases hn
        rw [Int.toNat_of_nonneg h5]
      · rw [if_neg h5] at hn; cases hn
  have hs : ∀ {α : Type} (l : List α) (v : α), ¬ l.length < n → l.slice 0 n = .ok (l.resize n v) ∧ (l.resize n v).length = n := by
    intro α l v hl
    unfold List.slice List.resize
    rw [if_pos ⟨by omega, by omega⟩, show n - l.length = 0 by omega]
    simp only [List.drop_zero, Nat.sub_zero, List.replicate_zero, List.append_nil, List.length_take]
    exact ⟨rfl, by omega⟩
  obtain ⟨e1, e2⟩ := hs a.colidx 0 h2
  obtain ⟨e3, e4⟩ := hs a.values 0 h3
  change Twins _ (a.values.slice 0 n >>= fun _ => a.colidx.slice 0 n >>= _)
  rw [e1, e3]
  exact Twins.ok (a := { a with values := a.values.resize n 0, colidx := a.colidx.resize n 0 })
    ⟨h1, n, hp, by rw [e2], by rw [e4]⟩

theorem Twins.sort [Zero T] (a : CSR T) (h : a.Checked) : Twins a.sort_indexes a.flip.sort_indexes := by
  unfold CSR.sort_indexes CSC.sort_indexes
  change Twins _ (usub a.rowptr.length 1 >>= _)
  refine Twins.step _ fun n hn => ?_
  change Twins (csr_sort_indices n a.rowptr a.colidx a.values >>= _) (csr_sort_indices n a.rowptr a.colidx a.values >>= _)
  refine Twins.step _ fun r hr => ?_
  obtain ⟨h1, h2⟩ := csr_sort_indices_length _ _ _ _ _ hr
  obtain ⟨h3, k, h4, h5, h6⟩ := h
  exact Twins.ok (a := { a with colidx := r.1, values := r.2 }) ⟨h3, k, h4, by simp only; omega, by simp only; omega⟩

theorem Twins.merge [Zero T] [Add T] (t : IdxTy) (a : CSR T) (h : a.Checked) : Twins (a.sum_duplicates t) (a.flip.sum_duplicates t) := by
  unfold CSR.sum_duplicates CSC.sum_duplicates
  rw [show a.flip.has_canonical_format t = a.has_canonical_format t from rfl]
  refine Twins.step _ fun b hb => ?_
  cases b
  · refine Twins.bind (f := fun a => csr_sum_duplicates t a.rows a.rowptr a.colidx a.values >>= fun r => CSR.prune { a with rowptr := r.1, colidx := r.2.1, values := r.2.2 })
      (g := fun a => csr_sum_duplicates t a.cols a.colptr a.rowidx a.values >>= fun r => unwrapR (CSC.prune { a with colptr := r.1, rowidx := r.2.1, values := r.2.2 }))
      (Twins.sort a h) fun a _ => ?_
    change Twins _ (csr_sum_duplicates t a.rows a.rowptr a.colidx a.values >>= _)
    exact Twins.step _ fun r _ => (Twins.prune _).unwrap_right
  · exact .ok h

theorem Twins.add [Zero T] [Add T] [BEq T] (t : IdxTy) (a b : CSR T) (ha : a.Checked) (hb : b.Checked) : Twins (a.add t b) (a.flip.add_op t b.flip) := by
  obtain ⟨n, e1, e2, -⟩ := ha.nnz
  obtain ⟨m, e3, e4, -⟩ := hb.nnz
  unfold CSR.add CSC.add_op
  rw [e1, e2, e3, e4]
  change Twins (csr_add_csr t a.rows a.cols a.rowptr a.colidx a.values b.rowptr b.colidx b.values _ _ _ >>= _)
    (csr_add_csr t a.rows a.cols a.rowptr a.colidx a.values b.rowptr b.colidx b.values _ _ _ >>= _)
  exact Twins.step _ fun r _ => (Twins.new _ _ _ _ _).unwrap

theorem Twins.mul [Zero T] [Add T] [Mul T] [BEq T] (t : IdxTy) (a b : CSR T) : Twins (a.mul t b) (b.flip.mul t a.flip) := by
  refine Twins.unwrap ?_
  unfold CSR.mat_mat CSC.mat_mat csc_matmat_maxnnz csc_matmat
  change Twins _ (if a.cols ≠ b.rows then _ else _)
  by_cases h : a.cols ≠ b.rows
  · rw [if_pos h, if_pos h]; exact .fail
  rw [if_neg h, if_neg h]
  change Twins (csr_matmat_maxnnz a.rows b.cols a.rowptr a.colidx b.rowptr b.colidx >>= _)
    (csr_matmat_maxnnz a.rows b.cols a.rowptr a.colidx b.rowptr b.colidx >>= _)
  refine Twins.step _ fun k _ => ?_
  change Twins (csr_matmat t a.rows b.cols a.rowptr a.colidx a.values b.rowptr b.colidx b.values _ _ _ >>= _)
    (csr_matmat t a.rows b.cols a.rowptr a.colidx a.values b.rowptr b.colidx b.values _ _ _ >>= _)
  exact Twins.step _ fun r _ => Twins.new _ _ _ _ _

theorem Twins.select [Zero T] (t : IdxTy) (a : CSR T) (rows cols : Option (List Int)) :
    Twins (a.select t rows cols) (a.flip.select t cols rows) := by
  unfold CSR.select CSC.select
  rw [show a.flip.has_canonical_format t = a.has_canonical_format t from rfl]
  refine Twins.step _ fun b hb => ?_
  cases b
  · exact .fail
  change Twins (select_idx t a.rows rows >>= _) (select_idx t a.cols cols >>= _)
  cases hr : select_idx t a.rows rows with
  | error e =>
    cases hc : select_idx t a.cols cols with
    | error e' => exact .fail
    | ok c =>
      change Twins (.error e) (select_idx t a.rows rows >>= _)
      rw [hr]
      exact .fail
  | ok r =>
    cases hc : select_idx t a.cols cols with
    | error e' =>
      exact .inr ⟨e', e', rfl, rfl⟩
    | ok c =>
      change Twins _ (select_idx t a.rows rows >>= _)
      rw [hr]
      change Twins (csr_select t a.rowptr a.colidx a.values r c [] [] [] >>= _) (csr_select t a.rowptr a.colidx a.values r c [] [] [] >>= _)
      refine Twins.step _ fun s hs => ?_
      obtain ⟨h1, n, h2, h3, h4⟩ := csr_select_length _ _ _ _ _ _ _ hs
      have hC : CSR.Checked (⟨r.length, c.length, s.1, s.2.1, s.2.2⟩ : CSR T) := ⟨h1, n, h2, h3, h4⟩
      change Twins (CSR.new r.length c.length s.1 s.2.1 s.2.2) _
      rw [show CSR.new r.length c.length s.1 s.2.1 s.2.2 = _ from hC.new]
      exact .ok hC

/-- converting a matrix and converting its transpose give transposes of each other -/
theorem Twins.convert [Zero T] (t : IdxTy) (a : CSR T) (ha : a.Checked) : Twins (a.flip.to_csr t) (a.to_csc t) := by
  obtain ⟨n, e1, e2, -⟩ := ha.nnz
  unfold CSR.to_csc CSC.to_csr
  rw [e1, e2]
  change Twins (csr_tocsc t a.rows a.cols a.rowptr a.colidx a.values _ _ _ >>= _) (csr_tocsc t a.rows a.cols a.rowptr a.colidx a.values _ _ _ >>= _)
  exact Twins.step _ fun r _ => (Twins.new _ _ _ _ _).unwrap

/-- C108. A program of calls of methods that CSR and CSC both have, run with the CSR methods and, factors and index lists
exchanged, with the CSC methods on the transposes of the same matrices, ends in transposes with the same arrays, or fails both
times: for every index type, build profile and scalar type, and for all matrices the constructors accept, valid or not. -/
theorem C108_programs [Zero T] [Add T] [Mul T] [Neg T] [BEq T] (t : IdxTy) (inp : Nat → CSR T) (inp' : Nat → CSC T)
    (h : ∀ k, (inp k).transpose = .ok (inp' k)) (p : TwinProg T) : Twins (p.onCSR t inp) (p.onCSC t inp') := by
  induction p with
  | input k => exact .inl ⟨_, _, rfl, rfl, h k⟩
  | neg p ih => exact ih.bind fun a _ => (Twins.new _ _ _ _ _).unwrap
  | add p q ihp ihq => exact ihp.bind fun a ha => ihq.bind fun b hb => Twins.add t a b ha hb
  | mul p q ihp ihq => exact ihp.bind fun a _ => ihq.bind fun b _ => Twins.mul t a b
  | sort p ih => exact ih.bind Twins.sort
  | merge p ih => exact ih.bind (Twins.merge t)
  | prune p ih => exact ih.bind fun a _ => Twins.prune a
  | select p rows cols ih => exact ih.bind fun a _ => Twins.select t a rows cols
  | there_and_back p ih =>
    refine ih.bind fun a ha => ?_
    obtain ⟨r, c, h1, h2, h3⟩ | ⟨e, e', h1, h2⟩ := Twins.convert t a ha
    · obtain ⟨h4, rfl⟩ := CSR.transpose_iff.1 h3
      rw [h1, h2]
      exact Twins.convert t r h4
    · rw [h1, h2]
      exact .fail

/-- C108. A matrix and its transpose in the other format answer the same to `nnz`, `has_sorted_indexes`,
`has_canonical_format` and `diagonal`, also if they panic, and converting them gives transposes of each other (or fails). -/
theorem C108_observations [Zero T] [Add T] (t : IdxTy) (a : CSR T) (c : CSC T) (h : a.transpose = .ok c) :
    c.nnz = a.nnz ∧ c.has_sorted_indexes t = a.has_sorted_indexes t ∧ c.has_canonical_format t = a.has_canonical_format t ∧
    c.diagonal = a.diagonal ∧ Twins (c.to_csr t) (a.to_csc t) := by
  obtain ⟨h1, rfl⟩ := CSR.transpose_iff.1 h
  obtain ⟨n, e1, e2, -⟩ := h1.nnz
  refine ⟨e2.trans e1.symm, rfl, rfl, ?_, Twins.convert t a h1⟩
  unfold CSC.diagonal CSR.diagonal CSR.flip
  simp only
  rw [Nat.min_comm]

/-- C108. A matrix and its transpose in the other format are adjoint: `(A x) · y = x · (Aᵀ y)`. -/
theorem C108_adjoint [NonUnitalCommSemiring T] (t : IntTy) (a : CSR T) (ha : a.WF t) (x y : List T) (hx : x.length = a.cols)
    (hy : y.length = a.rows) :
    ∃ c u v, a.transpose = .ok c ∧ a.mat_vec x = .ok u ∧ c.mat_vec y = .ok v ∧ u.length = a.rows ∧ v.length = a.cols ∧
      ∑ i ∈ Finset.range a.rows, u.getD i 0 * y.getD i 0 = ∑ j ∈ Finset.range a.cols, x.getD j 0 * v.getD j 0 := by
  obtain ⟨c, h1, h2, h3, h4, h5, -⟩ := C25_csr_transpose t a ha
  refine ⟨c, _, _, h1, (C11_csr_mat_vec t a ha x).2 hx, (C12_csc_mat_vec t c h2 y).2 (by omega), by simp, by simp [h3], ?_⟩
  have e1 : ∀ i ∈ Finset.range a.rows,
      ((List.range a.rows).map fun i => ∑ j ∈ Finset.range a.cols, a.entry i j * x.getD j 0).getD i 0 * y.getD i 0 =
      ∑ j ∈ Finset.range a.cols, a.entry i j * x.getD j 0 * y.getD i 0 := fun i hi => by
    rw [← Finset.sum_mul]
    congr 1
    simp [List.getD_eq_getElem?_getD, Finset.mem_range.1 hi]
  have e2 : ∀ j ∈ Finset.range a.cols,
      x.getD j 0 * ((List.range c.rows).map fun i => ∑ j ∈ Finset.range c.cols, c.entry i j * y.getD j 0).getD j 0 =
      ∑ i ∈ Finset.range a.rows, a.entry i j * x.getD j 0 * y.getD i 0 := fun j hj => by
    rw [show ((List.range c.rows).map fun i => ∑ j ∈ Finset.range c.cols, c.entry i j * y.getD j 0).getD j 0 =
        ∑ i ∈ Finset.range a.rows, c.entry j i * y.getD i 0 by
      simp [List.getD_eq_getElem?_getD, h3, h4, Finset.mem_range.1 hj], Finset.mul_sum]
    refine Finset.sum_congr rfl fun i _ => ?_
    rw [h5, ← mul_assoc, mul_comm (x.getD j 0)]
  refine (Finset.sum_congr rfl e1).trans (Eq.trans ?_ (Finset.sum_congr rfl e2).symm)
  exact Finset.sum_comm

/-! ### the hypotheses can be met -/

/-- unsorted, with a repeated entry and unused storage -/
def exTwin : CSR Int := ⟨2, 2, [0, 3, 4], [1, 0, 1, 1, 0], [5, 2, -1, 3, 8]⟩

/-- multiply a matrix with its negation, sort the rows by converting there and back, and select a row and swapped columns -/
def exTwinProg : TwinProg Int := .select (.there_and_back (.mul (.input 0) (.neg (.input 0)))) (some [0]) (some [1, 0])

/-- both runs return, the same arrays -/
example : let a : CSR Int := ⟨2, 2, [0, 2, 3], [0, 1, 1], [5, 2, 3]⟩
    let c : CSC Int := ⟨2, 2, [0, 1, 1], [0, 2, 3], [5, 2, 3]⟩
    a.transpose = .ok c ∧ exTwinProg.onCSR .i8 (fun _ => a) = .ok ⟨1, 2, [0, 2], [0, 1], [-16, -25]⟩ ∧
    exTwinProg.onCSC .i8 (fun _ => c) = .ok ⟨2, 1, [0, 1], [0, 2], [-16, -25]⟩ ∧
    TwinProg.onCSC .i8 (fun _ => c) (.select (.input 0) (some [2]) none) = .error .err := by decide +kernel

example : exTwin.WF .i8 ∧ exTwin.transpose = .ok ⟨2, 2, [1, 0, 1, 1, 0], [0, 3, 4], [5, 2, -1, 3, 8]⟩ ∧ exTwin.mat_vec [10, 1] = .ok [24, 3] :=
  ⟨CSR.wf_of (by decide), by decide +kernel, by decide +kernel⟩

end Sparse

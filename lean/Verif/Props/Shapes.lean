import Verif.Props.Elementwise
/-! C16: what CSR `+` and `-` do with operands of different shapes. Shapes are not compared; these theorems say what
happens instead, for every combination of shapes. -/
namespace Sparse

section
variable {T T2 : Type}

theorem forIn_congr_mem {α σ : Type} {l : List α} {s : σ} {f g : α → σ → M (ForInStep σ)}
    (h : ∀ x ∈ l, ∀ s, f x s = g x s) : forIn l s f = forIn l s g := by
  induction l generalizing s with
  | nil => rfl
  | cons x l ih =>
    rw [List.forIn_cons, List.forIn_cons, h x (by simp)]
    congr 1
    funext st
    cases st with
    | done s' => rfl
    | yield s' => exact ih fun y hy => h y (by simp [hy])

theorem rd_take {α : Type} {l : List α} {i k : Nat} (h : i < k) : (l.take k).rd i = l.rd i := by
  unfold List.rd
  rw [List.getElem?_take_of_lt h]

theorem has_canonical_take {t : IntTy} {n : Nat} {p j : List Int} :
    csr_has_canonical_format t n (p.take (n + 1)) j = csr_has_canonical_format t n p j := by
  unfold csr_has_canonical_format
  congr 1
  refine forIn_congr_mem fun i hi s => ?_
  rw [mem_rng] at hi
  rw [rd_take (by omega), rd_take (by omega)]

theorem binop_canonical_take [Zero T] {t : IntTy} {n : Nat} {ap aj bp bj cp cj : List Int} {ax bx : List T} {cx : List T2}
    {op : T → T → T2} {nz : T2 → Bool} :
    csr_binop_csr_canonical t n ap aj ax (bp.take (n + 1)) bj bx cp cj cx op nz =
      csr_binop_csr_canonical t n ap aj ax bp bj bx cp cj cx op nz := by
  unfold csr_binop_csr_canonical
  congr 1
  funext c
  show (_ >>= _) = (_ >>= _)
  congr 1
  refine forIn_congr_mem fun i hi s => ?_
  rw [mem_rng] at hi
  rw [rd_take (by omega), rd_take (by omega)]

theorem binop_general_take [Zero T] [Add T] {t : IntTy} {n nc : Nat} {ap aj bp bj cp cj : List Int} {ax bx : List T} {cx : List T2}
    {op : T → T → T2} {nz : T2 → Bool} :
    csr_binop_csr_general t n nc ap aj ax (bp.take (n + 1)) bj bx cp cj cx op nz =
      csr_binop_csr_general t n nc ap aj ax bp bj bx cp cj cx op nz := by
  unfold csr_binop_csr_general
  show (_ >>= _) = (_ >>= _)
  congr 1
  funext c
  show (_ >>= _) = (_ >>= _)
  congr 1
  refine forIn_congr_mem fun i hi s => ?_
  rw [mem_rng] at hi
  rw [rd_take (by omega), rd_take (by omega)]

theorem binop_take [Zero T] [Add T] {t : IntTy} {n nc : Nat} {ap aj bp bj cp cj : List Int} {ax bx : List T} {cx : List T2}
    {op : T → T → T2} {nz : T2 → Bool} :
    csr_binop_csr t n nc ap aj ax (bp.take (n + 1)) bj bx cp cj cx op nz =
      csr_binop_csr t n nc ap aj ax bp bj bx cp cj cx op nz := by
  unfold csr_binop_csr
  simp only [has_canonical_take, binop_canonical_take, binop_general_take]

/-- the first `n` rows of `b`, read as a matrix with `m` columns -/
def CSR.top (b : CSR T) (n m : Nat) : CSR T := ⟨n, m, b.rowptr.take (n + 1), b.colidx, b.values⟩

theorem CSR.top_rep {t : IntTy} {b : CSR T} (hb : b.WF t) {n : Nat} (hn : n ≤ b.rows) :
    Rep (b.rowptr.take (n + 1)) b.colidx b.values n b.row := by
  have h := hb.rep
  have hl := h.len
  refine ⟨by rw [List.length_take]; omega, ?_, (flat_prefix _ hn).trans h.pre⟩
  intro i hi
  rw [List.getElem?_take_of_lt (by omega), h.ptr i (by omega)]

theorem CSR.top_row {t : IntTy} {b : CSR T} (hb : b.WF t) {n m : Nat} (hn : n ≤ b.rows) {i : Nat} (hi : i < n) :
    (b.top n m).row i = b.row i :=
  CSR.row_of_rep (a := b.top n m) (CSR.top_rep hb hn) hi

theorem CSR.top_wf {t : IntTy} {b : CSR T} (hb : b.WF t) {n m : Nat} (hn : n ≤ b.rows)
    (hm : ∀ i < n, ∀ e ∈ b.row i, e.1 < m) : (b.top n m).WF t := by
  refine (CSR.top_rep hb hn).wf (fun i hi e he => ?_) ?_
  · obtain ⟨h1, -, h3⟩ := hb.mem (by omega) he
    exact ⟨h1, hm i hi e he, h3⟩
  · have := hb.fits
    have := flat_length_mono b.row hn
    omega

theorem CSR.top_stored {t : IntTy} {b : CSR T} (hb : b.WF t) {n m : Nat} (hn : n ≤ b.rows) : (b.top n m).stored ≤ b.stored := by
  rw [hb.stored_eq, CSR.stored_of_rep (a := b.top n m) (CSR.top_rep hb hn)]
  exact flat_length_mono _ hn

theorem binop_cols [Zero T] [Add T] {t : IntTy} {n nc nc' : Nat} {ap aj bp bj cp cj : List Int} {ax bx : List T} {cx : List T2}
    {op : T → T → T2} {nz : T2 → Bool} (h1 : csr_has_canonical_format t n ap aj = .ok true)
    (h2 : csr_has_canonical_format t n bp bj = .ok true) :
    csr_binop_csr t n nc ap aj ax bp bj bx cp cj cx op nz = csr_binop_csr t n nc' ap aj ax bp bj bx cp cj cx op nz := by
  unfold csr_binop_csr
  rw [h1, h2]
  rfl

/-- the body shared by `+` and `-` -/
def csrOp [Zero T] [Add T] (t : IdxTy) (op : T → T → T) (nz : T → Bool) (a b : CSR T) : M (CSR T) := do
  let nnz := (← a.nnz) + (← b.nnz)
  let (rowptr, colidx, values) ← csr_binop_csr t a.rows a.cols a.rowptr a.colidx a.values
    b.rowptr b.colidx b.values (List.replicate (a.rows + 1) 0) (List.replicate nnz 0)
    (List.replicate nnz 0) op nz
  unwrapR (CSR.new a.rows a.cols rowptr colidx values)

theorem csrOp_fits [AddCommMonoid T] [DecidableEq T] {t : IntTy} {op : T → T → T} (h0 : op 0 0 = 0) {a b : CSR T}
    (ha : a.WF t) (hb : b.WF t) (hr : a.rows ≤ b.rows) (hfit : ((a.stored + b.stored : Nat) : Int) < t.hi)
    (hc : (∀ i < a.rows, ∀ e ∈ b.row i, e.1 < a.cols) ∨ (a.Canonical ∧ ∀ i < a.rows, SRow (b.row i))) :
    ∃ r, csrOp t op nzT a b = .ok r ∧ r.rows = a.rows ∧ r.cols = a.cols ∧ r.NoDup ∧
      (∀ i < a.rows, ∀ e ∈ r.row i, e.2 ≠ 0) ∧
      (∀ i j, r.entry i j = if i < a.rows then op (a.entry i j) (b.entry i j) else 0) ∧
      ((∀ i < a.rows, ∀ e ∈ b.row i, e.1 < a.cols) → r.WF t) := by
  obtain ⟨K, hK1, hK2, hK3, hK4⟩ : ∃ K, a.cols ≤ K ∧ (∀ i < a.rows, ∀ e ∈ b.row i, e.1 < K) ∧
      ((∀ i < a.rows, ∀ e ∈ b.row i, e.1 < a.cols) → K = a.cols) ∧ ∀ (cp cj : List Int) (cx : List T),
        csr_binop_csr t a.rows a.cols a.rowptr a.colidx a.values b.rowptr b.colidx b.values cp cj cx op nzT =
        csr_binop_csr t a.rows K a.rowptr a.colidx a.values b.rowptr b.colidx b.values cp cj cx op nzT := by
    by_cases h : ∀ i < a.rows, ∀ e ∈ b.row i, e.1 < a.cols
    · exact ⟨a.cols, Nat.le_refl _, h, fun _ => rfl, fun _ _ _ => rfl⟩
    · obtain ⟨c1, c2⟩ := hc.resolve_left h
      refine ⟨max a.cols b.cols, by omega, fun i hi e he => ?_, fun h' => (h h').elim, fun cp cj cx => ?_⟩
      · have := (hb.mem (by omega) he).2.1
        omega
      · have hsa := ha.stored_eq
        have hsb := hb.stored_eq
        obtain ⟨u, k1, k2⟩ := has_canonical_ok (t := t) ha.rep fun i hi => by
          have := flat_length_mono a.row (Nat.le_of_lt hi); omega
        obtain ⟨v, g1, g2⟩ := has_canonical_ok (t := t) (CSR.top_rep hb hr) fun i hi => by
          have := flat_length_mono b.row (i := i) (n := b.rows) (by omega); omega
        rw [has_canonical_take] at g1
        rw [k2.2 c1] at k1
        rw [g2.2 c2] at g1
        exact binop_cols k1 g1
  have hts := CSR.top_stored hb hr (m := K)
  have ha' : CSR.WF t ⟨a.rows, K, a.rowptr, a.colidx, a.values⟩ := by
    refine ha.rep.wf (fun i hi e he => ?_) ha.fits
    obtain ⟨h1, h2, h3⟩ := ha.mem hi he
    exact ⟨h1, by simp only; omega, h3⟩
  have hb' : (b.top a.rows K).WF t := CSR.top_wf hb hr hK2
  have e1 := CSR.nnz_ok ha.rep
  have e2 := CSR.nnz_ok hb.rep
  rw [← ha.stored_eq] at e1
  rw [← hb.stored_eq] at e2
  have hsa : CSR.stored ⟨a.rows, K, a.rowptr, a.colidx, a.values⟩ = a.stored := rfl
  obtain ⟨p, j, x, h1, hj, hx, h2, h3, -, h4, h5⟩ := C17_binop t op nzT ⟨a.rows, K, a.rowptr, a.colidx, a.values⟩ (b.top a.rows K)
    ha' hb' rfl rfl (by omega) (List.replicate (a.rows + 1) 0)
    (List.replicate (a.stored + b.stored) 0) (List.replicate (a.stored + b.stored) 0) (by simp)
    (by rw [List.length_replicate]; omega) (by rw [List.length_replicate]; omega)
  have hrep : Rep p j x a.rows (CSR.row ⟨a.rows, K, p, j, x⟩) := h2.rep
  refine ⟨⟨a.rows, a.cols, p, j, x⟩, ?_, rfl, rfl, h3.1, h3.ne_zero h2 rfl, ?_, fun h => hK3 h ▸ h2⟩
  · unfold csrOp
    rw [e1]
    simp only [bind, Except.bind]
    rw [e2]
    simp only
    rw [hK4, ← binop_take]
    have h1' := h1
    simp only [CSR.top] at h1'
    rw [h1']
    simp only
    rw [CSR.new_ok hrep]
    rfl
  · intro i k
    have he := h3.entry ha' hb' rfl h2 rfl h0 i k
    have hr1 : CSR.entry ⟨a.rows, a.cols, p, j, x⟩ i k = CSR.entry ⟨a.rows, K, p, j, x⟩ i k := rfl
    by_cases hi : i < a.rows
    · rw [if_pos hi, hr1, he]
      congr 1
      unfold CSR.entry
      rw [CSR.top_row hb hr hi]
    · rw [if_neg hi, hr1]
      have hl : p.length = a.rows + 1 := hrep.len
      unfold CSR.entry CSR.row rowOf
      simp only [List.getElem?_eq_none (l := p) (i := i + 1) (by omega)]
      split
      · simp_all
      · rfl

theorem binop_accum_len [Add T] {t : IntTy} {is ie : Nat} {aj next : List Int} {ax row : List T} {head len : Int} :
    WP (binop_accum t is ie aj ax next row head len) (fun r => r.2.1.length = row.length) (fun _ => True) := by
  unfold binop_accum
  rw [WP_bind]
  by_cases hle : is ≤ ie
  · refine WP_forRange (fun _ (s : List Int × List T × Int × Int) => s.2.1.length = row.length) (fun _ => False) hle rfl ?_
      (by simp) (fun s h => h)
    intro i s _ _ hs
    simp only [WP_bind]
    refine WP_any fun _ => WP_any fun _ => WP_any fun _ => WP_any fun _ => ?_
    rw [WP_wr]
    refine ⟨fun _ => ?_, fun _ => trivial⟩
    refine WP_any fun _ => ?_
    rw [WP_ite]
    simp only [WP_bind, WP_pure, List.length_set]
    refine ⟨fun _ => WP_any fun _ => WP_any fun _ => hs, fun _ => hs⟩
  · rw [rng_eq_nil (by omega)]
    exact rfl

theorem binop_accum_oob [Add T] {t : IntTy} {is ie k : Nat} {v : Int} {aj next : List Int} {ax row : List T} {head len : Int}
    (h1 : is ≤ k) (h2 : k < ie) (hv : aj[k]? = some v) (hw : row.length ≤ v.toNat) :
    WP (binop_accum t is ie aj ax next row head len) (fun _ => False) (fun _ => True) := by
  unfold binop_accum
  rw [WP_bind]
  refine WP_forRange (fun j (s : List Int × List T × Int × Int) => j ≤ k ∧ s.2.1.length = row.length) (fun _ => False) (by omega)
    ⟨h1, rfl⟩ ?_ (by simp) (fun s h => by omega)
  rintro i s _ _ ⟨hi, hs⟩
  simp only [WP_bind]
  rw [WP_rd]
  refine ⟨fun u hu => ?_, fun _ => trivial⟩
  rw [WP_toUsize]
  refine ⟨fun _ => ?_, fun _ => trivial⟩
  by_cases hik : i = k
  · subst hik
    rw [hv] at hu
    cases hu
    rw [WP_rd]
    refine ⟨fun y hy => ?_, fun _ => trivial⟩
    have := (List.getElem?_eq_some_iff.1 hy).1
    omega
  · refine WP_any fun _ => WP_any fun _ => ?_
    rw [WP_wr]
    refine ⟨fun _ => ?_, fun _ => trivial⟩
    refine WP_any fun _ => ?_
    rw [WP_ite]
    simp only [WP_bind, WP_pure, List.length_set]
    refine ⟨fun _ => WP_any fun _ => WP_any fun _ => ⟨by omega, hs⟩, fun _ => ⟨by omega, hs⟩⟩

theorem binop_flush_len [Zero T] {t : IntTy} {op : T → T → T2} {nz : T2 → Bool} {len head : Int} {next : List Int} {ar br : List T}
    {nnz : Int} {cj : List Int} {cx : List T2} :
    WP (binop_flush t op nz len head next ar br nnz cj cx) (fun r => r.2.2.1.length = br.length) (fun _ => True) := by
  unfold binop_flush
  simp only [WP_bind]
  refine WP_any fun n => ?_
  refine WP_forRange (fun _ (s : Int × List Int × List T × List T × Int × List Int × List T2) => s.2.2.2.1.length = br.length)
    (fun _ => False) (by omega) rfl ?_ (by simp) (fun s h => h)
  intro i s _ _ hs
  simp only [WP_bind]
  refine WP_any fun _ => WP_any fun _ => WP_any fun _ => WP_any fun _ => ?_
  have tail : ∀ (nnz : Int) (cj : List Int) (cx : List T2), WP (do
      let temp ← asIdx s.1
      let head ← s.2.1.rd temp
      let next ← s.2.1.wr temp (-1)
      let a_row ← s.2.2.1.wr temp 0
      let b_row ← s.2.2.2.1.wr temp 0
      pure (ForInStep.yield (head, next, a_row, b_row, nnz, cj, cx)))
      (fun st => match st with
        | ForInStep.yield s' => s'.2.2.2.1.length = br.length
        | ForInStep.done s' => False) (fun _ => True) := by
    intro nnz cj cx
    simp only [WP_bind]
    refine WP_any fun _ => WP_any fun _ => WP_any fun _ => WP_any fun _ => ?_
    rw [WP_wr]
    exact ⟨fun _ => by rw [WP_pure]; simpa using hs, fun _ => trivial⟩
  rw [WP_ite]
  simp only [WP_bind] at tail ⊢
  exact ⟨fun _ => WP_any fun _ => WP_any fun _ => WP_any fun _ => WP_any fun _ => WP_any fun _ => WP_any fun _ => tail _ _ _,
    fun _ => tail _ _ _⟩

theorem binop_general_wide [Zero T] [Add T] {t : IntTy} {n nc : Nat} {ap aj bp bj cp cj : List Int} {ax bx : List T} {cx : List T2}
    {op : T → T → T2} {nz : T2 → Bool} {R : Nat → List (Int × T)} (hb : Rep bp bj bx n R) {i0 : Nat} (hi : i0 < n)
    {e : Int × T} (he : e ∈ R i0) (hw : (nc : Int) ≤ e.1) :
    WP (csr_binop_csr_general t n nc ap aj ax bp bj bx cp cj cx op nz) (fun _ => False) (fun _ => True) := by
  unfold csr_binop_csr_general
  rw [WP_bind]
  refine WP_any fun _ => ?_
  rw [WP_bind]
  refine WP_forRange (fun i (s : List Int × List T × List T × Int × List Int × List Int × List T2) => i ≤ i0 ∧ s.2.2.1.length = nc)
    (fun _ => False) (by omega) ⟨by omega, by simp⟩ ?_ (by simp) (by intro s h; omega)
  rintro i s _ _ ⟨hi1, hs⟩
  simp only [WP_bind]
  refine WP_any fun _ => WP_any fun _ => WP_any fun _ => WP_any fun _ => WP_any fun ra => ?_
  by_cases hik : i = i0
  · subst hik
    obtain ⟨m, hm⟩ := List.getElem?_of_mem he
    have hlt := (List.getElem?_eq_some_iff.1 hm).1
    rw [WP_rd]
    refine ⟨fun p1 hp1 => ?_, fun _ => trivial⟩
    rw [hb.ptr i (by omega)] at hp1
    cases hp1
    rw [WP_toUsize]
    refine ⟨fun _ => ?_, fun _ => trivial⟩
    rw [WP_rd]
    refine ⟨fun p2 hp2 => ?_, fun _ => trivial⟩
    rw [hb.ptr_succ hi] at hp2
    cases hp2
    rw [WP_toUsize]
    refine ⟨fun _ => ?_, fun _ => trivial⟩
    refine (binop_accum_oob (k := (flat R i).length + m) (by omega) (by omega) (hb.get hi hm).1 (by omega)).mono
      (fun _ h => h.elim) fun _ h => h
  · refine WP_any fun _ => WP_any fun _ => WP_any fun _ => WP_any fun _ => ?_
    refine binop_accum_len.mono (fun rb hrb => ?_) fun _ h => h
    refine binop_flush_len.mono (fun r hr => ?_) fun _ h => h
    refine WP_any fun _ => ?_
    rw [WP_pure]
    exact ⟨by omega, by simp only; omega⟩

/-- C16 (`+`). The right operand has at least as many rows, and its first rows fit the width of the left operand:
the surplus rows are dropped without any error. -/
theorem C16_add_dropped_rows [AddCommMonoid T] [DecidableEq T] (t : IntTy) (a b : CSR T) (ha : a.WF t) (hb : b.WF t)
    (hr : a.rows ≤ b.rows) (hfit : ((a.stored + b.stored : Nat) : Int) < t.hi)
    (hc : ∀ i < a.rows, ∀ e ∈ b.row i, e.1 < a.cols) :
    ∃ r, a.add t b = .ok r ∧ r.WF t ∧ r.rows = a.rows ∧ r.cols = a.cols ∧ r.NoDup ∧ (∀ i < a.rows, ∀ e ∈ r.row i, e.2 ≠ 0) ∧
      ∀ i j, r.entry i j = if i < a.rows then a.entry i j + b.entry i j else 0 := by
  obtain ⟨r, h1, h2, h3, h4, h5, h6, h7⟩ := csrOp_fits (op := fun x y => x + y) (by simp) ha hb hr hfit (.inl hc)
  exact ⟨r, h1, h7 hc, h2, h3, h4, h5, h6⟩

/-- C16 (`-`), as above. -/
theorem C16_sub_dropped_rows [AddCommGroup T] [DecidableEq T] (t : IntTy) (a b : CSR T) (ha : a.WF t) (hb : b.WF t)
    (hr : a.rows ≤ b.rows) (hfit : ((a.stored + b.stored : Nat) : Int) < t.hi)
    (hc : ∀ i < a.rows, ∀ e ∈ b.row i, e.1 < a.cols) :
    ∃ r, a.sub t b = .ok r ∧ r.WF t ∧ r.rows = a.rows ∧ r.cols = a.cols ∧ r.NoDup ∧ (∀ i < a.rows, ∀ e ∈ r.row i, e.2 ≠ 0) ∧
      ∀ i j, r.entry i j = if i < a.rows then a.entry i j - b.entry i j else 0 := by
  obtain ⟨r, h1, h2, h3, h4, h5, h6, h7⟩ := csrOp_fits (op := fun x y => x - y) (by simp) ha hb hr hfit (.inl hc)
  exact ⟨r, h1, h7 hc, h2, h3, h4, h5, h6⟩

/-- C16 (`+` and `-`). The first rows of the right operand reach beyond the width of the left one, and both are
canonical: the call succeeds and its result has entries outside its declared width. -/
theorem C16_wider_canonical [AddCommGroup T] [DecidableEq T] (t : IntTy) (a b : CSR T) (ha : a.WF t) (hb : b.WF t)
    (hr : a.rows ≤ b.rows) (hfit : ((a.stored + b.stored : Nat) : Int) < t.hi) (hca : a.Canonical)
    (hcb : ∀ i < a.rows, (b.row i).Pairwise fun e f => e.1 < f.1)
    (hc : ∃ i < a.rows, ∃ j : Nat, a.cols ≤ j ∧ b.entry i j ≠ 0) :
    (∃ r, a.add t b = .ok r ∧ r.rows = a.rows ∧ r.cols = a.cols ∧ ¬ r.WF t ∧
      ∀ i j, r.entry i j = if i < a.rows then a.entry i j + b.entry i j else 0) ∧
    (∃ r, a.sub t b = .ok r ∧ r.rows = a.rows ∧ r.cols = a.cols ∧ ¬ r.WF t ∧
      ∀ i j, r.entry i j = if i < a.rows then a.entry i j - b.entry i j else 0) := by
  obtain ⟨i, hi, j, hj, hne⟩ := hc
  have out : ∀ c : CSR T, c.WF t → ∀ i < c.rows, ∀ j : Nat, c.cols ≤ j → c.entry i j = 0 := by
    intro c hc i hi j hj
    refine rowSum_eq_zero fun e he h => ?_
    have := (hc.mem hi he).2.1
    omega
  constructor
  · obtain ⟨r, h1, h2, h3, h4, h5, h6, h7⟩ := csrOp_fits (op := fun x y => x + y) (by simp) ha hb hr hfit (.inr ⟨hca, hcb⟩)
    refine ⟨r, h1, h2, h3, fun hw => ?_, h6⟩
    have e1 := h6 i j
    rw [if_pos hi, out a ha i hi j hj, out r hw i (by omega) j (by omega), zero_add] at e1
    exact hne e1.symm
  · obtain ⟨r, h1, h2, h3, h4, h5, h6, h7⟩ := csrOp_fits (op := fun x y => x - y) (by simp) ha hb hr hfit (.inr ⟨hca, hcb⟩)
    refine ⟨r, h1, h2, h3, fun hw => ?_, h6⟩
    have e1 := h6 i j
    rw [if_pos hi, out a ha i hi j hj, out r hw i (by omega) j (by omega), zero_sub] at e1
    exact hne (by simpa using e1.symm)

/-- C16 (`+` and `-`). The first rows of the right operand reach beyond the width of the left one, and the operands
are not both canonical: the call does not return a matrix. -/
theorem C16_wider_fails [AddCommGroup T] [DecidableEq T] (t : IntTy) (a b : CSR T) (ha : a.WF t) (hb : b.WF t)
    (hr : a.rows ≤ b.rows) (hfit : ((a.stored + b.stored : Nat) : Int) < t.hi)
    (hcan : ¬ (a.Canonical ∧ ∀ i < a.rows, (b.row i).Pairwise fun e f => e.1 < f.1))
    (hc : ∃ i < a.rows, ∃ e ∈ b.row i, (a.cols : Int) ≤ e.1) (r : CSR T) : a.add t b ≠ .ok r ∧ a.sub t b ≠ .ok r := by
  obtain ⟨i, hi, e, he, hw⟩ := hc
  have hsa := ha.stored_eq
  have hsb := hb.stored_eq
  have key : ∀ (op : T → T → T) (r : CSR T), csrOp t op nzT a b ≠ .ok r := by
    intro op r
    refine WP.not_ok (E := fun _ => True) ?_ r
    unfold csrOp
    simp only [WP_bind]
    refine WP_any fun _ => WP_any fun _ => ?_
    refine WP.mono (Q := fun _ => False) (E := fun _ => True) ?_ (fun _ h => h.elim) fun _ h => h
    obtain ⟨u, k1, k2⟩ := has_canonical_ok (t := t) ha.rep fun i hi => by
      have := flat_length_mono a.row (Nat.le_of_lt hi); omega
    obtain ⟨v, g1, g2⟩ := has_canonical_ok (t := t) (CSR.top_rep hb hr) fun i hi => by
      have := flat_length_mono b.row (i := i) (n := b.rows) (by omega); omega
    rw [← binop_take]
    have hg := fun cp cj cx => binop_general_wide (t := t) (ap := a.rowptr) (aj := a.colidx) (ax := a.values) (cp := cp) (cj := cj)
      (cx := cx) (op := op) (nz := nzT) (CSR.top_rep hb hr) hi he hw
    unfold csr_binop_csr
    rw [k1, g1]
    cases u with
    | false =>
      simp only [bind, Except.bind, pure, Except.pure, Bool.false_eq_true, if_false]
      exact hg _ _ _
    | true =>
      cases v with
      | false =>
        simp only [bind, Except.bind, Bool.false_eq_true, if_false, if_true]
        exact hg _ _ _
      | true => exact (hcan ⟨k2.1 rfl, g2.1 rfl⟩).elim
  exact ⟨key _ r, key _ r⟩

example : (∃ a b : CSR Int, a.WF .i8 ∧ b.WF .i8 ∧ a.rows < b.rows ∧ b.cols < a.cols ∧
      ((a.stored + b.stored : Nat) : Int) < IntTy.i8.hi ∧ (∀ i < a.rows, ∀ e ∈ b.row i, e.1 < a.cols) ∧ b.row 1 ≠ []) ∧
    (∃ a b : CSR Int, a.WF .i8 ∧ b.WF .i8 ∧ a.rows = b.rows ∧ ((a.stored + b.stored : Nat) : Int) < IntTy.i8.hi ∧
      a.Canonical ∧ (∀ i < a.rows, (b.row i).Pairwise fun e f => e.1 < f.1) ∧ b.entry 0 2 ≠ 0 ∧ a.cols = 2) ∧
    (∃ a b : CSR Int, a.WF .i8 ∧ b.WF .i8 ∧ a.rows = b.rows ∧ ((a.stored + b.stored : Nat) : Int) < IntTy.i8.hi ∧
      ¬ a.Canonical ∧ b.row 0 = [(2, 7)] ∧ a.cols = 2) := by
  refine ⟨⟨⟨1, 3, [0, 1], [1], [4]⟩, ⟨2, 2, [0, 1, 2], [0, 1], [5, 6]⟩, CSR.wf_of (by decide), CSR.wf_of (by decide), by decide, by decide,
    by decide, by decide, by decide⟩, ⟨⟨1, 2, [0, 1], [1], [4]⟩, ⟨1, 3, [0, 1], [2], [7]⟩, CSR.wf_of (by decide), CSR.wf_of (by decide),
    rfl, by decide, by unfold CSR.Canonical; decide, by decide, by decide, rfl⟩,
    ⟨⟨1, 2, [0, 2], [1, 0], [4, 5]⟩, ⟨1, 3, [0, 1], [2], [7]⟩, CSR.wf_of (by decide), CSR.wf_of (by decide),
    rfl, by decide, by unfold CSR.Canonical; decide, by decide, rfl⟩⟩

end
end Sparse

import Verif.Model.Crash
import Verif.Lemmas.Exact
import Verif.Lemmas.Fail
/-! Rules for `MX`, and the state left behind by `csr_sum_duplicates`. -/
namespace Sparse

section
variable {T S α β σ : Type}

/-- started in `s`, `m` returns with `Q` or fails with `E` -/
def WPX (m : MX S α) (s : S) (Q : α → S → Prop) (E : Fault → S → Prop) : Prop :=
  match m s with
  | (.ok a, s') => Q a s'
  | (.error e, s') => E e s'

theorem WPX.mono {m : MX S α} {s : S} {Q R : α → S → Prop} {E F : Fault → S → Prop} (h : WPX m s Q E)
    (hQ : ∀ a s, Q a s → R a s) (hE : ∀ e s, E e s → F e s) : WPX m s R F := by
  unfold WPX at *
  cases hm : m s with
  | mk r s' => cases r <;> rw [hm] at h <;> simp_all

theorem WPX_pure {a : α} {s : S} {Q : α → S → Prop} {E : Fault → S → Prop} : WPX (pure a) s Q E ↔ Q a s := Iff.rfl
theorem WPX_bind {m : MX S α} {f : α → MX S β} {s : S} {Q : β → S → Prop} {E : Fault → S → Prop} :
    WPX (m >>= f) s Q E ↔ WPX m s (fun a s' => WPX (f a) s' Q E) E := by
  unfold WPX
  have hb : (m >>= f) s = match m s with | (.ok a, s') => f a s' | (.error e, s') => (.error e, s') := rfl
  rw [hb]
  cases m s with
  | mk r s' => cases r <;> exact Iff.rfl
theorem WPX_lift {m : M α} {s : S} {Q : α → S → Prop} {E : Fault → S → Prop} :
    WPX (lift m) s Q E ↔ WP m (fun a => Q a s) (fun e => E e s) := by
  unfold WPX lift WP
  cases m <;> exact Iff.rfl
theorem WPX_getX {s : S} {Q : S → S → Prop} {E : Fault → S → Prop} : WPX getX s Q E ↔ Q s s := Iff.rfl
theorem WPX_setX {s s' : S} {Q : Unit → S → Prop} {E : Fault → S → Prop} : WPX (setX s') s Q E ↔ Q () s' := Iff.rfl
theorem WPX_scalar {o : Option α} {s : S} {Q : α → S → Prop} {E : Fault → S → Prop} :
    WPX (scalar o) s Q E ↔ ((∀ a, o = some a → Q a s) ∧ (o = none → E (.panic .arith) s)) := by
  cases o with
  | none => simp [scalar, WPX_lift, WP]
  | some a => simp [scalar, WPX_pure]
theorem WPX_ite {c : Prop} [Decidable c] {a b : MX S α} {s : S} {Q : α → S → Prop} {E : Fault → S → Prop} :
    WPX (if c then a else b) s Q E ↔ ((c → WPX a s Q E) ∧ (¬ c → WPX b s Q E)) := by
  split <;> simp_all

theorem WPX_while {fuel : Nat} {s : σ} {st : S} {step : σ → MX S (ForInStep σ)} {Q : σ → S → Prop} {E : Fault → S → Prop}
    (I : σ → S → Prop) (m : σ → Nat) (hf : m s < fuel) (h0 : I s st)
    (hs : ∀ s st, I s st → WPX (step s) st
      (fun r st' => match r with | .done s' => Q s' st' | .yield s' => I s' st' ∧ m s' < m s) E) :
    WPX (whileX fuel s step) st Q E := by
  induction fuel generalizing s st with
  | zero => omega
  | succ n ih =>
    unfold whileX
    rw [WPX_bind]
    refine (hs s st h0).mono ?_ (fun _ _ h => h)
    intro r st' h
    cases r with
    | done s' => exact h
    | yield s' => exact ih (by have := h.2; omega) h.1

theorem WPX_forRange {a b : Nat} {s : σ} {st : S} {f : Nat → σ → MX S (ForInStep σ)} {Q : σ → S → Prop} {E : Fault → S → Prop}
    (P : Nat → σ → S → Prop) (hab : a ≤ b) (h0 : P a s st)
    (hs : ∀ i s st, a ≤ i → i < b → P i s st →
      WPX (f i s) st (fun r st' => ∃ s', r = .yield s' ∧ P (i + 1) s' st') E)
    (hQ : ∀ s st, P b s st → Q s st) : WPX (forIn (rng a b) s f) st Q E := by
  have key : ∀ (k a : Nat) (s : σ) (st : S), b - a = k → a ≤ b → P a s st →
      (∀ i s st, a ≤ i → i < b → P i s st →
        WPX (f i s) st (fun r st' => ∃ s', r = .yield s' ∧ P (i + 1) s' st') E) →
      WPX (forIn (rng a b) s f) st Q E := by
    intro k
    induction k with
    | zero =>
      intro a s st hk hab hp hs
      have : a = b := by omega
      subst this
      rw [rng_eq_nil (Nat.le_refl _), List.forIn_nil, WPX_pure]
      exact hQ _ _ hp
    | succ k ih =>
      intro a s st hk hab hp hs
      rw [rng_cons (by omega), List.forIn_cons, WPX_bind]
      refine (hs a s st (Nat.le_refl _) (by omega) hp).mono ?_ (fun _ _ h => h)
      rintro _ st' ⟨s', rfl, h'⟩
      exact ih (a + 1) s' st' (by omega) (by omega) h' (fun i s st h1 h2 => hs i s st (by omega) h2)
  exact key (b - a) a s st rfl hab h0 hs

macro "wpx" : tactic => `(tactic| simp only [WPX_bind, WPX_pure, WPX_lift, WPX_getX, WPX_setX, WPX_scalar,
  WP_bind, WP_pure, WP_ok, WP_error, WP_map, WP_throw, WP_rd, WP_wr,
  WP_ofUsize, WP_ofInt, WP_add, WP_sub, WP_toUsize, WP_usub])

/-- addition of outcomes: a panic stays a panic -/
@[reducible] def poison (add : T → T → Option T) : Add (Option T) where
  add a b := a.bind fun x => b.bind fun y => add x y

/-- the pairs of a row as outcomes -/
def up (E : List (Int × T)) : List (Int × Option T) := E.map fun e => (e.1, some e.2)

theorem foldl_poison (add : T → T → Option T) (l : List (Int × T)) (v : T) :
    (up l).foldl (fun s f => (poison add).add s f.2) (some v) = l.foldlM (fun s f => add s f.2) v := by
  have hn : ∀ l : List (Int × T), (up l).foldl (fun s f => (poison add).add s f.2) none = none := by
    intro l
    induction l with
    | nil => rfl
    | cons e l ih => exact ih
  induction l generalizing v with
  | nil => rfl
  | cons e l ih =>
    change (up l).foldl (fun s f => (poison add).add s f.2) (add v e.2) = _
    rw [List.foldlM_cons]
    cases h : add v e.2 with
    | none => rw [hn]; rfl
    | some w => rw [ih]; rfl

theorem combine_up_cons (add : T → T → Option T) (e : Int × T) (E : List (Int × T)) :
    @combine _ (poison add) (up (e :: E)) =
      (e.1, (E.takeWhile fun f => decide (f.1 = e.1)).foldlM (fun s f => add s f.2) e.2) ::
        @combine _ (poison add) (up (E.dropWhile fun f => decide (f.1 = e.1))) := by
  have h1 : (up E).takeWhile (fun f => decide (f.1 = e.1)) = up (E.takeWhile fun f => decide (f.1 = e.1)) := by
    unfold up
    rw [List.takeWhile_map]
    rfl
  have h2 : (up E).dropWhile (fun f => decide (f.1 = e.1)) = up (E.dropWhile fun f => decide (f.1 = e.1)) := by
    unfold up
    rw [List.dropWhile_map]
    rfl
  change @combine _ (poison add) ((e.1, some e.2) :: up E) = _
  rw [@combine.eq_def _ (poison add)]
  simp only
  rw [h1, h2, ← foldl_poison]
  rfl

theorem sum_runX_ok (add : T → T → Option T) {k : Int} (E : List (Int × T)) (jj : Nat) (v : T) (a : Slices T)
    (hE : ∀ m e, E[m]? = some e → a.j[jj + m]? = some e.1 ∧ a.x[jj + m]? = some e.2) :
    WPX (sum_runX add (jj + E.length) k (jj, v)) a
      (fun r a' => a' = a ∧ r.1 = jj + (E.takeWhile fun f => decide (f.1 = k)).length ∧
        (E.takeWhile fun f => decide (f.1 = k)).foldlM (fun s f => add s f.2) v = some r.2)
      (fun e a' => a' = a ∧ e = .panic .arith ∧
        (E.takeWhile fun f => decide (f.1 = k)).foldlM (fun s f => add s f.2) v = none) := by
  generalize hre : jj + E.length = re
  generalize hres : (E.takeWhile fun f => decide (f.1 = k)).foldlM (fun s f => add s f.2) v = res
  generalize hend : jj + (E.takeWhile fun f => decide (f.1 = k)).length = stop
  unfold sum_runX
  refine WPX_while (fun s a' => a' = a ∧ ∃ E2 : List (Int × T), re = s.1 + E2.length ∧
    (∀ m e, E2[m]? = some e → a.j[s.1 + m]? = some e.1 ∧ a.x[s.1 + m]? = some e.2) ∧
    s.1 + (E2.takeWhile fun f => decide (f.1 = k)).length = stop ∧
        (E2.takeWhile fun f => decide (f.1 = k)).foldlM (fun s f => add s f.2) s.2 = res)
    (fun s => re - s.1) (by omega) ⟨rfl, E, by simp only; omega, hE, hend, hres⟩ ?_
  rintro ⟨jj, v⟩ _ ⟨rfl, E2, h1, h2, h3, h4⟩
  rename_i a'
  simp only at h1 h2 h3 h4 ⊢
  wpx
  rw [WPX_ite]
  cases E2 with
  | nil =>
    simp at h1 h3 h4
    constructor
    · intro h; omega
    · intro _; wpx; exact ⟨trivial, h3, h4.symm⟩
  | cons e E2 =>
    simp at h1
    have h0 := h2 0 e (by simp)
    simp only [Nat.add_zero] at h0
    constructor
    · intro hlt
      wpx
      rw [h0.1]
      refine ⟨?_, by simp⟩
      intro w hw
      obtain rfl := Option.some.inj hw
      rw [WPX_ite]
      constructor
      · intro hk
        wpx
        rw [h0.2]
        refine ⟨?_, by simp⟩
        intro w hw
        obtain rfl := Option.some.inj hw
        rw [List.takeWhile_cons] at h3 h4
        simp only [hk, decide_true, if_true, List.foldlM_cons, List.length_cons] at h3 h4
        refine ⟨?_, ?_⟩
        · intro x hx
          rw [hx] at h4
          refine ⟨⟨trivial, E2, by omega, ?_, by omega, h4⟩, by omega⟩
          intro m f hf
          have := h2 (m + 1) f (by simpa using hf)
          rw [show jj + 1 + m = jj + (m + 1) by omega]; exact this
        · intro hx
          rw [hx] at h4
          exact ⟨trivial, trivial, h4.symm⟩
      · intro hk
        wpx
        rw [List.takeWhile_cons] at h3 h4
        simp [hk] at h3 h4
        exact ⟨trivial, h3, h4.symm⟩
    · intro h; omega


/-- the state of a compaction in terms of the borrowed slices -/
def CompX (L0 : List (Int × T)) (lj lx : Nat) (G : Int → Prop) (N : Nat) (out : List (Int × T)) (jj nnz : Nat) (a : Slices T) : Prop :=
  Comp L0 lj lx out (jj, nnz, a.j, a.x) ∧ ∀ k < N, ∀ v, a.j[k]? = some v → G v

theorem sum_rowX_ok (add : T → T → Option T) {L0 out E rest : List (Int × T)} {lj lx N : Nat} {G : Int → Prop}
    {jj nnz : Nat} {a : Slices T}
    (h : CompX L0 lj lx G N out jj nnz a) (hL : L0.drop jj = E ++ rest) (hG : ∀ e ∈ E, G e.1) :
    WPX (sum_rowX add (jj + E.length) (jj, nnz)) a
      (fun r a' => ∃ F, up F = @combine _ (poison add) (up E) ∧ CompX L0 lj lx G N (out ++ F) r.1 r.2 a' ∧
        r.1 = jj + E.length ∧ a'.p = a.p)
      (fun e a' => e = .panic .arith ∧ a'.p = a.p ∧ (∃ c, (c, none) ∈ @combine _ (poison add) (up E)) ∧
        ∃ F jj' nnz', CompX L0 lj lx G N (out ++ F) jj' nnz' a' ∧ jj' < jj + E.length) := by
  generalize hre : jj + E.length = re
  unfold sum_rowX
  refine WPX_while (fun s a' => ∃ F E2, up F ++ @combine _ (poison add) (up E2) = @combine _ (poison add) (up E) ∧
    CompX L0 lj lx G N (out ++ F) s.1 s.2 a' ∧ L0.drop s.1 = E2 ++ rest ∧ re = s.1 + E2.length ∧ a'.p = a.p ∧
    ∀ e ∈ E2, G e.1)
    (fun s => re - s.1) (by simp only; omega) ⟨[], E, by simp [up], by simpa using h, hL, hre.symm, rfl, hG⟩ ?_
  rintro ⟨jj, nnz⟩ a' ⟨F, E2, ho, ⟨hc, hg⟩, hd, hr2, hp, hGE⟩
  simp only at hc hd hr2 ⊢
  rw [WPX_ite]
  constructor
  · intro hlt
    cases E2 with
    | nil => simp at hr2; omega
    | cons e E3 =>
      simp only [List.length_cons] at hr2
      have h0 := hc.read hd (m := 0) (e := e) (by simp)
      simp only [Nat.add_zero] at h0
      wpx
      rw [h0.1, h0.2]
      refine ⟨?_, by simp⟩
      intro w hw
      obtain rfl := Option.some.inj hw
      refine ⟨?_, by simp⟩
      intro w hw
      obtain rfl := Option.some.inj hw
      have hd3 : L0.drop (jj + 1) = E3 ++ rest := (drop_eq_cons_get hd).2
      have hrun := sum_runX_ok add (a := a') (k := e.1) E3 (jj + 1) e.2 (by
        intro m f hf
        have := hc.read hd (m := m + 1) (e := f) (by
          have : m < E3.length := by rw [List.getElem?_eq_some_iff] at hf; exact hf.1
          simp [List.getElem?_append_left this, hf])
        simp only at this
        rw [show jj + 1 + m = jj + (m + 1) by omega]; exact this)
      rw [show re = jj + 1 + E3.length by omega]
      rw [combine_up_cons] at ho
      generalize htk : (E3.takeWhile fun f => decide (f.1 = e.1)) = tk at *
      refine hrun.mono ?_ ?_
      · rintro ⟨jr, xr⟩ _ ⟨rfl, h4, h5⟩
        simp only at h4 h5
        subst h4
        have hn := hc.nnz
        simp only at hn
        subst hn
        have hsplit : E3 = tk ++ E3.dropWhile fun f => decide (f.1 = e.1) := by
          rw [← htk]; simp
        have hl3 := congrArg List.length hsplit
        simp only [List.length_append] at hl3
        have hle := hc.le
        simp only at hle
        have hll := congrArg List.length hd3
        simp only [List.length_drop, List.length_append] at hll
        have hll2 := congrArg List.length hd
        simp only [List.length_drop, List.length_append, List.length_cons] at hll2
        obtain ⟨g1, g2, g3⟩ := hc.emit (jj := jj + 1 + tk.length) (by omega) (by omega) (by simp only; omega) (e.1, xr)
        simp only at g1 g2 g3
        wpx
        refine ⟨fun _ => ⟨fun _ => ⟨⟨F ++ [(e.1, xr)], E3.dropWhile fun f => decide (f.1 = e.1), ?_, ⟨?_, ?_⟩, ?_, by omega, hp, ?_⟩, by omega⟩,
          fun h => absurd g2 h⟩, fun h => absurd g1 h⟩
        · rw [← ho, h5]; simp [up]
        · rw [← List.append_assoc]; exact g3
        · intro k hk v hv
          rw [List.getElem?_set] at hv
          split at hv
          · obtain rfl := Option.some.inj hv
            exact hGE e (by simp)
          · exact hg k hk v hv
        · have h5 : L0.drop (jj + 1) = tk ++ (E3.dropWhile (fun f => decide (f.1 = e.1)) ++ rest) := by
            rw [hd3]; conv_lhs => rw [hsplit]
            simp
          rw [← List.drop_drop, h5]; simp
        · intro f hf
          exact hGE f (List.mem_cons_of_mem _ ((List.dropWhile_suffix _).subset hf))
      · rintro er _ ⟨rfl, h4, h5⟩
        refine ⟨h4, hp, ⟨e.1, ?_⟩, F, jj, nnz, ⟨hc, hg⟩, by omega⟩
        rw [← ho, h5]
        simp
  · intro hge
    cases E2 with
    | nil =>
      wpx
      simp only [List.length_nil] at hr2
      have : @combine _ (poison add) (up ([] : List (Int × T))) = [] := by rw [@combine.eq_def _ (poison add)]; rfl
      rw [this, List.append_nil] at ho
      exact ⟨F, ho, ⟨hc, hg⟩, by omega, hp⟩
    | cons e E2 => simp at hr2; omega

theorem up_length (E : List (Int × T)) : (up E).length = E.length := by simp [up]

/-- `csr_sum_duplicates` on rows `R`: at the end every row is summed; if an addition panics in row `i`, the rows before
are summed, the rows after are untouched, and the arrays still hold valid pointers and column indices. -/
theorem csr_sum_duplicatesX_ok (add : T → T → Option T) {t : IntTy} {n : Nat} {p j : List Int} {x : List T}
    {R : Nat → List (Int × T)} {G : Int → Prop}
    (hr : Rep p j x n R) (hfit : ((flat R n).length : Int) ≤ t.hi) (hG : ∀ i < n, ∀ e ∈ R i, G e.1) :
    WPX (csr_sum_duplicatesX add t n) ⟨p, j, x⟩
      (fun _ a => ∃ F : Nat → List (Int × T), (∀ i < n, up (F i) = @combine _ (poison add) (up (R i))) ∧
        Rep a.p a.j a.x n F ∧ a.j.length = j.length ∧ a.x.length = x.length)
      (fun e a => e = .panic .arith ∧ ∃ i < n, ∃ S : Nat → List (Int × T),
        Rep a.p a.j a.x n S ∧ a.j.length = j.length ∧ a.x.length = x.length ∧
        (flat S n).length = (flat R n).length ∧ (∀ k < n, ∀ e ∈ S k, G e.1) ∧
        (∃ c, (c, none) ∈ @combine _ (poison add) (up (R i))) ∧
        (∀ k < i, up (S k) = @combine _ (poison add) (up (R k))) ∧ ∀ k, i < k → k < n → S k = R k) := by
  have hGj : ∀ k < (flat R n).length, ∀ v, j[k]? = some v → G v := by
    intro k hk v hv
    obtain ⟨i, m, hi, hm, rfl⟩ := flat_locate hk
    have := (hr.get hi (List.getElem?_eq_getElem hm)).1
    rw [this] at hv
    obtain rfl := Option.some.inj hv
    exact hG i hi _ (List.getElem_mem hm)
  have hlen : ∀ (E F : List (Int × T)), up F = @combine _ (poison add) (up E) → F.length ≤ E.length := by
    intro E F h
    have := @combine_length _ (poison add) (up E)
    rw [← h, up_length, up_length] at this
    exact this
  unfold csr_sum_duplicatesX
  wpx
  refine WPX_forRange (fun i (s : Nat × Nat) (a : Slices T) => ∃ F : Nat → List (Int × T),
    (∀ k < i, up (F k) = @combine _ (poison add) (up (R k))) ∧
    a.p.length = n + 1 ∧ s.snd = (flat R i).length ∧
    (∀ k ≤ i, a.p[k]? = some ((flat F k).length : Int)) ∧
    (∀ k, i < k → k ≤ n → a.p[k]? = some ((flat R k).length : Int)) ∧
    CompX (j.zip x) j.length x.length G (flat R n).length (flat F i) s.snd s.fst a) (by omega) ?_ ?_ ?_
  · refine ⟨fun _ => [], by omega, hr.len, rfl, ?_, fun k _ hk => hr.ptr k hk,
      ⟨⟨rfl, by simp, by simp, rfl, rfl, rfl, by simp⟩, hGj⟩⟩
    intro k hk
    have : k = 0 := by omega
    subst this
    rw [hr.ptr 0 (by omega)]; simp
  · rintro i ⟨nnz, re⟩ a - hi ⟨F, hF, hl, hre, hp1, hp2, hc⟩
    simp only at hre hc
    subst hre
    wpx
    rw [hp2 (i + 1) (by omega) (by omega)]
    refine ⟨?_, by simp⟩
    intro v hv
    obtain rfl := Option.some.inj hv
    refine ⟨fun _ => ?_, fun h => by omega⟩
    obtain ⟨slack, hsl⟩ := (flat_prefix R hi).trans hr.pre
    have hd : (j.zip x).drop (flat R i).length = R i ++ slack := by
      rw [← hsl, Nat.succ_eq_add_one, flat_succ]; simp
    have hleF : ∀ k ≤ i, (flat F k).length ≤ (flat R k).length := by
      intro k
      induction k with
      | zero => simp
      | succ k ih =>
        intro hk
        rw [flat_length_succ, flat_length_succ]
        have := hlen _ _ (hF k (by omega))
        have := ih (by omega)
        omega
    have hb := sum_rowX_ok add hc hd (hG i hi)
    rw [flat_length_succ, Int.toNat_natCast]
    have h2 := flat_length_mono R (show i + 1 ≤ n by omega)
    rw [flat_length_succ] at h2
    refine hb.mono ?_ ?_
    · rintro ⟨jj, nnz'⟩ a' ⟨Fi, hFi, ⟨hc', hg'⟩, hjj, hpe⟩
      simp only at hjj hc'
      subst hjj
      have hFl := hlen _ _ hFi
      have h3 := hleF i (Nat.le_refl _)
      let F' : Nat → List (Int × T) := fun k => if k = i then Fi else F k
      have hF' : ∀ k ≤ i, flat F' k = flat F k := by
        intro k hk
        refine flat_congr fun m hm => ?_
        simp only [F']
        rw [if_neg (by omega)]
      have hF's : flat F' (i + 1) = flat F i ++ Fi := by
        rw [flat_succ, hF' i (Nat.le_refl _)]
        simp [F']
      rw [← hF's] at hc'
      have hn := hc'.nnz
      simp only at hn
      subst hn
      have hfl : (flat F' (i + 1)).length = (flat F i).length + Fi.length := by rw [hF's, List.length_append]
      wpx
      refine ⟨fun _ => ⟨fun _ => ⟨_, rfl, F', ?_, by rw [hpe]; simpa using hl, by rw [flat_length_succ], ?_, ?_, hc', hg'⟩,
        fun h => absurd (by rw [hpe, hl]; omega) h⟩, fun h => absurd (by omega) h⟩
      · intro k hk
        simp only [F']
        split
        · rename_i h; subst h; exact hFi
        · exact hF k (by omega)
      · intro k hk
        simp only [hpe]
        rcases Nat.lt_or_ge k (i + 1) with h | h
        · rw [List.getElem?_set_ne (by omega), hF' k (by omega)]; exact hp1 k (by omega)
        · have : k = i + 1 := by omega
          subst this
          rw [List.getElem?_set_self (by omega)]
      · intro k h1 h2
        simp only [hpe]
        rw [List.getElem?_set_ne (by omega)]
        exact hp2 k (by omega) h2
    · rintro er a' ⟨h4, hpe, hbad, F2, jj', nnz', ⟨hc', hg'⟩, hjj⟩
      refine ⟨h4, i, hi, ?_⟩
      have h3 := hleF i (Nat.le_refl _)
      have hptr : Pointers n a'.p a'.j a'.x := by
        rw [hpe]
        refine ⟨hl, by rw [hp1 0 (by omega)]; simp, ?_, ?_⟩
        · intro k u w hu hw
          have hk : k + 1 ≤ n := by
            have := (List.getElem?_eq_some_iff.1 hw).1
            omega
          rcases Nat.lt_trichotomy k i with h | h | h
          · rw [hp1 k (by omega)] at hu
            rw [hp1 (k + 1) (by omega)] at hw
            have := flat_length_mono F (Nat.le_succ k)
            obtain rfl := Option.some.inj hu
            obtain rfl := Option.some.inj hw
            exact_mod_cast this
          · subst h
            rw [hp1 k (Nat.le_refl _)] at hu
            rw [hp2 (k + 1) (by omega) hk] at hw
            obtain rfl := Option.some.inj hu
            obtain rfl := Option.some.inj hw
            have := flat_length_mono R (Nat.le_succ k)
            rw [Nat.succ_eq_add_one] at this
            omega
          · rw [hp2 k (by omega) (by omega)] at hu
            rw [hp2 (k + 1) (by omega) hk] at hw
            have := flat_length_mono R (Nat.le_succ k)
            obtain rfl := Option.some.inj hu
            obtain rfl := Option.some.inj hw
            exact_mod_cast this
        · intro c hcn
          rw [hp2 n (by omega) (Nat.le_refl _)] at hcn
          obtain rfl := Option.some.inj hcn
          rw [hc'.lenj, hc'.lenx]
          have := hr.len_j
          have := hr.len_x
          omega
      have hrep := hptr.rep
      have hSn : (flat (Sparse.rowOf a'.p a'.j a'.x) n).length = (flat R n).length := by
        have h5 := hrep.ptr n (Nat.le_refl _)
        rw [show a'.p[n]? = a.p[n]? by rw [hpe], hp2 n (by omega) (Nat.le_refl _)] at h5
        have := Option.some.inj h5
        exact_mod_cast this.symm
      have hS : ∀ k < n, Sparse.rowOf a'.p a'.j a'.x k = match a'.p[k]?, a'.p[k + 1]? with
          | some u, some w => ((a'.j.zip a'.x).drop u.toNat).take (w.toNat - u.toNat)
          | _, _ => [] := fun k _ => rfl
      refine ⟨_, hrep, hc'.lenj, hc'.lenx, hSn, ?_, hbad, ?_, ?_⟩
      · intro k hk e he
        obtain ⟨m, hm⟩ := List.getElem?_of_mem he
        have h5 := flat_getElem? hk hm
        have h6 := (List.getElem?_eq_some_iff.1 h5).1
        exact hg' _ (by rw [hSn] at h6; exact h6) _ (hrep.get hk hm).1
      · intro k hk
        rw [← hF k hk, hS k (by omega), hpe, hp1 k (by omega), hp1 (k + 1) (by omega)]
        simp only [Int.toNat_natCast]
        have hpre : flat F (k + 1) <+: a'.j.zip a'.x :=
          ((flat_prefix F (show k + 1 ≤ i by omega)).trans (List.prefix_append _ _)).trans hc'.pre
        have hfl := flat_length_succ F k
        rw [drop_take_of_prefix hpre (by omega), hfl, Nat.add_sub_cancel_left, flat_succ]
        simp
      · intro k hk hkn
        rw [hS k hkn, hpe, hp2 k (by omega) (by omega), hp2 (k + 1) (by omega) (by omega)]
        simp only [Int.toNat_natCast]
        have hm := flat_length_mono R (show i + 1 ≤ k by omega)
        rw [flat_length_succ] at hm
        have hd' : (a'.j.zip a'.x).drop (flat R k).length = (j.zip x).drop (flat R k).length := by
          have := congrArg (List.drop ((flat R k).length - jj')) hc'.rest
          rw [List.drop_drop, List.drop_drop] at this
          simp only at this
          rwa [show jj' + ((flat R k).length - jj') = (flat R k).length by omega] at this
        rw [hd', ← hr.rowOf hkn]
        unfold Sparse.rowOf
        rw [hr.ptr k (by omega), hr.ptr (k + 1) (by omega)]
        simp only [Int.toNat_natCast]
  · rintro ⟨nnz, re⟩ a ⟨F, hF, hl, hre, hp1, hp2, hc, hg⟩
    simp only at hre hc
    exact ⟨F, hF, ⟨hl, hp1, hc.pre⟩, hc.lenj, hc.lenx⟩

end
end Sparse

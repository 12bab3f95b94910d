import Verif.Model.UsizeCsc
import Verif.Lemmas.Usize
/-! The column format and three blocks on machine words. -/
namespace Sparse

section
variable {T : Type}

theorem cscNewU_max {u : Usz} {rows : Nat} {p j : List Int} {x : List T} {r : CSC T} : CSC.newU u rows u.max j p x ≠ .ok r := by
  intro h
  unfold CSC.newU Usz.add at h
  rw [if_neg (by omega)] at h
  by_cases hw : u.wraps = true
  · rw [if_pos hw, pure_bind, Nat.mod_self] at h
    split at h
    · cases h
    · have hp : p = [] := List.eq_nil_of_length_eq_zero (by omega)
      subst hp
      obtain ⟨_, h1, h⟩ := bind_okM h
      obtain ⟨_, h1', h⟩ := bind_okM h
      simp [List.rd] at h1'
  · rw [if_neg hw] at h
    cases h

theorem cscNewU_eq {u : Usz} {cols : Nat} (hr : cols < u.max) (rows : Nat) (j p : List Int) (x : List T) :
    CSC.newU u rows cols j p x = CSC.new rows cols j p x := by
  unfold CSC.newU CSC.new
  rw [uadd_eq (by omega), pure_bind]
  split
  · rfl
  · rw [uszsub_eq (by omega)]
    unfold usub
    rw [if_pos (by omega)]

theorem cscNewU_refi {u : Usz} {cols : Nat} (hr : cols ≤ u.max) (rows : Nat) (j p : List Int) (x : List T) :
    Refi (CSC.newU u rows cols j p x) (CSC.new rows cols j p x) := by
  rcases Nat.lt_or_ge cols u.max with h | h
  · rw [cscNewU_eq h]; exact Refi.rfl'
  · have : cols = u.max := by omega
    subst this
    exact fun r hr => absurd hr cscNewU_max

theorem unwrapR_refi {m m' : M α} (h : Refi m m') : Refi (unwrapR m) (unwrapR m') := by
  intro r hr
  have : m = .ok r := by
    unfold unwrapR at hr
    split at hr
    · cases hr
    · exact hr
  rw [h r this]
  rfl

theorem unwrapR_okM {m : M α} {r : α} (hr : unwrapR m = .ok r) : m = .ok r := by
  unfold unwrapR at hr
  split at hr
  · cases hr
  · exact hr

theorem csc_mat_matU_refi [Zero T] [Add T] [Mul T] [BEq T] {u : Usz} {isz sz : Nat} {t : IdxTy} {a x : CSC T}
    (hr : x.cols ≤ u.max) (hc : a.rows ≤ u.max) (hb : a.colptr.length ≤ u.max) : Refi (a.mat_matU u isz sz t x) (a.mat_mat t x) := by
  unfold CSC.mat_matU CSC.mat_mat csc_matmat_maxnnzU csc_matmat_maxnnz
  refine Refi.ite Refi.rfl' ?_
  dsimp only
  rcases maxnnzU_rel (u := u) (n := x.cols) (m := a.rows) (a_p := x.colptr) (a_j := x.rowidx) (b_p := a.colptr) (b_j := a.rowidx)
    hr hc hb with ⟨h, -⟩ | ⟨⟨p, h⟩, -⟩
  · rw [h]
    refine Refi.tail fun k => ?_
    rcases Nat.lt_or_ge x.cols u.max with hr' | hr'
    · rw [uadd_eq (by omega), pure_bind]
      exact Refi.ucap <| Refi.ucap <| Refi.ucap <| Refi.tail fun r => cscNewU_refi hr _ _ _ _
    · intro r h
      exfalso
      obtain ⟨_, -, h⟩ := bind_okM h
      obtain ⟨_, -, h⟩ := bind_okM h
      obtain ⟨_, -, h⟩ := bind_okM h
      obtain ⟨_, -, h⟩ := bind_okM h
      obtain ⟨_, -, h⟩ := bind_okM h
      rw [show x.cols = u.max by omega] at h
      exact cscNewU_max h
  · rw [h]
    intro r h
    cases h

theorem csc_mat_matU_eq [Zero T] [Add T] [Mul T] [BEq T] {u : Usz} {isz sz : Nat} {t : IdxTy} {a x : CSC T}
    (hr : x.cols < u.max) (hri : isz * (x.cols + 1) ≤ u.imax) (hc : a.rows ≤ u.max) (hb : a.colptr.length ≤ u.max)
    (hk : ∀ k, csr_matmat_maxnnz x.cols a.rows x.colptr x.rowidx a.colptr a.rowidx = .ok k → k ≤ u.max ∧ isz * k ≤ u.imax ∧ sz * k ≤ u.imax)
    (hok : ∃ k, csr_matmat_maxnnz x.cols a.rows x.colptr x.rowidx a.colptr a.rowidx = .ok k) :
    a.mat_matU u isz sz t x = a.mat_mat t x := by
  unfold CSC.mat_matU CSC.mat_mat csc_matmat_maxnnzU csc_matmat_maxnnz
  dsimp only
  split
  · rfl
  rcases maxnnzU_rel (u := u) (n := x.cols) (m := a.rows) (a_p := x.colptr) (a_j := x.rowidx) (b_p := a.colptr) (b_j := a.rowidx)
    (by omega) hc hb with ⟨h, -⟩ | ⟨-, h⟩
  · rw [h]
    refine bind_congrM fun k hk' => ?_
    obtain ⟨-, h1, h2⟩ := hk k hk'
    rw [uadd_eq (by omega), pure_bind, ucap_eq hri, ucap_eq h1, ucap_eq h2]
    show (do let r ← csc_matmat .. ; _) = _
    exact bind_congrM fun r _ => cscNewU_eq hr ..
  · obtain ⟨k, hk'⟩ := hok
    have := h k hk'
    have := (hk k hk').1
    omega

theorem to_cscU_refi [Zero T] [Add T] {u : Usz} {isz : Nat} {t : IdxTy} {a : Coo T} (hr : a.cols ≤ u.max) : Refi (Coo.to_cscU u isz t a) (a.to_csc t) := by
  rcases Nat.lt_or_ge a.cols u.max with hr' | hr'
  · unfold Coo.to_cscU Coo.to_csc
    dsimp only
    rw [uadd_eq (by omega), pure_bind]
    refine Refi.ucap <| Refi.tail fun r => Refi.bind ?_ fun m => Refi.rfl'
    rw [cscNewU_eq hr']
    exact Refi.rfl'
  · intro r h
    exfalso
    unfold Coo.to_cscU at h
    dsimp only at h
    obtain ⟨_, -, h⟩ := bind_okM h
    obtain ⟨_, -, h⟩ := bind_okM h
    obtain ⟨_, -, h⟩ := bind_okM h
    obtain ⟨m, hm, h⟩ := bind_okM h
    rw [show a.cols = u.max by omega] at hm
    exact cscNewU_max (unwrapR_okM hm)

theorem to_cscU_eq [Zero T] [Add T] {u : Usz} {isz : Nat} {t : IdxTy} {a : Coo T} (hr : a.cols < u.max) (hi : isz * (a.cols + 1) ≤ u.imax) :
    Coo.to_cscU u isz t a = a.to_csc t := by
  unfold Coo.to_cscU Coo.to_csc
  dsimp only
  rw [uadd_eq (by omega), pure_bind, ucap_eq hi]
  show (do let r ← coo_tocsr .. ; _) = _
  refine bind_congrM fun r _ => ?_
  rw [cscNewU_eq hr]

theorem csc_to_csrU_refi [Zero T] {u : Usz} {isz sz : Nat} {t : IdxTy} {a : CSC T} (hr : a.rows ≤ u.max) :
    Refi (a.to_csrU u isz sz t) (a.to_csr t) := by
  rcases Nat.lt_or_ge a.rows u.max with hr' | hr'
  · unfold CSC.to_csrU CSC.to_csr
    rw [uadd_eq (by omega), pure_bind]
    refine Refi.ucap <| Refi.tail fun n1 => Refi.ucap <| Refi.tail fun n2 => Refi.ucap <| Refi.tail fun r => ?_
    exact unwrapR_refi (newU_refi hr _ _ _ _)
  · intro r h
    exfalso
    unfold CSC.to_csrU at h
    obtain ⟨_, -, h⟩ := bind_okM h
    obtain ⟨_, -, h⟩ := bind_okM h
    obtain ⟨_, -, h⟩ := bind_okM h
    obtain ⟨_, -, h⟩ := bind_okM h
    obtain ⟨_, -, h⟩ := bind_okM h
    obtain ⟨_, -, h⟩ := bind_okM h
    obtain ⟨_, -, h⟩ := bind_okM h
    rw [show a.rows = u.max by omega] at h
    exact newU_max (unwrapR_okM h)

theorem csr_to_cscU_refi [Zero T] {u : Usz} {isz sz : Nat} {t : IdxTy} {a : CSR T} (hr : a.cols ≤ u.max) :
    Refi (a.to_cscU u isz sz t) (a.to_csc t) := by
  rcases Nat.lt_or_ge a.cols u.max with hr' | hr'
  · unfold CSR.to_cscU CSR.to_csc
    rw [uadd_eq (by omega), pure_bind]
    refine Refi.ucap <| Refi.tail fun n1 => Refi.ucap <| Refi.tail fun n2 => Refi.ucap <| Refi.tail fun r => ?_
    exact unwrapR_refi (cscNewU_refi hr _ _ _ _)
  · intro r h
    exfalso
    unfold CSR.to_cscU at h
    obtain ⟨_, -, h⟩ := bind_okM h
    obtain ⟨_, -, h⟩ := bind_okM h
    obtain ⟨_, -, h⟩ := bind_okM h
    obtain ⟨_, -, h⟩ := bind_okM h
    obtain ⟨_, -, h⟩ := bind_okM h
    obtain ⟨_, -, h⟩ := bind_okM h
    obtain ⟨_, -, h⟩ := bind_okM h
    rw [show a.cols = u.max by omega] at h
    exact cscNewU_max (unwrapR_okM h)

theorem csc_to_csrU_eq [Zero T] {u : Usz} {isz sz : Nat} {t : IdxTy} {a : CSC T} (hr : a.rows < u.max) (hi : isz * (a.rows + 1) ≤ u.imax)
    (hn : ∀ n, a.nnz = .ok n → isz * n ≤ u.imax ∧ sz * n ≤ u.imax) : a.to_csrU u isz sz t = a.to_csr t := by
  unfold CSC.to_csrU CSC.to_csr
  rw [uadd_eq (by omega), pure_bind, ucap_eq hi]
  show (do let n1 ← a.nnz ; _) = _
  refine bind_congrM fun n1 h1 => ?_
  rw [ucap_eq (hn n1 h1).1]
  show (do let n1 ← a.nnz ; _) = _
  refine bind_congrM fun n2 h2 => ?_
  rw [ucap_eq (hn n2 h2).2]
  show (do let r ← csr_tocsc .. ; _) = _
  refine bind_congrM fun r _ => ?_
  rw [newU_eq hr]

theorem csr_to_cscU_eq [Zero T] {u : Usz} {isz sz : Nat} {t : IdxTy} {a : CSR T} (hr : a.cols < u.max) (hi : isz * (a.cols + 1) ≤ u.imax)
    (hn : ∀ n, a.nnz = .ok n → isz * n ≤ u.imax ∧ sz * n ≤ u.imax) : a.to_cscU u isz sz t = a.to_csc t := by
  unfold CSR.to_cscU CSR.to_csc
  rw [uadd_eq (by omega), pure_bind, ucap_eq hi]
  show (do let n1 ← a.nnz ; _) = _
  refine bind_congrM fun n1 h1 => ?_
  rw [ucap_eq (hn n1 h1).1]
  show (do let n1 ← a.nnz ; _) = _
  refine bind_congrM fun n2 h2 => ?_
  rw [ucap_eq (hn n2 h2).2]
  show (do let r ← csr_tocsc .. ; _) = _
  refine bind_congrM fun r _ => ?_
  rw [cscNewU_eq hr]

theorem v_stack_shape {t : IdxTy} {a b r : Coo T} (h : Coo.v_stack t a b = .ok r) : r.rows = a.rows + b.rows ∧ r.cols = a.cols := by
  unfold Coo.v_stack at h
  split at h
  · cases h
  · obtain ⟨s, -, h⟩ := bind_okM h
    cases h
    exact ⟨rfl, rfl⟩

theorem v_stack3U_eq {u : Usz} {t : IdxTy} {a b c : Coo T} (h : a.rows + b.rows + c.rows ≤ u.max) : Coo.v_stack3U u t a b c = Coo.v_stack3 t a b c := by
  unfold Coo.v_stack3U Coo.v_stack3
  rw [v_stackU_eq (by omega)]
  split
  · rfl
  split
  · rfl
  exact bind_congrM fun x hx => v_stackU_eq (by rw [(v_stack_shape hx).1]; exact h)

theorem h_stack3U_eq {u : Usz} {t : IdxTy} {a b c : Coo T} (h : a.cols + b.cols + c.cols ≤ u.max) : Coo.h_stack3U u t a b c = Coo.h_stack3 t a b c := by
  unfold Coo.h_stack3U Coo.h_stack3
  rw [h_stackU_eq (by omega)]
  split
  · rfl
  split
  · rfl
  exact bind_congrM fun x hx => h_stackU_eq (by rw [(h_stack_shape hx).2]; exact h)

theorem v_stack3U_refi {u : Usz} (hu : u.wraps = false) {t : IdxTy} {a b c : Coo T} : Refi (Coo.v_stack3U u t a b c) (Coo.v_stack3 t a b c) := by
  unfold Coo.v_stack3U Coo.v_stack3
  exact Refi.ite Refi.rfl' <| Refi.ite Refi.rfl' <| Refi.bind (v_stackU_refi hu) fun _ => v_stackU_refi hu

theorem h_stack3U_refi {u : Usz} (hu : u.wraps = false) {t : IdxTy} {a b c : Coo T} : Refi (Coo.h_stack3U u t a b c) (Coo.h_stack3 t a b c) := by
  unfold Coo.h_stack3U Coo.h_stack3
  exact Refi.ite Refi.rfl' <| Refi.ite Refi.rfl' <| Refi.bind (h_stackU_refi hu) fun _ => h_stackU_refi hu

theorem compose3U_refi {u : Usz} (hu : u.wraps = false) {t : IdxTy} {a b c d e f g h i : Coo T} :
    Refi (Coo.compose3U u t a b c d e f g h i) (Coo.compose3 t a b c d e f g h i) :=
  Refi.bind (h_stack3U_refi hu) fun _ => Refi.bind (h_stack3U_refi hu) fun _ => Refi.bind (h_stack3U_refi hu) fun _ => v_stack3U_refi hu

theorem h_stack3_shape {t : IdxTy} {a b c r : Coo T} (h : Coo.h_stack3 t a b c = .ok r) : r.rows = a.rows ∧ r.cols = a.cols + b.cols + c.cols := by
  unfold Coo.h_stack3 at h
  dsimp only at h
  by_cases c1 : a.rows ≠ b.rows
  · rw [if_pos c1] at h; cases h
  rw [if_neg c1] at h
  by_cases c2 : a.rows ≠ c.rows
  · rw [if_pos c2] at h; cases h
  rw [if_neg c2] at h
  obtain ⟨s, hs, h⟩ := bind_okM h
  have h1 := h_stack_shape hs
  have h2 := h_stack_shape h
  omega

theorem compose3U_eq {u : Usz} {t : IdxTy} {a b c d e f g h i : Coo T} (h1 : a.cols + b.cols + c.cols ≤ u.max) (h2 : d.cols + e.cols + f.cols ≤ u.max)
    (h3 : g.cols + h.cols + i.cols ≤ u.max) (h4 : a.rows + d.rows + g.rows ≤ u.max) :
    Coo.compose3U u t a b c d e f g h i = Coo.compose3 t a b c d e f g h i := by
  unfold Coo.compose3U Coo.compose3
  rw [h_stack3U_eq h1, h_stack3U_eq h2, h_stack3U_eq h3]
  refine bind_congrM fun x hx => bind_congrM fun y hy => bind_congrM fun z hz => v_stack3U_eq ?_
  rw [(h_stack3_shape hx).1, (h_stack3_shape hy).1, (h_stack3_shape hz).1]
  exact h4

theorem cooNew_shape {rows cols : Nat} {i j : List Int} {x : List T} {r : Coo T} (h : Coo.new rows cols i j x = .ok r) : r.rows = rows ∧ r.cols = cols := by
  unfold Coo.new at h
  dsimp only at h
  split at h
  · cases h
  cases h
  exact ⟨rfl, rfl⟩

theorem csr_to_coo_shape {t : IdxTy} {a : CSR T} {r : Coo T} (h : a.to_coo t = .ok r) : r.rows = a.rows ∧ r.cols = a.cols := by
  obtain ⟨_, -, h⟩ := bind_okM h
  exact cooNew_shape (unwrapR_okM h)

theorem csc_to_coo_shape [Zero T] {t : IdxTy} {a : CSC T} {r : Coo T} (h : a.to_coo t = .ok r) : r.rows = a.rows ∧ r.cols = a.cols := by
  obtain ⟨_, -, h⟩ := bind_okM h
  obtain ⟨_, -, h⟩ := bind_okM h
  exact cooNew_shape (unwrapR_okM h)

theorem csr_h_stackU_eq [Zero T] [Add T] {u : Usz} {isz : Nat} {t : IdxTy} {a b : CSR T} (h1 : a.cols + b.cols ≤ u.max) (hr : a.rows < u.max)
    (hi : isz * (a.rows + 1) ≤ u.imax) : CSR.h_stackU u isz t a b = CSR.h_stack t a b := by
  unfold CSR.h_stackU CSR.h_stack
  refine bind_congrM fun x hx => bind_congrM fun y hy => ?_
  have sx := csr_to_coo_shape hx
  have sy := csr_to_coo_shape hy
  rw [h_stackU_eq (by omega)]
  refine bind_congrM fun z hz => ?_
  have sz := h_stack_shape hz
  exact to_csrU_eq (by omega) (by rw [sz.1, sx.1]; exact hi)

theorem csr_h_stackU_refi [Zero T] [Add T] {u : Usz} (hu : u.wraps = false) {isz : Nat} {t : IdxTy} {a b : CSR T} (hr : a.rows ≤ u.max) :
    Refi (CSR.h_stackU u isz t a b) (CSR.h_stack t a b) := by
  unfold CSR.h_stackU CSR.h_stack
  intro r h
  obtain ⟨x, hx, h⟩ := bind_okM h
  obtain ⟨y, hy, h⟩ := bind_okM h
  obtain ⟨z, hz, h⟩ := bind_okM h
  have sx := csr_to_coo_shape hx
  have hz' := h_stackU_refi hu z hz
  have sz := h_stack_shape hz'
  rw [hx, hy]
  show (Coo.h_stack t x y >>= _) = _
  rw [hz']
  exact to_csrU_refi (by omega) r h

theorem csc_composeU_eq [Zero T] [Add T] {u : Usz} {isz : Nat} {t : IdxTy} {a b c d : CSC T} (h1 : a.cols + b.cols < u.max) (h2 : c.cols + d.cols ≤ u.max)
    (h3 : a.rows + c.rows ≤ u.max) (hi : isz * (a.cols + b.cols + 1) ≤ u.imax) : CSC.composeU u isz t a b c d = CSC.compose t a b c d := by
  unfold CSC.composeU CSC.compose
  refine bind_congrM fun a' ha => bind_congrM fun b' hb => bind_congrM fun c' hc => bind_congrM fun d' hd => ?_
  have sa := csc_to_coo_shape ha
  have sb := csc_to_coo_shape hb
  have sc := csc_to_coo_shape hc
  have sd := csc_to_coo_shape hd
  rw [h_stackU_eq (by omega), h_stackU_eq (by omega)]
  refine bind_congrM fun x hx => bind_congrM fun y hy => ?_
  have sx := h_stack_shape hx
  have sy := h_stack_shape hy
  rw [v_stackU_eq (by omega)]
  refine bind_congrM fun z hz => ?_
  have sz := v_stack_shape hz
  exact to_cscU_eq (by omega) (by rw [sz.2, sx.2, sa.2, sb.2]; exact hi)

theorem h_stackU_fits {u : Usz} {t : IdxTy} {a b r : Coo T} (h : Coo.h_stackU u t a b = .ok r) : r.cols ≤ u.max := by
  unfold Coo.h_stackU at h
  split at h
  · cases h
  obtain ⟨n, hn, h⟩ := bind_okM h
  obtain ⟨s, -, h⟩ := bind_okM h
  rw [(cooNew_shape h).2]
  unfold Usz.add at hn
  split at hn
  · cases hn; assumption
  split at hn
  · cases hn
    have := Nat.mod_lt (a.cols + b.cols) (show 0 < u.max + 1 by omega)
    omega
  · cases hn

theorem csc_composeU_refi [Zero T] [Add T] {u : Usz} (hu : u.wraps = false) {isz : Nat} {t : IdxTy} {a b c d : CSC T} :
    Refi (CSC.composeU u isz t a b c d) (CSC.compose t a b c d) := by
  unfold CSC.composeU CSC.compose
  refine Refi.tail fun a' => Refi.tail fun b' => Refi.tail fun c' => Refi.tail fun d' => ?_
  intro r h
  obtain ⟨x, hx, h⟩ := bind_okM h
  obtain ⟨y, hy, h⟩ := bind_okM h
  obtain ⟨z, hz, h⟩ := bind_okM h
  have hz' := v_stackU_refi hu z hz
  have sz := v_stack_shape hz'
  have fx := h_stackU_fits hx
  rw [h_stackU_refi hu x hx, h_stackU_refi hu y hy]
  show (Coo.v_stack t x y >>= _) = _
  rw [hz']
  exact to_cscU_refi (by omega) r h

end
end Sparse

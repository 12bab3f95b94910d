import Verif.Model.Graph
/-! Relational reasoning: two runs of the same code on scalars related by `r`. -/
namespace Sparse

/-- both calls succeed with related results, or both fail in the same way -/
def Par (R : α → β → Prop) : M α → M β → Prop
  | .ok a, .ok b => R a b
  | .error e, .error e' => e = e'
  | _, _ => False

/-- two lists of the same length with related entries -/
inductive LR (r : α → β → Prop) : List α → List β → Prop
  | nil : LR r [] []
  | cons {x y l l'} : r x y → LR r l l' → LR r (x :: l) (y :: l')

/-- the steps of a loop -/
def StepR (R : α → β → Prop) : ForInStep α → ForInStep β → Prop
  | .done a, .done b => R a b
  | .yield a, .yield b => R a b
  | _, _ => False

section
variable {R : α → β → Prop} {S : γ → δ → Prop}

theorem Par.pure {a : α} {b : β} (h : R a b) : Par R (Pure.pure a) (Pure.pure b) := h
theorem Par.throw (e : Fault) : Par R (throw e) (throw e) := rfl
theorem Par.eq (m : M α) : Par Eq m m := by
  cases m <;> rfl
theorem Par.mono {R' : α → β → Prop} {m : M α} {m' : M β} (h : Par R m m') (hR : ∀ a b, R a b → R' a b) : Par R' m m' := by
  cases m <;> cases m' <;> first | exact h | exact hR _ _ h
theorem Par.bind {m : M α} {m' : M β} {f : α → M γ} {g : β → M δ} (h : Par R m m') (hf : ∀ a b, R a b → Par S (f a) (g b)) :
    Par S (m >>= f) (m' >>= g) := by
  cases m <;> cases m' <;> first | exact h | exact h.elim | exact hf _ _ h
theorem Par.same {m : M α} {f : α → M γ} {g : α → M δ} (hf : ∀ a, Par S (f a) (g a)) : Par S (m >>= f) (m >>= g) := by
  cases m with
  | error e => rfl
  | ok a => exact hf a
theorem Par.map {m : M α} {m' : M β} {f : α → γ} {g : β → δ} (h : Par R m m') (hf : ∀ a b, R a b → S (f a) (g b)) :
    Par S (f <$> m) (g <$> m') := by
  cases m <;> cases m' <;> first | exact h | exact h.elim | exact hf _ _ h
theorem Par.ite {c : Prop} [Decidable c] {m n : M α} {m' n' : M β} (h1 : c → Par R m m') (h2 : ¬ c → Par R n n') :
    Par R (if c then m else n) (if c then m' else n') := by
  by_cases h : c
  · rw [if_pos h, if_pos h]; exact h1 h
  · rw [if_neg h, if_neg h]; exact h2 h
theorem Par.bite {c c' : Bool} {m n : M α} {m' n' : M β} (hc : c = c') (h1 : Par R m m') (h2 : Par R n n') :
    Par R (if c then m else n) (if c' then m' else n') := by
  subst hc
  cases c <;> first | exact h1 | exact h2
theorem Par.unwrap {m : M α} {m' : M β} (h : Par R m m') : Par R (unwrapR m) (unwrapR m') := by
  cases m with
  | error e =>
    cases m' with
    | error e' =>
      have : e = e' := h
      subst this
      cases e <;> rfl
    | ok b => exact h.elim
  | ok a =>
    cases m' with
    | error e' => exact h.elim
    | ok b => exact h

theorem Par.whileM {n : Nat} {s : α} {s' : β} {f : α → M (ForInStep α)} {g : β → M (ForInStep β)} (h : R s s')
    (hf : ∀ s s', R s s' → Par (StepR R) (f s) (g s')) : Par R (whileM n s f) (whileM n s' g) := by
  induction n generalizing s s' with
  | zero => rfl
  | succ n ih =>
    unfold Sparse.whileM
    refine Par.bind (hf s s' h) ?_
    intro a b hab
    cases a <;> cases b <;> first | exact hab.elim | exact hab | exact ih hab

theorem Par.forIn {l : List ι} {s : α} {s' : β} {f : ι → α → M (ForInStep α)} {g : ι → β → M (ForInStep β)} (h : R s s')
    (hf : ∀ i s s', R s s' → Par (StepR R) (f i s) (g i s')) : Par R (forIn l s f) (forIn l s' g) := by
  induction l generalizing s s' with
  | nil => exact h
  | cons x l ih =>
    rw [List.forIn_cons, List.forIn_cons]
    refine Par.bind (hf x s s' h) ?_
    intro a b hab
    cases a <;> cases b <;> first | exact hab.elim | exact hab | exact ih hab
end

section
variable {r : α → β → Prop} {S : γ → δ → Prop}

theorem LR.length {l : List α} {l' : List β} (h : LR r l l') : l.length = l'.length := by
  induction h with
  | nil => rfl
  | cons _ _ ih => simp [ih]

theorem Par.rd {l : List α} {l' : List β} (h : LR r l l') (i : Nat) : Par r (l.rd i) (l'.rd i) := by
  induction h generalizing i with
  | nil => rfl
  | cons hx _ ih =>
    cases i with
    | zero => exact hx
    | succ i => simpa [List.rd] using ih i

theorem LR.set {l : List α} {l' : List β} (h : LR r l l') (i : Nat) {x : α} {y : β} (hx : r x y) : LR r (l.set i x) (l'.set i y) := by
  induction h generalizing i with
  | nil => exact .nil
  | cons h1 h2 ih =>
    cases i with
    | zero => exact .cons hx h2
    | succ i => exact .cons h1 (ih i)

theorem Par.wr {l : List α} {l' : List β} (h : LR r l l') (i : Nat) {x : α} {y : β} (hx : r x y) :
    Par (LR r) (l.wr i x) (l'.wr i y) := by
  unfold List.wr
  rw [LR.length h]
  refine Par.ite (fun _ => ?_) (fun _ => rfl)
  exact LR.set h i hx

theorem LR.replicate (n : Nat) {x : α} {y : β} (h : r x y) : LR r (List.replicate n x) (List.replicate n y) := by
  induction n with
  | zero => exact .nil
  | succ n ih => exact .cons h ih
theorem LR.append {l m : List α} {l' m' : List β} (h : LR r l l') (hm : LR r m m') : LR r (l ++ m) (l' ++ m') := by
  induction h with
  | nil => exact hm
  | cons h1 _ ih => exact .cons h1 ih
theorem LR.take {l : List α} {l' : List β} (h : LR r l l') (n : Nat) : LR r (l.take n) (l'.take n) := by
  induction h generalizing n with
  | nil => simpa using LR.nil
  | cons h1 _ ih =>
    cases n with
    | zero => exact .nil
    | succ n => exact .cons h1 (ih n)
theorem LR.drop {l : List α} {l' : List β} (h : LR r l l') (n : Nat) : LR r (l.drop n) (l'.drop n) := by
  induction h generalizing n with
  | nil => simpa using LR.nil
  | cons h1 h2 ih =>
    cases n with
    | zero => exact .cons h1 h2
    | succ n => exact ih n
theorem LR.map {l : List α} {l' : List β} {f : α → γ} {g : β → δ} (h : LR r l l') (hf : ∀ x y, r x y → S (f x) (g y)) :
    LR S (l.map f) (l'.map g) := by
  induction h with
  | nil => exact .nil
  | cons h1 _ ih => exact .cons (hf _ _ h1) ih
theorem LR.resize {l : List α} {l' : List β} (h : LR r l l') (n : Nat) {x : α} {y : β} (hx : r x y) :
    LR r (l.resize n x) (l'.resize n y) := by
  unfold List.resize
  rw [LR.length h]
  exact LR.append (LR.take h n) (LR.replicate _ hx)
theorem Par.slice {l : List α} {l' : List β} (h : LR r l l') (a b : Nat) : Par (LR r) (l.slice a b) (l'.slice a b) := by
  unfold List.slice
  rw [LR.length h]
  refine Par.ite (fun _ => ?_) (fun _ => rfl)
  first | exact LR.drop (LR.take h _) _ | exact LR.take (LR.drop h _) _
theorem LR.eq_iff {l l' : List α} : LR Eq l l' ↔ l = l' := by
  constructor
  · intro h
    induction h with
    | nil => rfl
    | cons h1 _ ih => rw [h1, ih]
  · rintro rfl
    induction l with
    | nil => exact .nil
    | cons x l ih => exact .cons rfl ih
end

/-! ### relations found by type -/

/-- the relation between values of two types, and quantification over related values -/
class PRel (α β : Type) where
  rel : α → β → Prop
  all : (α → β → Prop) → Prop
  elim : ∀ {P}, all P → ∀ a b, rel a b → P a b

/-- the relation between the two scalar types -/
class SRel (T T' : Type) where
  r : T → T' → Prop

export PRel (rel)

def PRel.eq (α : Type) : PRel α α := ⟨Eq, fun P => ∀ a, P a a, fun h a b hab => by subst hab; exact h a⟩

instance : PRel Int Int := PRel.eq Int
instance : PRel Nat Nat := PRel.eq Nat
instance : PRel Bool Bool := PRel.eq Bool
instance : PRel Unit Unit := PRel.eq Unit
instance (priority := high) : PRel (List Int) (List Int) := PRel.eq _
instance (priority := high) : PRel (List Nat) (List Nat) := PRel.eq _
instance (priority := high) : PRel (List (Nat × Nat)) (List (Nat × Nat)) := PRel.eq _
instance (priority := high) : PRel (Option Bool) (Option Bool) := PRel.eq _
instance [PRel α β] [PRel γ δ] : PRel (α × γ) (β × δ) where
  rel p q := rel p.1 q.1 ∧ rel p.2 q.2
  all P := PRel.all fun (a : α) (b : β) => PRel.all fun (c : γ) (d : δ) => P (a, c) (b, d)
  elim h p q hpq := PRel.elim (PRel.elim h _ _ hpq.1) _ _ hpq.2
instance [PRel α β] : PRel (List α) (List β) where
  rel := LR rel
  all P := ∀ a b, LR rel a b → P a b
  elim h := h
instance (priority := low) [SRel T T'] : PRel T T' where
  rel := SRel.r
  all P := ∀ a b, SRel.r a b → P a b
  elim h := h

section
variable [PRel α β] [PRel γ δ]
theorem all_prod (P : α × γ → β × δ → Prop) :
    PRel.all P = PRel.all fun (a : α) (b : β) => PRel.all fun (c : γ) (d : δ) => P (a, c) (b, d) := rfl
theorem all_list (P : List α → List β → Prop) : PRel.all P = ∀ a b, LR rel a b → P a b := rfl
theorem all_int (P : Int → Int → Prop) : PRel.all P = ∀ a, P a a := rfl
theorem all_nat (P : Nat → Nat → Prop) : PRel.all P = ∀ a, P a a := rfl
theorem all_bool (P : Bool → Bool → Prop) : PRel.all P = ∀ a, P a a := rfl
theorem all_unit (P : Unit → Unit → Prop) : PRel.all P = ∀ a, P a a := rfl
theorem all_ints (P : List Int → List Int → Prop) : PRel.all P = ∀ a, P a a := rfl
theorem all_nats (P : List Nat → List Nat → Prop) : PRel.all P = ∀ a, P a a := rfl
theorem all_pairs (P : List (Nat × Nat) → List (Nat × Nat) → Prop) : PRel.all P = ∀ a, P a a := rfl
theorem all_obool (P : Option Bool → Option Bool → Prop) : PRel.all P = ∀ a, P a a := rfl
theorem all_scalar {T T' : Type} [SRel T T'] (P : T → T' → Prop) : PRel.all P = ∀ a b, SRel.r a b → P a b := rfl
theorem rel_prod (p : α × γ) (q : β × δ) : rel p q = (rel p.1 q.1 ∧ rel p.2 q.2) := rfl
theorem rel_list (p : List α) (q : List β) : rel p q = LR rel p q := rfl
theorem rel_int (p q : Int) : rel p q = (p = q) := rfl
theorem rel_nat (p q : Nat) : rel p q = (p = q) := rfl
theorem rel_bool (p q : Bool) : rel p q = (p = q) := rfl
theorem rel_unit (p q : Unit) : rel p q = (p = q) := rfl
theorem rel_ints (p q : List Int) : rel p q = (p = q) := rfl
theorem rel_nats (p q : List Nat) : rel p q = (p = q) := rfl
theorem rel_pairs (p q : List (Nat × Nat)) : rel p q = (p = q) := rfl
theorem rel_obool (p q : Option Bool) : rel p q = (p = q) := rfl
theorem rel_scalar {T T' : Type} [SRel T T'] (p : T) (q : T') : rel p q = SRel.r p q := rfl

theorem all_prod_i {P : α × γ → β × δ → Prop}
    (h : PRel.all fun (a : α) (b : β) => PRel.all fun (c : γ) (d : δ) => P (a, c) (b, d)) : PRel.all P := h
theorem all_list_i {P : List α → List β → Prop} (h : ∀ a b, LR rel a b → P a b) : PRel.all P := h
theorem all_int_i {P : Int → Int → Prop} (h : ∀ a, P a a) : PRel.all P := h
theorem all_nat_i {P : Nat → Nat → Prop} (h : ∀ a, P a a) : PRel.all P := h
theorem all_bool_i {P : Bool → Bool → Prop} (h : ∀ a, P a a) : PRel.all P := h
theorem all_unit_i {P : Unit → Unit → Prop} (h : ∀ a, P a a) : PRel.all P := h
theorem all_ints_i {P : List Int → List Int → Prop} (h : ∀ a, P a a) : PRel.all P := h
theorem all_nats_i {P : List Nat → List Nat → Prop} (h : ∀ a, P a a) : PRel.all P := h
theorem all_pairs_i {P : List (Nat × Nat) → List (Nat × Nat) → Prop} (h : ∀ a, P a a) : PRel.all P := h
theorem all_obool_i {P : Option Bool → Option Bool → Prop} (h : ∀ a, P a a) : PRel.all P := h
theorem all_scalar_i {T T' : Type} [SRel T T'] {P : T → T' → Prop} (h : ∀ a b, SRel.r a b → P a b) : PRel.all P := h

theorem Par.bindA {S : ε → ζ → Prop} {m : M α} {m' : M β} {f : α → M ε} {g : β → M ζ} (h : Par rel m m')
    (hf : PRel.all fun a b => Par S (f a) (g b)) : Par S (m >>= f) (m' >>= g) := Par.bind h (PRel.elim hf)
theorem Par.forInA {l : List ι} {s : α} {s' : β} {f : ι → α → M (ForInStep α)} {g : ι → β → M (ForInStep β)} (h : rel s s')
    (hf : ∀ i, PRel.all fun s s' => Par (StepR rel) (f i s) (g i s')) : Par rel (ForIn.forIn l s f) (ForIn.forIn l s' g) :=
  Par.forIn h fun i => PRel.elim (hf i)
theorem Par.whileA {n : Nat} {s : α} {s' : β} {f : α → M (ForInStep α)} {g : β → M (ForInStep β)} (h : rel s s')
    (hf : PRel.all fun s s' => Par (StepR rel) (f s) (g s')) : Par rel (Sparse.whileM n s f) (Sparse.whileM n s' g) :=
  Par.whileM h (PRel.elim hf)
theorem Par.yieldA {s : α} {s' : β} (h : rel s s') : Par (StepR rel) (Pure.pure (ForInStep.yield s)) (Pure.pure (ForInStep.yield s')) := h
theorem Par.doneA {s : α} {s' : β} (h : rel s s') : Par (StepR rel) (Pure.pure (ForInStep.done s)) (Pure.pure (ForInStep.done s')) := h
theorem Par.pureA {s : α} {s' : β} (h : rel s s') : Par rel (Pure.pure s) (Pure.pure s') := h
theorem Par.rdA {l : List α} {l' : List β} (h : LR rel l l') (i : Nat) : Par rel (l.rd i) (l'.rd i) := Par.rd h i
theorem Par.wrA {l : List α} {l' : List β} (h : LR rel l l') (i : Nat) {x : α} {y : β} (hx : rel x y) :
    Par rel (l.wr i x) (l'.wr i y) := Par.wr h i hx
theorem Par.sliceA {l : List α} {l' : List β} (h : LR rel l l') (a b : Nat) : Par rel (l.slice a b) (l'.slice a b) := Par.slice h a b
end

theorem LR.mergeSort {l : List α} {l' : List β} {r : α → β → Prop} (h : LR r l l') {le : α → α → Bool} {le' : β → β → Bool}
    (hle : ∀ a b, r a b → ∀ c d, r c d → le a c = le' b d) : LR r (l.mergeSort le) (l'.mergeSort le') := by
  have hz : ∀ {l : List α} {l' : List β}, LR r l l' ↔ ∃ z : List {p : α × β // r p.1 p.2}, l = z.map (·.1.1) ∧ l' = z.map (·.1.2) := by
    intro l l'
    constructor
    · intro h
      induction h with
      | nil => exact ⟨[], rfl, rfl⟩
      | cons hx _ ih =>
        obtain ⟨z, rfl, rfl⟩ := ih
        exact ⟨⟨(_, _), hx⟩ :: z, rfl, rfl⟩
    · rintro ⟨z, rfl, rfl⟩
      induction z with
      | nil => exact .nil
      | cons p z ih => exact .cons p.2 ih
  obtain ⟨z, rfl, rfl⟩ := hz.1 h
  refine hz.2 ⟨z.mergeSort (fun p q => le p.1.1 q.1.1), ?_, ?_⟩
  · exact (List.map_mergeSort (f := fun x : {p : α × β // r p.1 p.2} => x.1.1) (fun a _ b _ => rfl)).symm
  · exact (List.map_mergeSort (fun a _ b _ => hle _ _ a.2 _ _ b.2)).symm

/-! ### operations of the scalars -/
section
variable (T T' : Type) [SRel T T']
class SZero [Zero T] [Zero T'] : Prop where
  h : SRel.r (0 : T) (0 : T')
class SOne [One T] [One T'] : Prop where
  h : SRel.r (1 : T) (1 : T')
class SAdd [Add T] [Add T'] : Prop where
  h : ∀ {x y : T} {x' y' : T'}, SRel.r x x' → SRel.r y y' → SRel.r (x + y) (x' + y')
class SMul [Mul T] [Mul T'] : Prop where
  h : ∀ {x y : T} {x' y' : T'}, SRel.r x x' → SRel.r y y' → SRel.r (x * y) (x' * y')
class SSub [Sub T] [Sub T'] : Prop where
  h : ∀ {x y : T} {x' y' : T'}, SRel.r x x' → SRel.r y y' → SRel.r (x - y) (x' - y')
class SNeg [Neg T] [Neg T'] : Prop where
  h : ∀ {x : T} {x' : T'}, SRel.r x x' → SRel.r (-x) (-x')
/-- the test `x != 0` of the code -/
class SNz [Zero T] [Zero T'] [BEq T] [BEq T'] : Prop where
  h : ∀ {x : T} {x' : T'}, SRel.r x x' → (x != 0) = (x' != 0)
end

/-- solves goals about related values -/
syntax "prel1" : tactic
macro_rules | `(tactic| prel1) => `(tactic| first
  | with_reducible assumption
  | with_reducible rfl
  | with_reducible exact LR.nil
  | with_reducible exact SZero.h
  | with_reducible exact SOne.h
  | with_reducible refine And.intro ?_ ?_
  | with_reducible refine SAdd.h ?_ ?_
  | with_reducible refine SMul.h ?_ ?_
  | with_reducible refine SSub.h ?_ ?_
  | with_reducible refine SNeg.h ?_
  | with_reducible refine SNz.h ?_
  | with_reducible refine LR.replicate _ ?_
  | with_reducible refine LR.append ?_ ?_
  | with_reducible refine LR.resize ?_ _ ?_
  | with_reducible refine LR.cons ?_ ?_
  | simp only [rel_prod, rel_list, rel_int, rel_nat, rel_bool, rel_unit, rel_ints, rel_nats, rel_pairs, rel_obool, rel_scalar])
macro "prel" : tactic => `(tactic| (repeat' prel1) <;> done)

/-- a call of a function known to behave in the same way; extended by the lemmas below -/
syntax "parc" : tactic
macro_rules | `(tactic| parc) => `(tactic| fail)

/-- one step of a comparison of two runs -/
syntax "par1" : tactic
macro_rules | `(tactic| par1) => `(tactic| first
  | with_reducible refine Par.same fun _ => ?_
  | with_reducible refine Par.throw _
  | with_reducible refine Par.yieldA ?_
  | with_reducible refine Par.doneA ?_
  | with_reducible refine Par.pureA ?_
  | with_reducible refine Par.rdA (by prel) _
  | with_reducible refine Par.wrA (by prel) _ (by prel)
  | with_reducible refine Par.sliceA (by prel) _ _
  | with_reducible refine Par.ite (fun _ => ?_) (fun _ => ?_)
  | with_reducible refine Par.bite (by prel) ?_ ?_
  | with_reducible refine Par.forInA ?_ ?_
  | with_reducible refine Par.whileA ?_ ?_
  | with_reducible refine Par.unwrap ?_
  | with_reducible refine Par.bindA ?_ ?_
  | parc
  | ((with_reducible refine all_prod_i ?_); first
      | with_reducible refine all_ints_i fun _ => ?_
      | with_reducible refine all_int_i fun _ => ?_
      | with_reducible refine all_nat_i fun _ => ?_
      | with_reducible refine all_list_i fun _ _ _ => ?_
      | with_reducible refine all_scalar_i fun _ _ _ => ?_
      | skip)
  | ((first
      | with_reducible refine all_ints_i fun _ => ?_
      | with_reducible refine all_int_i fun _ => ?_
      | with_reducible refine all_nat_i fun _ => ?_
      | with_reducible refine all_bool_i fun _ => ?_
      | with_reducible refine all_unit_i fun _ => ?_
      | with_reducible refine all_nats_i fun _ => ?_
      | with_reducible refine all_pairs_i fun _ => ?_
      | with_reducible refine all_obool_i fun _ => ?_
      | with_reducible refine all_list_i fun _ _ _ => ?_
      | with_reducible refine all_scalar_i fun _ _ _ => ?_); try dsimp only)
  | with_reducible intro _
  | with_reducible refine And.intro ?_ ?_
  | prel)
macro "par" : tactic => `(tactic| repeat' par1)

end Sparse

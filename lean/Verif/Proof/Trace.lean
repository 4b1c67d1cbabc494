import Verif.Proof.Calc
/-! # A two-run calculus for traces

`SIR p q R`: if both runs end normally, they made the same accesses and branches, and their results are related by `R`. -/
namespace Verif

variable {α β γ δ σ τ : Type}

def SIR (p : M α) (q : M β) (R : α → β → Prop) : Prop :=
  ∀ a t b t', p = Except.ok (a, t) → q = Except.ok (b, t') → t = t' ∧ R a b

/-- The relation that says nothing. -/
abbrev Any (α β : Type) : α → β → Prop := fun _ _ => True

/-- The two runs have the same trace. -/
abbrev SI (p : M α) (q : M β) : Prop := SIR p q (Any α β)

theorem SIR.mono {p : M α} {q : M β} {R S : α → β → Prop} (h : SIR p q R) (hm : ∀ a b, R a b → S a b) : SIR p q S :=
  fun a t b t' e e' => ⟨(h a t b t' e e').1, hm _ _ (h a t b t' e e').2⟩

theorem SIR.weak {p : M α} {q : M β} {R : α → β → Prop} (h : SIR p q R) : SI p q := h.mono fun _ _ _ => trivial

theorem SIR.refl (p : M α) : SIR p p Eq := by
  intro a t b t' e e'
  rw [e] at e'
  have := Except.ok.inj e'
  exact ⟨congrArg Prod.snd this, congrArg Prod.fst this⟩

theorem SIR.of_eq {p q : M α} (h : p = q) : SIR p q Eq := h ▸ SIR.refl p

theorem bnd_ok {p : M α} {f : α → M β} {b : β} {t : List Ev} (h : (p >>= f) = Except.ok (b, t)) :
    ∃ a t1 t2, p = Except.ok (a, t1) ∧ f a = Except.ok (b, t2) ∧ t = t1 ++ t2 := by
  change M.bnd p f = _ at h
  unfold M.bnd at h
  rcases p with e | ⟨a, t1⟩
  · exact nomatch h
  · dsimp only at h
    generalize hq : f a = q at h
    rcases q with e | ⟨b', t2⟩
    · exact nomatch h
    · have := Except.ok.inj h
      simp only [Prod.mk.injEq] at this
      obtain ⟨rfl, rfl⟩ := this
      exact ⟨a, t1, t2, rfl, hq, rfl⟩

theorem SIR.bind {p : M α} {q : M β} {f : α → M γ} {g : β → M δ} {R : α → β → Prop} {S : γ → δ → Prop}
    (h : SIR p q R) (hf : ∀ a b, R a b → SIR (f a) (g b) S) : SIR (p >>= f) (q >>= g) S := by
  intro c t d t' e e'
  obtain ⟨a, t1, t2, e1, e2, rfl⟩ := bnd_ok e
  obtain ⟨b, t1', t2', e1', e2', rfl⟩ := bnd_ok e'
  obtain ⟨rfl, r⟩ := h _ _ _ _ e1 e1'
  obtain ⟨rfl, s⟩ := hf a b r _ _ _ _ e2 e2'
  exact ⟨rfl, s⟩

theorem SIR.bind2 {α' β' : Type} {p : M (α × α')} {q : M (β × β')} {f : α × α' → M γ} {g : β × β' → M δ} {R : α × α' → β × β' → Prop} {S : γ → δ → Prop}
    (h : SIR p q R) (hf : ∀ a a' b b', R (a, a') (b, b') → SIR (f (a, a')) (g (b, b')) S) : SIR (p >>= f) (q >>= g) S :=
  h.bind fun ⟨a, a'⟩ ⟨b, b'⟩ r => hf a a' b b' r

theorem SIR.bind3 {α' β' α'' β'' : Type} {p : M (α × α' × α'')} {q : M (β × β' × β'')} {f : α × α' × α'' → M γ} {g : β × β' × β'' → M δ}
    {R : α × α' × α'' → β × β' × β'' → Prop} {S : γ → δ → Prop}
    (h : SIR p q R) (hf : ∀ a a' a'' b b' b'', R (a, a', a'') (b, b', b'') → SIR (f (a, a', a'')) (g (b, b', b'')) S) : SIR (p >>= f) (q >>= g) S :=
  h.bind fun ⟨a, a', a''⟩ ⟨b, b', b''⟩ r => hf a a' a'' b b' b'' r

theorem SIR.bind4 {α' β' α'' β'' A B : Type} {p : M (α × α' × α'' × A)} {q : M (β × β' × β'' × B)} {f : α × α' × α'' × A → M γ} {g : β × β' × β'' × B → M δ}
    {R : α × α' × α'' × A → β × β' × β'' × B → Prop} {S : γ → δ → Prop}
    (h : SIR p q R) (hf : ∀ a a' a'' x b b' b'' y, R (a, a', a'', x) (b, b', b'', y) → SIR (f (a, a', a'', x)) (g (b, b', b'', y)) S) :
    SIR (p >>= f) (q >>= g) S :=
  h.bind fun ⟨a, a', a'', x⟩ ⟨b, b', b'', y⟩ r => hf a a' a'' x b b' b'' y r

theorem SIR.pure {a : α} {b : β} {R : α → β → Prop} (h : R a b) : SIR (pure a : M α) (pure b : M β) R := by
  intro x t y t' e e'
  have e := Except.ok.inj e; have e' := Except.ok.inj e'
  simp only [Prod.mk.injEq] at e e'
  obtain ⟨rfl, rfl⟩ := e; obtain ⟨rfl, rfl⟩ := e'
  exact ⟨rfl, h⟩

theorem SI.pure {a : α} {b : β} : SI (Pure.pure a : M α) (Pure.pure b : M β) := SIR.pure trivial
theorem SI.ret {a : α} {b : β} : SI (M.ret a) (M.ret b) := SIR.pure trivial

theorem SI.fail {e : Err} {q : M β} {R : α → β → Prop} : SIR (M.fail e : M α) q R := by
  intro x t y t' h; exact nomatch h

theorem SIR.emit {e : Ev} : SIR (M.emit e) (M.emit e) Eq := SIR.refl _

theorem SIR.rd {b : Buf α} {c : Buf β} {i : Nat} : SIR (rd b i) (rd c i) (fun x y => b[i]? = some (some x) ∧ c[i]? = some (some y)) := by
  intro x t y t' e e'
  unfold Verif.rd at e e'
  split at e
  · exact nomatch e
  · exact nomatch e
  · split at e'
    · exact nomatch e'
    · exact nomatch e'
    · rename_i h _ _ h'
      have e := Except.ok.inj e; have e' := Except.ok.inj e'
      simp only [Prod.mk.injEq] at e e'
      obtain ⟨rfl, rfl⟩ := e; obtain ⟨rfl, rfl⟩ := e'
      exact ⟨rfl, h, h'⟩

theorem SIR.divM {a b : Nat} : SIR (divM a b) (divM a b) Eq := SIR.refl _
theorem SIR.modM {a b : Nat} : SIR (modM a b) (modM a b) Eq := SIR.refl _

theorem SI.rd {b : Buf α} {c : Buf β} {i : Nat} : SI (rd b i) (rd c i) := SIR.rd.weak

theorem SIR.rdEq {b c : Buf α} {i : Nat} (h : b[i]? = c[i]?) : SIR (Verif.rd b i) (Verif.rd c i) Eq :=
  SIR.rd.mono fun x y ⟨e, e'⟩ => by rw [h, e'] at e; simpa using e.symm

theorem wr_ok {b x : Buf α} {i : Nat} {v : α} {t : List Ev} (e : wr b i v = Except.ok (x, t)) : x = b.setIfInBounds i (some v) ∧ t = [.st i] ∧ i < b.size := by
  by_cases h : i < b.size
  · have hw : wr b i v = Except.ok (b.setIfInBounds i (some v), [.st i]) := if_pos h
    have e := Except.ok.inj (hw.symm.trans e)
    simp only [Prod.mk.injEq] at e
    exact ⟨e.1.symm, e.2.symm, h⟩
  · have hw : wr b i v = Except.error .oob := if_neg h
    exact nomatch hw.symm.trans e

theorem SIR.wr {b : Buf α} {c : Buf β} {i : Nat} {v : α} {w : β} :
    SIR (wr b i v) (wr c i w) (fun x y => x = b.setIfInBounds i (some v) ∧ y = c.setIfInBounds i (some w) ∧ i < b.size ∧ i < c.size) := by
  intro x t y t' e e'
  obtain ⟨rfl, rfl, h⟩ := wr_ok e
  obtain ⟨rfl, rfl, h'⟩ := wr_ok e'
  exact ⟨rfl, rfl, rfl, h, h'⟩

theorem SI.wr {b : Buf α} {c : Buf β} {i : Nat} {v : α} {w : β} : SI (wr b i v) (wr c i w) := SIR.wr.weak

/-- Writing away from cell `j`. -/
theorem SIR.wrNe {b c : Buf α} {i j : Nat} {v w : α} (h : b[j]? = c[j]?) (hij : i ≠ j) : SIR (Verif.wr b i v) (Verif.wr c i w) (fun x y => x[j]? = y[j]?) :=
  SIR.wr.mono fun x y ⟨e, e', _⟩ => by rw [e, e', Array.getElem?_setIfInBounds_ne hij, Array.getElem?_setIfInBounds_ne hij, h]

/-- Writing the same value in a cell. -/
theorem SIR.wrEq {b c : Buf α} {i : Nat} {v w : α} (hv : v = w) : SIR (Verif.wr b i v) (Verif.wr c i w) (fun x y => x[i]? = y[i]?) :=
  SIR.wr.mono fun x y ⟨e, e', h1, h2⟩ => by subst hv; rw [e, e']; simp [h1, h2]

theorem SIR.branch {c : Bool} {p q : M α} {p' q' : M β} {R : α → β → Prop} (h : SIR p p' R) (h' : SIR q q' R) :
    SIR (branch c p q) (branch c p' q') R := by
  unfold Verif.branch
  refine SIR.bind SIR.emit fun _ _ _ => ?_
  cases c
  · exact h'
  · exact h

theorem SIR.branchT {p q : M α} {p' q' : M β} {R : α → β → Prop} (h : SIR p p' R) : SIR (Verif.branch true p q) (Verif.branch true p' q') R :=
  SIR.bind SIR.emit fun _ _ _ => h

theorem SIR.branchF {p q : M α} {p' q' : M β} {R : α → β → Prop} (h : SIR q q' R) : SIR (Verif.branch false p q) (Verif.branch false p' q') R :=
  SIR.bind SIR.emit fun _ _ _ => h

theorem SIR.ite {c : Prop} [Decidable c] {p q : M α} {p' q' : M β} {R : α → β → Prop} (h : SIR p p' R) (h' : SIR q q' R) :
    SIR (if c then p else q) (if c then p' else q') R := by
  split
  · exact h
  · exact h'

theorem SIR.forFrom {I : σ → τ → Prop} {body : Nat → σ → M σ} {body' : Nat → τ → M τ} (h : ∀ i s s', I s s' → SIR (body i s) (body' i s') I) :
    ∀ (n lo : Nat) (s : σ) (s' : τ), I s s' → SIR (forFrom lo n s body) (forFrom lo n s' body') I := by
  intro n
  induction n with
  | zero =>
    intro lo s s' hi
    simp only [Verif.forFrom]
    exact SIR.bind SIR.emit fun _ _ _ => SIR.pure hi
  | succ n ih =>
    intro lo s s' hi
    simp only [Verif.forFrom]
    exact SIR.bind SIR.emit fun _ _ _ => SIR.bind (h _ _ _ hi) fun _ _ hi => ih _ _ _ hi

theorem SIR.forFromB {I : σ → τ → Prop} {body : Nat → σ → M σ} {body' : Nat → τ → M τ} :
    ∀ (n lo : Nat) (_ : ∀ i s s', lo ≤ i → i < lo + n → I s s' → SIR (body i s) (body' i s') I) (s : σ) (s' : τ), I s s' →
      SIR (Verif.forFrom lo n s body) (Verif.forFrom lo n s' body') I := by
  intro n
  induction n with
  | zero =>
    intro lo _ s s' hi
    simp only [Verif.forFrom]
    exact SIR.bind SIR.emit fun _ _ _ => SIR.pure hi
  | succ n ih =>
    intro lo h s s' hi
    simp only [Verif.forFrom]
    exact SIR.bind SIR.emit fun _ _ _ => SIR.bind (h _ _ _ (Nat.le_refl _) (by omega) hi) fun _ _ hi =>
      ih _ (fun i s s' h1 h2 hi => h i s s' (by omega) (by omega) hi) _ _ hi

theorem SI.forFrom {body : Nat → σ → M σ} {body' : Nat → τ → M τ} {n lo : Nat} {s : σ} {s' : τ} (h : ∀ i s s', SI (body i s) (body' i s')) :
    SI (forFrom lo n s body) (Verif.forFrom lo n s' body') := SIR.forFrom (fun i s s' _ => h i s s') n lo s s' trivial

theorem SIR.whileM {I : σ → τ → Prop} {cond : σ → M Bool} {cond' : τ → M Bool} {body : σ → M σ} {body' : τ → M τ}
    (hc : ∀ s s', I s s' → SIR (cond s) (cond' s') Eq) (h : ∀ s s', I s s' → SIR (body s) (body' s') I) :
    ∀ (f : Nat) (s : σ) (s' : τ), I s s' → SIR (whileM f cond body s) (whileM f cond' body' s') I := by
  intro f
  induction f with
  | zero =>
    intro s s' hi
    unfold Verif.whileM
    refine SIR.bind (hc _ _ hi) fun c _ e => ?_
    subst e
    exact SIR.branch SI.fail (SIR.pure hi)
  | succ f ih =>
    intro s s' hi
    unfold Verif.whileM
    refine SIR.bind (hc _ _ hi) fun c _ e => ?_
    subst e
    exact SIR.branch (SIR.bind (h _ _ hi) fun _ _ hi => ih _ _ hi) (SIR.pure hi)

/-- As `whileM`, with what the condition says in the body and after the loop. -/
theorem SIR.whileC {I J L : σ → τ → Prop} {cond : σ → M Bool} {cond' : τ → M Bool} {body : σ → M σ} {body' : τ → M τ}
    (hc : ∀ s s', I s s' → SIR (cond s) (cond' s') (fun b b' => b = b' ∧ (b = true → L s s') ∧ (b = false → J s s')))
    (h : ∀ s s', L s s' → SIR (body s) (body' s') I) :
    ∀ (f : Nat) (s : σ) (s' : τ), I s s' → SIR (Verif.whileM f cond body s) (Verif.whileM f cond' body' s') J := by
  intro f
  induction f with
  | zero =>
    intro s s' hi
    unfold Verif.whileM
    refine SIR.bind (hc _ _ hi) fun c _ ⟨e, h1, h2⟩ => ?_
    subst e
    cases c
    · exact SIR.branchF (SIR.pure (h2 rfl))
    · exact SIR.branchT SI.fail
  | succ f ih =>
    intro s s' hi
    unfold Verif.whileM
    refine SIR.bind (hc _ _ hi) fun c _ ⟨e, h1, h2⟩ => ?_
    subst e
    cases c
    · exact SIR.branchF (SIR.pure (h2 rfl))
    · exact SIR.branchT (SIR.bind (h _ _ (h1 rfl)) fun _ _ hi => ih _ _ hi)

/-- Silent: no events. -/
def Silent (p : M α) : Prop := ∀ a t, p = Except.ok (a, t) → t = []

theorem SI.silent {p : M α} {q : M β} (h : Silent p) (h' : Silent q) : SI p q :=
  fun _ _ _ _ e e' => ⟨(h _ _ e).trans (h' _ _ e').symm, trivial⟩

theorem silent_ret (a : α) : Silent (M.ret a) := by
  intro x t e; have e := Except.ok.inj e; simp only [Prod.mk.injEq] at e; exact e.2.symm

theorem silent_fail (e : Err) : Silent (M.fail e : M α) := fun _ _ h => nomatch h

theorem silent_assertM (c : Bool) : Silent (assertM c) := by
  unfold assertM; split
  · exact silent_ret _
  · exact silent_fail _

theorem silent_i16 (x : Int) : Silent (i16 x) := by
  unfold i16; split
  · exact silent_ret _
  · exact silent_fail _

theorem silent_i32 (x : Int) : Silent (i32 x) := by
  unfold i32; split
  · exact silent_ret _
  · exact silent_fail _

theorem silent_vget (v : Array α) (i : Nat) : Silent (vget v i) := by
  unfold vget; split
  · exact silent_fail _
  · exact silent_ret _

theorem silent_vset (v : Array α) (i : Nat) (b : α) : Silent (vset v i b) := by
  unfold vset; split
  · exact silent_ret _
  · exact silent_fail _

theorem SI.assertM {c d : Bool} : SI (assertM c) (Verif.assertM d) := SI.silent (silent_assertM _) (silent_assertM _)
theorem SI.i16 {x y : Int} : SI (i16 x) (Verif.i16 y) := SI.silent (silent_i16 _) (silent_i16 _)
theorem SI.i32 {x y : Int} : SI (i32 x) (Verif.i32 y) := SI.silent (silent_i32 _) (silent_i32 _)
theorem SI.vget {v : Array α} {w : Array β} {i j : Nat} : SI (vget v i) (Verif.vget w j) := SI.silent (silent_vget _ _) (silent_vget _ _)
theorem SI.vset {v : Array α} {w : Array β} {i j : Nat} {b : α} {c : β} : SI (vset v i b) (Verif.vset w j c) := SI.silent (silent_vset _ _ _) (silent_vset _ _ _)

theorem SI.vmod {v : Array α} {w : Array β} {i j : Nat} {f : α → M α} {g : β → M β} (h : ∀ a b, SI (f a) (g b)) : SI (vmod v i f) (Verif.vmod w j g) := by
  unfold Verif.vmod
  exact SIR.bind SI.vget fun a b _ => SIR.bind (h a b) fun _ _ _ => SI.vset

theorem PostF.val {p : M α} {F : Prop} {P : α → Prop} {a : α} {t : List Ev} (h : PostF F p P) (e : p = Except.ok (a, t)) : P a := by
  unfold PostF at h
  split at h
  · have e := Except.ok.inj e
    simp only [Prod.mk.injEq] at e
    exact e.1 ▸ h
  · exact nomatch e
  · exact nomatch e

/-- Combine with what is known of each run by itself. -/
theorem SIR.andPost {p : M α} {q : M β} {R : α → β → Prop} {F : Prop} {P : α → Prop} {Q : β → Prop} (h : SIR p q R) (hp : PostF F p P) (hq : PostF F q Q) :
    SIR p q (fun a b => R a b ∧ P a ∧ Q b) := by
  intro a t b t' e e'
  refine ⟨(h a t b t' e e').1, (h a t b t' e e').2, ?_, ?_⟩
  · exact hp.val e
  · exact hq.val e'

/-- One step of a trace proof. Extended by `macro_rules` for each function. -/
syntax "si_leaf" : tactic
macro_rules | `(tactic| si_leaf) => `(tactic| fail "si_leaf: no rule")
macro_rules | `(tactic| si_leaf) => `(tactic| with_reducible exact SI.rd)
macro_rules | `(tactic| si_leaf) => `(tactic| with_reducible exact SI.wr)
macro_rules | `(tactic| si_leaf) => `(tactic| with_reducible exact SI.assertM)
macro_rules | `(tactic| si_leaf) => `(tactic| with_reducible exact SI.i16)
macro_rules | `(tactic| si_leaf) => `(tactic| with_reducible exact SI.i32)
macro_rules | `(tactic| si_leaf) => `(tactic| with_reducible exact SI.vget)
macro_rules | `(tactic| si_leaf) => `(tactic| with_reducible exact SI.vset)
macro_rules | `(tactic| si_leaf) => `(tactic| with_reducible exact SI.pure)
macro_rules | `(tactic| si_leaf) => `(tactic| with_reducible exact SI.ret)
macro_rules | `(tactic| si_leaf) => `(tactic| with_reducible exact SI.fail)

/-- Prove `SI (f args) (f args')` after unfolding, for functions whose control flow and addresses do not depend on data. -/
syntax "si" : tactic
macro_rules
  | `(tactic| si) => `(tactic|
    first
    | si_leaf
    | (with_reducible refine SIR.bind4 (R := Any _ _) ?_ fun _ _ _ _ _ _ _ _ _ => ?_) <;> (try dsimp only) <;> si
    | (with_reducible refine SIR.bind3 (R := Any _ _) ?_ fun _ _ _ _ _ _ _ => ?_) <;> (try dsimp only) <;> si
    | (with_reducible refine SIR.bind2 (R := Any _ _) ?_ fun _ _ _ _ _ => ?_) <;> (try dsimp only) <;> si
    | (with_reducible refine SIR.bind (R := Any _ _) ?_ fun _ _ _ => ?_) <;> (try dsimp only) <;> si
    | (with_reducible refine SIR.branch ?_ ?_) <;> si
    | (with_reducible refine SIR.ite ?_ ?_) <;> si
    | (with_reducible refine SI.vmod fun _ _ => ?_) <;> (try dsimp only) <;> si
    | (with_reducible refine SI.forFrom fun _ _ _ => ?_) <;> (try dsimp only) <;> si)

theorem si_memcpy {d d' s s' : Buf UInt8} {dof sof n : Nat} : SI (memcpy d dof s sof n) (memcpy d' dof s' sof n) := by
  unfold memcpy; si
macro_rules | `(tactic| si_leaf) => `(tactic| with_reducible exact si_memcpy)

end Verif

import Verif.Proof.X86Gp2
import Verif.Proof.NativeTrace
/-! # The accesses of the AVX2 functions, stack included, do not depend on data -/
namespace Verif.X86Gp
open Model Model.X86 Model.X86Gp

theorem fail_right {α β : Type} {e : Err} {p : M α} {R : α → β → Prop} : SIR p (M.fail e : M β) R := by
  intro a t b t' _ h
  cases h

/-- The registers that hold known addresses. -/
def A.det : A → Bool
  | .arg _ _ => true
  | .top _ => true
  | .al _ => true
  | _ => false

/-- Two states with the same addresses. -/
structure Agree (a : Nat → A) (s s' : Model.X86Gp.St) : Prop where
  lo : s.lo = s'.lo
  regs : ∀ r, (a r).det = true → s.g r = s'.g r

theorem det_plus {a : A} {i : Int} (h : (a.plus i).det = true) : a.det = true := by cases a <;> first | rfl | exact h
theorem det_mask {a : A} {m : Nat} (h : (a.mask m).det = true) : a.det = true := by cases a <;> first | rfl | exact h

theorem Agree.put {a : Nat → A} {s s' : Model.X86Gp.St} {d : Nat} {x : A} {y y' : Val} (h : Agree a s s') (hx : x.det = true → y = y') : Agree (up a d x) (s.putg d y) (s'.putg d y') :=
  ⟨h.lo, fun r hr => by
    unfold up at hr
    unfold St.putg
    simp only
    by_cases e : r = d
    · rw [if_pos e] at hr; rw [if_pos e, if_pos e]; exact hx hr
    · rw [if_neg e] at hr; rw [if_neg e, if_neg e]; exact h.regs r hr⟩

theorem si_vec {a : Nat → A} {s s' : Model.X86Gp.St} {i : Ins} (h : Agree a s s') : SIR (s.vec i) (s'.vec i) (Agree a) :=
  SIR.bind (Native.si_step i) fun _ _ _ => SIR.pure ⟨h.lo, h.regs⟩

theorem si_I {slot : Bool} {i : I} {a a' : Nat → A} {l : List Ins} {s s' : Model.X86Gp.St} (hc : absI slot i a = some (l, a')) (h : Agree a s s') : SIR (step i s) (step i s') (Agree a') := by
  cases i with
  | vec i =>
    simp only [absI] at hc
    split at hc
    · cases hc; exact si_vec h
    · cases hc
  | mem b d m =>
    simp only [absI] at hc
    have ha : (a b).det = true ∧ a' = a := by
      split at hc
      · next p off hab =>
        refine ⟨by rw [hab]; rfl, ?_⟩
        split at hc
        · cases hm : m.ins p (off + d).toNat with
          | none => rw [hm] at hc; cases hc
          | some i => rw [hm] at hc; cases hc; rfl
        · cases hc
      · next e hab =>
        refine ⟨by rw [hab]; rfl, ?_⟩
        split at hc
        · split at hc <;> cases hc <;> rfl
        · cases hc
      · cases hc
    obtain ⟨hd, rfl⟩ := ha
    simp only [step]
    have e : s.addr b d = s'.addr b d := by unfold St.addr; rw [h.regs b hd, h.lo]
    rw [e]
    refine SIR.bind (SIR.refl _) ?_
    rintro ⟨p, off⟩ _ rfl
    simp only
    split
    · exact si_vec h
    · exact SI.fail
  | mov b d => simp only [absI] at hc; cases hc; exact SIR.pure (h.put (h.regs b))
  | add i d => simp only [absI] at hc; cases hc; exact SIR.pure (h.put fun hx => by rw [h.regs d (det_plus hx)])
  | sub i d => simp only [absI] at hc; cases hc; exact SIR.pure (h.put fun hx => by rw [h.regs d (det_plus hx)])
  | and m d => simp only [absI] at hc; cases hc; exact SIR.pure (h.put fun hx => by rw [h.regs d (det_mask hx)])
  | lea b i d => simp only [absI] at hc; cases hc; exact SIR.pure (h.put fun hx => by rw [h.regs b (det_plus hx)])

theorem si_Is {slot : Bool} (p : List I) : ∀ {a a' : Nat → A} {l : List Ins} {s s' : Model.X86Gp.St}, absIs slot p a = some (l, a') → Agree a s s' → SIR (exec p s) (exec p s') (Agree a') := by
  induction p with
  | nil => intro a a' l s s' hc h; simp only [absIs] at hc; cases hc; exact SIR.pure h
  | cons i p ih =>
    intro a a' l s s' hc h
    simp only [absIs] at hc
    split at hc
    · cases hc
    · next x a1 h1 =>
      split at hc
      · cases hc
      · next y a2 h2 =>
        cases hc
        exact SIR.bind (si_I h1 h) fun _ _ h' => ih h2 h'

theorem si_push {a : Nat → A} {s s' : Model.X86Gp.St} {ra : Nat} {x : A} (h : Agree a s s') (h4 : (a 4).det = true) : SIR (push ra s) (push ra s') (Agree (up a 4 x)) := by
  unfold push
  rw [h.regs 4 h4, h.lo]
  split
  · refine SIR.ite (SIR.bind (Native.si_stw 4) fun b b' _ => SIR.pure ?_) SI.fail
    have := h.put (d := 4) (x := x) (y := .num (‹Nat› - 8)) (y' := .num (‹Nat› - 8)) fun _ => rfl
    exact ⟨this.lo, this.regs⟩
  · exact SI.fail

theorem si_pop {a : Nat → A} {s s' : Model.X86Gp.St} {x : A} (h : Agree a s s') (h4 : (a 4).det = true) : SIR (pop s) (pop s') (fun y y' => Agree (up a 4 x) y.1 y'.1) := by
  unfold pop
  rw [h.regs 4 h4, h.lo]
  split
  · exact SIR.ite (SIR.bind (Native.si_ldw 4) fun b b' _ => SIR.pure (h.put (d := 4) (x := x) fun _ => rfl)) SI.fail
  · exact SI.fail

theorem si_G {slot : Bool} (p : List G) : ∀ {a a' : Nat → A} {l : List Ins} {s s' : Model.X86Gp.St}, absG slot p a = some (l, a') → Agree a s s' → SIR (execG p s) (execG p s') (Agree a') := by
  induction p with
  | nil => intro a a' l s s' hc h; simp only [absG] at hc; cases hc; exact SIR.pure h
  | cons i p ih =>
    intro a a' l s s' hc h
    cases i with
    | ins i =>
      simp only [absG] at hc
      split at hc
      · cases hc
      · next x a1 h1 =>
        split at hc
        · cases hc
        · next y a2 h2 =>
          cases hc
          exact SIR.bind (si_I h1 h) fun _ _ h' => ih h2 h'
    | call body ra =>
      simp only [absG] at hc
      split at hc
      · next hcall =>
        split at hc
        · cases hc
        · next x a1 h1 =>
          split at hc
          · next ha1 =>
            split at hc
            · cases hc
            · next y a2 h2 =>
              cases hc
              rw [execG, execG]
              refine SIR.bind (si_push h (by rw [hcall.2.1]; rfl)) fun _ _ h' => SIR.bind (si_Is body h1 h') fun _ _ h'' => SIR.bind2 (si_pop (x := .top 0) h'' (by rw [ha1]; rfl)) fun u c u' c' h3 => ?_
              simp only
              by_cases hr : c = ra
              · by_cases hr' : c' = ra
                · rw [if_pos hr, if_pos hr']; exact ih h2 h3
                · rw [if_neg hr']; exact fail_right
              · rw [if_neg hr]; exact SI.fail
          · cases hc
      · cases hc

/-- A checked function makes the same accesses whatever the data, the contents of the stack, and the registers without an argument. -/
theorem chk_si {slot : Bool} {prog : List G} {flat : List Ins} (hc : chk slot prog flat = true) {g g' : Nat → Val} {v v' : X86.St} {lo j : Nat} {stk stk' : Buf Int} :
    SI (run prog (entry g v lo stk j)) (run prog (entry g' v' lo stk' j)) := by
  unfold chk at hc
  split at hc
  · cases hc
  · next l a hl =>
    simp only [Bool.and_eq_true, decide_eq_true_eq] at hc
    have h0 : Agree a0 (entry g v lo stk j) (entry g' v' lo stk' j) := ⟨rfl, fun r hr => by
      unfold entry
      simp only
      unfold a0 at hr
      split
      · rfl
      split
      · rfl
      split
      · rfl
      split
      · rfl
      split
      · rfl
      · next h1 h2 h3 h4 h5 => rw [if_neg h1, if_neg h2, if_neg h3, if_neg h4, if_neg h5] at hr; cases hr⟩
    exact SIR.bind (si_G prog hl h0) fun _ _ h => (si_pop (x := .bad) h (by rw [hc.1.2]; rfl)).weak

end Verif.X86Gp

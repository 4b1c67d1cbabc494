import Verif.Proof.A64KFun
import Verif.Proof.Trace
/-! # The traces of the AArch64 Keccak assembly, also on objects that are too short or not initialised -/
namespace Verif.A64K
open Verif Model Model.A64K Spec

/-- `b'` has at least the cells of `b`, with the same contents where `b` is initialised. -/
def LeB (b b' : Buf Model.W) : Prop := b.size ≤ b'.size ∧ ∀ (j : Nat) (w : Model.W), b[j]? = some (some w) → b'[j]? = some (some w)

/-- The machines agree except that the second has more memory. -/
structure Le (s s' : St) : Prop where
  x : s'.x = s.x
  v : s'.v = s.v
  f : s'.f = s.f
  stk : s'.stk = s.stk
  st : LeB s.st s'.st

/-- If the first run succeeds, so does the second, with the same trace and a related result. -/
def Sim {α : Type} (R : α → α → Prop) (p p' : M α) : Prop := ∀ a t, p = .ok (a, t) → ∃ a', p' = .ok (a', t) ∧ R a a'

theorem Sim.bind {α β : Type} {R : α → α → Prop} {Q : β → β → Prop} {p p' : M α} {f f' : α → M β} (h : Sim R p p') (hf : ∀ a a', R a a' → Sim Q (f a) (f' a')) :
    Sim Q (p >>= f) (p' >>= f') := by
  intro b t hb
  obtain ⟨a, t1, t2, h1, h2, rfl⟩ := bnd_ok hb
  obtain ⟨a', h3, h4⟩ := h a t1 h1
  obtain ⟨b', h5, h6⟩ := hf a a' h4 b t2 h2
  exact ⟨b', okb h3 h5, h6⟩
theorem Sim.pure {α : Type} {R : α → α → Prop} {a a' : α} (h : R a a') : Sim R (Pure.pure a : M α) (Pure.pure a') := by
  intro b t hb
  cases hb
  exact ⟨a', rfl, h⟩
theorem Sim.fail {α : Type} {R : α → α → Prop} {e : Err} {p : M α} : Sim R (M.fail e : M α) p := fun _ _ h => by cases h
theorem Sim.refl {α : Type} {p : M α} : Sim Eq p p := fun a _ h => ⟨a, h, rfl⟩
theorem sim_branch {α : Type} {R : α → α → Prop} {b : Bool} {p p' q q' : M α} (h : Sim R p p') (h' : Sim R q q') : Sim R (branch b p q) (branch b p' q') := by
  unfold Verif.branch
  refine Sim.bind (R := Eq) Sim.refl fun _ _ _ => ?_
  cases b
  · exact h'
  · exact h

theorem sim_ld {s s' : St} (h : Le s s') (a : Reg) (off : Int) : Sim Eq (s.ld a off) (s'.ld a off) := by
  unfold St.ld
  refine Sim.bind Sim.refl fun x y hxy => ?_
  subst hxy
  obtain ⟨o, i⟩ := x
  cases o
  · refine Sim.bind (R := Eq) ?_ fun w w' hw => hw ▸ Sim.refl
    intro w t hw
    unfold rd at *
    split at hw
    · cases hw
    · cases hw
    · rename_i v hv
      cases hw
      rw [h.st.2 _ _ hv]
      exact ⟨w, rfl, rfl⟩
  · exact Sim.refl
  · dsimp only
    rw [h.stk]
    exact Sim.refl
theorem sim_ldw {s s' : St} (h : Le s s') (a : Reg) (off : Int) : Sim Eq (s.ldw a off) (s'.ldw a off) :=
  Sim.bind (sim_ld h a off) fun _ _ e => e ▸ Sim.refl

theorem sim_sto {s s' : St} (h : Le s s') (a : Reg) (off : Int) (v : Reg) : Sim Le (s.sto a off v) (s'.sto a off v) := by
  unfold St.sto
  refine Sim.bind Sim.refl fun x y hxy => ?_
  subst hxy
  obtain ⟨o, i⟩ := x
  cases o
  · refine Sim.bind (R := Eq) Sim.refl fun w w' hw => hw ▸ Sim.bind (R := LeB) ?_ fun b b' hb => Sim.pure ⟨h.x, h.v, h.f, h.stk, hb⟩
    intro b t hb
    obtain ⟨rfl, rfl, hlt⟩ := wr_ok hb
    refine ⟨_, wr_eq (Nat.lt_of_lt_of_le hlt h.st.1) w, by simpa using h.st.1, fun j z hz => ?_⟩
    rw [Array.getElem?_setIfInBounds] at hz ⊢
    by_cases hj : i = j
    · rw [if_pos hj, if_pos hlt] at hz
      rw [if_pos hj, if_pos (Nat.lt_of_lt_of_le hlt h.st.1)]
      exact hz
    · rw [if_neg hj] at hz ⊢
      exact h.st.2 j z hz
  · exact Sim.fail
  · dsimp only
    rw [h.stk]
    exact Sim.bind (R := Eq) Sim.refl fun b b' hb => hb ▸ Sim.pure ⟨h.x, h.v, h.f, rfl, h.st⟩

theorem Le.putx {s s' : St} (h : Le s s') (d : Nat) (a : Reg) : Le (s.putx d a) (s'.putx d a) :=
  ⟨by unfold St.putx; simp only [h.x], h.v, h.f, h.stk, h.st⟩
theorem Le.put {s s' : St} (h : Le s s') (d : Nat) (a : Model.A64K.V) : Le (s.put d a) (s'.put d a) :=
  ⟨h.x, by unfold St.put; simp only [h.v], h.f, h.stk, h.st⟩
theorem Le.pute {s s' : St} (h : Le s s') (d e : Nat) (w : Model.W) : Le (s.pute d e w) (s'.pute d e w) := by
  unfold St.pute
  rw [h.v]
  exact h.put d _
theorem Le.bump {s s' : St} (h : Le s s') (n inc : Nat) : Le (s.bump n inc) (s'.bump n inc) := by
  unfold St.bump
  rw [h.x]
  exact h.putx n _

theorem sim_step {s s' : St} (h : Le s s') (i : Ins) : Sim Le (i.step s) (i.step s') := by
  cases i <;> simp only [Ins.step, h.x, h.v]
  case adr => exact Sim.pure (h.putx _ _)
  case mov_i => exact Sim.pure (h.putx _ _)
  case add_i => exact Sim.pure (h.putx _ _)
  case sub_i => exact Sim.pure (h.putx _ _)
  case cmp_i => exact Sim.bind Sim.refl fun _ _ e => e ▸ Sim.pure ⟨rfl, rfl, rfl, h.stk, h.st⟩
  case ldr => exact Sim.bind (sim_ld h _ _) fun _ _ e => e ▸ Sim.pure (h.putx _ _)
  case str => exact sim_sto h _ _ _
  case ldr_w => exact Sim.bind Sim.refl fun _ _ e => e ▸ Sim.bind (sim_ld h _ _) fun _ _ e => e ▸ Sim.pure (h.putx _ _)
  case ldp => exact Sim.bind (sim_ld h _ _) fun _ _ e => e ▸ Sim.bind (sim_ld h _ _) fun _ _ e => e ▸ Sim.pure ((h.putx _ _).putx _ _)
  case stp => exact Sim.bind (sim_sto h _ _ _) fun _ _ e => sim_sto e _ _ _
  case ldp_d => exact Sim.bind (sim_ldw h _ _) fun _ _ e => e ▸ Sim.bind (sim_ldw h _ _) fun _ _ e => e ▸ Sim.pure ((h.put _ _).put _ _)
  case stp_d => exact Sim.bind (sim_sto h _ _ _) fun _ _ e => sim_sto e _ _ _
  case ror => exact Sim.bind Sim.refl fun _ _ e => e ▸ Sim.pure (h.putx _ _)
  case eor => exact Sim.bind Sim.refl fun _ _ e => e ▸ Sim.bind Sim.refl fun _ _ e => e ▸ Sim.pure (h.putx _ _)
  case bic => exact Sim.bind Sim.refl fun _ _ e => e ▸ Sim.bind Sim.refl fun _ _ e => e ▸ Sim.pure (h.putx _ _)
  case ld1 => exact Sim.bind (sim_ldw h _ _) fun _ _ e => e ▸ Sim.pure ((h.pute _ _ _).bump _ _)
  case ld2 => exact Sim.bind (sim_ldw h _ _) fun _ _ e => e ▸ Sim.bind (sim_ldw h _ _) fun _ _ e => e ▸ Sim.pure (((h.pute _ _ _).pute _ _ _).bump _ _)
  case st1 => exact Sim.bind (sim_sto h _ _ _) fun _ _ e => Sim.pure (e.bump _ _)
  case st2 => exact Sim.bind (sim_sto h _ _ _) fun _ _ e => Sim.bind (sim_sto e _ _ _) fun _ _ e => Sim.pure (e.bump _ _)
  case ld1r => exact Sim.bind (sim_ldw h _ _) fun _ _ e => e ▸ Sim.pure ((h.put _ _).bump _ _)
  all_goals exact Sim.pure (h.put _ _)

theorem sim_runI (l : List Ins) {s s' : St} (h : Le s s') : Sim Le (runI l s) (runI l s') := by
  induction l generalizing s s' with
  | nil => exact Sim.pure h
  | cons i l ih => exact Sim.bind (sim_step h i) fun _ _ h => ih h

theorem sim_runB (prog : List Block) (f pc : Nat) {s s' : St} (h : Le s s') : Sim Le (runB prog f pc s) (runB prog f pc s') := by
  induction f generalizing pc s s' with
  | zero => exact Sim.fail
  | succ f ih =>
    unfold runB
    cases prog[pc]? with
    | none => exact Sim.fail
    | some b =>
      refine Sim.bind (sim_runI b.ins h) fun s s' h => ?_
      cases b.fin with
      | next => exact ih _ h
      | b t => exact ih _ h
      | ret => exact Sim.pure h
      | cbnz r t =>
        dsimp only
        rw [h.x]
        exact Sim.bind Sim.refl fun _ _ e => e ▸ sim_branch (ih _ h) (ih _ h)
      | ble t =>
        dsimp only
        rw [h.f]
        cases s.f with
        | none => exact Sim.fail
        | some ab => exact sim_branch (ih _ h) (ih _ h)
      | beq t =>
        dsimp only
        rw [h.f]
        cases s.f with
        | none => exact Sim.fail
        | some ab => exact sim_branch (ih _ h) (ih _ h)

/-- The object with cells up to `n`, those not initialised being `d`. -/
def pad (d : Model.W) (n : Nat) (s : Buf Model.W) : Buf Model.W := Array.ofFn fun i : Fin (max s.size n) => some ((s[i.1]?.join).getD d)

theorem pad_le (d : Model.W) (n : Nat) (s : Buf Model.W) : LeB s (pad d n s) := by
  refine ⟨by simp [pad], fun j w h => ?_⟩
  have hj : j < s.size := by
    by_contra hc
    rw [Array.getElem?_eq_none (by omega)] at h
    cases h
  unfold pad
  rw [Array.getElem?_ofFn, dif_pos (by omega)]
  simp [h]

theorem pad_segK {d : Model.W} {n : Nat} (s : Buf Model.W) {o : Nat} (h : o + 25 ≤ n) : ∃ S, SegK (pad d n s) o S := by
  refine ⟨lanesK (lanesOf fun l => (s[o + l]?.join).getD d), fun l hl => ⟨(s[o + l]?.join).getD d, ?_, fun z hz => ?_⟩⟩
  · unfold pad
    rw [Array.getElem?_ofFn, dif_pos (by omega)]
  · have e := stateBit_kpos (lanesK (lanesOf fun l => (s[o + l]?.join).getD d)) (Fin.ofNat 5 l) (Fin.ofNat 5 (l / 5)) ⟨z, hz⟩
    have el : 5 * (Fin.ofNat 5 (l / 5)).val + (Fin.ofNat 5 l).val = l := by simp [Fin.ofNat]; omega
    rw [show 64 * l + z = 64 * (5 * (Fin.ofNat 5 (l / 5)).val + (Fin.ofNat 5 l).val) + (⟨z, hz⟩ : Fin 64).val by rw [el], e]
    unfold lanesK lb
    rw [laneAt_lanesOf, el]

/-- A run on any object is that on the same object made longer and with the cells that are not initialised set to `d`. -/
theorem run_pad {prog : List Block} {n frame : Nat} (hn : 0 < n) (hc : correct prog n frame = true) (so : Nat) :
    ∃ tr, ∀ (g : Entry) (s : Buf Model.W) (m : St) (t : List Ev) (d : Model.W), run prog g frame s so = .ok (m, t) → t = tr ∧
      ∀ j w, (j < so ∨ so + 25 * n ≤ j) → m.st[j]? = some (some w) → (pad d (so + 25 * n) s)[j]? = some (some w) := by
  obtain ⟨tr, htr⟩ := run_spec hn hc so
  refine ⟨tr, fun g s m t d h => ?_⟩
  have hS : ∀ i, ∃ S, i < n → SegK (pad d (so + 25 * n) s) (so + 25 * i) S := fun i => by
    by_cases hi : i < n
    · obtain ⟨S, hS⟩ := pad_segK (d := d) (n := so + 25 * n) s (o := so + 25 * i) (by omega)
      exact ⟨S, fun _ => hS⟩
    · exact ⟨zeroK, fun h => absurd h hi⟩
  choose Ss hSs using hS
  obtain ⟨m', h1, h2⟩ := htr (g := g) hSs
  obtain ⟨m'', h3, h4⟩ := sim_runB prog 100 0 (s := start g frame s so) (s' := start g frame (pad d (so + 25 * n) s) so) ⟨rfl, rfl, rfl, rfl, pad_le _ _ _⟩ m t h
  have := h1.symm.trans h3
  cases this
  exact ⟨rfl, fun j w hj hw => by rw [← h2.out j hj]; exact h4.st.2 j w hw⟩

/-- The trace of a function that passes the check depends on nothing but the position of its states. -/
theorem run_trace {prog : List Block} {n frame : Nat} (hn : 0 < n) (hc : correct prog n frame = true) (so : Nat) :
    ∃ tr, ∀ (g : Entry) (s : Buf Model.W) (m : St) (t : List Ev), run prog g frame s so = .ok (m, t) → t = tr := by
  obtain ⟨tr, htr⟩ := run_pad hn hc so
  exact ⟨tr, fun g s m t h => (htr g s m t 0 h).1⟩

/-- A cell outside of the states keeps its contents. -/
theorem call_keeps {prog : List Block} {n frame : Nat} (hn : 0 < n) (hc : correct prog n frame = true) {g : Entry} {s b : Buf Model.W} {so j : Nat} {t : List Ev} {c : Model.W}
    (hj : j < so ∨ so + 25 * n ≤ j) (h : call prog g frame s so = .ok (b, t)) (hs : ∀ w, s[j]? = some (some w) → w = c) : ∀ w, b[j]? = some (some w) → w = c := by
  intro w hw
  obtain ⟨tr, htr⟩ := run_pad hn hc so
  unfold call at h
  obtain ⟨m, t1, t2, h1, h2, rfl⟩ := bnd_ok h
  cases h2
  have e := (htr g s m t1 c h1).2 j w hj hw
  unfold pad at e
  rw [Array.getElem?_ofFn] at e
  split at e
  · have e' := Option.some.inj (Option.some.inj e)
    dsimp only at e'
    rcases hx : s[j]? with _ | x
    · rw [hx] at e'; exact e'.symm
    · rcases x with _ | x
      · rw [hx] at e'; exact e'.symm
      · rw [hx] at e'
        have : x = w := e'
        exact this ▸ hs x hx
  · cases e

theorem call_si {prog : List Block} {n frame : Nat} (hn : 0 < n) (hc : correct prog n frame = true) {g g' : Entry} {s s' : Buf Model.W} {so : Nat} :
    SI (call prog g frame s so) (call prog g' frame s' so) := by
  obtain ⟨tr, htr⟩ := run_trace hn hc so
  refine SIR.bind (R := Any _ _) ?_ fun _ _ _ => SI.pure
  intro a t b t' h h'
  exact ⟨(htr _ _ _ _ h).trans (htr _ _ _ _ h').symm, trivial⟩

theorem Runs.post {α : Type} {p : M α} {t : List Ev} {Q : α → Prop} (h : Runs p t Q) : Post p Q := by
  obtain ⟨a, rfl, h⟩ := h
  unfold Post PostF
  exact h

theorem call_spec {prog : List Block} {n frame : Nat} (hn : 0 < n) (hc : correct prog n frame = true) {g : Entry} {s : Buf Model.W} {so : Nat} {Ss : Nat → KState}
    (h : ∀ i, i < n → SegK s (so + 25 * i) (Ss i)) :
    Post (call prog g frame s so) (fun s' => s'.size = s.size ∧ (∀ j, (j < so ∨ so + 25 * n ≤ j) → s'[j]? = s[j]?) ∧ ∀ i, i < n → SegK s' (so + 25 * i) (keccakF (Ss i))) := by
  obtain ⟨tr, htr⟩ := run_spec hn hc so
  unfold call
  simp only [wp_bind, wp_pure]
  exact (htr (g := g) h).post.mono fun m hm => ⟨hm.size, hm.out, hm.st⟩

end Verif.A64K

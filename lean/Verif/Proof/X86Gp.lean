import Verif.Model.X86Gp
import Verif.Proof.A64RejAsm
/-! # The general-purpose instructions of the AVX2 functions: resolving them to the vector programs of `Model/X86Asm.lean`, with a soundness theorem -/
namespace Verif.X86Gp
open Model Model.X86 Model.X86Gp
open Verif.A64RejAsm (Ret ret_pure ret_bind ret_fail ret_wr ret_rd)

/-- What is known of a register: an address in an argument, an offset from the stack pointer at the call, from that rounded down to a multiple of 32, the value at the call, nothing. -/
inductive A where
  | arg (p : Ptr) (off : Int)
  | top (k : Int)
  | al (k : Int)
  | old (r : Nat)
  | bad
deriving DecidableEq

def up (a : Nat → A) (d : Nat) (x : A) : Nat → A := fun r => if r = d then x else a r

def A.plus : A → Int → A
  | .arg p o, i => .arg p (o + i)
  | .top k, i => if -64 ≤ k ∧ -64 ≤ k + i ∧ k + i ≤ 8 then .top (k + i) else .bad
  | .al k, i => if -64 ≤ k ∧ -64 ≤ k + i ∧ k + i ≤ 0 then .al (k + i) else .bad
  | _, _ => .bad

def A.mask : A → Nat → A
  | .top k, m => if k = 0 ∧ m = 18446744073709551584 then .al 0 else .bad
  | _, _ => .bad

def insPtr : Ins → Option Ptr
  | .vmovdqa_ld p _ _ => some p
  | .vmovdqa_st _ p _ => some p
  | .vmovdqu_ld p _ _ => some p
  | .vmovdqu_st _ p _ => some p
  | .vpbroadcastq p _ _ => some p
  | .vpermq _ p _ _ => some p
  | .vpermd p _ _ _ => some p
  | .vpsubw_m p _ _ _ => some p
  | _ => none

def absI (slot : Bool) (i : I) (a : Nat → A) : Option (List Ins × (Nat → A)) :=
  match i with
  | .vec i => if insPtr i = none then some ([i], a) else none
  | .mem b d m =>
    match a b with
    | .arg p off => if p ≠ .rsp ∧ 0 ≤ off + d then (m.ins p (off + d).toNat).map fun i => ([i], a) else none
    | .al e =>
      if slot = true ∧ -64 ≤ e ∧ e + d = -32 then
        match m with
        | .vmovdqa_st s => some ([.vmovdqa_st s .rsp 0], a)
        | .vpsubw b d' => some ([.vpsubw_m .rsp 0 b d'], a)
        | _ => none
      else none
    | _ => none
  | .mov s d => some ([], up a d (a s))
  | .add i d => some ([], up a d ((a d).plus i))
  | .sub i d => some ([], up a d ((a d).plus (-(i : Int))))
  | .and m d => some ([], up a d ((a d).mask m))
  | .lea b i d => some ([], up a d ((a b).plus i))

def absIs (slot : Bool) : List I → (Nat → A) → Option (List Ins × (Nat → A))
  | [], a => some ([], a)
  | i :: l, a =>
    match absI slot i a with
    | none => none
    | some (x, a) =>
      match absIs slot l a with
      | none => none
      | some (y, a) => some (x ++ y, a)

def absG (slot : Bool) : List G → (Nat → A) → Option (List Ins × (Nat → A))
  | [], a => some ([], a)
  | .ins i :: l, a =>
    match absI slot i a with
    | none => none
    | some (x, a) =>
      match absG slot l a with
      | none => none
      | some (y, a) => some (x ++ y, a)
  | .call body ra :: l, a =>
    if slot = false ∧ a 4 = .top 0 ∧ ra < 65536 then
      match absIs slot body (up a 4 (.top (-8))) with
      | none => none
      | some (x, a) =>
        if a 4 = .top (-8) then
          match absG slot l (up a 4 (.top 0)) with
          | none => none
          | some (y, a) => some (x ++ y, a)
        else none
    else none

/-- The registers at the call. -/
def a0 : Nat → A := fun r => if r = 7 then .arg .rdi 0 else if r = 6 then .arg .rsi 0 else if r = 2 then .arg .rdx 0 else if r = 1 then .arg .rcx 0 else if r = 4 then .top 0 else .old r

/-- The function resolves to the given vector instructions and restores the stack pointer and the registers `rbx`, `rbp`, `r12` to `r15`. -/
def chk (slot : Bool) (prog : List G) (flat : List Ins) : Bool :=
  match absG slot prog a0 with
  | none => false
  | some (l, a) => decide (l = flat) && decide (a 4 = .top 0) && [3, 5, 12, 13, 14, 15].all fun r => decide (a r = .old r)

/-! ## Soundness -/

theorem and32 {n : Nat} (h : n < 18446744073709551616) : n &&& 18446744073709551584 = n / 32 * 32 := by
  apply Nat.eq_of_testBit_eq
  intro i
  rw [Nat.testBit_and, show (18446744073709551584 : Nat) = (2 ^ 59 - 1) * 2 ^ 5 by norm_num, Nat.testBit_mul_two_pow, Nat.testBit_two_pow_sub_one,
    show n / 32 * 32 = n / 2 ^ 5 * 2 ^ 5 by norm_num, Nat.testBit_mul_two_pow, Nat.testBit_div_two_pow]
  by_cases h5 : 5 ≤ i
  · rw [show i - 5 + 5 = i by omega]
    by_cases h64 : i - 5 < 59
    · simp [h5, h64]
    · have : n.testBit i = false := Nat.testBit_lt_two_pow (lt_of_lt_of_le h (by
        rw [show (18446744073709551616 : Nat) = 2 ^ 64 by norm_num]; exact Nat.pow_le_pow_right (by omega) (by omega)))
      simp [this]
  · simp [h5]

theorem putw_put (v : X86.St) (p : Ptr) (b : Buf Int) (d : Nat) (y : Ymm) : (v.put d y).putw p b = (v.putw p b).put d y := rfl

theorem putw_comm {v : X86.St} {p q : Ptr} {b c : Buf Int} (h : p ≠ q) : (v.putw p b).putw q c = (v.putw q c).putw p b := by
  simp only [St.putw]
  congr 1
  funext r
  by_cases h1 : r = q
  · subst h1; simp [Ne.symm h]
  · by_cases h2 : r = p
    · subst h2; simp [h1]
    · simp [h1, h2]

theorem w_putw_ne {v : X86.St} {p q : Ptr} {b : Buf Int} (h : q ≠ p) : (v.putw p b).w q = v.w q := by simp [St.putw, h]
theorem w_putw {v : X86.St} {p : Ptr} {b : Buf Int} : (v.putw p b).w p = b := by simp [St.putw]

/-- An instruction that does not access the stack does the same on another stack. -/
theorem other {i : Ins} {v v' : X86.St} {stk : Buf Int} (hi : insPtr i ≠ some .rsp) (h : Ret (i.step v) v') :
    Ret (i.step (v.putw .rsp stk)) (v'.putw .rsp stk) ∧ v'.w .rsp = v.w .rsp := by
  cases i
  case vmovdqa_ld p off d =>
    have hp : p ≠ .rsp := fun e => hi (by rw [e]; rfl)
    simp only [Ins.step, ret_bind] at h
    obtain ⟨y, hy, h⟩ := h
    rw [ret_pure] at h; subst h
    refine ⟨?_, rfl⟩
    simp only [Ins.step, w_putw_ne hp]
    exact ret_bind.2 ⟨y, hy, Ret.pure _⟩
  case vmovdqa_st r p off =>
    have hp : p ≠ .rsp := fun e => hi (by rw [e]; rfl)
    simp only [Ins.step, ret_bind] at h
    obtain ⟨y, hy, h⟩ := h
    rw [ret_pure] at h; subst h
    refine ⟨?_, w_putw_ne hp.symm⟩
    simp only [Ins.step, w_putw_ne hp]
    rw [putw_comm hp]
    exact ret_bind.2 ⟨y, hy, Ret.pure _⟩
  case vmovdqu_ld p off d =>
    simp only [Ins.step, ret_bind] at h
    obtain ⟨y, hy, h⟩ := h
    rw [ret_pure] at h; subst h
    refine ⟨?_, rfl⟩
    exact ret_bind.2 ⟨y, hy, Ret.pure _⟩
  case vmovdqu_st r p off =>
    simp only [Ins.step, ret_bind] at h
    obtain ⟨y, hy, h⟩ := h
    rw [ret_pure] at h; subst h
    refine ⟨?_, rfl⟩
    exact ret_bind.2 ⟨y, hy, Ret.pure _⟩
  case vpbroadcastq p off d =>
    have hp : p ≠ .rsp := fun e => hi (by rw [e]; rfl)
    simp only [Ins.step, ret_bind] at h
    obtain ⟨y, hy, h⟩ := h
    rw [ret_pure] at h; subst h
    refine ⟨?_, rfl⟩
    simp only [Ins.step, w_putw_ne hp]
    exact ret_bind.2 ⟨y, hy, Ret.pure _⟩
  case vpermq imm p off d =>
    have hp : p ≠ .rsp := fun e => hi (by rw [e]; rfl)
    simp only [Ins.step, ret_bind] at h
    obtain ⟨y, hy, h⟩ := h
    rw [ret_pure] at h; subst h
    refine ⟨?_, rfl⟩
    simp only [Ins.step, w_putw_ne hp]
    exact ret_bind.2 ⟨y, hy, Ret.pure _⟩
  case vpermd p off idx d =>
    have hp : p ≠ .rsp := fun e => hi (by rw [e]; rfl)
    simp only [Ins.step, ret_bind] at h
    obtain ⟨y, hy, h⟩ := h
    rw [ret_pure] at h; subst h
    refine ⟨?_, rfl⟩
    simp only [Ins.step, w_putw_ne hp]
    exact ret_bind.2 ⟨y, hy, Ret.pure _⟩
  case vpsubw_m p off b d =>
    have hp : p ≠ .rsp := fun e => hi (by rw [e]; rfl)
    simp only [Ins.step, ret_bind] at h
    obtain ⟨y, hy, h⟩ := h
    rw [ret_pure] at h; subst h
    refine ⟨?_, rfl⟩
    simp only [Ins.step, w_putw_ne hp]
    exact ret_bind.2 ⟨y, hy, Ret.pure _⟩
  all_goals
    simp only [Ins.step] at h
    rw [ret_pure] at h; subst h
    exact ⟨⟨[], rfl⟩, rfl⟩

theorem insPtr_op {m : Op} {p : Ptr} {off : Nat} {i : Ins} (h : m.ins p off = some i) : insPtr i = some p := by
  cases m <;> simp only [Op.ins] at h <;> first | (cases h; rfl) | (split at h; cases h; rfl; cases h)

/-- Writing a row of elements. -/
theorem stw_ret {b : Buf Int} {off : Nat} {y : Ymm} : ∀ (n : Nat), off + n ≤ b.size → ∃ b', Ret (stw b off y n) b' ∧ b'.size = b.size ∧ (∀ k, k < n → b'[off + k]? = some (some (y k))) ∧
    ∀ i, i < off ∨ off + n ≤ i → b'[i]? = b[i]?
  | 0, _ => ⟨b, Ret.pure _, rfl, fun k hk => by omega, fun _ _ => rfl⟩
  | n + 1, h => by
    obtain ⟨b', h1, h2, h3, h4⟩ := stw_ret n (show off + n ≤ b.size by omega)
    refine ⟨b'.setIfInBounds (off + n) (some (y n)), ret_bind.2 ⟨b', h1, ret_wr.2 ⟨by omega, rfl⟩⟩, by rw [Array.size_setIfInBounds, h2], fun k hk => ?_, fun i hi => ?_⟩
    · by_cases e : k = n
      · subst e
        rw [Array.getElem?_setIfInBounds_self_of_lt (by omega)]
      · rw [Array.getElem?_setIfInBounds_ne (by omega)]
        exact h3 k (by omega)
    · rw [Array.getElem?_setIfInBounds_ne (by omega)]
      exact h4 i (by omega)

/-- What a successful write wrote. -/
theorem stw_size {off : Nat} {y : Ymm} : ∀ (n : Nat) {b b' : Buf Int}, Ret (stw b off y n) b' → b'.size = b.size
  | 0, b, b', h => by rw [stw, ret_pure] at h; rw [h]
  | n + 1, b, b', h => by
    rw [stw, ret_bind] at h
    obtain ⟨b1, h1, h2⟩ := h
    obtain ⟨_, rfl⟩ := ret_wr.1 h2
    rw [Array.size_setIfInBounds]
    exact stw_size n h1

theorem stw_inv {off : Nat} {y : Ymm} : ∀ (n : Nat) {b b' : Buf Int}, Ret (stw b off y n) b' → off + n ≤ b.size ∨ n = 0
  | 0, _, _, _ => Or.inr rfl
  | n + 1, b, b', h => by
    rw [stw, ret_bind] at h
    obtain ⟨b1, h1, h2⟩ := h
    obtain ⟨h3, _⟩ := ret_wr.1 h2
    have := stw_size n h1
    omega

theorem ldw_ret {b : Buf Int} {off : Nat} {f : Nat → Int} : ∀ (n : Nat), (∀ k, k < n → b[off + k]? = some (some (f k))) → ∃ y, Ret (ldw b off n) y ∧ ∀ k, k < n → y k = f k
  | 0, _ => ⟨_, Ret.pure _, fun k hk => by omega⟩
  | n + 1, h => by
    obtain ⟨y, h1, h2⟩ := ldw_ret n fun k hk => h k (by omega)
    refine ⟨_, ret_bind.2 ⟨y, h1, ret_bind.2 ⟨f n, ret_rd.2 (h n (by omega)), Ret.pure _⟩⟩, fun k hk => ?_⟩
    by_cases e : k = n
    · subst e; simp
    · simp [e]; exact h2 k (by omega)

/-- The elements of the 32 bytes at element `c` of the stack are those of the object `b`, as far as it is initialised. -/
def Sub (b stk : Buf Int) (c : Nat) : Prop := ∀ i x, i < 16 → b[i]? = some (some x) → stk[c + i]? = some (some x)

theorem ldw_sub {b stk : Buf Int} {c : Nat} (h : Sub b stk c) : ∀ (n : Nat) {y : Ymm}, n ≤ 16 → Ret (ldw b 0 n) y → Ret (ldw stk c n) y
  | 0, _, _, hy => hy
  | n + 1, y, hn, hy => by
    rw [ldw, ret_bind] at hy
    obtain ⟨y1, h1, hy⟩ := hy
    rw [ret_bind] at hy
    obtain ⟨x, hx, hy⟩ := hy
    rw [ldw]
    refine ret_bind.2 ⟨y1, ldw_sub h n (by omega) h1, ret_bind.2 ⟨x, ret_rd.2 (h n x (by omega) ?_), hy⟩⟩
    have := ret_rd.1 hx
    rwa [Nat.zero_add] at this

theorem stw_get {b b' : Buf Int} {y : Ymm} (h : Ret (stw b 0 y 16) b') : ∀ i x, i < 16 → b'[i]? = some (some x) → x = y i := by
  intro i x hi hx
  rcases stw_inv 16 h with h1 | h1
  · obtain ⟨b2, g1, _, g3, _⟩ := stw_ret (y := y) 16 h1
    have := Verif.A64RejAsm.Ret.unique h g1
    subst this
    have := g3 i hi
    rw [Nat.zero_add, hx] at this
    cases this; rfl
  · omega

variable {lo j : Nat} {g0 : Nat → Val}

/-- The meaning of what is known of a register. -/
def Ok (lo j : Nat) (g0 : Nat → Val) : A → Val → Prop
  | .arg p o, x => x = .obj p o
  | .top k, x => x = .num (((lo + 2 * j : Nat) : Int) + k).toNat
  | .al k, x => x = .num ((((lo + 2 * j) / 32 * 32 : Nat) : Int) + k).toNat
  | .old r, x => x = g0 r
  | .bad, _ => True

/-- The first element of the 32 bytes for the vector. -/
def cell (j : Nat) : Nat := 16 * (j / 16 - 1)

/-- Machine state and state of the vector program. -/
structure Sim (lo j : Nat) (g0 : Nat → Val) (slot : Bool) (stk0 : Buf Int) (a : Nat → A) (s : Model.X86Gp.St) (v : X86.St) (stk : Buf Int) : Prop where
  hlo : s.lo = lo
  regs : ∀ r, Ok lo j g0 (a r) (s.g r)
  hv : s.v = v.putw .rsp stk
  sub : slot = true → Sub (v.w .rsp) stk (cell j)
  size : stk.size = stk0.size
  frame : ∀ i, j ≤ i → stk[i]? = stk0[i]?

theorem ok_plus {a : A} {x : Val} {i : Int} (hj : 32 ≤ j) (h64 : lo + 2 * j + 8 < 18446744073709551616) (h : Ok lo j g0 a x) : Ok lo j g0 (a.plus i) (x.plus i) := by
  cases a
  case arg p o => cases h; rfl
  case top k =>
    simp only [A.plus]
    split
    · next hk =>
      have h : x = .num (((lo + 2 * j : Nat) : Int) + k).toNat := h
      subst h
      show Val.num _ = Val.num _
      congr 1
      omega
    · trivial
  case al k =>
    simp only [A.plus]
    split
    · next hk =>
      have h : x = .num ((((lo + 2 * j) / 32 * 32 : Nat) : Int) + k).toNat := h
      subst h
      show Val.num _ = Val.num _
      congr 1
      omega
    · trivial
  case old r => trivial
  case bad => trivial

theorem ok_mask {a : A} {x : Val} {m : Nat} (h64 : lo + 2 * j + 8 < 18446744073709551616) (h : Ok lo j g0 a x) : Ok lo j g0 (a.mask m) (x.mask m) := by
  cases a
  case top k =>
    simp only [A.mask]
    split
    · next hk =>
      obtain ⟨rfl, rfl⟩ := hk
      have h : x = .num (((lo + 2 * j : Nat) : Int) + 0).toNat := h
      subst h
      show Val.num _ = Val.num _
      rw [show (((lo + 2 * j : Nat) : Int) + 0).toNat = lo + 2 * j by omega, and32 (by omega)]
      rw [Int.add_zero, Int.toNat_natCast]
    · trivial
  all_goals trivial

variable {slot : Bool} {stk0 : Buf Int}

theorem Sim.put {a : Nat → A} {s : Model.X86Gp.St} {v : X86.St} {stk : Buf Int} {d : Nat} {x : A} {y : Val} (h : Sim lo j g0 slot stk0 a s v stk) (hx : Ok lo j g0 x y) :
    Sim lo j g0 slot stk0 (up a d x) (s.putg d y) v stk :=
  ⟨h.hlo, fun r => by
    unfold up St.putg
    simp only
    split
    · exact hx
    · exact h.regs r, h.hv, h.sub, h.size, h.frame⟩

/-- A vector instruction that does not access the stack. -/
theorem vec_other {a : Nat → A} {s : Model.X86Gp.St} {v v' : X86.St} {stk : Buf Int} {i : Ins} (h : Sim lo j g0 slot stk0 a s v stk) (hi : insPtr i ≠ some .rsp) (hr : Ret (i.step v) v') :
    ∃ s', Ret (s.vec i) s' ∧ Sim lo j g0 slot stk0 a s' v' stk := by
  obtain ⟨h1, h2⟩ := other (stk := stk) hi hr
  refine ⟨{ s with v := v'.putw .rsp stk }, ret_bind.2 ⟨_, by rw [h.hv]; exact h1, Ret.pure _⟩, h.hlo, h.regs, rfl, fun hs => by rw [h2]; exact h.sub hs, h.size, h.frame⟩

theorem run_one {i : Ins} {v v' : X86.St} (h : Ret (X86.run [i] v) v') : Ret (i.step v) v' := by
  rw [X86.run, ret_bind] at h
  obtain ⟨v1, h1, h2⟩ := h
  rw [X86.run, ret_pure] at h2
  rwa [h2] at h1

theorem run_append {l l' : List Ins} {v v' : X86.St} : Ret (X86.run (l ++ l') v) v' ↔ ∃ v1, Ret (X86.run l v) v1 ∧ Ret (X86.run l' v1) v' := by
  induction l generalizing v with
  | nil =>
    simp only [List.nil_append, X86.run, ret_pure]
    exact ⟨fun h => ⟨v, rfl, h⟩, fun ⟨_, e, h⟩ => e ▸ h⟩
  | cons i l ih =>
    simp only [List.cons_append, X86.run, ret_bind]
    exact ⟨fun ⟨v1, h1, h2⟩ => by obtain ⟨v2, h3, h4⟩ := ih.1 h2; exact ⟨v2, ⟨v1, h1, h3⟩, h4⟩, fun ⟨v2, ⟨v1, h1, h3⟩, h4⟩ => ⟨v1, h1, ih.2 ⟨v2, h3, h4⟩⟩⟩

/-- One instruction. -/
theorem absI_sound (hlo : lo % 32 = 0) (hj : 32 ≤ j) (h64 : lo + 2 * j + 8 < 18446744073709551616) (hsz : j ≤ stk0.size) {i : I} {a a' : Nat → A} {l : List Ins} {s : Model.X86Gp.St} {v v' : X86.St} {stk : Buf Int}
    (hc : absI slot i a = some (l, a')) (h : Sim lo j g0 slot stk0 a s v stk) (hr : Ret (X86.run l v) v') : ∃ s' stk', Ret (step i s) s' ∧ Sim lo j g0 slot stk0 a' s' v' stk' ∧ (slot = false → stk' = stk) := by
  cases i with
  | vec i =>
    simp only [absI] at hc
    split at hc
    · next hi =>
      cases hc
      obtain ⟨s', h1, h2⟩ := vec_other h (by rw [hi]; simp) (run_one hr)
      exact ⟨s', stk, h1, h2, fun _ => rfl⟩
    · cases hc
  | mem b d m =>
    simp only [absI] at hc
    have hb := h.regs b
    split at hc
    · next p off hab =>
      rw [hab] at hb
      split at hc
      · next hp =>
        cases hm : m.ins p (off + d).toNat with
        | none => rw [hm] at hc; cases hc
        | some i =>
          rw [hm] at hc
          cases hc
          obtain ⟨s', h1, h2⟩ := vec_other h (by rw [insPtr_op hm]; simpa using hp.1) (run_one hr)
          refine ⟨s', stk, ?_, h2, fun _ => rfl⟩
          have hb' : s.g b = .obj p off := hb
          simp only [step, St.addr]
          rw [hb']
          simp only
          rw [if_pos hp]
          refine ret_bind.2 ⟨_, Ret.pure _, ?_⟩
          simp only
          rw [hm]
          exact h1
      · cases hc
    · next e hab =>
      rw [hab] at hb
      split at hc
      · next hse =>
        obtain ⟨hslot, he0, he⟩ := hse
        have hb' : s.g b = .num ((((lo + 2 * j) / 32 * 32 : Nat) : Int) + e).toNat := hb
        have hadr : Ret (s.addr b d) (.rsp, 2 * cell j) := by
          simp only [St.addr]
          rw [hb', h.hlo]
          simp only
          have e2 : ((((lo + 2 * j) / 32 * 32 : Nat) : Int) + e).toNat + d = lo + 2 * cell j := by unfold cell; omega
          rw [if_pos (by omega), e2, show lo + 2 * cell j - lo = 2 * cell j by omega]
          exact Ret.pure _
        have hcs : cell j + 16 ≤ j := by unfold cell; omega
        have hsub := h.sub hslot
        have hsize := h.size
        split at hc
        · next r =>
          cases hc
          have h1 := run_one hr
          simp only [Ins.step, ret_bind] at h1
          obtain ⟨b', hb1, hb2⟩ := h1
          rw [ret_pure] at hb2
          subst hb2
          have hb1' : Ret (stw (v.w .rsp) 0 (v.ymm r) 16) b' := hb1
          obtain ⟨stk', q1, q2, q3, q4⟩ := stw_ret (b := stk) (off := cell j) (y := v.ymm r) 16 (by omega)
          refine ⟨{ s with v := v.putw .rsp stk' }, stk', ?_, ⟨h.hlo, h.regs, ?_, ?_, by rw [q2, hsize], fun i hi => by rw [q4 i (by omega)]; exact h.frame i hi⟩, fun hf => by rw [hf] at hslot; cases hslot⟩
          · simp only [step]
            refine ret_bind.2 ⟨_, hadr, ?_⟩
            simp only [Op.ins]
            rw [if_pos (by omega), show 2 * cell j / 2 = cell j by omega]
            simp only [St.vec, Ins.step]
            rw [h.hv]
            refine ret_bind.2 ⟨v.putw .rsp stk', ret_bind.2 ⟨stk', ?_, ?_⟩, Ret.pure _⟩
            · rw [w_putw]
              unfold sta
              rw [if_pos (by unfold cell; omega)]
              exact q1
            · rw [ret_pure]
              simp only [X86.St.putw]
              congr 1
              funext r
              by_cases h1 : r = .rsp <;> simp [h1]
          · simp only [X86.St.putw]
            congr 1
            funext r
            by_cases h1 : r = .rsp <;> simp [h1]
          · intro _ i x hi hx
            rw [w_putw] at hx
            have := stw_get hb1' i x hi hx
            rw [this]
            exact q3 i hi
        · next b2 d2 =>
          cases hc
          have h1 := run_one hr
          simp only [Ins.step, ret_bind] at h1
          obtain ⟨y, hy1, hy2⟩ := h1
          rw [ret_pure] at hy2
          subst hy2
          refine ⟨{ s with v := (v.put d2 fun k => s16 (v.ymm b2 k - y k)).putw .rsp stk }, stk, ?_, ⟨h.hlo, h.regs, rfl, h.sub, h.size, h.frame⟩, fun _ => rfl⟩
          simp only [step]
          refine ret_bind.2 ⟨_, hadr, ?_⟩
          simp only [Op.ins]
          rw [if_pos (by omega), show 2 * cell j / 2 = cell j by omega]
          simp only [St.vec, Ins.step]
          rw [h.hv]
          refine ret_bind.2 ⟨_, ret_bind.2 ⟨y, ?_, Ret.pure _⟩, Ret.pure _⟩
          rw [w_putw]
          exact ldw_sub hsub 16 (by omega) hy1
        · cases hc
      · cases hc
    · cases hc
  | mov b d =>
    simp only [absI] at hc
    cases hc
    rw [X86.run, ret_pure] at hr
    subst hr
    exact ⟨_, stk, Ret.pure _, h.put (h.regs b), fun _ => rfl⟩
  | add i d =>
    simp only [absI] at hc
    cases hc
    rw [X86.run, ret_pure] at hr
    subst hr
    exact ⟨_, stk, Ret.pure _, h.put (ok_plus hj h64 (h.regs d)), fun _ => rfl⟩
  | sub i d =>
    simp only [absI] at hc
    cases hc
    rw [X86.run, ret_pure] at hr
    subst hr
    exact ⟨_, stk, Ret.pure _, h.put (ok_plus hj h64 (h.regs d)), fun _ => rfl⟩
  | and m d =>
    simp only [absI] at hc
    cases hc
    rw [X86.run, ret_pure] at hr
    subst hr
    exact ⟨_, stk, Ret.pure _, h.put (ok_mask h64 (h.regs d)), fun _ => rfl⟩
  | lea b i d =>
    simp only [absI] at hc
    cases hc
    rw [X86.run, ret_pure] at hr
    subst hr
    exact ⟨_, stk, Ret.pure _, h.put (ok_plus hj h64 (h.regs b)), fun _ => rfl⟩

theorem absIs_sound (hlo : lo % 32 = 0) (hj : 32 ≤ j) (h64 : lo + 2 * j + 8 < 18446744073709551616) (hsz : j ≤ stk0.size) : ∀ (p : List I) {a a' : Nat → A} {l : List Ins} {s : Model.X86Gp.St} {v v' : X86.St} {stk : Buf Int},
    absIs slot p a = some (l, a') → Sim lo j g0 slot stk0 a s v stk → Ret (X86.run l v) v' → ∃ s' stk', Ret (exec p s) s' ∧ Sim lo j g0 slot stk0 a' s' v' stk' ∧ (slot = false → stk' = stk) := by
  intro p
  induction p with
  | nil =>
    intro a a' l s v v' stk hc h hr
    simp only [absIs] at hc
    cases hc
    rw [X86.run, ret_pure] at hr
    subst hr
    exact ⟨s, stk, Ret.pure _, h, fun _ => rfl⟩
  | cons i p ih =>
    intro a a' l s v v' stk hc h hr
    simp only [absIs] at hc
    split at hc
    · cases hc
    · next x a1 h1 =>
      split at hc
      · cases hc
      · next y a2 h2 =>
        cases hc
        obtain ⟨v1, r1, r2⟩ := run_append.1 hr
        obtain ⟨s1, stk1, e1, S1, f1⟩ := absI_sound hlo hj h64 hsz h1 h r1
        obtain ⟨s2, stk2, e2, S2, f2⟩ := ih h2 S1 r2
        exact ⟨s2, stk2, ret_bind.2 ⟨s1, e1, e2⟩, S2, fun hs => (f2 hs).trans (f1 hs)⟩

theorem qword_elem {ra : Nat} (h : ra < 18446744073709551616) {y : Ymm} (hy : ∀ k, k < 4 → y k = elem ra k) : qword y 0 = ra := by
  have e : ∀ k, k < 4 → u16 (y k) = ra / 65536 ^ k % 65536 := fun k hk => by
    rw [hy k hk]
    unfold elem s16 u16
    omega
  unfold qword dword
  rw [e (2 * (2 * 0)) (by omega), e (2 * (2 * 0) + 1) (by omega), e (2 * (2 * 0 + 1)) (by omega), e (2 * (2 * 0 + 1) + 1) (by omega)]
  norm_num
  omega

theorem absG_sound (hlo : lo % 32 = 0) (hj : 32 ≤ j) (h64 : lo + 2 * j + 8 < 18446744073709551616) (hsz : j ≤ stk0.size) : ∀ (p : List G) {a a' : Nat → A} {l : List Ins} {s : Model.X86Gp.St} {v v' : X86.St} {stk : Buf Int},
    absG slot p a = some (l, a') → Sim lo j g0 slot stk0 a s v stk → Ret (X86.run l v) v' → ∃ s' stk', Ret (execG p s) s' ∧ Sim lo j g0 slot stk0 a' s' v' stk' := by
  intro p
  induction p with
  | nil =>
    intro a a' l s v v' stk hc h hr
    simp only [absG] at hc
    cases hc
    rw [X86.run, ret_pure] at hr
    subst hr
    exact ⟨s, stk, Ret.pure _, h⟩
  | cons i p ih =>
    intro a a' l s v v' stk hc h hr
    cases i with
    | ins i =>
      simp only [absG] at hc
      split at hc
      · cases hc
      · next x a1 h1 =>
        split at hc
        · cases hc
        · next y a2 h2 =>
          cases hc
          obtain ⟨v1, r1, r2⟩ := run_append.1 hr
          obtain ⟨s1, stk1, e1, S1, -⟩ := absI_sound hlo hj h64 hsz h1 h r1
          obtain ⟨s2, stk2, e2, S2⟩ := ih h2 S1 r2
          exact ⟨s2, stk2, ret_bind.2 ⟨s1, e1, e2⟩, S2⟩
    | call body ra =>
      simp only [absG] at hc
      split at hc
      · next hcall =>
        obtain ⟨hslot, ha4, hra⟩ := hcall
        split at hc
        · cases hc
        · next x a1 h1 =>
          split at hc
          · next ha1 =>
            split at hc
            · cases hc
            · next y a2 h2 =>
              cases hc
              obtain ⟨v1, r1, r2⟩ := run_append.1 hr
              -- the return address
              have g4 : s.g 4 = .num (lo + 2 * j) := by
                have := h.regs 4
                rw [ha4] at this
                have this : s.g 4 = .num (((lo + 2 * j : Nat) : Int) + 0).toNat := this
                rw [this]; exact congrArg Val.num (by omega)
              have hsize := h.size
              obtain ⟨stk1, q1, q2, q3, q4⟩ := stw_ret (b := stk) (off := j - 4) (y := elem ra) 4 (by omega)
              obtain ⟨s1, es1⟩ : ∃ s1 : Model.X86Gp.St, s1 = { s.putg 4 (.num (lo + 2 * j - 8)) with v := v.putw .rsp stk1 } := ⟨_, rfl⟩
              have p1 : Ret (push ra s) s1 := by
                unfold push
                rw [g4, h.hlo]
                simp only
                rw [if_pos (by omega), show (lo + 2 * j - 8 - lo) / 2 = j - 4 by omega, h.hv, w_putw]
                refine ret_bind.2 ⟨stk1, q1, ?_⟩
                rw [ret_pure, es1]
                congr 1
                simp only [X86.St.putw]
                congr 1
                funext r
                by_cases h1 : r = .rsp <;> simp [h1]
              have S1 : Sim lo j g0 slot stk0 (up a 4 (.top (-8))) s1 v stk1 := by
                refine ⟨by rw [es1]; exact h.hlo, fun r => ?_, by rw [es1], fun hs => absurd (hslot.symm.trans hs) (by decide), by rw [q2, hsize], fun i hi => by rw [q4 i (by omega)]; exact h.frame i hi⟩
                rw [es1]
                unfold up St.putg
                simp only
                split
                · exact congrArg Val.num (by omega)
                · exact h.regs r
              obtain ⟨s2, stk2, e2, S2, f2⟩ := absIs_sound hlo hj h64 hsz body h1 S1 r1
              have hf := f2 hslot
              subst hf
              have g42 : s2.g 4 = .num (lo + 2 * j - 8) := by
                have := S2.regs 4
                rw [ha1] at this
                have this : s2.g 4 = .num (((lo + 2 * j : Nat) : Int) + -8).toNat := this
                rw [this]; exact congrArg Val.num (by omega)
              obtain ⟨y4, l1, l2⟩ := ldw_ret (b := stk2) (off := j - 4) (f := elem ra) 4 q3
              have p2 : Ret (pop s2) (s2.putg 4 (.num (lo + 2 * j)), ra) := by
                unfold pop
                rw [g42, S2.hlo]
                simp only
                rw [if_pos (by omega), show (lo + 2 * j - 8 - lo) / 2 = j - 4 by omega, S2.hv, w_putw]
                refine ret_bind.2 ⟨y4, l1, ?_⟩
                rw [ret_pure, qword_elem (by omega) l2, show lo + 2 * j - 8 + 8 = lo + 2 * j by omega]
              have S3 := S2.put (d := 4) (x := .top 0) (y := .num (lo + 2 * j)) (by exact congrArg Val.num (by omega))
              obtain ⟨s4, stk4, e4, S4⟩ := ih h2 S3 r2
              refine ⟨s4, stk4, ?_, S4⟩
              rw [execG]
              refine ret_bind.2 ⟨s1, p1, ret_bind.2 ⟨s2, e2, ret_bind.2 ⟨_, p2, ?_⟩⟩⟩
              simp only
              rw [if_pos trivial]
              exact e4
          · cases hc
      · cases hc

/-- A checked function: it does what the vector program does, returns to its caller, with the stack pointer and the callee-saved registers as they were, and leaves the caller's part of the stack. -/
theorem chk_sound {prog : List G} {flat : List Ins} (hc : chk slot prog flat = true) {g : Nat → Val} {v v' : X86.St} {lo j ra : Nat} {stk : Buf Int} (hlo : lo % 32 = 0) (hj : 32 ≤ j)
    (h64 : lo + 2 * j + 8 < 18446744073709551616) (hsz : j ≤ stk.size) (hra : ra < 18446744073709551616) (hret : ∀ k, k < 4 → stk[j + k]? = some (some (elem ra k))) (hs : slot = true → Sub (v.w .rsp) stk (cell j))
    (hr : Ret (X86.run flat v) v') :
    ∃ s stk', Ret (run prog (entry g v lo stk j)) (s, ra) ∧ s.g 4 = .num (lo + 2 * j + 8) ∧ (∀ r ∈ [3, 5, 12, 13, 14, 15], s.g r = g r) ∧ s.v = v'.putw .rsp stk' ∧ stk'.size = stk.size ∧
      ∀ i, j ≤ i → stk'[i]? = stk[i]? := by
  unfold chk at hc
  split at hc
  · cases hc
  · next l a hl =>
    simp only [Bool.and_eq_true, decide_eq_true_eq, List.all_eq_true] at hc
    obtain ⟨⟨rfl, h4⟩, hk⟩ := hc
    have S0 : Sim lo j g slot stk a0 (entry g v lo stk j) v stk := by
      refine ⟨rfl, fun r => ?_, rfl, hs, rfl, fun _ _ => rfl⟩
      unfold a0 entry
      simp only
      split
      · rfl
      split
      · rfl
      split
      · rfl
      split
      · rfl
      split
      · exact congrArg Val.num (by omega)
      · rfl
    obtain ⟨s, stk', e, S⟩ := absG_sound hlo hj h64 hsz prog hl S0 hr
    have g4 : s.g 4 = .num (lo + 2 * j) := by
      have := S.regs 4
      rw [h4] at this
      have this : s.g 4 = .num (((lo + 2 * j : Nat) : Int) + 0).toNat := this
      rw [this]; exact congrArg Val.num (by omega)
    obtain ⟨y4, l1, l2⟩ := ldw_ret (b := stk') (off := j) (f := elem ra) 4 fun k hk => by rw [S.frame (j + k) (by omega)]; exact hret k hk
    refine ⟨s.putg 4 (.num (lo + 2 * j + 8)), stk', ?_, by simp [St.putg], fun r hr => ?_, S.hv, S.size, S.frame⟩
    · refine ret_bind.2 ⟨s, e, ?_⟩
      unfold pop
      rw [g4, S.hlo]
      simp only
      rw [if_pos (by omega), show (lo + 2 * j - lo) / 2 = j by omega, S.hv, w_putw]
      refine ret_bind.2 ⟨y4, l1, ?_⟩
      rw [ret_pure, qword_elem hra l2]
    · have e1 : (s.putg 4 (.num (lo + 2 * j + 8))).g r = s.g r := by
        have : r ≠ 4 := by rintro rfl; simp at hr
        simp [St.putg, this]
      rw [e1]
      have := S.regs r
      rw [hk r hr] at this
      exact this

end Verif.X86Gp

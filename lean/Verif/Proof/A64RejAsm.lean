import Verif.Model.A64RejAsm
import Verif.Proof.A64Rej
/-! # The instructions of the AArch64 rejection sampler refine its transcription -/
namespace Verif.A64RejAsm
open Model Spec Model.A64RejAsm
open Model.A64Rej (round48 round24 copy8 ldrTable zip1b zip2b zip1h zip2h bic8h ushr8h cmhi8h and16b uaddlv8h cnt16b tbl16b)
open Verif.A64Rej (Inv Full)

/-- Normal return. -/
def Ret {α : Type} (p : M α) (a : α) : Prop := ∃ t, p = .ok (a, t)

theorem Ret.pure {α : Type} (a : α) : Ret (pure a) a := ⟨[], rfl⟩

theorem ret_pure {α : Type} {a b : α} : Ret (Pure.pure a) b ↔ a = b := by
  constructor
  · rintro ⟨t, h⟩
    have : (Except.ok (a, ([] : List Ev)) : M α) = .ok (b, t) := h
    cases this; rfl
  · rintro rfl; exact Ret.pure a

theorem ret_bind {α β : Type} {p : M α} {f : α → M β} {b : β} : Ret (p >>= f) b ↔ ∃ a, Ret p a ∧ Ret (f a) b := by
  constructor
  · rintro ⟨t, h⟩
    change M.bnd p f = _ at h
    cases p with
    | error e => cases h
    | ok x =>
      obtain ⟨a, t1⟩ := x
      simp only [M.bnd] at h
      cases e : f a with
      | error e' => rw [e] at h; cases h
      | ok y => obtain ⟨b', t2⟩ := y; rw [e] at h; cases h; exact ⟨a, ⟨t1, rfl⟩, ⟨t2, e⟩⟩
  · rintro ⟨a, ⟨t1, e1⟩, ⟨t2, e2⟩⟩
    exact ⟨t1 ++ t2, by change M.bnd p f = _; rw [e1]; unfold M.bnd; dsimp only; rw [e2]⟩

theorem Ret.bind {α β : Type} {p : M α} {f : α → M β} {a : α} {b : β} (h : Ret p a) (h' : Ret (f a) b) : Ret (p >>= f) b := ret_bind.2 ⟨a, h, h'⟩

theorem ret_branch {α : Type} {c : Bool} {p q : M α} {a : α} : Ret (branch c p q) a ↔ Ret (if c then p else q) a := by
  unfold branch
  rw [ret_bind]
  exact ⟨fun ⟨_, _, h⟩ => h, fun h => ⟨(), ⟨_, rfl⟩, h⟩⟩

theorem Ret.unique {α : Type} {p : M α} {a b : α} (h : Ret p a) (h' : Ret p b) : a = b := by
  obtain ⟨t, e⟩ := h
  obtain ⟨t', e'⟩ := h'
  rw [e] at e'; cases e'; rfl

theorem ret_fail {α : Type} {e : Err} {a : α} : ¬ Ret (M.fail e) a := by rintro ⟨t, h⟩; cases h

theorem Post.ret {α : Type} {p : M α} {Q : α → Prop} (h : Post p Q) : ∃ a, Ret p a ∧ Q a := by
  obtain ⟨a, t, e, q⟩ := h.elim
  exact ⟨a, ⟨t, e⟩, q⟩

/-! ## Straight-line code -/

/-- The instructions `eff` describes. -/
def isReg : Ins → Bool
  | .dup .. | .ldr .. | .ldr_post .. | .ldr_x .. | .str .. | .str_post .. | .ld3 .. => false
  | _ => true

/-- The effect of a sequence of such instructions. -/
def effs (l : List Ins) (s : St) : St := l.foldl (fun s i => eff i s) s

theorem step_reg {i : Ins} (h : isReg i = true) (s : St) : step i s = pure (eff i s) := by
  cases i <;> first | rfl | cases h

theorem ret_regs : ∀ (l l' : List Ins) (s s' : St), l.all isReg = true → Ret (exec l' (effs l s)) s' → Ret (exec (l ++ l') s) s'
  | [], _, _, _, _, h => h
  | i :: l, l', s, s', hl, h => by
    simp only [List.all_cons, Bool.and_eq_true] at hl
    refine Ret.bind (f := fun s => exec (l ++ l') s) ?_ (ret_regs l l' (eff i s) s' hl.2 h)
    rw [step_reg hl.1]; exact Ret.pure _

theorem ret_step {i : Ins} {l : List Ins} {s s1 s' : St} (h : Ret (step i s) s1) (h' : Ret (exec l s1) s') : Ret (exec (i :: l) s) s' := Ret.bind (f := fun s => exec l s) h h'

/-- The general-purpose register an instruction writes is not one the caller expects to find unchanged; likewise for the vector registers. -/
def safe : Ins → Bool
  | .add_xi d _ _ | .sub_xi d _ _ | .adr d _ | .mov_x d _ | .mov_w d _ | .mov_wi d _ | .add_w d _ _ | .add_wi d _ _ | .sub_wi d _ _ | .add_uxtw1 d _ _ | .csel_lo d _ _ | .fmov d _ =>
    decide (d < 18 ∨ 30 < d)
  | .zip1b d _ _ | .zip2b d _ _ | .zip1h d _ _ | .zip2h d _ _ | .bic d _ _ | .ushr d _ _ | .cmhi d _ _ | .and d _ _ | .uaddlv d _ | .cnt d _ | .tbl d _ _ => decide (d < 8 ∨ 15 < d)
  | _ => true

theorem putx_ne {s : St} {d r : Nat} {a : Reg} (h : r ≠ d) : (s.putx d a).x r = s.x r := by simp [St.putx, h]
theorem putv_ne {s : St} {d r : Nat} {a : VB} (h : r ≠ d) : (s.putv d a).v r = s.v r := by simp [St.putv, h]

theorem eff_x {i : Ins} (h : safe i = true) (s : St) {r : Nat} (h1 : 18 ≤ r) (h2 : r ≤ 30) : (eff i s).x r = s.x r := by
  cases i <;> first | rfl | (simp only [safe, decide_eq_true_eq] at h; exact putx_ne (by omega))

theorem eff_v {i : Ins} (h : safe i = true) (s : St) {r : Nat} (h1 : 8 ≤ r) (h2 : r < 16) : (eff i s).v r = s.v r := by
  cases i <;> first | rfl | (simp only [safe, decide_eq_true_eq] at h; exact putv_ne (by omega))

theorem eff_mem (i : Ins) (s : St) : (eff i s).out = s.out ∧ (eff i s).stk = s.stk ∧ (eff i s).buf = s.buf := by
  cases i <;> exact ⟨rfl, rfl, rfl⟩

theorem effs_frame : ∀ (l : List Ins) (s : St), l.all safe = true → (∀ r, 18 ≤ r → r ≤ 30 → (effs l s).x r = s.x r) ∧ (∀ r, 8 ≤ r → r < 16 → (effs l s).v r = s.v r) ∧
    (effs l s).out = s.out ∧ (effs l s).stk = s.stk ∧ (effs l s).buf = s.buf
  | [], _, _ => ⟨fun _ _ _ => rfl, fun _ _ _ => rfl, rfl, rfl, rfl⟩
  | i :: l, s, h => by
    simp only [List.all_cons, Bool.and_eq_true] at h
    obtain ⟨a, b, c, d, e⟩ := effs_frame l (eff i s) h.2
    obtain ⟨c', d', e'⟩ := eff_mem i s
    exact ⟨fun r h1 h2 => (a r h1 h2).trans (eff_x h.1 s h1 h2), fun r h1 h2 => (b r h1 h2).trans (eff_v h.1 s h1 h2), c.trans c', d.trans d', e.trans e'⟩

/-! ## Values -/

theorem low32_scalar {n : Nat} (h : n < 4294967296) : low32 (scalar n) = n := by
  unfold low32 scalar
  simp only [show (0 : Nat) < 4 by omega, show (1 : Nat) < 4 by omega, show (2 : Nat) < 4 by omega, show (3 : Nat) < 4 by omega, if_true, UInt8.toNat_ofNat']
  omega

theorem uaddlv_lt (a : VB) : uaddlv8h a < 4294967296 := by
  unfold uaddlv8h
  have := lane16_lt a 0; have := lane16_lt a 1; have := lane16_lt a 2; have := lane16_lt a 3; have := lane16_lt a 4; have := lane16_lt a 5; have := lane16_lt a 6; have := lane16_lt a 7
  omega

theorem uaddlv_le (a : VB) : uaddlv8h a ≤ 524280 := by
  unfold uaddlv8h
  have := lane16_lt a 0; have := lane16_lt a 1; have := lane16_lt a 2; have := lane16_lt a 3; have := lane16_lt a 4; have := lane16_lt a 5; have := lane16_lt a 6; have := lane16_lt a 7
  omega

theorem w_num {x : Nat} (h : x < 4294967296) : (Reg.num x).w = some x := by simp [Reg.w, u32, Nat.mod_eq_of_lt h]

theorem sub32_of {a b : Nat} (h : b ≤ a) (ha : a < 4294967296) : sub32 a b = a - b := by unfold sub32 u32; omega

/-- Every element is an `int16_t`. -/
def I16 (b : Buf Int) : Prop := ∀ (i : Nat) (v : Int), b[i]? = some (some v) → -32768 ≤ v ∧ v ≤ 32767

theorem sgn16_range {x : Nat} (h : x < 65536) : -32768 ≤ sgn16 x ∧ sgn16 x ≤ 32767 := by unfold sgn16; split <;> omega

theorem ret_wr {α : Type} {b b' : Buf α} {i : Nat} {v : α} : Ret (wr b i v) b' ↔ i < b.size ∧ b' = b.setIfInBounds i (some v) := by
  by_cases h : i < b.size
  · have e : wr b i v = .ok (b.setIfInBounds i (some v), [.st i]) := if_pos h
    rw [e]
    constructor
    · rintro ⟨t, e⟩; cases e; exact ⟨h, rfl⟩
    · rintro ⟨_, rfl⟩; exact ⟨_, rfl⟩
  · have e : wr b i v = M.fail .oob := if_neg h
    rw [e]
    exact ⟨fun h' => (ret_fail h').elim, fun h' => (h h'.1).elim⟩

theorem ret_rd {α : Type} {b : Buf α} {i : Nat} {v : α} : Ret (rd b i) v ↔ b[i]? = some (some v) := by
  unfold rd
  split
  · next h => exact ⟨fun h' => (ret_fail h').elim, fun h' => by rw [h] at h'; cases h'⟩
  · next h => exact ⟨fun h' => (ret_fail h').elim, fun h' => by rw [h] at h'; cases h'⟩
  · next v' h =>
    constructor
    · rintro ⟨t, e⟩; cases e; exact h
    · intro h'; rw [h] at h'; cases h'; exact ⟨_, rfl⟩

theorem storeu_i16 {v : VB} {o : Nat} : ∀ (n : Nat) {r r' : Model.Poly}, Ret (storeu128 r o v n) r' → I16 r → I16 r'
  | 0, _, _, h, hr => by rw [storeu128, ret_pure] at h; rw [← h]; exact hr
  | n + 1, r, r', h, hr => by
    rw [storeu128, ret_bind] at h
    obtain ⟨r1, h1, h2⟩ := h
    obtain ⟨h3, rfl⟩ := ret_wr.1 h2
    have i1 := storeu_i16 n h1 hr
    intro i y hy
    by_cases e : o + n = i
    · subst e
      rw [Array.getElem?_setIfInBounds_self_of_lt h3] at hy
      cases hy
      exact sgn16_range (lane16_lt _ _)
    · rw [Array.getElem?_setIfInBounds_ne e] at hy
      exact i1 i y hy

/-! ## The relation -/

/-- The registers at the labels of the loop, in terms of the state of the transcription. -/
structure Rel (gx : Nat → Reg) (gv : Nat → VB) (r : Model.Poly) (ro : Nat) (buf : Buf UInt8) (s : St) (st : Model.A64Rej.St) : Prop where
  x0 : s.x 0 = .ptr .out (2 * (ro : Int))
  x1 : s.x 1 = .ptr .buf (st.pos : Int)
  w2 : (s.x 2).w = some st.buflen
  x3 : s.x 3 = .num 256
  x5 : s.x 5 = .ptr .tab 0
  x7 : s.x 7 = .ptr .stk (2 * (st.ot : Int))
  x8 : s.x 8 = .ptr .stk 0
  x9 : s.x 9 = .num st.count
  sp : s.x 31 = .ptr .stk 0
  q : s.v 30 = Model.A64Rej.mlkem_q
  bits : s.v 31 = Model.A64Rej.bits
  out : s.out = r
  stk : s.stk = st.stk
  buf : s.buf = buf
  kx : ∀ i, 18 ≤ i → i ≤ 30 → s.x i = gx i
  kv : ∀ i, 8 ≤ i → i < 16 → s.v i = gv i
  i16 : I16 st.stk

/-! ## Memory accesses -/

theorem ret_addr {s : St} {n : Nat} {o : Obj} {p off : Int} {k : Nat} (h : s.x n = .ptr o p) (hk : p + off = (k : Int)) : Ret (s.addr n off) (o, k) := by
  unfold St.addr
  rw [h]
  simp only
  rw [if_pos (by omega), hk]
  exact Ret.pure _

theorem ret_ldr_x {s : St} {d n m y : Nat} {a : VB} (h : s.x n = .ptr .tab 0) (hm : s.x m = .num y) (hy : y < 4294967296) (ha : Ret (ldrTable y) a) : Ret (step (.ldr_x d n m) s) (s.putv d a) := by
  simp only [step]
  rw [hm, w_num hy]
  simp only
  refine Ret.bind (ret_addr (k := 16 * y) h (by push_cast; ring)) ?_
  refine Ret.bind (a := a) ?_ (Ret.pure _)
  unfold St.load
  simp only
  rw [if_pos (by omega), show 16 * y / 16 = y by omega]
  exact ha

theorem ret_str {s : St} {k n o : Nat} {b : Model.Poly} (h : s.x n = .ptr .stk (2 * (o : Int))) (hb : Ret (storeu128 s.stk o (s.v k) 8) b) : Ret (step (.str k n 0) s) { s with stk := b } := by
  simp only [step]
  refine Ret.bind (ret_addr (k := 2 * o) h (by push_cast; ring)) ?_
  unfold St.store
  simp only
  rw [if_pos (by omega), show 2 * o / 2 = o by omega]
  exact Ret.bind hb (Ret.pure _)

theorem ret_ld3 {s : St} {d0 d1 d2 n w p : Nat} {inc : Int} {a b c : VB} (h : s.x n = .ptr .buf (p : Int)) (hl : Ret (Model.A64Rej.ld3 s.buf p w) (a, b, c)) :
    Ret (step (.ld3 d0 d1 d2 n w inc) s) ((((s.putv d0 a).putv d1 b).putv d2 c).putx n (.ptr .buf ((p : Int) + inc))) := by
  simp only [step]
  refine Ret.bind (ret_addr (k := p) h (by ring)) ?_
  simp only
  refine Ret.bind hl ?_
  simp only
  rw [h]
  exact Ret.pure _

/-! ## The rounds -/

/-- Lines 423-470. -/
def chunk48a : List Ins := [.zip1b 4 0 1, .zip2b 5 0 1, .zip1b 6 1 2, .zip2b 7 1 2, .bic 4 240 8, .bic 5 240 8, .ushr 6 6 4, .ushr 7 7 4, .zip1h 16 4 6, .zip2h 17 4 6, .zip1h 18 5 7, .zip2h 19 5 7,
  .cmhi 4 30 16, .cmhi 5 30 17, .cmhi 6 30 18, .cmhi 7 30 19, .and 4 4 31, .and 5 5 31, .and 6 6 31, .and 7 7 31, .uaddlv 20 4, .uaddlv 21 5, .uaddlv 22 6, .uaddlv 23 7,
  .fmov 12 20, .fmov 13 21, .fmov 14 22, .fmov 15 23]
/-- Lines 480-499. -/
def chunk48b : List Ins := [.cnt 4 4, .cnt 5 5, .cnt 6 6, .cnt 7 7, .uaddlv 20 4, .uaddlv 21 5, .uaddlv 22 6, .uaddlv 23 7, .fmov 12 20, .fmov 13 21, .fmov 14 22, .fmov 15 23,
  .tbl 16 16 24, .tbl 17 17 25, .tbl 18 18 26, .tbl 19 19 27]
/-- Lines 513-519. -/
def chunk48c : List Ins := [.add_uxtw1 7 7 15, .add_w 12 12 13, .add_w 14 14 15, .add_w 9 9 12, .add_w 9 9 14, .cmp_i 2 48]

theorem body48_eq : body48.ins = [.sub_wi 2 2 48] ++ (.ld3 0 1 2 1 16 48 :: (chunk48a ++ (.ldr_x 24 5 12 :: .ldr_x 25 5 13 :: .ldr_x 26 5 14 :: .ldr_x 27 5 15 :: (chunk48b ++
    (.str 16 7 0 :: ([.add_uxtw1 7 7 12] ++ (.str 17 7 0 :: ([.add_uxtw1 7 7 13] ++ (.str 18 7 0 :: ([.add_uxtw1 7 7 14] ++ (.str 19 7 0 :: (chunk48c ++ [])))))))))))) := rfl

theorem add_ptr {s : St} {d a b ot c : Nat} (ha : s.x a = .ptr .stk (2 * (ot : Int))) (hb : s.x b = .num c) (hc : c < 4294967296) :
    (eff (.add_uxtw1 d a b) s).x d = .ptr .stk (2 * ((ot + c : Nat) : Int)) := by
  simp only [eff, St.putx, if_true, ha, hb, w_num hc, Reg.plus]
  congr 1; push_cast; ring

/-- The accepted elements, each as its bit: lines 450-459. -/
def sgn (q bits v : VB) : VB := and16b (cmhi8h q v) bits
/-- `val0` of a round of 48 bytes. -/
def V0 (a b c : VB) : VB := zip1h (bic8h (zip1b a b) 240 8) (ushr8h (zip1b b c) 4)
/-- `val1` -/
def V1 (a b c : VB) : VB := zip2h (bic8h (zip1b a b) 240 8) (ushr8h (zip1b b c) 4)
/-- `val2` -/
def V2 (a b c : VB) : VB := zip1h (bic8h (zip2b a b) 240 8) (ushr8h (zip2b b c) 4)
/-- `val3` -/
def V3 (a b c : VB) : VB := zip2h (bic8h (zip2b a b) 240 8) (ushr8h (zip2b b c) 4)

theorem chunk48a_x (s : St) : (effs chunk48a s).x 12 = .num (low32 (scalar (uaddlv8h (sgn (s.v 30) (s.v 31) (V0 (s.v 0) (s.v 1) (s.v 2)))))) ∧
    (effs chunk48a s).x 13 = .num (low32 (scalar (uaddlv8h (sgn (s.v 30) (s.v 31) (V1 (s.v 0) (s.v 1) (s.v 2)))))) ∧
    (effs chunk48a s).x 14 = .num (low32 (scalar (uaddlv8h (sgn (s.v 30) (s.v 31) (V2 (s.v 0) (s.v 1) (s.v 2)))))) ∧
    (effs chunk48a s).x 15 = .num (low32 (scalar (uaddlv8h (sgn (s.v 30) (s.v 31) (V3 (s.v 0) (s.v 1) (s.v 2)))))) ∧
    (∀ i, i < 12 ∨ 15 < i → (effs chunk48a s).x i = s.x i) := by
  refine ⟨rfl, rfl, rfl, rfl, fun i hi => ?_⟩
  simp only [chunk48a, effs, List.foldl, eff, St.putv, St.putx]
  rw [if_neg (by omega), if_neg (by omega), if_neg (by omega), if_neg (by omega)]

theorem chunk48a_v (s : St) : (effs chunk48a s).v 16 = V0 (s.v 0) (s.v 1) (s.v 2) ∧ (effs chunk48a s).v 17 = V1 (s.v 0) (s.v 1) (s.v 2) ∧
    (effs chunk48a s).v 18 = V2 (s.v 0) (s.v 1) (s.v 2) ∧ (effs chunk48a s).v 19 = V3 (s.v 0) (s.v 1) (s.v 2) ∧
    (effs chunk48a s).v 4 = sgn (s.v 30) (s.v 31) (V0 (s.v 0) (s.v 1) (s.v 2)) ∧ (effs chunk48a s).v 5 = sgn (s.v 30) (s.v 31) (V1 (s.v 0) (s.v 1) (s.v 2)) ∧
    (effs chunk48a s).v 6 = sgn (s.v 30) (s.v 31) (V2 (s.v 0) (s.v 1) (s.v 2)) ∧ (effs chunk48a s).v 7 = sgn (s.v 30) (s.v 31) (V3 (s.v 0) (s.v 1) (s.v 2)) ∧
    (effs chunk48a s).v 30 = s.v 30 ∧ (effs chunk48a s).v 31 = s.v 31 := ⟨rfl, rfl, rfl, rfl, rfl, rfl, rfl, rfl, rfl, rfl⟩

theorem chunk48b_x (s : St) : (effs chunk48b s).x 12 = .num (low32 (scalar (uaddlv8h (cnt16b (s.v 4))))) ∧ (effs chunk48b s).x 13 = .num (low32 (scalar (uaddlv8h (cnt16b (s.v 5))))) ∧
    (effs chunk48b s).x 14 = .num (low32 (scalar (uaddlv8h (cnt16b (s.v 6))))) ∧ (effs chunk48b s).x 15 = .num (low32 (scalar (uaddlv8h (cnt16b (s.v 7))))) ∧
    (∀ i, i < 12 ∨ 15 < i → (effs chunk48b s).x i = s.x i) := by
  refine ⟨rfl, rfl, rfl, rfl, fun i hi => ?_⟩
  simp only [chunk48b, effs, List.foldl, eff, St.putv, St.putx]
  rw [if_neg (by omega), if_neg (by omega), if_neg (by omega), if_neg (by omega)]

theorem chunk48b_v (s : St) : (effs chunk48b s).v 16 = tbl16b (s.v 16) (s.v 24) ∧ (effs chunk48b s).v 17 = tbl16b (s.v 17) (s.v 25) ∧ (effs chunk48b s).v 18 = tbl16b (s.v 18) (s.v 26) ∧
    (effs chunk48b s).v 19 = tbl16b (s.v 19) (s.v 27) ∧ (effs chunk48b s).v 30 = s.v 30 ∧ (effs chunk48b s).v 31 = s.v 31 := ⟨rfl, rfl, rfl, rfl, rfl, rfl⟩

/-- Add the length of a group to the pointer. -/
theorem ptr_step {s : St} {b ot c : Nat} (ha : s.x 7 = .ptr .stk (2 * (ot : Int))) (hb : s.x b = .num c) (hc : c < 4294967296) :
    (effs [.add_uxtw1 7 7 b] s).x 7 = .ptr .stk (2 * ((ot + c : Nat) : Int)) ∧ ∀ i, i ≠ 7 → (effs [.add_uxtw1 7 7 b] s).x i = s.x i :=
  ⟨add_ptr ha hb hc, fun i hi => putx_ne hi⟩

/-- The end of a round: pointer, count, comparison. -/
theorem chunk48c_spec {s : St} {ot c0 c1 c2 c3 n l : Nat} (h7 : s.x 7 = .ptr .stk (2 * (ot : Int))) (h12 : s.x 12 = .num c0) (h13 : s.x 13 = .num c1) (h14 : s.x 14 = .num c2) (h15 : s.x 15 = .num c3)
    (h9 : s.x 9 = .num n) (h2 : s.x 2 = .num l) (hl : l < 4294967296) (hs : n + (c0 + c1) + (c2 + c3) < 4294967296) :
    (effs chunk48c s).x 7 = .ptr .stk (2 * ((ot + c3 : Nat) : Int)) ∧ (effs chunk48c s).x 9 = .num (n + (c0 + c1) + (c2 + c3)) ∧ (effs chunk48c s).fl = some (flags l 48) ∧
    (∀ i, i ≠ 7 → i ≠ 9 → i ≠ 12 → i ≠ 14 → (effs chunk48c s).x i = s.x i) ∧ (effs chunk48c s).v = s.v := by
  have u : ∀ x : Nat, x < 4294967296 → u32 x = x := fun x hx => Nat.mod_eq_of_lt hx
  have w : ∀ x : Nat, x < 4294967296 → (Reg.num x).w = some x := fun x hx => w_num hx
  refine ⟨?_, ?_, ?_, fun i a b c d => ?_, rfl⟩
  · show (match (s.x 15).w with | some y => (s.x 7).plus (2 * (y : Int)) | none => Reg.bad) = _
    rw [h15, h7, w c3 (by omega)]
    simp only [Reg.plus]
    congr 1; push_cast; ring
  · show Reg.ofw (op2 (· + ·) (Reg.ofw (op2 (· + ·) (s.x 9).w (Reg.ofw (op2 (· + ·) (s.x 12).w (s.x 13).w)).w)).w (Reg.ofw (op2 (· + ·) (s.x 14).w (s.x 15).w)).w) = _
    rw [h9, h12, h13, h14, h15, w c0 (by omega), w c1 (by omega), w c2 (by omega), w c3 (by omega), w n (by omega)]
    simp only [op2, Reg.ofw]
    rw [u (c0 + c1) (by omega), u (c2 + c3) (by omega), w (c0 + c1) (by omega), w (c2 + c3) (by omega)]
    simp only [op2, Reg.ofw]
    rw [u (n + (c0 + c1)) (by omega), w (n + (c0 + c1)) (by omega)]
    simp only [op2, Reg.ofw]
    rw [u _ hs]
  · show cmpFlags (s.x 2).w (some 48) = _
    rw [h2, w l hl]; rfl
  · simp only [chunk48c, effs, List.foldl, eff, St.putx, if_neg a, if_neg b, if_neg c, if_neg d]

/-- Lines 533-551. -/
def chunk24a : List Ins := [.zip1b 4 0 1, .zip1b 5 1 2, .bic 4 240 8, .ushr 5 5 4, .zip1h 16 4 5, .zip2h 17 4 5, .cmhi 4 30 16, .cmhi 5 30 17, .and 4 4 31, .and 5 5 31, .uaddlv 20 4, .uaddlv 21 5,
  .fmov 12 20, .fmov 13 21]
/-- Lines 556-566. -/
def chunk24b : List Ins := [.cnt 4 4, .cnt 5 5, .uaddlv 20 4, .uaddlv 21 5, .fmov 12 20, .fmov 13 21, .tbl 16 16 24, .tbl 17 17 25]
/-- Lines 572-575. -/
def chunk24c : List Ins := [.add_uxtw1 7 7 13, .add_w 9 9 12, .add_w 9 9 13]

theorem body24_eq : body24.ins = [.sub_wi 2 2 24] ++ (.ld3 0 1 2 1 8 24 :: (chunk24a ++ (.ldr_x 24 5 12 :: .ldr_x 25 5 13 :: (chunk24b ++
    (.str 16 7 0 :: ([.add_uxtw1 7 7 12] ++ (.str 17 7 0 :: (chunk24c ++ [])))))))) := rfl

theorem chunk24a_x (s : St) : (effs chunk24a s).x 12 = .num (low32 (scalar (uaddlv8h (sgn (s.v 30) (s.v 31) (V0 (s.v 0) (s.v 1) (s.v 2)))))) ∧
    (effs chunk24a s).x 13 = .num (low32 (scalar (uaddlv8h (sgn (s.v 30) (s.v 31) (V1 (s.v 0) (s.v 1) (s.v 2)))))) ∧
    (∀ i, i < 12 ∨ 15 < i → (effs chunk24a s).x i = s.x i) := by
  refine ⟨rfl, rfl, fun i hi => ?_⟩
  simp only [chunk24a, effs, List.foldl, eff, St.putv, St.putx]
  rw [if_neg (by omega), if_neg (by omega)]

theorem chunk24a_v (s : St) : (effs chunk24a s).v 16 = V0 (s.v 0) (s.v 1) (s.v 2) ∧ (effs chunk24a s).v 17 = V1 (s.v 0) (s.v 1) (s.v 2) ∧
    (effs chunk24a s).v 4 = sgn (s.v 30) (s.v 31) (V0 (s.v 0) (s.v 1) (s.v 2)) ∧ (effs chunk24a s).v 5 = sgn (s.v 30) (s.v 31) (V1 (s.v 0) (s.v 1) (s.v 2)) ∧
    (effs chunk24a s).v 30 = s.v 30 ∧ (effs chunk24a s).v 31 = s.v 31 := ⟨rfl, rfl, rfl, rfl, rfl, rfl⟩

theorem chunk24b_x (s : St) : (effs chunk24b s).x 12 = .num (low32 (scalar (uaddlv8h (cnt16b (s.v 4))))) ∧ (effs chunk24b s).x 13 = .num (low32 (scalar (uaddlv8h (cnt16b (s.v 5))))) ∧
    (∀ i, i < 12 ∨ 15 < i → (effs chunk24b s).x i = s.x i) := by
  refine ⟨rfl, rfl, fun i hi => ?_⟩
  simp only [chunk24b, effs, List.foldl, eff, St.putv, St.putx]
  rw [if_neg (by omega), if_neg (by omega)]

theorem chunk24b_v (s : St) : (effs chunk24b s).v 16 = tbl16b (s.v 16) (s.v 24) ∧ (effs chunk24b s).v 17 = tbl16b (s.v 17) (s.v 25) ∧
    (effs chunk24b s).v 30 = s.v 30 ∧ (effs chunk24b s).v 31 = s.v 31 := ⟨rfl, rfl, rfl, rfl⟩

/-- The end of the last round. -/
theorem chunk24c_spec {s : St} {ot c0 c1 n : Nat} (h7 : s.x 7 = .ptr .stk (2 * (ot : Int))) (h12 : s.x 12 = .num c0) (h13 : s.x 13 = .num c1)
    (h9 : s.x 9 = .num n) (hs : n + c0 + c1 < 4294967296) :
    (effs chunk24c s).x 7 = .ptr .stk (2 * ((ot + c1 : Nat) : Int)) ∧ (effs chunk24c s).x 9 = .num (n + c0 + c1) ∧
    (∀ i, i ≠ 7 → i ≠ 9 → (effs chunk24c s).x i = s.x i) ∧ (effs chunk24c s).v = s.v := by
  have u : ∀ x : Nat, x < 4294967296 → u32 x = x := fun x hx => Nat.mod_eq_of_lt hx
  have w : ∀ x : Nat, x < 4294967296 → (Reg.num x).w = some x := fun x hx => w_num hx
  refine ⟨?_, ?_, fun i a b => ?_, rfl⟩
  · show (match (s.x 13).w with | some y => (s.x 7).plus (2 * (y : Int)) | none => Reg.bad) = _
    rw [h13, h7, w c1 (by omega)]
    simp only [Reg.plus]
    congr 1; push_cast; ring
  · show Reg.ofw (op2 (· + ·) (Reg.ofw (op2 (· + ·) (s.x 9).w (s.x 12).w)).w (s.x 13).w) = _
    rw [h9, h12, h13, w c0 (by omega), w c1 (by omega), w n (by omega)]
    simp only [op2, Reg.ofw]
    rw [u (n + c0) (by omega), w (n + c0) (by omega)]
    simp only [op2, Reg.ofw]
    rw [u _ hs]
  · simp only [chunk24c, effs, List.foldl, eff, St.putx, if_neg a, if_neg b]

section
variable {gx : Nat → Reg} {gv : Nat → VB} {r : Model.Poly} {ro : Nat} {buf : Buf UInt8}

theorem body48_sim {s : St} {st st' : Model.A64Rej.St} (h : Rel gx gv r ro buf s st) (h48 : 48 ≤ st.buflen) (hl : st.buflen < 4294967296) (hr : Ret (round48 buf st) st') (hc : st'.count < 4294967296) :
    ∃ s', Ret (exec body48.ins s) s' ∧ Rel gx gv r ro buf s' st' ∧ s'.fl = some (flags st'.buflen 48) := by
  rw [body48_eq]
  simp only [round48, ret_bind] at hr
  obtain ⟨⟨b0, b1, b2⟩, hld, hr⟩ := hr
  simp only [ret_bind] at hr
  obtain ⟨t0, ht0, t1, ht1, t2, ht2, t3, ht3, k0, hk0, k1, hk1, k2, hk2, k3, hk3, hr⟩ := hr
  rw [ret_pure] at hr
  -- the input
  obtain ⟨s1, e1⟩ : ∃ s1, s1 = effs [.sub_wi 2 2 48] s := ⟨_, rfl⟩
  have f1 := effs_frame [.sub_wi 2 2 48] s rfl
  rw [← e1] at f1
  have w1 : s1.x 2 = .num (st.buflen - 48) := by
    rw [e1]
    show Reg.ofw ((s.x 2).w.map (sub32 · 48)) = _
    rw [h.w2]
    simp only [Option.map_some, Reg.ofw, sub32_of h48 hl, u32]
    congr 1; omega
  have x1 : ∀ i, i ≠ 2 → s1.x i = s.x i := fun i hi => by rw [e1]; exact putx_ne hi
  have v1 : s1.v = s.v := by rw [e1]; rfl
  obtain ⟨s2, e2⟩ : ∃ s2, s2 = ((((s1.putv 0 b0).putv 1 b1).putv 2 b2).putx 1 (.ptr .buf ((st.pos : Int) + 48))) := ⟨_, rfl⟩
  have g2 : Ret (step (.ld3 0 1 2 1 16 48) s1) s2 := by
    rw [e2]; exact ret_ld3 (by rw [x1 1 (by omega)]; exact h.x1) (by rw [f1.2.2.2.2, h.buf]; exact hld)
  have x2 : ∀ i, i ≠ 1 → s2.x i = s1.x i := fun i hi => by rw [e2]; exact putx_ne hi
  have x21 : s2.x 1 = .ptr .buf ((st.pos : Int) + 48) := by rw [e2]; rfl
  have v2 : ∀ i, 2 < i → s2.v i = s1.v i := fun i hi => by
    rw [e2]; simp only [St.putx, St.putv]; rw [if_neg (by omega), if_neg (by omega), if_neg (by omega)]
  have v20 : s2.v 0 = b0 ∧ s2.v 1 = b1 ∧ s2.v 2 = b2 := by rw [e2]; exact ⟨rfl, rfl, rfl⟩
  have m2 : s2.out = s1.out ∧ s2.stk = s1.stk ∧ s2.buf = s1.buf := by rw [e2]; exact ⟨rfl, rfl, rfl⟩
  -- the candidates
  obtain ⟨s3, e3⟩ : ∃ s3, s3 = effs chunk48a s2 := ⟨_, rfl⟩
  have f3 := effs_frame chunk48a s2 rfl
  obtain ⟨a12, a13, a14, a15, x3⟩ := chunk48a_x s2
  obtain ⟨a16, a17, a18, a19, a4, a5, a6, a7, a30, a31⟩ := chunk48a_v s2
  rw [← e3] at f3 a12 a13 a14 a15 x3 a16 a17 a18 a19 a4 a5 a6 a7 a30 a31
  have q2 : s2.v 30 = Model.A64Rej.mlkem_q := by rw [v2 30 (by omega), v1]; exact h.q
  have b2' : s2.v 31 = Model.A64Rej.bits := by rw [v2 31 (by omega), v1]; exact h.bits
  rw [v20.1, v20.2.1, v20.2.2] at a16 a17 a18 a19
  rw [v20.1, v20.2.1, v20.2.2, q2, b2'] at a4 a5 a6 a7
  rw [v20.1, v20.2.1, v20.2.2, q2, b2', low32_scalar (uaddlv_lt _)] at a12 a13 a14 a15
  have t5 : s3.x 5 = .ptr .tab 0 := by rw [x3 5 (by omega), x2 5 (by omega), x1 5 (by omega)]; exact h.x5
  -- the table
  obtain ⟨s4, e4⟩ : ∃ s4, s4 = (((s3.putv 24 t0).putv 25 t1).putv 26 t2).putv 27 t3 := ⟨_, rfl⟩
  have x4 : s4.x = s3.x := by rw [e4]; rfl
  have v4 : ∀ i, i < 24 ∨ 27 < i → s4.v i = s3.v i := fun i hi => by
    rw [e4]; simp only [St.putv]; rw [if_neg (by omega), if_neg (by omega), if_neg (by omega), if_neg (by omega)]
  have v4' : s4.v 24 = t0 ∧ s4.v 25 = t1 ∧ s4.v 26 = t2 ∧ s4.v 27 = t3 := by rw [e4]; exact ⟨rfl, rfl, rfl, rfl⟩
  have m4 : s4.out = s3.out ∧ s4.stk = s3.stk ∧ s4.buf = s3.buf := by rw [e4]; exact ⟨rfl, rfl, rfl⟩
  -- the counts
  obtain ⟨s5, e5⟩ : ∃ s5, s5 = effs chunk48b s4 := ⟨_, rfl⟩
  have f5 := effs_frame chunk48b s4 rfl
  obtain ⟨c12, c13, c14, c15, x5⟩ := chunk48b_x s4
  obtain ⟨c16, c17, c18, c19, c30, c31⟩ := chunk48b_v s4
  rw [← e5] at f5 c12 c13 c14 c15 x5 c16 c17 c18 c19 c30 c31
  rw [v4 4 (by omega), a4, low32_scalar (uaddlv_lt _)] at c12
  rw [v4 5 (by omega), a5, low32_scalar (uaddlv_lt _)] at c13
  rw [v4 6 (by omega), a6, low32_scalar (uaddlv_lt _)] at c14
  rw [v4 7 (by omega), a7, low32_scalar (uaddlv_lt _)] at c15
  rw [v4 16 (by omega), a16, v4'.1] at c16
  rw [v4 17 (by omega), a17, v4'.2.1] at c17
  rw [v4 18 (by omega), a18, v4'.2.2.1] at c18
  rw [v4 19 (by omega), a19, v4'.2.2.2] at c19
  have back : ∀ i, i < 12 ∨ 15 < i → i ≠ 1 → i ≠ 2 → s5.x i = s.x i := fun i h1 h2 h3 => by
    rw [x5 i h1, x4, x3 i h1, x2 i h2, x1 i h3]
  have stk5 : s5.stk = st.stk := by rw [f5.2.2.2.1, m4.2.1, f3.2.2.2.1, m2.2.1, f1.2.2.2.1]; exact h.stk
  have out5 : s5.out = r := by rw [f5.2.2.1, m4.1, f3.2.2.1, m2.1, f1.2.2.1]; exact h.out
  have buf5 : s5.buf = buf := by rw [f5.2.2.2.2, m4.2.2, f3.2.2.2.2, m2.2.2, f1.2.2.2.2]; exact h.buf
  have kv5 : ∀ i, 8 ≤ i → i < 16 → s5.v i = gv i := fun i h1 h2 => by
    rw [f5.2.1 i h1 h2, v4 i (by omega), f3.2.1 i h1 h2, v2 i (by omega), v1]; exact h.kv i h1 h2
  have q5 : s5.v 30 = Model.A64Rej.mlkem_q ∧ s5.v 31 = Model.A64Rej.bits := by rw [c30, c31, v4 30 (by omega), v4 31 (by omega), a30, a31]; exact ⟨q2, b2'⟩
  have p5 : s5.x 7 = .ptr .stk (2 * (st.ot : Int)) := by rw [back 7 (by omega) (by omega) (by omega)]; exact h.x7
  have p9 : s5.x 9 = .num st.count := by rw [back 9 (by omega) (by omega) (by omega)]; exact h.x9
  have p2 : s5.x 2 = .num (st.buflen - 48) := by rw [x5 2 (by omega), x4, x3 2 (by omega), x2 2 (by omega), w1]
  have p1 : s5.x 1 = .ptr .buf ((st.pos : Int) + 48) := by rw [x5 1 (by omega), x4, x3 1 (by omega), x21]
  have kx5 : ∀ i, 18 ≤ i → i ≤ 30 → s5.x i = gx i := fun i h1 h2 => (back i (by omega) (by omega) (by omega)).trans (h.kx i h1 h2)
  -- the stores
  change Ret (storeu128 st.stk st.ot (tbl16b (V0 b0 b1 b2) t0) 8) k0 at hk0
  change Ret (storeu128 k0 (st.ot + uaddlv8h (cnt16b (sgn Model.A64Rej.mlkem_q Model.A64Rej.bits (V0 b0 b1 b2)))) (tbl16b (V1 b0 b1 b2) t1) 8) k1 at hk1
  change Ret (storeu128 k1 (st.ot + uaddlv8h (cnt16b (sgn Model.A64Rej.mlkem_q Model.A64Rej.bits (V0 b0 b1 b2))) + uaddlv8h (cnt16b (sgn Model.A64Rej.mlkem_q Model.A64Rej.bits (V1 b0 b1 b2))))
    (tbl16b (V2 b0 b1 b2) t2) 8) k2 at hk2
  change Ret (storeu128 k2 (st.ot + uaddlv8h (cnt16b (sgn Model.A64Rej.mlkem_q Model.A64Rej.bits (V0 b0 b1 b2))) + uaddlv8h (cnt16b (sgn Model.A64Rej.mlkem_q Model.A64Rej.bits (V1 b0 b1 b2))) +
    uaddlv8h (cnt16b (sgn Model.A64Rej.mlkem_q Model.A64Rej.bits (V2 b0 b1 b2)))) (tbl16b (V3 b0 b1 b2) t3) 8) k3 at hk3
  have hst : st' = ⟨k3, st.ot + uaddlv8h (cnt16b (sgn Model.A64Rej.mlkem_q Model.A64Rej.bits (V0 b0 b1 b2))) + uaddlv8h (cnt16b (sgn Model.A64Rej.mlkem_q Model.A64Rej.bits (V1 b0 b1 b2))) +
      uaddlv8h (cnt16b (sgn Model.A64Rej.mlkem_q Model.A64Rej.bits (V2 b0 b1 b2))) + uaddlv8h (cnt16b (sgn Model.A64Rej.mlkem_q Model.A64Rej.bits (V3 b0 b1 b2))),
      st.count + (uaddlv8h (cnt16b (sgn Model.A64Rej.mlkem_q Model.A64Rej.bits (V0 b0 b1 b2))) + uaddlv8h (cnt16b (sgn Model.A64Rej.mlkem_q Model.A64Rej.bits (V1 b0 b1 b2)))) +
        (uaddlv8h (cnt16b (sgn Model.A64Rej.mlkem_q Model.A64Rej.bits (V2 b0 b1 b2))) + uaddlv8h (cnt16b (sgn Model.A64Rej.mlkem_q Model.A64Rej.bits (V3 b0 b1 b2)))), st.pos + 48, st.buflen - 48⟩ := hr.symm
  clear hr
  have l0 := uaddlv_lt (cnt16b (sgn Model.A64Rej.mlkem_q Model.A64Rej.bits (V0 b0 b1 b2)))
  have l1 := uaddlv_lt (cnt16b (sgn Model.A64Rej.mlkem_q Model.A64Rej.bits (V1 b0 b1 b2)))
  have l2 := uaddlv_lt (cnt16b (sgn Model.A64Rej.mlkem_q Model.A64Rej.bits (V2 b0 b1 b2)))
  have l3 := uaddlv_lt (cnt16b (sgn Model.A64Rej.mlkem_q Model.A64Rej.bits (V3 b0 b1 b2)))
  generalize uaddlv8h (cnt16b (sgn Model.A64Rej.mlkem_q Model.A64Rej.bits (V0 b0 b1 b2))) = n0 at *
  generalize uaddlv8h (cnt16b (sgn Model.A64Rej.mlkem_q Model.A64Rej.bits (V1 b0 b1 b2))) = n1 at *
  generalize uaddlv8h (cnt16b (sgn Model.A64Rej.mlkem_q Model.A64Rej.bits (V2 b0 b1 b2))) = n2 at *
  generalize uaddlv8h (cnt16b (sgn Model.A64Rej.mlkem_q Model.A64Rej.bits (V3 b0 b1 b2))) = n3 at *
  subst hst
  simp only at hc
  obtain ⟨s6, e6⟩ : ∃ s6 : St, s6 = { s5 with stk := k0 } := ⟨_, rfl⟩
  have g6 : Ret (step (.str 16 7 0) s5) s6 := by rw [e6]; exact ret_str p5 (by rw [stk5, c16]; exact hk0)
  have x6 : s6.x = s5.x := by rw [e6]
  have v6 : s6.v = s5.v := by rw [e6]
  have y7 := ptr_step (s := s6) (b := 12) (by rw [x6]; exact p5) (by rw [x6]; exact c12) l0
  obtain ⟨s7, e7⟩ : ∃ s7, s7 = effs [.add_uxtw1 7 7 12] s6 := ⟨_, rfl⟩
  rw [← e7] at y7
  have v7 : s7.v = s5.v := by rw [e7, ← v6]; rfl
  have k7 : s7.stk = k0 := by rw [e7, show (effs [.add_uxtw1 7 7 12] s6).stk = s6.stk from rfl, e6]
  obtain ⟨s8, e8⟩ : ∃ s8 : St, s8 = { s7 with stk := k1 } := ⟨_, rfl⟩
  have g8 : Ret (step (.str 17 7 0) s7) s8 := by rw [e8]; exact ret_str y7.1 (by rw [k7, v7, c17]; exact hk1)
  have x8 : s8.x = s7.x := by rw [e8]
  have y9 := ptr_step (s := s8) (b := 13) (by rw [x8]; exact y7.1) (by rw [x8, y7.2 13 (by omega), x6]; exact c13) l1
  obtain ⟨s9, e9⟩ : ∃ s9, s9 = effs [.add_uxtw1 7 7 13] s8 := ⟨_, rfl⟩
  rw [← e9] at y9
  have v9 : s9.v = s5.v := by rw [e9, ← v7, show (effs [.add_uxtw1 7 7 13] s8).v = s8.v from rfl, e8]
  have k9 : s9.stk = k1 := by rw [e9, show (effs [.add_uxtw1 7 7 13] s8).stk = s8.stk from rfl, e8]
  obtain ⟨s10, e10⟩ : ∃ s10 : St, s10 = { s9 with stk := k2 } := ⟨_, rfl⟩
  have g10 : Ret (step (.str 18 7 0) s9) s10 := by rw [e10]; exact ret_str y9.1 (by rw [k9, v9, c18]; exact hk2)
  have x10 : s10.x = s9.x := by rw [e10]
  have y11 := ptr_step (s := s10) (b := 14) (by rw [x10]; exact y9.1) (by rw [x10, y9.2 14 (by omega), x8, y7.2 14 (by omega), x6]; exact c14) l2
  obtain ⟨s11, e11⟩ : ∃ s11, s11 = effs [.add_uxtw1 7 7 14] s10 := ⟨_, rfl⟩
  rw [← e11] at y11
  have v11 : s11.v = s5.v := by rw [e11, ← v9, show (effs [.add_uxtw1 7 7 14] s10).v = s10.v from rfl, e10]
  have k11 : s11.stk = k2 := by rw [e11, show (effs [.add_uxtw1 7 7 14] s10).stk = s10.stk from rfl, e10]
  obtain ⟨s12, e12⟩ : ∃ s12 : St, s12 = { s11 with stk := k3 } := ⟨_, rfl⟩
  have g12 : Ret (step (.str 19 7 0) s11) s12 := by rw [e12]; exact ret_str y11.1 (by rw [k11, v11, c19]; exact hk3)
  have x12 : s12.x = s11.x := by rw [e12]
  have z12 : ∀ i, i ≠ 7 → s12.x i = s5.x i := fun i hi => by rw [x12, y11.2 i hi, x10, y9.2 i hi, x8, y7.2 i hi, x6]
  obtain ⟨s13, e13⟩ : ∃ s13, s13 = effs chunk48c s12 := ⟨_, rfl⟩
  have f13 := effs_frame chunk48c s12 rfl
  obtain ⟨d7, d9, dfl, dx, dv⟩ := chunk48c_spec (s := s12) (by rw [x12]; exact y11.1) (by rw [z12 12 (by omega)]; exact c12) (by rw [z12 13 (by omega)]; exact c13) (by rw [z12 14 (by omega)]; exact c14)
    (by rw [z12 15 (by omega)]; exact c15) (by rw [z12 9 (by omega)]; exact p9) (by rw [z12 2 (by omega)]; exact p2) (by omega) hc
  rw [← e13] at f13 d7 d9 dfl dx dv
  have fin : ∀ i, i ≠ 7 → i ≠ 9 → i ≠ 12 → i ≠ 14 → s13.x i = s5.x i := fun i a b c d => (dx i a b c d).trans (z12 i a)
  have mem12 : s12.out = r ∧ s12.buf = buf := by
    rw [e12, e11, e10, e9, e8, e7, e6]
    exact ⟨out5, buf5⟩
  refine ⟨s13, ?_, ?_, dfl⟩
  · refine ret_regs [.sub_wi 2 2 48] _ _ _ rfl ?_
    rw [← e1]
    refine ret_step g2 (ret_regs chunk48a _ _ _ rfl ?_)
    rw [← e3]
    refine ret_step (ret_ldr_x t5 a12 (uaddlv_lt _) ht0) (ret_step (ret_ldr_x (s := s3.putv 24 t0) t5 a13 (uaddlv_lt _) ht1)
      (ret_step (ret_ldr_x (s := (s3.putv 24 t0).putv 25 t1) t5 a14 (uaddlv_lt _) ht2) (ret_step (ret_ldr_x (s := ((s3.putv 24 t0).putv 25 t1).putv 26 t2) t5 a15 (uaddlv_lt _) ht3) ?_)))
    rw [← e4]
    refine ret_regs chunk48b _ _ _ rfl ?_
    rw [← e5]
    refine ret_step g6 (ret_regs [.add_uxtw1 7 7 12] _ _ _ rfl ?_)
    rw [← e7]
    refine ret_step g8 (ret_regs [.add_uxtw1 7 7 13] _ _ _ rfl ?_)
    rw [← e9]
    refine ret_step g10 (ret_regs [.add_uxtw1 7 7 14] _ _ _ rfl ?_)
    rw [← e11]
    refine ret_step g12 (ret_regs chunk48c _ _ _ rfl ?_)
    rw [← e13]
    exact Ret.pure _
  · have b' : ∀ i, i < 12 ∨ 15 < i → i ≠ 1 → i ≠ 2 → i ≠ 7 → i ≠ 9 → s13.x i = s.x i := fun i a b c d e => (fin i d e (by omega) (by omega)).trans (back i a b c)
    have v13 : s13.v = s5.v := by rw [dv, e12]; exact v11
    exact {
      x0 := by rw [b' 0 (by omega) (by omega) (by omega) (by omega) (by omega)]; exact h.x0
      x1 := by rw [fin 1 (by omega) (by omega) (by omega) (by omega), p1]; rfl
      w2 := by rw [fin 2 (by omega) (by omega) (by omega) (by omega), p2, w_num (by omega)]
      x3 := by rw [b' 3 (by omega) (by omega) (by omega) (by omega) (by omega)]; exact h.x3
      x5 := by rw [b' 5 (by omega) (by omega) (by omega) (by omega) (by omega)]; exact h.x5
      x7 := d7
      x8 := by rw [b' 8 (by omega) (by omega) (by omega) (by omega) (by omega)]; exact h.x8
      x9 := d9
      sp := by rw [b' 31 (by omega) (by omega) (by omega) (by omega) (by omega)]; exact h.sp
      q := by rw [v13]; exact q5.1
      bits := by rw [v13]; exact q5.2
      out := by rw [f13.2.2.1]; exact mem12.1
      stk := by rw [f13.2.2.2.1, e12]
      buf := by rw [f13.2.2.2.2]; exact mem12.2
      kx := fun i a b => by rw [fin i (by omega) (by omega) (by omega) (by omega)]; exact kx5 i a b
      kv := fun i a b => by rw [v13]; exact kv5 i a b
      i16 := storeu_i16 8 hk3 (storeu_i16 8 hk2 (storeu_i16 8 hk1 (storeu_i16 8 hk0 h.i16))) }

theorem body24_sim {s : St} {st st' : Model.A64Rej.St} (h : Rel gx gv r ro buf s st) (h24 : 24 ≤ st.buflen) (hl : st.buflen < 4294967296) (hr : Ret (round24 buf st) st') (hc : st'.count < 4294967296) :
    ∃ s', Ret (exec body24.ins s) s' ∧ Rel gx gv r ro buf s' st' := by
  rw [body24_eq]
  simp only [round24, ret_bind] at hr
  obtain ⟨⟨b0, b1, b2⟩, hld, hr⟩ := hr
  simp only [ret_bind] at hr
  obtain ⟨t0, ht0, t1, ht1, k0, hk0, k1, hk1, hr⟩ := hr
  rw [ret_pure] at hr
  -- the input
  obtain ⟨s1, e1⟩ : ∃ s1, s1 = effs [.sub_wi 2 2 24] s := ⟨_, rfl⟩
  have f1 := effs_frame [.sub_wi 2 2 24] s rfl
  rw [← e1] at f1
  have w1 : s1.x 2 = .num (st.buflen - 24) := by
    rw [e1]
    show Reg.ofw ((s.x 2).w.map (sub32 · 24)) = _
    rw [h.w2]
    simp only [Option.map_some, Reg.ofw, sub32_of h24 hl, u32]
    congr 1; omega
  have x1 : ∀ i, i ≠ 2 → s1.x i = s.x i := fun i hi => by rw [e1]; exact putx_ne hi
  have v1 : s1.v = s.v := by rw [e1]; rfl
  obtain ⟨s2, e2⟩ : ∃ s2, s2 = ((((s1.putv 0 b0).putv 1 b1).putv 2 b2).putx 1 (.ptr .buf ((st.pos : Int) + 24))) := ⟨_, rfl⟩
  have g2 : Ret (step (.ld3 0 1 2 1 8 24) s1) s2 := by
    rw [e2]; exact ret_ld3 (by rw [x1 1 (by omega)]; exact h.x1) (by rw [f1.2.2.2.2, h.buf]; exact hld)
  have x2 : ∀ i, i ≠ 1 → s2.x i = s1.x i := fun i hi => by rw [e2]; exact putx_ne hi
  have x21 : s2.x 1 = .ptr .buf ((st.pos : Int) + 24) := by rw [e2]; rfl
  have v2 : ∀ i, 2 < i → s2.v i = s1.v i := fun i hi => by
    rw [e2]; simp only [St.putx, St.putv]; rw [if_neg (by omega), if_neg (by omega), if_neg (by omega)]
  have v20 : s2.v 0 = b0 ∧ s2.v 1 = b1 ∧ s2.v 2 = b2 := by rw [e2]; exact ⟨rfl, rfl, rfl⟩
  have m2 : s2.out = s1.out ∧ s2.stk = s1.stk ∧ s2.buf = s1.buf := by rw [e2]; exact ⟨rfl, rfl, rfl⟩
  -- the candidates
  obtain ⟨s3, e3⟩ : ∃ s3, s3 = effs chunk24a s2 := ⟨_, rfl⟩
  have f3 := effs_frame chunk24a s2 rfl
  obtain ⟨a12, a13, x3⟩ := chunk24a_x s2
  obtain ⟨a16, a17, a4, a5, a30, a31⟩ := chunk24a_v s2
  rw [← e3] at f3 a12 a13 x3 a16 a17 a4 a5 a30 a31
  have q2 : s2.v 30 = Model.A64Rej.mlkem_q := by rw [v2 30 (by omega), v1]; exact h.q
  have b2' : s2.v 31 = Model.A64Rej.bits := by rw [v2 31 (by omega), v1]; exact h.bits
  rw [v20.1, v20.2.1, v20.2.2] at a16 a17
  rw [v20.1, v20.2.1, v20.2.2, q2, b2'] at a4 a5
  rw [v20.1, v20.2.1, v20.2.2, q2, b2', low32_scalar (uaddlv_lt _)] at a12 a13
  have t5 : s3.x 5 = .ptr .tab 0 := by rw [x3 5 (by omega), x2 5 (by omega), x1 5 (by omega)]; exact h.x5
  -- the table
  obtain ⟨s4, e4⟩ : ∃ s4, s4 = (s3.putv 24 t0).putv 25 t1 := ⟨_, rfl⟩
  have x4 : s4.x = s3.x := by rw [e4]; rfl
  have v4 : ∀ i, i < 24 ∨ 27 < i → s4.v i = s3.v i := fun i hi => by
    rw [e4]; simp only [St.putv]; rw [if_neg (by omega), if_neg (by omega)]
  have v4' : s4.v 24 = t0 ∧ s4.v 25 = t1 := by rw [e4]; exact ⟨rfl, rfl⟩
  have m4 : s4.out = s3.out ∧ s4.stk = s3.stk ∧ s4.buf = s3.buf := by rw [e4]; exact ⟨rfl, rfl, rfl⟩
  -- the counts
  obtain ⟨s5, e5⟩ : ∃ s5, s5 = effs chunk24b s4 := ⟨_, rfl⟩
  have f5 := effs_frame chunk24b s4 rfl
  obtain ⟨c12, c13, x5⟩ := chunk24b_x s4
  obtain ⟨c16, c17, c30, c31⟩ := chunk24b_v s4
  rw [← e5] at f5 c12 c13 x5 c16 c17 c30 c31
  rw [v4 4 (by omega), a4, low32_scalar (uaddlv_lt _)] at c12
  rw [v4 5 (by omega), a5, low32_scalar (uaddlv_lt _)] at c13
  rw [v4 16 (by omega), a16, v4'.1] at c16
  rw [v4 17 (by omega), a17, v4'.2] at c17
  have back : ∀ i, i < 12 ∨ 15 < i → i ≠ 1 → i ≠ 2 → s5.x i = s.x i := fun i h1 h2 h3 => by
    rw [x5 i h1, x4, x3 i h1, x2 i h2, x1 i h3]
  have stk5 : s5.stk = st.stk := by rw [f5.2.2.2.1, m4.2.1, f3.2.2.2.1, m2.2.1, f1.2.2.2.1]; exact h.stk
  have out5 : s5.out = r := by rw [f5.2.2.1, m4.1, f3.2.2.1, m2.1, f1.2.2.1]; exact h.out
  have buf5 : s5.buf = buf := by rw [f5.2.2.2.2, m4.2.2, f3.2.2.2.2, m2.2.2, f1.2.2.2.2]; exact h.buf
  have kv5 : ∀ i, 8 ≤ i → i < 16 → s5.v i = gv i := fun i h1 h2 => by
    rw [f5.2.1 i h1 h2, v4 i (by omega), f3.2.1 i h1 h2, v2 i (by omega), v1]; exact h.kv i h1 h2
  have q5 : s5.v 30 = Model.A64Rej.mlkem_q ∧ s5.v 31 = Model.A64Rej.bits := by rw [c30, c31, v4 30 (by omega), v4 31 (by omega), a30, a31]; exact ⟨q2, b2'⟩
  have p5 : s5.x 7 = .ptr .stk (2 * (st.ot : Int)) := by rw [back 7 (by omega) (by omega) (by omega)]; exact h.x7
  have p9 : s5.x 9 = .num st.count := by rw [back 9 (by omega) (by omega) (by omega)]; exact h.x9
  have p2 : s5.x 2 = .num (st.buflen - 24) := by rw [x5 2 (by omega), x4, x3 2 (by omega), x2 2 (by omega), w1]
  have p1 : s5.x 1 = .ptr .buf ((st.pos : Int) + 24) := by rw [x5 1 (by omega), x4, x3 1 (by omega), x21]
  have kx5 : ∀ i, 18 ≤ i → i ≤ 30 → s5.x i = gx i := fun i h1 h2 => (back i (by omega) (by omega) (by omega)).trans (h.kx i h1 h2)
  -- the stores
  change Ret (storeu128 st.stk st.ot (tbl16b (V0 b0 b1 b2) t0) 8) k0 at hk0
  change Ret (storeu128 k0 (st.ot + uaddlv8h (cnt16b (sgn Model.A64Rej.mlkem_q Model.A64Rej.bits (V0 b0 b1 b2)))) (tbl16b (V1 b0 b1 b2) t1) 8) k1 at hk1
  have hst : st' = ⟨k1, st.ot + uaddlv8h (cnt16b (sgn Model.A64Rej.mlkem_q Model.A64Rej.bits (V0 b0 b1 b2))) + uaddlv8h (cnt16b (sgn Model.A64Rej.mlkem_q Model.A64Rej.bits (V1 b0 b1 b2))),
      st.count + uaddlv8h (cnt16b (sgn Model.A64Rej.mlkem_q Model.A64Rej.bits (V0 b0 b1 b2))) + uaddlv8h (cnt16b (sgn Model.A64Rej.mlkem_q Model.A64Rej.bits (V1 b0 b1 b2))), st.pos + 24, st.buflen - 24⟩ := hr.symm
  clear hr
  have l0 := uaddlv_lt (cnt16b (sgn Model.A64Rej.mlkem_q Model.A64Rej.bits (V0 b0 b1 b2)))
  have l1 := uaddlv_lt (cnt16b (sgn Model.A64Rej.mlkem_q Model.A64Rej.bits (V1 b0 b1 b2)))
  generalize uaddlv8h (cnt16b (sgn Model.A64Rej.mlkem_q Model.A64Rej.bits (V0 b0 b1 b2))) = n0 at *
  generalize uaddlv8h (cnt16b (sgn Model.A64Rej.mlkem_q Model.A64Rej.bits (V1 b0 b1 b2))) = n1 at *
  subst hst
  simp only at hc
  obtain ⟨s6, e6⟩ : ∃ s6 : St, s6 = { s5 with stk := k0 } := ⟨_, rfl⟩
  have g6 : Ret (step (.str 16 7 0) s5) s6 := by rw [e6]; exact ret_str p5 (by rw [stk5, c16]; exact hk0)
  have x6 : s6.x = s5.x := by rw [e6]
  have v6 : s6.v = s5.v := by rw [e6]
  have y7 := ptr_step (s := s6) (b := 12) (by rw [x6]; exact p5) (by rw [x6]; exact c12) l0
  obtain ⟨s7, e7⟩ : ∃ s7, s7 = effs [.add_uxtw1 7 7 12] s6 := ⟨_, rfl⟩
  rw [← e7] at y7
  have v7 : s7.v = s5.v := by rw [e7, ← v6]; rfl
  have k7 : s7.stk = k0 := by rw [e7, show (effs [.add_uxtw1 7 7 12] s6).stk = s6.stk from rfl, e6]
  obtain ⟨s8, e8⟩ : ∃ s8 : St, s8 = { s7 with stk := k1 } := ⟨_, rfl⟩
  have g8 : Ret (step (.str 17 7 0) s7) s8 := by rw [e8]; exact ret_str y7.1 (by rw [k7, v7, c17]; exact hk1)
  have x8 : s8.x = s7.x := by rw [e8]
  have v8 : s8.v = s5.v := by rw [e8]; exact v7
  have z8 : ∀ i, i ≠ 7 → s8.x i = s5.x i := fun i hi => by rw [x8, y7.2 i hi, x6]
  obtain ⟨s9, e9⟩ : ∃ s9, s9 = effs chunk24c s8 := ⟨_, rfl⟩
  have f9 := effs_frame chunk24c s8 rfl
  obtain ⟨d7, d9, dx, dv⟩ := chunk24c_spec (s := s8) (by rw [x8]; exact y7.1) (by rw [z8 12 (by omega)]; exact c12) (by rw [z8 13 (by omega)]; exact c13) (by rw [z8 9 (by omega)]; exact p9) hc
  rw [← e9] at f9 d7 d9 dx dv
  have fin : ∀ i, i ≠ 7 → i ≠ 9 → s9.x i = s5.x i := fun i a b => (dx i a b).trans (z8 i a)
  have mem8 : s8.out = r ∧ s8.buf = buf := by
    rw [e8, e7, e6]
    exact ⟨out5, buf5⟩
  refine ⟨s9, ?_, ?_⟩
  · refine ret_regs [.sub_wi 2 2 24] _ _ _ rfl ?_
    rw [← e1]
    refine ret_step g2 (ret_regs chunk24a _ _ _ rfl ?_)
    rw [← e3]
    refine ret_step (ret_ldr_x t5 a12 (uaddlv_lt _) ht0) (ret_step (ret_ldr_x (s := s3.putv 24 t0) t5 a13 (uaddlv_lt _) ht1) ?_)
    rw [← e4]
    refine ret_regs chunk24b _ _ _ rfl ?_
    rw [← e5]
    refine ret_step g6 (ret_regs [.add_uxtw1 7 7 12] _ _ _ rfl ?_)
    rw [← e7]
    refine ret_step g8 (ret_regs chunk24c _ _ _ rfl ?_)
    rw [← e9]
    exact Ret.pure _
  · have b' : ∀ i, i < 12 ∨ 15 < i → i ≠ 1 → i ≠ 2 → i ≠ 7 → i ≠ 9 → s9.x i = s.x i := fun i a b c d e => (fin i d e).trans (back i a b c)
    have v9 : s9.v = s5.v := by rw [dv]; exact v8
    exact {
      x0 := by rw [b' 0 (by omega) (by omega) (by omega) (by omega) (by omega)]; exact h.x0
      x1 := by rw [fin 1 (by omega) (by omega), p1]; rfl
      w2 := by rw [fin 2 (by omega) (by omega), p2, w_num (by omega)]
      x3 := by rw [b' 3 (by omega) (by omega) (by omega) (by omega) (by omega)]; exact h.x3
      x5 := by rw [b' 5 (by omega) (by omega) (by omega) (by omega) (by omega)]; exact h.x5
      x7 := d7
      x8 := by rw [b' 8 (by omega) (by omega) (by omega) (by omega) (by omega)]; exact h.x8
      x9 := d9
      sp := by rw [b' 31 (by omega) (by omega) (by omega) (by omega) (by omega)]; exact h.sp
      q := by rw [v9]; exact q5.1
      bits := by rw [v9]; exact q5.2
      out := by rw [f9.2.2.1]; exact mem8.1
      stk := by rw [f9.2.2.2.1, e8]
      buf := by rw [f9.2.2.2.2]; exact mem8.2
      kx := fun i a b => by rw [fin i (by omega) (by omega)]; exact kx5 i a b
      kv := fun i a b => by rw [v9]; exact kv5 i a b
      i16 := storeu_i16 8 hk1 (storeu_i16 8 hk0 h.i16) }

end

end Verif.A64RejAsm

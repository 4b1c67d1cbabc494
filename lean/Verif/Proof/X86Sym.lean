import Verif.Model.X86Asm
import Verif.Proof.Ntt
import Verif.Proof.Eval
/-! # Symbolic execution of the AVX2 assembly, inside the kernel

Registers and memory are described by expressions over variables.  A variable carries a tag (which stands for a value modulo q) and a bound on its absolute value.
`arun` executes a program on such descriptions; whenever the expression computed for an element is a sum, a difference, a Montgomery product, a butterfly or a Barrett reduction of
variables, and the given table of tags knows its value, the expression is replaced by a fresh variable.  `arun_sound` says that the machine, started in a state that fits the description,
runs without error and ends in a state that fits the final description. -/
namespace Verif.X86
open Verif Model Model.X86 Spec

/-- Expressions for one 16-bit element.  `v i t b`: variable `i` with tag `t` and bound `b`. -/
inductive E where
  | v (i t b : Nat)
  | c (x : Int)
  | add (x y : E)
  | sub (x y : E)
  | mullo (x y : E)
  | mulhi (x y : E)
  | band (x y : E)
  | bor (x y : E)
  | sra (n : Nat) (x : E)
  | sll (n : Nat) (x : E)
  | srl (n : Nat) (x : E)
deriving DecidableEq

/-- The value of an expression, given those of the variables. -/
def E.eval (e : Nat → Int) : E → Int
  | .v i _ _ => e i
  | .c x => x
  | .add x y => s16 (x.eval e + y.eval e)
  | .sub x y => s16 (x.eval e - y.eval e)
  | .mullo x y => s16 (x.eval e * y.eval e)
  | .mulhi x y => x.eval e * y.eval e / 65536
  | .band x y => s16 ((u16 (x.eval e) &&& u16 (y.eval e) : Nat) : Int)
  | .bor x y => s16 ((u16 (x.eval e) ||| u16 (y.eval e) : Nat) : Int)
  | .sra n x => x.eval e / 2 ^ n
  | .sll n x => s16 ((u16 (x.eval e) * 2 ^ n : Nat) : Int)
  | .srl n x => s16 ((u16 (x.eval e) / 2 ^ n : Nat) : Int)

/-- What is known about tags: the tag of a sum, of a difference, of a Montgomery product with a constant, and of a reduced value. -/
structure TagOps where
  add : Nat → Nat → Option Nat
  sub : Nat → Nat → Option Nat
  mul : Nat → Int → Option Nat
  red : Nat → Option Nat

/-- The tags are consistent with an assignment of values. -/
structure TagOps.Sound (T : TagOps) (Val : Nat → Zq) : Prop where
  add : ∀ t t' u, T.add t t' = some u → Val u = Val t + Val t'
  sub : ∀ t t' u, T.sub t t' = some u → Val u = Val t - Val t'
  mul : ∀ t z u, T.mul t z = some u → Val u = Val t * ((z : Zq) * 169)
  red : ∀ t u, T.red t = some u → Val u = Val t

/-- Replace an expression by a fresh variable, if its tag is known and its bound is small enough. -/
def fresh (n : Nat) (o : Option Nat) (b : Nat) (x : E) : E × Nat :=
  match o with
  | some t => if Nat.ble b 32767 then (.v n t b, n + 1) else (x, n)
  | none => (x, n)

/-- The constants of a Montgomery multiplication. -/
def isMont (z zl q : Int) : Bool := decide (q = 3329) && decide (zl = s16 (z * -3327)) && decide (-1665 < z) && decide (z < 1665)

/-- Recognise an expression. -/
def norm (T : TagOps) (n : Nat) (x : E) : E × Nat :=
  match x with
  | .add (.v _ t b) (.v _ t' b') => fresh n (T.add t t') (b + b') x
  | .sub (.v _ t b) (.v _ t' b') => fresh n (T.sub t t') (b + b') x
  | .sub (.mulhi (.v i t _) (.c z)) (.mulhi (.mullo (.v i' _ _) (.c zl)) (.c q)) =>
    if Nat.beq i i' && isMont z zl q then fresh n (T.mul t z) 2496 x else (x, n)
  | .sub (.add (.v _ t b) (.mulhi (.v i u _) (.c z))) (.mulhi (.mullo (.v i' _ _) (.c zl)) (.c q)) =>
    if Nat.beq i i' && isMont z zl q then fresh n ((T.mul u z).bind (T.add t)) (b + 2496) x else (x, n)
  | .add (.sub (.v _ t b) (.mulhi (.v i u _) (.c z))) (.mulhi (.mullo (.v i' _ _) (.c zl)) (.c q)) =>
    if Nat.beq i i' && isMont z zl q then fresh n ((T.mul u z).bind (T.sub t)) (b + 2496) x else (x, n)
  | .sub (.v i t _) (.mullo (.sra k (.mulhi (.v i' _ _) (.c V))) (.c q)) =>
    if Nat.beq i i' && Nat.beq k 10 && decide (V = 20159) && decide (q = 3329) then fresh n (T.red t) 3329 x else (x, n)
  | _ => (x, n)

/-! ## Evaluation order in the kernel -/

open Verif.Eval (force force_eq)

/-- Evaluate an integer first. -/
def fInt {β : Type} (x : Int) (k : Int → β) : β :=
  match x with
  | .ofNat n => force n fun n => k (.ofNat n)
  | .negSucc n => force n fun n => k (.negSucc n)
/-- Evaluate an expression first. -/
noncomputable def fE {β : Type} (x : E) (k : E → β) : β :=
  E.rec (motive := fun _ => (E → β) → β)
    (fun i t b k => force i fun i => force t fun t => force b fun b => k (.v i t b))
    (fun x k => fInt x fun x => k (.c x))
    (fun _ _ f g k => f fun x => g fun y => k (.add x y))
    (fun _ _ f g k => f fun x => g fun y => k (.sub x y))
    (fun _ _ f g k => f fun x => g fun y => k (.mullo x y))
    (fun _ _ f g k => f fun x => g fun y => k (.mulhi x y))
    (fun _ _ f g k => f fun x => g fun y => k (.band x y))
    (fun _ _ f g k => f fun x => g fun y => k (.bor x y))
    (fun n _ f k => f fun x => k (.sra n x))
    (fun n _ f k => f fun x => k (.sll n x))
    (fun n _ f k => f fun x => k (.srl n x)) x k

theorem fInt_eq {β : Type} (x : Int) (k : Int → β) : fInt x k = k x := by cases x <;> simp [fInt]
theorem fE_eq {β : Type} (x : E) (k : E → β) : fE x k = k x := by
  unfold fE
  induction x generalizing k <;> simp_all [fInt_eq]

/-! ## Execution on descriptions -/

/-- A described register or 32 bytes of memory. -/
abbrev Vec := List E
/-- Entry `n` of a list of optional entries. -/
def nth {α : Type} : List (Option α) → Nat → Option α
  | [], _ => none
  | a :: _, 0 => a
  | _ :: l, n + 1 => nth l n
/-- Entry `n` of a list of lists. -/
def mth {α : Type} : List (List α) → Nat → List α
  | [], _ => []
  | a :: _, 0 => a
  | _ :: l, n + 1 => mth l n
/-- The number of a pointer. -/
def idx : Ptr → Nat
  | .rdi => 0 | .rsi => 1 | .rdx => 2 | .rcx => 3 | .rsp => 4
/-- Element `k`. -/
def gt : Vec → Nat → E
  | [], _ => .c 0
  | a :: _, 0 => a
  | _ :: l, n + 1 => gt l n
/-- The positions. -/
def ks : List Nat := [0, 1, 2, 3, 4, 5, 6, 7, 8, 9, 10, 11, 12, 13, 14, 15]
/-- The sixteen elements given by a function. -/
def tab (f : Nat → E) : Vec := ks.map f
/-- The constants of a fully known register. -/
def consts : Vec → Option (List Int)
  | [] => some []
  | .c x :: l => match consts l with
    | some m => some (x :: m)
    | none => none
  | _ :: _ => none
/-- Constant `k`. -/
def cgt : List Int → Nat → Int
  | [], _ => 0
  | a :: _, 0 => a
  | _ :: l, n + 1 => cgt l n

/-- A destination: a register, or 32 bytes of an object. -/
inductive Dst where
  | r (d : Nat)
  | w (p : Ptr) (j : Nat)
  | b (p : Ptr) (j : Nat)

/-- The mask of `vpshufb` moves whole 16-bit elements. -/
def maskOk (m : List Int) : Bool := ks.all fun k =>
  Nat.ble (byte (cgt m) (2 * k)) 15 && Nat.beq (byte (cgt m) (2 * k) % 2) 0 && Nat.beq (byte (cgt m) (2 * k + 1)) (byte (cgt m) (2 * k) + 1)

/-- The destination and the elements an instruction writes. -/
def raw (i : Ins) (R : List (Option Vec)) (W B : List (List (Option Vec))) : Option (Dst × Vec) :=
  match i with
  | .vmovdqa_ld p off d => if Nat.beq (off % 16) 0 then (nth (mth W (idx p)) (off / 16)).map fun x => (.r d, x) else none
  | .vmovdqa_st r p off => if Nat.beq (off % 16) 0 then (nth R r).map fun x => (.w p (off / 16), x) else none
  | .vmovdqu_ld p off d => if Nat.beq (off % 32) 0 then (nth (mth B (idx p)) (off / 32)).map fun x => (.r d, x) else none
  | .vmovdqu_st r p off => if Nat.beq (off % 32) 0 then (nth R r).map fun x => (.b p (off / 32), x) else none
  | .vpbroadcastq p off d => if Nat.ble (off % 16) 12 then (nth (mth W (idx p)) (off / 16)).map fun x => (.r d, tab fun k => gt x (off % 16 + k % 4)) else none
  | .vpermq imm p off d =>
    if Nat.beq (off % 16) 0 then (nth (mth W (idx p)) (off / 16)).map fun x => (.r d, tab fun k => gt x (4 * (imm / 4 ^ (k / 4) % 4) + k % 4)) else none
  | .vpermd p off ix d =>
    if Nat.beq (off % 16) 0 then
      (nth (mth W (idx p)) (off / 16)).bind fun x => ((nth R ix).bind consts).map fun m => (.r d, tab fun k => gt x (2 * (dword (cgt m) (k / 2) % 8) + k % 2))
    else none
  | .vpsubw_m p off b d =>
    if Nat.beq (off % 16) 0 then (nth (mth W (idx p)) (off / 16)).bind fun x => (nth R b).map fun y => (.r d, tab fun k => .sub (gt y k) (gt x k)) else none
  | .vpaddw a b d => (nth R a).bind fun x => (nth R b).map fun y => (.r d, tab fun k => .add (gt y k) (gt x k))
  | .vpsubw a b d => (nth R a).bind fun x => (nth R b).map fun y => (.r d, tab fun k => .sub (gt y k) (gt x k))
  | .vpmullw a b d => (nth R a).bind fun x => (nth R b).map fun y => (.r d, tab fun k => .mullo (gt y k) (gt x k))
  | .vpmulhw a b d => (nth R a).bind fun x => (nth R b).map fun y => (.r d, tab fun k => .mulhi (gt y k) (gt x k))
  | .vpand a b d => (nth R a).bind fun x => (nth R b).map fun y => (.r d, tab fun k => .band (gt y k) (gt x k))
  | .vpor a b d => (nth R a).bind fun x => (nth R b).map fun y => (.r d, tab fun k => .bor (gt y k) (gt x k))
  | .vpsraw imm a d => (nth R a).map fun x => (.r d, tab fun k => .sra imm (gt x k))
  | .vpsllw imm a d => (nth R a).map fun x => (.r d, tab fun k => .sll imm (gt x k))
  | .vpsrlw imm a d => (nth R a).map fun x => (.r d, tab fun k => .srl imm (gt x k))
  | .vpsrlq imm a d => if Nat.beq imm 32 then (nth R a).map fun x => (.r d, tab fun k => if Nat.ble (k % 4) 1 then gt x (k + 2) else .c 0) else none
  | .vpslld imm a d => if Nat.beq imm 16 then (nth R a).map fun x => (.r d, tab fun k => if Nat.beq (k % 2) 0 then .c 0 else gt x (k - 1)) else none
  | .vpsrld imm a d => if Nat.beq imm 16 then (nth R a).map fun x => (.r d, tab fun k => if Nat.beq (k % 2) 0 then gt x (k + 1) else .c 0) else none
  | .vperm2i128 imm a b d => (nth R a).bind fun x => (nth R b).map fun y => (.r d, tab fun k =>
      if Nat.ble 8 (imm / 16 ^ (k / 8) % 16) then .c 0
      else if Nat.ble (imm / 16 ^ (k / 8) % 16 % 4) 1 then gt y (8 * (imm / 16 ^ (k / 8) % 16 % 2) + k % 8) else gt x (8 * (imm / 16 ^ (k / 8) % 16 % 2) + k % 8))
  | .vpblendd imm a b d => (nth R a).bind fun x => (nth R b).map fun y => (.r d, tab fun k => if imm.testBit (k / 2) then gt x k else gt y k)
  | .vpblendw imm a b d => (nth R a).bind fun x => (nth R b).map fun y => (.r d, tab fun k => if imm.testBit (k % 8) then gt x k else gt y k)
  | .vpunpcklqdq a b d => (nth R a).bind fun x => (nth R b).map fun y => (.r d, tab fun k => if Nat.ble (k % 8) 3 then gt y k else gt x (k - 4))
  | .vpunpckhqdq a b d => (nth R a).bind fun x => (nth R b).map fun y => (.r d, tab fun k => if Nat.ble (k % 8) 3 then gt y (k + 4) else gt x k)
  | .vpshufb a b d => ((nth R a).bind consts).bind fun m => (nth R b).bind fun y =>
      if maskOk m then some (.r d, tab fun k => gt y (8 * (k / 8) + byte (cgt m) (2 * k) / 2)) else none
  | .vmovsldup a d => (nth R a).map fun x => (.r d, tab fun k => gt x (4 * (k / 4) + k % 2))

/-- Recognise the elements of a vector one after another. -/
noncomputable def normF {β : Type} (T : TagOps) (n : Nat) (l : Vec) (k : Vec → Nat → β) : β :=
  match l with
  | [] => k [] n
  | x :: l => fE x fun x => match norm T n x with
    | (y, n) => fE y fun y => force n fun n => normF T n l fun l n => k (y :: l) n

/-- Replace an entry of a list. -/
def setF {α β : Type} (l : List α) (i : Nat) (a : α) (k : List α → Option β) : Option β :=
  match l, i with
  | [], _ => none
  | _ :: l, 0 => k (a :: l)
  | x :: l, i + 1 => setF l i a fun l => k (x :: l)

/-- The result of `arun`. -/
structure Res where
  n : Nat
  R : List (Option Vec)
  W : List (List (Option Vec))
  B : List (List (Option Vec))

/-- Run a program on a description. -/
noncomputable def arun (T : TagOps) : List Ins → Nat → List (Option Vec) → List (List (Option Vec)) → List (List (Option Vec)) → Option Res
  | [], n, R, W, B => some ⟨n, R, W, B⟩
  | i :: l, n, R, W, B =>
    match raw i R W B with
    | none => none
    | some (d, x) => normF T n x fun x n =>
      match d with
      | .r d => setF R d (some x) fun R => arun T l n R W B
      | .w p j => setF (mth W (idx p)) j (some x) fun m => setF W (idx p) m fun W => arun T l n R W B
      | .b p j => setF (mth B (idx p)) j (some x) fun m => setF B (idx p) m fun B => arun T l n R W B

/-! ## Arithmetic -/

theorem s16_bounds (x : Int) : -32768 ≤ s16 x ∧ s16 x ≤ 32767 := by unfold s16; omega
theorem s16_id {x : Int} (h : -32768 ≤ x) (h' : x ≤ 32767) : s16 x = x := by unfold s16; omega
theorem s16_add (x k : Int) : s16 (x + 65536 * k) = s16 x := by unfold s16; omega
theorem s16_exists (x : Int) : ∃ k, s16 x = x + 65536 * k := ⟨-((x + 32768) / 65536), by unfold s16; omega⟩
theorem s16_u16 {x : Int} (h : -32768 ≤ x) (h' : x ≤ 32767) : s16 (u16 x : Int) = x := by unfold s16 u16; omega
theorem u16_lt (x : Int) : u16 x < 65536 := by unfold u16; omega

/-- The two high products of the code make a Montgomery reduction. -/
theorem mont16 (a z : Int) : a * z / 65536 - s16 (a * s16 (z * -3327)) * 3329 / 65536 = montR (a * z) := by
  have h := montR_eq (a * z)
  have e : s16 (a * s16 (z * -3327)) = cmod16 (a * z * 62209) := by
    obtain ⟨k, hk⟩ := s16_exists (z * -3327)
    have : a * s16 (z * -3327) = a * z * 62209 + 65536 * (a * k - a * z) := by rw [hk]; ring
    rw [this, s16_add]; rfl
  rw [e]; omega

/-- Barrett reduction with the rounded-down quotient. -/
theorem barrett16 {a : Int} (h : -32768 ≤ a) (h' : a ≤ 32767) :
    0 ≤ s16 (a - s16 (a * 20159 / 65536 / 2 ^ 10 * 3329)) ∧ s16 (a - s16 (a * 20159 / 65536 / 2 ^ 10 * 3329)) ≤ 3329 ∧
      s16 (a - s16 (a * 20159 / 65536 / 2 ^ 10 * 3329)) = a - 3329 * (a * 20159 / 65536 / 2 ^ 10) := by
  have e : (2 : Int) ^ 10 = 1024 := rfl
  rw [e]
  generalize ht : a * 20159 / 65536 / 1024 = t
  have h1 : 67108864 * t ≤ 20159 * a ∧ 20159 * a < 67108864 * (t + 1) := by omega
  clear ht e
  have h2 : 0 ≤ a - 3329 * t ∧ a - 3329 * t ≤ 3329 := by omega
  have h3 : s16 (a - s16 (t * 3329)) = a - 3329 * t := by
    obtain ⟨k, hk⟩ := s16_exists (t * 3329)
    rw [hk, show a - (t * 3329 + 65536 * k) = a - 3329 * t + 65536 * (-k) by ring, s16_add, s16_id] <;> omega
  rw [h3]; exact ⟨h2.1, h2.2, rfl⟩

theorem mont_bound {a z : Int} (h : -32768 ≤ a) (h' : a ≤ 32767) (hz : -1665 < z) (hz' : z < 1665) : -2496 ≤ montR (a * z) ∧ montR (a * z) ≤ 2496 :=
  mul_z_bound (B := 32768) ⟨by omega, by omega⟩ (by omega) ⟨hz, hz'⟩

/-! ## Soundness -/

/-- The variables of an expression have their bounds and the values of their tags. -/
def Good (Val : Nat → Zq) (e : Nat → Int) (n : Nat) : E → Prop
  | .v i t b => i < n ∧ b ≤ 32768 ∧ -(b : Int) ≤ e i ∧ e i ≤ b ∧ e i ≤ 32767 ∧ ((e i : Int) : Zq) = Val t
  | .c x => -32768 ≤ x ∧ x ≤ 32767
  | .add x y | .sub x y | .mullo x y | .mulhi x y | .band x y | .bor x y => Good Val e n x ∧ Good Val e n y
  | .sra _ x | .sll _ x | .srl _ x => Good Val e n x

/-- An extension of an assignment. -/
def Ext (n n' : Nat) (e e' : Nat → Int) : Prop := n ≤ n' ∧ ∀ i, i < n → e' i = e i

theorem Ext.refl (n : Nat) (e : Nat → Int) : Ext n n e e := ⟨Nat.le_refl _, fun _ _ => rfl⟩
theorem Ext.trans {n n' n'' : Nat} {e e' e'' : Nat → Int} (h : Ext n n' e e') (h' : Ext n' n'' e' e'') : Ext n n'' e e'' :=
  ⟨Nat.le_trans h.1 h'.1, fun i hi => (h'.2 i (Nat.lt_of_lt_of_le hi h.1)).trans (h.2 i hi)⟩

variable {Val : Nat → Zq} {e e' : Nat → Int} {n n' : Nat}

theorem Good.ext {x : E} (h : Good Val e n x) (hx : Ext n n' e e') : Good Val e' n' x ∧ x.eval e' = x.eval e := by
  induction x with
  | v i t b =>
    obtain ⟨h1, h2⟩ := h
    refine ⟨⟨Nat.lt_of_lt_of_le h1 hx.1, ?_⟩, hx.2 i h1⟩
    rw [hx.2 i h1]; exact h2
  | c x => exact ⟨h, rfl⟩
  | add x y ihx ihy | sub x y ihx ihy | mullo x y ihx ihy | mulhi x y ihx ihy | band x y ihx ihy | bor x y ihx ihy =>
    have h1 := ihx h.1; have h2 := ihy h.2
    exact ⟨⟨h1.1, h2.1⟩, by simp only [E.eval, h1.2, h2.2]⟩
  | sra m x ih | sll m x ih | srl m x ih => exact ⟨(ih h).1, by simp only [E.eval, (ih h).2]⟩

theorem Good.range {x : E} (h : Good Val e n x) : -32768 ≤ x.eval e ∧ x.eval e ≤ 32767 := by
  induction x with
  | v i t b => obtain ⟨_, h1, h2, h3, h4, _⟩ := h; show -32768 ≤ e i ∧ e i ≤ 32767; omega
  | c x => exact h
  | add x y _ _ | sub x y _ _ | mullo x y _ _ | band x y _ _ | bor x y _ _ => exact s16_bounds _
  | sll m x _ | srl m x _ => exact s16_bounds _
  | mulhi x y ihx ihy =>
    have h1 := ihx h.1; have h2 := ihy h.2
    show -32768 ≤ x.eval e * y.eval e / 65536 ∧ x.eval e * y.eval e / 65536 ≤ 32767
    have h3 : x.eval e * y.eval e ≤ 32768 * 32768 := by nlinarith
    have h4 : -(32768 * 32768) ≤ x.eval e * y.eval e := by nlinarith
    omega
  | sra m x ih =>
    have h1 := ih h
    show -32768 ≤ x.eval e / 2 ^ m ∧ x.eval e / 2 ^ m ≤ 32767
    have hp : (1 : Int) ≤ 2 ^ m := by exact_mod_cast Nat.one_le_two_pow
    constructor
    · rw [Int.le_ediv_iff_mul_le (by omega)]; nlinarith
    · apply Int.le_of_lt_add_one; rw [Int.ediv_lt_iff_lt_mul (by omega)]; nlinarith

theorem fresh_sound {o : Option Nat} {b : Nat} {x : E} (hx : Good Val e n x)
    (ht : ∀ t, o = some t → -(b : Int) ≤ x.eval e ∧ x.eval e ≤ b ∧ ((x.eval e : Int) : Zq) = Val t) :
    ∃ e', Ext n (fresh n o b x).2 e e' ∧ Good Val e' (fresh n o b x).2 (fresh n o b x).1 ∧ (fresh n o b x).1.eval e' = x.eval e := by
  unfold fresh
  split
  · rename_i t
    split
    · rename_i hb
      have hb' : b ≤ 32767 := Nat.le_of_ble_eq_true hb
      obtain ⟨h1, h2, h3⟩ := ht t rfl
      refine ⟨fun i => if i = n then x.eval e else e i, ⟨Nat.le_succ n, fun i hi => if_neg (by omega)⟩, ?_, if_pos rfl⟩
      refine ⟨Nat.lt_succ_self n, by omega, ?_, ?_, ?_, ?_⟩ <;> simp only [if_pos] <;> first | assumption | omega
    · exact ⟨e, Ext.refl _ _, hx, rfl⟩
  · exact ⟨e, Ext.refl _ _, hx, rfl⟩

theorem isMont_spec {z zl q : Int} (h : isMont z zl q = true) : q = 3329 ∧ zl = s16 (z * -3327) ∧ -1665 < z ∧ z < 1665 := by
  simpa [isMont, and_assoc] using h

theorem norm_sound {T : TagOps} (hT : T.Sound Val) {x : E} (hx : Good Val e n x) :
    ∃ e', Ext n (norm T n x).2 e e' ∧ Good Val e' (norm T n x).2 (norm T n x).1 ∧ (norm T n x).1.eval e' = x.eval e := by
  unfold norm
  have keep : ∃ e', Ext n n e e' ∧ Good Val e' n x ∧ x.eval e' = x.eval e := ⟨e, Ext.refl _ _, hx, rfl⟩
  split
  · -- sum
    rename_i i t b j t' b'
    obtain ⟨⟨_, _, h1, h2, h3, h4⟩, ⟨_, _, k1, k2, k3, k4⟩⟩ := id hx
    by_cases hb : b + b' ≤ 32767
    · refine fresh_sound hx fun u hu => ?_
      have ev : E.eval e (.add (.v i t b) (.v j t' b')) = e i + e j := s16_id (x := e i + e j) (by omega) (by omega)
      rw [ev]
      refine ⟨by push_cast; omega, by push_cast; omega, ?_⟩
      rw [hT.add _ _ _ hu]; push_cast; rw [h4, k4]
    · have : fresh n (T.add t t') (b + b') (.add (.v i t b) (.v j t' b')) = (.add (.v i t b) (.v j t' b'), n) := by
        unfold fresh; split
        · rw [if_neg]; intro h; exact hb (Nat.le_of_ble_eq_true h)
        · rfl
      rw [this]; exact keep
  · -- difference
    rename_i i t b j t' b'
    obtain ⟨⟨_, _, h1, h2, h3, h4⟩, ⟨_, _, k1, k2, k3, k4⟩⟩ := id hx
    by_cases hb : b + b' ≤ 32767
    · refine fresh_sound hx fun u hu => ?_
      have ev : E.eval e (.sub (.v i t b) (.v j t' b')) = e i - e j := s16_id (x := e i - e j) (by omega) (by omega)
      rw [ev]
      refine ⟨by push_cast; omega, by push_cast; omega, ?_⟩
      rw [hT.sub _ _ _ hu]; push_cast; rw [h4, k4]
    · have : fresh n (T.sub t t') (b + b') (.sub (.v i t b) (.v j t' b')) = (.sub (.v i t b) (.v j t' b'), n) := by
        unfold fresh; split
        · rw [if_neg]; intro h; exact hb (Nat.le_of_ble_eq_true h)
        · rfl
      rw [this]; exact keep
  · -- Montgomery product
    rename_i i t b z i' t' b' zl q
    split
    · rename_i hc
      rw [Bool.and_eq_true] at hc
      have hi := Nat.eq_of_beq_eq_true hc.1
      obtain ⟨rfl, rfl, hz, hz'⟩ := isMont_spec hc.2
      subst hi
      obtain ⟨⟨⟨_, h0, h1, h2, h3, h4⟩, _⟩, _⟩ := id hx
      refine fresh_sound hx fun u hu => ?_
      have hm := mont_bound (a := e i) (z := z) (by omega) h3 hz hz'
      have ev : E.eval e (.sub (.mulhi (.v i t b) (.c z)) (.mulhi (.mullo (.v i t' b') (.c (s16 (z * -3327)))) (.c 3329))) = montR (e i * z) := by
        show s16 (e i * z / 65536 - s16 (e i * s16 (z * -3327)) * 3329 / 65536) = _
        rw [mont16, s16_id] <;> omega
      rw [ev]
      refine ⟨by push_cast; omega, by push_cast; omega, ?_⟩
      rw [hT.mul _ _ _ hu, montR_zq]; push_cast; rw [h4]; ring
    · exact keep
  · -- butterfly, sum
    rename_i i0 t0 b0 i t b z i' t' b' zl q
    split
    · rename_i hc
      rw [Bool.and_eq_true] at hc
      have hi := Nat.eq_of_beq_eq_true hc.1
      obtain ⟨rfl, rfl, hz, hz'⟩ := isMont_spec hc.2
      subst hi
      obtain ⟨⟨⟨_, g0, g1, g2, g3, g4⟩, ⟨_, h0, h1, h2, h3, h4⟩, _⟩, _⟩ := id hx
      by_cases hb : b0 + 2496 ≤ 32767
      · refine fresh_sound hx fun u hu => ?_
        have hm := mont_bound (a := e i) (z := z) (by omega) h3 hz hz'
        have ev : E.eval e (.sub (.add (.v i0 t0 b0) (.mulhi (.v i t b) (.c z))) (.mulhi (.mullo (.v i t' b') (.c (s16 (z * -3327)))) (.c 3329))) = e i0 + montR (e i * z) := by
          show s16 (s16 (e i0 + e i * z / 65536) - s16 (e i * s16 (z * -3327)) * 3329 / 65536) = _
          obtain ⟨k, hk⟩ := s16_exists (e i0 + e i * z / 65536)
          have hq := mont16 (e i) z
          rw [hk, show e i0 + e i * z / 65536 + 65536 * k - s16 (e i * s16 (z * -3327)) * 3329 / 65536 = e i0 + montR (e i * z) + 65536 * k by omega, s16_add, s16_id] <;> omega
        rw [ev]
        refine ⟨by push_cast; omega, by push_cast; omega, ?_⟩
        obtain ⟨w, hw, hu'⟩ := Option.bind_eq_some_iff.mp hu
        rw [hT.add _ _ _ hu', hT.mul _ _ _ hw]; push_cast; rw [montR_zq, g4]; push_cast; rw [h4]; ring
      · rename_i hc
        have : fresh n ((T.mul t z).bind (T.add t0)) (b0 + 2496) (.sub (.add (.v i0 t0 b0) (.mulhi (.v i t b) (.c z))) (.mulhi (.mullo (.v i t' b') (.c (s16 (z * -3327)))) (.c 3329)))
          = (.sub (.add (.v i0 t0 b0) (.mulhi (.v i t b) (.c z))) (.mulhi (.mullo (.v i t' b') (.c (s16 (z * -3327)))) (.c 3329)), n) := by
          unfold fresh; split
          · rw [if_neg]; intro h; exact hb (Nat.le_of_ble_eq_true h)
          · rfl
        rw [this]; exact keep
    · exact keep
  · -- butterfly, difference
    rename_i i0 t0 b0 i t b z i' t' b' zl q
    split
    · rename_i hc
      rw [Bool.and_eq_true] at hc
      have hi := Nat.eq_of_beq_eq_true hc.1
      obtain ⟨rfl, rfl, hz, hz'⟩ := isMont_spec hc.2
      subst hi
      obtain ⟨⟨⟨_, g0, g1, g2, g3, g4⟩, ⟨_, h0, h1, h2, h3, h4⟩, _⟩, _⟩ := id hx
      by_cases hb : b0 + 2496 ≤ 32767
      · refine fresh_sound hx fun u hu => ?_
        have hm := mont_bound (a := e i) (z := z) (by omega) h3 hz hz'
        have ev : E.eval e (.add (.sub (.v i0 t0 b0) (.mulhi (.v i t b) (.c z))) (.mulhi (.mullo (.v i t' b') (.c (s16 (z * -3327)))) (.c 3329))) = e i0 - montR (e i * z) := by
          show s16 (s16 (e i0 - e i * z / 65536) + s16 (e i * s16 (z * -3327)) * 3329 / 65536) = _
          obtain ⟨k, hk⟩ := s16_exists (e i0 - e i * z / 65536)
          have hq := mont16 (e i) z
          rw [hk, show e i0 - e i * z / 65536 + 65536 * k + s16 (e i * s16 (z * -3327)) * 3329 / 65536 = e i0 - montR (e i * z) + 65536 * k by omega, s16_add, s16_id] <;> omega
        rw [ev]
        refine ⟨by push_cast; omega, by push_cast; omega, ?_⟩
        obtain ⟨w, hw, hu'⟩ := Option.bind_eq_some_iff.mp hu
        rw [hT.sub _ _ _ hu', hT.mul _ _ _ hw]; push_cast; rw [montR_zq, g4]; push_cast; rw [h4]; ring
      · have : fresh n ((T.mul t z).bind (T.sub t0)) (b0 + 2496) (.add (.sub (.v i0 t0 b0) (.mulhi (.v i t b) (.c z))) (.mulhi (.mullo (.v i t' b') (.c (s16 (z * -3327)))) (.c 3329)))
          = (.add (.sub (.v i0 t0 b0) (.mulhi (.v i t b) (.c z))) (.mulhi (.mullo (.v i t' b') (.c (s16 (z * -3327)))) (.c 3329)), n) := by
          unfold fresh; split
          · rw [if_neg]; intro h; exact hb (Nat.le_of_ble_eq_true h)
          · rfl
        rw [this]; exact keep
    · exact keep
  · -- Barrett reduction
    rename_i i t b k i' t' b' V q
    split
    · rename_i hc
      simp only [Bool.and_eq_true, decide_eq_true_eq] at hc
      obtain ⟨⟨⟨hi, hk⟩, rfl⟩, rfl⟩ := hc
      have hi := Nat.eq_of_beq_eq_true hi
      have hk := Nat.eq_of_beq_eq_true hk
      subst hi; subst hk
      obtain ⟨⟨_, h0, h1, h2, h3, h4⟩, _⟩ := id hx
      refine fresh_sound hx fun u hu => ?_
      obtain ⟨k1, k2, k3⟩ := barrett16 (a := e i) (by omega) h3
      have ev : E.eval e (.sub (.v i t b) (.mullo (.sra 10 (.mulhi (.v i t' b') (.c 20159))) (.c 3329))) = s16 (e i - s16 (e i * 20159 / 65536 / 2 ^ 10 * 3329)) := rfl
      rw [ev]
      refine ⟨?_, ?_, ?_⟩
      · exact le_trans (by norm_num) k1
      · exact k2
      rw [hT.red _ _ hu, k3, ← h4]
      push_cast
      have : (3329 : Zq) = 0 := by exact_mod_cast ZMod.natCast_self 3329
      rw [this]; ring
    · exact keep
  · exact keep

/-- Element `k` of a described vector. -/
def RelV (Val : Nat → Zq) (e : Nat → Int) (n : Nat) (l : Vec) (f : Ymm) : Prop :=
  l.length = 16 ∧ ∀ k, k < 16 → Good Val e n (gt l k) ∧ (gt l k).eval e = f k

/-- A machine state fits a description. -/
structure Rel (Val : Nat → Zq) (e : Nat → Int) (n : Nat) (R : List (Option Vec)) (W B : List (List (Option Vec))) (s : St) : Prop where
  reg : ∀ r l, nth R r = some l → RelV Val e n l (s.ymm r)
  w : ∀ p j l, nth (mth W (idx p)) j = some l → ∃ f, RelV Val e n l f ∧ ∀ k, k < 16 → (s.w p)[16 * j + k]? = some (some (f k))
  wsz : ∀ p, 16 * (mth W (idx p)).length ≤ (s.w p).size
  b : ∀ p j l, nth (mth B (idx p)) j = some l → ∃ f, RelV Val e n l f ∧ ∀ k, k < 16 → ∃ x y,
    (s.b p)[32 * j + 2 * k]? = some (some x) ∧ (s.b p)[32 * j + 2 * k + 1]? = some (some y) ∧ f k = s16 (x.toNat + 256 * y.toNat)
  bsz : ∀ p, 32 * (mth B (idx p)).length ≤ (s.b p).size

theorem RelV.ext {l : Vec} {f : Ymm} (h : RelV Val e n l f) (hx : Ext n n' e e') : RelV Val e' n' l f :=
  ⟨h.1, fun k hk => by
    obtain ⟨h1, h2⟩ := h.2 k hk
    obtain ⟨h3, h4⟩ := h1.ext hx
    exact ⟨h3, h4.trans h2⟩⟩

theorem Rel.ext {R : List (Option Vec)} {W B : List (List (Option Vec))} {s : St} (h : Rel Val e n R W B s) (hx : Ext n n' e e') : Rel Val e' n' R W B s where
  reg r l hl := (h.reg r l hl).ext hx
  w p j l hl := by obtain ⟨f, h1, h2⟩ := h.w p j l hl; exact ⟨f, h1.ext hx, h2⟩
  wsz := h.wsz
  b p j l hl := by obtain ⟨f, h1, h2⟩ := h.b p j l hl; exact ⟨f, h1.ext hx, h2⟩
  bsz := h.bsz

theorem normF_sound {β : Type} {T : TagOps} (hT : T.Sound Val) {l : Vec} {k : Vec → Nat → β} {v : β} (hl : ∀ i, i < l.length → Good Val e n (gt l i)) (h : normF T n l k = v) :
    ∃ l' n' e', k l' n' = v ∧ Ext n n' e e' ∧ l'.length = l.length ∧ ∀ i, i < l.length → Good Val e' n' (gt l' i) ∧ (gt l' i).eval e' = (gt l i).eval e := by
  induction l generalizing n e k with
  | nil => exact ⟨[], n, e, h, Ext.refl _ _, rfl, fun i hi => absurd hi (Nat.not_lt_zero i)⟩
  | cons x l ih =>
    unfold normF at h
    simp only [fE_eq, force_eq] at h
    obtain ⟨e1, hx1, hg1, hv1⟩ := norm_sound hT (hl 0 (Nat.succ_pos _))
    change Good Val e1 (norm T n x).2 (norm T n x).1 at hg1
    change (norm T n x).1.eval e1 = x.eval e at hv1
    obtain ⟨l', n', e', hk, hx2, hlen, hr⟩ := ih (n := (norm T n x).2) (e := e1) (fun i hi => ((hl (i + 1) (Nat.succ_lt_succ hi)).ext hx1).1) h
    refine ⟨(norm T n x).1 :: l', n', e', hk, hx1.trans hx2, by simp [hlen], fun i hi => ?_⟩
    cases i with
    | zero =>
      obtain ⟨h3, h4⟩ := hg1.ext hx2
      exact ⟨h3, h4.trans hv1⟩
    | succ i =>
      obtain ⟨h3, h4⟩ := hr i (Nat.lt_of_succ_lt_succ hi)
      exact ⟨h3, h4.trans ((hl (i + 1) hi).ext hx1).2⟩

theorem normF_call {β : Type} {T : TagOps} {l : Vec} {k : Vec → Nat → β} {v : β} (h : normF T n l k = v) : ∃ l' n', k l' n' = v := by
  induction l generalizing n k with
  | nil => exact ⟨[], n, h⟩
  | cons x l ih =>
    unfold normF at h
    simp only [fE_eq, force_eq] at h
    obtain ⟨l', n', hk⟩ := ih (n := (norm T n x).2) h
    exact ⟨_, _, hk⟩

theorem gt_tab (f : Nat → E) {k : Nat} (hk : k < 16) : gt (tab f) k = f k := by
  rcases k with _ | _ | _ | _ | _ | _ | _ | _ | _ | _ | _ | _ | _ | _ | _ | _ | k <;> first | rfl | omega
theorem length_tab (f : Nat → E) : (tab f).length = 16 := rfl

theorem consts_gt {l : Vec} {m : List Int} (h : consts l = some m) (k : Nat) : gt l k = .c (cgt m k) := by
  induction l generalizing m k with
  | nil => cases Option.some.inj h; rfl
  | cons a l ih =>
    cases a with
    | c x =>
      unfold consts at h
      split at h
      · rename_i m' hm
        cases Option.some.inj h
        cases k with
        | zero => rfl
        | succ k => exact ih hm k
      · cases h
    | _ => cases h

theorem setF_some {α β : Type} {l : List (Option α)} {i : Nat} {a : α} {k : List (Option α) → Option β} {v : β} (h : setF l i (some a) k = some v) :
    i < l.length ∧ ∃ l', k l' = some v ∧ l'.length = l.length ∧ ∀ j, nth l' j = if j = i then some a else nth l j := by
  induction l generalizing i k with
  | nil => simp [setF] at h
  | cons x l ih =>
    cases i with
    | zero =>
      refine ⟨by simp, some a :: l, h, rfl, fun j => ?_⟩
      cases j <;> simp [nth]
    | succ i =>
      obtain ⟨h1, l', h2, h3, h4⟩ := ih (i := i) h
      refine ⟨by simpa using h1, x :: l', h2, by simp [h3], fun j => ?_⟩
      cases j with
      | zero => simp [nth]
      | succ j => simp [nth, h4]

theorem setF_mth {α β : Type} {l : List (List α)} {i : Nat} {a : List α} {k : List (List α) → Option β} {v : β} (h : setF l i a k = some v) :
    ∃ l', k l' = some v ∧ ∀ j, mth l' j = if j = i then a else mth l j := by
  induction l generalizing i k with
  | nil => simp [setF] at h
  | cons x l ih =>
    cases i with
    | zero =>
      refine ⟨a :: l, h, fun j => ?_⟩
      cases j <;> simp [mth]
    | succ i =>
      obtain ⟨l', h2, h4⟩ := ih (i := i) h
      refine ⟨x :: l', h2, fun j => ?_⟩
      cases j with
      | zero => simp [mth]
      | succ j => simp [mth, h4]

theorem idx_inj {p r : Ptr} (h : idx p = idx r) : p = r := by cases p <;> cases r <;> simp_all [idx]

/-! ### Loads and stores -/

variable {F : Prop}

theorem ldw_spec {b : Buf Int} {off m : Nat} {f : Nat → Int} (h : ∀ k, k < m → b[off + k]? = some (some (f k))) :
    PostF F (ldw b off m) (fun v => ∀ k, k < m → v k = f k) := by
  induction m with
  | zero => first | simp only [ldw, wp_pure] | simp only [ldb, wp_pure]
            exact fun k hk => absurd hk (Nat.not_lt_zero k)
  | succ m ih =>
    unfold ldw
    simp only [wp_bind, wp_rd, wp_pure]
    refine PostF.mono (ih fun k hk => h k (by omega)) fun v hv => ⟨_, h m (by omega), fun k hk => ?_⟩
    by_cases e : k = m
    · rw [if_pos e, e]
    · rw [if_neg e]; exact hv k (by omega)

theorem ldb_spec {b : Buf UInt8} {off m : Nat} {f : Nat → Int}
    (h : ∀ k, k < m → ∃ x y, b[off + 2 * k]? = some (some x) ∧ b[off + 2 * k + 1]? = some (some y) ∧ f k = s16 (x.toNat + 256 * y.toNat)) :
    PostF F (ldb b off m) (fun v => ∀ k, k < m → v k = f k) := by
  induction m with
  | zero => first | simp only [ldw, wp_pure] | simp only [ldb, wp_pure]
            exact fun k hk => absurd hk (Nat.not_lt_zero k)
  | succ m ih =>
    unfold ldb
    simp only [wp_bind, wp_rd, wp_pure]
    refine PostF.mono (ih fun k hk => h k (by omega)) fun v hv => ?_
    obtain ⟨x, y, hx, hy, hf⟩ := h m (by omega)
    refine ⟨x, hx, y, hy, fun k hk => ?_⟩
    by_cases e : k = m
    · rw [if_pos e, e, hf]
    · rw [if_neg e]; exact hv k (by omega)

theorem stw_spec {b : Buf Int} {off m : Nat} {f : Ymm} (h : off + m ≤ b.size) :
    PostF F (stw b off f m) (fun b' => b'.size = b.size ∧ (∀ k, k < m → b'[off + k]? = some (some (f k))) ∧ ∀ j, (j < off ∨ off + m ≤ j) → b'[j]? = b[j]?) := by
  induction m with
  | zero => first | simp only [stw, wp_pure] | simp only [stb, wp_pure]
            exact ⟨trivial, fun k hk => absurd hk (Nat.not_lt_zero k), fun _ _ => trivial⟩
  | succ m ih =>
    unfold stw
    simp only [wp_bind, wp_wr]
    refine PostF.mono (ih (by omega)) fun b' hb => ⟨by omega, by simp [hb.1], fun k hk => ?_, fun j hj => ?_⟩
    · by_cases e : k = m
      · subst e
        rw [Array.getElem?_setIfInBounds]; simp; omega
      · rw [Array.getElem?_setIfInBounds, if_neg (by omega)]
        exact hb.2.1 k (by omega)
    · rw [Array.getElem?_setIfInBounds, if_neg (by omega)]
      exact hb.2.2 j (by omega)

theorem stb_spec {b : Buf UInt8} {off m : Nat} {f : Ymm} (h : off + 2 * m ≤ b.size) :
    PostF F (stb b off f m) (fun b' => b'.size = b.size ∧ (∀ k, k < m → b'[off + 2 * k]? = some (some (toU8 (u16 (f k)))) ∧ b'[off + 2 * k + 1]? = some (some (toU8 (u16 (f k) / 256)))) ∧
      ∀ j, (j < off ∨ off + 2 * m ≤ j) → b'[j]? = b[j]?) := by
  induction m with
  | zero => first | simp only [stw, wp_pure] | simp only [stb, wp_pure]
            exact ⟨trivial, fun k hk => absurd hk (Nat.not_lt_zero k), fun _ _ => trivial⟩
  | succ m ih =>
    unfold stb
    simp only [wp_bind, wp_wr]
    refine PostF.mono (ih (by omega)) fun b' hb => ⟨by omega, by simp; omega, by simp [hb.1], fun k hk => ?_, fun j hj => ?_⟩
    · by_cases e : k = m
      · subst e
        constructor
        · rw [Array.getElem?_setIfInBounds, if_neg (by omega), Array.getElem?_setIfInBounds]; simp; omega
        · rw [Array.getElem?_setIfInBounds]; simp; omega
      · rw [Array.getElem?_setIfInBounds, if_neg (by omega), Array.getElem?_setIfInBounds, if_neg (by omega), Array.getElem?_setIfInBounds, if_neg (by omega),
          Array.getElem?_setIfInBounds, if_neg (by omega)]
        exact hb.2.1 k (by omega)
    · rw [Array.getElem?_setIfInBounds, if_neg (by omega), Array.getElem?_setIfInBounds, if_neg (by omega)]
      exact hb.2.2 j (by omega)

theorem s16_bytes {x : Int} (h : -32768 ≤ x) (h' : x ≤ 32767) : s16 ((toU8 (u16 x)).toNat + 256 * (toU8 (u16 x / 256)).toNat : Int) = x := by
  have h1 : (toU8 (u16 x)).toNat = u16 x % 256 := by simp [toU8]
  have h2 : (toU8 (u16 x / 256)).toNat = u16 x / 256 % 256 := by simp [toU8]
  rw [h1, h2]
  unfold s16 u16
  omega

/-! ### Moves of elements -/

theorem srlq32 {v : Ymm} (h : ∀ k, k < 16 → -32768 ≤ v k ∧ v k ≤ 32767) {k : Nat} (hk : k < 16) :
    elem (qword v (k / 4) / 2 ^ 32) (k % 4) = if Nat.ble (k % 4) 1 then v (k + 2) else 0 := by
  obtain ⟨m, r, hr, rfl⟩ : ∃ m r, r < 4 ∧ k = 4 * m + r := ⟨k / 4, k % 4, by omega, by omega⟩
  rw [show (4 * m + r) / 4 = m by omega, show (4 * m + r) % 4 = r by omega]
  unfold elem qword dword
  have h0 := u16_lt (v (2 * (2 * m))); have h1 := u16_lt (v (2 * (2 * m) + 1)); have h2 := u16_lt (v (2 * (2 * m + 1))); have h3 := u16_lt (v (2 * (2 * m + 1) + 1))
  have k2 := h (2 * (2 * m + 1)) (by omega); have k3 := h (2 * (2 * m + 1) + 1) (by omega)
  rcases r with _ | _ | _ | _ | r
  · rw [show (u16 (v (2 * (2 * m))) + 65536 * u16 (v (2 * (2 * m) + 1)) + 4294967296 * (u16 (v (2 * (2 * m + 1))) + 65536 * u16 (v (2 * (2 * m + 1) + 1)))) / 2 ^ 32 / 65536 ^ 0 % 65536
      = u16 (v (2 * (2 * m + 1))) by omega, s16_u16 k2.1 k2.2]
    first | rfl | (simp only [show 4 * m + 0 + 2 = 2 * (2 * m + 1) by omega, show 4 * m + (0 + 1) + 2 = 2 * (2 * m + 1) + 1 by omega]; rfl)
  · rw [show (u16 (v (2 * (2 * m))) + 65536 * u16 (v (2 * (2 * m) + 1)) + 4294967296 * (u16 (v (2 * (2 * m + 1))) + 65536 * u16 (v (2 * (2 * m + 1) + 1)))) / 2 ^ 32 / 65536 ^ (0 + 1) % 65536
      = u16 (v (2 * (2 * m + 1) + 1)) by omega, s16_u16 k3.1 k3.2]
    first | rfl | (simp only [show 4 * m + 0 + 2 = 2 * (2 * m + 1) by omega, show 4 * m + (0 + 1) + 2 = 2 * (2 * m + 1) + 1 by omega]; rfl)
  · rw [show (u16 (v (2 * (2 * m))) + 65536 * u16 (v (2 * (2 * m) + 1)) + 4294967296 * (u16 (v (2 * (2 * m + 1))) + 65536 * u16 (v (2 * (2 * m + 1) + 1)))) / 2 ^ 32 / 65536 ^ (0 + 1 + 1) % 65536
      = 0 by omega]
    first | rfl | (simp only [show 4 * m + 0 + 2 = 2 * (2 * m + 1) by omega, show 4 * m + (0 + 1) + 2 = 2 * (2 * m + 1) + 1 by omega]; rfl)
  · rw [show (u16 (v (2 * (2 * m))) + 65536 * u16 (v (2 * (2 * m) + 1)) + 4294967296 * (u16 (v (2 * (2 * m + 1))) + 65536 * u16 (v (2 * (2 * m + 1) + 1)))) / 2 ^ 32 / 65536 ^ (0 + 1 + 1 + 1) % 65536
      = 0 by omega]
    first | rfl | (simp only [show 4 * m + 0 + 2 = 2 * (2 * m + 1) by omega, show 4 * m + (0 + 1) + 2 = 2 * (2 * m + 1) + 1 by omega]; rfl)
  · omega

theorem slld16 {v : Ymm} (h : ∀ k, k < 16 → -32768 ≤ v k ∧ v k ≤ 32767) {k : Nat} (hk : k < 16) :
    elem (dword v (k / 2) * 2 ^ 16) (k % 2) = if Nat.beq (k % 2) 0 then 0 else v (k - 1) := by
  obtain ⟨m, r, hr, rfl⟩ : ∃ m r, r < 2 ∧ k = 2 * m + r := ⟨k / 2, k % 2, by omega, by omega⟩
  rw [show (2 * m + r) / 2 = m by omega, show (2 * m + r) % 2 = r by omega]
  unfold elem dword
  have h0 := u16_lt (v (2 * m)); have h1 := u16_lt (v (2 * m + 1))
  have k0 := h (2 * m) (by omega)
  rcases r with _ | _ | r
  · rw [show (u16 (v (2 * m)) + 65536 * u16 (v (2 * m + 1))) * 2 ^ 16 / 65536 ^ 0 % 65536 = 0 by omega]
    first | rfl | (simp only [show 4 * m + 0 + 2 = 2 * (2 * m + 1) by omega, show 4 * m + (0 + 1) + 2 = 2 * (2 * m + 1) + 1 by omega]; rfl)
  · rw [show (u16 (v (2 * m)) + 65536 * u16 (v (2 * m + 1))) * 2 ^ 16 / 65536 ^ (0 + 1) % 65536 = u16 (v (2 * m)) by omega, s16_u16 k0.1 k0.2]
    first | rfl | (simp only [show 4 * m + 0 + 2 = 2 * (2 * m + 1) by omega, show 4 * m + (0 + 1) + 2 = 2 * (2 * m + 1) + 1 by omega]; rfl)
  · omega

theorem srld16 {v : Ymm} (h : ∀ k, k < 16 → -32768 ≤ v k ∧ v k ≤ 32767) {k : Nat} (hk : k < 16) :
    elem (dword v (k / 2) / 2 ^ 16) (k % 2) = if Nat.beq (k % 2) 0 then v (k + 1) else 0 := by
  obtain ⟨m, r, hr, rfl⟩ : ∃ m r, r < 2 ∧ k = 2 * m + r := ⟨k / 2, k % 2, by omega, by omega⟩
  rw [show (2 * m + r) / 2 = m by omega, show (2 * m + r) % 2 = r by omega]
  unfold elem dword
  have h0 := u16_lt (v (2 * m)); have h1 := u16_lt (v (2 * m + 1))
  have k0 := h (2 * m + 1) (by omega)
  rcases r with _ | _ | r
  · rw [show (u16 (v (2 * m)) + 65536 * u16 (v (2 * m + 1))) / 2 ^ 16 / 65536 ^ 0 % 65536 = u16 (v (2 * m + 1)) by omega, s16_u16 k0.1 k0.2]
    first | rfl | (simp only [show 4 * m + 0 + 2 = 2 * (2 * m + 1) by omega, show 4 * m + (0 + 1) + 2 = 2 * (2 * m + 1) + 1 by omega]; rfl)
  · rw [show (u16 (v (2 * m)) + 65536 * u16 (v (2 * m + 1))) / 2 ^ 16 / 65536 ^ (0 + 1) % 65536 = 0 by omega]
    first | rfl | (simp only [show 4 * m + 0 + 2 = 2 * (2 * m + 1) by omega, show 4 * m + (0 + 1) + 2 = 2 * (2 * m + 1) + 1 by omega]; rfl)
  · omega

theorem shufb_move {a b : Ymm} {m : List Int} (ha : ∀ k, k < 16 → a k = cgt m k) (hm : maskOk m = true) (h : ∀ k, k < 16 → -32768 ≤ b k ∧ b k ≤ 32767) {k : Nat} (hk : k < 16) :
    8 * (k / 8) + byte (cgt m) (2 * k) / 2 < 16 ∧ shufb a b k = b (8 * (k / 8) + byte (cgt m) (2 * k) / 2) := by
  have hk' : k ∈ ks := by
    rcases k with _ | _ | _ | _ | _ | _ | _ | _ | _ | _ | _ | _ | _ | _ | _ | _ | k <;> first | decide | omega
  have hm' := (List.all_eq_true.mp hm) k hk'
  simp only [Bool.and_eq_true] at hm'
  obtain ⟨⟨h1, h2⟩, h3⟩ := hm'
  have h1 := Nat.le_of_ble_eq_true h1
  have h2 := Nat.eq_of_beq_eq_true h2
  have h3 := Nat.eq_of_beq_eq_true h3
  have eb : ∀ j, j < 32 → byte a j = byte (cgt m) j := fun j hj => by unfold byte; rw [ha _ (by omega)]
  obtain ⟨c, hc⟩ : ∃ c, byte (cgt m) (2 * k) = 2 * c := ⟨byte (cgt m) (2 * k) / 2, by omega⟩
  refine ⟨by omega, ?_⟩
  unfold shufb
  simp only []
  rw [eb _ (by omega), eb _ (by omega), h3, hc, if_neg (by omega), if_neg (by omega), show 2 * k / 16 = k / 8 by omega, show (2 * k + 1) / 16 = k / 8 by omega,
    show 2 * c % 16 = 2 * c by omega, show (2 * c + 1) % 16 = 2 * c + 1 by omega, show 8 * (k / 8) + 2 * c / 2 = 8 * (k / 8) + c by omega]
  unfold byte
  rw [show (16 * (k / 8) + 2 * c) / 2 = 8 * (k / 8) + c by omega, show (16 * (k / 8) + 2 * c) % 2 = 0 by omega,
    show (16 * (k / 8) + (2 * c + 1)) / 2 = 8 * (k / 8) + c by omega, show (16 * (k / 8) + (2 * c + 1)) % 2 = 1 by omega]
  have hr := h (8 * (k / 8) + c) (by omega)
  have hl := u16_lt (b (8 * (k / 8) + c))
  rw [show u16 (b (8 * (k / 8) + c)) / 256 ^ 0 % 256 + 256 * (u16 (b (8 * (k / 8) + c)) / 256 ^ 1 % 256) = u16 (b (8 * (k / 8) + c)) by omega]
  exact s16_u16 hr.1 hr.2

/-! ### One instruction -/

/-- The effect of an instruction that writes the described elements `x`. -/
def Fits (Val : Nat → Zq) (e : Nat → Int) (n : Nat) (d : Dst) (x : Vec) (s s' : St) : Prop :=
  match d with
  | .r d => ∃ f, s' = s.put d f ∧ RelV Val e n x f
  | .w p j => ∃ b' f, s' = s.putw p b' ∧ RelV Val e n x f ∧ b'.size = (s.w p).size ∧ (∀ k, k < 16 → b'[16 * j + k]? = some (some (f k))) ∧
      ∀ i, (i < 16 * j ∨ 16 * j + 16 ≤ i) → b'[i]? = (s.w p)[i]?
  | .b p j => ∃ b' f, s' = s.putb p b' ∧ RelV Val e n x f ∧ b'.size = (s.b p).size ∧
      (∀ k, k < 16 → b'[32 * j + 2 * k]? = some (some (toU8 (u16 (f k)))) ∧ b'[32 * j + 2 * k + 1]? = some (some (toU8 (u16 (f k) / 256)))) ∧
      ∀ i, (i < 32 * j ∨ 32 * j + 32 ≤ i) → b'[i]? = (s.b p)[i]?

theorem RelV.tab {g : Nat → E} {f : Ymm} (h : ∀ k, k < 16 → Good Val e n (g k) ∧ (g k).eval e = f k) : RelV Val e n (tab g) f :=
  ⟨rfl, fun k hk => by rw [gt_tab g hk]; exact h k hk⟩

theorem RelV.range {l : Vec} {f : Ymm} (h : RelV Val e n l f) : ∀ k, k < 16 → -32768 ≤ f k ∧ f k ≤ 32767 := fun k hk => by
  obtain ⟨h1, h2⟩ := h.2 k hk
  rw [← h2]; exact h1.range

theorem good_zero : Good Val e n (.c 0) := ⟨by decide, by decide⟩

section
variable {R : List (Option Vec)} {W B : List (List (Option Vec))} {s : St} {d : Dst} {x : Vec}

theorem Rel.ldw (h : Rel Val e n R W B s) {p : Ptr} {j : Nat} {l : Vec} (hl : nth (mth W (idx p)) j = some l) {off m o : Nat} (ho : off = 16 * j + o) (hm : o + m ≤ 16) :
    PostF F (ldw (s.w p) off m) (fun v => ∀ k, k < m → Good Val e n (gt l (o + k)) ∧ (gt l (o + k)).eval e = v k) := by
  obtain ⟨f, h1, h2⟩ := h.w p j l hl
  refine PostF.mono (ldw_spec (f := fun k => f (o + k)) fun k hk => ?_) fun v hv k hk => ?_
  · rw [ho, Nat.add_assoc]; exact h2 (o + k) (by omega)
  · rw [hv k hk]; exact h1.2 (o + k) (by omega)

theorem raw_sound (h : Rel Val e n R W B s) {i : Ins} (hr : raw i R W B = some (d, x))
    (hw : ∀ p j, d = .w p j → j < (mth W (idx p)).length) (hb : ∀ p j, d = .b p j → j < (mth B (idx p)).length) :
    PostF F (i.step s) (Fits Val e n d x s) := by
  cases i with
  | vmovdqa_ld p off d =>
    simp only [raw] at hr
    split at hr <;> [skip; cases hr]
    rename_i ho
    have ho := Nat.eq_of_beq_eq_true ho
    obtain ⟨l, hl, e1⟩ := Option.map_eq_some_iff.mp hr
    cases e1
    simp only [Ins.step, lda, if_pos ho, wp_bind, wp_pure]
    refine PostF.mono (h.ldw hl (o := 0) (by omega) (by omega)) fun v hv => ⟨v, rfl, ?_, fun k hk => ?_⟩
    · obtain ⟨f, h1, -⟩ := h.w _ _ _ hl; exact h1.1
    · have := hv k hk; rwa [Nat.zero_add] at this
  | vmovdqa_st r p off =>
    simp only [raw] at hr
    split at hr <;> [skip; cases hr]
    rename_i ho
    have ho := Nat.eq_of_beq_eq_true ho
    obtain ⟨l, hl, e1⟩ := Option.map_eq_some_iff.mp hr
    cases e1
    have hlt := hw _ _ rfl
    have hsz := h.wsz p
    simp only [Ins.step, sta, if_pos ho, wp_bind, wp_pure]
    refine PostF.mono (stw_spec (by omega)) fun b' hb' => ⟨b', s.ymm r, rfl, h.reg _ _ hl, hb'.1, ?_, ?_⟩
    · rw [show 16 * (off / 16) = off by omega]; exact hb'.2.1
    · rw [show 16 * (off / 16) = off by omega]; exact hb'.2.2
  | vmovdqu_ld p off d =>
    simp only [raw] at hr
    split at hr <;> [skip; cases hr]
    rename_i ho
    have ho := Nat.eq_of_beq_eq_true ho
    obtain ⟨l, hl, e1⟩ := Option.map_eq_some_iff.mp hr
    cases e1
    obtain ⟨f, h1, h2⟩ := h.b _ _ _ hl
    rw [show 32 * (off / 32) = off by omega] at h2
    simp only [Ins.step, wp_bind, wp_pure]
    refine PostF.mono (ldb_spec h2) fun v hv => ⟨v, rfl, h1.1, fun k hk => ?_⟩
    rw [hv k hk]; exact h1.2 k hk
  | vmovdqu_st r p off =>
    simp only [raw] at hr
    split at hr <;> [skip; cases hr]
    rename_i ho
    have ho := Nat.eq_of_beq_eq_true ho
    obtain ⟨l, hl, e1⟩ := Option.map_eq_some_iff.mp hr
    cases e1
    have hlt := hb _ _ rfl
    have hsz := h.bsz p
    simp only [Ins.step, wp_bind, wp_pure]
    refine PostF.mono (stb_spec (by omega)) fun b' hb' => ⟨b', s.ymm r, rfl, h.reg _ _ hl, hb'.1, ?_, ?_⟩
    · rw [show 32 * (off / 32) = off by omega]; exact hb'.2.1
    · rw [show 32 * (off / 32) = off by omega]; exact hb'.2.2
  | vpbroadcastq p off d =>
    simp only [raw] at hr
    split at hr <;> [skip; cases hr]
    rename_i ho
    have ho := Nat.le_of_ble_eq_true ho
    obtain ⟨l, hl, e1⟩ := Option.map_eq_some_iff.mp hr
    cases e1
    simp only [Ins.step, wp_bind, wp_pure]
    exact PostF.mono (h.ldw hl (o := off % 16) (by omega) (by omega)) fun v hv => ⟨_, rfl, RelV.tab fun k hk => hv (k % 4) (by omega)⟩
  | vpermq imm p off d =>
    simp only [raw] at hr
    split at hr <;> [skip; cases hr]
    rename_i ho
    have ho := Nat.eq_of_beq_eq_true ho
    obtain ⟨l, hl, e1⟩ := Option.map_eq_some_iff.mp hr
    cases e1
    simp only [Ins.step, wp_bind, wp_pure]
    refine PostF.mono (h.ldw hl (o := 0) (by omega) (by omega)) fun v hv => ⟨_, rfl, RelV.tab fun k hk => ?_⟩
    have := hv (4 * (imm / 4 ^ (k / 4) % 4) + k % 4) (by omega)
    rwa [Nat.zero_add] at this
  | vpermd p off ix d =>
    simp only [raw] at hr
    split at hr <;> [skip; cases hr]
    rename_i ho
    have ho := Nat.eq_of_beq_eq_true ho
    obtain ⟨l, hl, hr⟩ := Option.bind_eq_some_iff.mp hr
    obtain ⟨m, hm, e1⟩ := Option.map_eq_some_iff.mp hr
    obtain ⟨y, hy, hm⟩ := Option.bind_eq_some_iff.mp hm
    cases e1
    have hd : ∀ k, k < 16 → dword (s.ymm ix) (k / 2) = dword (cgt m) (k / 2) := fun k hk => by
      have g := (h.reg _ _ hy).2
      unfold dword
      rw [← (g (2 * (k / 2)) (by omega)).2, ← (g (2 * (k / 2) + 1) (by omega)).2, consts_gt hm, consts_gt hm]
      rfl
    simp only [Ins.step, wp_bind, wp_pure]
    refine PostF.mono (h.ldw hl (o := 0) (by omega) (by omega)) fun v hv => ⟨_, rfl, RelV.tab fun k hk => ?_⟩
    have := hv (2 * (dword (cgt m) (k / 2) % 8) + k % 2) (by omega)
    rw [hd k hk]
    rwa [Nat.zero_add] at this
  | vpsubw_m p off b d =>
    simp only [raw] at hr
    split at hr <;> [skip; cases hr]
    rename_i ho
    have ho := Nat.eq_of_beq_eq_true ho
    obtain ⟨l, hl, hr⟩ := Option.bind_eq_some_iff.mp hr
    obtain ⟨y, hy, e1⟩ := Option.map_eq_some_iff.mp hr
    cases e1
    simp only [Ins.step, wp_bind, wp_pure]
    refine PostF.mono (h.ldw hl (o := 0) (by omega) (by omega)) fun v hv => ⟨_, rfl, RelV.tab fun k hk => ?_⟩
    have h1 := hv k hk
    rw [Nat.zero_add] at h1
    have h2 := (h.reg _ _ hy).2 k hk
    exact ⟨⟨h2.1, h1.1⟩, by simp only [E.eval, h1.2, h2.2]⟩
  | vpsraw imm a d | vpsllw imm a d | vpsrlw imm a d =>
    simp only [raw] at hr
    obtain ⟨l, hl, e1⟩ := Option.map_eq_some_iff.mp hr
    cases e1
    simp only [Ins.step, wp_pure]
    refine ⟨_, rfl, RelV.tab fun k hk => ?_⟩
    have h1 := (h.reg _ _ hl).2 k hk
    exact ⟨h1.1, by simp only [E.eval, h1.2]⟩
  | vpsrlq imm a d =>
    simp only [raw] at hr
    split at hr <;> [skip; cases hr]
    rename_i ho
    have ho := Nat.eq_of_beq_eq_true ho
    obtain ⟨l, hl, e1⟩ := Option.map_eq_some_iff.mp hr
    cases e1
    simp only [Ins.step, wp_pure]
    refine ⟨_, rfl, RelV.tab fun k hk => ?_⟩
    have h1 := h.reg _ _ hl
    simp only [ho, srlq32 h1.range hk]
    split
    · rename_i hc; have hc := Nat.le_of_ble_eq_true hc; exact h1.2 _ (by omega)
    · exact ⟨good_zero, rfl⟩
  | vpslld imm a d =>
    simp only [raw] at hr
    split at hr <;> [skip; cases hr]
    rename_i ho
    have ho := Nat.eq_of_beq_eq_true ho
    obtain ⟨l, hl, e1⟩ := Option.map_eq_some_iff.mp hr
    cases e1
    simp only [Ins.step, wp_pure]
    refine ⟨_, rfl, RelV.tab fun k hk => ?_⟩
    have h1 := h.reg _ _ hl
    simp only [ho, slld16 h1.range hk]
    split
    · exact ⟨good_zero, rfl⟩
    · exact h1.2 _ (by omega)
  | vpsrld imm a d =>
    simp only [raw] at hr
    split at hr <;> [skip; cases hr]
    rename_i ho
    have ho := Nat.eq_of_beq_eq_true ho
    obtain ⟨l, hl, e1⟩ := Option.map_eq_some_iff.mp hr
    cases e1
    simp only [Ins.step, wp_pure]
    refine ⟨_, rfl, RelV.tab fun k hk => ?_⟩
    have h1 := h.reg _ _ hl
    simp only [ho, srld16 h1.range hk]
    split
    · rename_i hc; have hc := Nat.eq_of_beq_eq_true hc; exact h1.2 _ (by omega)
    · exact ⟨good_zero, rfl⟩
  | vmovsldup a d =>
    simp only [raw] at hr
    obtain ⟨l, hl, e1⟩ := Option.map_eq_some_iff.mp hr
    cases e1
    simp only [Ins.step, wp_pure]
    exact ⟨_, rfl, RelV.tab fun k hk => (h.reg _ _ hl).2 _ (by omega)⟩
  | vpshufb a b d =>
    simp only [raw] at hr
    obtain ⟨m, hm, hr⟩ := Option.bind_eq_some_iff.mp hr
    obtain ⟨z, hz, hm⟩ := Option.bind_eq_some_iff.mp hm
    obtain ⟨y, hy, hr⟩ := Option.bind_eq_some_iff.mp hr
    split at hr <;> [skip; cases hr]
    rename_i ho
    cases hr
    simp only [Ins.step, wp_pure]
    refine ⟨_, rfl, RelV.tab fun k hk => ?_⟩
    have ha : ∀ k, k < 16 → s.ymm a k = cgt m k := fun k hk => by rw [← ((h.reg _ _ hz).2 k hk).2, consts_gt hm]; rfl
    obtain ⟨h1, h2⟩ := shufb_move ha ho (h.reg _ _ hy).range hk
    rw [h2]; exact (h.reg _ _ hy).2 _ h1
  | vpaddw a b d | vpsubw a b d | vpmullw a b d | vpmulhw a b d | vpand a b d | vpor a b d =>
    simp only [raw] at hr
    obtain ⟨z, hz, hr⟩ := Option.bind_eq_some_iff.mp hr
    obtain ⟨y, hy, e1⟩ := Option.map_eq_some_iff.mp hr
    cases e1
    simp only [Ins.step, wp_pure]
    refine ⟨_, rfl, RelV.tab fun k hk => ?_⟩
    have h1 := (h.reg _ _ hz).2 k hk
    have h2 := (h.reg _ _ hy).2 k hk
    exact ⟨⟨h2.1, h1.1⟩, by simp only [E.eval, h1.2, h2.2]⟩
  | vperm2i128 imm a b d =>
    simp only [raw] at hr
    obtain ⟨z, hz, hr⟩ := Option.bind_eq_some_iff.mp hr
    obtain ⟨y, hy, e1⟩ := Option.map_eq_some_iff.mp hr
    cases e1
    simp only [Ins.step, wp_pure]
    refine ⟨_, rfl, RelV.tab fun k hk => ?_⟩
    have h1 := (h.reg _ _ hz).2
    have h2 := (h.reg _ _ hy).2
    unfold perm2i128
    simp only [Nat.ble_eq]
    split
    · exact ⟨good_zero, rfl⟩
    · by_cases hc : imm / 16 ^ (k / 8) % 16 % 4 ≤ 1
      · rw [if_pos hc, if_pos (by omega)]; exact h2 _ (by omega)
      · rw [if_neg hc, if_neg (by omega)]; exact h1 _ (by omega)
  | vpblendd imm a b d | vpblendw imm a b d =>
    simp only [raw] at hr
    obtain ⟨z, hz, hr⟩ := Option.bind_eq_some_iff.mp hr
    obtain ⟨y, hy, e1⟩ := Option.map_eq_some_iff.mp hr
    cases e1
    simp only [Ins.step, wp_pure]
    refine ⟨_, rfl, RelV.tab fun k hk => ?_⟩
    have h1 := (h.reg _ _ hz).2
    have h2 := (h.reg _ _ hy).2
    split
    · exact h1 k hk
    · exact h2 k hk
  | vpunpcklqdq a b d | vpunpckhqdq a b d =>
    simp only [raw] at hr
    obtain ⟨z, hz, hr⟩ := Option.bind_eq_some_iff.mp hr
    obtain ⟨y, hy, e1⟩ := Option.map_eq_some_iff.mp hr
    cases e1
    simp only [Ins.step, wp_pure]
    refine ⟨_, rfl, RelV.tab fun k hk => ?_⟩
    have h1 := (h.reg _ _ hz).2
    have h2 := (h.reg _ _ hy).2
    simp only [unpacklq, unpackhq, Nat.ble_eq]
    by_cases hc : k % 8 ≤ 3
    · rw [if_pos hc, if_pos (by omega)]; exact h2 _ (by omega)
    · rw [if_neg hc, if_neg (by omega)]; exact h1 _ (by omega)

/-! ### Programs -/

theorem Fits.ext {x' : Vec} {s' : St} (hf : Fits Val e n d x s s') (g : ∀ f, RelV Val e n x f → RelV Val e' n' x' f) : Fits Val e' n' d x' s s' := by
  cases d with
  | r d => obtain ⟨f, h1, h2⟩ := hf; exact ⟨f, h1, g f h2⟩
  | w p j => obtain ⟨b', f, h1, h2, h3⟩ := hf; exact ⟨b', f, h1, g f h2, h3⟩
  | b p j => obtain ⟨b', f, h1, h2, h3⟩ := hf; exact ⟨b', f, h1, g f h2, h3⟩

theorem arun_sound {T : TagOps} (hT : T.Sound Val) {prog : List Ins} {r : Res} (h : Rel Val e n R W B s) (ha : arun T prog n R W B = some r) :
    PostF F (run prog s) (fun s' => ∃ e', Ext n r.n e e' ∧ Rel Val e' r.n r.R r.W r.B s' ∧ (∀ p, (s'.w p).size = (s.w p).size) ∧ ∀ p, (s'.b p).size = (s.b p).size) := by
  induction prog generalizing n e R W B s with
  | nil =>
    cases Option.some.inj ha
    simp only [run, wp_pure]
    exact ⟨e, Ext.refl _ _, h, fun _ => trivial, fun _ => trivial⟩
  | cons i prog ih =>
    unfold arun at ha
    split at ha
    · cases ha
    rename_i d x hr
    simp only [run, wp_bind]
    have hs : PostF F (i.step s) (Fits Val e n d x s) := by
      obtain ⟨l', n', hk⟩ := normF_call ha
      refine raw_sound h hr (fun p j hd => ?_) (fun p j hd => ?_)
      · subst hd; exact (setF_some hk).1
      · subst hd; exact (setF_some hk).1
    refine PostF.mono hs fun s1 hs1 => ?_
    have hxl : x.length = 16 ∧ ∀ k, k < 16 → Good Val e n (gt x k) := by
      cases d with
      | r d => obtain ⟨f, -, h2⟩ := hs1; exact ⟨h2.1, fun k hk => (h2.2 k hk).1⟩
      | w p j => obtain ⟨b', f, -, h2, -⟩ := hs1; exact ⟨h2.1, fun k hk => (h2.2 k hk).1⟩
      | b p j => obtain ⟨b', f, -, h2, -⟩ := hs1; exact ⟨h2.1, fun k hk => (h2.2 k hk).1⟩
    obtain ⟨x', n', e', hk, hx, hlen, hv⟩ := normF_sound hT (fun i hi => hxl.2 i (by omega)) ha
    have hs2 : Fits Val e' n' d x' s s1 := hs1.ext fun f hf => ⟨by omega, fun k hk => by
      obtain ⟨g1, g2⟩ := hv k (by omega)
      exact ⟨g1, g2.trans (hf.2 k hk).2⟩⟩
    have h' := h.ext hx
    cases d with
    | r d =>
      obtain ⟨f, rfl, h2⟩ := hs2
      obtain ⟨hlt, R', hR, -, hn⟩ := setF_some hk
      have hrel : Rel Val e' n' R' W B (s.put d f) := by
        refine ⟨fun r l hl => ?_, h'.w, h'.wsz, h'.b, h'.bsz⟩
        rw [hn] at hl
        by_cases hrd : r = d
        · rw [if_pos hrd] at hl
          cases Option.some.inj hl
          rw [show (s.put d f).ymm r = f from if_pos hrd]; exact h2
        · rw [if_neg hrd] at hl
          rw [show (s.put d f).ymm r = s.ymm r from if_neg hrd]; exact h'.reg r l hl
      refine PostF.mono (ih hrel hR) fun s' ⟨e2, hx2, hr2, hw2, hb2⟩ => ⟨e2, hx.trans hx2, hr2, hw2, hb2⟩
    | w p j =>
      obtain ⟨b', f, rfl, h2, hsz, hel, hot⟩ := hs2
      obtain ⟨hlt, m, hm, hml, hn⟩ := setF_some hk
      obtain ⟨W', hW, hn'⟩ := setF_mth hm
      have hrel : Rel Val e' n' R W' B (s.putw p b') := by
        refine ⟨h'.reg, fun p' j' l hl => ?_, fun p' => ?_, h'.b, h'.bsz⟩
        · rw [hn'] at hl
          by_cases hp : idx p' = idx p
          · obtain rfl := idx_inj hp
            rw [if_pos rfl, hn] at hl
            rw [show (s.putw p' b').w p' = b' from if_pos rfl]
            by_cases hj : j' = j
            · rw [if_pos hj] at hl
              cases Option.some.inj hl
              subst hj
              exact ⟨f, h2, hel⟩
            · rw [if_neg hj] at hl
              obtain ⟨g, g1, g2⟩ := h'.w p' j' l hl
              exact ⟨g, g1, fun k hk => (hot _ (by omega)).trans (g2 k hk)⟩
          · rw [if_neg hp] at hl
            rw [show (s.putw p b').w p' = s.w p' from if_neg fun h => hp (by rw [h])]
            exact h'.w p' j' l hl
        · rw [hn']
          by_cases hp : idx p' = idx p
          · obtain rfl := idx_inj hp
            rw [if_pos rfl, show (s.putw p' b').w p' = b' from if_pos rfl, hml, hsz]; exact h.wsz p'
          · rw [if_neg hp, show (s.putw p b').w p' = s.w p' from if_neg fun h => hp (by rw [h])]; exact h.wsz p'
      refine PostF.mono (ih hrel hW) fun s' ⟨e2, hx2, hr2, hw2, hb2⟩ => ⟨e2, hx.trans hx2, hr2, fun p' => (hw2 p').trans ?_, hb2⟩
      by_cases hp : p' = p
      · rw [show (s.putw p b').w p' = b' from if_pos hp, hp]; exact hsz
      · rw [show (s.putw p b').w p' = s.w p' from if_neg hp]
    | b p j =>
      obtain ⟨b', f, rfl, h2, hsz, hel, hot⟩ := hs2
      obtain ⟨hlt, m, hm, hml, hn⟩ := setF_some hk
      obtain ⟨W', hW, hn'⟩ := setF_mth hm
      have hrel : Rel Val e' n' R W W' (s.putb p b') := by
        refine ⟨h'.reg, h'.w, h'.wsz, fun p' j' l hl => ?_, fun p' => ?_⟩
        · rw [hn'] at hl
          by_cases hp : idx p' = idx p
          · obtain rfl := idx_inj hp
            rw [if_pos rfl, hn] at hl
            rw [show (s.putb p' b').b p' = b' from if_pos rfl]
            by_cases hj : j' = j
            · rw [if_pos hj] at hl
              cases Option.some.inj hl
              subst hj
              refine ⟨f, h2, fun k hk => ⟨_, _, (hel k hk).1, (hel k hk).2, ?_⟩⟩
              have hr := h2.range k hk
              exact (s16_bytes hr.1 hr.2).symm
            · rw [if_neg hj] at hl
              obtain ⟨g, g1, g2⟩ := h'.b p' j' l hl
              refine ⟨g, g1, fun k hk => ?_⟩
              rw [hot _ (by omega), hot _ (by omega)]
              exact g2 k hk
          · rw [if_neg hp] at hl
            rw [show (s.putb p b').b p' = s.b p' from if_neg fun h => hp (by rw [h])]
            exact h'.b p' j' l hl
        · rw [hn']
          by_cases hp : idx p' = idx p
          · obtain rfl := idx_inj hp
            rw [if_pos rfl, show (s.putb p' b').b p' = b' from if_pos rfl, hml, hsz]; exact h.bsz p'
          · rw [if_neg hp, show (s.putb p b').b p' = s.b p' from if_neg fun h => hp (by rw [h])]; exact h.bsz p'
      refine PostF.mono (ih hrel hW) fun s' ⟨e2, hx2, hr2, hw2, hb2⟩ => ⟨e2, hx.trans hx2, hr2, hw2, fun p' => (hb2 p').trans ?_⟩
      by_cases hp : p' = p
      · rw [show (s.putb p b').b p' = b' from if_pos hp, hp]; exact hsz
      · rw [show (s.putb p b').b p' = s.b p' from if_neg hp]
end

/-- The object a store changes. -/
def stores (p : Ptr) : Ins → Bool
  | .vmovdqa_st _ p' _ => decide (p' = p)
  | .vmovdqu_st _ p' _ => decide (p' = p)
  | _ => false

theorem bind_ok {α β : Type} {p : M β} {f : β → M α} {a : α} {t : List Ev} (h : (p >>= f) = .ok (a, t)) : ∃ b t1 t2, p = .ok (b, t1) ∧ f b = .ok (a, t2) := by
  rcases p with e | ⟨b, t1⟩
  · cases h
  · change M.bnd (.ok (b, t1)) f = .ok (a, t) at h
    simp only [M.bnd] at h
    split at h
    · cases h
    · rename_i a' t2 hf
      cases h
      exact ⟨b, t1, t2, rfl, hf⟩

theorem PostF.andOk {α : Type} {p : M α} {Q R : α → Prop} (h : PostF F p Q) (h' : ∀ a t, p = .ok (a, t) → R a) : PostF F p fun a => Q a ∧ R a := by
  rcases p with e | ⟨a, t⟩
  · cases e <;> simpa [PostF] using h
  · simp only [PostF] at h ⊢; exact ⟨h, h' a t rfl⟩

theorem step_frame {i : Ins} {p : Ptr} (hp : stores p i = false) {s s' : St} {t : List Ev} (h : i.step s = .ok (s', t)) : s'.w p = s.w p ∧ s'.b p = s.b p := by
  cases i with
  | vmovdqa_st r p' off | vmovdqu_st r p' off =>
    obtain ⟨b, t1, t2, -, h⟩ := bind_ok h
    cases h
    have hp' : p ≠ p' := by simpa [stores, eq_comm] using hp
    simp [St.putw, St.putb, hp']
  | vmovdqa_ld | vmovdqu_ld | vpbroadcastq | vpermq | vpermd | vpsubw_m =>
    obtain ⟨b, t1, t2, -, h⟩ := bind_ok h
    cases h; exact ⟨rfl, rfl⟩
  | _ => cases h; exact ⟨rfl, rfl⟩

/-- A program without a store to `p` leaves that object alone. -/
theorem run_frame {prog : List Ins} {p : Ptr} (hp : prog.all (fun i => !stores p i) = true) {s s' : St} {t : List Ev} (h : run prog s = .ok (s', t)) : s'.w p = s.w p ∧ s'.b p = s.b p := by
  induction prog generalizing s t with
  | nil => cases h; exact ⟨rfl, rfl⟩
  | cons i prog ih =>
    rw [List.all_cons, Bool.and_eq_true, Bool.not_eq_true'] at hp
    obtain ⟨s1, t1, t2, h1, h2⟩ := bind_ok h
    obtain ⟨e1, e2⟩ := step_frame hp.1 h1
    obtain ⟨e3, e4⟩ := ih hp.2 h2
    exact ⟨e3.trans e1, e4.trans e2⟩

end Verif.X86

import Verif.Model.A64Keccak
import Verif.Proof.Eval
/-! # Symbolic execution of the AArch64 Keccak assembly, inside the kernel

A description says what a machine state contains in terms of the lanes of the Keccak states after each round.  An *atom* is a number `64 * y + o`: symbol `y` rotated left by `o`.  The
symbols of state `s` before round `r` are `64 * (25 * s + r) + k`: for `k < 25` lane `k`; for `25 ≤ k < 30` the parity of column `k - 25`; for `30 ≤ k < 35` what θ adds to column `k - 30`;
for `35 ≤ k < 60` lane `k - 35` after θ.  Symbol `64 * i + 63` is element `i % 2` of vector register `i / 2` on entry. -/
namespace Verif.A64K
open Verif Model Model.A64K
open Verif.Eval (force force_eq)

/-- Expressions: the sum (exclusive or) of atoms; a number; `a and not b`; `p xor (a and not b)`; a sum of atoms shifted left. -/
inductive E where
  | lin (l : List Nat)
  | k (w : Nat)
  | bic (a b : Nat)
  | chi (p a b : Nat)
  | shl (n : Nat) (l : List Nat)

/-- What a general-purpose register or a cell of the stack holds: a pointer, an expression, or what register `i` held on entry. -/
inductive XD where
  | ptr (o : Obj) (off : Nat)
  | w (x : E)
  | r (i : Nat)

/-! ## Evaluation order in the kernel -/

/-- Evaluate a list first. -/
noncomputable def fL {β : Type} (l : List Nat) : (List Nat → β) → β :=
  List.rec (fun k => k []) (fun a _ ih k => force a fun a => ih fun l => k (a :: l)) l
@[simp] theorem fL_eq {β : Type} (l : List Nat) (k : List Nat → β) : fL l k = k l := by
  induction l generalizing k with
  | nil => rfl
  | cons a l ih =>
    show force a (fun a => fL l fun l => k (a :: l)) = _
    rw [force_eq, ih]

/-- Evaluate an expression first. -/
noncomputable def fE {β : Type} (x : E) (k : E → β) : β :=
  match x with
  | .lin l => fL l fun l => k (.lin l)
  | .k w => force w fun w => k (.k w)
  | .bic a b => force a fun a => force b fun b => k (.bic a b)
  | .chi p a b => force p fun p => force a fun a => force b fun b => k (.chi p a b)
  | .shl n l => force n fun n => fL l fun l => k (.shl n l)
@[simp] theorem fE_eq {β : Type} (x : E) (k : E → β) : fE x k = k x := by cases x <;> simp [fE]

/-- Evaluate an optional expression first. -/
noncomputable def fO {β : Type} (x : Option E) (k : Option E → β) : β :=
  match x with
  | none => k none
  | some x => fE x fun x => k (some x)
@[simp] theorem fO_eq {β : Type} (x : Option E) (k : Option E → β) : fO x k = k x := by cases x <;> simp [fO]

/-- Evaluate a description of a register first. -/
noncomputable def fX {β : Type} (x : XD) (k : XD → β) : β :=
  match x with
  | .ptr o p => force p fun p => k (.ptr o p)
  | .w x => fE x fun x => k (.w x)
  | .r i => force i fun i => k (.r i)
@[simp] theorem fX_eq {β : Type} (x : XD) (k : XD → β) : fX x k = k x := by cases x <;> simp [fX]

/-- Evaluate a list of optional expressions first. -/
noncomputable def fOs {β : Type} (l : List (Option E)) (k : List (Option E) → β) : β :=
  match l with
  | [] => k []
  | a :: l => fO a fun a => fOs l fun l => k (a :: l)
@[simp] theorem fOs_eq {β : Type} (l : List (Option E)) (k : List (Option E) → β) : fOs l k = k l := by
  induction l generalizing k with
  | nil => rfl
  | cons a l ih => simp [fOs, ih]

/-- Evaluate a list of pairs first. -/
noncomputable def fPs {β : Type} (l : List (Option E × Option E)) (k : List (Option E × Option E) → β) : β :=
  match l with
  | [] => k []
  | (a, b) :: l => fO a fun a => fO b fun b => fPs l fun l => k ((a, b) :: l)
@[simp] theorem fPs_eq {β : Type} (l : List (Option E × Option E)) (k : List (Option E × Option E) → β) : fPs l k = k l := by
  induction l generalizing k with
  | nil => rfl
  | cons a l ih => simp [fPs, ih]

/-- Evaluate a list of optional descriptions first. -/
noncomputable def fXs {β : Type} (l : List (Option XD)) (k : List (Option XD) → β) : β :=
  match l with
  | [] => k []
  | none :: l => fXs l fun l => k (none :: l)
  | some a :: l => fX a fun a => fXs l fun l => k (some a :: l)
@[simp] theorem fXs_eq {β : Type} (l : List (Option XD)) (k : List (Option XD) → β) : fXs l k = k l := by
  induction l generalizing k with
  | nil => rfl
  | cons a l ih => cases a <;> simp [fXs, ih]

/-- Entry `n` of a list. -/
noncomputable def nth {α : Type} (l : List (Option α)) : Nat → Option α :=
  List.rec (fun _ => none) (fun a _ ih n => Nat.rec a (fun n _ => ih n) n) l
@[simp] theorem nth_nil {α : Type} (n : Nat) : nth ([] : List (Option α)) n = none := rfl
@[simp] theorem nth_zero {α : Type} (a : Option α) (l : List (Option α)) : nth (a :: l) 0 = a := rfl
@[simp] theorem nth_succ {α : Type} (a : Option α) (l : List (Option α)) (n : Nat) : nth (a :: l) (n + 1) = nth l n := rfl

/-- Replace an entry of a list. -/
noncomputable def setF {α β : Type} (l : List α) : Nat → α → (List α → Option β) → Option β :=
  List.rec (fun _ _ _ => none) (fun x l ih i a k => Nat.rec (k (a :: l)) (fun i _ => ih i a fun l => k (x :: l)) i) l
theorem setF_some {α β : Type} {l : List α} {i : Nat} {a : α} {k : List α → Option β} {v : β} (h : setF l i a k = some v) :
    i < l.length ∧ k (l.set i a) = some v := by
  induction l generalizing i k with
  | nil => cases h
  | cons x l ih =>
    cases i with
    | zero => exact ⟨by simp, h⟩
    | succ i =>
      obtain ⟨h1, h2⟩ := ih (i := i) h
      exact ⟨by simpa using h1, h2⟩
theorem nth_eq {α : Type} (l : List (Option α)) (n : Nat) : nth l n = (l[n]?).join := by
  induction l generalizing n with
  | nil => rfl
  | cons a l ih => cases n with
    | zero => rfl
    | succ n => simpa using ih n
theorem nth_set {α : Type} {l : List (Option α)} {i : Nat} (h : i < l.length) (a : Option α) (j : Nat) : nth (l.set i a) j = if j = i then a else nth l j := by
  rw [nth_eq, nth_eq, List.getElem?_set]
  by_cases hj : i = j
  · subst hj; simp [h]
  · simp [hj, Ne.symm hj]

/-! ## Arithmetic of expressions -/

/-- Equality of lists. -/
def eqL : List Nat → List Nat → Bool
  | [], [] => true
  | a :: l, b :: m => (Nat.beq a b).and (eqL l m)
  | _, _ => false

/-- Entry `n` of a list of numbers. -/
noncomputable def nn (l : List Nat) : Nat → Nat := List.rec (fun _ => 0) (fun a _ ih n => Nat.rec a (fun n _ => ih n) n) l

/-- The rotation offsets of ρ, by lane `5 * y + x`. -/
def rhoL : List Nat := [0, 1, 62, 28, 27, 36, 44, 6, 55, 20, 3, 10, 43, 25, 39, 41, 45, 15, 21, 8, 18, 2, 61, 56, 14]
/-- The lane that π moves to lane `l`. -/
noncomputable def srcL (l : Nat) : Nat := nn [0, 6, 12, 18, 24, 3, 9, 10, 16, 22, 1, 7, 13, 19, 20, 4, 5, 11, 17, 23, 2, 8, 14, 15, 21] l
/-- The lane to which π moves lane `l`. -/
noncomputable def dstL (l : Nat) : Nat := nn [0, 10, 20, 5, 15, 16, 1, 11, 21, 6, 7, 17, 2, 12, 22, 23, 8, 18, 3, 13, 14, 24, 9, 19, 4] l
/-- The lane to the right of `l` in its row. -/
noncomputable def nextL (l : Nat) : Nat := nn [1, 2, 3, 4, 0, 6, 7, 8, 9, 5, 11, 12, 13, 14, 10, 16, 17, 18, 19, 15, 21, 22, 23, 24, 20] l

/-- The symbol of an atom. -/
def sym (a : Nat) : Nat := Nat.div a 64
/-- The kind of symbol of an atom. -/
def kind (a : Nat) : Nat := Nat.mod (Nat.div a 64) 64
/-- The state and the round of an atom. -/
def rnd (a : Nat) : Nat := Nat.div a 4096
/-- The rotation of an atom. -/
def amt (a : Nat) : Nat := Nat.mod a 64
/-- An atom. -/
def mkA (z y o : Nat) : Nat := Nat.add (Nat.mul 4096 z) (Nat.add (Nat.mul 64 y) o)
/-- Rotate an atom left by `n ≤ 64`. -/
def rotA (n a : Nat) : Nat := Nat.add (Nat.mul 64 (sym a)) (Nat.mod (Nat.add a n) 64)

/-- Sum of two sorted lists of atoms. -/
def mergeL : Nat → List Nat → List Nat → List Nat
  | 0, l, m => l ++ m
  | _ + 1, [], m => m
  | _ + 1, l, [] => l
  | f + 1, a :: l, b :: m => cond (Nat.beq a b) (mergeL f l m) (cond (Nat.ble a b) (a :: mergeL f l (b :: m)) (b :: mergeL f (a :: l) m))

/-- Do two atoms sum to the entry of θ for column `x` of round `z`, rotated by `o`? -/
noncomputable def isD (z x o a b : Nat) : Bool :=
  (Nat.beq a (mkA z (Nat.add 25 (nn [4, 0, 1, 2, 3] x)) o)).and ((Nat.beq b (mkA z (Nat.add 25 (nn [1, 2, 3, 4, 0] x)) (Nat.mod (Nat.succ o) 64))).and (Nat.ble x 4))
/-- Name the sum of two atoms by an entry of θ, the first rotated less than the second. -/
noncomputable def recD (a b : Nat) (l : List Nat) : List Nat :=
  force (rnd a) fun z => force (nn [1, 2, 3, 4, 0] (Nat.sub (kind a) 25)) fun x => force (amt a) fun o =>
  cond (isD z x o a b) [mkA z (Nat.add 30 x) o] l

/-- Name a sum of atoms. -/
noncomputable def recL (l : List Nat) : List Nat :=
  match l with
  | [a, b] => force (kind a) fun y =>
    cond (Nat.ble y 24) (cond (Nat.beq (Nat.add b (Nat.mul 64 y)) (Nat.add a (Nat.mul 64 (Nat.add 30 (Nat.mod y 5))))) [Nat.add a 2240] l)
      (cond (Nat.ble y 29) (recD a b (recD b a l)) l)
  | [a, b, c, d, f] =>
    cond ((Nat.ble (kind a) 4).and ((Nat.beq b (Nat.add a 320)).and ((Nat.beq c (Nat.add a 640)).and ((Nat.beq d (Nat.add a 960)).and (Nat.beq f (Nat.add a 1280))))))
      [Nat.add a 1600] l
  | l => l

/-- The atom of lane `y` after θ in round `z`, rotated by ρ and by `o`. -/
noncomputable def atB (z y o : Nat) : Nat := mkA z (Nat.add 35 y) (Nat.mod (Nat.add o (nn rhoL y)) 64)
/-- The lane of the next round that `p xor (a and not b)` is, before ι; with the rotation. -/
noncomputable def laneChi (p a b : Nat) : Option (Nat × Nat × Nat) :=
  force (kind p) fun y => force (rnd p) fun z => force (Nat.sub y 35) fun y' =>
  force (dstL y') fun l => force (Nat.mod (Nat.sub (Nat.add (amt p) 64) (nn rhoL y')) 64) fun o =>
  force (nextL l) fun l1 => force (nextL l1) fun l2 =>
  cond ((Nat.ble 35 y).and ((Nat.ble y 59).and ((Nat.ble (Nat.mod z 25) 23).and
    ((Nat.beq p (atB z (srcL l) o)).and ((Nat.beq a (atB z (srcL l2) o)).and (Nat.beq b (atB z (srcL l1) o)))))))
    (some (z, l, o)) none

/-- The round constants as numbers. -/
def rcL : List Nat := [0x0000000000000001, 0x0000000000008082, 0x800000000000808a, 0x8000000080008000, 0x000000000000808b, 0x0000000080000001, 0x8000000080008081, 0x8000000000008009,
  0x000000000000008a, 0x0000000000000088, 0x0000000080008009, 0x000000008000000a, 0x000000008000808b, 0x800000000000008b, 0x8000000000008089, 0x8000000000008003,
  0x8000000000008002, 0x8000000000000080, 0x000000000000800a, 0x800000008000000a, 0x8000000080008081, 0x8000000000008080, 0x0000000080000001, 0x8000000080008008]

/-- `p xor (a and not b)`, named if possible. -/
noncomputable def chiE (p a b : Nat) : E :=
  match laneChi p a b with
  | some (z, l, o) => cond (Nat.beq l 0) (.chi p a b) (.lin [mkA (Nat.succ z) l o])
  | none => .chi p a b
/-- `p xor (a and not b)` and a round constant. -/
noncomputable def iotaE (p a b w : Nat) : Option E :=
  match laneChi p a b with
  | some (z, l, o) => cond ((Nat.beq l 0).and ((Nat.beq o 0).and (Nat.beq w (nn rcL (Nat.mod z 25))))) (some (.lin [Nat.mul 4096 (Nat.succ z)])) none
  | _ => none

/-- Exclusive or. -/
noncomputable def xorE (x y : E) : Option E :=
  match x with
  | .lin l => match y with
    | .lin m => fL (mergeL 12 l m) fun n => some (.lin (recL n))
    | .bic a b => match l with
      | [p] => some (chiE p a b)
      | _ => none
    | _ => none
  | .bic a b => match y with
    | .lin [p] => some (chiE p a b)
    | _ => none
  | .chi p a b => match y with
    | .k w => iotaE p a b w
    | _ => none
  | .k w => match y with
    | .chi p a b => iotaE p a b w
    | _ => none
  | _ => none
/-- Rotate all atoms of a list. -/
def mapL (n : Nat) : List Nat → List Nat
  | [] => []
  | a :: l => rotA n a :: mapL n l
/-- Rotation to the left by `n ≤ 64`. -/
def rotE (n : Nat) (x : E) : Option E :=
  match x with
  | .lin l => some (.lin (mapL n l))
  | .bic a b => some (.bic (rotA n a) (rotA n b))
  | _ => none
/-- Rotation to the right. -/
def rorE (n : Nat) (x : E) : Option E := cond (Nat.beq n 0) (some x) (cond (Nat.ble n 64) (rotE (Nat.sub 64 n) x) none)
/-- `x and not y`. -/
def bicE (x y : E) : Option E :=
  match x, y with
  | .lin [a], .lin [b] => some (.bic a b)
  | _, _ => none
/-- Sum modulo `2^64`, of equal operands only. -/
def addE (x y : E) : Option E :=
  match x, y with
  | .lin l, .lin m => cond (eqL l m) (some (.shl 1 l)) none
  | _, _ => none
/-- Left shift. -/
def shlE (n : Nat) (x : E) : Option E :=
  match x with
  | .lin l => some (.shl n l)
  | _ => none
/-- `sri`. -/
def sriE (i : Nat) (d x : E) : Option E :=
  match d, x with
  | .shl n l, .lin m => cond ((eqL l m).and (Nat.beq (Nat.add n i) 64)) (rotE n (.lin l)) none
  | _, _ => none

/-! ## Execution on descriptions -/

/-- The two elements of a vector register. -/
abbrev P := Option E × Option E
/-- Vector register `n`. -/
noncomputable def nthP (l : List P) : Nat → P := List.rec (fun _ => (none, none)) (fun a _ ih n => Nat.rec a (fun n _ => ih n) n) l

/-- A described machine state: general-purpose registers, vector registers (of two elements each), the operands of the last comparison, the Keccak states and the
stack. -/
structure D where
  X : List (Option XD)
  V : List P
  F : Option (Nat × Nat)
  S : List (Option E)
  K : List (Option XD)

/-- Continuations. -/
abbrev Cont := List (Option XD) → List P → Option (Nat × Nat) → List (Option E) → List (Option XD) → Option D

/-- The object and the cell at `off` bytes from the address in register `n`. -/
noncomputable def aaddr (X : List (Option XD)) (n off : Nat) : Option (Obj × Nat) :=
  match nth X n with
  | some (.ptr o p) => cond (Nat.beq (Nat.mod (Nat.add p off) 8) 0) (some (o, Nat.div (Nat.add p off) 8)) none
  | _ => none
/-- Load a cell. -/
noncomputable def ald (X : List (Option XD)) (S : List (Option E)) (K : List (Option XD)) (n off : Nat) : Option XD :=
  match aaddr X n off with
  | some (.st, i) => match nth S i with
    | some x => some (.w x)
    | none => none
  | some (.rc, i) => cond (Nat.ble i 23) (some (.w (.k (nn rcL i)))) none
  | some (.stk, i) => nth K i
  | none => none
/-- Load a number. -/
noncomputable def aldw (X : List (Option XD)) (S : List (Option E)) (K : List (Option XD)) (n off : Nat) : Option E :=
  match ald X S K n off with
  | some (.w x) => some x
  | _ => none
/-- Store a cell. -/
noncomputable def asto (X : List (Option XD)) (S : List (Option E)) (K : List (Option XD)) (n off : Nat) (v : XD) (k : List (Option E) → List (Option XD) → Option D) : Option D :=
  match aaddr X n off with
  | some (.st, i) => match v with
    | .w x => setF S i (some x) fun S => k S K
    | _ => none
  | some (.rc, _) => none
  | some (.stk, i) => setF K i (some v) fun K => k S K
  | none => none
/-- Write a general-purpose register. -/
noncomputable def aputx (X : List (Option XD)) (d : Nat) (v : XD) (k : List (Option XD) → Option D) : Option D := fX v fun v => setF X d (some v) k
/-- Write a vector register. -/
noncomputable def aput (V : List P) (d : Nat) (v w : Option E) (k : List P → Option D) : Option D := fO v fun v => fO w fun w => setF V d (v, w) k
/-- Write an element of a vector register. -/
noncomputable def apute (V : List P) (d e : Nat) (v : Option E) (k : List P → Option D) : Option D :=
  Nat.rec (aput V d v (nthP V d).2 k) (fun _ _ => aput V d (nthP V d).1 v k) e
/-- Add to a register. -/
def aplus (v : XD) (i : Nat) : Option XD :=
  match v with
  | .ptr o p => some (.ptr o (p + i))
  | .w (.k w) => some (.w (.k ((w + i) % 18446744073709551616)))
  | _ => none
/-- Subtract from a register. -/
def aminus (v : XD) (i : Nat) : Option XD :=
  match v with
  | .ptr o p => if Nat.ble i p then some (.ptr o (p - i)) else none
  | .w (.k w) => if Nat.ble i w then some (.w (.k (w - i))) else none
  | _ => none
/-- Post-index. -/
noncomputable def abump (X : List (Option XD)) (n inc : Nat) (k : List (Option XD) → Option D) : Option D :=
  match nth X n with
  | some v => (aplus v inc).bind fun v => aputx X n v k
  | none => none
/-- The expression in a register. -/
noncomputable def wOf (X : List (Option XD)) (n : Nat) : Option E :=
  match nth X n with
  | some (.w x) => some x
  | _ => none
/-- The number in a register. -/
noncomputable def kOf (X : List (Option XD)) (n : Nat) : Option Nat :=
  match nth X n with
  | some (.w (.k w)) => some w
  | _ => none
/-- Element `e` of register `r`. -/
noncomputable def vOf (V : List P) (r e : Nat) : Option E := Nat.rec (nthP V r).1 (fun _ _ => (nthP V r).2) e
/-- Combine two optional expressions. -/
noncomputable def op2 (f : E → E → Option E) (x y : Option E) : Option E := x.bind fun x => y.bind fun y => f x y

/-- Run one instruction on a description. -/
noncomputable def arun1 (i : Ins) (X : List (Option XD)) (V : List P) (F : Option (Nat × Nat)) (S : List (Option E)) (K : List (Option XD)) (k : Cont) : Option D :=
  match i with
  | .adr d => aputx X d (.ptr .rc 0) fun X => k X V F S K
  | .mov_i d i => if Nat.ble i 65535 then aputx X d (.w (.k i)) fun X => k X V F S K else none
  | .add_i d a i => (nth X a).bind fun v => (aplus v i).bind fun v => aputx X d v fun X => k X V F S K
  | .sub_i d a i => (nth X a).bind fun v => (aminus v i).bind fun v => aputx X d v fun X => k X V F S K
  | .cmp_i a i => (kOf X a).bind fun w => force w fun w => force i fun i => if Nat.ble w 65535 && Nat.ble i 65535 then k X V (some (w, i)) S K else none
  | .ldr d n off => (ald X S K n off).bind fun v => aputx X d v fun X => k X V F S K
  | .str r n off => (nth X r).bind fun v => asto X S K n off v fun S K => k X V F S K
  | .ldr_w d n m => (kOf X m).bind fun w => if Nat.ble w 65535 then (ald X S K n (8 * w)).bind fun v => aputx X d v fun X => k X V F S K else none
  | .ldp d0 d1 n off => (ald X S K n off).bind fun v0 => (ald X S K n (off + 8)).bind fun v1 => aputx X d0 v0 fun X => aputx X d1 v1 fun X => k X V F S K
  | .stp r0 r1 n off => (nth X r0).bind fun v0 => (nth X r1).bind fun v1 => asto X S K n off v0 fun S K => asto X S K n (off + 8) v1 fun S K => k X V F S K
  | .ldp_d d0 d1 n off => (aldw X S K n off).bind fun v0 => (aldw X S K n (off + 8)).bind fun v1 =>
      aput V d0 (some v0) none fun V => aput V d1 (some v1) none fun V => k X V F S K
  | .stp_d r0 r1 n off => (vOf V r0 0).bind fun v0 => (vOf V r1 0).bind fun v1 => asto X S K n off (.w v0) fun S K => asto X S K n (off + 8) (.w v1) fun S K => k X V F S K
  | .ror d a r => (wOf X a).bind fun x => (rorE r x).bind fun x => aputx X d (.w x) fun X => k X V F S K
  | .eor d a b r => (wOf X a).bind fun x => (wOf X b).bind fun y => (rorE r y).bind fun y => (xorE x y).bind fun x => aputx X d (.w x) fun X => k X V F S K
  | .bic d a b r => (wOf X a).bind fun x => (wOf X b).bind fun y => (rorE r y).bind fun y => (bicE x y).bind fun x => aputx X d (.w x) fun X => k X V F S K
  | .ld1 d e n inc => if Nat.ble e 1 then (aldw X S K n 0).bind fun v => apute V d e (some v) fun V => abump X n inc fun X => k X V F S K else none
  | .ld2 d0 d1 e n inc => if Nat.ble e 1 then (aldw X S K n 0).bind fun v0 => (aldw X S K n 8).bind fun v1 =>
      apute V d0 e (some v0) fun V => apute V d1 e (some v1) fun V => abump X n inc fun X => k X V F S K else none
  | .st1 r e n inc => if Nat.ble e 1 then (vOf V r e).bind fun v => asto X S K n 0 (.w v) fun S K => abump X n inc fun X => k X V F S K else none
  | .st2 r0 r1 e n inc => if Nat.ble e 1 then (vOf V r0 e).bind fun v0 => (vOf V r1 e).bind fun v1 =>
      asto X S K n 0 (.w v0) fun S K => asto X S K n 8 (.w v1) fun S K => abump X n inc fun X => k X V F S K else none
  | .ld1r d n inc => (aldw X S K n 0).bind fun v => aput V d (some v) (some v) fun V => abump X n inc fun X => k X V F S K
  | .veor d a b => aput V d (op2 xorE (vOf V a 0) (vOf V b 0)) (op2 xorE (vOf V a 1) (vOf V b 1)) fun V => k X V F S K
  | .vbic d a b => aput V d (op2 bicE (vOf V a 0) (vOf V b 0)) (op2 bicE (vOf V a 1) (vOf V b 1)) fun V => k X V F S K
  | .vadd d a b => aput V d (op2 addE (vOf V a 0) (vOf V b 0)) (op2 addE (vOf V a 1) (vOf V b 1)) fun V => k X V F S K
  | .shl d a i => if Nat.ble i 63 then aput V d ((vOf V a 0).bind (shlE i)) ((vOf V a 1).bind (shlE i)) fun V => k X V F S K else none
  | .sri d a i => aput V d (op2 (sriE i) (vOf V d 0) (vOf V a 0)) (op2 (sriE i) (vOf V d 1) (vOf V a 1)) fun V => k X V F S K
  | .eor3 d a b c => aput V d (op2 xorE (op2 xorE (vOf V a 0) (vOf V b 0)) (vOf V c 0)) (op2 xorE (op2 xorE (vOf V a 1) (vOf V b 1)) (vOf V c 1)) fun V => k X V F S K
  | .rax1 d a b => aput V d (op2 xorE (vOf V a 0) ((vOf V b 0).bind (rotE 1))) (op2 xorE (vOf V a 1) ((vOf V b 1).bind (rotE 1))) fun V => k X V F S K
  | .xar d a b i => aput V d ((op2 xorE (vOf V a 0) (vOf V b 0)).bind (rorE i)) ((op2 xorE (vOf V a 1) (vOf V b 1)).bind (rorE i)) fun V => k X V F S K
  | .bcax d a b c => aput V d (op2 xorE (op2 bicE (vOf V b 0) (vOf V c 0)) (vOf V a 0)) (op2 xorE (op2 bicE (vOf V b 1) (vOf V c 1)) (vOf V a 1)) fun V => k X V F S K

/-- Run straight-line code on a description. -/
noncomputable def arunI : List Ins → List (Option XD) → List P → Option (Nat × Nat) → List (Option E) → List (Option XD) → Cont → Option D
  | [], X, V, F, S, K, k => k X V F S K
  | i :: l, X, V, F, S, K, k => arun1 i X V F S K fun X V F S K => arunI l X V F S K k

/-- Run a function on a description. -/
noncomputable def arunB (prog : List Block) : Nat → Nat → List (Option XD) → List P → Option (Nat × Nat) → List (Option E) → List (Option XD) → Option D
  | 0, _, _, _, _, _, _ => none
  | f + 1, pc, X, V, F, S, K =>
    match prog[pc]? with
    | none => none
    | some b => arunI b.ins X V F S K fun X V F S K =>
      match b.fin with
      | .next => arunB prog f (pc + 1) X V F S K
      | .b t => arunB prog f t X V F S K
      | .ret => some ⟨X, V, F, S, K⟩
      | .cbnz r t => match kOf X r with
        | some w => if Nat.ble 65536 w then none else if Nat.beq w 0 then arunB prog f (pc + 1) X V F S K else arunB prog f t X V F S K
        | none => none
      | .ble t => match F with
        | some (a, b) => if Nat.ble a b then arunB prog f t X V F S K else arunB prog f (pc + 1) X V F S K
        | none => none
      | .beq t => match F with
        | some (a, b) => if Nat.beq a b then arunB prog f t X V F S K else arunB prog f (pc + 1) X V F S K
        | none => none

/-! ## The description at the start and at the end -/

/-- The expressions of one atom each. -/
def atoms : List Nat → List (Option E)
  | [] => []
  | a :: l => some (.lin [a]) :: atoms l
/-- The registers on entry. -/
def startX (frame : Nat) : List (Option XD) := some (.ptr .st 0) :: ((List.range' 1 30).map fun i => some (.r i)) ++ [some (.ptr .stk frame)]
/-- The vector registers on entry. -/
def startV : List P := (List.range 32).map fun i => (some (.lin [64 * (64 * (2 * i) + 63)]), some (.lin [64 * (64 * (2 * i + 1) + 63)]))
/-- The lanes of `n` states before round `r`. -/
def lanesD (n r : Nat) : List (Option E) := atoms ((List.range (25 * n)).map fun i => 64 * (64 * (25 * (i / 25) + r) + i % 25))
/-- Run a function on a description. -/
noncomputable def arun (prog : List Block) (n frame : Nat) : Option D :=
  fXs (startX frame) fun X => fPs startV fun V => fOs (lanesD n 0) fun S => fXs ((List.range (frame / 8)).map fun _ => none) fun K => arunB prog 100 0 X V none S K

/-- A list of one atom. -/
def isAtom (a : Nat) : Option E → Bool
  | some (.lin [b]) => Nat.beq a b
  | _ => false
/-- What a register held on entry. -/
def isEntry (i : Nat) : Option XD → Bool
  | some (.r j) => Nat.beq i j
  | _ => false
/-- The lanes agree. -/
def allAtoms : List Nat → List (Option E) → Bool
  | [], [] => true
  | a :: l, x :: m => isAtom a x && allAtoms l m
  | _, _ => false
/-- The function permutes `n` states and preserves the registers of its caller. -/
noncomputable def correct (prog : List Block) (n frame : Nat) : Bool :=
  match arun prog n frame with
  | some d => allAtoms ((List.range (25 * n)).map fun i => 64 * (64 * (25 * (i / 25) + 24) + i % 25)) d.S &&
      (List.range' 18 13).all (fun i => isEntry i (nth d.X i)) && (List.range' 8 8).all (fun i => isAtom (64 * (64 * (2 * i) + 63)) (vOf d.V i 0)) &&
      (match nth d.X 31 with | some (.ptr .stk p) => Nat.beq p frame | _ => false)
  | none => false

end Verif.A64K

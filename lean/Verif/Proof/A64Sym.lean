import Verif.Model.A64Asm
import Verif.Proof.X86Sym
/-! # Symbolic execution of the AArch64 assembly, inside the kernel

As `Verif.Proof.X86Sym`, for the machine of `Verif.Model.A64Asm`: vector registers and memory are described by expressions over variables, general-purpose registers are known exactly, and
loops are followed until they end.  `arunB_sound` says that the machine, started in a state that fits the description, runs without error and ends in a state that fits the final description. -/
namespace Verif.A64
open Verif Model Model.A64 Spec
open Verif.Eval (force force_eq)
open Verif.Model.X86 (s16 ldw stw)
open Verif.X86 (nth mth setF setF_some setF_mth fInt fInt_eq Ext s16_bounds s16_id s16_add s16_exists s16_u16 u16_lt ldw_spec stw_spec)

/-- Expressions for one element.  `v i t b`: variable `i` with tag `t` and bound `b`; `u i`: a variable about which nothing is known. -/
inductive E where
  | v (i t b : Nat)
  | u (i : Nat)
  | c (x : Int)
  | add (x y : E)
  | sub (x y : E)
  | mullo (x y : E)
  | rdmulh (x y : E)
  | dmulh (x y : E)
  | rshr (n : Nat) (x : E)
  | sra (n : Nat) (x : E)
  | band (x y : E)
  /-- 32-bit product -/
  | mul (x y : E)
  /-- 32-bit sum with a product -/
  | mla (d x y : E)
  /-- low half of 32 bits -/
  | lo (x : E)
  /-- high half of 32 bits -/
  | hi (x : E)
  /-- low byte after a right shift -/
  | nar (n : Nat) (x : E)
  /-- `sli` on bytes -/
  | sli (n : Nat) (d x : E)
deriving DecidableEq

/-- The value of an expression, given those of the variables. -/
def E.eval (e : Nat → Int) : E → Int
  | .v i _ _ => e i
  | .u i => e i
  | .c x => x
  | .add x y => s16 (x.eval e + y.eval e)
  | .sub x y => s16 (x.eval e - y.eval e)
  | .mullo x y => s16 (x.eval e * y.eval e)
  | .rdmulh x y => A64.rdmulh (x.eval e) (y.eval e)
  | .dmulh x y => A64.dmulh (x.eval e) (y.eval e)
  | .rshr n x => A64.rshr n (x.eval e)
  | .sra n x => x.eval e / 2 ^ n
  | .band x y => s16 ((u16 (x.eval e) &&& u16 (y.eval e) : Nat) : Int)
  | .mul x y => x.eval e * y.eval e
  | .mla d x y => s32 (d.eval e + x.eval e * y.eval e)
  | .lo x => s16 (x.eval e)
  | .hi x => s16 (x.eval e / 65536)
  | .nar n x => ((u16 (x.eval e) / 2 ^ n % 256 : Nat) : Int)
  | .sli n d x => (((x.eval e).toNat * 2 ^ n % 256 + (d.eval e).toNat % 2 ^ n) % 256 : Nat)

/-- What is known about tags: the tag of a sum, of a difference, of a product with a constant, and of a reduced value. -/
structure TagOps where
  add : Nat → Nat → Option Nat
  sub : Nat → Nat → Option Nat
  mul : Nat → Int → Option Nat
  red : Nat → Option Nat

/-- The tags are consistent with an assignment of values. -/
structure TagOps.Sound (T : TagOps) (Val : Nat → Zq) : Prop where
  add : ∀ t t' u, T.add t t' = some u → Val u = Val t + Val t'
  sub : ∀ t t' u, T.sub t t' = some u → Val u = Val t - Val t'
  mul : ∀ t z u, T.mul t z = some u → Val u = Val t * (z : Zq)
  red : ∀ t u, T.red t = some u → Val u = Val t

/-- No tags. -/
def noTags : TagOps := ⟨fun _ _ => none, fun _ _ => none, fun _ _ => none, fun _ => none⟩
theorem noTags_sound (Val : Nat → Zq) : noTags.Sound Val := ⟨fun _ _ _ h => (nomatch h), fun _ _ _ h => (nomatch h), fun _ _ _ h => (nomatch h), fun _ _ h => (nomatch h)⟩

/-- Replace an expression by a fresh variable, if its tag is known and its bound is small enough. -/
def fresh (n : Nat) (o : Option Nat) (b : Nat) (x : E) : E × Nat :=
  match o with
  | some t => if Nat.ble b 32767 then (.v n t b, n + 1) else (x, n)
  | none => (x, n)

/-- The bound on a Barrett product with the constants `z` and `zt` (its rounded quotient by q). -/
def mulBound (b : Nat) (z zt : Int) : Nat := (b * (z * 32768 - zt * 3329).natAbs + 54542336) / 32768

/-- Recognise an expression. -/
def norm (T : TagOps) (n : Nat) (x : E) : E × Nat :=
  match x with
  | .add (.v _ t b) (.v _ t' b') => fresh n (T.add t t') (b + b') x
  | .sub (.v _ t b) (.v _ t' b') => fresh n (T.sub t t') (b + b') x
  | .sub (.mullo (.v i t b) (.c z)) (.mullo (.rdmulh (.v i' _ _) (.c zt)) (.c q)) =>
    if Nat.beq i i' && decide (q = 3329) && decide (-32767 ≤ zt) && decide (zt ≤ 32767) then fresh n (T.mul t z) (mulBound b z zt) x else (x, n)
  | .sub (.v i t _) (.mullo (.rshr k (.dmulh (.v i' _ _) (.c w))) (.c q)) =>
    if Nat.beq i i' && Nat.beq k 11 && decide (w = 20159) && decide (q = 3329) then fresh n (T.red t) 1664 x else (x, n)
  | _ => (x, n)

/-! ## Evaluation order in the kernel -/

/-- Evaluate an expression first. -/
noncomputable def fE {β : Type} (x : E) (k : E → β) : β :=
  E.rec (motive := fun _ => (E → β) → β)
    (fun i t b k => force i fun i => force t fun t => force b fun b => k (.v i t b))
    (fun i k => force i fun i => k (.u i))
    (fun x k => fInt x fun x => k (.c x))
    (fun _ _ f g k => f fun x => g fun y => k (.add x y))
    (fun _ _ f g k => f fun x => g fun y => k (.sub x y))
    (fun _ _ f g k => f fun x => g fun y => k (.mullo x y))
    (fun _ _ f g k => f fun x => g fun y => k (.rdmulh x y))
    (fun _ _ f g k => f fun x => g fun y => k (.dmulh x y))
    (fun n _ f k => f fun x => k (.rshr n x))
    (fun n _ f k => f fun x => k (.sra n x))
    (fun _ _ f g k => f fun x => g fun y => k (.band x y))
    (fun _ _ f g k => f fun x => g fun y => k (.mul x y))
    (fun _ _ _ f g h k => f fun d => g fun x => h fun y => k (.mla d x y))
    (fun _ f k => f fun x => k (.lo x))
    (fun _ f k => f fun x => k (.hi x))
    (fun n _ f k => f fun x => k (.nar n x))
    (fun n _ _ f g k => f fun d => g fun x => k (.sli n d x)) x k

theorem fE_eq {β : Type} (x : E) (k : E → β) : fE x k = k x := by
  unfold fE
  induction x generalizing k <;> simp_all [fInt_eq]

/-! ## Execution on descriptions -/

/-- Described elements. -/
abbrev Vec := List E
/-- A described register: as 16-bit elements, as 32-bit elements, or as bytes (the low half only). -/
inductive RV where
  | h (l : Vec)
  | s (l : Vec)
  | b (l : Vec)

/-- Element `k`. -/
def gt : Vec → Nat → E
  | [], _ => .c 0
  | a :: _, 0 => a
  | _ :: l, n + 1 => gt l n
/-- Eight elements given by a function. -/
def tab (f : Nat → E) : Vec := [f 0, f 1, f 2, f 3, f 4, f 5, f 6, f 7]
/-- Four elements given by a function. -/
def tab4 (f : Nat → E) : Vec := [f 0, f 1, f 2, f 3]
/-- The elements from `m` on given by a function. -/
def tabN (f : Nat → E) : Nat → Nat → Vec
  | _, 0 => []
  | m, n + 1 => f m :: tabN f (m + 1) n

/-- The number of an object. -/
def idx : Obj → Nat
  | .a0 => 0 | .a1 => 1 | .a2 => 2 | .a3 => 3 | .stk => 4 | .tab _ => 5
/-- Drop elements. -/
def dropF : List Int → Nat → List Int
  | l, 0 => l
  | [], _ => []
  | _ :: l, n + 1 => dropF l n
/-- The first `n` elements, as constants, if they are in range. -/
def takeC : List Int → Nat → Option Vec
  | _, 0 => some []
  | [], _ => none
  | a :: l, n + 1 => if decide (-32768 ≤ a) && decide (a ≤ 32767) then (takeC l n).map fun v => .c a :: v else none

/-- The object and the byte offset of `[xn, #off]`. -/
def aaddr (X : List (Option Reg)) (n : Nat) (off : Int) : Option (Obj × Nat) :=
  match nth X n with
  | some (.ptr o p) => match p + off with
    | .ofNat q => some (o, q)
    | .negSucc _ => none
  | _ => none
/-- The eight elements at `[xn, #off]`. -/
def aload (X : List (Option Reg)) (W : List (List (Option Vec))) (n : Nat) (off : Int) : Option Vec :=
  match aaddr X n off with
  | some (o, q) => if Nat.beq (q % 16) 0 then (match o with
      | .tab t => takeC (dropF t.data (q / 2)) 8
      | o => nth (mth W (idx o)) (q / 16)) else none
  | none => none
/-- The element of a table at `[xn, #off]`. -/
def aloadT (X : List (Option Reg)) (n : Nat) (off : Int) : Option Int :=
  match aaddr X n off with
  | some (.tab t, q) => if Nat.beq (q % 2) 0 then (match dropF t.data (q / 2) with
      | a :: _ => some a
      | [] => none) else none
  | _ => none

/-- The result of `arunB`. -/
structure Res where
  n : Nat
  X : List (Option Reg)
  R : List (Option RV)
  W : List (List (Option Vec))
  B : List (List (Option Vec))

/-- Store the eight elements `l` at `[xn, #off]`. -/
def astore (X : List (Option Reg)) (W : List (List (Option Vec))) (n : Nat) (off : Int) (l : Vec) (k : List (List (Option Vec)) → Option Res) : Option Res :=
  match aaddr X n off with
  | some (o, q) => if Nat.beq (q % 16) 0 then (match o with
      | .tab _ => none
      | o => setF (mth W (idx o)) (q / 16) (some l) fun m => setF W (idx o) m k) else none
  | none => none
/-- Store 24 bytes at `[xn]`. -/
def astore24 (X : List (Option Reg)) (B : List (List (Option Vec))) (n : Nat) (l : Vec) (k : List (List (Option Vec)) → Option Res) : Option Res :=
  match aaddr X n 0 with
  | some (o, q) => if Nat.beq (q % 24) 0 then (match o with
      | .tab _ => none
      | o => setF (mth B (idx o)) (q / 24) (some l) fun m => setF B (idx o) m k) else none
  | none => none

/-- Recognise the elements of a vector one after another. -/
noncomputable def normF {β : Type} (T : TagOps) (n : Nat) (l : Vec) (k : Vec → Nat → β) : β :=
  match l with
  | [] => k [] n
  | x :: l => fE x fun x => match norm T n x with
    | (y, n) => fE y fun y => force n fun n => normF T n l fun l n => k (y :: l) n

/-- Evaluate the elements of a vector. -/
noncomputable def fL {β : Type} (l : Vec) (k : Vec → β) : β :=
  match l with
  | [] => k []
  | x :: l => fE x fun x => fL l fun l => k (x :: l)

/-- Write a vector register. -/
noncomputable def putR (T : TagOps) (n : Nat) (R : List (Option RV)) (d : Nat) (a : RV) (k : Nat → List (Option RV) → Option Res) : Option Res :=
  match a with
  | .h l => normF T n l fun l n => setF R d (some (.h l)) fun R => k n R
  | .s l => fL l fun l => setF R d (some (.s l)) fun R => k n R
  | .b l => fL l fun l => setF R d (some (.b l)) fun R => k n R

/-- Add to a general-purpose register. -/
def plusF {β : Type} (a : Reg) (i : Int) (k : Reg → β) : β :=
  match a with
  | .num x => fInt ((x + i) % 18446744073709551616) fun x => k (.num x)
  | .ptr o p => fInt (p + i) fun p => k (.ptr o p)
/-- Write a general-purpose register. -/
def putX (X : List (Option Reg)) (d : Nat) (a : Reg) (k : List (Option Reg) → Option Res) : Option Res := setF X d (some a) k
/-- Post-index. -/
def abump (X : List (Option Reg)) (n : Nat) (i : Int) (k : List (Option Reg) → Option Res) : Option Res :=
  match nth X n with
  | some a => plusF a i fun a => putX X n a k
  | none => none

/-- A register as 16-bit elements. -/
def hOf (R : List (Option RV)) (r : Nat) : Option Vec :=
  match nth R r with
  | some (.h l) => some l
  | some (.s l) => some (tab fun k => if Nat.beq (k % 2) 0 then .lo (gt l (k / 2)) else .hi (gt l (k / 2)))
  | _ => none
/-- A register as 32-bit elements. -/
def sOf (R : List (Option RV)) (r : Nat) : Option Vec :=
  match nth R r with
  | some (.s l) => some l
  | _ => none
/-- A register as bytes. -/
def bOf (R : List (Option RV)) (r : Nat) : Option Vec :=
  match nth R r with
  | some (.b l) => some l
  | _ => none

/-- The effect of an instruction that only computes: destination and elements. -/
def alu (i : Ins) (X : List (Option Reg)) (R : List (Option RV)) : Option (Nat × RV) :=
  match i with
  | .dup d a => match nth X a with
    | some (.num x) => some (d, .h (tab fun _ => .c (s16 x)))
    | _ => none
  | .add d a b => (hOf R a).bind fun x => (hOf R b).map fun y => (d, .h (tab fun k => .add (gt x k) (gt y k)))
  | .sub d a b => (hOf R a).bind fun x => (hOf R b).map fun y => (d, .h (tab fun k => .sub (gt x k) (gt y k)))
  | .mul d a b => (hOf R a).bind fun x => (hOf R b).map fun y => (d, .h (tab fun k => .mullo (gt x k) (gt y k)))
  | .mul_e d a b i => if Nat.ble i 7 then (hOf R a).bind fun x => (hOf R b).map fun y => (d, .h (tab fun k => .mullo (gt x k) (gt y i))) else none
  | .mls_e d a b i => if Nat.ble i 7 then (hOf R a).bind fun x => (hOf R b).bind fun y => (hOf R d).map fun z => (d, .h (tab fun k => .sub (gt z k) (.mullo (gt x k) (gt y i)))) else none
  | .sqrdmulh d a b => (hOf R a).bind fun x => (hOf R b).map fun y => (d, .h (tab fun k => .rdmulh (gt x k) (gt y k)))
  | .sqrdmulh_e d a b i => if Nat.ble i 7 then (hOf R a).bind fun x => (hOf R b).map fun y => (d, .h (tab fun k => .rdmulh (gt x k) (gt y i))) else none
  | .sqdmulh_e d a b i => if Nat.ble i 7 then (hOf R a).bind fun x => (hOf R b).map fun y => (d, .h (tab fun k => .dmulh (gt x k) (gt y i))) else none
  | .srshr d a i => if Nat.ble 1 i then (hOf R a).map fun x => (d, .h (tab fun k => .rshr i (gt x k))) else none
  | .sshr d a i => (hOf R a).map fun x => (d, .h (tab fun k => .sra i (gt x k)))
  | .and d a b => (hOf R a).bind fun x => (hOf R b).map fun y => (d, .h (tab fun k => .band (gt x k) (gt y k)))
  | .trn1_4s d a b => (hOf R a).bind fun x => (hOf R b).map fun y => (d, .h [gt x 0, gt x 1, gt y 0, gt y 1, gt x 4, gt x 5, gt y 4, gt y 5])
  | .trn2_4s d a b => (hOf R a).bind fun x => (hOf R b).map fun y => (d, .h [gt x 2, gt x 3, gt y 2, gt y 3, gt x 6, gt x 7, gt y 6, gt y 7])
  | .trn1_2d d a b => (hOf R a).bind fun x => (hOf R b).map fun y => (d, .h [gt x 0, gt x 1, gt x 2, gt x 3, gt y 0, gt y 1, gt y 2, gt y 3])
  | .trn2_2d d a b => (hOf R a).bind fun x => (hOf R b).map fun y => (d, .h [gt x 4, gt x 5, gt x 6, gt x 7, gt y 4, gt y 5, gt y 6, gt y 7])
  | .uzp1 d a b => (hOf R a).bind fun x => (hOf R b).map fun y => (d, .h [gt x 0, gt x 2, gt x 4, gt x 6, gt y 0, gt y 2, gt y 4, gt y 6])
  | .uzp2 d a b => (hOf R a).bind fun x => (hOf R b).map fun y => (d, .h [gt x 1, gt x 3, gt x 5, gt x 7, gt y 1, gt y 3, gt y 5, gt y 7])
  | .smull d a b => (hOf R a).bind fun x => (hOf R b).map fun y => (d, .s (tab4 fun k => .mul (gt x k) (gt y k)))
  | .smull2 d a b => (hOf R a).bind fun x => (hOf R b).map fun y => (d, .s (tab4 fun k => .mul (gt x (k + 4)) (gt y (k + 4))))
  | .smlal d a b => (hOf R a).bind fun x => (hOf R b).bind fun y => (sOf R d).map fun z => (d, .s (tab4 fun k => .mla (gt z k) (gt x k) (gt y k)))
  | .smlal2 d a b => (hOf R a).bind fun x => (hOf R b).bind fun y => (sOf R d).map fun z => (d, .s (tab4 fun k => .mla (gt z k) (gt x (k + 4)) (gt y (k + 4))))
  | .xtn d a => (hOf R a).map fun x => (d, .b (tab fun k => .nar 0 (gt x k)))
  | .shrn d a i => (hOf R a).map fun x => (d, .b (tab fun k => .nar i (gt x k)))
  | .sli d a i => (bOf R a).bind fun x => (bOf R d).map fun z => (d, .b (tab fun k => .sli i (gt z k) (gt x k)))
  | _ => none

/-- Run one instruction on a description. -/
noncomputable def arun1 (T : TagOps) (i : Ins) (n : Nat) (X : List (Option Reg)) (R : List (Option RV)) (W B : List (List (Option Vec)))
    (k : Nat → List (Option Reg) → List (Option RV) → List (List (Option Vec)) → List (List (Option Vec)) → Option Res) : Option Res :=
  match i with
  | .adr d t => putX X d (.ptr (.tab t) 0) fun X => k n X R W B
  | .mov_i d i => fInt i fun i => putX X d (.num i) fun X => k n X R W B
  | .mov_r d a => (nth X a).bind fun a => putX X d a fun X => k n X R W B
  | .add_i d a i => (nth X a).bind fun a => plusF a i fun a => putX X d a fun X => k n X R W B
  | .sub_i d a i | .subs_i d a i => (nth X a).bind fun a => plusF a (-i) fun a => putX X d a fun X => k n X R W B
  | .ldrsh d m off => (aloadT X m off).bind fun x => fInt x fun x => putX X d (.num x) fun X => k n X R W B
  | .ldrh d m off => (aloadT X m off).bind fun x => fInt (x % 65536) fun x => putX X d (.num x) fun X => k n X R W B
  | .ldr d m off => (aload X W m off).bind fun l => putR T n R d (.h l) fun n R => k n X R W B
  | .ldr_post d m inc | .ld1 d m inc => (aload X W m 0).bind fun l => putR T n R d (.h l) fun n R => abump X m inc fun X => k n X R W B
  | .ld1r d m inc => (aload X W m 0).bind fun l => putR T n R d (.h (tab fun _ => gt l 0)) fun n R => abump X m inc fun X => k n X R W B
  | .ld2 d0 d1 m inc => (aload X W m 0).bind fun f => (aload X W m 16).bind fun g =>
      putR T n R d0 (.h [gt f 0, gt f 2, gt f 4, gt f 6, gt g 0, gt g 2, gt g 4, gt g 6]) fun n R =>
      putR T n R d1 (.h [gt f 1, gt f 3, gt f 5, gt f 7, gt g 1, gt g 3, gt g 5, gt g 7]) fun n R => abump X m inc fun X => k n X R W B
  | .ldp_d d0 d1 m off => (aload X W m off).bind fun l =>
      putR T n R d0 (.h [gt l 0, gt l 1, gt l 2, gt l 3, .c 0, .c 0, .c 0, .c 0]) fun n R =>
      putR T n R d1 (.h [gt l 4, gt l 5, gt l 6, gt l 7, .c 0, .c 0, .c 0, .c 0]) fun n R => k n X R W B
  | .str r m off => (hOf R r).bind fun l => astore X W m off l fun W => k n X R W B
  | .str_post r m inc => (hOf R r).bind fun l => astore X W m 0 l fun W => abump X m inc fun X => k n X R W B
  | .st2 r0 r1 m inc => (hOf R r0).bind fun x => (hOf R r1).bind fun y =>
      astore X W m 0 [gt x 0, gt y 0, gt x 1, gt y 1, gt x 2, gt y 2, gt x 3, gt y 3] fun W =>
      astore X W m 16 [gt x 4, gt y 4, gt x 5, gt y 5, gt x 6, gt y 6, gt x 7, gt y 7] fun W => abump X m inc fun X => k n X R W B
  | .st3 r0 r1 r2 m inc => (bOf R r0).bind fun x => (bOf R r1).bind fun y => (bOf R r2).bind fun z =>
      astore24 X B m [gt x 0, gt y 0, gt z 0, gt x 1, gt y 1, gt z 1, gt x 2, gt y 2, gt z 2, gt x 3, gt y 3, gt z 3,
        gt x 4, gt y 4, gt z 4, gt x 5, gt y 5, gt z 5, gt x 6, gt y 6, gt z 6, gt x 7, gt y 7, gt z 7] fun B => abump X m inc fun X => k n X R W B
  | .st4 r0 r1 r2 r3 m inc => (hOf R r0).bind fun x => (hOf R r1).bind fun y => (hOf R r2).bind fun z => (hOf R r3).bind fun w =>
      astore X W m 0 [gt x 0, gt x 1, gt y 0, gt y 1, gt z 0, gt z 1, gt w 0, gt w 1] fun W =>
      astore X W m 16 [gt x 2, gt x 3, gt y 2, gt y 3, gt z 2, gt z 3, gt w 2, gt w 3] fun W =>
      astore X W m 32 [gt x 4, gt x 5, gt y 4, gt y 5, gt z 4, gt z 5, gt w 4, gt w 5] fun W =>
      astore X W m 48 [gt x 6, gt x 7, gt y 6, gt y 7, gt z 6, gt z 7, gt w 6, gt w 7] fun W => abump X m inc fun X => k n X R W B
  | .stp_d r0 r1 m off => (hOf R r0).bind fun x => (hOf R r1).bind fun y =>
      astore X W m off [gt x 0, gt x 1, gt x 2, gt x 3, gt y 0, gt y 1, gt y 2, gt y 3] fun W => k n X R W B
  | i => (alu i X R).bind fun a => putR T n R a.1 a.2 fun n R => k n X R W B

/-- Run straight-line code on a description. -/
noncomputable def arunI (T : TagOps) : List Ins → Nat → List (Option Reg) → List (Option RV) → List (List (Option Vec)) → List (List (Option Vec)) →
    (Nat → List (Option Reg) → List (Option RV) → List (List (Option Vec)) → List (List (Option Vec)) → Option Res) → Option Res
  | [], n, X, R, W, B, k => k n X R W B
  | i :: l, n, X, R, W, B, k => arun1 T i n X R W B fun n X R W B => arunI T l n X R W B k

/-- Run a function on a description. -/
noncomputable def arunB (T : TagOps) (prog : List Block) : Nat → Nat → Nat → List (Option Reg) → List (Option RV) → List (List (Option Vec)) → List (List (Option Vec)) → Option Res
  | 0, _, _, _, _, _, _ => none
  | f + 1, pc, n, X, R, W, B =>
    match prog[pc]? with
    | none => none
    | some b => arunI T b.ins n X R W B fun n X R W B =>
      match b.fin with
      | .next => arunB T prog f (pc + 1) n X R W B
      | .ret => some ⟨n, X, R, W, B⟩
      | .cbnz r t => match nth X r with
        | some (.num z) => if decide (z = 0) then arunB T prog f (pc + 1) n X R W B else arunB T prog f t n X R W B
        | _ => none

/-! ## Arithmetic -/

theorem s32_bounds (x : Int) : -2147483648 ≤ s32 x ∧ s32 x < 2147483648 := by unfold s32; omega
theorem s32_id {x : Int} (h : -2147483648 ≤ x) (h' : x < 2147483648) : s32 x = x := by unfold s32; omega
theorem sat16_bounds (x : Int) : -32768 ≤ sat16 x ∧ sat16 x ≤ 32767 := by unfold sat16; split <;> [skip; split] <;> omega
theorem s16_sub_s16 (a b : Int) : s16 (a - s16 b) = s16 (a - b) := by unfold s16; omega
theorem s16_s16_sub (a b : Int) : s16 (s16 a - b) = s16 (a - b) := by unfold s16; omega

/-- The Barrett product of the code. -/
theorem rdmulh_eq {a zt : Int} (h : -32768 ≤ a) (h' : a ≤ 32767) (hz : -32767 ≤ zt) (hz' : zt ≤ 32767) : rdmulh a zt = (2 * a * zt + 32768) / 65536 := by
  have h3 : a * zt ≤ 32768 * 32767 := by nlinarith
  have h4 : -(32768 * 32767) ≤ a * zt := by nlinarith
  have e : 2 * a * zt = 2 * (a * zt) := by ring
  unfold rdmulh sat16
  rw [e]
  generalize a * zt = p at *
  rw [if_neg (by omega), if_neg (by omega)]

theorem mul_bound {a z zt : Int} {b : Nat} (h : -32768 ≤ a) (h' : a ≤ 32767) (hb : -(b : Int) ≤ a) (hb' : a ≤ b) (hz : -32767 ≤ zt) (hz' : zt ≤ 32767) :
    -(mulBound b z zt : Int) ≤ a * z - rdmulh a zt * 3329 ∧ a * z - rdmulh a zt * 3329 ≤ mulBound b z zt := by
  rw [rdmulh_eq h h' hz hz']
  have e : 2 * a * zt = 2 * (a * zt) := by ring
  rw [e]
  generalize ht : (2 * (a * zt) + 32768) / 65536 = t
  have h1 : 65536 * t ≤ 2 * (a * zt) + 32768 ∧ 2 * (a * zt) + 32768 < 65536 * (t + 1) := by omega
  have h2 : 32768 * (a * z - t * 3329) = a * (z * 32768 - zt * 3329) + 3329 * (a * zt - 32768 * t) := by ring
  unfold mulBound
  generalize hr : z * 32768 - zt * 3329 = r at *
  have h3 : (a * r).natAbs ≤ b * r.natAbs := by
    rw [Int.natAbs_mul]
    exact Nat.mul_le_mul_right _ (by omega)
  generalize a * r = p at *
  generalize b * r.natAbs = m at *
  generalize a * z - t * 3329 = w at *
  generalize a * zt = u at *
  push_cast
  constructor <;> omega

/-- Barrett reduction of the code. -/
theorem barrett16 {a : Int} (h : -32768 ≤ a) (h' : a ≤ 32767) :
    -1664 ≤ s16 (a - s16 (rshr 11 (dmulh a 20159) * 3329)) ∧ s16 (a - s16 (rshr 11 (dmulh a 20159) * 3329)) ≤ 1664 ∧
      s16 (a - s16 (rshr 11 (dmulh a 20159) * 3329)) = a - 3329 * rshr 11 (dmulh a 20159) := by
  have e1 : dmulh a 20159 = 2 * a * 20159 / 65536 := by
    unfold dmulh sat16
    rw [if_neg (by omega), if_neg (by omega)]
  have e2 : rshr 11 (dmulh a 20159) = (2 * a * 20159 / 65536 + 1024) / 2048 := by rw [e1]; rfl
  rw [e2]
  generalize ht : (2 * a * 20159 / 65536 + 1024) / 2048 = t
  have h1 : 67108864 * t ≤ 20159 * a + 33554432 ∧ 20159 * a + 33554432 < 67108864 * (t + 1) := by omega
  clear ht e1 e2
  have h2 : -1664 ≤ a - 3329 * t ∧ a - 3329 * t ≤ 1664 := by omega
  rw [s16_sub_s16, show a - t * 3329 = a - 3329 * t by ring, s16_id (by omega) (by omega)]
  exact ⟨h2.1, h2.2, rfl⟩

/-! ## Soundness -/

/-- The variables of an expression have their bounds and the values of their tags. -/
def Good (Val : Nat → Zq) (e : Nat → Int) (n : Nat) : E → Prop
  | .v i t b => i < n ∧ b ≤ 32768 ∧ -(b : Int) ≤ e i ∧ e i ≤ b ∧ e i ≤ 32767 ∧ ((e i : Int) : Zq) = Val t
  | .u i => i < n
  | .c _ => True
  | .add x y | .sub x y | .mullo x y | .rdmulh x y | .dmulh x y | .band x y | .mul x y | .sli _ x y => Good Val e n x ∧ Good Val e n y
  | .rshr _ x | .sra _ x | .lo x | .hi x | .nar _ x => Good Val e n x
  | .mla d x y => Good Val e n d ∧ Good Val e n x ∧ Good Val e n y

variable {Val : Nat → Zq} {e e' : Nat → Int} {n n' : Nat}

theorem Good.ext {x : E} (h : Good Val e n x) (hx : Ext n n' e e') : Good Val e' n' x ∧ x.eval e' = x.eval e := by
  induction x with
  | v i t b =>
    obtain ⟨h1, h2⟩ := h
    refine ⟨⟨Nat.lt_of_lt_of_le h1 hx.1, ?_⟩, hx.2 i h1⟩
    rw [hx.2 i h1]; exact h2
  | u i => exact ⟨Nat.lt_of_lt_of_le h hx.1, hx.2 i h⟩
  | c x => exact ⟨h, rfl⟩
  | add x y ihx ihy | sub x y ihx ihy | mullo x y ihx ihy | rdmulh x y ihx ihy | dmulh x y ihx ihy | band x y ihx ihy | mul x y ihx ihy | sli m x y ihx ihy =>
    have h1 := ihx h.1; have h2 := ihy h.2
    exact ⟨⟨h1.1, h2.1⟩, by simp only [E.eval, h1.2, h2.2]⟩
  | rshr m x ih | sra m x ih | nar m x ih => exact ⟨(ih h).1, by simp only [E.eval, (ih h).2]⟩
  | lo x ih | hi x ih => exact ⟨(ih h).1, by simp only [E.eval, (ih h).2]⟩
  | mla d x y ihd ihx ihy =>
    have h0 := ihd h.1; have h1 := ihx h.2.1; have h2 := ihy h.2.2
    exact ⟨⟨h0.1, h1.1, h2.1⟩, by simp only [E.eval, h0.2, h1.2, h2.2]⟩

theorem fresh_sound {o : Option Nat} {b : Nat} {x : E} (hx : Good Val e n x)
    (ht : ∀ t, o = some t → b ≤ 32767 → -(b : Int) ≤ x.eval e ∧ x.eval e ≤ b ∧ ((x.eval e : Int) : Zq) = Val t) :
    ∃ e', Ext n (fresh n o b x).2 e e' ∧ Good Val e' (fresh n o b x).2 (fresh n o b x).1 ∧ (fresh n o b x).1.eval e' = x.eval e := by
  unfold fresh
  split
  · rename_i t
    split
    · rename_i hb
      have hb' : b ≤ 32767 := Nat.le_of_ble_eq_true hb
      obtain ⟨h1, h2, h3⟩ := ht t rfl hb'
      refine ⟨fun i => if i = n then x.eval e else e i, ⟨Nat.le_succ n, fun i hi => if_neg (by omega)⟩, ?_, if_pos rfl⟩
      refine ⟨Nat.lt_succ_self n, by omega, ?_, ?_, ?_, ?_⟩ <;> simp only [if_pos] <;> first | assumption | omega
    · exact ⟨e, X86.Ext.refl _ _, hx, rfl⟩
  · exact ⟨e, X86.Ext.refl _ _, hx, rfl⟩

theorem norm_sound {T : TagOps} (hT : T.Sound Val) {x : E} (hx : Good Val e n x) :
    ∃ e', Ext n (norm T n x).2 e e' ∧ Good Val e' (norm T n x).2 (norm T n x).1 ∧ (norm T n x).1.eval e' = x.eval e := by
  unfold norm
  have keep : ∃ e', Ext n n e e' ∧ Good Val e' n x ∧ x.eval e' = x.eval e := ⟨e, X86.Ext.refl _ _, hx, rfl⟩
  have hq : (3329 : Zq) = 0 := by exact_mod_cast ZMod.natCast_self 3329
  split
  · rename_i i t b j t' b'
    obtain ⟨⟨_, _, h1, h2, h3, h4⟩, ⟨_, _, k1, k2, k3, k4⟩⟩ := id hx
    refine fresh_sound hx fun u hu hb => ?_
    have ev : E.eval e (.add (.v i t b) (.v j t' b')) = e i + e j := s16_id (x := e i + e j) (by omega) (by omega)
    rw [ev]
    refine ⟨by omega, by omega, ?_⟩
    push_cast
    rw [h4, k4, hT.add _ _ _ hu]
  · rename_i i t b j t' b'
    obtain ⟨⟨_, _, h1, h2, h3, h4⟩, ⟨_, _, k1, k2, k3, k4⟩⟩ := id hx
    refine fresh_sound hx fun u hu hb => ?_
    have ev : E.eval e (.sub (.v i t b) (.v j t' b')) = e i - e j := s16_id (x := e i - e j) (by omega) (by omega)
    rw [ev]
    refine ⟨by omega, by omega, ?_⟩
    push_cast
    rw [h4, k4, hT.sub _ _ _ hu]
  · rename_i i t b z i' t' b' zt q
    split
    · rename_i hc
      simp only [Bool.and_eq_true, decide_eq_true_eq] at hc
      obtain ⟨⟨⟨hi, rfl⟩, hz⟩, hz'⟩ := hc
      obtain rfl := Nat.eq_of_beq_eq_true hi
      obtain ⟨⟨⟨_, h0, h1, h2, h3, h4⟩, _⟩, _⟩ := id hx
      refine fresh_sound hx fun u hu hb => ?_
      have hm := mul_bound (a := e i) (b := b) (z := z) (by omega) h3 h1 h2 hz hz'
      have ev : E.eval e (.sub (.mullo (.v i t b) (.c z)) (.mullo (.rdmulh (.v i t' b') (.c zt)) (.c 3329))) = e i * z - rdmulh (e i) zt * 3329 := by
        show s16 (s16 (e i * z) - s16 (rdmulh (e i) zt * 3329)) = _
        rw [s16_sub_s16, s16_s16_sub, s16_id (by omega) (by omega)]
      rw [ev]
      refine ⟨hm.1, hm.2, ?_⟩
      push_cast
      rw [h4, hT.mul _ _ _ hu, hq]; ring
    · exact keep
  · rename_i i t b k i' t' b' w q
    split
    · rename_i hc
      simp only [Bool.and_eq_true, decide_eq_true_eq] at hc
      obtain ⟨⟨⟨hi, hk⟩, rfl⟩, rfl⟩ := hc
      obtain rfl := Nat.eq_of_beq_eq_true hi
      obtain rfl := Nat.eq_of_beq_eq_true hk
      obtain ⟨⟨_, h0, h1, h2, h3, h4⟩, _⟩ := id hx
      refine fresh_sound hx fun u hu hb => ?_
      obtain ⟨g1, g2, g3⟩ := barrett16 (a := e i) (by omega) h3
      have ev : E.eval e (.sub (.v i t b) (.mullo (.rshr 11 (.dmulh (.v i t' b') (.c 20159))) (.c 3329))) = s16 (e i - s16 (rshr 11 (dmulh (e i) 20159) * 3329)) := rfl
      rw [ev]
      refine ⟨g1, g2, ?_⟩
      rw [g3]
      push_cast
      rw [h4, hT.red _ _ hu, hq]; ring
    · exact keep
  · exact keep

theorem fL_eq {β : Type} (l : Vec) (k : Vec → β) : fL l k = k l := by
  induction l generalizing k with
  | nil => rfl
  | cons x l ih => unfold fL; rw [fE_eq, ih]

theorem normF_sound {β : Type} {T : TagOps} (hT : T.Sound Val) {l : Vec} {k : Vec → Nat → β} {v : β} (hl : ∀ i, i < l.length → Good Val e n (gt l i)) (h : normF T n l k = v) :
    ∃ l' n' e', k l' n' = v ∧ Ext n n' e e' ∧ l'.length = l.length ∧ ∀ i, i < l.length → Good Val e' n' (gt l' i) ∧ (gt l' i).eval e' = (gt l i).eval e := by
  induction l generalizing n e k with
  | nil => exact ⟨[], n, e, h, X86.Ext.refl _ _, rfl, fun i hi => absurd hi (Nat.not_lt_zero i)⟩
  | cons x l ih =>
    unfold normF at h
    simp only [fE_eq, force_eq] at h
    obtain ⟨e1, hx1, hg1, hv1⟩ := norm_sound hT (hl 0 (Nat.succ_pos _))
    change Good Val e1 (norm T n x).2 (norm T n x).1 at hg1
    change (norm T n x).1.eval e1 = x.eval e at hv1
    obtain ⟨l', n', e', hk, hx2, hlen, hr⟩ := ih (n := (norm T n x).2) (e := e1) (fun i hi => ((hl (i + 1) (Nat.succ_lt_succ hi)).ext hx1).1) h
    refine ⟨(norm T n x).1 :: l', n', e', hk, hx1.trans hx2, by simp [hlen], fun i hi => ?_⟩
    cases i with
    | zero =>
      obtain ⟨h3, h4⟩ := hg1.ext hx2
      exact ⟨h3, h4.trans hv1⟩
    | succ i =>
      obtain ⟨h3, h4⟩ := hr i (Nat.lt_of_succ_lt_succ hi)
      exact ⟨h3, h4.trans ((hl (i + 1) hi).ext hx1).2⟩

/-- Eight described 16-bit elements. -/
def RelH (Val : Nat → Zq) (e : Nat → Int) (n : Nat) (l : Vec) (f : V) : Prop :=
  l.length = 8 ∧ ∀ k, k < 8 → Good Val e n (gt l k) ∧ (gt l k).eval e = f k ∧ -32768 ≤ f k ∧ f k ≤ 32767
/-- Four described 32-bit elements. -/
def RelS (Val : Nat → Zq) (e : Nat → Int) (n : Nat) (l : Vec) (f : V) : Prop :=
  l.length = 4 ∧ ∀ k, k < 4 → Good Val e n (gt l k) ∧ (-2147483648 ≤ (gt l k).eval e ∧ (gt l k).eval e < 2147483648) ∧
    f (2 * k) = s16 ((gt l k).eval e) ∧ f (2 * k + 1) = s16 ((gt l k).eval e / 65536)
/-- Eight described bytes. -/
def RelY (Val : Nat → Zq) (e : Nat → Int) (n : Nat) (l : Vec) (f : V) : Prop :=
  l.length = 8 ∧ ∀ k, k < 8 → Good Val e n (gt l k) ∧ (gt l k).eval e = byte f k
/-- A described register. -/
def RelV (Val : Nat → Zq) (e : Nat → Int) (n : Nat) : RV → V → Prop
  | .h l, f => RelH Val e n l f
  | .s l, f => RelS Val e n l f
  | .b l, f => RelY Val e n l f

/-- A machine state fits a description; `sz` and `bz` are the sizes of the objects. -/
structure Rel (Val : Nat → Zq) (e : Nat → Int) (n : Nat) (sz bz : Obj → Nat) (X : List (Option Reg)) (R : List (Option RV)) (W B : List (List (Option Vec))) (s : St) : Prop where
  x : ∀ r a, nth X r = some a → s.x r = a
  reg : ∀ r l, nth R r = some l → RelV Val e n l (s.v r)
  m : ∀ o j l, nth (mth W (idx o)) j = some l → ∃ f, RelH Val e n l f ∧ ∀ k, k < 8 → (s.m o)[8 * j + k]? = some (some (f k))
  msz : ∀ o, (s.m o).size = sz o
  mlen : ∀ o, 8 * (mth W (idx o)).length ≤ sz o
  b : ∀ o j l, nth (mth B (idx o)) j = some l → l.length = 24 ∧ ∀ k, k < 24 → Good Val e n (gt l k) ∧ ∃ x : UInt8, (s.b o)[24 * j + k]? = some (some x) ∧ (gt l k).eval e = x.toNat
  bsz : ∀ o, (s.b o).size = bz o
  blen : ∀ o, 24 * (mth B (idx o)).length ≤ bz o

theorem RelH.ext {l : Vec} {f : V} (h : RelH Val e n l f) (hx : Ext n n' e e') : RelH Val e' n' l f :=
  ⟨h.1, fun k hk => by
    obtain ⟨h1, h2⟩ := h.2 k hk
    obtain ⟨h3, h4⟩ := h1.ext hx
    rw [h4]; exact ⟨h3, h2⟩⟩
theorem RelV.ext {l : RV} {f : V} (h : RelV Val e n l f) (hx : Ext n n' e e') : RelV Val e' n' l f := by
  cases l with
  | h l => exact RelH.ext h hx
  | s l =>
    refine ⟨h.1, fun k hk => ?_⟩
    obtain ⟨h1, h2⟩ := h.2 k hk
    obtain ⟨h3, h4⟩ := h1.ext hx
    rw [h4]; exact ⟨h3, h2⟩
  | b l =>
    refine ⟨h.1, fun k hk => ?_⟩
    obtain ⟨h1, h2⟩ := h.2 k hk
    obtain ⟨h3, h4⟩ := h1.ext hx
    rw [h4]; exact ⟨h3, h2⟩

section
variable {sz bz : Obj → Nat} {X : List (Option Reg)} {R : List (Option RV)} {W B : List (List (Option Vec))} {s : St} {F : Prop} {r : Res}

theorem Rel.ext (h : Rel Val e n sz bz X R W B s) (hx : Ext n n' e e') : Rel Val e' n' sz bz X R W B s where
  x := h.x
  reg r l hl := (h.reg r l hl).ext hx
  m o j l hl := by obtain ⟨f, h1, h2⟩ := h.m o j l hl; exact ⟨f, h1.ext hx, h2⟩
  msz := h.msz
  mlen := h.mlen
  b o j l hl := by
    obtain ⟨h1, h2⟩ := h.b o j l hl
    refine ⟨h1, fun k hk => ?_⟩
    obtain ⟨g1, g2⟩ := h2 k hk
    obtain ⟨h3, h4⟩ := g1.ext hx
    rw [h4]; exact ⟨h3, g2⟩
  bsz := h.bsz
  blen := h.blen

theorem Rel.setx (h : Rel Val e n sz bz X R W B s) {d : Nat} {a : Reg} {X' : List (Option Reg)} (hX : ∀ j, nth X' j = if j = d then some a else nth X j) :
    Rel Val e n sz bz X' R W B (s.putx d a) where
  x r v hv := by
    rw [hX] at hv
    show (if r = d then a else s.x r) = v
    by_cases hr : r = d
    · rw [if_pos hr] at hv ⊢; exact Option.some.inj hv
    · rw [if_neg hr] at hv ⊢; exact h.x r v hv
  reg := h.reg
  m := h.m
  msz := h.msz
  mlen := h.mlen
  b := h.b
  bsz := h.bsz
  blen := h.blen

theorem putX_sound (h : Rel Val e n sz bz X R W B s) {d : Nat} {a : Reg} {k : List (Option Reg) → Option Res} (hk : putX X d a k = some r) :
    ∃ X', Rel Val e n sz bz X' R W B (s.putx d a) ∧ k X' = some r := by
  obtain ⟨_, X', h1, _, h2⟩ := setF_some hk
  exact ⟨X', h.setx h2, h1⟩

theorem plusF_eq {β : Type} (a : Reg) (i : Int) (k : Reg → β) : plusF a i k = k (a.plus i) := by
  cases a <;> simp [plusF, Reg.plus, fInt_eq]

theorem abump_sound (h : Rel Val e n sz bz X R W B s) {m : Nat} {i : Int} {k : List (Option Reg) → Option Res} (hk : abump X m i k = some r) :
    ∃ X', Rel Val e n sz bz X' R W B (s.bump m i) ∧ k X' = some r := by
  unfold abump at hk
  split at hk <;> [skip; cases hk]
  rename_i a ha
  rw [plusF_eq] at hk
  have := putX_sound h hk
  unfold St.bump
  rw [h.x _ _ ha]
  exact this

theorem Rel.setr (h : Rel Val e n sz bz X R W B s) {d : Nat} {a : RV} {f : V} (ha : RelV Val e n a f) {R' : List (Option RV)} (hR : ∀ j, nth R' j = if j = d then some a else nth R j) :
    Rel Val e n sz bz X R' W B (s.put d f) where
  x := h.x
  reg r v hv := by
    rw [hR] at hv
    show RelV Val e n v (if r = d then f else s.v r)
    by_cases hr : r = d
    · rw [if_pos hr] at hv ⊢; cases Option.some.inj hv; exact ha
    · rw [if_neg hr] at hv ⊢; exact h.reg r v hv
  m := h.m
  msz := h.msz
  mlen := h.mlen
  b := h.b
  bsz := h.bsz
  blen := h.blen

theorem putR_sound {T : TagOps} (hT : T.Sound Val) (h : Rel Val e n sz bz X R W B s) {d : Nat} {a : RV} {f : V} (ha : RelV Val e n a f) {k : Nat → List (Option RV) → Option Res}
    (hk : putR T n R d a k = some r) : ∃ e' n' R', Ext n n' e e' ∧ Rel Val e' n' sz bz X R' W B (s.put d f) ∧ k n' R' = some r := by
  cases a with
  | h l =>
    obtain ⟨l', n', e', h1, h2, h3, h4⟩ := normF_sound hT (fun i hi => (ha.2 i (by rw [ha.1] at hi; exact hi)).1) hk
    obtain ⟨_, R', h5, _, h6⟩ := setF_some h1
    refine ⟨e', n', R', h2, (h.ext h2).setr (a := .h l') ⟨h3.trans ha.1, fun k hk => ?_⟩ h6, h5⟩
    obtain ⟨g1, g2⟩ := h4 k (by rw [ha.1]; exact hk)
    rw [g2]; exact ⟨g1, (ha.2 k hk).2⟩
  | s l =>
    simp only [putR, fL_eq] at hk
    obtain ⟨_, R', h5, _, h6⟩ := setF_some hk
    exact ⟨e, n, R', X86.Ext.refl _ _, h.setr ha h6, h5⟩
  | b l =>
    simp only [putR, fL_eq] at hk
    obtain ⟨_, R', h5, _, h6⟩ := setF_some hk
    exact ⟨e, n, R', X86.Ext.refl _ _, h.setr ha h6, h5⟩

/-! ### Memory -/

theorem aaddr_sound (h : Rel Val e n sz bz X R W B s) {m : Nat} {off : Int} {o : Obj} {q : Nat} (ha : aaddr X m off = some (o, q)) : s.addr m off = pure (o, q) := by
  unfold aaddr at ha
  split at ha <;> [skip; cases ha]
  rename_i o' p hp
  split at ha <;> [skip; cases ha]
  rename_i q' hq
  cases Option.some.inj ha
  unfold St.addr
  rw [h.x _ _ hp]
  show (if 0 ≤ p + off then pure (o, (p + off).toNat) else M.fail .oob) = pure (o, q)
  rw [hq, if_pos (show 0 ≤ Int.ofNat q from Int.natCast_nonneg q)]
  rfl

theorem dropF_get (l : List Int) (m k : Nat) : (dropF l m)[k]? = l[m + k]? := by
  induction m generalizing l with
  | zero => simp [dropF]
  | succ m ih =>
    cases l with
    | nil => simp [dropF]
    | cons a l =>
      show (dropF l m)[k]? = _
      rw [ih, show m + 1 + k = (m + k) + 1 by omega]; simp
theorem takeC_get {l : List Int} {c : Nat} {v : Vec} (h : takeC l c = some v) : v.length = c ∧ ∀ k, k < c → ∃ a, gt v k = .c a ∧ l[k]? = some a ∧ -32768 ≤ a ∧ a ≤ 32767 := by
  induction c generalizing l v with
  | zero => simp [takeC] at h; subst h; exact ⟨rfl, fun k hk => absurd hk (Nat.not_lt_zero k)⟩
  | succ c ih =>
    cases l with
    | nil => simp [takeC] at h
    | cons a l =>
      unfold takeC at h
      split at h <;> [skip; cases h]
      rename_i hr
      simp only [Bool.and_eq_true, decide_eq_true_eq] at hr
      obtain ⟨v', h1, rfl⟩ := Option.map_eq_some_iff.mp h
      obtain ⟨h2, h3⟩ := ih h1
      refine ⟨by simp [h2], fun k hk => ?_⟩
      cases k with
      | zero => exact ⟨a, rfl, rfl, hr⟩
      | succ k => simpa [gt] using h3 k (by omega)

theorem ofList_get (l : List Int) (k : Nat) : (Buf.ofList l)[k]? = (l[k]?).map some := by
  simp [Buf.ofList]

theorem aload_sound (h : Rel Val e n sz bz X R W B s) {m : Nat} {off : Int} {l : Vec} (ha : aload X W m off = some l) {c : Nat} (hc : c ≤ 8) :
    l.length = 8 ∧ PostF F (s.ld m off c) (fun f => ∀ k, k < c → Good Val e n (gt l k) ∧ (gt l k).eval e = f k ∧ -32768 ≤ f k ∧ f k ≤ 32767) := by
  unfold aload at ha
  split at ha <;> [skip; cases ha]
  rename_i o q hq
  split at ha <;> [skip; cases ha]
  rename_i h16
  have h16 := Nat.eq_of_beq_eq_true h16
  unfold St.ld
  rw [aaddr_sound h hq]
  simp only [wp_bind, wp_pure]
  rw [if_pos (by omega)]
  split at ha
  · rename_i t
    obtain ⟨h1, h2⟩ := takeC_get ha
    refine ⟨h1, PostF.mono (ldw_spec (f := fun k => (gt l k).eval e) fun k hk => ?_) fun f hf k hk => ?_⟩
    · obtain ⟨a, g1, g2, _⟩ := h2 k (by omega)
      rw [dropF_get] at g2
      show (Buf.ofList t.data)[q / 2 + k]? = _
      rw [ofList_get, g2, g1]; rfl
    · obtain ⟨a, g1, _, g2⟩ := h2 k (by omega)
      rw [hf k hk, g1]; exact ⟨trivial, rfl, g2⟩
  · rename_i hno
    obtain ⟨f, h1, h2⟩ := h.m _ _ _ ha
    have ho : s.obj o = s.m o := by cases o <;> first | rfl | exact absurd rfl (hno _)
    refine ⟨h1.1, ?_⟩
    rw [ho]
    refine PostF.mono (ldw_spec (f := f) fun k hk => ?_) fun g hg k hk => ?_
    · rw [show q / 2 + k = 8 * (q / 16) + k by omega]; exact h2 k (by omega)
    · rw [hg k hk]; exact h1.2 k (by omega)

theorem aload8_sound (h : Rel Val e n sz bz X R W B s) {m : Nat} {off : Int} {l : Vec} (ha : aload X W m off = some l) :
    PostF F (s.ld m off 8) (fun f => RelH Val e n l f) := by
  obtain ⟨h1, h2⟩ := aload_sound (F := F) h ha (Nat.le_refl 8)
  exact PostF.mono h2 fun f hf => ⟨h1, hf⟩

theorem aloadT_sound (h : Rel Val e n sz bz X R W B s) {m : Nat} {off : Int} {a : Int} (ha : aloadT X m off = some a) :
    PostF F (s.ldt m off) (fun x => x = a) := by
  unfold aloadT at ha
  split at ha <;> [skip; cases ha]
  rename_i t q hq
  split at ha <;> [skip; cases ha]
  rename_i h2
  have h2 := Nat.eq_of_beq_eq_true h2
  split at ha <;> [skip; cases ha]
  rename_i a' l' hl
  cases Option.some.inj ha
  unfold St.ldt
  rw [aaddr_sound h hq]
  simp only [wp_bind, wp_pure]
  rw [if_pos h2, wp_rd]
  refine ⟨a, ?_, rfl⟩
  have := dropF_get t.data (q / 2) 0
  rw [hl] at this
  rw [ofList_get, show q / 2 = q / 2 + 0 by omega, ← this]; rfl

theorem idx_inj {o p : Obj} (h : idx o = idx p) (ho : ∀ t, p ≠ .tab t) : o = p := by
  cases o <;> cases p <;> first | rfl | (exact absurd rfl (ho _)) | (simp [idx] at h)

theorem astore_sound (h : Rel Val e n sz bz X R W B s) {m : Nat} {off : Int} {l : Vec} {f : V} (hl : RelH Val e n l f) {k : List (List (Option Vec)) → Option Res}
    (hk : astore X W m off l k = some r) : PostF F (s.st m off f) (fun s' => s'.x = s.x ∧ s'.v = s.v ∧ ∃ W', Rel Val e n sz bz X R W' B s' ∧ k W' = some r) := by
  unfold astore at hk
  split at hk <;> [skip; cases hk]
  rename_i o q hq
  split at hk <;> [skip; cases hk]
  rename_i h16
  have h16 := Nat.eq_of_beq_eq_true h16
  split at hk <;> [cases hk; skip]
  rename_i hno
  obtain ⟨hlt, ml, hm, hml, hn⟩ := setF_some hk
  obtain ⟨W', hW, hn'⟩ := setF_mth hm
  have hsz := h.mlen o
  have hsz' := h.msz o
  unfold St.st
  rw [aaddr_sound h hq]
  simp only [wp_bind, wp_pure]
  have key : PostF F (stw (s.m o) (q / 2) f 8) (fun b => (s.putm o b).x = s.x ∧ (s.putm o b).v = s.v ∧ ∃ W', Rel Val e n sz bz X R W' B (s.putm o b) ∧ k W' = some r) := by
    refine PostF.mono (stw_spec (by omega)) fun b' ⟨g1, g2, g3⟩ => ⟨rfl, rfl, W', ⟨h.x, h.reg, fun o' j' l' hl' => ?_, fun o' => ?_, fun o' => ?_, h.b, h.bsz, h.blen⟩, hW⟩
    · rw [hn'] at hl'
      by_cases hp : idx o' = idx o
      · obtain rfl := idx_inj hp hno
        rw [if_pos rfl, hn] at hl'
        rw [show (s.putm o' b').m o' = b' from if_pos rfl]
        by_cases hj : j' = q / 16
        · rw [if_pos hj] at hl'
          cases Option.some.inj hl'
          subst hj
          refine ⟨f, hl, fun k hk => ?_⟩
          rw [show 8 * (q / 16) + k = q / 2 + k by omega]; exact g2 k hk
        · rw [if_neg hj] at hl'
          obtain ⟨g, k1, k2⟩ := h.m o' j' l' hl'
          exact ⟨g, k1, fun k hk => (g3 _ (by omega)).trans (k2 k hk)⟩
      · rw [if_neg hp] at hl'
        rw [show (s.putm o b').m o' = s.m o' from if_neg fun h => hp (by rw [h])]
        exact h.m o' j' l' hl'
    · show (if o' = o then b' else s.m o').size = sz o'
      by_cases hp : o' = o
      · rw [if_pos hp, g1, hp]; exact hsz'
      · rw [if_neg hp]; exact h.msz o'
    · rw [hn']
      by_cases hp : idx o' = idx o
      · obtain rfl := idx_inj hp hno
        rw [if_pos rfl, hml]; exact hsz
      · rw [if_neg hp]; exact h.mlen o'
  cases o <;> first | exact absurd rfl (hno _) | (simp only [if_pos (show q % 2 = 0 by omega), wp_bind, wp_pure]; exact key)

theorem stby_spec {b : Buf UInt8} {p c : Nat} {g : Nat → Nat} (h : p + c ≤ b.size) :
    PostF F (stby b p g c) (fun b' => b'.size = b.size ∧ (∀ k, k < c → b'[p + k]? = some (some (toU8 (g k)))) ∧ ∀ j, (j < p ∨ p + c ≤ j) → b'[j]? = b[j]?) := by
  induction c with
  | zero => simp only [stby, wp_pure]
            exact ⟨trivial, fun k hk => absurd hk (Nat.not_lt_zero k), fun _ _ => trivial⟩
  | succ m ih =>
    unfold stby
    simp only [wp_bind, wp_wr]
    refine PostF.mono (ih (by omega)) fun b' hb => ⟨by omega, by simp [hb.1], fun k hk => ?_, fun j hj => ?_⟩
    · by_cases e : k = m
      · subst e
        rw [Array.getElem?_setIfInBounds]; simp; omega
      · rw [Array.getElem?_setIfInBounds, if_neg (by omega)]
        exact hb.2.1 k (by omega)
    · rw [Array.getElem?_setIfInBounds, if_neg (by omega)]
      exact hb.2.2 j (by omega)

theorem astore24_sound (h : Rel Val e n sz bz X R W B s) {m : Nat} {l : Vec} {g : Nat → Nat} (hlen : l.length = 24)
    (hl : ∀ k, k < 24 → Good Val e n (gt l k) ∧ (gt l k).eval e = g k ∧ g k < 256) {k : List (List (Option Vec)) → Option Res}
    (hk : astore24 X B m l k = some r) : PostF F (s.st24 m g) (fun s' => ∃ B', Rel Val e n sz bz X R W B' s' ∧ k B' = some r) := by
  unfold astore24 at hk
  split at hk <;> [skip; cases hk]
  rename_i o q hq
  split at hk <;> [skip; cases hk]
  rename_i h24
  have h24 := Nat.eq_of_beq_eq_true h24
  split at hk <;> [cases hk; skip]
  rename_i hno'
  obtain ⟨hlt, ml, hm, hml, hn⟩ := setF_some hk
  obtain ⟨B', hB, hn'⟩ := setF_mth hm
  have hsz := h.blen o
  have hsz' := h.bsz o
  unfold St.st24
  rw [aaddr_sound h hq]
  simp only [wp_bind, wp_pure]
  refine PostF.mono (stby_spec (by omega)) fun b' ⟨g1, g2, g3⟩ => ⟨B', ⟨h.x, h.reg, h.m, h.msz, h.mlen, fun o' j' l' hl' => ?_, fun o' => ?_, fun o' => ?_⟩, hB⟩
  · rw [hn'] at hl'
    by_cases hp : idx o' = idx o
    · obtain rfl := idx_inj hp hno'
      rw [if_pos rfl, hn] at hl'
      rw [show (s.putb o' b').b o' = b' from if_pos rfl]
      by_cases hj : j' = q / 24
      · rw [if_pos hj] at hl'
        cases Option.some.inj hl'
        subst hj
        refine ⟨hlen, fun k hk => ⟨(hl k hk).1, toU8 (g k), ?_, ?_⟩⟩
        · rw [show 24 * (q / 24) + k = q + k by omega]; exact g2 k hk
        · rw [(hl k hk).2.1]
          have := (hl k hk).2.2
          simp [toU8, Nat.mod_eq_of_lt this]
      · rw [if_neg hj] at hl'
        obtain ⟨k1, k2⟩ := h.b o' j' l' hl'
        refine ⟨k1, fun k hk => ?_⟩
        rw [g3 _ (by omega)]; exact k2 k hk
    · rw [if_neg hp] at hl'
      rw [show (s.putb o b').b o' = s.b o' from if_neg fun h => hp (by rw [h])]
      exact h.b o' j' l' hl'
  · show (if o' = o then b' else s.b o').size = bz o'
    by_cases hp : o' = o
    · rw [if_pos hp, g1, hp]; exact hsz'
    · rw [if_neg hp]; exact h.bsz o'
  · rw [hn']
    by_cases hp : idx o' = idx o
    · obtain rfl := idx_inj hp hno'
      rw [if_pos rfl, hml]; exact hsz
    · rw [if_neg hp]; exact h.blen o'

/-! ### Instructions -/

theorem lt8 {P : Nat → Prop} (h0 : P 0) (h1 : P 1) (h2 : P 2) (h3 : P 3) (h4 : P 4) (h5 : P 5) (h6 : P 6) (h7 : P 7) (k : Nat) (hk : k < 8) : P k := by
  match k, hk with
  | 0, _ => exact h0
  | 1, _ => exact h1
  | 2, _ => exact h2
  | 3, _ => exact h3
  | 4, _ => exact h4
  | 5, _ => exact h5
  | 6, _ => exact h6
  | 7, _ => exact h7
theorem lt4 {P : Nat → Prop} (h0 : P 0) (h1 : P 1) (h2 : P 2) (h3 : P 3) (k : Nat) (hk : k < 4) : P k := by
  match k, hk with
  | 0, _ => exact h0
  | 1, _ => exact h1
  | 2, _ => exact h2
  | 3, _ => exact h3
theorem gt_tab (f : Nat → E) {k : Nat} (h : k < 8) : gt (tab f) k = f k := by revert k; exact fun {k} h => lt8 (P := fun k => gt (tab f) k = f k) rfl rfl rfl rfl rfl rfl rfl rfl k h
theorem gt_tab4 (f : Nat → E) {k : Nat} (h : k < 4) : gt (tab4 f) k = f k := by revert k; exact fun {k} h => lt4 (P := fun k => gt (tab4 f) k = f k) rfl rfl rfl rfl k h

theorem relH_tab {f : Nat → E} {g : V} (h : ∀ k, k < 8 → Good Val e n (f k) ∧ (f k).eval e = g k ∧ -32768 ≤ g k ∧ g k ≤ 32767) : RelH Val e n (tab f) g :=
  ⟨rfl, fun k hk => by rw [gt_tab f hk]; exact h k hk⟩
theorem relS_tab {f : Nat → E} {g : Nat → Int} (h : ∀ k, k < 4 → Good Val e n (f k) ∧ (f k).eval e = g k ∧ -2147483648 ≤ g k ∧ g k < 2147483648) : RelS Val e n (tab4 f) (words g) :=
  ⟨rfl, fun k hk => by
    rw [gt_tab4 f hk]
    obtain ⟨h1, h2, h3, h4⟩ := h k hk
    rw [h2]
    refine ⟨h1, ⟨h3, h4⟩, ?_, ?_⟩
    · unfold words; rw [if_pos (by omega), show 2 * k / 2 = k by omega]
    · unfold words; rw [if_neg (by omega), show (2 * k + 1) / 2 = k by omega]⟩
theorem u16_s16' (x : Nat) (h : x < 65536) : u16 (s16 (x : Int)) = x := by unfold u16 s16; omega
theorem byte_bytes8 (g : Nat → Nat) {j : Nat} (h : j < 8) : byte (bytes8 g) j = g j % 256 := by
  unfold byte bytes8
  rw [if_pos (show j / 2 < 4 by omega), u16_s16' _ (by omega)]
  rcases Nat.mod_two_eq_zero_or_one j with h2 | h2
  · rw [show 2 * (j / 2) = j by omega, h2]; simp
  · rw [show 2 * (j / 2) + 1 = j by omega, h2]; simp; omega
theorem relY_tab {f : Nat → E} {g : Nat → Nat} (h : ∀ k, k < 8 → Good Val e n (f k) ∧ (f k).eval e = (g k % 256 : Nat)) : RelY Val e n (tab f) (bytes8 g) :=
  ⟨rfl, fun k hk => by rw [gt_tab f hk, byte_bytes8 g hk]; exact h k hk⟩

theorem hOf_sound (h : Rel Val e n sz bz X R W B s) {a : Nat} {l : Vec} (ha : hOf R a = some l) : RelH Val e n l (s.v a) := by
  unfold hOf at ha
  split at ha
  · rename_i l' hl
    cases Option.some.inj ha
    exact h.reg _ _ hl
  · rename_i l' hl
    cases Option.some.inj ha
    obtain ⟨h1, h2⟩ := h.reg _ _ hl
    refine relH_tab fun k hk => ?_
    obtain ⟨g1, g2, g3, g4⟩ := h2 (k / 2) (by omega)
    by_cases hp : k % 2 = 0
    · rw [hp]
      rw [show 2 * (k / 2) = k by omega] at g3
      rw [g3]
      exact ⟨g1, rfl, s16_bounds _⟩
    · rw [show k % 2 = 1 by omega]
      rw [show 2 * (k / 2) + 1 = k by omega] at g4
      rw [g4]
      exact ⟨g1, rfl, s16_bounds _⟩
  · cases ha
theorem word_eq {x : Int} (h : -2147483648 ≤ x) (h' : x < 2147483648) : (u16 (s16 x) : Int) + 65536 * s16 (x / 65536) = x := by
  unfold u16 s16; omega
theorem sOf_sound (h : Rel Val e n sz bz X R W B s) {a : Nat} {l : Vec} (ha : sOf R a = some l) :
    ∀ k, k < 4 → Good Val e n (gt l k) ∧ (gt l k).eval e = word (s.v a) k := by
  unfold sOf at ha
  split at ha <;> [skip; cases ha]
  rename_i l' hl
  cases Option.some.inj ha
  intro k hk
  obtain ⟨g1, g2, g3, g4⟩ := (h.reg _ _ hl).2 k hk
  refine ⟨g1, ?_⟩
  unfold word
  rw [g3, g4, word_eq g2.1 g2.2]
theorem bOf_sound (h : Rel Val e n sz bz X R W B s) {a : Nat} {l : Vec} (ha : bOf R a = some l) :
    ∀ k, k < 8 → Good Val e n (gt l k) ∧ (gt l k).eval e = byte (s.v a) k := by
  unfold bOf at ha
  split at ha <;> [skip; cases ha]
  rename_i l' hl
  cases Option.some.inj ha
  exact (h.reg _ _ hl).2

theorem mul_range {a b : Int} (h : -32768 ≤ a) (h' : a ≤ 32767) (k : -32768 ≤ b) (k' : b ≤ 32767) : -2147483648 ≤ a * b ∧ a * b < 2147483648 := by
  constructor <;> nlinarith
theorem rshr_range {i : Nat} {a : Int} (hi : 1 ≤ i) (h : -32768 ≤ a) (h' : a ≤ 32767) : -32768 ≤ rshr i a ∧ rshr i a ≤ 32767 := by
  unfold rshr
  obtain ⟨j, rfl⟩ : ∃ j, i = j + 1 := ⟨i - 1, by omega⟩
  rw [pow_succ, Int.mul_ediv_cancel _ (by norm_num)]
  have : (1 : Int) ≤ 2 ^ j := one_le_pow₀ (by norm_num)
  generalize (2 : Int) ^ j = p at *
  constructor
  · exact (Int.le_ediv_iff_mul_le (by omega)).mpr (by nlinarith)
  · exact Int.lt_add_one_iff.mp (Int.ediv_lt_of_lt_mul (by omega) (by nlinarith))
theorem sra_range {i : Nat} {a : Int} (h : -32768 ≤ a) (h' : a ≤ 32767) : -32768 ≤ a / 2 ^ i ∧ a / 2 ^ i ≤ 32767 := by
  have : (1 : Int) ≤ 2 ^ i := one_le_pow₀ (by norm_num)
  generalize (2 : Int) ^ i = p at *
  constructor
  · exact (Int.le_ediv_iff_mul_le (by omega)).mpr (by nlinarith)
  · exact Int.lt_add_one_iff.mp (Int.ediv_lt_of_lt_mul (by omega) (by nlinarith))

theorem alu_sound (h : Rel Val e n sz bz X R W B s) {i : Ins} {d : Nat} {a : RV} (ha : alu i X R = some (d, a)) :
    ∃ f, i.step s = pure (s.put d f) ∧ RelV Val e n a f := by
  unfold alu at ha
  split at ha
  · split at ha <;> [skip; cases ha]
    rename_i x hx
    cases Option.some.inj ha
    refine ⟨fun _ => s16 x, ?_, relH_tab fun k hk => ⟨trivial, rfl, s16_bounds _⟩⟩
    simp only [Ins.step, h.x _ _ hx]
  all_goals first | contradiction | skip
  all_goals try (split at ha <;> [(rename_i hi; replace hi := Nat.le_of_ble_eq_true hi); contradiction])
  all_goals simp only [Option.bind_eq_some_iff, Option.map_eq_some_iff, Prod.mk.injEq] at ha
  -- three vectors
  all_goals first
    | (obtain ⟨x, hx, y, hy, rfl, rfl⟩ := ha
       first
       | (have X := (hOf_sound h hx).2; have Y := (hOf_sound h hy).2
          first
          | exact ⟨_, rfl, relH_tab fun k hk => ⟨⟨(X k hk).1, (Y k hk).1⟩, by simp only [E.eval, (X k hk).2.1, (Y k hk).2.1], by first | exact s16_bounds _ | exact sat16_bounds _⟩⟩
          | exact ⟨_, rfl, relH_tab fun k hk => ⟨⟨(X k hk).1, (Y _ (by omega)).1⟩, by simp only [E.eval, (X k hk).2.1, (Y _ (Nat.lt_succ_of_le hi)).2.1], by first | exact s16_bounds _ | exact sat16_bounds _⟩⟩
          | exact ⟨_, rfl, relS_tab fun k hk => ⟨⟨(X k (by omega)).1, (Y k (by omega)).1⟩, by simp only [E.eval, (X k (by omega)).2.1, (Y k (by omega)).2.1], mul_range (X k (by omega)).2.2.1 (X k (by omega)).2.2.2 (Y k (by omega)).2.2.1 (Y k (by omega)).2.2.2⟩⟩
          | exact ⟨_, rfl, relS_tab fun k hk => ⟨⟨(X (k + 4) (by omega)).1, (Y (k + 4) (by omega)).1⟩, by simp only [E.eval, (X (k + 4) (by omega)).2.1, (Y (k + 4) (by omega)).2.1], mul_range (X (k + 4) (by omega)).2.2.1 (X (k + 4) (by omega)).2.2.2 (Y (k + 4) (by omega)).2.2.1 (Y (k + 4) (by omega)).2.2.2⟩⟩
          | exact ⟨_, rfl, rfl, lt8 (X _ (by omega)) (X _ (by omega)) (Y _ (by omega)) (Y _ (by omega)) (X _ (by omega)) (X _ (by omega)) (Y _ (by omega)) (Y _ (by omega))⟩
          | exact ⟨_, rfl, rfl, lt8 (X _ (by omega)) (X _ (by omega)) (X _ (by omega)) (X _ (by omega)) (Y _ (by omega)) (Y _ (by omega)) (Y _ (by omega)) (Y _ (by omega))⟩)
       | (have X := bOf_sound h hx; have Y := bOf_sound h hy
          exact ⟨_, rfl, relY_tab fun k hk => ⟨⟨(Y k hk).1, (X k hk).1⟩, by simp only [E.eval, (X k hk).2, (Y k hk).2, Int.toNat_natCast]⟩⟩))
    | (obtain ⟨x, hx, y, hy, z, hz, rfl, rfl⟩ := ha
       have X := (hOf_sound h hx).2; have Y := (hOf_sound h hy).2
       first
       | (have Z := (hOf_sound h hz).2
          exact ⟨_, rfl, relH_tab fun k hk => ⟨⟨(Z k hk).1, (X k hk).1, (Y _ (by omega)).1⟩, by simp only [E.eval, (X k hk).2.1, (Z k hk).2.1, (Y _ (Nat.lt_succ_of_le hi)).2.1, s16_sub_s16], s16_bounds _⟩⟩)
       | (have Z := sOf_sound h hz
          first
          | exact ⟨_, rfl, relS_tab fun k hk => ⟨⟨(Z k hk).1, (X k (by omega)).1, (Y k (by omega)).1⟩, by simp only [E.eval, (X k (by omega)).2.1, (Y k (by omega)).2.1, (Z k hk).2], s32_bounds _⟩⟩
          | exact ⟨_, rfl, relS_tab fun k hk => ⟨⟨(Z k hk).1, (X (k + 4) (by omega)).1, (Y (k + 4) (by omega)).1⟩, by simp only [E.eval, (X (k + 4) (by omega)).2.1, (Y (k + 4) (by omega)).2.1, (Z k hk).2], s32_bounds _⟩⟩))
    | (obtain ⟨x, hx, rfl, rfl⟩ := ha
       have X := (hOf_sound h hx).2
       first
       | exact ⟨_, rfl, relH_tab fun k hk => ⟨(X k hk).1, by simp only [E.eval, (X k hk).2.1], by first | exact rshr_range hi (X k hk).2.2.1 (X k hk).2.2.2 | exact sra_range (X k hk).2.2.1 (X k hk).2.2.2⟩⟩
       | exact ⟨_, rfl, relY_tab fun k hk => ⟨(X k hk).1, by simp only [E.eval, (X k hk).2.1, pow_zero, Nat.div_one]⟩⟩)

/-- What running one step must achieve. -/
def Goal (F : Prop) (Val : Nat → Zq) (e : Nat → Int) (n : Nat) (sz bz : Obj → Nat) (k : Nat → List (Option Reg) → List (Option RV) → List (List (Option Vec)) → List (List (Option Vec)) → Option Res) (r : Res) (p : M St) : Prop :=
  PostF F p fun s' => ∃ e' n' X R W B, Ext n n' e e' ∧ Rel Val e' n' sz bz X R W B s' ∧ k n' X R W B = some r

variable {k : Nat → List (Option Reg) → List (Option RV) → List (List (Option Vec)) → List (List (Option Vec)) → Option Res}

theorem Goal.of (h : Rel Val e n sz bz X R W B s) (hk : k n X R W B = some r) : Goal F Val e n sz bz k r (pure s) := by
  unfold Goal
  rw [wp_pure]
  exact ⟨e, n, X, R, W, B, X86.Ext.refl _ _, h, hk⟩
theorem Goal.ext {p : M St} (hx : Ext n n' e e') (h : Goal F Val e' n' sz bz k r p) : Goal F Val e n sz bz k r p :=
  PostF.mono h fun _ ⟨e2, n2, X, R, W, B, h1, h2⟩ => ⟨e2, n2, X, R, W, B, hx.trans h1, h2⟩

theorem goal_x (h : Rel Val e n sz bz X R W B s) {d : Nat} {a : Reg} (hk : (putX X d a fun X => k n X R W B) = some r) : Goal F Val e n sz bz k r (pure (s.putx d a)) := by
  obtain ⟨X', h1, h2⟩ := putX_sound h hk
  exact Goal.of h1 h2
theorem goal_bump (h : Rel Val e n sz bz X R W B s) {m : Nat} {i : Int} (hk : (abump X m i fun X => k n X R W B) = some r) : Goal F Val e n sz bz k r (pure (s.bump m i)) := by
  obtain ⟨X', h1, h2⟩ := abump_sound h hk
  exact Goal.of h1 h2
theorem goal_r {T : TagOps} (hT : T.Sound Val) (h : Rel Val e n sz bz X R W B s) {d : Nat} {a : RV} {f : V} (ha : RelV Val e n a f) (hk : (putR T n R d a fun n R => k n X R W B) = some r) :
    Goal F Val e n sz bz k r (pure (s.put d f)) := by
  obtain ⟨e', n', R', h0, h1, h2⟩ := putR_sound hT h ha hk
  exact Goal.ext h0 (Goal.of h1 h2)
theorem goal_rb {T : TagOps} (hT : T.Sound Val) (h : Rel Val e n sz bz X R W B s) {d m : Nat} {i : Int} {a : RV} {f : V} (ha : RelV Val e n a f)
    (hk : (putR T n R d a fun n R => abump X m i fun X => k n X R W B) = some r) : Goal F Val e n sz bz k r (pure ((s.put d f).bump m i)) := by
  obtain ⟨e', n', R', h0, h1, h2⟩ := putR_sound hT h ha hk
  exact Goal.ext h0 (goal_bump h1 h2)

theorem byte_lt (f : V) (j : Nat) : byte f j < 256 := Nat.mod_lt _ (by norm_num)

theorem arun1_sound {T : TagOps} (hT : T.Sound Val) {i : Ins} (h : Rel Val e n sz bz X R W B s) (hk : arun1 T i n X R W B k = some r) :
    Goal F Val e n sz bz k r (i.step s) := by
  have hal : (alu i X R).bind (fun a => putR T n R a.1 a.2 fun n R => k n X R W B) = some r → Goal F Val e n sz bz k r (i.step s) := by
    intro ha
    obtain ⟨⟨d, a⟩, h1, h2⟩ := Option.bind_eq_some_iff.mp ha
    obtain ⟨f, h3, h4⟩ := alu_sound h h1
    rw [h3]
    exact goal_r hT h h4 h2
  cases i with
  | adr d t => exact goal_x h hk
  | mov_i d i => simp only [arun1, fInt_eq] at hk; exact goal_x h hk
  | mov_r d a =>
    obtain ⟨v, h1, h2⟩ := Option.bind_eq_some_iff.mp hk
    have := goal_x (F := F) h h2
    rwa [← h.x _ _ h1] at this
  | add_i d a i =>
    obtain ⟨v, h1, h2⟩ := Option.bind_eq_some_iff.mp hk
    rw [plusF_eq] at h2
    have := goal_x (F := F) h h2
    rwa [← h.x _ _ h1] at this
  | sub_i d a i =>
    obtain ⟨v, h1, h2⟩ := Option.bind_eq_some_iff.mp hk
    rw [plusF_eq] at h2
    have := goal_x (F := F) h h2
    rwa [← h.x _ _ h1] at this
  | subs_i d a i =>
    obtain ⟨v, h1, h2⟩ := Option.bind_eq_some_iff.mp hk
    rw [plusF_eq] at h2
    have := goal_x (F := F) h h2
    rwa [← h.x _ _ h1] at this
  | ldrsh d m off =>
    obtain ⟨v, h1, h2⟩ := Option.bind_eq_some_iff.mp hk
    rw [fInt_eq] at h2
    simp only [Ins.step, Goal, wp_bind]
    refine PostF.mono (aloadT_sound h h1) fun x hx => ?_
    subst hx
    exact goal_x h h2
  | ldrh d m off =>
    obtain ⟨v, h1, h2⟩ := Option.bind_eq_some_iff.mp hk
    rw [fInt_eq] at h2
    simp only [Ins.step, Goal, wp_bind]
    refine PostF.mono (aloadT_sound h h1) fun x hx => ?_
    subst hx
    exact goal_x h h2
  | ldr d m off =>
    obtain ⟨v, h1, h2⟩ := Option.bind_eq_some_iff.mp hk
    simp only [Ins.step, Goal, wp_bind]
    exact PostF.mono (aload8_sound h h1) fun x hx => goal_r hT h (a := .h v) hx h2
  | ldr_post d m inc =>
    obtain ⟨v, h1, h2⟩ := Option.bind_eq_some_iff.mp hk
    simp only [Ins.step, Goal, wp_bind]
    exact PostF.mono (aload8_sound h h1) fun x hx => goal_rb hT h (a := .h v) hx h2
  | ld1 d m inc =>
    obtain ⟨v, h1, h2⟩ := Option.bind_eq_some_iff.mp hk
    simp only [Ins.step, Goal, wp_bind]
    exact PostF.mono (aload8_sound h h1) fun x hx => goal_rb hT h (a := .h v) hx h2
  | ld1r d m inc =>
    obtain ⟨v, h1, h2⟩ := Option.bind_eq_some_iff.mp hk
    simp only [Ins.step, Goal, wp_bind]
    refine PostF.mono (aload_sound h h1 (c := 1) (by omega)).2 fun x hx => goal_rb hT h ?_ h2
    exact relH_tab fun k hk => hx 0 (by omega)
  | ld2 d0 d1 m inc =>
    obtain ⟨v, h1, h2⟩ := Option.bind_eq_some_iff.mp hk
    obtain ⟨w, h3, h4⟩ := Option.bind_eq_some_iff.mp h2
    simp only [Ins.step, Goal, wp_bind]
    refine PostF.mono (aload8_sound h h1) fun f hf => PostF.mono (aload8_sound h h3) fun g hg => ?_
    have A := hf.2
    have C := hg.2
    have key := fun ha => putR_sound (f := fun k => if 2 * k < 8 then f (2 * k) else g (2 * k - 8)) hT h ha h4
    obtain ⟨e', n', R', g0, g1, g2⟩ := key ⟨rfl, lt8 (A 0 (by omega)) (A 2 (by omega)) (A 4 (by omega)) (A 6 (by omega)) (C 0 (by omega)) (C 2 (by omega)) (C 4 (by omega)) (C 6 (by omega))⟩
    refine Goal.ext g0 (goal_rb hT g1 ?_ g2)
    refine RelV.ext (e := e) (n := n) ?_ g0
    exact ⟨rfl, lt8 (A 1 (by omega)) (A 3 (by omega)) (A 5 (by omega)) (A 7 (by omega)) (C 1 (by omega)) (C 3 (by omega)) (C 5 (by omega)) (C 7 (by omega))⟩
  | ldp_d d0 d1 m off =>
    obtain ⟨v, h1, h2⟩ := Option.bind_eq_some_iff.mp hk
    simp only [Ins.step, Goal, wp_bind]
    refine PostF.mono (aload8_sound h h1) fun f hf => ?_
    have Z : Good Val e n (.c 0) ∧ E.eval e (.c 0) = 0 ∧ (-32768 : Int) ≤ 0 ∧ (0 : Int) ≤ 32767 := ⟨trivial, rfl, by omega, by omega⟩
    have A := hf.2
    have key := fun ha => putR_sound (f := fun k => if k < 4 then f k else 0) hT h ha h2
    obtain ⟨e', n', R', g0, g1, g2⟩ := key ⟨rfl, lt8 (A 0 (by omega)) (A 1 (by omega)) (A 2 (by omega)) (A 3 (by omega)) Z Z Z Z⟩
    refine Goal.ext g0 (goal_r hT g1 ?_ g2)
    refine RelV.ext (e := e) (n := n) ?_ g0
    exact ⟨rfl, lt8 (A 4 (by omega)) (A 5 (by omega)) (A 6 (by omega)) (A 7 (by omega)) Z Z Z Z⟩
  | str r m off =>
    obtain ⟨v, h1, h2⟩ := Option.bind_eq_some_iff.mp hk
    exact PostF.mono (astore_sound h (hOf_sound h h1) h2) fun s' ⟨_, _, W', g1, g2⟩ => ⟨e, n, X, R, W', B, X86.Ext.refl _ _, g1, g2⟩
  | str_post r m inc =>
    obtain ⟨v, h1, h2⟩ := Option.bind_eq_some_iff.mp hk
    simp only [Ins.step, Goal, wp_bind]
    exact PostF.mono (astore_sound h (hOf_sound h h1) h2) fun s' ⟨_, _, W', g1, g2⟩ => goal_bump g1 g2
  | st2 r0 r1 m inc =>
    obtain ⟨v, h1, h2⟩ := Option.bind_eq_some_iff.mp hk
    obtain ⟨w, h3, h4⟩ := Option.bind_eq_some_iff.mp h2
    have A := (hOf_sound h h1).2
    have C := (hOf_sound h h3).2
    simp only [Ins.step, Goal, wp_bind]
    refine PostF.mono (astore_sound h ?_ h4) fun s1 ⟨_, _, W1, g1, k1⟩ => PostF.mono (astore_sound g1 ?_ k1) fun s2 ⟨_, _, W2, g2, k2⟩ => goal_bump g2 k2
    · exact ⟨rfl, lt8 (A 0 (by omega)) (C 0 (by omega)) (A 1 (by omega)) (C 1 (by omega)) (A 2 (by omega)) (C 2 (by omega)) (A 3 (by omega)) (C 3 (by omega))⟩
    · exact ⟨rfl, lt8 (A 4 (by omega)) (C 4 (by omega)) (A 5 (by omega)) (C 5 (by omega)) (A 6 (by omega)) (C 6 (by omega)) (A 7 (by omega)) (C 7 (by omega))⟩
  | st3 r0 r1 r2 m inc =>
    obtain ⟨x, h1, h2⟩ := Option.bind_eq_some_iff.mp hk
    obtain ⟨y, h3, h4⟩ := Option.bind_eq_some_iff.mp h2
    obtain ⟨z, h5, h6⟩ := Option.bind_eq_some_iff.mp h4
    have A := bOf_sound h h1
    have C := bOf_sound h h3
    have D := bOf_sound h h5
    simp only [Ins.step, Goal, wp_bind]
    refine PostF.mono (astore24_sound h rfl (fun k hk => ?_) h6) fun s1 ⟨B1, g1, k1⟩ => goal_bump g1 k1
    have hb : ∀ f j, byte f j < 256 := byte_lt
    rcases k with _|_|_|_|_|_|_|_|_|_|_|_|_|_|_|_|_|_|_|_|_|_|_|_|k
    all_goals first
      | exact ⟨(A _ (by omega)).1, (A _ (by omega)).2, hb _ _⟩
      | exact ⟨(C _ (by omega)).1, (C _ (by omega)).2, hb _ _⟩
      | exact ⟨(D _ (by omega)).1, (D _ (by omega)).2, hb _ _⟩
      | (exfalso; omega)
  | st4 r0 r1 r2 r3 m inc =>
    obtain ⟨x, h1, h2⟩ := Option.bind_eq_some_iff.mp hk
    obtain ⟨y, h3, h4⟩ := Option.bind_eq_some_iff.mp h2
    obtain ⟨z, h5, h6⟩ := Option.bind_eq_some_iff.mp h4
    obtain ⟨w, h7, h8⟩ := Option.bind_eq_some_iff.mp h6
    have A := (hOf_sound h h1).2
    have C := (hOf_sound h h3).2
    have D := (hOf_sound h h5).2
    have G := (hOf_sound h h7).2
    simp only [Ins.step, Goal, wp_bind]
    refine PostF.mono (astore_sound h ?_ h8) fun s1 ⟨_, _, W1, g1, k1⟩ => PostF.mono (astore_sound g1 ?_ k1) fun s2 ⟨_, _, W2, g2, k2⟩ =>
      PostF.mono (astore_sound g2 ?_ k2) fun s3 ⟨_, _, W3, g3, k3⟩ => PostF.mono (astore_sound g3 ?_ k3) fun s4 ⟨_, _, W4, g4, k4⟩ => goal_bump g4 k4
    · exact ⟨rfl, lt8 (A 0 (by omega)) (A 1 (by omega)) (C 0 (by omega)) (C 1 (by omega)) (D 0 (by omega)) (D 1 (by omega)) (G 0 (by omega)) (G 1 (by omega))⟩
    · exact ⟨rfl, lt8 (A 2 (by omega)) (A 3 (by omega)) (C 2 (by omega)) (C 3 (by omega)) (D 2 (by omega)) (D 3 (by omega)) (G 2 (by omega)) (G 3 (by omega))⟩
    · exact ⟨rfl, lt8 (A 4 (by omega)) (A 5 (by omega)) (C 4 (by omega)) (C 5 (by omega)) (D 4 (by omega)) (D 5 (by omega)) (G 4 (by omega)) (G 5 (by omega))⟩
    · exact ⟨rfl, lt8 (A 6 (by omega)) (A 7 (by omega)) (C 6 (by omega)) (C 7 (by omega)) (D 6 (by omega)) (D 7 (by omega)) (G 6 (by omega)) (G 7 (by omega))⟩
  | stp_d r0 r1 m off =>
    obtain ⟨v, h1, h2⟩ := Option.bind_eq_some_iff.mp hk
    obtain ⟨w, h3, h4⟩ := Option.bind_eq_some_iff.mp h2
    have A := (hOf_sound h h1).2
    have C := (hOf_sound h h3).2
    refine PostF.mono (astore_sound h ?_ h4) fun s' ⟨_, _, W', g1, g2⟩ => ⟨e, n, X, R, W', B, X86.Ext.refl _ _, g1, g2⟩
    exact ⟨rfl, lt8 (A 0 (by omega)) (A 1 (by omega)) (A 2 (by omega)) (A 3 (by omega)) (C 0 (by omega)) (C 1 (by omega)) (C 2 (by omega)) (C 3 (by omega))⟩
  | _ => exact hal hk

theorem arunI_sound {T : TagOps} (hT : T.Sound Val) {l : List Ins} (h : Rel Val e n sz bz X R W B s) (hk : arunI T l n X R W B k = some r) :
    Goal F Val e n sz bz k r (runI l s) := by
  induction l generalizing n e X R W B s with
  | nil => exact Goal.of h hk
  | cons i l ih =>
    simp only [runI, Goal, wp_bind]
    refine PostF.mono (arun1_sound hT h hk) fun s' ⟨e', n', X', R', W', B', h0, h1, h2⟩ => ?_
    exact Goal.ext h0 (ih h1 h2)

theorem arunB_sound {T : TagOps} (hT : T.Sound Val) {prog : List Block} {fuel pc : Nat} (h : Rel Val e n sz bz X R W B s) (hk : arunB T prog fuel pc n X R W B = some r) :
    PostF F (runB prog fuel pc s) (fun s' => ∃ e', Ext n r.n e e' ∧ Rel Val e' r.n sz bz r.X r.R r.W r.B s') := by
  induction fuel generalizing n e X R W B s pc with
  | zero => cases hk
  | succ f ih =>
    unfold arunB at hk
    unfold runB
    split at hk
    · cases hk
    rename_i b hb
    rw [hb]
    simp only [wp_bind]
    refine PostF.mono (arunI_sound hT h hk) fun s' ⟨e', n', X', R', W', B', h0, h1, h2⟩ => ?_
    have fin : ∀ {pc'}, arunB T prog f pc' n' X' R' W' B' = some r → PostF F (runB prog f pc' s') (fun s' => ∃ e', Ext n r.n e e' ∧ Rel Val e' r.n sz bz r.X r.R r.W r.B s') :=
      fun hh => PostF.mono (ih h1 hh) fun s2 ⟨e2, g1, g2⟩ => ⟨e2, h0.trans g1, g2⟩
    split at h2
    · rename_i hf
      rw [hf]
      exact fin h2
    · rename_i hf
      rw [hf]
      cases Option.some.inj h2
      simp only [wp_pure]
      exact ⟨e', h0, h1⟩
    · rename_i hf
      rw [hf]
      split at h2 <;> [skip; cases h2]
      rename_i z hz
      simp only [h1.x _ _ hz]
      simp only [wp_branch]
      split at h2
      · rename_i h3
        simp only [decide_eq_true_eq] at h3
        subst h3
        simpa using fin h2
      · rename_i h3
        simp only [decide_eq_true_eq] at h3
        simpa [h3] using fin h2

end
end Verif.A64

import Verif.Model.X86Asm
/-! # The AArch64 assembly of the arithmetic backend (`/repo/mlkem/native/aarch64/*.S`)

Generated by `/verif/tools/gen_a64.py` (this head is hand-written: `/verif/tools/a64asm_head.txt`).

The instruction set is modelled by the meaning given in the Arm Architecture Reference Manual.  A general-purpose register holds a number or a pointer (an object and a byte
offset); register 31 is `sp`.  A vector register is a function from the positions `0 … 7` (0 the least significant) to 16-bit elements, written as signed numbers; a 32-bit element
`k` is made of the 16-bit elements `2k` (low) and `2k + 1` (high), a byte `j` is half of the 16-bit element `j / 2`.  Memory is a collection of separate objects: one for each
pointer argument (so the arguments of a function do not overlap), 64 bytes of stack, and the constant tables.  An access outside its object, a read of an uninitialised element, and a store to a table are
errors.  Operands are in the order of the assembly: destination first.

Simplifications: 16-bit objects are accessed in whole elements only (no access of the code is misaligned with respect to the elements; the model fails on one).  `subs` sets flags that no
instruction of these functions reads, so it is modelled as `sub`.  `ASM_LOAD` (common.i) is one instruction `adr`.  The general-purpose register written by `ldrsh` and `ldrh` is only
read by `dup`; the two are modelled for loads from tables only. -/
namespace Verif.Model.A64
open Verif.Model.X86 (s16 ldw stw)

/-- The tables: aarch64_zetas.c 19-164, and the labels `const_addr`, `ninv_addr`, `ninv_tw_addr` of the `.S` files. -/
inductive Table where
@TABLE_NAMES@
deriving DecidableEq, Repr

@TABLES@

/-- The objects: the pointer arguments in order, the stack frame, the tables.  Machine model: no line of /repo corresponds to it; the code it runs is that of the .S files cited at the programs below. -/
inductive Obj where
  | a0 | a1 | a2 | a3 | stk
  | tab (t : Table)
deriving DecidableEq, Repr

/-- The contents of a general-purpose register.  Machine model: no line of /repo corresponds to it; the code it runs is that of the .S files cited at the programs below. -/
inductive Reg where
  | num (x : Int)
  | ptr (o : Obj) (off : Int)
deriving DecidableEq, Repr

/-- A vector register as eight signed 16-bit elements.  Machine model: no line of /repo corresponds to it; the code it runs is that of the .S files cited at the programs below. -/
abbrev V := Nat → Int

/-- The machine state.  Machine model: no line of /repo corresponds to it; the code it runs is that of the .S files cited at the programs below. -/
structure St where
  x : Nat → Reg
  v : Nat → V
  m : Obj → Buf Int
  b : Obj → Buf UInt8

/-- The instructions used; `n` is the base register, offsets and increments count bytes.  Machine model: no line of /repo corresponds to it; the code it runs is that of the .S files cited at the programs below. -/
inductive Ins where
  | adr (d : Nat) (t : Table)
  | mov_i (d : Nat) (i : Int)
  | mov_r (d a : Nat)
  | add_i (d a : Nat) (i : Int)
  | sub_i (d a : Nat) (i : Int)
  | subs_i (d a : Nat) (i : Int)
  | ldrsh (d n : Nat) (off : Int)
  | ldrh (d n : Nat) (off : Int)
  | dup (d a : Nat)
  | ldr (d n : Nat) (off : Int)
  | ldr_post (d n : Nat) (inc : Int)
  | str (r n : Nat) (off : Int)
  | str_post (r n : Nat) (inc : Int)
  | ld1 (d n : Nat) (inc : Int)
  | ld1r (d n : Nat) (inc : Int)
  | ld2 (d0 d1 n : Nat) (inc : Int)
  | st2 (r0 r1 n : Nat) (inc : Int)
  | st3 (r0 r1 r2 n : Nat) (inc : Int)
  | st4 (r0 r1 r2 r3 n : Nat) (inc : Int)
  | stp_d (r0 r1 n : Nat) (off : Int)
  | ldp_d (d0 d1 n : Nat) (off : Int)
  | add (d a b : Nat)
  | sub (d a b : Nat)
  | mul (d a b : Nat)
  | mul_e (d a b i : Nat)
  | mls_e (d a b i : Nat)
  | sqrdmulh (d a b : Nat)
  | sqrdmulh_e (d a b i : Nat)
  | sqdmulh_e (d a b i : Nat)
  | srshr (d a i : Nat)
  | sshr (d a i : Nat)
  | and (d a b : Nat)
  | trn1_4s (d a b : Nat)
  | trn2_4s (d a b : Nat)
  | trn1_2d (d a b : Nat)
  | trn2_2d (d a b : Nat)
  | uzp1 (d a b : Nat)
  | uzp2 (d a b : Nat)
  | smull (d a b : Nat)
  | smull2 (d a b : Nat)
  | smlal (d a b : Nat)
  | smlal2 (d a b : Nat)
  | xtn (d a : Nat)
  | shrn (d a i : Nat)
  | sli (d a i : Nat)
deriving DecidableEq, Repr

/-- How a block ends.  Machine model: no line of /repo corresponds to it; the code it runs is that of the .S files cited at the programs below. -/
inductive End where
  /-- fall through to the next block -/
  | next
  /-- `cbnz`: to block `t` if register `r` is not zero, otherwise to the next block -/
  | cbnz (r t : Nat)
  /-- `ret` -/
  | ret
deriving DecidableEq, Repr

/-- A block of straight-line code.  Machine model: no line of /repo corresponds to it; the code it runs is that of the .S files cited at the programs below. -/
structure Block where
  ins : List Ins
  fin : End
deriving DecidableEq, Repr

/-! ## Values -/

/-- Saturate to 16 bits.  Machine model: no line of /repo corresponds to it; the code it runs is that of the .S files cited at the programs below. -/
def sat16 (x : Int) : Int := if x < -32768 then -32768 else if 32767 < x then 32767 else x
/-- The signed number congruent to `x` modulo `2^32`.  Machine model: no line of /repo corresponds to it; the code it runs is that of the .S files cited at the programs below. -/
def s32 (x : Int) : Int := (x + 2147483648) % 4294967296 - 2147483648
/-- `sqrdmulh` on one element: twice the product, rounded, high half, saturated.  Used in intt_clean.S 43 and elsewhere. -/
def rdmulh (a b : Int) : Int := sat16 ((2 * a * b + 32768) / 65536)
/-- `sqdmulh` on one element: twice the product, high half, saturated.  Used in intt_clean.S 74 and elsewhere. -/
def dmulh (a b : Int) : Int := sat16 (2 * a * b / 65536)
/-- `srshr` on one element.  Used in intt_clean.S 75 and elsewhere. -/
def rshr (i : Nat) (a : Int) : Int := (a + 2 ^ i / 2) / 2 ^ i
/-- The 32-bit element `k`.  Machine model: no line of /repo corresponds to it; the code it runs is that of the .S files cited at the programs below. -/
def word (f : V) (k : Nat) : Int := u16 (f (2 * k)) + 65536 * f (2 * k + 1)
/-- The register with the 32-bit elements `g 0 … g 3`.  Machine model: no line of /repo corresponds to it; the code it runs is that of the .S files cited at the programs below. -/
def words (g : Nat → Int) : V := fun k => if k % 2 = 0 then s16 (g (k / 2)) else s16 (g (k / 2) / 65536)
/-- Byte `j`.  Machine model: no line of /repo corresponds to it; the code it runs is that of the .S files cited at the programs below. -/
def byte (f : V) (j : Nat) : Nat := u16 (f (j / 2)) / 256 ^ (j % 2) % 256
/-- The register with the bytes `g 0 … g 7` and zeros.  Machine model: no line of /repo corresponds to it; the code it runs is that of the .S files cited at the programs below. -/
def bytes8 (g : Nat → Nat) : V := fun k => if k < 4 then s16 ((g (2 * k) % 256 + 256 * (g (2 * k + 1) % 256) : Nat) : Int) else 0

/-- Write a vector register.  Machine model: no line of /repo corresponds to it; the code it runs is that of the .S files cited at the programs below. -/
def St.put (s : St) (d : Nat) (f : V) : St := { s with v := fun r => if r = d then f else s.v r }
/-- Write a general-purpose register.  Machine model: no line of /repo corresponds to it; the code it runs is that of the .S files cited at the programs below. -/
def St.putx (s : St) (d : Nat) (a : Reg) : St := { s with x := fun r => if r = d then a else s.x r }
/-- Replace an object of 16-bit elements.  Machine model: no line of /repo corresponds to it; the code it runs is that of the .S files cited at the programs below. -/
def St.putm (s : St) (o : Obj) (b : Buf Int) : St := { s with m := fun r => if r = o then b else s.m r }
/-- Replace an object of bytes.  Machine model: no line of /repo corresponds to it; the code it runs is that of the .S files cited at the programs below. -/
def St.putb (s : St) (o : Obj) (b : Buf UInt8) : St := { s with b := fun r => if r = o then b else s.b r }

/-- Add to a register; numbers are modulo `2^64`.  Machine model: no line of /repo corresponds to it; the code it runs is that of the .S files cited at the programs below. -/
def Reg.plus (a : Reg) (i : Int) : Reg :=
  match a with
  | .num x => .num ((x + i) % 18446744073709551616)
  | .ptr o off => .ptr o (off + i)

/-! ## Memory -/

/-- The object of 16-bit elements.  Machine model: no line of /repo corresponds to it; the code it runs is that of the .S files cited at the programs below. -/
def St.obj (s : St) (o : Obj) : Buf Int :=
  match o with
  | .tab t => Buf.ofList t.data
  | o => s.m o
/-- The object and the byte offset addressed by `[xn, #off]`.  Machine model: no line of /repo corresponds to it; the code it runs is that of the .S files cited at the programs below. -/
def St.addr (s : St) (n : Nat) (off : Int) : M (Obj × Nat) :=
  match s.x n with
  | .num _ => M.fail .oob
  | .ptr o p => if 0 ≤ p + off then pure (o, (p + off).toNat) else M.fail .oob
/-- Load `c` elements from `[xn, #off]`.  Machine model: no line of /repo corresponds to it; the code it runs is that of the .S files cited at the programs below. -/
def St.ld (s : St) (n : Nat) (off : Int) (c : Nat) : M V := do
  let (o, p) ← s.addr n off
  if p % 2 = 0 then ldw (s.obj o) (p / 2) c else M.fail .oob
/-- Store eight elements at `[xn, #off]`; tables are read-only.  Machine model: no line of /repo corresponds to it; the code it runs is that of the .S files cited at the programs below. -/
def St.st (s : St) (n : Nat) (off : Int) (f : V) : M St := do
  let (o, p) ← s.addr n off
  match o with
  | .tab _ => M.fail .oob
  | o => if p % 2 = 0 then do let b ← stw (s.m o) (p / 2) f 8; pure (s.putm o b) else M.fail .oob
/-- Store `c` bytes at `p`.  Machine model: no line of /repo corresponds to it; the code it runs is that of the .S files cited at the programs below. -/
def stby (b : Buf UInt8) (p : Nat) (g : Nat → Nat) : Nat → M (Buf UInt8)
  | 0 => pure b
  | c + 1 => do
    let b ← stby b p g c
    wr b (p + c) (toU8 (g c))
/-- Store 24 bytes at `[xn]`.  Machine model: no line of /repo corresponds to it; the code it runs is that of the .S files cited at the programs below. -/
def St.st24 (s : St) (n : Nat) (g : Nat → Nat) : M St := do
  let (o, p) ← s.addr n 0
  let b ← stby (s.b o) p g 24
  pure (s.putb o b)
/-- Load an element of a table from `[xn, #off]`.  Machine model: no line of /repo corresponds to it; the code it runs is that of the .S files cited at the programs below. -/
def St.ldt (s : St) (n : Nat) (off : Int) : M Int := do
  let (o, p) ← s.addr n off
  match o with
  | .tab t => if p % 2 = 0 then rd (Buf.ofList t.data) (p / 2) else M.fail .oob
  | _ => M.fail .oob
/-- Post-index: add to the base register.  Machine model: no line of /repo corresponds to it; the code it runs is that of the .S files cited at the programs below. -/
def St.bump (s : St) (n : Nat) (inc : Int) : St := s.putx n ((s.x n).plus inc)

/-! ## Execution -/

/-- One instruction.  Machine model: no line of /repo corresponds to it; the code it runs is that of the .S files cited at the programs below. -/
def Ins.step (i : Ins) (s : St) : M St :=
  match i with
  | adr d t => pure (s.putx d (.ptr (.tab t) 0))
  | mov_i d i => pure (s.putx d (.num i))
  | mov_r d a => pure (s.putx d (s.x a))
  | add_i d a i => pure (s.putx d ((s.x a).plus i))
  | sub_i d a i | subs_i d a i => pure (s.putx d ((s.x a).plus (-i)))
  | ldrsh d n off => do let x ← s.ldt n off; pure (s.putx d (.num x))
  | ldrh d n off => do let x ← s.ldt n off; pure (s.putx d (.num (x % 65536)))
  | dup d a => match s.x a with
    | .num x => pure (s.put d fun _ => s16 x)
    | .ptr _ _ => M.fail .oob
  | ldr d n off => do let f ← s.ld n off 8; pure (s.put d f)
  | ldr_post d n inc => do let f ← s.ld n 0 8; pure ((s.put d f).bump n inc)
  | str r n off => s.st n off (s.v r)
  | str_post r n inc => do let s ← s.st n 0 (s.v r); pure (s.bump n inc)
  | ld1 d n inc => do let f ← s.ld n 0 8; pure ((s.put d f).bump n inc)
  | ld1r d n inc => do let f ← s.ld n 0 1; pure ((s.put d fun _ => f 0).bump n inc)
  | ld2 d0 d1 n inc => do
    let f ← s.ld n 0 8
    let g ← s.ld n 16 8
    let h := fun k => if k < 8 then f k else g (k - 8)
    pure (((s.put d0 fun k => h (2 * k)).put d1 fun k => h (2 * k + 1)).bump n inc)
  | st2 r0 r1 n inc => do
    let h := fun k => if k % 2 = 0 then s.v r0 (k / 2) else s.v r1 (k / 2)
    let s ← s.st n 0 h
    let s ← s.st n 16 fun k => h (8 + k)
    pure (s.bump n inc)
  | st3 r0 r1 r2 n inc => do
    let s ← s.st24 n fun k => if k % 3 = 0 then byte (s.v r0) (k / 3) else if k % 3 = 1 then byte (s.v r1) (k / 3) else byte (s.v r2) (k / 3)
    pure (s.bump n inc)
  | st4 r0 r1 r2 r3 n inc => do
    let h := fun w k => if k < 2 then s.v r0 (2 * w + k) else if k < 4 then s.v r1 (2 * w + (k - 2)) else if k < 6 then s.v r2 (2 * w + (k - 4)) else s.v r3 (2 * w + (k - 6))
    let s ← s.st n 0 (h 0)
    let s ← s.st n 16 (h 1)
    let s ← s.st n 32 (h 2)
    let s ← s.st n 48 (h 3)
    pure (s.bump n inc)
  | stp_d r0 r1 n off => s.st n off fun k => if k < 4 then s.v r0 k else s.v r1 (k - 4)
  | ldp_d d0 d1 n off => do
    let f ← s.ld n off 8
    pure ((s.put d0 fun k => if k < 4 then f k else 0).put d1 fun k => if k < 4 then f (k + 4) else 0)
  | add d a b => pure (s.put d fun k => s16 (s.v a k + s.v b k))
  | sub d a b => pure (s.put d fun k => s16 (s.v a k - s.v b k))
  | mul d a b => pure (s.put d fun k => s16 (s.v a k * s.v b k))
  | mul_e d a b i => pure (s.put d fun k => s16 (s.v a k * s.v b i))
  | mls_e d a b i => pure (s.put d fun k => s16 (s.v d k - s.v a k * s.v b i))
  | sqrdmulh d a b => pure (s.put d fun k => rdmulh (s.v a k) (s.v b k))
  | sqrdmulh_e d a b i => pure (s.put d fun k => rdmulh (s.v a k) (s.v b i))
  | sqdmulh_e d a b i => pure (s.put d fun k => dmulh (s.v a k) (s.v b i))
  | srshr d a i => pure (s.put d fun k => rshr i (s.v a k))
  | sshr d a i => pure (s.put d fun k => s.v a k / 2 ^ i)
  | and d a b => pure (s.put d fun k => s16 ((u16 (s.v a k) &&& u16 (s.v b k) : Nat) : Int))
  | trn1_4s d a b => pure (s.put d fun k => if k / 2 % 2 = 0 then s.v a k else s.v b (k - 2))
  | trn2_4s d a b => pure (s.put d fun k => if k / 2 % 2 = 0 then s.v a (k + 2) else s.v b k)
  | trn1_2d d a b => pure (s.put d fun k => if k / 4 % 2 = 0 then s.v a k else s.v b (k - 4))
  | trn2_2d d a b => pure (s.put d fun k => if k / 4 % 2 = 0 then s.v a (k + 4) else s.v b k)
  | uzp1 d a b => pure (s.put d fun k => if k < 4 then s.v a (2 * k) else s.v b (2 * (k - 4)))
  | uzp2 d a b => pure (s.put d fun k => if k < 4 then s.v a (2 * k + 1) else s.v b (2 * (k - 4) + 1))
  | smull d a b => pure (s.put d (words fun k => s.v a k * s.v b k))
  | smull2 d a b => pure (s.put d (words fun k => s.v a (k + 4) * s.v b (k + 4)))
  | smlal d a b => pure (s.put d (words fun k => s32 (word (s.v d) k + s.v a k * s.v b k)))
  | smlal2 d a b => pure (s.put d (words fun k => s32 (word (s.v d) k + s.v a (k + 4) * s.v b (k + 4))))
  | xtn d a => pure (s.put d (bytes8 fun j => u16 (s.v a j)))
  | shrn d a i => pure (s.put d (bytes8 fun j => u16 (s.v a j) / 2 ^ i))
  | sli d a i => pure (s.put d (bytes8 fun j => byte (s.v a) j * 2 ^ i % 256 + byte (s.v d) j % 2 ^ i))

/-- Straight-line code.  Machine model: no line of /repo corresponds to it; the code it runs is that of the .S files cited at the programs below. -/
def runI : List Ins → St → M St
  | [], s => pure s
  | i :: l, s => do
    let s ← i.step s
    runI l s

/-- A function, from block `pc`; `f` bounds the number of blocks executed (running out is the error `fuel`).  Machine model: no line of /repo corresponds to it; the code it runs is that of the .S files cited at the programs below. -/
def runB (prog : List Block) : Nat → Nat → St → M St
  | 0, _, _ => M.fail .fuel
  | f + 1, pc, s =>
    match prog[pc]? with
    | none => M.fail .oob
    | some b => do
      let s ← runI b.ins s
      match b.fin with
      | .next => runB prog f (pc + 1) s
      | .ret => pure s
      | .cbnz r t => match s.x r with
        | .num z => branch (decide (z ≠ 0)) (runB prog f t s) (runB prog f (pc + 1) s)
        | .ptr _ _ => M.fail .oob

/-- Run a function; no function executes more than 100 blocks (otherwise the model fails).  Machine model: no line of /repo corresponds to it; the code it runs is that of the .S files cited at the programs below. -/
def run (prog : List Block) (s : St) : M St := runB prog 100 0 s

import Verif.Model.A64Rej
/-! # The instructions of the AArch64 rejection sampler (`/repo/mlkem/native/aarch64/rej_uniform_asm_clean.S`)

`Verif.Model.A64Rej` transcribes the function with its named values; here it is a program of a machine with registers, flags, a stack pointer and branches to labels.  The program between the
markers is generated from the source by `/verif/tools/gen_a64rejasm.py`, which resolves the register names (`.req`), so that names that share a register do so here.

Machine: a general-purpose register holds a 64-bit number, an address (object and byte offset), or a value of which nothing is known, the result of arithmetic on addresses that has no meaning here;
a branch on such a value or an access through it is an error.  Register 31 is the stack pointer.  A vector register is a function from byte positions to bytes, of which the first 16 matter.
Simplifications: an access to an array of `int16_t` must be at an even offset and is made of accesses to its elements, an access to the table `table_data` must be to a whole row. -/
namespace Verif.Model.A64RejAsm
open Verif.Model.A64Rej

/-- The objects: the output, the input, the stack frame, `table_data`, `bit_table_data`.  Machine model; the tables are in rej_uniform_asm_clean.S 31-289. -/
inductive Obj where
  | out | buf | stk | tab | bits
deriving DecidableEq, Repr

/-- The contents of a general-purpose register.  Machine model of rej_uniform_asm_clean.S 389-606. -/
inductive Reg where
  | num (x : Nat)
  | ptr (o : Obj) (off : Int)
  | bad
deriving DecidableEq, Repr

/-- The flags N, Z, C, V.  Machine model of rej_uniform_asm_clean.S 389-606. -/
structure Flags where
  n : Bool
  z : Bool
  c : Bool
  v : Bool
deriving DecidableEq, Repr

/-- The machine state.  Machine model of rej_uniform_asm_clean.S 389-606. -/
structure St where
  x : Nat → Reg
  v : Nat → VB
  fl : Option Flags
  out : Poly
  stk : Poly
  buf : Buf UInt8

/-- The instructions used.  Machine model of rej_uniform_asm_clean.S 389-606. -/
inductive Ins where
  | add_xi (d a : Nat) (i : Int)
  | sub_xi (d a : Nat) (i : Int)
  | adr (d : Nat) (o : Obj)
  | mov_x (d a : Nat)
  | mov_w (d a : Nat)
  | mov_wi (d i : Nat)
  | add_w (d a b : Nat)
  | add_wi (d a i : Nat)
  | sub_wi (d a i : Nat)
  | add_uxtw1 (d a b : Nat)
  | cmp (a b : Nat)
  | cmp_i (a i : Nat)
  | csel_lo (d a b : Nat)
  | dup (d a : Nat)
  | zip1b (d a b : Nat)
  | zip2b (d a b : Nat)
  | zip1h (d a b : Nat)
  | zip2h (d a b : Nat)
  | bic (d imm s : Nat)
  | ushr (d a i : Nat)
  | cmhi (d a b : Nat)
  | and (d a b : Nat)
  | uaddlv (d a : Nat)
  | fmov (d a : Nat)
  | cnt (d a : Nat)
  | tbl (d a t : Nat)
  | ldr (d n : Nat) (off : Int)
  | ldr_post (d n : Nat) (inc : Int)
  | ldr_x (d n m : Nat)
  | str (r n : Nat) (off : Int)
  | str_post (r n : Nat) (inc : Int)
  | ld3 (d0 d1 d2 n w : Nat) (inc : Int)
deriving DecidableEq, Repr

/-- Conditions of branches.  Used in rej_uniform_asm_clean.S 405 and elsewhere. -/
inductive Cond where
  | lo | hs | lt
deriving DecidableEq, Repr

/-- How a block ends: fall through, branch if the condition holds (otherwise fall through), branch, `ret`; the targets are block numbers.  Machine model of rej_uniform_asm_clean.S 389-606. -/
inductive End where
  | next
  | bc (c : Cond) (t : Nat)
  | b (t : Nat)
  | ret
deriving DecidableEq, Repr

/-- A block of straight-line code.  Machine model of rej_uniform_asm_clean.S 389-606. -/
structure Block where
  ins : List Ins
  fin : End

/-- Add to a register.  Machine model of rej_uniform_asm_clean.S 389-606. -/
def Reg.plus : Reg → Int → Reg
  | .num x, i => .num (((x : Int) + i) % 18446744073709551616).toNat
  | .ptr o p, i => .ptr o (p + i)
  | .bad, _ => .bad
/-- The lower 32 bits (`w` registers), if they are known.  Machine model of rej_uniform_asm_clean.S 389-606. -/
def Reg.w : Reg → Option Nat
  | .num x => some (u32 x)
  | _ => none
/-- The register with the given 32-bit result; writing a `w` register clears the upper half.  Machine model of rej_uniform_asm_clean.S 389-606. -/
def Reg.ofw : Option Nat → Reg
  | some x => .num (u32 x)
  | none => .bad
/-- A 32-bit operation with two operands.  Machine model of rej_uniform_asm_clean.S 389-606. -/
def op2 (f : Nat → Nat → Nat) : Option Nat → Option Nat → Option Nat
  | some a, some b => some (f a b)
  | _, _ => none
/-- The flags of the 32-bit comparison of `a` and `b`: those of `a - b`.  Used in rej_uniform_asm_clean.S 404 and elsewhere. -/
def flags (a b : Nat) : Flags where
  n := (sub32 a b).testBit 31
  z := decide (sub32 a b = 0)
  c := decide (a ≥ b)
  v := decide (a.testBit 31 ≠ b.testBit 31 ∧ (sub32 a b).testBit 31 ≠ a.testBit 31)
/-- The flags of a comparison of known values.  Machine model of rej_uniform_asm_clean.S 389-606. -/
def cmpFlags : Option Nat → Option Nat → Option Flags
  | some a, some b => some (flags a b)
  | _, _ => none
/-- Does the condition hold?  `lo`: C clear, `hs`: C set, `lt`: N differs from V.  Used in rej_uniform_asm_clean.S 405 and elsewhere. -/
def Cond.holds : Cond → Flags → Bool
  | .lo, f => !f.c
  | .hs, f => f.c
  | .lt, f => f.n != f.v
/-- The vector register with the 32-bit number `x` and zeros.  Machine model of rej_uniform_asm_clean.S 389-606. -/
def scalar (x : Nat) : VB := fun j => if j < 4 then UInt8.ofNat (x / 256 ^ j) else 0
/-- The lower 32 bits of a vector register.  Machine model of rej_uniform_asm_clean.S 389-606. -/
def low32 (a : VB) : Nat := (a 0).toNat + 256 * (a 1).toNat + 65536 * (a 2).toNat + 16777216 * (a 3).toNat

/-- Write a general-purpose register.  Machine model of rej_uniform_asm_clean.S 389-606. -/
def St.putx (s : St) (d : Nat) (a : Reg) : St := { s with x := fun r => if r = d then a else s.x r }
/-- Write a vector register.  Machine model of rej_uniform_asm_clean.S 389-606. -/
def St.putv (s : St) (d : Nat) (a : VB) : St := { s with v := fun r => if r = d then a else s.v r }

/-- The instructions that do not access memory and cannot fail.  Machine model of rej_uniform_asm_clean.S 389-606. -/
def eff : Ins → St → St
  | .add_xi d a i, s => s.putx d ((s.x a).plus i)
  | .sub_xi d a i, s => s.putx d ((s.x a).plus (-i))
  | .adr d o, s => s.putx d (.ptr o 0)
  | .mov_x d a, s => s.putx d (s.x a)
  | .mov_w d a, s => s.putx d (.ofw (s.x a).w)
  | .mov_wi d i, s => s.putx d (.num i)
  | .add_w d a b, s => s.putx d (.ofw (op2 (· + ·) (s.x a).w (s.x b).w))
  | .add_wi d a i, s => s.putx d (.ofw ((s.x a).w.map (· + i)))
  | .sub_wi d a i, s => s.putx d (.ofw ((s.x a).w.map (sub32 · i)))
  | .add_uxtw1 d a b, s => s.putx d (match (s.x b).w with | some y => (s.x a).plus (2 * (y : Int)) | none => .bad)
  | .cmp a b, s => { s with fl := cmpFlags (s.x a).w (s.x b).w }
  | .cmp_i a i, s => { s with fl := cmpFlags (s.x a).w (some i) }
  | .csel_lo d a b, s => s.putx d (match s.fl with | some f => .ofw (if Cond.lo.holds f then (s.x a).w else (s.x b).w) | none => .bad)
  | .zip1b d a b, s => s.putv d (A64Rej.zip1b (s.v a) (s.v b))
  | .zip2b d a b, s => s.putv d (A64Rej.zip2b (s.v a) (s.v b))
  | .zip1h d a b, s => s.putv d (A64Rej.zip1h (s.v a) (s.v b))
  | .zip2h d a b, s => s.putv d (A64Rej.zip2h (s.v a) (s.v b))
  | .bic d imm i, s => s.putv d (bic8h (s.v d) imm i)
  | .ushr d a i, s => s.putv d (ushr8h (s.v a) i)
  | .cmhi d a b, s => s.putv d (cmhi8h (s.v a) (s.v b))
  | .and d a b, s => s.putv d (and16b (s.v a) (s.v b))
  | .uaddlv d a, s => s.putv d (scalar (uaddlv8h (s.v a)))
  | .fmov d a, s => s.putx d (.num (low32 (s.v a)))
  | .cnt d a, s => s.putv d (cnt16b (s.v a))
  | .tbl d a t, s => s.putv d (tbl16b (s.v a) (s.v t))
  | _, s => s

/-- The object and the byte offset addressed by `[xn, #off]`.  Machine model of rej_uniform_asm_clean.S 389-606. -/
def St.addr (s : St) (n : Nat) (off : Int) : M (Obj × Nat) :=
  match s.x n with
  | .ptr o p => if 0 ≤ p + off then pure (o, (p + off).toNat) else M.fail .oob
  | _ => M.fail .oob
/-- Load `n` elements of an array of 16-bit numbers.  Machine model of rej_uniform_asm_clean.S 389-606. -/
def ldh (b : Buf Int) (p : Nat) : Nat → M (Nat → Nat)
  | 0 => pure fun _ => 0
  | n + 1 => do
    let f ← ldh b p n
    let y ← rd b (p + n)
    pure fun k => if k = n then u16 y else f k
/-- Load 16 bytes from an array of 16-bit numbers at byte offset `p`.  Machine model of rej_uniform_asm_clean.S 389-606. -/
def ldq (b : Buf Int) (p : Nat) : M VB := if p % 2 = 0 then do let f ← ldh b (p / 2) 8; pure (of16 f) else M.fail .oob
/-- `bit_table_data`, rej_uniform_asm_clean.S 288-289. -/
def bitTable : List Int := [0x1, 0x2, 0x4, 0x8, 0x10, 0x20, 0x40, 0x80]
/-- Load 16 bytes of an object.  Machine model of rej_uniform_asm_clean.S 389-606. -/
def St.load (s : St) (o : Obj) (p : Nat) : M VB :=
  match o with
  | .out => ldq s.out p
  | .stk => ldq s.stk p
  | .bits => ldq (Buf.ofList bitTable) p
  | .tab => if p % 16 = 0 then ldrTable (p / 16) else M.fail .oob
  | .buf => loadu s.buf p 16
/-- Store 16 bytes to an object; the input and the tables are read-only.  Machine model of rej_uniform_asm_clean.S 389-606. -/
def St.store (s : St) (o : Obj) (p : Nat) (a : VB) : M St :=
  match o with
  | .out => if p % 2 = 0 then do let b ← storeu128 s.out (p / 2) a 8; pure { s with out := b } else M.fail .oob
  | .stk => if p % 2 = 0 then do let b ← storeu128 s.stk (p / 2) a 8; pure { s with stk := b } else M.fail .oob
  | _ => M.fail .oob

/-- One instruction.  Machine model of rej_uniform_asm_clean.S 389-606. -/
def step : Ins → St → M St
  | .dup d a, s =>
    match (s.x a).w with
    | none => M.fail .uninit
    | some y => pure (s.putv d (of16 fun _ => y % 65536))
  | .ldr d n off, s => do
    let (o, p) ← s.addr n off
    let a ← s.load o p
    pure (s.putv d a)
  | .ldr_post d n inc, s => do
    let (o, p) ← s.addr n 0
    let a ← s.load o p
    pure ((s.putv d a).putx n ((s.x n).plus inc))
  | .ldr_x d n m, s =>
    match (s.x m).w with
    | none => M.fail .oob
    | some y => do
      let (o, p) ← s.addr n (16 * (y : Int))
      let a ← s.load o p
      pure (s.putv d a)
  | .str r n off, s => do
    let (o, p) ← s.addr n off
    s.store o p (s.v r)
  | .str_post r n inc, s => do
    let (o, p) ← s.addr n 0
    let s' ← s.store o p (s.v r)
    pure (s'.putx n ((s.x n).plus inc))
  | .ld3 d0 d1 d2 n w inc, s => do
    let (o, p) ← s.addr n 0
    match o with
    | .buf => do
      let (a, b, c) ← ld3 s.buf p w
      pure ((((s.putv d0 a).putv d1 b).putv d2 c).putx n ((s.x n).plus inc))
    | _ => M.fail .oob
  | i, s => pure (eff i s)

/-- A sequence of instructions.  Machine model of rej_uniform_asm_clean.S 389-606. -/
def exec : List Ins → St → M St
  | [], s => pure s
  | i :: l, s => do
    let s ← step i s
    exec l s

/-- Run from block `pc`, at most `fuel` blocks.  Machine model of rej_uniform_asm_clean.S 389-606. -/
def runB (prog : List Block) : Nat → Nat → St → M St
  | 0, _, _ => M.fail .fuel
  | fuel + 1, pc, s =>
    match prog[pc]? with
    | none => M.fail .oob
    | some b => do
      let s ← exec b.ins s
      match b.fin with
      | .next => runB prog fuel (pc + 1) s
      | .b t => runB prog fuel t s
      | .ret => pure s
      | .bc c t =>
        match s.fl with
        | none => M.fail .uninit
        | some f => branch (c.holds f) (runB prog fuel t s) (runB prog fuel (pc + 1) s)

-- generated program: begin
/-- rej_uniform_asm_clean.S 389-405. -/
def prologue : Block := ⟨[
    .sub_xi 31 31 576, .adr 6 .bits, .adr 5 .tab, .ldr 31 6 0, .mov_wi 11 3329, .dup 30 11, .add_xi 8 31 0, .mov_x 7 8, .mov_wi 9 0, .mov_wi 3 256, .cmp_i 2 48],
  .bc .lo 3⟩
/-- rej_uniform_asm_clean.S 409-410. -/
def loop48 : Block := ⟨[
    .cmp 9 3],
  .bc .hs 6⟩
/-- rej_uniform_asm_clean.S 418-520. -/
def body48 : Block := ⟨[
    .sub_wi 2 2 48, .ld3 0 1 2 1 16 48, .zip1b 4 0 1, .zip2b 5 0 1, .zip1b 6 1 2, .zip2b 7 1 2, .bic 4 240 8, .bic 5 240 8, .ushr 6 6 4, .ushr 7 7 4, .zip1h 16 4 6,
    .zip2h 17 4 6, .zip1h 18 5 7, .zip2h 19 5 7, .cmhi 4 30 16, .cmhi 5 30 17, .cmhi 6 30 18, .cmhi 7 30 19, .and 4 4 31, .and 5 5 31, .and 6 6 31, .and 7 7 31, .uaddlv 20 4,
    .uaddlv 21 5, .uaddlv 22 6, .uaddlv 23 7, .fmov 12 20, .fmov 13 21, .fmov 14 22, .fmov 15 23, .ldr_x 24 5 12, .ldr_x 25 5 13, .ldr_x 26 5 14, .ldr_x 27 5 15, .cnt 4 4,
    .cnt 5 5, .cnt 6 6, .cnt 7 7, .uaddlv 20 4, .uaddlv 21 5, .uaddlv 22 6, .uaddlv 23 7, .fmov 12 20, .fmov 13 21, .fmov 14 22, .fmov 15 23, .tbl 16 16 24, .tbl 17 17 25,
    .tbl 18 18 26, .tbl 19 19 27, .str 16 7 0, .add_uxtw1 7 7 12, .str 17 7 0, .add_uxtw1 7 7 13, .str 18 7 0, .add_uxtw1 7 7 14, .str 19 7 0, .add_uxtw1 7 7 15,
    .add_w 12 12 13, .add_w 14 14 15, .add_w 9 9 12, .add_w 9 9 14, .cmp_i 2 48],
  .bc .hs 1⟩
/-- rej_uniform_asm_clean.S 524-525. -/
def loop48_end : Block := ⟨[
    .cmp 9 3],
  .bc .hs 6⟩
/-- rej_uniform_asm_clean.S 527-528. -/
def check24 : Block := ⟨[
    .cmp_i 2 24],
  .bc .lo 6⟩
/-- rej_uniform_asm_clean.S 530-577. -/
def body24 : Block := ⟨[
    .sub_wi 2 2 24, .ld3 0 1 2 1 8 24, .zip1b 4 0 1, .zip1b 5 1 2, .bic 4 240 8, .ushr 5 5 4, .zip1h 16 4 5, .zip2h 17 4 5, .cmhi 4 30 16, .cmhi 5 30 17, .and 4 4 31,
    .and 5 5 31, .uaddlv 20 4, .uaddlv 21 5, .fmov 12 20, .fmov 13 21, .ldr_x 24 5 12, .ldr_x 25 5 13, .cnt 4 4, .cnt 5 5, .uaddlv 20 4, .uaddlv 21 5, .fmov 12 20,
    .fmov 13 21, .tbl 16 16 24, .tbl 17 17 25, .str 16 7 0, .add_uxtw1 7 7 12, .str 17 7 0, .add_uxtw1 7 7 13, .add_w 9 9 12, .add_w 9 9 13],
  .next⟩
/-- rej_uniform_asm_clean.S 580-587. -/
def memory_copy : Block := ⟨[
    .cmp 9 3, .csel_lo 9 9 3, .mov_wi 11 0, .mov_x 7 8],
  .next⟩
/-- rej_uniform_asm_clean.S 589-599. -/
def final_copy : Block := ⟨[
    .ldr_post 16 7 64, .ldr 17 7 (-48), .ldr 18 7 (-32), .ldr 19 7 (-16), .str_post 16 0 64, .str 17 0 (-48), .str 18 0 (-32), .str 19 0 (-16), .add_wi 11 11 32,
    .cmp_i 11 256],
  .bc .lt 7⟩
/-- rej_uniform_asm_clean.S 601-602. -/
def end_ : Block := ⟨[
    .mov_w 0 9],
  .b 9⟩
/-- rej_uniform_asm_clean.S 605-606. -/
def return_ : Block := ⟨[
    .add_xi 31 31 576],
  .ret⟩
/-- `rej_uniform_asm_clean`, rej_uniform_asm_clean.S 389-606.  Labels: `loop48` is block 1, `loop48_end` is block 3, `memory_copy` is block 6, `final_copy` is block 7, `return` is block 9. -/
def prog : List Block := [prologue, loop48, body48, loop48_end, check24, body24, memory_copy, final_copy, end_, return_]
-- generated program: end

/-- The state at the call of `rej_uniform_asm_clean(r + ro, buf, buflen)`: arbitrary registers `gx`, `gv` and flags `gf`, but for the arguments and the stack pointer, which has the frame below it; the
upper half `hi` of the register with the 32-bit argument is arbitrary.  rej_uniform_asm_clean.S 304-308. -/
def entry (gx : Nat → Reg) (gv : Nat → VB) (gf : Option Flags) (hi : Nat) (r : Poly) (ro : Nat) (stk : Poly) (buf : Buf UInt8) (buflen : Nat) : St where
  x := fun i => if i = 0 then .ptr .out (2 * (ro : Int)) else if i = 1 then .ptr .buf 0 else if i = 2 then .num (4294967296 * hi + buflen) else if i = 31 then .ptr .stk 576 else gx i
  v := gv
  fl := gf
  out := r
  stk := stk
  buf := buf

/-- A call of `rej_uniform_asm_clean`, rej_uniform_asm_clean.S 389-606.  Each round consumes 48 bytes and takes two blocks, so the budget suffices; that it is never exhausted is a theorem. -/
def call (gx : Nat → Reg) (gv : Nat → VB) (gf : Option Flags) (hi : Nat) (r : Poly) (ro : Nat) (stk : Poly) (buf : Buf UInt8) (buflen : Nat) : M St :=
  runB prog (2 * buflen + 20) 0 (entry gx gv gf hi r ro stk buf buflen)

end Verif.Model.A64RejAsm

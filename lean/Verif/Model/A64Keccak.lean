import Verif.Model.Keccak
/-! # The AArch64 assembly of Keccak-f[1600] (`/repo/fips202/native/aarch64/*.S`)

Generated by `/verif/tools/gen_a64keccak.py` (this head is hand-written: `/verif/tools/a64keccak_head.txt`).

The instruction set is modelled by the meaning given in the Arm Architecture Reference Manual.  A general-purpose register holds a 64-bit number or a pointer (an object and a byte
offset); register 31 is `sp`.  A vector register is a function from the positions 0 and 1 (0 the least significant) to 64-bit elements: every instruction of these functions works on
64-bit elements or bit by bit.  Memory consists of three objects: the Keccak states (the argument), the table of round constants (read-only), and the stack frame, whose 8-byte cells hold
what a general-purpose register can hold.  An access outside its object or not aligned to its 8-byte cells, a read of an uninitialised cell, and arithmetic on a pointer other than adding
a constant, are errors.  Operands are in the order of the assembly: destination first.

Simplifications: `ASM_LOAD` (common.i) is one instruction `adr`.  The flags are modelled by the two operands of the last `cmp`. -/
namespace Verif.Model.A64K

/-- The table `round_constants`, the same in every file: keccak_f1600_x1_scalar_asm_opt.S 42-65, keccak_f1600_x1_v84a_asm_clean.S 53-76, keccak_f1600_x2_v84a_asm_clean.S 53-76, keccak_f1600_x2_v8a_v84a_asm_hybrid.S 53-76, keccak_f1600_x4_scalar_v84a_asm_hybrid_opt.S 47-70, keccak_f1600_x4_v8a_scalar_hybrid_asm_opt.S 44-67, keccak_f1600_x4_v8a_v84a_scalar_hybrid_asm_opt.S 45-68. -/
def round_constants : List W := [
  0x0000000000000001#64, 0x0000000000008082#64, 0x800000000000808a#64, 0x8000000080008000#64, 0x000000000000808b#64, 0x0000000080000001#64,
  0x8000000080008081#64, 0x8000000000008009#64, 0x000000000000008a#64, 0x0000000000000088#64, 0x0000000080008009#64, 0x000000008000000a#64,
  0x000000008000808b#64, 0x800000000000008b#64, 0x8000000000008089#64, 0x8000000000008003#64, 0x8000000000008002#64, 0x8000000000000080#64,
  0x000000000000800a#64, 0x800000008000000a#64, 0x8000000080008081#64, 0x8000000000008080#64, 0x0000000080000001#64, 0x8000000080008008#64]

/-- The objects: the argument, the table of round constants, the stack frame.  Machine model: no line of /repo corresponds to it; the code it runs is that of the .S files cited at the programs below. -/
inductive Obj where
  | st | rc | stk
deriving DecidableEq, Repr

/-- The contents of a general-purpose register.  Machine model: no line of /repo corresponds to it; the code it runs is that of the .S files cited at the programs below. -/
inductive Reg where
  | num (w : W)
  | ptr (o : Obj) (off : Int)
deriving DecidableEq, Repr

/-- A vector register as two 64-bit elements.  Machine model: no line of /repo corresponds to it; the code it runs is that of the .S files cited at the programs below. -/
abbrev V := Nat → W

/-- The machine state; `f` are the operands of the last `cmp`.  Machine model: no line of /repo corresponds to it; the code it runs is that of the .S files cited at the programs below. -/
structure St where
  x : Nat → Reg
  v : Nat → V
  f : Option (W × W)
  st : Buf W
  stk : Buf Reg

/-- The instructions used; `n` is the base register, offsets and increments count bytes, `e` is the number of an element.  Machine model: no line of /repo corresponds to it; the code it runs is that of the .S files cited at the programs below. -/
inductive Ins where
  | adr (d : Nat)
  | mov_i (d i : Nat)
  | add_i (d a i : Nat)
  | sub_i (d a i : Nat)
  | cmp_i (a i : Nat)
  | ldr (d n off : Nat)
  | str (r n off : Nat)
  | ldr_w (d n m : Nat)
  | ldp (d0 d1 n off : Nat)
  | stp (r0 r1 n off : Nat)
  | ldp_d (d0 d1 n off : Nat)
  | stp_d (r0 r1 n off : Nat)
  | ror (d a r : Nat)
  | eor (d a b r : Nat)
  | bic (d a b r : Nat)
  | ld1 (d e n inc : Nat)
  | ld2 (d0 d1 e n inc : Nat)
  | st1 (r e n inc : Nat)
  | st2 (r0 r1 e n inc : Nat)
  | ld1r (d n inc : Nat)
  | veor (d a b : Nat)
  | vbic (d a b : Nat)
  | vadd (d a b : Nat)
  | shl (d a i : Nat)
  | sri (d a i : Nat)
  | eor3 (d a b c : Nat)
  | rax1 (d a b : Nat)
  | xar (d a b i : Nat)
  | bcax (d a b c : Nat)
deriving DecidableEq, Repr

/-- How a block ends.  Machine model: no line of /repo corresponds to it; the code it runs is that of the .S files cited at the programs below. -/
inductive End where
  /-- fall through to the next block -/
  | next
  /-- `b`: to block `t` -/
  | b (t : Nat)
  /-- `cbnz`: to block `t` if register `r` is not zero, otherwise to the next block -/
  | cbnz (r t : Nat)
  /-- `ble`: to block `t` if the operands of the last `cmp` are in signed order, otherwise to the next block -/
  | ble (t : Nat)
  /-- `beq`: to block `t` if the operands of the last `cmp` are equal, otherwise to the next block -/
  | beq (t : Nat)
  /-- `ret` -/
  | ret
deriving DecidableEq, Repr

/-- A block of straight-line code.  Machine model: no line of /repo corresponds to it; the code it runs is that of the .S files cited at the programs below. -/
structure Block where
  ins : List Ins
  fin : End
deriving DecidableEq, Repr

/-- Write a vector register.  Machine model: no line of /repo corresponds to it; the code it runs is that of the .S files cited at the programs below. -/
def St.put (s : St) (d : Nat) (f : V) : St := { s with v := fun r => if r = d then f else s.v r }
/-- Write a general-purpose register.  Machine model: no line of /repo corresponds to it; the code it runs is that of the .S files cited at the programs below. -/
def St.putx (s : St) (d : Nat) (a : Reg) : St := { s with x := fun r => if r = d then a else s.x r }

/-- Add to a register.  Machine model: no line of /repo corresponds to it; the code it runs is that of the .S files cited at the programs below. -/
def Reg.plus (a : Reg) (i : Int) : Reg :=
  match a with
  | .num x => .num (x + BitVec.ofInt 64 i)
  | .ptr o off => .ptr o (off + i)
/-- The number in a register.  Machine model: no line of /repo corresponds to it; the code it runs is that of the .S files cited at the programs below. -/
def Reg.word (a : Reg) : M W :=
  match a with
  | .num w => pure w
  | .ptr _ _ => M.fail .oob
/-- The object and the cell at `off` bytes from the address in a register.  Machine model: no line of /repo corresponds to it; the code it runs is that of the .S files cited at the programs below. -/
def Reg.addr (a : Reg) (off : Int) : M (Obj × Nat) :=
  match a with
  | .num _ => M.fail .oob
  | .ptr o p => if 0 ≤ p + off ∧ (p + off) % 8 = 0 then pure (o, ((p + off) / 8).toNat) else M.fail .oob

/-- Load a cell.  Machine model: no line of /repo corresponds to it; the code it runs is that of the .S files cited at the programs below. -/
def St.ld (s : St) (a : Reg) (off : Int) : M Reg := do
  let (o, i) ← a.addr off
  match o with
  | .st => do let w ← rd s.st i; pure (.num w)
  | .rc => do let w ← rd (Buf.ofList round_constants) i; pure (.num w)
  | .stk => rd s.stk i
/-- Load a number.  Machine model: no line of /repo corresponds to it; the code it runs is that of the .S files cited at the programs below. -/
def St.ldw (s : St) (a : Reg) (off : Int) : M W := do
  let r ← s.ld a off
  r.word
/-- Store a cell; the round constants are not written, and no pointer is stored in a Keccak state.  Machine model: no line of /repo corresponds to it; the code it runs is that of the .S files cited at the programs below. -/
def St.sto (s : St) (a : Reg) (off : Int) (v : Reg) : M St := do
  let (o, i) ← a.addr off
  match o with
  | .st => do let w ← v.word; let b ← wr s.st i w; pure { s with st := b }
  | .rc => M.fail .oob
  | .stk => do let b ← wr s.stk i v; pure { s with stk := b }
/-- Post-index: add to the base register.  Machine model: no line of /repo corresponds to it; the code it runs is that of the .S files cited at the programs below. -/
def St.bump (s : St) (n inc : Nat) : St := s.putx n ((s.x n).plus inc)
/-- Replace one element of a vector register.  Machine model: no line of /repo corresponds to it; the code it runs is that of the .S files cited at the programs below. -/
def St.pute (s : St) (d e : Nat) (w : W) : St := s.put d fun k => if k = e then w else s.v d k

/-- `sri` on one element: the upper `i` bits of `d` stay.  Used in keccak_f1600_x2_v8a_v84a_asm_hybrid.S 191 and elsewhere. -/
def sriW (i : Nat) (d a : W) : W := (d &&& ~~~(BitVec.allOnes 64 >>> i)) ||| (a >>> i)

/-- One instruction.  Machine model: no line of /repo corresponds to it; the code it runs is that of the .S files cited at the programs below. -/
def Ins.step (i : Ins) (s : St) : M St :=
  match i with
  | adr d => pure (s.putx d (.ptr .rc 0))
  | mov_i d i => pure (s.putx d (.num (BitVec.ofNat 64 i)))
  | add_i d a i => pure (s.putx d ((s.x a).plus i))
  | sub_i d a i => pure (s.putx d ((s.x a).plus (-(i : Int))))
  | cmp_i a i => do let w ← (s.x a).word; pure { s with f := some (w, BitVec.ofNat 64 i) }
  | ldr d n off => do let r ← s.ld (s.x n) off; pure (s.putx d r)
  | str r n off => s.sto (s.x n) off (s.x r)
  | ldr_w d n m => do
    let w ← (s.x m).word
    let r ← s.ld (s.x n) (8 * (w.toNat % 4294967296) : Nat)
    pure (s.putx d r)
  | ldp d0 d1 n off => do
    let r0 ← s.ld (s.x n) off
    let r1 ← s.ld (s.x n) (off + 8)
    pure ((s.putx d0 r0).putx d1 r1)
  | stp r0 r1 n off => do
    let s' ← s.sto (s.x n) off (s.x r0)
    s'.sto (s.x n) (off + 8) (s.x r1)
  | ldp_d d0 d1 n off => do
    let w0 ← s.ldw (s.x n) off
    let w1 ← s.ldw (s.x n) (off + 8)
    pure ((s.put d0 fun k => if k = 0 then w0 else 0).put d1 fun k => if k = 0 then w1 else 0)
  | stp_d r0 r1 n off => do
    let s' ← s.sto (s.x n) off (.num (s.v r0 0))
    s'.sto (s.x n) (off + 8) (.num (s.v r1 0))
  | ror d a r => do let x ← (s.x a).word; pure (s.putx d (.num (x.rotateRight r)))
  | eor d a b r => do let x ← (s.x a).word; let y ← (s.x b).word; pure (s.putx d (.num (x ^^^ y.rotateRight r)))
  | bic d a b r => do let x ← (s.x a).word; let y ← (s.x b).word; pure (s.putx d (.num (x &&& ~~~(y.rotateRight r))))
  | ld1 d e n inc => do let w ← s.ldw (s.x n) 0; pure ((s.pute d e w).bump n inc)
  | ld2 d0 d1 e n inc => do
    let w0 ← s.ldw (s.x n) 0
    let w1 ← s.ldw (s.x n) 8
    pure (((s.pute d0 e w0).pute d1 e w1).bump n inc)
  | st1 r e n inc => do let s' ← s.sto (s.x n) 0 (.num (s.v r e)); pure (s'.bump n inc)
  | st2 r0 r1 e n inc => do
    let s' ← s.sto (s.x n) 0 (.num (s.v r0 e))
    let s' ← s'.sto (s.x n) 8 (.num (s.v r1 e))
    pure (s'.bump n inc)
  | ld1r d n inc => do let w ← s.ldw (s.x n) 0; pure ((s.put d fun _ => w).bump n inc)
  | veor d a b => pure (s.put d fun k => s.v a k ^^^ s.v b k)
  | vbic d a b => pure (s.put d fun k => s.v a k &&& ~~~(s.v b k))
  | vadd d a b => pure (s.put d fun k => s.v a k + s.v b k)
  | shl d a i => pure (s.put d fun k => s.v a k <<< i)
  | sri d a i => pure (s.put d fun k => sriW i (s.v d k) (s.v a k))
  | eor3 d a b c => pure (s.put d fun k => s.v a k ^^^ s.v b k ^^^ s.v c k)
  | rax1 d a b => pure (s.put d fun k => s.v a k ^^^ (s.v b k).rotateLeft 1)
  | xar d a b i => pure (s.put d fun k => (s.v a k ^^^ s.v b k).rotateRight i)
  | bcax d a b c => pure (s.put d fun k => s.v a k ^^^ (s.v b k &&& ~~~(s.v c k)))

/-- Straight-line code.  Machine model: no line of /repo corresponds to it; the code it runs is that of the .S files cited at the programs below. -/
def runI : List Ins → St → M St
  | [], s => pure s
  | i :: l, s => do
    let s ← i.step s
    runI l s

/-- A function, from block `pc`; `f` bounds the number of blocks executed (running out is the error `fuel`).  Machine model: no line of /repo corresponds to it; the code it runs is that of the .S files cited at the programs below. -/
def runB (prog : List Block) : Nat → Nat → St → M St
  | 0, _, _ => M.fail .fuel
  | f + 1, pc, s =>
    match prog[pc]? with
    | none => M.fail .oob
    | some b => do
      let s ← runI b.ins s
      match b.fin with
      | .next => runB prog f (pc + 1) s
      | .b t => runB prog f t s
      | .ret => pure s
      | .cbnz r t => do
        let w ← (s.x r).word
        branch (decide (w ≠ 0)) (runB prog f t s) (runB prog f (pc + 1) s)
      | .ble t => match s.f with
        | none => M.fail .uninit
        | some (a, b) => branch (a.sle b) (runB prog f t s) (runB prog f (pc + 1) s)
      | .beq t => match s.f with
        | none => M.fail .uninit
        | some (a, b) => branch (decide (a = b)) (runB prog f t s) (runB prog f (pc + 1) s)

/-- What the registers hold when a function is entered: any values.  Machine model: no line of /repo corresponds to it; the code it runs is that of the .S files cited at the programs below. -/
structure Entry where
  x : Nat → Reg
  v : Nat → V

/-- The machine when a function is entered with the argument `state + so`: `x0` points to it, `sp` to the end of the (uninitialised) frame of `frame` bytes; everything else is
arbitrary.  Machine model: no line of /repo corresponds to it; the code it runs is that of the .S files cited at the programs below. -/
def start (g : Entry) (frame : Nat) (state : Buf W) (so : Nat) : St where
  x := fun r => if r = 0 then .ptr .st (8 * so) else if r = 31 then .ptr .stk frame else g.x r
  v := g.v
  f := none
  st := state
  stk := Buf.uninit Reg (frame / 8)

/-- Run a function; no function executes more than 100 blocks (otherwise the model fails).  Machine model: no line of /repo corresponds to it; the code it runs is that of the .S files cited at the programs below. -/
def run (prog : List Block) (g : Entry) (frame : Nat) (state : Buf W) (so : Nat) : M St := runB prog 100 0 (start g frame state so)

/-- A call as its caller sees it.  Machine model: no line of /repo corresponds to it; the code it runs is that of the .S files cited at the programs below. -/
def call (prog : List Block) (g : Entry) (frame : Nat) (state : Buf W) (so : Nat) : M (Buf W) := do
  let s ← run prog g frame state so
  pure s.st

/-! ## The functions -/

/-- The size of the stack frame in bytes (`STACK_SIZE`), keccak_f1600_x1_scalar_asm_opt.S.  Line 104. -/
def keccak_f1600_x1_scalar_asm_opt_frame : Nat := 128
/-- `keccak_f1600_x1_scalar_asm_opt`, keccak_f1600_x1_scalar_asm_opt.S 202-458, with the macros expanded; 286 instructions. -/
def keccak_f1600_x1_scalar_asm_opt : List Block := [
  -- block 0: lines 112-125
  ⟨[
    .sub_i 31 31 128, .stp 19 20 31 32, .stp 21 22 31 48, .stp 23 24 31 64, .stp 25 26 31 80, .stp 27 28 31 96, .stp 29 30 31 112],
   .next⟩,
  -- block 1: lines 138-327
  ⟨[
    .adr 26, .str 26 31 8, .ldp 1 6 0 0, .ldp 11 16 0 16, .ldp 21 2 0 32, .ldp 7 12 0 48, .ldp 17 22 0 64, .ldp 3 8 0 80, .ldp 13 28 0 96,
    .ldp 23 4 0 112, .ldp 9 14 0 128, .ldp 19 24 0 144, .ldp 5 10 0 160, .ldp 15 20 0 176, .ldr 25 0 192, .str 0 31 0, .eor 30 24 25 0,
    .eor 27 9 10 0, .eor 0 30 21 0, .eor 26 27 6 0, .eor 27 26 7 0, .eor 29 0 22 0, .eor 26 29 23 0, .eor 29 4 5 0, .eor 30 29 1 0, .eor 0 27 8 0,
    .eor 29 30 2 0, .eor 30 19 20 0, .eor 30 30 16 0, .eor 27 26 0 63, .eor 4 4 27 0, .eor 30 30 17 0, .eor 30 30 28 0, .eor 29 29 3 0,
    .eor 0 0 30 63, .eor 30 30 29 63, .eor 22 22 30 0, .eor 23 23 30 0, .str 23 31 24, .eor 23 14 15 0, .eor 14 14 0 0, .eor 23 23 11 0,
    .eor 15 15 0 0, .eor 1 1 27 0, .eor 23 23 12 0, .eor 23 23 13 0, .eor 11 11 0 0, .eor 29 29 23 63, .eor 23 23 26 63, .eor 26 13 0 0,
    .eor 13 28 23 0, .eor 28 24 30 0, .eor 24 16 23 0, .eor 16 21 30 0, .eor 21 25 30 0, .eor 30 19 23 0, .eor 19 20 23 0, .eor 20 17 23 0,
    .eor 17 12 0 0, .eor 0 2 27 0, .eor 2 6 29 0, .eor 6 8 29 0, .bic 8 28 13 47, .eor 12 3 27 0, .bic 3 13 17 19, .eor 5 5 27 0, .ldr 27 31 24,
    .bic 25 17 2 5, .eor 9 9 29 0, .eor 23 25 5 52, .eor 3 3 2 24, .eor 8 8 17 2, .eor 17 10 29 0, .bic 25 12 22 47, .eor 29 7 29 0, .bic 10 4 27 2,
    .bic 7 5 28 10, .eor 10 10 20 50, .eor 13 7 13 57, .bic 7 2 5 47, .eor 2 25 24 39, .bic 25 20 11 57, .bic 5 17 4 25, .eor 25 25 17 53,
    .bic 17 11 17 60, .eor 28 7 28 57, .bic 7 9 12 42, .eor 7 7 22 25, .bic 22 22 24 56, .bic 24 24 15 31, .eor 22 22 15 23, .bic 20 27 20 48,
    .bic 15 15 9 16, .eor 12 15 12 58, .eor 15 5 27 27, .eor 5 20 11 41, .ldr 11 31 8, .eor 20 17 4 21, .eor 17 24 9 47, .mov_i 24 1, .bic 9 0 16 9,
    .str 24 31 16, .bic 24 29 1 44, .bic 27 1 21 50, .bic 4 26 29 63, .eor 1 1 4 21, .ldr 11 11 0, .bic 4 21 30 57, .eor 21 24 21 30,
    .eor 24 9 19 44, .bic 9 14 6 5, .eor 9 9 0 43, .bic 0 6 0 38, .eor 1 1 11 0, .eor 11 4 26 35, .eor 4 0 16 47, .bic 0 16 19 35, .eor 16 27 30 43,
    .bic 27 30 26 42, .bic 26 19 14 41, .eor 19 0 14 12, .eor 14 26 6 46, .eor 6 27 29 41],
   .next⟩,
  -- block 2: lines 338-449
  ⟨[
    .eor 0 15 11 52, .eor 0 0 13 48, .eor 26 8 9 57, .eor 27 0 14 10, .eor 29 16 28 63, .eor 26 26 6 51, .eor 30 23 22 50, .eor 0 26 10 31,
    .eor 29 29 19 37, .eor 27 27 12 5, .eor 30 30 24 34, .eor 0 0 7 27, .eor 26 30 21 26, .eor 26 26 25 15, .ror 30 27 62, .eor 30 30 26 57,
    .ror 26 26 58, .eor 16 30 16 0, .eor 28 30 28 63, .str 28 31 24, .eor 29 29 17 36, .eor 28 1 2 61, .eor 19 30 19 37, .eor 29 29 20 2,
    .eor 28 28 4 54, .eor 26 26 0 55, .eor 28 28 3 39, .eor 28 28 5 25, .ror 0 0 56, .eor 0 0 29 63, .eor 27 28 27 61, .eor 13 0 13 46,
    .eor 28 29 28 63, .eor 29 30 20 2, .eor 20 26 3 39, .eor 11 0 11 50, .eor 25 28 25 9, .eor 3 28 21 20, .eor 21 26 1 0, .eor 9 27 9 49,
    .eor 24 28 24 28, .eor 1 30 17 36, .eor 14 0 14 8, .eor 22 28 22 44, .eor 8 27 8 56, .eor 17 27 7 19, .eor 15 0 15 62, .bic 7 20 22 47,
    .eor 4 26 4 54, .eor 0 0 12 3, .eor 28 28 23 58, .eor 23 26 2 61, .eor 26 26 5 25, .eor 2 7 16 39, .bic 7 9 20 42, .bic 30 15 9 16,
    .eor 7 7 22 25, .eor 12 30 20 58, .bic 20 22 16 56, .eor 30 27 6 43, .eor 22 20 15 23, .bic 6 19 13 42, .eor 6 6 17 41, .bic 5 13 17 63,
    .eor 5 21 5 21, .bic 17 17 21 44, .eor 27 27 10 23, .bic 21 21 25 50, .bic 20 27 4 25, .bic 10 16 15 31, .eor 16 21 19 43, .eor 21 17 25 30,
    .bic 19 25 19 57, .ldr 25 31 16, .eor 17 10 9 47, .ldr 9 31 8, .eor 15 20 28 27, .bic 20 4 28 2, .eor 10 20 1 50, .bic 20 11 27 60,
    .eor 20 20 4 21, .bic 4 28 1 48, .bic 1 1 11 57, .ldr_w 28 9 25, .ldr 9 31 24, .add_i 25 25 1, .str 25 31 16, .cmp_i 25 23, .eor 25 1 27 53,
    .bic 27 30 26 47, .eor 1 5 28 0, .eor 5 4 11 41, .eor 11 19 13 35, .bic 13 26 24 10, .eor 28 27 24 57, .bic 27 24 9 47, .bic 19 23 3 9,
    .bic 4 29 14 41, .eor 24 19 29 44, .bic 29 3 29 35, .eor 13 13 9 57, .eor 19 29 14 12, .bic 29 9 0 19, .bic 14 14 8 5, .eor 9 14 23 43,
    .eor 14 4 8 46, .bic 23 8 23 38, .eor 8 27 0 2, .eor 4 23 3 47, .bic 3 0 30 5, .eor 23 3 26 52, .eor 3 29 30 24],
   .ble 2⟩,
  -- block 3: lines 116-453
  ⟨[
    .ror 6 6 43, .ror 11 11 50, .ror 21 21 20, .ror 2 2 61, .ror 7 7 19, .ror 12 12 3, .ror 17 17 36, .ror 22 22 44, .ror 3 3 39, .ror 8 8 56,
    .ror 13 13 46, .ror 28 28 63, .ror 23 23 58, .ror 4 4 54, .ror 9 9 49, .ror 14 14 8, .ror 19 19 37, .ror 24 24 28, .ror 5 5 25, .ror 10 10 23,
    .ror 15 15 62, .ror 20 20 2, .ror 25 25 9, .ldr 0 31 0, .stp 1 6 0 0, .stp 11 16 0 16, .stp 21 2 0 32, .stp 7 12 0 48, .stp 17 22 0 64,
    .stp 3 8 0 80, .stp 13 28 0 96, .stp 23 4 0 112, .stp 9 14 0 128, .stp 19 24 0 144, .stp 5 10 0 160, .stp 15 20 0 176, .str 25 0 192,
    .ldp 19 20 31 32, .ldp 21 22 31 48, .ldp 23 24 31 64, .ldp 25 26 31 80, .ldp 27 28 31 96, .ldp 29 30 31 112, .add_i 31 31 128],
   .ret⟩]

/-- The size of the stack frame in bytes (`STACK_SIZE`), keccak_f1600_x1_v84a_asm_clean.S.  Line 217. -/
def keccak_f1600_x1_v84a_asm_clean_frame : Nat := 160
/-- `keccak_f1600_x1_v84a_asm_clean`, keccak_f1600_x1_v84a_asm_clean.S 347-363, with the macros expanded; 107 instructions. -/
def keccak_f1600_x1_v84a_asm_clean : List Block := [
  -- block 0: lines 184-354
  ⟨[
    .sub_i 31 31 160, .stp_d 8 9 31 0, .stp_d 10 11 31 16, .stp_d 12 13 31 32, .stp_d 14 15 31 48, .adr 1, .ld2 0 1 0 0 16, .ld2 2 3 0 0 16,
    .ld2 4 5 0 0 16, .ld2 6 7 0 0 16, .ld2 8 9 0 0 16, .ld2 10 11 0 0 16, .ld2 12 13 0 0 16, .ld2 14 15 0 0 16, .ld2 16 17 0 0 16, .ld2 18 19 0 0 16,
    .ld2 20 21 0 0 16, .ld2 22 23 0 0 16, .ld1 24 0 0 8, .sub_i 0 0 200, .mov_i 2 24],
   .next⟩,
  -- block 1: lines 245-357
  ⟨[
    .eor3 30 0 5 10, .eor3 29 1 6 11, .eor3 28 2 7 12, .eor3 27 3 8 13, .eor3 26 4 9 14, .eor3 30 30 15 20, .eor3 29 29 16 21, .eor3 28 28 17 22,
    .eor3 27 27 18 23, .eor3 26 26 19 24, .rax1 25 30 28, .rax1 28 28 26, .rax1 26 26 29, .rax1 29 29 27, .rax1 27 27 30, .veor 30 0 26,
    .xar 0 2 29 2, .xar 2 12 29 21, .xar 12 13 28 39, .xar 13 19 27 56, .xar 19 23 28 8, .xar 23 15 26 23, .xar 15 1 25 63, .xar 1 8 28 9,
    .xar 8 16 25 19, .xar 16 7 29 58, .xar 7 10 26 61, .xar 10 3 28 36, .xar 3 18 28 43, .xar 18 17 29 49, .xar 17 11 25 54, .xar 11 9 27 44,
    .xar 9 22 29 3, .xar 22 14 27 25, .xar 14 20 26 46, .xar 20 4 27 37, .xar 4 24 27 50, .xar 24 21 25 62, .xar 21 5 26 28, .xar 27 6 25 20,
    .ld1r 31 1 8, .bcax 5 10 7 11, .bcax 6 11 8 7, .bcax 7 7 9 8, .bcax 8 8 10 9, .bcax 9 9 11 10, .bcax 10 15 12 16, .bcax 11 16 13 12,
    .bcax 12 12 14 13, .bcax 13 13 15 14, .bcax 14 14 16 15, .bcax 15 20 17 21, .bcax 16 21 18 17, .bcax 17 17 19 18, .bcax 18 18 20 19,
    .bcax 19 19 21 20, .bcax 20 0 22 1, .bcax 21 1 23 22, .bcax 22 22 24 23, .bcax 23 23 0 24, .bcax 24 24 1 0, .bcax 0 30 2 27, .bcax 1 27 3 2,
    .bcax 2 2 4 3, .bcax 3 3 30 4, .bcax 4 4 27 30, .veor 0 0 31, .sub_i 2 2 1],
   .cbnz 2 1⟩,
  -- block 2: lines 202-239
  ⟨[
    .st2 0 1 0 0 16, .st2 2 3 0 0 16, .st2 4 5 0 0 16, .st2 6 7 0 0 16, .st2 8 9 0 0 16, .st2 10 11 0 0 16, .st2 12 13 0 0 16, .st2 14 15 0 0 16,
    .st2 16 17 0 0 16, .st2 18 19 0 0 16, .st2 20 21 0 0 16, .st2 22 23 0 0 16, .st1 24 0 0 8, .ldp_d 8 9 31 0, .ldp_d 10 11 31 16,
    .ldp_d 12 13 31 32, .ldp_d 14 15 31 48, .add_i 31 31 160],
   .ret⟩]

/-- The size of the stack frame in bytes (`STACK_SIZE`), keccak_f1600_x2_v84a_asm_clean.S.  Line 245. -/
def keccak_f1600_x2_v84a_asm_clean_frame : Nat := 160
/-- `keccak_f1600_x2_v84a_asm_clean`, keccak_f1600_x2_v84a_asm_clean.S 375-391, with the macros expanded; 133 instructions. -/
def keccak_f1600_x2_v84a_asm_clean : List Block := [
  -- block 0: lines 184-382
  ⟨[
    .sub_i 31 31 160, .stp_d 8 9 31 0, .stp_d 10 11 31 16, .stp_d 12 13 31 32, .stp_d 14 15 31 48, .adr 1, .ld2 0 1 0 0 16, .ld2 2 3 0 0 16,
    .ld2 4 5 0 0 16, .ld2 6 7 0 0 16, .ld2 8 9 0 0 16, .ld2 10 11 0 0 16, .ld2 12 13 0 0 16, .ld2 14 15 0 0 16, .ld2 16 17 0 0 16, .ld2 18 19 0 0 16,
    .ld2 20 21 0 0 16, .ld2 22 23 0 0 16, .ld1 24 0 0 8, .ld2 0 1 1 0 16, .ld2 2 3 1 0 16, .ld2 4 5 1 0 16, .ld2 6 7 1 0 16, .ld2 8 9 1 0 16,
    .ld2 10 11 1 0 16, .ld2 12 13 1 0 16, .ld2 14 15 1 0 16, .ld2 16 17 1 0 16, .ld2 18 19 1 0 16, .ld2 20 21 1 0 16, .ld2 22 23 1 0 16,
    .ld1 24 1 0 8, .sub_i 0 0 400, .mov_i 2 24],
   .next⟩,
  -- block 1: lines 273-385
  ⟨[
    .eor3 30 0 5 10, .eor3 29 1 6 11, .eor3 28 2 7 12, .eor3 27 3 8 13, .eor3 26 4 9 14, .eor3 30 30 15 20, .eor3 29 29 16 21, .eor3 28 28 17 22,
    .eor3 27 27 18 23, .eor3 26 26 19 24, .rax1 25 30 28, .rax1 28 28 26, .rax1 26 26 29, .rax1 29 29 27, .rax1 27 27 30, .veor 30 0 26,
    .xar 0 2 29 2, .xar 2 12 29 21, .xar 12 13 28 39, .xar 13 19 27 56, .xar 19 23 28 8, .xar 23 15 26 23, .xar 15 1 25 63, .xar 1 8 28 9,
    .xar 8 16 25 19, .xar 16 7 29 58, .xar 7 10 26 61, .xar 10 3 28 36, .xar 3 18 28 43, .xar 18 17 29 49, .xar 17 11 25 54, .xar 11 9 27 44,
    .xar 9 22 29 3, .xar 22 14 27 25, .xar 14 20 26 46, .xar 20 4 27 37, .xar 4 24 27 50, .xar 24 21 25 62, .xar 21 5 26 28, .xar 27 6 25 20,
    .ld1r 31 1 8, .bcax 5 10 7 11, .bcax 6 11 8 7, .bcax 7 7 9 8, .bcax 8 8 10 9, .bcax 9 9 11 10, .bcax 10 15 12 16, .bcax 11 16 13 12,
    .bcax 12 12 14 13, .bcax 13 13 15 14, .bcax 14 14 16 15, .bcax 15 20 17 21, .bcax 16 21 18 17, .bcax 17 17 19 18, .bcax 18 18 20 19,
    .bcax 19 19 21 20, .bcax 20 0 22 1, .bcax 21 1 23 22, .bcax 22 22 24 23, .bcax 23 23 0 24, .bcax 24 24 1 0, .bcax 0 30 2 27, .bcax 1 27 3 2,
    .bcax 2 2 4 3, .bcax 3 3 30 4, .bcax 4 4 27 30, .veor 0 0 31, .sub_i 2 2 1],
   .cbnz 2 1⟩,
  -- block 2: lines 216-267
  ⟨[
    .st2 0 1 0 0 16, .st2 2 3 0 0 16, .st2 4 5 0 0 16, .st2 6 7 0 0 16, .st2 8 9 0 0 16, .st2 10 11 0 0 16, .st2 12 13 0 0 16, .st2 14 15 0 0 16,
    .st2 16 17 0 0 16, .st2 18 19 0 0 16, .st2 20 21 0 0 16, .st2 22 23 0 0 16, .st1 24 0 0 8, .st2 0 1 1 0 16, .st2 2 3 1 0 16, .st2 4 5 1 0 16,
    .st2 6 7 1 0 16, .st2 8 9 1 0 16, .st2 10 11 1 0 16, .st2 12 13 1 0 16, .st2 14 15 1 0 16, .st2 16 17 1 0 16, .st2 18 19 1 0 16,
    .st2 20 21 1 0 16, .st2 22 23 1 0 16, .st1 24 1 0 8, .ldp_d 8 9 31 0, .ldp_d 10 11 31 16, .ldp_d 12 13 31 32, .ldp_d 14 15 31 48, .add_i 31 31 160],
   .ret⟩]

/-- The size of the stack frame in bytes (`STACK_SIZE`), keccak_f1600_x2_v8a_v84a_asm_hybrid.S.  Line 268. -/
def keccak_f1600_x2_v8a_v84a_asm_hybrid_frame : Nat := 160
/-- `keccak_f1600_x2_v8a_v84a_asm_hybrid`, keccak_f1600_x2_v8a_v84a_asm_hybrid.S 416-435, with the macros expanded; 192 instructions. -/
def keccak_f1600_x2_v8a_v84a_asm_hybrid : List Block := [
  -- block 0: lines 207-424
  ⟨[
    .sub_i 31 31 160, .stp 19 20 31 64, .stp 21 22 31 80, .stp 23 24 31 96, .stp 25 26 31 112, .stp 27 28 31 128, .stp 29 30 31 144, .stp_d 8 9 31 0,
    .stp_d 10 11 31 16, .stp_d 12 13 31 32, .stp_d 14 15 31 48, .adr 1, .ld2 0 1 0 0 16, .ld2 2 3 0 0 16, .ld2 4 5 0 0 16, .ld2 6 7 0 0 16,
    .ld2 8 9 0 0 16, .ld2 10 11 0 0 16, .ld2 12 13 0 0 16, .ld2 14 15 0 0 16, .ld2 16 17 0 0 16, .ld2 18 19 0 0 16, .ld2 20 21 0 0 16,
    .ld2 22 23 0 0 16, .ld1 24 0 0 8, .ld2 0 1 1 0 16, .ld2 2 3 1 0 16, .ld2 4 5 1 0 16, .ld2 6 7 1 0 16, .ld2 8 9 1 0 16, .ld2 10 11 1 0 16,
    .ld2 12 13 1 0 16, .ld2 14 15 1 0 16, .ld2 16 17 1 0 16, .ld2 18 19 1 0 16, .ld2 20 21 1 0 16, .ld2 22 23 1 0 16, .ld1 24 1 0 8, .sub_i 0 0 400,
    .mov_i 2 24],
   .next⟩,
  -- block 1: lines 186-428
  ⟨[
    .veor 30 0 5, .veor 30 30 10, .eor3 30 30 15 20, .veor 29 1 6, .veor 29 29 11, .eor3 29 29 16 21, .veor 28 2 7, .veor 28 28 12,
    .eor3 28 28 17 22, .veor 27 3 8, .veor 27 27 13, .eor3 27 27 18 23, .veor 26 4 9, .veor 26 26 14, .eor3 26 26 19 24, .vadd 31 28 28,
    .sri 31 28 63, .veor 25 31 30, .rax1 28 28 26, .vadd 31 29 29, .sri 31 29 63, .veor 26 31 26, .rax1 29 29 27, .vadd 31 30 30, .sri 31 30 63,
    .veor 27 31 27, .veor 30 0 26, .xar 0 2 29 2, .veor 31 12 29, .shl 2 31 43, .sri 2 31 21, .xar 12 13 28 39, .veor 31 19 27, .shl 13 31 8,
    .sri 13 31 56, .xar 19 23 28 8, .veor 31 15 26, .shl 23 31 41, .sri 23 31 23, .xar 15 1 25 63, .veor 31 8 28, .shl 1 31 55, .sri 1 31 9,
    .xar 8 16 25 19, .veor 31 7 29, .shl 16 31 6, .sri 16 31 58, .xar 7 10 26 61, .veor 31 3 28, .shl 10 31 28, .sri 10 31 36, .xar 3 18 28 43,
    .veor 31 17 29, .shl 18 31 15, .sri 18 31 49, .xar 17 11 25 54, .veor 31 9 27, .shl 11 31 20, .sri 11 31 44, .xar 9 22 29 3, .veor 31 14 27,
    .shl 22 31 39, .sri 22 31 25, .xar 14 20 26 46, .veor 31 4 27, .shl 20 31 27, .sri 20 31 37, .xar 4 24 27 50, .veor 31 21 25, .shl 24 31 2,
    .sri 24 31 62, .xar 21 5 26 28, .veor 31 6 25, .shl 27 31 44, .sri 27 31 20, .ld1r 28 1 8, .bcax 5 10 7 11, .vbic 31 8 7, .veor 6 31 11,
    .bcax 7 7 9 8, .vbic 31 10 9, .veor 8 31 8, .bcax 9 9 11 10, .vbic 31 12 16, .veor 10 31 15, .bcax 11 16 13 12, .vbic 31 14 13, .veor 12 31 12,
    .bcax 13 13 15 14, .vbic 31 16 15, .veor 14 31 14, .bcax 15 20 17 21, .vbic 31 18 17, .veor 16 31 21, .bcax 17 17 19 18, .vbic 31 20 19,
    .veor 18 31 18, .bcax 19 19 21 20, .vbic 31 22 1, .veor 20 31 0, .bcax 21 1 23 22, .vbic 31 24 23, .veor 22 31 22, .bcax 23 23 0 24,
    .vbic 31 1 0, .veor 24 31 24, .bcax 0 30 2 27, .vbic 31 3 2, .veor 1 31 27, .bcax 2 2 4 3, .vbic 31 30 4, .veor 3 31 3, .bcax 4 4 27 30,
    .veor 0 0 28, .sub_i 2 2 1],
   .cbnz 2 1⟩,
  -- block 2: lines 239-308
  ⟨[
    .st2 0 1 0 0 16, .st2 2 3 0 0 16, .st2 4 5 0 0 16, .st2 6 7 0 0 16, .st2 8 9 0 0 16, .st2 10 11 0 0 16, .st2 12 13 0 0 16, .st2 14 15 0 0 16,
    .st2 16 17 0 0 16, .st2 18 19 0 0 16, .st2 20 21 0 0 16, .st2 22 23 0 0 16, .st1 24 0 0 8, .st2 0 1 1 0 16, .st2 2 3 1 0 16, .st2 4 5 1 0 16,
    .st2 6 7 1 0 16, .st2 8 9 1 0 16, .st2 10 11 1 0 16, .st2 12 13 1 0 16, .st2 14 15 1 0 16, .st2 16 17 1 0 16, .st2 18 19 1 0 16,
    .st2 20 21 1 0 16, .st2 22 23 1 0 16, .st1 24 1 0 8, .ldp_d 8 9 31 0, .ldp_d 10 11 31 16, .ldp_d 12 13 31 32, .ldp_d 14 15 31 48,
    .ldp 19 20 31 64, .ldp 21 22 31 80, .ldp 23 24 31 96, .ldp 25 26 31 112, .ldp 27 28 31 128, .ldp 29 30 31 144, .add_i 31 31 160],
   .ret⟩]

/-- The size of the stack frame in bytes (`STACK_SIZE`), keccak_f1600_x4_scalar_v84a_asm_hybrid_opt.S.  Line 351. -/
def keccak_f1600_x4_scalar_v84a_asm_hybrid_opt_frame : Nat := 224
/-- `keccak_f1600_x4_scalar_v84a_asm_hybrid_opt`, keccak_f1600_x4_scalar_v84a_asm_hybrid_opt.S 916-1564, with the macros expanded; 752 instructions. -/
def keccak_f1600_x4_scalar_v84a_asm_hybrid_opt : List Block := [
  -- block 0: lines 250-928
  ⟨[
    .sub_i 31 31 224, .stp 19 20 31 48, .stp 21 22 31 64, .stp 23 24 31 80, .stp 25 26 31 96, .stp 27 28 31 112, .stp 29 30 31 128,
    .stp_d 8 9 31 144, .stp_d 10 11 31 160, .stp_d 12 13 31 176, .stp_d 14 15 31 192, .adr 29, .mov_i 30 0, .str 30 31 32, .str 29 31 8,
    .str 29 31 16, .str 0 31 0, .ld2 0 1 0 0 16, .ld2 2 3 0 0 16, .ld2 4 5 0 0 16, .ld2 6 7 0 0 16, .ld2 8 9 0 0 16, .ld2 10 11 0 0 16,
    .ld2 12 13 0 0 16, .ld2 14 15 0 0 16, .ld2 16 17 0 0 16, .ld2 18 19 0 0 16, .ld2 20 21 0 0 16, .ld2 22 23 0 0 16, .ld1 24 0 0 8, .ld2 0 1 1 0 16,
    .ld2 2 3 1 0 16, .ld2 4 5 1 0 16, .ld2 6 7 1 0 16, .ld2 8 9 1 0 16, .ld2 10 11 1 0 16, .ld2 12 13 1 0 16, .ld2 14 15 1 0 16, .ld2 16 17 1 0 16,
    .ld2 18 19 1 0 16, .ld2 20 21 1 0 16, .ld2 22 23 1 0 16, .ld1 24 1 0 8, .sub_i 0 0 400, .add_i 0 0 400, .ldp 1 6 0 0, .ldp 11 16 0 16,
    .ldp 21 2 0 32, .ldp 7 12 0 48, .ldp 17 22 0 64, .ldp 3 8 0 80, .ldp 13 28 0 96, .ldp 23 4 0 112, .ldp 9 14 0 128, .ldp 19 24 0 144,
    .ldp 5 10 0 160, .ldp 15 20 0 176, .ldr 25 0 192, .sub_i 0 0 400],
   .next⟩,
  -- block 1: lines 212-787
  ⟨[
    .eor 30 24 25 0, .eor 27 9 10 0, .eor 0 30 21 0, .eor 26 27 6 0, .eor 27 26 7 0, .eor 29 0 22 0, .eor 26 29 23 0, .eor 29 4 5 0, .eor 30 29 1 0,
    .eor 0 27 8 0, .eor 29 30 2 0, .eor 30 19 20 0, .eor 30 30 16 0, .eor 27 26 0 63, .eor 4 4 27 0, .eor 30 30 17 0, .eor 30 30 28 0,
    .eor 29 29 3 0, .eor 0 0 30 63, .eor 30 30 29 63, .eor 22 22 30 0, .eor 23 23 30 0, .str 23 31 208, .eor 23 14 15 0, .eor 14 14 0 0,
    .eor 23 23 11 0, .eor 15 15 0 0, .eor 1 1 27 0, .eor 23 23 12 0, .eor 23 23 13 0, .eor 11 11 0 0, .eor 29 29 23 63, .eor 23 23 26 63,
    .eor 26 13 0 0, .eor 13 28 23 0, .eor 28 24 30 0, .eor 24 16 23 0, .eor 16 21 30 0, .eor 21 25 30 0, .eor 30 19 23 0, .eor 19 20 23 0,
    .eor 20 17 23 0, .eor 17 12 0 0, .eor 0 2 27 0, .eor 2 6 29 0, .eor 6 8 29 0, .bic 8 28 13 47, .eor 12 3 27 0, .bic 3 13 17 19, .eor 5 5 27 0,
    .ldr 27 31 208, .bic 25 17 2 5, .eor 9 9 29 0, .eor 23 25 5 52, .eor 3 3 2 24, .eor 8 8 17 2, .eor 17 10 29 0, .bic 25 12 22 47, .eor 29 7 29 0,
    .bic 10 4 27 2, .bic 7 5 28 10, .eor 10 10 20 50, .eor 13 7 13 57, .bic 7 2 5 47, .eor 2 25 24 39, .bic 25 20 11 57, .bic 5 17 4 25,
    .eor 25 25 17 53, .bic 17 11 17 60, .eor 28 7 28 57, .bic 7 9 12 42, .eor 7 7 22 25, .bic 22 22 24 56, .bic 24 24 15 31, .eor 22 22 15 23,
    .bic 20 27 20 48, .bic 15 15 9 16, .eor 12 15 12 58, .eor 15 5 27 27, .eor 5 20 11 41, .ldr 11 31 8, .eor 20 17 4 21, .eor 17 24 9 47,
    .mov_i 24 1, .bic 9 0 16 9, .str 24 31 24, .bic 24 29 1 44, .bic 27 1 21 50, .bic 4 26 29 63, .eor 1 1 4 21, .ldr 11 11 0, .bic 4 21 30 57,
    .eor 21 24 21 30, .eor 24 9 19 44, .bic 9 14 6 5, .eor 9 9 0 43, .bic 0 6 0 38, .eor 1 1 11 0, .eor 11 4 26 35, .eor 4 0 16 47, .bic 0 16 19 35,
    .eor 16 27 30 43, .bic 27 30 26 42, .bic 26 19 14 41, .eor 19 0 14 12, .eor 14 26 6 46, .eor 6 27 29 41, .eor 0 15 11 52, .eor 0 0 13 48,
    .eor 26 8 9 57, .eor 27 0 14 10, .eor 29 16 28 63, .eor 26 26 6 51, .eor 30 23 22 50, .eor 0 26 10 31, .eor 29 29 19 37, .eor 27 27 12 5,
    .eor 30 30 24 34, .eor 0 0 7 27, .eor 26 30 21 26, .eor 26 26 25 15, .ror 30 27 62, .eor 30 30 26 57, .ror 26 26 58, .eor 16 30 16 0,
    .eor 28 30 28 63, .str 28 31 208, .eor 29 29 17 36, .eor 28 1 2 61, .eor 19 30 19 37, .eor 29 29 20 2, .eor 28 28 4 54, .eor 26 26 0 55,
    .eor 28 28 3 39, .eor 28 28 5 25, .ror 0 0 56, .eor 0 0 29 63, .eor 27 28 27 61, .eor 13 0 13 46, .eor 28 29 28 63, .eor 29 30 20 2,
    .eor 20 26 3 39, .eor 11 0 11 50, .eor 25 28 25 9, .eor 3 28 21 20, .eor 21 26 1 0, .eor 9 27 9 49, .eor 24 28 24 28, .eor 1 30 17 36,
    .eor 14 0 14 8, .eor 22 28 22 44, .eor 8 27 8 56, .eor 17 27 7 19, .eor 15 0 15 62, .bic 7 20 22 47, .eor 4 26 4 54, .eor 0 0 12 3,
    .eor 28 28 23 58, .eor 23 26 2 61, .eor 26 26 5 25, .eor 2 7 16 39, .bic 7 9 20 42, .bic 30 15 9 16, .eor 7 7 22 25, .eor 12 30 20 58,
    .bic 20 22 16 56, .eor 30 27 6 43, .eor 22 20 15 23, .bic 6 19 13 42, .eor 6 6 17 41, .bic 5 13 17 63, .eor 5 21 5 21, .bic 17 17 21 44,
    .eor 27 27 10 23, .bic 21 21 25 50, .bic 20 27 4 25, .bic 10 16 15 31, .eor 16 21 19 43, .eor 21 17 25 30, .bic 19 25 19 57, .ldr 25 31 24,
    .eor 17 10 9 47, .ldr 9 31 8, .eor 15 20 28 27, .bic 20 4 28 2, .eor 10 20 1 50, .bic 20 11 27 60, .eor 20 20 4 21, .bic 4 28 1 48,
    .bic 1 1 11 57, .ldr_w 28 9 25, .ldr 9 31 208, .add_i 25 25 1, .str 25 31 24, .cmp_i 25 23, .eor 25 1 27 53, .bic 27 30 26 47, .eor 1 5 28 0,
    .eor 5 4 11 41, .eor 11 19 13 35, .bic 13 26 24 10, .eor 28 27 24 57, .bic 27 24 9 47, .bic 19 23 3 9, .bic 4 29 14 41, .eor 24 19 29 44,
    .bic 29 3 29 35, .eor 13 13 9 57, .eor 19 29 14 12, .bic 29 9 0 19, .bic 14 14 8 5, .eor 9 14 23 43, .eor 14 4 8 46, .bic 23 8 23 38,
    .eor 8 27 0 2, .eor 4 23 3 47, .bic 3 0 30 5, .eor 23 3 26 52, .eor 3 29 30 24, .eor3 30 0 5 10, .eor3 30 30 15 20, .eor3 29 1 6 11,
    .eor3 29 29 16 21, .eor3 28 2 7 12, .eor3 28 28 17 22, .eor3 27 3 8 13, .eor3 27 27 18 23, .eor3 26 4 9 14, .eor3 26 26 19 24, .rax1 25 30 28,
    .rax1 28 28 26, .rax1 26 26 29, .rax1 29 29 27, .rax1 27 27 30, .veor 30 0 26, .xar 0 2 29 2, .xar 2 12 29 21, .xar 12 13 28 39,
    .xar 13 19 27 56, .xar 19 23 28 8, .xar 23 15 26 23, .xar 15 1 25 63, .xar 1 8 28 9, .xar 8 16 25 19, .xar 16 7 29 58, .xar 7 10 26 61,
    .xar 10 3 28 36, .xar 3 18 28 43, .xar 18 17 29 49, .xar 17 11 25 54, .xar 11 9 27 44, .xar 9 22 29 3, .xar 22 14 27 25, .xar 14 20 26 46,
    .xar 20 4 27 37, .xar 4 24 27 50, .xar 24 21 25 62, .xar 21 5 26 28, .xar 27 6 25 20, .ldr 30 31 16, .ld1r 28 30 8, .str 30 31 16,
    .bcax 5 10 7 11, .bcax 6 11 8 7, .bcax 7 7 9 8, .bcax 8 8 10 9, .bcax 9 9 11 10, .bcax 10 15 12 16, .bcax 11 16 13 12, .bcax 12 12 14 13,
    .bcax 13 13 15 14, .bcax 14 14 16 15, .bcax 15 20 17 21, .bcax 16 21 18 17, .bcax 17 17 19 18, .bcax 18 18 20 19, .bcax 19 19 21 20,
    .bcax 20 0 22 1, .bcax 21 1 23 22, .bcax 22 22 24 23, .bcax 23 23 0 24, .bcax 24 24 1 0, .bcax 0 30 2 27, .bcax 1 27 3 2, .bcax 2 2 4 3,
    .bcax 3 3 30 4, .bcax 4 4 27 30, .veor 0 0 28],
   .next⟩,
  -- block 2: lines 945-1237
  ⟨[
    .eor 0 15 11 52, .eor 0 0 13 48, .eor 26 8 9 57, .eor 27 0 14 10, .eor3 30 0 5 10, .eor3 30 30 15 20, .eor 29 16 28 63, .eor 26 26 6 51,
    .eor 30 23 22 50, .eor3 29 1 6 11, .eor 0 26 10 31, .eor 29 29 19 37, .eor 27 27 12 5, .eor3 29 29 16 21, .eor 30 30 24 34, .eor 0 0 7 27,
    .eor 26 30 21 26, .eor3 28 2 7 12, .eor 26 26 25 15, .ror 30 27 62, .eor 30 30 26 57, .ror 26 26 58, .eor3 28 28 17 22, .eor 16 30 16 0,
    .eor 28 30 28 63, .str 28 31 208, .eor3 27 3 8 13, .eor 29 29 17 36, .eor 28 1 2 61, .eor 19 30 19 37, .eor3 27 27 18 23, .eor 29 29 20 2,
    .eor 28 28 4 54, .eor 26 26 0 55, .eor3 26 4 9 14, .eor 28 28 3 39, .eor 28 28 5 25, .ror 0 0 56, .eor 0 0 29 63, .eor3 26 26 19 24,
    .eor 27 28 27 61, .eor 13 0 13 46, .eor 28 29 28 63, .rax1 25 30 28, .eor 29 30 20 2, .eor 20 26 3 39, .eor 11 0 11 50, .rax1 28 28 26,
    .eor 25 28 25 9, .eor 3 28 21 20, .eor 21 26 1 0, .rax1 26 26 29, .eor 9 27 9 49, .eor 24 28 24 28, .eor 1 30 17 36, .eor 14 0 14 8,
    .rax1 29 29 27, .eor 22 28 22 44, .eor 8 27 8 56, .eor 17 27 7 19, .rax1 27 27 30, .eor 15 0 15 62, .bic 7 20 22 47, .eor 4 26 4 54,
    .veor 30 0 26, .eor 0 0 12 3, .eor 28 28 23 58, .eor 23 26 2 61, .xar 0 2 29 2, .eor 26 26 5 25, .eor 2 7 16 39, .bic 7 9 20 42, .bic 30 15 9 16,
    .xar 2 12 29 21, .eor 7 7 22 25, .eor 12 30 20 58, .bic 20 22 16 56, .xar 12 13 28 39, .eor 30 27 6 43, .eor 22 20 15 23, .bic 6 19 13 42,
    .xar 13 19 27 56, .eor 6 6 17 41, .bic 5 13 17 63, .eor 5 21 5 21, .xar 19 23 28 8, .bic 17 17 21 44, .eor 27 27 10 23, .bic 21 21 25 50,
    .bic 20 27 4 25, .xar 23 15 26 23, .bic 10 16 15 31, .eor 16 21 19 43, .eor 21 17 25 30, .xar 15 1 25 63, .bic 19 25 19 57, .ldr 25 31 24,
    .eor 17 10 9 47, .xar 1 8 28 9, .ldr 9 31 8, .eor 15 20 28 27, .bic 20 4 28 2, .xar 8 16 25 19, .eor 10 20 1 50, .bic 20 11 27 60,
    .eor 20 20 4 21, .bic 4 28 1 48, .xar 16 7 29 58, .bic 1 1 11 57, .ldr_w 28 9 25, .ldr 9 31 208, .xar 7 10 26 61, .add_i 25 25 1, .str 25 31 24,
    .cmp_i 25 23, .xar 10 3 28 36, .eor 25 1 27 53, .bic 27 30 26 47, .eor 1 5 28 0, .xar 3 18 28 43, .eor 5 4 11 41, .eor 11 19 13 35,
    .bic 13 26 24 10, .eor 28 27 24 57, .xar 18 17 29 49, .bic 27 24 9 47, .bic 19 23 3 9, .bic 4 29 14 41, .xar 17 11 25 54, .eor 24 19 29 44,
    .bic 29 3 29 35, .eor 13 13 9 57, .xar 11 9 27 44, .eor 19 29 14 12, .bic 29 9 0 19, .bic 14 14 8 5, .xar 9 22 29 3, .eor 9 14 23 43,
    .eor 14 4 8 46, .bic 23 8 23 38, .eor 8 27 0 2, .xar 22 14 27 25, .eor 4 23 3 47, .bic 3 0 30 5, .eor 23 3 26 52, .xar 14 20 26 46,
    .eor 3 29 30 24, .eor 0 15 11 52, .eor 0 0 13 48, .xar 20 4 27 37, .eor 26 8 9 57, .eor 27 0 14 10, .eor 29 16 28 63, .xar 4 24 27 50,
    .eor 26 26 6 51, .eor 30 23 22 50, .eor 0 26 10 31, .eor 29 29 19 37, .xar 24 21 25 62, .eor 27 27 12 5, .eor 30 30 24 34, .eor 0 0 7 27,
    .xar 21 5 26 28, .eor 26 30 21 26, .eor 26 26 25 15, .ror 30 27 62, .xar 27 6 25 20, .eor 30 30 26 57, .ror 26 26 58, .eor 16 30 16 0,
    .bcax 5 10 7 11, .eor 28 30 28 63, .str 28 31 208, .eor 29 29 17 36, .eor 28 1 2 61, .bcax 6 11 8 7, .eor 19 30 19 37, .eor 29 29 20 2,
    .eor 28 28 4 54, .bcax 7 7 9 8, .eor 26 26 0 55, .eor 28 28 3 39, .eor 28 28 5 25, .bcax 8 8 10 9, .ror 0 0 56, .eor 0 0 29 63, .eor 27 28 27 61,
    .bcax 9 9 11 10, .eor 13 0 13 46, .eor 28 29 28 63, .eor 29 30 20 2, .eor 20 26 3 39, .bcax 10 15 12 16, .eor 11 0 11 50, .eor 25 28 25 9,
    .eor 3 28 21 20, .bcax 11 16 13 12, .eor 21 26 1 0, .eor 9 27 9 49, .eor 24 28 24 28, .bcax 12 12 14 13, .eor 1 30 17 36, .eor 14 0 14 8,
    .eor 22 28 22 44, .bcax 13 13 15 14, .eor 8 27 8 56, .eor 17 27 7 19, .eor 15 0 15 62, .bic 7 20 22 47, .bcax 14 14 16 15, .eor 4 26 4 54,
    .eor 0 0 12 3, .eor 28 28 23 58, .bcax 15 20 17 21, .eor 23 26 2 61, .eor 26 26 5 25, .eor 2 7 16 39, .bcax 16 21 18 17, .bic 7 9 20 42,
    .bic 30 15 9 16, .eor 7 7 22 25, .bcax 17 17 19 18, .eor 12 30 20 58, .bic 20 22 16 56, .eor 30 27 6 43, .eor 22 20 15 23, .bcax 18 18 20 19,
    .bic 6 19 13 42, .eor 6 6 17 41, .bic 5 13 17 63, .bcax 19 19 21 20, .eor 5 21 5 21, .bic 17 17 21 44, .eor 27 27 10 23, .bcax 20 0 22 1,
    .bic 21 21 25 50, .bic 20 27 4 25, .bic 10 16 15 31, .bcax 21 1 23 22, .eor 16 21 19 43, .eor 21 17 25 30, .bic 19 25 19 57, .ldr 25 31 24,
    .bcax 22 22 24 23, .eor 17 10 9 47, .ldr 9 31 8, .eor 15 20 28 27, .bcax 23 23 0 24, .bic 20 4 28 2, .eor 10 20 1 50, .bic 20 11 27 60,
    .bcax 24 24 1 0, .eor 20 20 4 21, .bic 4 28 1 48, .bic 1 1 11 57, .bcax 0 30 2 27, .ldr_w 28 9 25, .ldr 9 31 208, .add_i 25 25 1, .str 25 31 24,
    .bcax 1 27 3 2, .cmp_i 25 23, .eor 25 1 27 53, .bic 27 30 26 47, .bcax 2 2 4 3, .eor 1 5 28 0, .eor 5 4 11 41, .eor 11 19 13 35, .bcax 3 3 30 4,
    .bic 13 26 24 10, .eor 28 27 24 57, .bic 27 24 9 47, .bcax 4 4 27 30, .bic 19 23 3 9, .bic 4 29 14 41, .eor 24 19 29 44, .bic 29 3 29 35,
    .eor 13 13 9 57, .eor 19 29 14 12, .bic 29 9 0 19, .bic 14 14 8 5, .eor 9 14 23 43, .eor 14 4 8 46, .bic 23 8 23 38, .eor 8 27 0 2,
    .eor 4 23 3 47, .bic 3 0 30 5, .eor 23 3 26 52, .eor 3 29 30 24, .ldr 30 31 16, .ld1r 28 30 8, .str 30 31 16, .veor 0 0 28],
   .next⟩,
  -- block 3
  ⟨[
],
   .ble 2⟩,
  -- block 4: lines 886-1543
  ⟨[
    .ror 2 2 61, .ror 3 3 39, .ror 4 4 54, .ror 5 5 25, .ror 6 6 43, .ror 7 7 19, .ror 8 8 56, .ror 9 9 49, .ror 10 10 23, .ror 11 11 50,
    .ror 12 12 3, .ror 13 13 46, .ror 14 14 8, .ror 15 15 62, .ror 17 17 36, .ror 28 28 63, .ror 19 19 37, .ror 20 20 2, .ror 21 21 20,
    .ror 22 22 44, .ror 23 23 58, .ror 24 24 28, .ror 25 25 9, .ldr 30 31 32, .cmp_i 30 1],
   .beq 6⟩,
  -- block 5: lines 314-1550
  ⟨[
    .mov_i 30 1, .str 30 31 32, .ldr 0 31 0, .add_i 0 0 400, .stp 1 6 0 0, .stp 11 16 0 16, .stp 21 2 0 32, .stp 7 12 0 48, .stp 17 22 0 64,
    .stp 3 8 0 80, .stp 13 28 0 96, .stp 23 4 0 112, .stp 9 14 0 128, .stp 19 24 0 144, .stp 5 10 0 160, .stp 15 20 0 176, .str 25 0 192,
    .sub_i 0 0 400, .add_i 0 0 600, .ldp 1 6 0 0, .ldp 11 16 0 16, .ldp 21 2 0 32, .ldp 7 12 0 48, .ldp 17 22 0 64, .ldp 3 8 0 80, .ldp 13 28 0 96,
    .ldp 23 4 0 112, .ldp 9 14 0 128, .ldp 19 24 0 144, .ldp 5 10 0 160, .ldp 15 20 0 176, .ldr 25 0 192, .sub_i 0 0 600],
   .b 1⟩,
  -- block 6: lines 282-1557
  ⟨[
    .ldr 0 31 0, .add_i 0 0 600, .stp 1 6 0 0, .stp 11 16 0 16, .stp 21 2 0 32, .stp 7 12 0 48, .stp 17 22 0 64, .stp 3 8 0 80, .stp 13 28 0 96,
    .stp 23 4 0 112, .stp 9 14 0 128, .stp 19 24 0 144, .stp 5 10 0 160, .stp 15 20 0 176, .str 25 0 192, .sub_i 0 0 600, .st2 0 1 0 0 16,
    .st2 2 3 0 0 16, .st2 4 5 0 0 16, .st2 6 7 0 0 16, .st2 8 9 0 0 16, .st2 10 11 0 0 16, .st2 12 13 0 0 16, .st2 14 15 0 0 16, .st2 16 17 0 0 16,
    .st2 18 19 0 0 16, .st2 20 21 0 0 16, .st2 22 23 0 0 16, .st1 24 0 0 8, .st2 0 1 1 0 16, .st2 2 3 1 0 16, .st2 4 5 1 0 16, .st2 6 7 1 0 16,
    .st2 8 9 1 0 16, .st2 10 11 1 0 16, .st2 12 13 1 0 16, .st2 14 15 1 0 16, .st2 16 17 1 0 16, .st2 18 19 1 0 16, .st2 20 21 1 0 16,
    .st2 22 23 1 0 16, .st1 24 1 0 8, .sub_i 0 0 400, .ldp_d 14 15 31 192, .ldp_d 12 13 31 176, .ldp_d 10 11 31 160, .ldp_d 8 9 31 144,
    .ldp 19 20 31 48, .ldp 21 22 31 64, .ldp 23 24 31 80, .ldp 25 26 31 96, .ldp 27 28 31 112, .ldp 29 30 31 128, .add_i 31 31 224],
   .ret⟩]

/-- The size of the stack frame in bytes (`STACK_SIZE`), keccak_f1600_x4_v8a_scalar_hybrid_asm_opt.S.  Line 332. -/
def keccak_f1600_x4_scalar_v8a_asm_hybrid_opt_frame : Nat := 224
/-- `keccak_f1600_x4_scalar_v8a_asm_hybrid_opt`, keccak_f1600_x4_v8a_scalar_hybrid_asm_opt.S 897-1731, with the macros expanded; 938 instructions. -/
def keccak_f1600_x4_scalar_v8a_asm_hybrid_opt : List Block := [
  -- block 0: lines 231-909
  ⟨[
    .sub_i 31 31 224, .stp 19 20 31 48, .stp 21 22 31 64, .stp 23 24 31 80, .stp 25 26 31 96, .stp 27 28 31 112, .stp 29 30 31 128,
    .stp_d 8 9 31 144, .stp_d 10 11 31 160, .stp_d 12 13 31 176, .stp_d 14 15 31 192, .adr 29, .mov_i 30 0, .str 30 31 32, .str 29 31 8,
    .str 29 31 16, .str 0 31 0, .ld2 0 1 0 0 16, .ld2 2 3 0 0 16, .ld2 4 5 0 0 16, .ld2 6 7 0 0 16, .ld2 8 9 0 0 16, .ld2 10 11 0 0 16,
    .ld2 12 13 0 0 16, .ld2 14 15 0 0 16, .ld2 16 17 0 0 16, .ld2 18 19 0 0 16, .ld2 20 21 0 0 16, .ld2 22 23 0 0 16, .ld1 24 0 0 8, .ld2 0 1 1 0 16,
    .ld2 2 3 1 0 16, .ld2 4 5 1 0 16, .ld2 6 7 1 0 16, .ld2 8 9 1 0 16, .ld2 10 11 1 0 16, .ld2 12 13 1 0 16, .ld2 14 15 1 0 16, .ld2 16 17 1 0 16,
    .ld2 18 19 1 0 16, .ld2 20 21 1 0 16, .ld2 22 23 1 0 16, .ld1 24 1 0 8, .sub_i 0 0 400, .add_i 0 0 400, .ldp 1 6 0 0, .ldp 11 16 0 16,
    .ldp 21 2 0 32, .ldp 7 12 0 48, .ldp 17 22 0 64, .ldp 3 8 0 80, .ldp 13 28 0 96, .ldp 23 4 0 112, .ldp 9 14 0 128, .ldp 19 24 0 144,
    .ldp 5 10 0 160, .ldp 15 20 0 176, .ldr 25 0 192, .sub_i 0 0 400],
   .next⟩,
  -- block 1: lines 209-768
  ⟨[
    .eor 30 24 25 0, .eor 27 9 10 0, .eor 0 30 21 0, .eor 26 27 6 0, .eor 27 26 7 0, .eor 29 0 22 0, .eor 26 29 23 0, .eor 29 4 5 0, .eor 30 29 1 0,
    .eor 0 27 8 0, .eor 29 30 2 0, .eor 30 19 20 0, .eor 30 30 16 0, .eor 27 26 0 63, .eor 4 4 27 0, .eor 30 30 17 0, .eor 30 30 28 0,
    .eor 29 29 3 0, .eor 0 0 30 63, .eor 30 30 29 63, .eor 22 22 30 0, .eor 23 23 30 0, .str 23 31 208, .eor 23 14 15 0, .eor 14 14 0 0,
    .eor 23 23 11 0, .eor 15 15 0 0, .eor 1 1 27 0, .eor 23 23 12 0, .eor 23 23 13 0, .eor 11 11 0 0, .eor 29 29 23 63, .eor 23 23 26 63,
    .eor 26 13 0 0, .eor 13 28 23 0, .eor 28 24 30 0, .eor 24 16 23 0, .eor 16 21 30 0, .eor 21 25 30 0, .eor 30 19 23 0, .eor 19 20 23 0,
    .eor 20 17 23 0, .eor 17 12 0 0, .eor 0 2 27 0, .eor 2 6 29 0, .eor 6 8 29 0, .bic 8 28 13 47, .eor 12 3 27 0, .bic 3 13 17 19, .eor 5 5 27 0,
    .ldr 27 31 208, .bic 25 17 2 5, .eor 9 9 29 0, .eor 23 25 5 52, .eor 3 3 2 24, .eor 8 8 17 2, .eor 17 10 29 0, .bic 25 12 22 47, .eor 29 7 29 0,
    .bic 10 4 27 2, .bic 7 5 28 10, .eor 10 10 20 50, .eor 13 7 13 57, .bic 7 2 5 47, .eor 2 25 24 39, .bic 25 20 11 57, .bic 5 17 4 25,
    .eor 25 25 17 53, .bic 17 11 17 60, .eor 28 7 28 57, .bic 7 9 12 42, .eor 7 7 22 25, .bic 22 22 24 56, .bic 24 24 15 31, .eor 22 22 15 23,
    .bic 20 27 20 48, .bic 15 15 9 16, .eor 12 15 12 58, .eor 15 5 27 27, .eor 5 20 11 41, .ldr 11 31 8, .eor 20 17 4 21, .eor 17 24 9 47,
    .mov_i 24 1, .bic 9 0 16 9, .str 24 31 24, .bic 24 29 1 44, .bic 27 1 21 50, .bic 4 26 29 63, .eor 1 1 4 21, .ldr 11 11 0, .bic 4 21 30 57,
    .eor 21 24 21 30, .eor 24 9 19 44, .bic 9 14 6 5, .eor 9 9 0 43, .bic 0 6 0 38, .eor 1 1 11 0, .eor 11 4 26 35, .eor 4 0 16 47, .bic 0 16 19 35,
    .eor 16 27 30 43, .bic 27 30 26 42, .bic 26 19 14 41, .eor 19 0 14 12, .eor 14 26 6 46, .eor 6 27 29 41, .eor 0 15 11 52, .eor 0 0 13 48,
    .eor 26 8 9 57, .eor 27 0 14 10, .eor 29 16 28 63, .eor 26 26 6 51, .eor 30 23 22 50, .eor 0 26 10 31, .eor 29 29 19 37, .eor 27 27 12 5,
    .eor 30 30 24 34, .eor 0 0 7 27, .eor 26 30 21 26, .eor 26 26 25 15, .ror 30 27 62, .eor 30 30 26 57, .ror 26 26 58, .eor 16 30 16 0,
    .eor 28 30 28 63, .str 28 31 208, .eor 29 29 17 36, .eor 28 1 2 61, .eor 19 30 19 37, .eor 29 29 20 2, .eor 28 28 4 54, .eor 26 26 0 55,
    .eor 28 28 3 39, .eor 28 28 5 25, .ror 0 0 56, .eor 0 0 29 63, .eor 27 28 27 61, .eor 13 0 13 46, .eor 28 29 28 63, .eor 29 30 20 2,
    .eor 20 26 3 39, .eor 11 0 11 50, .eor 25 28 25 9, .eor 3 28 21 20, .eor 21 26 1 0, .eor 9 27 9 49, .eor 24 28 24 28, .eor 1 30 17 36,
    .eor 14 0 14 8, .eor 22 28 22 44, .eor 8 27 8 56, .eor 17 27 7 19, .eor 15 0 15 62, .bic 7 20 22 47, .eor 4 26 4 54, .eor 0 0 12 3,
    .eor 28 28 23 58, .eor 23 26 2 61, .eor 26 26 5 25, .eor 2 7 16 39, .bic 7 9 20 42, .bic 30 15 9 16, .eor 7 7 22 25, .eor 12 30 20 58,
    .bic 20 22 16 56, .eor 30 27 6 43, .eor 22 20 15 23, .bic 6 19 13 42, .eor 6 6 17 41, .bic 5 13 17 63, .eor 5 21 5 21, .bic 17 17 21 44,
    .eor 27 27 10 23, .bic 21 21 25 50, .bic 20 27 4 25, .bic 10 16 15 31, .eor 16 21 19 43, .eor 21 17 25 30, .bic 19 25 19 57, .ldr 25 31 24,
    .eor 17 10 9 47, .ldr 9 31 8, .eor 15 20 28 27, .bic 20 4 28 2, .eor 10 20 1 50, .bic 20 11 27 60, .eor 20 20 4 21, .bic 4 28 1 48,
    .bic 1 1 11 57, .ldr_w 28 9 25, .ldr 9 31 208, .add_i 25 25 1, .str 25 31 24, .cmp_i 25 23, .eor 25 1 27 53, .bic 27 30 26 47, .eor 1 5 28 0,
    .eor 5 4 11 41, .eor 11 19 13 35, .bic 13 26 24 10, .eor 28 27 24 57, .bic 27 24 9 47, .bic 19 23 3 9, .bic 4 29 14 41, .eor 24 19 29 44,
    .bic 29 3 29 35, .eor 13 13 9 57, .eor 19 29 14 12, .bic 29 9 0 19, .bic 14 14 8 5, .eor 9 14 23 43, .eor 14 4 8 46, .bic 23 8 23 38,
    .eor 8 27 0 2, .eor 4 23 3 47, .bic 3 0 30 5, .eor 23 3 26 52, .eor 3 29 30 24, .veor 30 0 5, .veor 30 30 10, .veor 30 30 15, .veor 30 30 20,
    .veor 29 1 6, .veor 29 29 11, .veor 29 29 16, .veor 29 29 21, .veor 28 2 7, .veor 28 28 12, .veor 28 28 17, .veor 28 28 22, .veor 27 3 8,
    .veor 27 27 13, .veor 27 27 18, .veor 27 27 23, .veor 26 4 9, .veor 26 26 14, .veor 26 26 19, .veor 26 26 24, .vadd 31 28 28, .sri 31 28 63,
    .veor 25 31 30, .vadd 31 26 26, .sri 31 26 63, .veor 28 31 28, .vadd 31 29 29, .sri 31 29 63, .veor 26 31 26, .vadd 31 27 27, .sri 31 27 63,
    .veor 29 31 29, .vadd 31 30 30, .sri 31 30 63, .veor 27 31 27, .veor 30 0 26, .veor 31 2 29, .shl 0 31 62, .sri 0 31 2, .veor 31 12 29,
    .shl 2 31 43, .sri 2 31 21, .veor 31 13 28, .shl 12 31 25, .sri 12 31 39, .veor 31 19 27, .shl 13 31 8, .sri 13 31 56, .veor 31 23 28,
    .shl 19 31 56, .sri 19 31 8, .veor 31 15 26, .shl 23 31 41, .sri 23 31 23, .veor 31 1 25, .shl 15 31 1, .sri 15 31 63, .veor 31 8 28,
    .shl 1 31 55, .sri 1 31 9, .veor 31 16 25, .shl 8 31 45, .sri 8 31 19, .veor 31 7 29, .shl 16 31 6, .sri 16 31 58, .veor 31 10 26, .shl 7 31 3,
    .sri 7 31 61, .veor 31 3 28, .shl 10 31 28, .sri 10 31 36, .veor 31 18 28, .shl 3 31 21, .sri 3 31 43, .veor 31 17 29, .shl 18 31 15,
    .sri 18 31 49, .veor 31 11 25, .shl 17 31 10, .sri 17 31 54, .veor 31 9 27, .shl 11 31 20, .sri 11 31 44, .veor 31 22 29, .shl 9 31 61,
    .sri 9 31 3, .veor 31 14 27, .shl 22 31 39, .sri 22 31 25, .veor 31 20 26, .shl 14 31 18, .sri 14 31 46, .veor 31 4 27, .shl 20 31 27,
    .sri 20 31 37, .veor 31 24 27, .shl 4 31 14, .sri 4 31 50, .veor 31 21 25, .shl 24 31 2, .sri 24 31 62, .veor 31 5 26, .shl 21 31 36,
    .sri 21 31 28, .veor 31 6 25, .shl 27 31 44, .sri 27 31 20, .ldr 30 31 16, .ld1r 28 30 8, .str 30 31 16, .vbic 31 7 11, .veor 5 31 10,
    .vbic 31 8 7, .veor 6 31 11, .vbic 31 9 8, .veor 7 31 7, .vbic 31 10 9, .veor 8 31 8, .vbic 31 11 10, .veor 9 31 9, .vbic 31 12 16,
    .veor 10 31 15, .vbic 31 13 12, .veor 11 31 16, .vbic 31 14 13, .veor 12 31 12, .vbic 31 15 14, .veor 13 31 13, .vbic 31 16 15, .veor 14 31 14,
    .vbic 31 17 21, .veor 15 31 20, .vbic 31 18 17, .veor 16 31 21, .vbic 31 19 18, .veor 17 31 17, .vbic 31 20 19, .veor 18 31 18, .vbic 31 21 20,
    .veor 19 31 19, .vbic 31 22 1, .veor 20 31 0, .vbic 31 23 22, .veor 21 31 1, .vbic 31 24 23, .veor 22 31 22, .vbic 31 0 24, .veor 23 31 23,
    .vbic 31 1 0, .veor 24 31 24, .vbic 31 2 27, .veor 0 31 30, .vbic 31 3 2, .veor 1 31 27, .vbic 31 4 3, .veor 2 31 2, .vbic 31 30 4, .veor 3 31 3,
    .vbic 31 27 30, .veor 4 31 4, .veor 0 0 28],
   .next⟩,
  -- block 2: lines 926-1311
  ⟨[
    .eor 0 15 11 52, .eor 0 0 13 48, .veor 30 0 5, .veor 30 30 10, .eor 26 8 9 57, .veor 30 30 15, .eor 27 0 14 10, .eor 29 16 28 63, .veor 30 30 20,
    .eor 26 26 6 51, .veor 29 1 6, .eor 30 23 22 50, .veor 29 29 11, .eor 0 26 10 31, .eor 29 29 19 37, .veor 29 29 16, .eor 27 27 12 5,
    .veor 29 29 21, .eor 30 30 24 34, .eor 0 0 7 27, .veor 28 2 7, .eor 26 30 21 26, .veor 28 28 12, .eor 26 26 25 15, .veor 28 28 17, .ror 30 27 62,
    .eor 30 30 26 57, .veor 28 28 22, .ror 26 26 58, .veor 27 3 8, .eor 16 30 16 0, .veor 27 27 13, .eor 28 30 28 63, .str 28 31 208, .veor 27 27 18,
    .eor 29 29 17 36, .veor 27 27 23, .eor 28 1 2 61, .eor 19 30 19 37, .veor 26 4 9, .eor 29 29 20 2, .veor 26 26 14, .eor 28 28 4 54,
    .veor 26 26 19, .eor 26 26 0 55, .eor 28 28 3 39, .veor 26 26 24, .eor 28 28 5 25, .vadd 31 28 28, .ror 0 0 56, .eor 0 0 29 63, .sri 31 28 63,
    .eor 27 28 27 61, .veor 25 31 30, .eor 13 0 13 46, .vadd 31 26 26, .eor 28 29 28 63, .eor 29 30 20 2, .sri 31 26 63, .eor 20 26 3 39,
    .veor 28 31 28, .eor 11 0 11 50, .vadd 31 29 29, .eor 25 28 25 9, .eor 3 28 21 20, .sri 31 29 63, .eor 21 26 1 0, .veor 26 31 26, .eor 9 27 9 49,
    .eor 24 28 24 28, .vadd 31 27 27, .eor 1 30 17 36, .sri 31 27 63, .eor 14 0 14 8, .veor 29 31 29, .eor 22 28 22 44, .eor 8 27 8 56,
    .vadd 31 30 30, .eor 17 27 7 19, .sri 31 30 63, .eor 15 0 15 62, .bic 7 20 22 47, .veor 27 31 27, .eor 4 26 4 54, .veor 30 0 26, .eor 0 0 12 3,
    .veor 31 2 29, .eor 28 28 23 58, .eor 23 26 2 61, .shl 0 31 62, .eor 26 26 5 25, .sri 0 31 2, .eor 2 7 16 39, .veor 31 12 29, .bic 7 9 20 42,
    .bic 30 15 9 16, .shl 2 31 43, .eor 7 7 22 25, .sri 2 31 21, .eor 12 30 20 58, .bic 20 22 16 56, .veor 31 13 28, .eor 30 27 6 43, .shl 12 31 25,
    .eor 22 20 15 23, .sri 12 31 39, .bic 6 19 13 42, .eor 6 6 17 41, .veor 31 19 27, .bic 5 13 17 63, .shl 13 31 8, .eor 5 21 5 21, .sri 13 31 56,
    .bic 17 17 21 44, .eor 27 27 10 23, .veor 31 23 28, .bic 21 21 25 50, .shl 19 31 56, .bic 20 27 4 25, .bic 10 16 15 31, .sri 19 31 8,
    .eor 16 21 19 43, .veor 31 15 26, .eor 21 17 25 30, .shl 23 31 41, .bic 19 25 19 57, .ldr 25 31 24, .sri 23 31 23, .eor 17 10 9 47,
    .veor 31 1 25, .ldr 9 31 8, .eor 15 20 28 27, .shl 15 31 1, .bic 20 4 28 2, .sri 15 31 63, .eor 10 20 1 50, .veor 31 8 28, .bic 20 11 27 60,
    .eor 20 20 4 21, .shl 1 31 55, .bic 4 28 1 48, .sri 1 31 9, .bic 1 1 11 57, .veor 31 16 25, .ldr_w 28 9 25, .ldr 9 31 208, .shl 8 31 45,
    .add_i 25 25 1, .sri 8 31 19, .str 25 31 24, .cmp_i 25 23, .veor 31 7 29, .eor 25 1 27 53, .shl 16 31 6, .bic 27 30 26 47, .sri 16 31 58,
    .eor 1 5 28 0, .eor 5 4 11 41, .veor 31 10 26, .eor 11 19 13 35, .shl 7 31 3, .bic 13 26 24 10, .eor 28 27 24 57, .sri 7 31 61, .bic 27 24 9 47,
    .veor 31 3 28, .bic 19 23 3 9, .shl 10 31 28, .bic 4 29 14 41, .eor 24 19 29 44, .sri 10 31 36, .bic 29 3 29 35, .veor 31 18 28, .eor 13 13 9 57,
    .shl 3 31 21, .eor 19 29 14 12, .bic 29 9 0 19, .sri 3 31 43, .bic 14 14 8 5, .veor 31 17 29, .eor 9 14 23 43, .eor 14 4 8 46, .shl 18 31 15,
    .bic 23 8 23 38, .sri 18 31 49, .eor 8 27 0 2, .veor 31 11 25, .eor 4 23 3 47, .bic 3 0 30 5, .shl 17 31 10, .eor 23 3 26 52, .sri 17 31 54,
    .eor 3 29 30 24, .eor 0 15 11 52, .veor 31 9 27, .eor 0 0 13 48, .shl 11 31 20, .eor 26 8 9 57, .sri 11 31 44, .eor 27 0 14 10, .eor 29 16 28 63,
    .veor 31 22 29, .eor 26 26 6 51, .shl 9 31 61, .eor 30 23 22 50, .sri 9 31 3, .eor 0 26 10 31, .eor 29 29 19 37, .veor 31 14 27, .eor 27 27 12 5,
    .shl 22 31 39, .eor 30 30 24 34, .eor 0 0 7 27, .sri 22 31 25, .eor 26 30 21 26, .veor 31 20 26, .eor 26 26 25 15, .shl 14 31 18, .ror 30 27 62,
    .eor 30 30 26 57, .sri 14 31 46, .ror 26 26 58, .veor 31 4 27, .eor 16 30 16 0, .shl 20 31 27, .eor 28 30 28 63, .str 28 31 208, .sri 20 31 37,
    .eor 29 29 17 36, .veor 31 24 27, .eor 28 1 2 61, .eor 19 30 19 37, .shl 4 31 14, .eor 29 29 20 2, .sri 4 31 50, .eor 28 28 4 54, .veor 31 21 25,
    .eor 26 26 0 55, .eor 28 28 3 39, .shl 24 31 2, .eor 28 28 5 25, .sri 24 31 62, .ror 0 0 56, .eor 0 0 29 63, .veor 31 5 26, .eor 27 28 27 61,
    .shl 21 31 36, .eor 13 0 13 46, .sri 21 31 28, .eor 28 29 28 63, .eor 29 30 20 2, .veor 31 6 25, .eor 20 26 3 39, .shl 27 31 44, .eor 11 0 11 50,
    .sri 27 31 20, .eor 25 28 25 9, .eor 3 28 21 20, .vbic 31 7 11, .eor 21 26 1 0, .veor 5 31 10, .eor 9 27 9 49, .eor 24 28 24 28, .vbic 31 8 7,
    .eor 1 30 17 36, .veor 6 31 11, .eor 14 0 14 8, .vbic 31 9 8, .eor 22 28 22 44, .eor 8 27 8 56, .veor 7 31 7, .eor 17 27 7 19, .vbic 31 10 9,
    .eor 15 0 15 62, .bic 7 20 22 47, .veor 8 31 8, .eor 4 26 4 54, .vbic 31 11 10, .eor 0 0 12 3, .veor 9 31 9, .eor 28 28 23 58, .eor 23 26 2 61,
    .vbic 31 12 16, .eor 26 26 5 25, .veor 10 31 15, .eor 2 7 16 39, .vbic 31 13 12, .bic 7 9 20 42, .bic 30 15 9 16, .veor 11 31 16, .eor 7 7 22 25,
    .vbic 31 14 13, .eor 12 30 20 58, .bic 20 22 16 56, .veor 12 31 12, .eor 30 27 6 43, .vbic 31 15 14, .eor 22 20 15 23, .veor 13 31 13,
    .bic 6 19 13 42, .eor 6 6 17 41, .vbic 31 16 15, .bic 5 13 17 63, .veor 14 31 14, .eor 5 21 5 21, .vbic 31 17 21, .bic 17 17 21 44,
    .eor 27 27 10 23, .veor 15 31 20, .bic 21 21 25 50, .vbic 31 18 17, .bic 20 27 4 25, .bic 10 16 15 31, .veor 16 31 21, .eor 16 21 19 43,
    .vbic 31 19 18, .eor 21 17 25 30, .veor 17 31 17, .bic 19 25 19 57, .ldr 25 31 24, .vbic 31 20 19, .eor 17 10 9 47, .veor 18 31 18, .ldr 9 31 8,
    .eor 15 20 28 27, .vbic 31 21 20, .bic 20 4 28 2, .veor 19 31 19, .eor 10 20 1 50, .vbic 31 22 1, .bic 20 11 27 60, .eor 20 20 4 21,
    .veor 20 31 0, .bic 4 28 1 48, .vbic 31 23 22, .bic 1 1 11 57, .veor 21 31 1, .ldr_w 28 9 25, .ldr 9 31 208, .vbic 31 24 23, .add_i 25 25 1,
    .veor 22 31 22, .str 25 31 24, .cmp_i 25 23, .vbic 31 0 24, .eor 25 1 27 53, .veor 23 31 23, .bic 27 30 26 47, .vbic 31 1 0, .eor 1 5 28 0,
    .eor 5 4 11 41, .veor 24 31 24, .eor 11 19 13 35, .vbic 31 2 27, .bic 13 26 24 10, .eor 28 27 24 57, .veor 0 31 30, .bic 27 24 9 47,
    .vbic 31 3 2, .bic 19 23 3 9, .veor 1 31 27, .bic 4 29 14 41, .eor 24 19 29 44, .vbic 31 4 3, .bic 29 3 29 35, .veor 2 31 2, .eor 13 13 9 57,
    .vbic 31 30 4, .eor 19 29 14 12, .bic 29 9 0 19, .veor 3 31 3, .bic 14 14 8 5, .vbic 31 27 30, .eor 9 14 23 43, .eor 14 4 8 46, .veor 4 31 4,
    .bic 23 8 23 38, .eor 8 27 0 2, .eor 4 23 3 47, .bic 3 0 30 5, .eor 23 3 26 52, .eor 3 29 30 24, .ldr 30 31 16, .ld1r 28 30 8, .str 30 31 16,
    .veor 0 0 28],
   .next⟩,
  -- block 3
  ⟨[
],
   .ble 2⟩,
  -- block 4: lines 867-1710
  ⟨[
    .ror 2 2 61, .ror 3 3 39, .ror 4 4 54, .ror 5 5 25, .ror 6 6 43, .ror 7 7 19, .ror 8 8 56, .ror 9 9 49, .ror 10 10 23, .ror 11 11 50,
    .ror 12 12 3, .ror 13 13 46, .ror 14 14 8, .ror 15 15 62, .ror 17 17 36, .ror 28 28 63, .ror 19 19 37, .ror 20 20 2, .ror 21 21 20,
    .ror 22 22 44, .ror 23 23 58, .ror 24 24 28, .ror 25 25 9, .ldr 30 31 32, .cmp_i 30 1],
   .beq 6⟩,
  -- block 5: lines 295-1717
  ⟨[
    .mov_i 30 1, .str 30 31 32, .ldr 0 31 0, .add_i 0 0 400, .stp 1 6 0 0, .stp 11 16 0 16, .stp 21 2 0 32, .stp 7 12 0 48, .stp 17 22 0 64,
    .stp 3 8 0 80, .stp 13 28 0 96, .stp 23 4 0 112, .stp 9 14 0 128, .stp 19 24 0 144, .stp 5 10 0 160, .stp 15 20 0 176, .str 25 0 192,
    .sub_i 0 0 400, .add_i 0 0 600, .ldp 1 6 0 0, .ldp 11 16 0 16, .ldp 21 2 0 32, .ldp 7 12 0 48, .ldp 17 22 0 64, .ldp 3 8 0 80, .ldp 13 28 0 96,
    .ldp 23 4 0 112, .ldp 9 14 0 128, .ldp 19 24 0 144, .ldp 5 10 0 160, .ldp 15 20 0 176, .ldr 25 0 192, .sub_i 0 0 600],
   .b 1⟩,
  -- block 6: lines 263-1724
  ⟨[
    .ldr 0 31 0, .add_i 0 0 600, .stp 1 6 0 0, .stp 11 16 0 16, .stp 21 2 0 32, .stp 7 12 0 48, .stp 17 22 0 64, .stp 3 8 0 80, .stp 13 28 0 96,
    .stp 23 4 0 112, .stp 9 14 0 128, .stp 19 24 0 144, .stp 5 10 0 160, .stp 15 20 0 176, .str 25 0 192, .sub_i 0 0 600, .st2 0 1 0 0 16,
    .st2 2 3 0 0 16, .st2 4 5 0 0 16, .st2 6 7 0 0 16, .st2 8 9 0 0 16, .st2 10 11 0 0 16, .st2 12 13 0 0 16, .st2 14 15 0 0 16, .st2 16 17 0 0 16,
    .st2 18 19 0 0 16, .st2 20 21 0 0 16, .st2 22 23 0 0 16, .st1 24 0 0 8, .st2 0 1 1 0 16, .st2 2 3 1 0 16, .st2 4 5 1 0 16, .st2 6 7 1 0 16,
    .st2 8 9 1 0 16, .st2 10 11 1 0 16, .st2 12 13 1 0 16, .st2 14 15 1 0 16, .st2 16 17 1 0 16, .st2 18 19 1 0 16, .st2 20 21 1 0 16,
    .st2 22 23 1 0 16, .st1 24 1 0 8, .sub_i 0 0 400, .ldp_d 14 15 31 192, .ldp_d 12 13 31 176, .ldp_d 10 11 31 160, .ldp_d 8 9 31 144,
    .ldp 19 20 31 48, .ldp 21 22 31 64, .ldp 23 24 31 80, .ldp 25 26 31 96, .ldp 27 28 31 112, .ldp 29 30 31 128, .add_i 31 31 224],
   .ret⟩]

/-- The size of the stack frame in bytes (`STACK_SIZE`), keccak_f1600_x4_v8a_v84a_scalar_hybrid_asm_opt.S.  Line 349. -/
def keccak_f1600_x4_scalar_v8a_v84a_hybrid_asm_opt_frame : Nat := 224
/-- `keccak_f1600_x4_scalar_v8a_v84a_hybrid_asm_opt`, keccak_f1600_x4_v8a_v84a_scalar_hybrid_asm_opt.S 914-1654, with the macros expanded; 844 instructions. -/
def keccak_f1600_x4_scalar_v8a_v84a_hybrid_asm_opt : List Block := [
  -- block 0: lines 248-926
  ⟨[
    .sub_i 31 31 224, .stp 19 20 31 48, .stp 21 22 31 64, .stp 23 24 31 80, .stp 25 26 31 96, .stp 27 28 31 112, .stp 29 30 31 128,
    .stp_d 8 9 31 144, .stp_d 10 11 31 160, .stp_d 12 13 31 176, .stp_d 14 15 31 192, .adr 29, .mov_i 30 0, .str 30 31 32, .str 29 31 8,
    .str 29 31 16, .str 0 31 0, .ld2 0 1 0 0 16, .ld2 2 3 0 0 16, .ld2 4 5 0 0 16, .ld2 6 7 0 0 16, .ld2 8 9 0 0 16, .ld2 10 11 0 0 16,
    .ld2 12 13 0 0 16, .ld2 14 15 0 0 16, .ld2 16 17 0 0 16, .ld2 18 19 0 0 16, .ld2 20 21 0 0 16, .ld2 22 23 0 0 16, .ld1 24 0 0 8, .ld2 0 1 1 0 16,
    .ld2 2 3 1 0 16, .ld2 4 5 1 0 16, .ld2 6 7 1 0 16, .ld2 8 9 1 0 16, .ld2 10 11 1 0 16, .ld2 12 13 1 0 16, .ld2 14 15 1 0 16, .ld2 16 17 1 0 16,
    .ld2 18 19 1 0 16, .ld2 20 21 1 0 16, .ld2 22 23 1 0 16, .ld1 24 1 0 8, .sub_i 0 0 400, .add_i 0 0 400, .ldp 1 6 0 0, .ldp 11 16 0 16,
    .ldp 21 2 0 32, .ldp 7 12 0 48, .ldp 17 22 0 64, .ldp 3 8 0 80, .ldp 13 28 0 96, .ldp 23 4 0 112, .ldp 9 14 0 128, .ldp 19 24 0 144,
    .ldp 5 10 0 160, .ldp 15 20 0 176, .ldr 25 0 192, .sub_i 0 0 400],
   .next⟩,
  -- block 1: lines 210-785
  ⟨[
    .eor 30 24 25 0, .eor 27 9 10 0, .eor 0 30 21 0, .eor 26 27 6 0, .eor 27 26 7 0, .eor 29 0 22 0, .eor 26 29 23 0, .eor 29 4 5 0, .eor 30 29 1 0,
    .eor 0 27 8 0, .eor 29 30 2 0, .eor 30 19 20 0, .eor 30 30 16 0, .eor 27 26 0 63, .eor 4 4 27 0, .eor 30 30 17 0, .eor 30 30 28 0,
    .eor 29 29 3 0, .eor 0 0 30 63, .eor 30 30 29 63, .eor 22 22 30 0, .eor 23 23 30 0, .str 23 31 208, .eor 23 14 15 0, .eor 14 14 0 0,
    .eor 23 23 11 0, .eor 15 15 0 0, .eor 1 1 27 0, .eor 23 23 12 0, .eor 23 23 13 0, .eor 11 11 0 0, .eor 29 29 23 63, .eor 23 23 26 63,
    .eor 26 13 0 0, .eor 13 28 23 0, .eor 28 24 30 0, .eor 24 16 23 0, .eor 16 21 30 0, .eor 21 25 30 0, .eor 30 19 23 0, .eor 19 20 23 0,
    .eor 20 17 23 0, .eor 17 12 0 0, .eor 0 2 27 0, .eor 2 6 29 0, .eor 6 8 29 0, .bic 8 28 13 47, .eor 12 3 27 0, .bic 3 13 17 19, .eor 5 5 27 0,
    .ldr 27 31 208, .bic 25 17 2 5, .eor 9 9 29 0, .eor 23 25 5 52, .eor 3 3 2 24, .eor 8 8 17 2, .eor 17 10 29 0, .bic 25 12 22 47, .eor 29 7 29 0,
    .bic 10 4 27 2, .bic 7 5 28 10, .eor 10 10 20 50, .eor 13 7 13 57, .bic 7 2 5 47, .eor 2 25 24 39, .bic 25 20 11 57, .bic 5 17 4 25,
    .eor 25 25 17 53, .bic 17 11 17 60, .eor 28 7 28 57, .bic 7 9 12 42, .eor 7 7 22 25, .bic 22 22 24 56, .bic 24 24 15 31, .eor 22 22 15 23,
    .bic 20 27 20 48, .bic 15 15 9 16, .eor 12 15 12 58, .eor 15 5 27 27, .eor 5 20 11 41, .ldr 11 31 8, .eor 20 17 4 21, .eor 17 24 9 47,
    .mov_i 24 1, .bic 9 0 16 9, .str 24 31 24, .bic 24 29 1 44, .bic 27 1 21 50, .bic 4 26 29 63, .eor 1 1 4 21, .ldr 11 11 0, .bic 4 21 30 57,
    .eor 21 24 21 30, .eor 24 9 19 44, .bic 9 14 6 5, .eor 9 9 0 43, .bic 0 6 0 38, .eor 1 1 11 0, .eor 11 4 26 35, .eor 4 0 16 47, .bic 0 16 19 35,
    .eor 16 27 30 43, .bic 27 30 26 42, .bic 26 19 14 41, .eor 19 0 14 12, .eor 14 26 6 46, .eor 6 27 29 41, .eor 0 15 11 52, .eor 0 0 13 48,
    .eor 26 8 9 57, .eor 27 0 14 10, .eor 29 16 28 63, .eor 26 26 6 51, .eor 30 23 22 50, .eor 0 26 10 31, .eor 29 29 19 37, .eor 27 27 12 5,
    .eor 30 30 24 34, .eor 0 0 7 27, .eor 26 30 21 26, .eor 26 26 25 15, .ror 30 27 62, .eor 30 30 26 57, .ror 26 26 58, .eor 16 30 16 0,
    .eor 28 30 28 63, .str 28 31 208, .eor 29 29 17 36, .eor 28 1 2 61, .eor 19 30 19 37, .eor 29 29 20 2, .eor 28 28 4 54, .eor 26 26 0 55,
    .eor 28 28 3 39, .eor 28 28 5 25, .ror 0 0 56, .eor 0 0 29 63, .eor 27 28 27 61, .eor 13 0 13 46, .eor 28 29 28 63, .eor 29 30 20 2,
    .eor 20 26 3 39, .eor 11 0 11 50, .eor 25 28 25 9, .eor 3 28 21 20, .eor 21 26 1 0, .eor 9 27 9 49, .eor 24 28 24 28, .eor 1 30 17 36,
    .eor 14 0 14 8, .eor 22 28 22 44, .eor 8 27 8 56, .eor 17 27 7 19, .eor 15 0 15 62, .bic 7 20 22 47, .eor 4 26 4 54, .eor 0 0 12 3,
    .eor 28 28 23 58, .eor 23 26 2 61, .eor 26 26 5 25, .eor 2 7 16 39, .bic 7 9 20 42, .bic 30 15 9 16, .eor 7 7 22 25, .eor 12 30 20 58,
    .bic 20 22 16 56, .eor 30 27 6 43, .eor 22 20 15 23, .bic 6 19 13 42, .eor 6 6 17 41, .bic 5 13 17 63, .eor 5 21 5 21, .bic 17 17 21 44,
    .eor 27 27 10 23, .bic 21 21 25 50, .bic 20 27 4 25, .bic 10 16 15 31, .eor 16 21 19 43, .eor 21 17 25 30, .bic 19 25 19 57, .ldr 25 31 24,
    .eor 17 10 9 47, .ldr 9 31 8, .eor 15 20 28 27, .bic 20 4 28 2, .eor 10 20 1 50, .bic 20 11 27 60, .eor 20 20 4 21, .bic 4 28 1 48,
    .bic 1 1 11 57, .ldr_w 28 9 25, .ldr 9 31 208, .add_i 25 25 1, .str 25 31 24, .cmp_i 25 23, .eor 25 1 27 53, .bic 27 30 26 47, .eor 1 5 28 0,
    .eor 5 4 11 41, .eor 11 19 13 35, .bic 13 26 24 10, .eor 28 27 24 57, .bic 27 24 9 47, .bic 19 23 3 9, .bic 4 29 14 41, .eor 24 19 29 44,
    .bic 29 3 29 35, .eor 13 13 9 57, .eor 19 29 14 12, .bic 29 9 0 19, .bic 14 14 8 5, .eor 9 14 23 43, .eor 14 4 8 46, .bic 23 8 23 38,
    .eor 8 27 0 2, .eor 4 23 3 47, .bic 3 0 30 5, .eor 23 3 26 52, .eor 3 29 30 24, .eor3 30 0 5 10, .veor 30 30 15, .veor 30 30 20, .eor3 29 1 6 11,
    .veor 29 29 16, .veor 29 29 21, .eor3 28 2 7 12, .veor 28 28 17, .veor 28 28 22, .eor3 27 3 8 13, .veor 27 27 18, .veor 27 27 23,
    .eor3 26 4 9 14, .veor 26 26 19, .veor 26 26 24, .rax1 25 30 28, .vadd 31 26 26, .sri 31 26 63, .veor 28 31 28, .rax1 26 26 29, .vadd 31 27 27,
    .sri 31 27 63, .veor 29 31 29, .rax1 27 27 30, .veor 30 0 26, .veor 31 2 29, .shl 0 31 62, .sri 0 31 2, .xar 2 12 29 21, .veor 31 13 28,
    .shl 12 31 25, .sri 12 31 39, .xar 13 19 27 56, .veor 31 23 28, .shl 19 31 56, .sri 19 31 8, .xar 23 15 26 23, .veor 31 1 25, .shl 15 31 1,
    .sri 15 31 63, .xar 1 8 28 9, .veor 31 16 25, .shl 8 31 45, .sri 8 31 19, .xar 16 7 29 58, .veor 31 10 26, .shl 7 31 3, .sri 7 31 61,
    .xar 10 3 28 36, .veor 31 18 28, .shl 3 31 21, .sri 3 31 43, .xar 18 17 29 49, .veor 31 11 25, .shl 17 31 10, .sri 17 31 54, .xar 11 9 27 44,
    .veor 31 22 29, .shl 9 31 61, .sri 9 31 3, .xar 22 14 27 25, .veor 31 20 26, .shl 14 31 18, .sri 14 31 46, .xar 20 4 27 37, .veor 31 24 27,
    .shl 4 31 14, .sri 4 31 50, .xar 24 21 25 62, .veor 31 5 26, .shl 21 31 36, .sri 21 31 28, .xar 27 6 25 20, .ldr 30 31 16, .ld1r 28 30 8,
    .str 30 31 16, .vbic 31 7 11, .veor 5 31 10, .bcax 6 11 8 7, .vbic 31 9 8, .veor 7 31 7, .bcax 8 8 10 9, .vbic 31 11 10, .veor 9 31 9,
    .bcax 10 15 12 16, .vbic 31 13 12, .veor 11 31 16, .bcax 12 12 14 13, .vbic 31 15 14, .veor 13 31 13, .vbic 31 16 15, .veor 14 31 14,
    .bcax 15 20 17 21, .vbic 31 18 17, .veor 16 31 21, .bcax 17 17 19 18, .vbic 31 20 19, .veor 18 31 18, .bcax 19 19 21 20, .vbic 31 22 1,
    .veor 20 31 0, .bcax 21 1 23 22, .vbic 31 24 23, .veor 22 31 22, .bcax 23 23 0 24, .vbic 31 1 0, .veor 24 31 24, .bcax 0 30 2 27, .vbic 31 3 2,
    .veor 1 31 27, .bcax 2 2 4 3, .vbic 31 30 4, .veor 3 31 3, .bcax 4 4 27 30, .veor 0 0 28],
   .next⟩,
  -- block 2: lines 943-1281
  ⟨[
    .eor 0 15 11 52, .eor 0 0 13 48, .eor3 30 0 5 10, .veor 30 30 15, .eor 26 8 9 57, .eor 27 0 14 10, .veor 30 30 20, .eor 29 16 28 63,
    .eor 26 26 6 51, .eor3 29 1 6 11, .eor 30 23 22 50, .eor 0 26 10 31, .veor 29 29 16, .eor 29 29 19 37, .eor 27 27 12 5, .veor 29 29 21,
    .eor 30 30 24 34, .eor 0 0 7 27, .eor3 28 2 7 12, .eor 26 30 21 26, .eor 26 26 25 15, .veor 28 28 17, .ror 30 27 62, .eor 30 30 26 57,
    .veor 28 28 22, .ror 26 26 58, .eor 16 30 16 0, .eor3 27 3 8 13, .eor 28 30 28 63, .str 28 31 208, .veor 27 27 18, .eor 29 29 17 36,
    .eor 28 1 2 61, .veor 27 27 23, .eor 19 30 19 37, .eor 29 29 20 2, .eor3 26 4 9 14, .eor 28 28 4 54, .eor 26 26 0 55, .veor 26 26 19,
    .eor 28 28 3 39, .eor 28 28 5 25, .veor 26 26 24, .ror 0 0 56, .eor 0 0 29 63, .rax1 25 30 28, .eor 27 28 27 61, .eor 13 0 13 46, .vadd 31 26 26,
    .eor 28 29 28 63, .eor 29 30 20 2, .sri 31 26 63, .eor 20 26 3 39, .eor 11 0 11 50, .veor 28 31 28, .eor 25 28 25 9, .eor 3 28 21 20,
    .rax1 26 26 29, .eor 21 26 1 0, .vadd 31 27 27, .eor 9 27 9 49, .eor 24 28 24 28, .sri 31 27 63, .eor 1 30 17 36, .eor 14 0 14 8, .veor 29 31 29,
    .eor 22 28 22 44, .eor 8 27 8 56, .rax1 27 27 30, .eor 17 27 7 19, .eor 15 0 15 62, .veor 30 0 26, .bic 7 20 22 47, .eor 4 26 4 54,
    .veor 31 2 29, .eor 0 0 12 3, .eor 28 28 23 58, .shl 0 31 62, .eor 23 26 2 61, .eor 26 26 5 25, .sri 0 31 2, .eor 2 7 16 39, .bic 7 9 20 42,
    .xar 2 12 29 21, .bic 30 15 9 16, .eor 7 7 22 25, .veor 31 13 28, .eor 12 30 20 58, .bic 20 22 16 56, .shl 12 31 25, .eor 30 27 6 43,
    .eor 22 20 15 23, .sri 12 31 39, .bic 6 19 13 42, .eor 6 6 17 41, .xar 13 19 27 56, .bic 5 13 17 63, .eor 5 21 5 21, .veor 31 23 28,
    .bic 17 17 21 44, .eor 27 27 10 23, .shl 19 31 56, .bic 21 21 25 50, .bic 20 27 4 25, .sri 19 31 8, .bic 10 16 15 31, .eor 16 21 19 43,
    .xar 23 15 26 23, .eor 21 17 25 30, .bic 19 25 19 57, .veor 31 1 25, .ldr 25 31 24, .eor 17 10 9 47, .shl 15 31 1, .ldr 9 31 8, .sri 15 31 63,
    .eor 15 20 28 27, .bic 20 4 28 2, .xar 1 8 28 9, .eor 10 20 1 50, .bic 20 11 27 60, .veor 31 16 25, .eor 20 20 4 21, .bic 4 28 1 48,
    .shl 8 31 45, .bic 1 1 11 57, .ldr_w 28 9 25, .sri 8 31 19, .ldr 9 31 208, .add_i 25 25 1, .xar 16 7 29 58, .str 25 31 24, .cmp_i 25 23,
    .veor 31 10 26, .eor 25 1 27 53, .bic 27 30 26 47, .shl 7 31 3, .eor 1 5 28 0, .eor 5 4 11 41, .sri 7 31 61, .eor 11 19 13 35, .bic 13 26 24 10,
    .xar 10 3 28 36, .eor 28 27 24 57, .bic 27 24 9 47, .veor 31 18 28, .bic 19 23 3 9, .bic 4 29 14 41, .shl 3 31 21, .eor 24 19 29 44,
    .bic 29 3 29 35, .sri 3 31 43, .eor 13 13 9 57, .eor 19 29 14 12, .xar 18 17 29 49, .bic 29 9 0 19, .bic 14 14 8 5, .veor 31 11 25,
    .eor 9 14 23 43, .eor 14 4 8 46, .shl 17 31 10, .bic 23 8 23 38, .eor 8 27 0 2, .sri 17 31 54, .eor 4 23 3 47, .bic 3 0 30 5, .xar 11 9 27 44,
    .eor 23 3 26 52, .eor 3 29 30 24, .veor 31 22 29, .eor 0 15 11 52, .shl 9 31 61, .eor 0 0 13 48, .eor 26 8 9 57, .sri 9 31 3, .eor 27 0 14 10,
    .eor 29 16 28 63, .xar 22 14 27 25, .eor 26 26 6 51, .eor 30 23 22 50, .veor 31 20 26, .eor 0 26 10 31, .eor 29 29 19 37, .shl 14 31 18,
    .eor 27 27 12 5, .eor 30 30 24 34, .sri 14 31 46, .eor 0 0 7 27, .eor 26 30 21 26, .xar 20 4 27 37, .eor 26 26 25 15, .ror 30 27 62,
    .veor 31 24 27, .eor 30 30 26 57, .ror 26 26 58, .shl 4 31 14, .eor 16 30 16 0, .eor 28 30 28 63, .sri 4 31 50, .str 28 31 208, .eor 29 29 17 36,
    .xar 24 21 25 62, .eor 28 1 2 61, .eor 19 30 19 37, .veor 31 5 26, .eor 29 29 20 2, .eor 28 28 4 54, .shl 21 31 36, .eor 26 26 0 55,
    .eor 28 28 3 39, .sri 21 31 28, .eor 28 28 5 25, .ror 0 0 56, .xar 27 6 25 20, .eor 0 0 29 63, .eor 27 28 27 61, .vbic 31 7 11, .eor 13 0 13 46,
    .eor 28 29 28 63, .veor 5 31 10, .eor 29 30 20 2, .eor 20 26 3 39, .bcax 6 11 8 7, .eor 11 0 11 50, .eor 25 28 25 9, .vbic 31 9 8,
    .eor 3 28 21 20, .veor 7 31 7, .eor 21 26 1 0, .eor 9 27 9 49, .bcax 8 8 10 9, .eor 24 28 24 28, .eor 1 30 17 36, .vbic 31 11 10, .eor 14 0 14 8,
    .eor 22 28 22 44, .veor 9 31 9, .eor 8 27 8 56, .eor 17 27 7 19, .bcax 10 15 12 16, .eor 15 0 15 62, .bic 7 20 22 47, .vbic 31 13 12,
    .eor 4 26 4 54, .eor 0 0 12 3, .veor 11 31 16, .eor 28 28 23 58, .eor 23 26 2 61, .bcax 12 12 14 13, .eor 26 26 5 25, .eor 2 7 16 39,
    .vbic 31 15 14, .bic 7 9 20 42, .bic 30 15 9 16, .veor 13 31 13, .eor 7 7 22 25, .eor 12 30 20 58, .vbic 31 16 15, .bic 20 22 16 56,
    .eor 30 27 6 43, .veor 14 31 14, .eor 22 20 15 23, .bic 6 19 13 42, .bcax 15 20 17 21, .eor 6 6 17 41, .bic 5 13 17 63, .vbic 31 18 17,
    .eor 5 21 5 21, .bic 17 17 21 44, .veor 16 31 21, .eor 27 27 10 23, .bic 21 21 25 50, .bcax 17 17 19 18, .bic 20 27 4 25, .bic 10 16 15 31,
    .vbic 31 20 19, .eor 16 21 19 43, .eor 21 17 25 30, .veor 18 31 18, .bic 19 25 19 57, .ldr 25 31 24, .bcax 19 19 21 20, .eor 17 10 9 47,
    .vbic 31 22 1, .ldr 9 31 8, .eor 15 20 28 27, .veor 20 31 0, .bic 20 4 28 2, .eor 10 20 1 50, .bcax 21 1 23 22, .bic 20 11 27 60,
    .eor 20 20 4 21, .vbic 31 24 23, .bic 4 28 1 48, .bic 1 1 11 57, .veor 22 31 22, .ldr_w 28 9 25, .ldr 9 31 208, .bcax 23 23 0 24, .add_i 25 25 1,
    .str 25 31 24, .vbic 31 1 0, .cmp_i 25 23, .eor 25 1 27 53, .veor 24 31 24, .bic 27 30 26 47, .eor 1 5 28 0, .bcax 0 30 2 27, .eor 5 4 11 41,
    .eor 11 19 13 35, .vbic 31 3 2, .bic 13 26 24 10, .eor 28 27 24 57, .veor 1 31 27, .bic 27 24 9 47, .bic 19 23 3 9, .bcax 2 2 4 3,
    .bic 4 29 14 41, .eor 24 19 29 44, .vbic 31 30 4, .bic 29 3 29 35, .eor 13 13 9 57, .veor 3 31 3, .eor 19 29 14 12, .bic 29 9 0 19,
    .bcax 4 4 27 30, .bic 14 14 8 5, .eor 9 14 23 43, .eor 14 4 8 46, .bic 23 8 23 38, .eor 8 27 0 2, .eor 4 23 3 47, .bic 3 0 30 5, .eor 23 3 26 52,
    .eor 3 29 30 24, .ldr 30 31 16, .ld1r 28 30 8, .str 30 31 16, .veor 0 0 28],
   .next⟩,
  -- block 3
  ⟨[
],
   .ble 2⟩,
  -- block 4: lines 884-1633
  ⟨[
    .ror 2 2 61, .ror 3 3 39, .ror 4 4 54, .ror 5 5 25, .ror 6 6 43, .ror 7 7 19, .ror 8 8 56, .ror 9 9 49, .ror 10 10 23, .ror 11 11 50,
    .ror 12 12 3, .ror 13 13 46, .ror 14 14 8, .ror 15 15 62, .ror 17 17 36, .ror 28 28 63, .ror 19 19 37, .ror 20 20 2, .ror 21 21 20,
    .ror 22 22 44, .ror 23 23 58, .ror 24 24 28, .ror 25 25 9, .ldr 30 31 32, .cmp_i 30 1],
   .beq 6⟩,
  -- block 5: lines 312-1640
  ⟨[
    .mov_i 30 1, .str 30 31 32, .ldr 0 31 0, .add_i 0 0 400, .stp 1 6 0 0, .stp 11 16 0 16, .stp 21 2 0 32, .stp 7 12 0 48, .stp 17 22 0 64,
    .stp 3 8 0 80, .stp 13 28 0 96, .stp 23 4 0 112, .stp 9 14 0 128, .stp 19 24 0 144, .stp 5 10 0 160, .stp 15 20 0 176, .str 25 0 192,
    .sub_i 0 0 400, .add_i 0 0 600, .ldp 1 6 0 0, .ldp 11 16 0 16, .ldp 21 2 0 32, .ldp 7 12 0 48, .ldp 17 22 0 64, .ldp 3 8 0 80, .ldp 13 28 0 96,
    .ldp 23 4 0 112, .ldp 9 14 0 128, .ldp 19 24 0 144, .ldp 5 10 0 160, .ldp 15 20 0 176, .ldr 25 0 192, .sub_i 0 0 600],
   .b 1⟩,
  -- block 6: lines 280-1647
  ⟨[
    .ldr 0 31 0, .add_i 0 0 600, .stp 1 6 0 0, .stp 11 16 0 16, .stp 21 2 0 32, .stp 7 12 0 48, .stp 17 22 0 64, .stp 3 8 0 80, .stp 13 28 0 96,
    .stp 23 4 0 112, .stp 9 14 0 128, .stp 19 24 0 144, .stp 5 10 0 160, .stp 15 20 0 176, .str 25 0 192, .sub_i 0 0 600, .st2 0 1 0 0 16,
    .st2 2 3 0 0 16, .st2 4 5 0 0 16, .st2 6 7 0 0 16, .st2 8 9 0 0 16, .st2 10 11 0 0 16, .st2 12 13 0 0 16, .st2 14 15 0 0 16, .st2 16 17 0 0 16,
    .st2 18 19 0 0 16, .st2 20 21 0 0 16, .st2 22 23 0 0 16, .st1 24 0 0 8, .st2 0 1 1 0 16, .st2 2 3 1 0 16, .st2 4 5 1 0 16, .st2 6 7 1 0 16,
    .st2 8 9 1 0 16, .st2 10 11 1 0 16, .st2 12 13 1 0 16, .st2 14 15 1 0 16, .st2 16 17 1 0 16, .st2 18 19 1 0 16, .st2 20 21 1 0 16,
    .st2 22 23 1 0 16, .st1 24 1 0 8, .sub_i 0 0 400, .ldp_d 14 15 31 192, .ldp_d 12 13 31 176, .ldp_d 10 11 31 160, .ldp_d 8 9 31 144,
    .ldp 19 20 31 48, .ldp 21 22 31 64, .ldp 23 24 31 80, .ldp 25 26 31 96, .ldp 27 28 31 112, .ldp 29 30 31 128, .add_i 31 31 224],
   .ret⟩]

end Verif.Model.A64K

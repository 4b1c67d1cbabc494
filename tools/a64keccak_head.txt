import Verif.Model.Keccak
/-! # The AArch64 assembly of Keccak-f[1600] (`/repo/fips202/native/aarch64/*.S`)

Generated by `/verif/tools/gen_a64keccak.py` (this head is hand-written: `/verif/tools/a64keccak_head.txt`).

The instruction set is modelled by the meaning given in the Arm Architecture Reference Manual.  A general-purpose register holds a 64-bit number or a pointer (an object and a byte
offset); register 31 is `sp`.  A vector register is a function from the positions 0 and 1 (0 the least significant) to 64-bit elements: every instruction of these functions works on
64-bit elements or bit by bit.  Memory consists of three objects: the Keccak states (the argument), the table of round constants (read-only), and the stack frame, whose 8-byte cells hold
what a general-purpose register can hold.  An access outside its object or not aligned to its 8-byte cells, a read of an uninitialised cell, and arithmetic on a pointer other than adding
a constant, are errors.  Operands are in the order of the assembly: destination first.

Simplifications: `ASM_LOAD` (common.i) is one instruction `adr`.  The flags are modelled by the two operands of the last `cmp`. -/
namespace Verif.Model.A64K

@RC@

/-- The objects: the argument, the table of round constants, the stack frame.  Machine model: no line of /repo corresponds to it; the code it runs is that of the .S files cited at the programs below. -/
inductive Obj where
  | st | rc | stk
deriving DecidableEq, Repr

/-- The contents of a general-purpose register.  Machine model: no line of /repo corresponds to it; the code it runs is that of the .S files cited at the programs below. -/
inductive Reg where
  | num (w : W)
  | ptr (o : Obj) (off : Int)
deriving DecidableEq, Repr

/-- A vector register as two 64-bit elements.  Machine model: no line of /repo corresponds to it; the code it runs is that of the .S files cited at the programs below. -/
abbrev V := Nat → W

/-- The machine state; `f` are the operands of the last `cmp`.  Machine model: no line of /repo corresponds to it; the code it runs is that of the .S files cited at the programs below. -/
structure St where
  x : Nat → Reg
  v : Nat → V
  f : Option (W × W)
  st : Buf W
  stk : Buf Reg

/-- The instructions used; `n` is the base register, offsets and increments count bytes, `e` is the number of an element.  Machine model: no line of /repo corresponds to it; the code it runs is that of the .S files cited at the programs below. -/
inductive Ins where
  | adr (d : Nat)
  | mov_i (d i : Nat)
  | add_i (d a i : Nat)
  | sub_i (d a i : Nat)
  | cmp_i (a i : Nat)
  | ldr (d n off : Nat)
  | str (r n off : Nat)
  | ldr_w (d n m : Nat)
  | ldp (d0 d1 n off : Nat)
  | stp (r0 r1 n off : Nat)
  | ldp_d (d0 d1 n off : Nat)
  | stp_d (r0 r1 n off : Nat)
  | ror (d a r : Nat)
  | eor (d a b r : Nat)
  | bic (d a b r : Nat)
  | ld1 (d e n inc : Nat)
  | ld2 (d0 d1 e n inc : Nat)
  | st1 (r e n inc : Nat)
  | st2 (r0 r1 e n inc : Nat)
  | ld1r (d n inc : Nat)
  | veor (d a b : Nat)
  | vbic (d a b : Nat)
  | vadd (d a b : Nat)
  | shl (d a i : Nat)
  | sri (d a i : Nat)
  | eor3 (d a b c : Nat)
  | rax1 (d a b : Nat)
  | xar (d a b i : Nat)
  | bcax (d a b c : Nat)
deriving DecidableEq, Repr

/-- How a block ends.  Machine model: no line of /repo corresponds to it; the code it runs is that of the .S files cited at the programs below. -/
inductive End where
  /-- fall through to the next block -/
  | next
  /-- `b`: to block `t` -/
  | b (t : Nat)
  /-- `cbnz`: to block `t` if register `r` is not zero, otherwise to the next block -/
  | cbnz (r t : Nat)
  /-- `ble`: to block `t` if the operands of the last `cmp` are in signed order, otherwise to the next block -/
  | ble (t : Nat)
  /-- `beq`: to block `t` if the operands of the last `cmp` are equal, otherwise to the next block -/
  | beq (t : Nat)
  /-- `ret` -/
  | ret
deriving DecidableEq, Repr

/-- A block of straight-line code.  Machine model: no line of /repo corresponds to it; the code it runs is that of the .S files cited at the programs below. -/
structure Block where
  ins : List Ins
  fin : End
deriving DecidableEq, Repr

/-- Write a vector register.  Machine model: no line of /repo corresponds to it; the code it runs is that of the .S files cited at the programs below. -/
def St.put (s : St) (d : Nat) (f : V) : St := { s with v := fun r => if r = d then f else s.v r }
/-- Write a general-purpose register.  Machine model: no line of /repo corresponds to it; the code it runs is that of the .S files cited at the programs below. -/
def St.putx (s : St) (d : Nat) (a : Reg) : St := { s with x := fun r => if r = d then a else s.x r }

/-- Add to a register.  Machine model: no line of /repo corresponds to it; the code it runs is that of the .S files cited at the programs below. -/
def Reg.plus (a : Reg) (i : Int) : Reg :=
  match a with
  | .num x => .num (x + BitVec.ofInt 64 i)
  | .ptr o off => .ptr o (off + i)
/-- The number in a register.  Machine model: no line of /repo corresponds to it; the code it runs is that of the .S files cited at the programs below. -/
def Reg.word (a : Reg) : M W :=
  match a with
  | .num w => pure w
  | .ptr _ _ => M.fail .oob
/-- The object and the cell at `off` bytes from the address in a register.  Machine model: no line of /repo corresponds to it; the code it runs is that of the .S files cited at the programs below. -/
def Reg.addr (a : Reg) (off : Int) : M (Obj × Nat) :=
  match a with
  | .num _ => M.fail .oob
  | .ptr o p => if 0 ≤ p + off ∧ (p + off) % 8 = 0 then pure (o, ((p + off) / 8).toNat) else M.fail .oob

/-- Load a cell.  Machine model: no line of /repo corresponds to it; the code it runs is that of the .S files cited at the programs below. -/
def St.ld (s : St) (a : Reg) (off : Int) : M Reg := do
  let (o, i) ← a.addr off
  match o with
  | .st => do let w ← rd s.st i; pure (.num w)
  | .rc => do let w ← rd (Buf.ofList round_constants) i; pure (.num w)
  | .stk => rd s.stk i
/-- Load a number.  Machine model: no line of /repo corresponds to it; the code it runs is that of the .S files cited at the programs below. -/
def St.ldw (s : St) (a : Reg) (off : Int) : M W := do
  let r ← s.ld a off
  r.word
/-- Store a cell; the round constants are not written, and no pointer is stored in a Keccak state.  Machine model: no line of /repo corresponds to it; the code it runs is that of the .S files cited at the programs below. -/
def St.sto (s : St) (a : Reg) (off : Int) (v : Reg) : M St := do
  let (o, i) ← a.addr off
  match o with
  | .st => do let w ← v.word; let b ← wr s.st i w; pure { s with st := b }
  | .rc => M.fail .oob
  | .stk => do let b ← wr s.stk i v; pure { s with stk := b }
/-- Post-index: add to the base register.  Machine model: no line of /repo corresponds to it; the code it runs is that of the .S files cited at the programs below. -/
def St.bump (s : St) (n inc : Nat) : St := s.putx n ((s.x n).plus inc)
/-- Replace one element of a vector register.  Machine model: no line of /repo corresponds to it; the code it runs is that of the .S files cited at the programs below. -/
def St.pute (s : St) (d e : Nat) (w : W) : St := s.put d fun k => if k = e then w else s.v d k

/-- `sri` on one element: the upper `i` bits of `d` stay.  Used in keccak_f1600_x2_v8a_v84a_asm_hybrid.S 191 and elsewhere. -/
def sriW (i : Nat) (d a : W) : W := (d &&& ~~~(BitVec.allOnes 64 >>> i)) ||| (a >>> i)

/-- One instruction.  Machine model: no line of /repo corresponds to it; the code it runs is that of the .S files cited at the programs below. -/
def Ins.step (i : Ins) (s : St) : M St :=
  match i with
  | adr d => pure (s.putx d (.ptr .rc 0))
  | mov_i d i => pure (s.putx d (.num (BitVec.ofNat 64 i)))
  | add_i d a i => pure (s.putx d ((s.x a).plus i))
  | sub_i d a i => pure (s.putx d ((s.x a).plus (-(i : Int))))
  | cmp_i a i => do let w ← (s.x a).word; pure { s with f := some (w, BitVec.ofNat 64 i) }
  | ldr d n off => do let r ← s.ld (s.x n) off; pure (s.putx d r)
  | str r n off => s.sto (s.x n) off (s.x r)
  | ldr_w d n m => do
    let w ← (s.x m).word
    let r ← s.ld (s.x n) (8 * (w.toNat % 4294967296) : Nat)
    pure (s.putx d r)
  | ldp d0 d1 n off => do
    let r0 ← s.ld (s.x n) off
    let r1 ← s.ld (s.x n) (off + 8)
    pure ((s.putx d0 r0).putx d1 r1)
  | stp r0 r1 n off => do
    let s' ← s.sto (s.x n) off (s.x r0)
    s'.sto (s.x n) (off + 8) (s.x r1)
  | ldp_d d0 d1 n off => do
    let w0 ← s.ldw (s.x n) off
    let w1 ← s.ldw (s.x n) (off + 8)
    pure ((s.put d0 fun k => if k = 0 then w0 else 0).put d1 fun k => if k = 0 then w1 else 0)
  | stp_d r0 r1 n off => do
    let s' ← s.sto (s.x n) off (.num (s.v r0 0))
    s'.sto (s.x n) (off + 8) (.num (s.v r1 0))
  | ror d a r => do let x ← (s.x a).word; pure (s.putx d (.num (x.rotateRight r)))
  | eor d a b r => do let x ← (s.x a).word; let y ← (s.x b).word; pure (s.putx d (.num (x ^^^ y.rotateRight r)))
  | bic d a b r => do let x ← (s.x a).word; let y ← (s.x b).word; pure (s.putx d (.num (x &&& ~~~(y.rotateRight r))))
  | ld1 d e n inc => do let w ← s.ldw (s.x n) 0; pure ((s.pute d e w).bump n inc)
  | ld2 d0 d1 e n inc => do
    let w0 ← s.ldw (s.x n) 0
    let w1 ← s.ldw (s.x n) 8
    pure (((s.pute d0 e w0).pute d1 e w1).bump n inc)
  | st1 r e n inc => do let s' ← s.sto (s.x n) 0 (.num (s.v r e)); pure (s'.bump n inc)
  | st2 r0 r1 e n inc => do
    let s' ← s.sto (s.x n) 0 (.num (s.v r0 e))
    let s' ← s'.sto (s.x n) 8 (.num (s.v r1 e))
    pure (s'.bump n inc)
  | ld1r d n inc => do let w ← s.ldw (s.x n) 0; pure ((s.put d fun _ => w).bump n inc)
  | veor d a b => pure (s.put d fun k => s.v a k ^^^ s.v b k)
  | vbic d a b => pure (s.put d fun k => s.v a k &&& ~~~(s.v b k))
  | vadd d a b => pure (s.put d fun k => s.v a k + s.v b k)
  | shl d a i => pure (s.put d fun k => s.v a k <<< i)
  | sri d a i => pure (s.put d fun k => sriW i (s.v d k) (s.v a k))
  | eor3 d a b c => pure (s.put d fun k => s.v a k ^^^ s.v b k ^^^ s.v c k)
  | rax1 d a b => pure (s.put d fun k => s.v a k ^^^ (s.v b k).rotateLeft 1)
  | xar d a b i => pure (s.put d fun k => (s.v a k ^^^ s.v b k).rotateRight i)
  | bcax d a b c => pure (s.put d fun k => s.v a k ^^^ (s.v b k &&& ~~~(s.v c k)))

/-- Straight-line code.  Machine model: no line of /repo corresponds to it; the code it runs is that of the .S files cited at the programs below. -/
def runI : List Ins → St → M St
  | [], s => pure s
  | i :: l, s => do
    let s ← i.step s
    runI l s

/-- A function, from block `pc`; `f` bounds the number of blocks executed (running out is the error `fuel`).  Machine model: no line of /repo corresponds to it; the code it runs is that of the .S files cited at the programs below. -/
def runB (prog : List Block) : Nat → Nat → St → M St
  | 0, _, _ => M.fail .fuel
  | f + 1, pc, s =>
    match prog[pc]? with
    | none => M.fail .oob
    | some b => do
      let s ← runI b.ins s
      match b.fin with
      | .next => runB prog f (pc + 1) s
      | .b t => runB prog f t s
      | .ret => pure s
      | .cbnz r t => do
        let w ← (s.x r).word
        branch (decide (w ≠ 0)) (runB prog f t s) (runB prog f (pc + 1) s)
      | .ble t => match s.f with
        | none => M.fail .uninit
        | some (a, b) => branch (a.sle b) (runB prog f t s) (runB prog f (pc + 1) s)
      | .beq t => match s.f with
        | none => M.fail .uninit
        | some (a, b) => branch (decide (a = b)) (runB prog f t s) (runB prog f (pc + 1) s)

/-- What the registers hold when a function is entered: any values.  Machine model: no line of /repo corresponds to it; the code it runs is that of the .S files cited at the programs below. -/
structure Entry where
  x : Nat → Reg
  v : Nat → V

/-- The machine when a function is entered with the argument `state + so`: `x0` points to it, `sp` to the end of the (uninitialised) frame of `frame` bytes; everything else is
arbitrary.  Machine model: no line of /repo corresponds to it; the code it runs is that of the .S files cited at the programs below. -/
def start (g : Entry) (frame : Nat) (state : Buf W) (so : Nat) : St where
  x := fun r => if r = 0 then .ptr .st (8 * so) else if r = 31 then .ptr .stk frame else g.x r
  v := g.v
  f := none
  st := state
  stk := Buf.uninit Reg (frame / 8)

/-- Run a function; no function executes more than 100 blocks (otherwise the model fails).  Machine model: no line of /repo corresponds to it; the code it runs is that of the .S files cited at the programs below. -/
def run (prog : List Block) (g : Entry) (frame : Nat) (state : Buf W) (so : Nat) : M St := runB prog 100 0 (start g frame state so)

/-- A call as its caller sees it.  Machine model: no line of /repo corresponds to it; the code it runs is that of the .S files cited at the programs below. -/
def call (prog : List Block) (g : Entry) (frame : Nat) (state : Buf W) (so : Nat) : M (Buf W) := do
  let s ← run prog g frame state so
  pure s.st

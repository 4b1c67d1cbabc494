import Verif.Model.X86Asm
/-! # The AVX2 assembly with its general-purpose registers and its stack (`/repo/mlkem/native/x86_64/*.S`)

`Verif.Model.X86Asm` has the vector instructions of these functions, with the addresses worked out by its generator.  Here the functions are programs of a machine with general-purpose registers, `call`, `ret`
and a stack.  The programs between the markers are generated from the source by `/verif/tools/gen_x86gp.py`.

Machine: a register holds a 64-bit number, an address (argument and byte offset), or a value of which nothing is known.  The stack is one object of 16-bit elements that begins at the address `lo`, a multiple of
32; it includes memory of the caller.  `call` writes a return address, for which the number of the line to return to stands, below the stack pointer, and `ret` reads it from there.
Simplification: a called function is part of the `call` instruction, and `ret` to another address than that of the call is an error. -/
namespace Verif.Model.X86Gp
open Verif.Model Verif.Model.X86

/-- The contents of a general-purpose register.  Machine model of the functions cited below. -/
inductive Val where
  | num (n : Nat)
  | obj (p : Ptr) (off : Int)
  | bad
deriving DecidableEq, Repr

/-- The machine state: vector registers and objects (the object `rsp` is the stack), general-purpose registers by their number (1: `rcx`, 2: `rdx`, 3: `rbx`, 4: `rsp`, 5: `rbp`, 6: `rsi`, 7: `rdi`), address of
the stack object.  Machine model of the functions cited below. -/
structure St where
  v : X86.St
  g : Nat → Val
  lo : Nat

/-- Instructions with a memory operand.  Machine model of the functions cited below. -/
inductive Op where
  | vmovdqa_ld (d : Nat)
  | vmovdqa_st (s : Nat)
  | vmovdqu_ld (d : Nat)
  | vmovdqu_st (s : Nat)
  | vpbroadcastq (d : Nat)
  | vpermq (imm d : Nat)
  | vpermd (idx d : Nat)
  | vpsubw (b d : Nat)
deriving DecidableEq, Repr

/-- The instruction with the operand at the given byte offset of an object; offsets in arrays of 16-bit elements must be even.  `vmovdqu` is used for arrays of bytes.  Machine model of the functions cited below. -/
def Op.ins (m : Op) (p : Ptr) (off : Nat) : Option Ins :=
  match m with
  | .vmovdqu_ld d => some (.vmovdqu_ld p off d)
  | .vmovdqu_st s => some (.vmovdqu_st s p off)
  | .vmovdqa_ld d => if off % 2 = 0 then some (.vmovdqa_ld p (off / 2) d) else none
  | .vmovdqa_st s => if off % 2 = 0 then some (.vmovdqa_st s p (off / 2)) else none
  | .vpbroadcastq d => if off % 2 = 0 then some (.vpbroadcastq p (off / 2) d) else none
  | .vpermq imm d => if off % 2 = 0 then some (.vpermq imm p (off / 2) d) else none
  | .vpermd idx d => if off % 2 = 0 then some (.vpermd p (off / 2) idx d) else none
  | .vpsubw b d => if off % 2 = 0 then some (.vpsubw_m p (off / 2) b d) else none

/-- Instructions other than `call` and `ret`: vector instructions without memory operand, with one (base register, displacement in bytes), and general-purpose ones.  Machine model of the functions cited below. -/
inductive I where
  | vec (i : Ins)
  | mem (base disp : Nat) (m : Op)
  | mov (s d : Nat)
  | add (imm d : Nat)
  | sub (imm d : Nat)
  | and (mask d : Nat)
  | lea (base disp d : Nat)
deriving DecidableEq, Repr

/-- The instructions of a function: a `call` has the instructions of the called function and the line to return to.  Machine model of the functions cited below. -/
inductive G where
  | ins (i : I)
  | call (body : List I) (ra : Nat)

/-- Add to a register.  Machine model of the functions cited below. -/
def Val.plus : Val → Int → Val
  | .num n, i => .num (((n : Int) + i) % 18446744073709551616).toNat
  | .obj p off, i => .obj p (off + i)
  | .bad, _ => .bad
/-- `and` with a mask.  Used in basemul.S 123. -/
def Val.mask : Val → Nat → Val
  | .num n, m => .num (n &&& m)
  | _, _ => .bad
/-- Write a general-purpose register.  Machine model of the functions cited below. -/
def St.putg (s : St) (d : Nat) (x : Val) : St := { s with g := fun r => if r = d then x else s.g r }
/-- The object and the byte offset addressed by a memory operand.  Machine model of the functions cited below. -/
def St.addr (s : St) (base disp : Nat) : M (Ptr × Nat) :=
  match s.g base with
  | .obj p off => if p ≠ .rsp ∧ 0 ≤ off + disp then pure (p, (off + disp).toNat) else M.fail .oob
  | .num n => if s.lo ≤ n + disp then pure (.rsp, n + disp - s.lo) else M.fail .oob
  | .bad => M.fail .oob
/-- A vector instruction.  Machine model of the functions cited below. -/
def St.vec (s : St) (i : Ins) : M St := do let v ← i.step s.v; pure { s with v := v }
/-- One instruction.  Machine model of the functions cited below. -/
def step (i : I) (s : St) : M St :=
  match i with
  | .vec i => s.vec i
  | .mem b d m => do
    let (p, off) ← s.addr b d
    match m.ins p off with
    | some i => s.vec i
    | none => M.fail .oob
  | .mov a d => pure (s.putg d (s.g a))
  | .add i d => pure (s.putg d ((s.g d).plus i))
  | .sub i d => pure (s.putg d ((s.g d).plus (-(i : Int))))
  | .and m d => pure (s.putg d ((s.g d).mask m))
  | .lea b i d => pure (s.putg d ((s.g b).plus i))
/-- A sequence of instructions.  Machine model of the functions cited below. -/
def exec : List I → St → M St
  | [], s => pure s
  | i :: l, s => do
    let s ← step i s
    exec l s
/-- Push a return address (part of `call`).  Used in fq.S 69 and elsewhere. -/
def push (ra : Nat) (s : St) : M St :=
  match s.g 4 with
  | .num n =>
    if s.lo + 8 ≤ n ∧ (n - 8 - s.lo) % 2 = 0 then do
      let b ← stw (s.v.w .rsp) ((n - 8 - s.lo) / 2) (elem ra) 4
      pure { s.putg 4 (.num (n - 8)) with v := s.v.putw .rsp b }
    else M.fail .oob
  | _ => M.fail .oob
/-- `ret`: pop the return address.  Used in ntt.S 220 and elsewhere. -/
def pop (s : St) : M (St × Nat) :=
  match s.g 4 with
  | .num n =>
    if s.lo ≤ n ∧ (n - s.lo) % 2 = 0 then do
      let a ← ldw (s.v.w .rsp) ((n - s.lo) / 2) 4
      pure (s.putg 4 (.num (n + 8)), qword a 0)
    else M.fail .oob
  | _ => M.fail .oob
/-- The instructions of a function, up to its `ret`.  Machine model of the functions cited below. -/
def execG : List G → St → M St
  | [], s => pure s
  | .ins i :: l, s => do
    let s ← step i s
    execG l s
  | .call body ra :: l, s => do
    let s ← push ra s
    let s ← exec body s
    let (s, r) ← pop s
    if r = ra then execG l s else M.fail .oob
/-- A function: the state at its return, and the address it returns to.  Machine model of the functions cited below. -/
def run (prog : List G) (s : St) : M (St × Nat) := do
  let s ← execG prog s
  pop s

/-- The state at a call: vector registers and objects `v`, the arguments in `rdi`, `rsi`, `rdx`, `rcx`, the stack pointer at element `j` of the stack `stk`, the other registers `g`.  Model of a call: no line of
/repo of its own; the declarations are in arith_native_x86_64.h. -/
def entry (g : Nat → Val) (v : X86.St) (lo : Nat) (stk : Buf Int) (j : Nat) : St where
  v := v.putw .rsp stk
  g := fun r => if r = 7 then .obj .rdi 0 else if r = 6 then .obj .rsi 0 else if r = 2 then .obj .rdx 0 else if r = 1 then .obj .rcx 0 else if r = 4 then .num (lo + 2 * j) else g r
  lo := lo

/-- Instructions without calls.  Machine model of the functions cited below. -/
def plain (l : List I) : List G := l.map .ins

-- generated programs: begin
/-- shuffle.inc 6-9: macro `shuffle8`. -/
def shuffle8 (r0 : Nat) (r1 : Nat) (r2 : Nat) (r3 : Nat) : List I :=
    [.vec (.vperm2i128 0x20 r1 r0 r2),
    .vec (.vperm2i128 0x31 r1 r0 r3)]

/-- shuffle.inc 11-14: macro `shuffle4`. -/
def shuffle4 (r0 : Nat) (r1 : Nat) (r2 : Nat) (r3 : Nat) : List I :=
    [.vec (.vpunpcklqdq r1 r0 r2),
    .vec (.vpunpckhqdq r1 r0 r3)]

/-- shuffle.inc 19-30: macro `shuffle2`. -/
def shuffle2 (r0 : Nat) (r1 : Nat) (r2 : Nat) (r3 : Nat) : List I :=
    [.vec (.vmovsldup r1 r2),
    .vec (.vpblendd 0xAA r2 r0 r2),
    .vec (.vpsrlq 32 r0 r0),
    .vec (.vpblendd 0xAA r1 r0 r3)]

/-- shuffle.inc 32-37: macro `shuffle1`. -/
def shuffle1 (r0 : Nat) (r1 : Nat) (r2 : Nat) (r3 : Nat) : List I :=
    [.vec (.vpslld 16 r1 r2),
    .vec (.vpblendw 0xAA r2 r0 r2),
    .vec (.vpsrld 16 r0 r0),
    .vec (.vpblendw 0xAA r1 r0 r3)]

/-- fq.inc 11-20: macro `red16` (every use has `rs` = 0: the `.else` branch). -/
def red16 (r : Nat) (x : Nat := 12) : List I :=
    [.vec (.vpmulhw 1 r x),
    .vec (.vpsraw 10 x x),
    .vec (.vpmullw 0 x x),
    .vec (.vpsubw x r r)]

/-- fq.inc 22-27: macro `csubq`. -/
def csubq (r : Nat) (x : Nat := 12) : List I :=
    [.vec (.vpsubw 0 r r),
    .vec (.vpsraw 15 r x),
    .vec (.vpand 0 x x),
    .vec (.vpaddw x r r)]

/-- fq.inc 29-33: macro `caddq`. -/
def caddq (r : Nat) (x : Nat := 12) : List I :=
    [.vec (.vpsraw 15 r x),
    .vec (.vpand 0 x x),
    .vec (.vpaddw x r r)]

/-- fq.inc 37-42: macro `fqmulprecomp`. -/
def fqmulprecomp (al : Nat) (ah : Nat) (b : Nat) (x : Nat := 12) : List I :=
    [.vec (.vpmullw al b x),
    .vec (.vpmulhw ah b b),
    .vec (.vpmulhw 0 x x),
    .vec (.vpsubw x b b)]

/-- ntt.S 19-31: macro `mul`. -/
def mul (rh0 : Nat) (rh1 : Nat) (rh2 : Nat) (rh3 : Nat) (zl0 : Nat := 15) (zl1 : Nat := 15) (zh0 : Nat := 2) (zh1 : Nat := 2) : List I :=
    [.vec (.vpmullw zl0 rh0 12),
    .vec (.vpmullw zl0 rh1 13),
    .vec (.vpmullw zl1 rh2 14),
    .vec (.vpmullw zl1 rh3 15),
    .vec (.vpmulhw zh0 rh0 rh0),
    .vec (.vpmulhw zh0 rh1 rh1),
    .vec (.vpmulhw zh1 rh2 rh2),
    .vec (.vpmulhw zh1 rh3 rh3)]

/-- ntt.S 35-41: macro `reduce`. -/
def reduce : List I :=
    [.vec (.vpmulhw 0 12 12),
    .vec (.vpmulhw 0 13 13),
    .vec (.vpmulhw 0 14 14),
    .vec (.vpmulhw 0 15 15)]

/-- ntt.S 61-79: macro `update`. -/
def update (rln : Nat) (rl0 : Nat) (rl1 : Nat) (rl2 : Nat) (rl3 : Nat) (rh0 : Nat) (rh1 : Nat) (rh2 : Nat) (rh3 : Nat) : List I :=
    [.vec (.vpaddw rh0 rl0 rln),
    .vec (.vpsubw rh0 rl0 rh0),
    .vec (.vpaddw rh1 rl1 rl0),
    .vec (.vpsubw rh1 rl1 rh1),
    .vec (.vpaddw rh2 rl2 rl1),
    .vec (.vpsubw rh2 rl2 rh2),
    .vec (.vpaddw rh3 rl3 rl2),
    .vec (.vpsubw rh3 rl3 rh3),
    .vec (.vpsubw 12 rln rln),
    .vec (.vpaddw 12 rh0 rh0),
    .vec (.vpsubw 13 rl0 rl0),
    .vec (.vpaddw 13 rh1 rh1),
    .vec (.vpsubw 14 rl1 rl1),
    .vec (.vpaddw 14 rh2 rh2),
    .vec (.vpsubw 15 rl2 rl2),
    .vec (.vpaddw 15 rh3 rh3)]

/-- ntt.S 81-107: macro `level0`. -/
def level0 (off : Nat) : List I :=
    [.mem 6 ((_ZETAS_EXP+0)*2) (.vpbroadcastq 15),
    .mem 7 ((64*off+128)*2) (.vmovdqa_ld 8),
    .mem 7 ((64*off+144)*2) (.vmovdqa_ld 9),
    .mem 7 ((64*off+160)*2) (.vmovdqa_ld 10),
    .mem 7 ((64*off+176)*2) (.vmovdqa_ld 11),
    .mem 6 ((_ZETAS_EXP+4)*2) (.vpbroadcastq 2)] ++
    mul 8 9 10 11 ++
    [.mem 7 ((64*off+0)*2) (.vmovdqa_ld 4),
    .mem 7 ((64*off+16)*2) (.vmovdqa_ld 5),
    .mem 7 ((64*off+32)*2) (.vmovdqa_ld 6),
    .mem 7 ((64*off+48)*2) (.vmovdqa_ld 7)] ++
    reduce ++
    update 3 4 5 6 7 8 9 10 11 ++
    [.mem 7 ((64*off+0)*2) (.vmovdqa_st 3),
    .mem 7 ((64*off+16)*2) (.vmovdqa_st 4),
    .mem 7 ((64*off+32)*2) (.vmovdqa_st 5),
    .mem 7 ((64*off+48)*2) (.vmovdqa_st 6),
    .mem 7 ((64*off+128)*2) (.vmovdqa_st 8),
    .mem 7 ((64*off+144)*2) (.vmovdqa_st 9),
    .mem 7 ((64*off+160)*2) (.vmovdqa_st 10),
    .mem 7 ((64*off+176)*2) (.vmovdqa_st 11)]

/-- ntt.S 109-207: macro `levels1t6`. -/
def levels1t6 (off : Nat) : List I :=
    [.mem 6 ((_ZETAS_EXP+224*off+16)*2) (.vmovdqa_ld 15),
    .mem 7 ((128*off+64)*2) (.vmovdqa_ld 8),
    .mem 7 ((128*off+80)*2) (.vmovdqa_ld 9),
    .mem 7 ((128*off+96)*2) (.vmovdqa_ld 10),
    .mem 7 ((128*off+112)*2) (.vmovdqa_ld 11),
    .mem 6 ((_ZETAS_EXP+224*off+32)*2) (.vmovdqa_ld 2)] ++
    mul 8 9 10 11 ++
    [.mem 7 ((128*off+0)*2) (.vmovdqa_ld 4),
    .mem 7 ((128*off+16)*2) (.vmovdqa_ld 5),
    .mem 7 ((128*off+32)*2) (.vmovdqa_ld 6),
    .mem 7 ((128*off+48)*2) (.vmovdqa_ld 7)] ++
    reduce ++
    update 3 4 5 6 7 8 9 10 11 ++
    shuffle8 5 10 7 10 ++
    shuffle8 6 11 5 11 ++
    [.mem 6 ((_ZETAS_EXP+224*off+48)*2) (.vmovdqa_ld 15),
    .mem 6 ((_ZETAS_EXP+224*off+64)*2) (.vmovdqa_ld 2)] ++
    mul 7 10 5 11 ++
    shuffle8 3 8 6 8 ++
    shuffle8 4 9 3 9 ++
    reduce ++
    update 4 6 8 3 9 7 10 5 11 ++
    shuffle4 8 5 9 5 ++
    shuffle4 3 11 8 11 ++
    [.mem 6 ((_ZETAS_EXP+224*off+80)*2) (.vmovdqa_ld 15),
    .mem 6 ((_ZETAS_EXP+224*off+96)*2) (.vmovdqa_ld 2)] ++
    mul 9 5 8 11 ++
    shuffle4 4 7 3 7 ++
    shuffle4 6 10 4 10 ++
    reduce ++
    update 6 3 7 4 10 9 5 8 11 ++
    shuffle2 7 8 10 8 ++
    shuffle2 4 11 7 11 ++
    [.mem 6 ((_ZETAS_EXP+224*off+112)*2) (.vmovdqa_ld 15),
    .mem 6 ((_ZETAS_EXP+224*off+128)*2) (.vmovdqa_ld 2)] ++
    mul 10 8 7 11 ++
    shuffle2 6 9 4 9 ++
    shuffle2 3 5 6 5 ++
    reduce ++
    update 3 4 9 6 5 10 8 7 11 ++
    shuffle1 9 7 5 7 ++
    shuffle1 6 11 9 11 ++
    [.mem 6 ((_ZETAS_EXP+224*off+144)*2) (.vmovdqa_ld 15),
    .mem 6 ((_ZETAS_EXP+224*off+160)*2) (.vmovdqa_ld 2)] ++
    mul 5 7 9 11 ++
    shuffle1 3 10 6 10 ++
    shuffle1 4 8 3 8 ++
    reduce ++
    update 4 6 10 3 8 5 7 9 11 ++
    [.mem 6 ((_ZETAS_EXP+224*off+176)*2) (.vmovdqa_ld 14),
    .mem 6 ((_ZETAS_EXP+224*off+208)*2) (.vmovdqa_ld 15),
    .mem 6 ((_ZETAS_EXP+224*off+192)*2) (.vmovdqa_ld 8),
    .mem 6 ((_ZETAS_EXP+224*off+224)*2) (.vmovdqa_ld 2)] ++
    mul 10 3 9 11 14 15 8 2 ++
    reduce ++
    update 8 4 6 5 7 10 3 9 11 ++
    [.mem 7 ((128*off+0)*2) (.vmovdqa_st 8),
    .mem 7 ((128*off+16)*2) (.vmovdqa_st 4),
    .mem 7 ((128*off+32)*2) (.vmovdqa_st 10),
    .mem 7 ((128*off+48)*2) (.vmovdqa_st 3),
    .mem 7 ((128*off+64)*2) (.vmovdqa_st 6),
    .mem 7 ((128*off+80)*2) (.vmovdqa_st 5),
    .mem 7 ((128*off+96)*2) (.vmovdqa_st 9),
    .mem 7 ((128*off+112)*2) (.vmovdqa_st 11)]

/-- ntt.S 211-220: `MLKEM_NAMESPACE(ntt_avx2)`, up to its `ret`. -/
def ntt_avx2 : List G :=
    plain ([.mem 6 (_16XQ*2) (.vmovdqa_ld 0)] ++
    level0 0 ++
    level0 1 ++
    levels1t6 0 ++
    levels1t6 1)

/-- intt.S 24-56: macro `butterfly`. -/
def butterfly (rl0 : Nat) (rl1 : Nat) (rl2 : Nat) (rl3 : Nat) (rh0 : Nat) (rh1 : Nat) (rh2 : Nat) (rh3 : Nat) (zl0 : Nat := 2) (zl1 : Nat := 2) (zh0 : Nat := 3) (zh1 : Nat := 3) : List I :=
    [.vec (.vpsubw rl0 rh0 12),
    .vec (.vpaddw rh0 rl0 rl0),
    .vec (.vpsubw rl1 rh1 13),
    .vec (.vpmullw zl0 12 rh0),
    .vec (.vpaddw rh1 rl1 rl1),
    .vec (.vpsubw rl2 rh2 14),
    .vec (.vpmullw zl0 13 rh1),
    .vec (.vpaddw rh2 rl2 rl2),
    .vec (.vpsubw rl3 rh3 15),
    .vec (.vpmullw zl1 14 rh2),
    .vec (.vpaddw rh3 rl3 rl3),
    .vec (.vpmullw zl1 15 rh3),
    .vec (.vpmulhw zh0 12 12),
    .vec (.vpmulhw zh0 13 13),
    .vec (.vpmulhw zh1 14 14),
    .vec (.vpmulhw zh1 15 15),
    .vec (.vpmulhw 0 rh0 rh0),
    .vec (.vpmulhw 0 rh1 rh1),
    .vec (.vpmulhw 0 rh2 rh2),
    .vec (.vpmulhw 0 rh3 rh3),
    .vec (.vpsubw rh0 12 rh0),
    .vec (.vpsubw rh1 13 rh1),
    .vec (.vpsubw rh2 14 rh2),
    .vec (.vpsubw rh3 15 rh3)]

/-- intt.S 58-211: macro `intt_levels0t5`. -/
def intt_levels0t5 (off : Nat) : List I :=
    [.mem 6 (_16XFLO*2) (.vmovdqa_ld 2),
    .mem 6 (_16XFHI*2) (.vmovdqa_ld 3),
    .mem 7 ((128*off+0)*2) (.vmovdqa_ld 4),
    .mem 7 ((128*off+32)*2) (.vmovdqa_ld 6),
    .mem 7 ((128*off+16)*2) (.vmovdqa_ld 5),
    .mem 7 ((128*off+48)*2) (.vmovdqa_ld 7)] ++
    fqmulprecomp 2 3 4 ++
    fqmulprecomp 2 3 6 ++
    fqmulprecomp 2 3 5 ++
    fqmulprecomp 2 3 7 ++
    [.mem 7 ((128*off+64)*2) (.vmovdqa_ld 8),
    .mem 7 ((128*off+96)*2) (.vmovdqa_ld 10),
    .mem 7 ((128*off+80)*2) (.vmovdqa_ld 9),
    .mem 7 ((128*off+112)*2) (.vmovdqa_ld 11)] ++
    fqmulprecomp 2 3 8 ++
    fqmulprecomp 2 3 10 ++
    fqmulprecomp 2 3 9 ++
    fqmulprecomp 2 3 11 ++
    [.mem 6 ((_ZETAS_EXP+(1-off)*224+208)*2) (.vpermq 0x4E 15),
    .mem 6 ((_ZETAS_EXP+(1-off)*224+176)*2) (.vpermq 0x4E 1),
    .mem 6 ((_ZETAS_EXP+(1-off)*224+224)*2) (.vpermq 0x4E 2),
    .mem 6 ((_ZETAS_EXP+(1-off)*224+192)*2) (.vpermq 0x4E 3),
    .mem 6 (_REVIDXB*2) (.vmovdqa_ld 12),
    .vec (.vpshufb 12 15 15),
    .vec (.vpshufb 12 1 1),
    .vec (.vpshufb 12 2 2),
    .vec (.vpshufb 12 3 3)] ++
    butterfly 4 5 8 9 6 7 10 11 15 1 2 3 ++
    [.mem 6 ((_ZETAS_EXP+(1-off)*224+144)*2) (.vpermq 0x4E 2),
    .mem 6 ((_ZETAS_EXP+(1-off)*224+160)*2) (.vpermq 0x4E 3),
    .mem 6 (_REVIDXB*2) (.vmovdqa_ld 1),
    .vec (.vpshufb 1 2 2),
    .vec (.vpshufb 1 3 3)] ++
    butterfly 4 5 6 7 8 9 10 11 2 2 3 3 ++
    shuffle1 4 5 3 5 ++
    shuffle1 6 7 4 7 ++
    shuffle1 8 9 6 9 ++
    shuffle1 10 11 8 11 ++
    [.mem 6 (_REVIDXD*2) (.vmovdqa_ld 12),
    .mem 6 ((_ZETAS_EXP+(1-off)*224+112)*2) (.vpermd 12 2),
    .mem 6 ((_ZETAS_EXP+(1-off)*224+128)*2) (.vpermd 12 10)] ++
    butterfly 3 4 6 8 5 7 9 11 2 2 10 10 ++
    [.mem 6 (_16XV*2) (.vmovdqa_ld 1)] ++
    red16 3 ++
    shuffle2 3 4 10 4 ++
    shuffle2 6 8 3 8 ++
    shuffle2 5 7 6 7 ++
    shuffle2 9 11 5 11 ++
    [.mem 6 ((_ZETAS_EXP+(1-off)*224+80)*2) (.vpermq 0x1B 2),
    .mem 6 ((_ZETAS_EXP+(1-off)*224+96)*2) (.vpermq 0x1B 9)] ++
    butterfly 10 3 6 5 4 8 7 11 2 2 9 9 ++
    red16 10 ++
    shuffle4 10 3 9 3 ++
    shuffle4 6 5 10 5 ++
    shuffle4 4 8 6 8 ++
    shuffle4 7 11 4 11 ++
    [.mem 6 ((_ZETAS_EXP+(1-off)*224+48)*2) (.vpermq 0x4E 2),
    .mem 6 ((_ZETAS_EXP+(1-off)*224+64)*2) (.vpermq 0x4E 7)] ++
    butterfly 9 10 6 4 3 5 8 11 2 2 7 7 ++
    red16 9 ++
    shuffle8 9 10 7 10 ++
    shuffle8 6 4 9 4 ++
    shuffle8 3 5 6 5 ++
    shuffle8 8 11 3 11 ++
    [.mem 6 ((_ZETAS_EXP+(1-off)*224+16)*2) (.vmovdqa_ld 2),
    .mem 6 ((_ZETAS_EXP+(1-off)*224+32)*2) (.vmovdqa_ld 8)] ++
    butterfly 7 9 6 3 10 4 5 11 2 2 8 8 ++
    red16 7 ++
    [.mem 7 ((128*off+0)*2) (.vmovdqa_st 7),
    .mem 7 ((128*off+16)*2) (.vmovdqa_st 9),
    .mem 7 ((128*off+32)*2) (.vmovdqa_st 6),
    .mem 7 ((128*off+48)*2) (.vmovdqa_st 3),
    .mem 7 ((128*off+64)*2) (.vmovdqa_st 10),
    .mem 7 ((128*off+80)*2) (.vmovdqa_st 4),
    .mem 7 ((128*off+96)*2) (.vmovdqa_st 5),
    .mem 7 ((128*off+112)*2) (.vmovdqa_st 11)]

/-- intt.S 213-241: macro `intt_level6`. -/
def intt_level6 (off : Nat) : List I :=
    [.mem 7 ((64*off+0)*2) (.vmovdqa_ld 4),
    .mem 7 ((64*off+128)*2) (.vmovdqa_ld 8),
    .mem 7 ((64*off+16)*2) (.vmovdqa_ld 5),
    .mem 7 ((64*off+144)*2) (.vmovdqa_ld 9),
    .mem 6 ((_ZETAS_EXP+0)*2) (.vpbroadcastq 2),
    .mem 7 ((64*off+32)*2) (.vmovdqa_ld 6),
    .mem 7 ((64*off+160)*2) (.vmovdqa_ld 10),
    .mem 7 ((64*off+48)*2) (.vmovdqa_ld 7),
    .mem 7 ((64*off+176)*2) (.vmovdqa_ld 11),
    .mem 6 ((_ZETAS_EXP+4)*2) (.vpbroadcastq 3)] ++
    butterfly 4 5 6 7 8 9 10 11 ++
    [.mem 7 ((64*off+0)*2) (.vmovdqa_st 4),
    .mem 7 ((64*off+16)*2) (.vmovdqa_st 5),
    .mem 7 ((64*off+32)*2) (.vmovdqa_st 6),
    .mem 7 ((64*off+48)*2) (.vmovdqa_st 7),
    .mem 7 ((64*off+128)*2) (.vmovdqa_st 8),
    .mem 7 ((64*off+144)*2) (.vmovdqa_st 9),
    .mem 7 ((64*off+160)*2) (.vmovdqa_st 10),
    .mem 7 ((64*off+176)*2) (.vmovdqa_st 11)]

/-- intt.S 245-253: `MLKEM_NAMESPACE(invntt_avx2)`, up to its `ret`. -/
def invntt_avx2 : List G :=
    plain ([.mem 6 (_16XQ*2) (.vmovdqa_ld 0)] ++
    intt_levels0t5 0 ++
    intt_levels0t5 1 ++
    intt_level6 0 ++
    intt_level6 1)

/-- fq.S 23-62: `reduce128_avx2`, up to its `ret`. -/
def reduce128_avx2 : List I :=
    [.mem 7 (0) (.vmovdqa_ld 2),
    .mem 7 (32) (.vmovdqa_ld 3),
    .mem 7 (64) (.vmovdqa_ld 4),
    .mem 7 (96) (.vmovdqa_ld 5),
    .mem 7 (128) (.vmovdqa_ld 6),
    .mem 7 (160) (.vmovdqa_ld 7),
    .mem 7 (192) (.vmovdqa_ld 8),
    .mem 7 (224) (.vmovdqa_ld 9)] ++
    red16 2 ++
    red16 3 ++
    red16 4 ++
    red16 5 ++
    red16 6 ++
    red16 7 ++
    red16 8 ++
    red16 9 ++
    csubq 2 ++
    csubq 3 ++
    csubq 4 ++
    csubq 5 ++
    csubq 6 ++
    csubq 7 ++
    csubq 8 ++
    csubq 9 ++
    [.mem 7 (0) (.vmovdqa_st 2),
    .mem 7 (32) (.vmovdqa_st 3),
    .mem 7 (64) (.vmovdqa_st 4),
    .mem 7 (96) (.vmovdqa_st 5),
    .mem 7 (128) (.vmovdqa_st 6),
    .mem 7 (160) (.vmovdqa_st 7),
    .mem 7 (192) (.vmovdqa_st 8),
    .mem 7 (224) (.vmovdqa_st 9)]

/-- fq.S 65-72: `MLKEM_NAMESPACE(reduce_avx2)`, up to its `ret`. -/
def reduce_avx2 : List G :=
    plain ([.mem 6 (_16XQ*2) (.vmovdqa_ld 0),
    .mem 6 (_16XV*2) (.vmovdqa_ld 1)]) ++
    [.call reduce128_avx2 70] ++
    plain ([.add (256) 7]) ++
    [.call reduce128_avx2 72]

/-- fq.S 75-105: `tomont128_avx2`, up to its `ret`. -/
def tomont128_avx2 : List I :=
    [.mem 7 (0) (.vmovdqa_ld 3),
    .mem 7 (32) (.vmovdqa_ld 4),
    .mem 7 (64) (.vmovdqa_ld 5),
    .mem 7 (96) (.vmovdqa_ld 6),
    .mem 7 (128) (.vmovdqa_ld 7),
    .mem 7 (160) (.vmovdqa_ld 8),
    .mem 7 (192) (.vmovdqa_ld 9),
    .mem 7 (224) (.vmovdqa_ld 10)] ++
    fqmulprecomp 1 2 3 11 ++
    fqmulprecomp 1 2 4 12 ++
    fqmulprecomp 1 2 5 13 ++
    fqmulprecomp 1 2 6 14 ++
    fqmulprecomp 1 2 7 15 ++
    fqmulprecomp 1 2 8 11 ++
    fqmulprecomp 1 2 9 12 ++
    fqmulprecomp 1 2 10 13 ++
    [.mem 7 (0) (.vmovdqa_st 3),
    .mem 7 (32) (.vmovdqa_st 4),
    .mem 7 (64) (.vmovdqa_st 5),
    .mem 7 (96) (.vmovdqa_st 6),
    .mem 7 (128) (.vmovdqa_st 7),
    .mem 7 (160) (.vmovdqa_st 8),
    .mem 7 (192) (.vmovdqa_st 9),
    .mem 7 (224) (.vmovdqa_st 10)]

/-- fq.S 108-116: `MLKEM_NAMESPACE(tomont_avx2)`, up to its `ret`. -/
def tomont_avx2 : List G :=
    plain ([.mem 6 (_16XQ*2) (.vmovdqa_ld 0),
    .mem 6 (_16XMONTSQLO*2) (.vmovdqa_ld 1),
    .mem 6 (_16XMONTSQHI*2) (.vmovdqa_ld 2)]) ++
    [.call tomont128_avx2 114] ++
    plain ([.add (256) 7]) ++
    [.call tomont128_avx2 116]

/-- shuffle.S 62-103: `nttunpack128_avx2`, up to its `ret`. -/
def nttunpack128_avx2 : List I :=
    [.mem 7 (0) (.vmovdqa_ld 4),
    .mem 7 (32) (.vmovdqa_ld 5),
    .mem 7 (64) (.vmovdqa_ld 6),
    .mem 7 (96) (.vmovdqa_ld 7),
    .mem 7 (128) (.vmovdqa_ld 8),
    .mem 7 (160) (.vmovdqa_ld 9),
    .mem 7 (192) (.vmovdqa_ld 10),
    .mem 7 (224) (.vmovdqa_ld 11)] ++
    shuffle8 4 8 3 8 ++
    shuffle8 5 9 4 9 ++
    shuffle8 6 10 5 10 ++
    shuffle8 7 11 6 11 ++
    shuffle4 3 5 7 5 ++
    shuffle4 8 10 3 10 ++
    shuffle4 4 6 8 6 ++
    shuffle4 9 11 4 11 ++
    shuffle2 7 8 9 8 ++
    shuffle2 5 6 7 6 ++
    shuffle2 3 4 5 4 ++
    shuffle2 10 11 3 11 ++
    shuffle1 9 5 10 5 ++
    shuffle1 8 4 9 4 ++
    shuffle1 7 3 8 3 ++
    shuffle1 6 11 7 11 ++
    [.mem 7 (0) (.vmovdqa_st 10),
    .mem 7 (32) (.vmovdqa_st 5),
    .mem 7 (64) (.vmovdqa_st 9),
    .mem 7 (96) (.vmovdqa_st 4),
    .mem 7 (128) (.vmovdqa_st 8),
    .mem 7 (160) (.vmovdqa_st 3),
    .mem 7 (192) (.vmovdqa_st 7),
    .mem 7 (224) (.vmovdqa_st 11)]

/-- shuffle.S 106-110: `MLKEM_NAMESPACE(nttunpack_avx2)`, up to its `ret`. -/
def nttunpack_avx2 : List G :=
    [.call nttunpack128_avx2 108] ++
    plain ([.add (256) 7]) ++
    [.call nttunpack128_avx2 110]

/-- shuffle.S 112-170: `ntttobytes128_avx`, up to its `ret`. -/
def ntttobytes128_avx : List I :=
    [.mem 6 (0) (.vmovdqa_ld 5),
    .mem 6 (32) (.vmovdqa_ld 6),
    .mem 6 (64) (.vmovdqa_ld 7),
    .mem 6 (96) (.vmovdqa_ld 8),
    .mem 6 (128) (.vmovdqa_ld 9),
    .mem 6 (160) (.vmovdqa_ld 10),
    .mem 6 (192) (.vmovdqa_ld 11),
    .mem 6 (224) (.vmovdqa_ld 12),
    .vec (.vpsllw 12 6 4),
    .vec (.vpor 4 5 4),
    .vec (.vpsrlw 4 6 5),
    .vec (.vpsllw 8 7 6),
    .vec (.vpor 5 6 5),
    .vec (.vpsrlw 8 7 6),
    .vec (.vpsllw 4 8 7),
    .vec (.vpor 6 7 6),
    .vec (.vpsllw 12 10 7),
    .vec (.vpor 7 9 7),
    .vec (.vpsrlw 4 10 8),
    .vec (.vpsllw 8 11 9),
    .vec (.vpor 8 9 8),
    .vec (.vpsrlw 8 11 9),
    .vec (.vpsllw 4 12 10),
    .vec (.vpor 9 10 9)] ++
    shuffle1 4 5 3 5 ++
    shuffle1 6 7 4 7 ++
    shuffle1 8 9 6 9 ++
    shuffle2 3 4 8 4 ++
    shuffle2 6 5 3 5 ++
    shuffle2 7 9 6 9 ++
    shuffle4 8 3 7 3 ++
    shuffle4 6 4 8 4 ++
    shuffle4 5 9 6 9 ++
    shuffle8 7 8 5 8 ++
    shuffle8 6 3 7 3 ++
    shuffle8 4 9 6 9 ++
    [.mem 7 (0) (.vmovdqu_st 5),
    .mem 7 (32) (.vmovdqu_st 7),
    .mem 7 (64) (.vmovdqu_st 6),
    .mem 7 (96) (.vmovdqu_st 8),
    .mem 7 (128) (.vmovdqu_st 3),
    .mem 7 (160) (.vmovdqu_st 9)]

/-- shuffle.S 173-180: `MLKEM_NAMESPACE(ntttobytes_avx2)`, up to its `ret`. -/
def ntttobytes_avx2 : List G :=
    plain ([.mem 2 (_16XQ*2) (.vmovdqa_ld 0)]) ++
    [.call ntttobytes128_avx 177] ++
    plain ([.add (256) 6,
    .add (192) 7]) ++
    [.call ntttobytes128_avx 180]

/-- shuffle.S 182-246: `nttfrombytes128_avx`, up to its `ret`. -/
def nttfrombytes128_avx : List I :=
    [.mem 6 (0) (.vmovdqu_ld 4),
    .mem 6 (32) (.vmovdqu_ld 5),
    .mem 6 (64) (.vmovdqu_ld 6),
    .mem 6 (96) (.vmovdqu_ld 7),
    .mem 6 (128) (.vmovdqu_ld 8),
    .mem 6 (160) (.vmovdqu_ld 9)] ++
    shuffle8 4 7 3 7 ++
    shuffle8 5 8 4 8 ++
    shuffle8 6 9 5 9 ++
    shuffle4 3 8 6 8 ++
    shuffle4 7 5 3 5 ++
    shuffle4 4 9 7 9 ++
    shuffle2 6 5 4 5 ++
    shuffle2 8 7 6 7 ++
    shuffle2 3 9 8 9 ++
    shuffle1 4 7 10 7 ++
    shuffle1 5 8 4 8 ++
    shuffle1 6 9 5 9 ++
    [.vec (.vpsrlw 12 10 11),
    .vec (.vpsllw 4 7 12),
    .vec (.vpor 11 12 11),
    .vec (.vpand 0 10 10),
    .vec (.vpand 0 11 11),
    .vec (.vpsrlw 8 7 12),
    .vec (.vpsllw 8 4 13),
    .vec (.vpor 12 13 12),
    .vec (.vpand 0 12 12),
    .vec (.vpsrlw 4 4 13),
    .vec (.vpand 0 13 13),
    .vec (.vpsrlw 12 8 14),
    .vec (.vpsllw 4 5 15),
    .vec (.vpor 14 15 14),
    .vec (.vpand 0 8 8),
    .vec (.vpand 0 14 14),
    .vec (.vpsrlw 8 5 15),
    .vec (.vpsllw 8 9 1),
    .vec (.vpor 15 1 15),
    .vec (.vpand 0 15 15),
    .vec (.vpsrlw 4 9 1),
    .vec (.vpand 0 1 1),
    .mem 7 (0) (.vmovdqa_st 10),
    .mem 7 (32) (.vmovdqa_st 11),
    .mem 7 (64) (.vmovdqa_st 12),
    .mem 7 (96) (.vmovdqa_st 13),
    .mem 7 (128) (.vmovdqa_st 8),
    .mem 7 (160) (.vmovdqa_st 14),
    .mem 7 (192) (.vmovdqa_st 15),
    .mem 7 (224) (.vmovdqa_st 1)]

/-- shuffle.S 249-256: `MLKEM_NAMESPACE(nttfrombytes_avx2)`, up to its `ret`. -/
def nttfrombytes_avx2 : List G :=
    plain ([.mem 2 (_16XMASK*2) (.vmovdqa_ld 0)]) ++
    [.call nttfrombytes128_avx 253] ++
    plain ([.add (256) 7,
    .add (192) 6]) ++
    [.call nttfrombytes128_avx 256]

/-- shuffle.S 19-60: `MLKEM_NAMESPACE(nttpack_avx2)`, up to its `ret` (not called by the library). -/
def nttpack_avx2 : List G :=
    plain ([.mem 7 (0) (.vmovdqa_ld 4),
    .mem 7 (32) (.vmovdqa_ld 5),
    .mem 7 (64) (.vmovdqa_ld 6),
    .mem 7 (96) (.vmovdqa_ld 7),
    .mem 7 (128) (.vmovdqa_ld 8),
    .mem 7 (160) (.vmovdqa_ld 9),
    .mem 7 (192) (.vmovdqa_ld 10),
    .mem 7 (224) (.vmovdqa_ld 11)] ++
    shuffle1 4 5 3 5 ++
    shuffle1 6 7 4 7 ++
    shuffle1 8 9 6 9 ++
    shuffle1 10 11 8 11 ++
    shuffle2 3 4 10 4 ++
    shuffle2 6 8 3 8 ++
    shuffle2 5 7 6 7 ++
    shuffle2 9 11 5 11 ++
    shuffle4 10 3 9 3 ++
    shuffle4 6 5 10 5 ++
    shuffle4 4 8 6 8 ++
    shuffle4 7 11 4 11 ++
    shuffle8 9 10 7 10 ++
    shuffle8 6 4 9 4 ++
    shuffle8 3 5 6 5 ++
    shuffle8 8 11 3 11 ++
    [.mem 7 (0) (.vmovdqa_st 7),
    .mem 7 (32) (.vmovdqa_st 9),
    .mem 7 (64) (.vmovdqa_st 6),
    .mem 7 (96) (.vmovdqa_st 3),
    .mem 7 (128) (.vmovdqa_st 10),
    .mem 7 (160) (.vmovdqa_st 4),
    .mem 7 (192) (.vmovdqa_st 5),
    .mem 7 (224) (.vmovdqa_st 11)])

/-- basemul.S 17-117: macro `schoolbook`. -/
def schoolbook (off : Nat) : List I :=
    [.mem 1 (_16XQINV*2) (.vmovdqa_ld 0),
    .mem 6 ((64*off+0)*2) (.vmovdqa_ld 1),
    .mem 6 ((64*off+16)*2) (.vmovdqa_ld 2),
    .mem 6 ((64*off+32)*2) (.vmovdqa_ld 3),
    .mem 6 ((64*off+48)*2) (.vmovdqa_ld 4),
    .vec (.vpmullw 0 1 9),
    .vec (.vpmullw 0 2 10),
    .vec (.vpmullw 0 3 11),
    .vec (.vpmullw 0 4 12),
    .mem 2 ((64*off+0)*2) (.vmovdqa_ld 5),
    .mem 2 ((64*off+16)*2) (.vmovdqa_ld 6),
    .vec (.vpmulhw 5 1 13),
    .vec (.vpmulhw 6 1 1),
    .vec (.vpmulhw 5 2 14),
    .vec (.vpmulhw 6 2 2),
    .mem 2 ((64*off+32)*2) (.vmovdqa_ld 7),
    .mem 2 ((64*off+48)*2) (.vmovdqa_ld 8),
    .vec (.vpmulhw 7 3 15),
    .vec (.vpmulhw 8 3 3),
    .vec (.vpmulhw 7 4 0),
    .vec (.vpmulhw 8 4 4),
    .mem 4 (0) (.vmovdqa_st 13),
    .vec (.vpmullw 5 9 13),
    .vec (.vpmullw 6 9 9),
    .vec (.vpmullw 5 10 5),
    .vec (.vpmullw 6 10 10),
    .vec (.vpmullw 7 11 6),
    .vec (.vpmullw 8 11 11),
    .vec (.vpmullw 7 12 7),
    .vec (.vpmullw 8 12 12),
    .mem 1 (_16XQ*2) (.vmovdqa_ld 8),
    .vec (.vpmulhw 8 13 13),
    .vec (.vpmulhw 8 9 9),
    .vec (.vpmulhw 8 5 5),
    .vec (.vpmulhw 8 10 10),
    .vec (.vpmulhw 8 6 6),
    .vec (.vpmulhw 8 11 11),
    .vec (.vpmulhw 8 7 7),
    .vec (.vpmulhw 8 12 12),
    .mem 4 (0) (.vpsubw 13 13),
    .vec (.vpsubw 9 1 9),
    .vec (.vpsubw 5 14 5),
    .vec (.vpsubw 10 2 10),
    .vec (.vpsubw 6 15 6),
    .vec (.vpsubw 11 3 11),
    .vec (.vpsubw 7 0 7),
    .vec (.vpsubw 12 4 12),
    .mem 9 (0) (.vmovdqa_ld 0),
    .mem 9 (32) (.vmovdqa_ld 1),
    .vec (.vpmullw 0 10 2),
    .vec (.vpmullw 0 12 3),
    .vec (.vpmulhw 1 10 10),
    .vec (.vpmulhw 1 12 12),
    .vec (.vpmulhw 8 2 2),
    .vec (.vpmulhw 8 3 3),
    .vec (.vpsubw 2 10 10),
    .vec (.vpsubw 3 12 12),
    .vec (.vpaddw 5 9 9),
    .vec (.vpaddw 7 11 11),
    .vec (.vpsubw 13 10 13),
    .vec (.vpsubw 12 6 6),
    .mem 7 ((64*off+0)*2) (.vmovdqa_st 13),
    .mem 7 ((64*off+16)*2) (.vmovdqa_st 9),
    .mem 7 ((64*off+32)*2) (.vmovdqa_st 6),
    .mem 7 ((64*off+48)*2) (.vmovdqa_st 11)]

/-- basemul.S 121-139: `MLKEM_NAMESPACE(basemul_avx2)`, up to its `ret`. -/
def basemul_avx2 : List G :=
    plain ([.mov 4 8,
    .and 18446744073709551584 4,
    .sub (32) 4,
    .lea 1 ((_ZETAS_EXP+176)*2) 9] ++
    schoolbook 0 ++
    [.add (32*2) 9] ++
    schoolbook 1 ++
    [.add (192*2) 9] ++
    schoolbook 2 ++
    [.add (32*2) 9] ++
    schoolbook 3 ++
    [.mov 8 4])
-- generated programs: end

end Verif.Model.X86Gp

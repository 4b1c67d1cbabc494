import Verif.Model.Poly
/-! # The AVX2 assembly of the x86_64 backend (`/repo/mlkem/native/x86_64/*.S`)

Generated by `/verif/tools/gen_avx2.py` (this head is hand-written: `/verif/tools/x86asm_head.txt`).

The instruction set is modelled by the meaning given in Intel's manual.  A `ymm` register is a function from the positions `0 … 15` (0 the least significant)
to 16-bit elements, written as signed numbers.  Memory is a collection of separate objects, one for each pointer argument (so the arguments of a function do not
overlap); an access outside the object, a read of an uninitialised element and a misaligned `vmovdqa` are errors.  Operands are in AT&T order: the last register is the
destination, and `op a b d` computes `b op a` into `d`.  All code here is straight-line; the only branches are calls, which are expanded. -/
namespace Verif.Model.X86

/-- The pointer arguments of the functions, and the stack slot.  Machine model: no line of /repo corresponds to it; the code it runs is that of the .S files cited at the programs below. -/
inductive Ptr where
  | rdi | rsi | rdx | rcx | rsp
deriving DecidableEq, Repr

/-- The instructions used.  Offsets of `_ld`, `_st`, `_m` operands count 16-bit elements, those of `vmovdqu` (byte arrays) count bytes.  Machine model: no line of /repo corresponds to it; the code it runs is that of the .S files cited at the programs below. -/
inductive Ins where
  | vmovdqa_ld (p : Ptr) (off d : Nat)
  | vmovdqa_st (s : Nat) (p : Ptr) (off : Nat)
  | vmovdqu_ld (p : Ptr) (off d : Nat)
  | vmovdqu_st (s : Nat) (p : Ptr) (off : Nat)
  | vpbroadcastq (p : Ptr) (off d : Nat)
  | vpermq (imm : Nat) (p : Ptr) (off d : Nat)
  | vpermd (p : Ptr) (off idx d : Nat)
  | vpsubw_m (p : Ptr) (off b d : Nat)
  | vpaddw (a b d : Nat)
  | vpsubw (a b d : Nat)
  | vpmullw (a b d : Nat)
  | vpmulhw (a b d : Nat)
  | vpand (a b d : Nat)
  | vpor (a b d : Nat)
  | vpsraw (imm a d : Nat)
  | vpsllw (imm a d : Nat)
  | vpsrlw (imm a d : Nat)
  | vpsrlq (imm a d : Nat)
  | vpslld (imm a d : Nat)
  | vpsrld (imm a d : Nat)
  | vperm2i128 (imm a b d : Nat)
  | vpblendd (imm a b d : Nat)
  | vpblendw (imm a b d : Nat)
  | vpunpcklqdq (a b d : Nat)
  | vpunpckhqdq (a b d : Nat)
  | vpshufb (a b d : Nat)
  | vmovsldup (a d : Nat)
deriving DecidableEq, Repr

/-- A 256-bit register as sixteen signed 16-bit elements.  Machine model: no line of /repo corresponds to it; the code it runs is that of the .S files cited at the programs below. -/
abbrev Ymm := Nat → Int

/-- The machine state: registers, objects of 16-bit elements and objects of bytes.  Machine model: no line of /repo corresponds to it; the code it runs is that of the .S files cited at the programs below. -/
structure St where
  ymm : Nat → Ymm
  w : Ptr → Buf Int
  b : Ptr → Buf UInt8

/-- The signed number in `-2^15 … 2^15 - 1` congruent to `x` modulo `2^16`.  Machine model: no line of /repo corresponds to it; the code it runs is that of the .S files cited at the programs below. -/
def s16 (x : Int) : Int := (x + 32768) % 65536 - 32768

/-- Write a register.  Machine model: no line of /repo corresponds to it; the code it runs is that of the .S files cited at the programs below. -/
def St.put (s : St) (d : Nat) (v : Ymm) : St := { s with ymm := fun r => if r = d then v else s.ymm r }
/-- Replace an object of 16-bit elements.  Machine model: no line of /repo corresponds to it; the code it runs is that of the .S files cited at the programs below. -/
def St.putw (s : St) (p : Ptr) (v : Buf Int) : St := { s with w := fun r => if r = p then v else s.w r }
/-- Replace an object of bytes.  Machine model: no line of /repo corresponds to it; the code it runs is that of the .S files cited at the programs below. -/
def St.putb (s : St) (p : Ptr) (v : Buf UInt8) : St := { s with b := fun r => if r = p then v else s.b r }

/-- Load the elements `off … off + n - 1`.  Machine model: no line of /repo corresponds to it; the code it runs is that of the .S files cited at the programs below. -/
def ldw (b : Buf Int) (off : Nat) : Nat → M Ymm
  | 0 => pure fun _ => 0
  | n + 1 => do
    let v ← ldw b off n
    let x ← rd b (off + n)
    pure fun k => if k = n then x else v k
/-- Store `n` elements at `off`.  Machine model: no line of /repo corresponds to it; the code it runs is that of the .S files cited at the programs below. -/
def stw (b : Buf Int) (off : Nat) (v : Ymm) : Nat → M (Buf Int)
  | 0 => pure b
  | n + 1 => do
    let b ← stw b off v n
    wr b (off + n) (v n)
/-- Load `n` elements of two bytes each (little-endian) from a byte array.  Machine model: no line of /repo corresponds to it; the code it runs is that of the .S files cited at the programs below. -/
def ldb (b : Buf UInt8) (off : Nat) : Nat → M Ymm
  | 0 => pure fun _ => 0
  | n + 1 => do
    let v ← ldb b off n
    let x ← rd b (off + 2 * n)
    let y ← rd b (off + 2 * n + 1)
    pure fun k => if k = n then s16 (x.toNat + 256 * y.toNat) else v k
/-- Store `n` elements as two bytes each (little-endian) in a byte array.  Machine model: no line of /repo corresponds to it; the code it runs is that of the .S files cited at the programs below. -/
def stb (b : Buf UInt8) (off : Nat) (v : Ymm) : Nat → M (Buf UInt8)
  | 0 => pure b
  | n + 1 => do
    let b ← stb b off v n
    let b ← wr b (off + 2 * n) (toU8 (u16 (v n)))
    wr b (off + 2 * n + 1) (toU8 (u16 (v n) / 256))
/-- Aligned load of 32 bytes; all 16-bit objects are 32-byte aligned (`ALIGN`, common.h 53-59, align.h). -/
def lda (b : Buf Int) (off : Nat) : M Ymm := if off % 16 = 0 then ldw b off 16 else M.fail .oob
/-- Aligned store of 32 bytes.  Machine model: no line of /repo corresponds to it; the code it runs is that of the .S files cited at the programs below. -/
def sta (b : Buf Int) (off : Nat) (v : Ymm) : M (Buf Int) := if off % 16 = 0 then stw b off v 16 else M.fail .oob

/-- 32-bit element `i`.  Machine model: no line of /repo corresponds to it; the code it runs is that of the .S files cited at the programs below. -/
def dword (v : Ymm) (i : Nat) : Nat := u16 (v (2 * i)) + 65536 * u16 (v (2 * i + 1))
/-- 64-bit element `i`.  Machine model: no line of /repo corresponds to it; the code it runs is that of the .S files cited at the programs below. -/
def qword (v : Ymm) (i : Nat) : Nat := dword v (2 * i) + 4294967296 * dword v (2 * i + 1)
/-- Byte `j`.  Machine model: no line of /repo corresponds to it; the code it runs is that of the .S files cited at the programs below. -/
def byte (v : Ymm) (j : Nat) : Nat := u16 (v (j / 2)) / 256 ^ (j % 2) % 256
/-- 16-bit element `k` of a number.  Machine model: no line of /repo corresponds to it; the code it runs is that of the .S files cited at the programs below. -/
def elem (x k : Nat) : Int := s16 ((x / 65536 ^ k % 65536 : Nat) : Int)

/-- `vperm2i128`: each half of the result is a half of `b` (selector 0, 1) or `a` (2, 3), or zero.  Used in shuffle.inc 7 and elsewhere. -/
def perm2i128 (imm : Nat) (a b : Ymm) : Ymm := fun k =>
  let c := imm / 16 ^ (k / 8) % 16
  if 8 ≤ c then 0 else if c % 4 < 2 then b (8 * (c % 2) + k % 8) else a (8 * (c % 2) + k % 8)
/-- `vpunpcklqdq`: the low 64 bits of each half of `b` and `a`.  Used in shuffle.inc 12 and elsewhere. -/
def unpacklq (a b : Ymm) : Ymm := fun k => if k % 8 < 4 then b k else a (k - 4)
/-- `vpunpckhqdq`: the high 64 bits of each half of `b` and `a`.  Used in shuffle.inc 13 and elsewhere. -/
def unpackhq (a b : Ymm) : Ymm := fun k => if k % 8 < 4 then b (k + 4) else a k
/-- `vmovsldup`: the even 32-bit elements, each twice.  Used in shuffle.inc 21 and elsewhere. -/
def movsldup (a : Ymm) : Ymm := fun k => a (4 * (k / 4) + k % 2)
/-- `vpshufb`: bytes of `b` selected within each half by the bytes of `a`.  Used in intt.S 91 and elsewhere. -/
def shufb (a b : Ymm) : Ymm := fun k =>
  let sel := fun j => if 128 ≤ byte a j then 0 else byte b (16 * (j / 16) + byte a j % 16)
  s16 ((sel (2 * k) + 256 * sel (2 * k + 1) : Nat) : Int)

/-- One instruction.  Machine model: no line of /repo corresponds to it; the code it runs is that of the .S files cited at the programs below. -/
def Ins.step (i : Ins) (s : St) : M St :=
  match i with
  | vmovdqa_ld p off d => do let v ← lda (s.w p) off; pure (s.put d v)
  | vmovdqa_st r p off => do let b ← sta (s.w p) off (s.ymm r); pure (s.putw p b)
  | vmovdqu_ld p off d => do let v ← ldb (s.b p) off 16; pure (s.put d v)
  | vmovdqu_st r p off => do let b ← stb (s.b p) off (s.ymm r) 16; pure (s.putb p b)
  | vpbroadcastq p off d => do let v ← ldw (s.w p) off 4; pure (s.put d fun k => v (k % 4))
  | vpermq imm p off d => do let v ← ldw (s.w p) off 16; pure (s.put d fun k => v (4 * (imm / 4 ^ (k / 4) % 4) + k % 4))
  | vpermd p off idx d => do let v ← ldw (s.w p) off 16; pure (s.put d fun k => v (2 * (dword (s.ymm idx) (k / 2) % 8) + k % 2))
  | vpsubw_m p off b d => do let v ← ldw (s.w p) off 16; pure (s.put d fun k => s16 (s.ymm b k - v k))
  | vpaddw a b d => pure (s.put d fun k => s16 (s.ymm b k + s.ymm a k))
  | vpsubw a b d => pure (s.put d fun k => s16 (s.ymm b k - s.ymm a k))
  | vpmullw a b d => pure (s.put d fun k => s16 (s.ymm b k * s.ymm a k))
  | vpmulhw a b d => pure (s.put d fun k => s.ymm b k * s.ymm a k / 65536)
  | vpand a b d => pure (s.put d fun k => s16 ((u16 (s.ymm b k) &&& u16 (s.ymm a k) : Nat) : Int))
  | vpor a b d => pure (s.put d fun k => s16 ((u16 (s.ymm b k) ||| u16 (s.ymm a k) : Nat) : Int))
  | vpsraw imm a d => pure (s.put d fun k => s.ymm a k / 2 ^ imm)
  | vpsllw imm a d => pure (s.put d fun k => s16 ((u16 (s.ymm a k) * 2 ^ imm : Nat) : Int))
  | vpsrlw imm a d => pure (s.put d fun k => s16 ((u16 (s.ymm a k) / 2 ^ imm : Nat) : Int))
  | vpsrlq imm a d => pure (s.put d fun k => elem (qword (s.ymm a) (k / 4) / 2 ^ imm) (k % 4))
  | vpslld imm a d => pure (s.put d fun k => elem (dword (s.ymm a) (k / 2) * 2 ^ imm) (k % 2))
  | vpsrld imm a d => pure (s.put d fun k => elem (dword (s.ymm a) (k / 2) / 2 ^ imm) (k % 2))
  | vperm2i128 imm a b d => pure (s.put d (perm2i128 imm (s.ymm a) (s.ymm b)))
  | vpblendd imm a b d => pure (s.put d fun k => if imm.testBit (k / 2) then s.ymm a k else s.ymm b k)
  | vpblendw imm a b d => pure (s.put d fun k => if imm.testBit (k % 8) then s.ymm a k else s.ymm b k)
  | vpunpcklqdq a b d => pure (s.put d (unpacklq (s.ymm a) (s.ymm b)))
  | vpunpckhqdq a b d => pure (s.put d (unpackhq (s.ymm a) (s.ymm b)))
  | vpshufb a b d => pure (s.put d (shufb (s.ymm a) (s.ymm b)))
  | vmovsldup a d => pure (s.put d (movsldup (s.ymm a)))

/-- A straight-line program.  Machine model: no line of /repo corresponds to it; the code it runs is that of the .S files cited at the programs below. -/
def run : List Ins → St → M St
  | [], s => pure s
  | i :: l, s => do
    let s ← i.step s
    run l s


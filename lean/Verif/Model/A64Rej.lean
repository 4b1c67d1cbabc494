import Verif.Model.X86Rej
/-! # Rejection sampling on AArch64 (`/repo/mlkem/native/aarch64/rej_uniform_asm_clean.S`)

Generated by `/verif/tools/gen_a64rej.py` (the table `table_data` is transcribed from the source).  This function has data-dependent control flow, so it is not a straight-line program of
`Verif.Model.A64Asm`; it is transcribed here instruction by instruction.  A vector register is a function from byte positions (0 the least significant) to bytes, of which the first 16
matter, as in `Verif.Model.X86Rej`; the instructions are modelled by their documented meaning.  Simplification: a general-purpose register that holds an address into a buffer is
represented by the index of the element it points to, and a 16-byte access to an array of `int16_t` by eight accesses to its elements. -/
namespace Verif.Model.A64Rej
open Verif.Model

/-- `ld3 {a, b, c}, [buf]` with `n`-byte registers: the bytes `3j`, `3j+1`, `3j+2` go to position `j` of the three registers; with `n = 8` the upper halves are cleared.  Used in rej_uniform_asm_clean.S 416 and elsewhere. -/
def ld3 (buf : Buf UInt8) (pos n : Nat) : M (VB × VB × VB) := do
  let v ← loadu buf pos (3 * n)
  pure (fun j => if j < n then v (3 * j) else 0, fun j => if j < n then v (3 * j + 1) else 0, fun j => if j < n then v (3 * j + 2) else 0)
/-- `zip1 d.16b, a.16b, b.16b`: the lower halves interleaved.  Used in rej_uniform_asm_clean.S 423 and elsewhere. -/
def zip1b (a b : VB) : VB := fun j => if j % 2 = 0 then a (j / 2) else b (j / 2)
/-- `zip2 d.16b, a.16b, b.16b`: the upper halves interleaved.  Used in rej_uniform_asm_clean.S 424 and elsewhere. -/
def zip2b (a b : VB) : VB := fun j => if j % 2 = 0 then a (8 + j / 2) else b (8 + j / 2)
/-- `zip1 d.8h, a.8h, b.8h`.  Used in rej_uniform_asm_clean.S 433 and elsewhere. -/
def zip1h (a b : VB) : VB := fun j => if j / 2 % 2 = 0 then a (2 * (j / 4) + j % 2) else b (2 * (j / 4) + j % 2)
/-- `zip2 d.8h, a.8h, b.8h`.  Used in rej_uniform_asm_clean.S 434 and elsewhere. -/
def zip2h (a b : VB) : VB := fun j => if j / 2 % 2 = 0 then a (8 + 2 * (j / 4) + j % 2) else b (8 + 2 * (j / 4) + j % 2)
/-- `bic d.8h, #imm, lsl #s`: clears bits of every 16-bit element.  Used in rej_uniform_asm_clean.S 428 and elsewhere. -/
def bic8h (a : VB) (imm s : Nat) : VB := of16 fun k => lane16 a k &&& (65535 ^^^ (imm <<< s))
/-- `ushr d.8h, a.8h, #n`.  Used in rej_uniform_asm_clean.S 430 and elsewhere. -/
def ushr8h (a : VB) (n : Nat) : VB := of16 fun k => lane16 a k >>> n
/-- `cmhi d.8h, a.8h, b.8h`: all ones in the elements where `a` is higher than `b`, unsigned.  Used in rej_uniform_asm_clean.S 450 and elsewhere. -/
def cmhi8h (a b : VB) : VB := of16 fun k => if lane16 a k > lane16 b k then 65535 else 0
/-- `and d.16b, a.16b, b.16b`.  Used in rej_uniform_asm_clean.S 456 and elsewhere. -/
def and16b (a b : VB) : VB := fun j => a j &&& b j
/-- `uaddlv s, a.8h`: the sum of the eight 16-bit elements.  Used in rej_uniform_asm_clean.S 462 and elsewhere. -/
def uaddlv8h (a : VB) : Nat :=
  lane16 a 0 + lane16 a 1 + lane16 a 2 + lane16 a 3 + lane16 a 4 + lane16 a 5 + lane16 a 6 + lane16 a 7
/-- `cnt d.16b, a.16b`: the number of set bits of every byte.  Used in rej_uniform_asm_clean.S 480 and elsewhere. -/
def cnt16b (a : VB) : VB := fun j => UInt8.ofNat ((List.range 8).filter fun i => (a j).toNat.testBit i).length
/-- `tbl d.16b, {a.16b}, t.16b`: byte `t j` of `a`, or 0 if there is none.  Used in rej_uniform_asm_clean.S 445 and elsewhere. -/
def tbl16b (a t : VB) : VB := fun j => if (t j).toNat < 16 then a (t j).toNat else 0

/-- `table_data`, lines 30-286 (`-1` is 255).  File: rej_uniform_asm_clean.S. -/
def tableData : List (List UInt8) := [
  [255, 255, 255, 255, 255, 255, 255, 255, 255, 255, 255, 255, 255, 255, 255, 255], [0, 1, 255, 255, 255, 255, 255, 255, 255, 255, 255, 255, 255, 255, 255, 255],
  [2, 3, 255, 255, 255, 255, 255, 255, 255, 255, 255, 255, 255, 255, 255, 255], [0, 1, 2, 3, 255, 255, 255, 255, 255, 255, 255, 255, 255, 255, 255, 255],
  [4, 5, 255, 255, 255, 255, 255, 255, 255, 255, 255, 255, 255, 255, 255, 255], [0, 1, 4, 5, 255, 255, 255, 255, 255, 255, 255, 255, 255, 255, 255, 255],
  [2, 3, 4, 5, 255, 255, 255, 255, 255, 255, 255, 255, 255, 255, 255, 255], [0, 1, 2, 3, 4, 5, 255, 255, 255, 255, 255, 255, 255, 255, 255, 255],
  [6, 7, 255, 255, 255, 255, 255, 255, 255, 255, 255, 255, 255, 255, 255, 255], [0, 1, 6, 7, 255, 255, 255, 255, 255, 255, 255, 255, 255, 255, 255, 255],
  [2, 3, 6, 7, 255, 255, 255, 255, 255, 255, 255, 255, 255, 255, 255, 255], [0, 1, 2, 3, 6, 7, 255, 255, 255, 255, 255, 255, 255, 255, 255, 255],
  [4, 5, 6, 7, 255, 255, 255, 255, 255, 255, 255, 255, 255, 255, 255, 255], [0, 1, 4, 5, 6, 7, 255, 255, 255, 255, 255, 255, 255, 255, 255, 255],
  [2, 3, 4, 5, 6, 7, 255, 255, 255, 255, 255, 255, 255, 255, 255, 255], [0, 1, 2, 3, 4, 5, 6, 7, 255, 255, 255, 255, 255, 255, 255, 255],
  [8, 9, 255, 255, 255, 255, 255, 255, 255, 255, 255, 255, 255, 255, 255, 255], [0, 1, 8, 9, 255, 255, 255, 255, 255, 255, 255, 255, 255, 255, 255, 255],
  [2, 3, 8, 9, 255, 255, 255, 255, 255, 255, 255, 255, 255, 255, 255, 255], [0, 1, 2, 3, 8, 9, 255, 255, 255, 255, 255, 255, 255, 255, 255, 255],
  [4, 5, 8, 9, 255, 255, 255, 255, 255, 255, 255, 255, 255, 255, 255, 255], [0, 1, 4, 5, 8, 9, 255, 255, 255, 255, 255, 255, 255, 255, 255, 255],
  [2, 3, 4, 5, 8, 9, 255, 255, 255, 255, 255, 255, 255, 255, 255, 255], [0, 1, 2, 3, 4, 5, 8, 9, 255, 255, 255, 255, 255, 255, 255, 255],
  [6, 7, 8, 9, 255, 255, 255, 255, 255, 255, 255, 255, 255, 255, 255, 255], [0, 1, 6, 7, 8, 9, 255, 255, 255, 255, 255, 255, 255, 255, 255, 255],
  [2, 3, 6, 7, 8, 9, 255, 255, 255, 255, 255, 255, 255, 255, 255, 255], [0, 1, 2, 3, 6, 7, 8, 9, 255, 255, 255, 255, 255, 255, 255, 255],
  [4, 5, 6, 7, 8, 9, 255, 255, 255, 255, 255, 255, 255, 255, 255, 255], [0, 1, 4, 5, 6, 7, 8, 9, 255, 255, 255, 255, 255, 255, 255, 255],
  [2, 3, 4, 5, 6, 7, 8, 9, 255, 255, 255, 255, 255, 255, 255, 255], [0, 1, 2, 3, 4, 5, 6, 7, 8, 9, 255, 255, 255, 255, 255, 255],
  [10, 11, 255, 255, 255, 255, 255, 255, 255, 255, 255, 255, 255, 255, 255, 255], [0, 1, 10, 11, 255, 255, 255, 255, 255, 255, 255, 255, 255, 255, 255, 255],
  [2, 3, 10, 11, 255, 255, 255, 255, 255, 255, 255, 255, 255, 255, 255, 255], [0, 1, 2, 3, 10, 11, 255, 255, 255, 255, 255, 255, 255, 255, 255, 255],
  [4, 5, 10, 11, 255, 255, 255, 255, 255, 255, 255, 255, 255, 255, 255, 255], [0, 1, 4, 5, 10, 11, 255, 255, 255, 255, 255, 255, 255, 255, 255, 255],
  [2, 3, 4, 5, 10, 11, 255, 255, 255, 255, 255, 255, 255, 255, 255, 255], [0, 1, 2, 3, 4, 5, 10, 11, 255, 255, 255, 255, 255, 255, 255, 255],
  [6, 7, 10, 11, 255, 255, 255, 255, 255, 255, 255, 255, 255, 255, 255, 255], [0, 1, 6, 7, 10, 11, 255, 255, 255, 255, 255, 255, 255, 255, 255, 255],
  [2, 3, 6, 7, 10, 11, 255, 255, 255, 255, 255, 255, 255, 255, 255, 255], [0, 1, 2, 3, 6, 7, 10, 11, 255, 255, 255, 255, 255, 255, 255, 255],
  [4, 5, 6, 7, 10, 11, 255, 255, 255, 255, 255, 255, 255, 255, 255, 255], [0, 1, 4, 5, 6, 7, 10, 11, 255, 255, 255, 255, 255, 255, 255, 255],
  [2, 3, 4, 5, 6, 7, 10, 11, 255, 255, 255, 255, 255, 255, 255, 255], [0, 1, 2, 3, 4, 5, 6, 7, 10, 11, 255, 255, 255, 255, 255, 255],
  [8, 9, 10, 11, 255, 255, 255, 255, 255, 255, 255, 255, 255, 255, 255, 255], [0, 1, 8, 9, 10, 11, 255, 255, 255, 255, 255, 255, 255, 255, 255, 255],
  [2, 3, 8, 9, 10, 11, 255, 255, 255, 255, 255, 255, 255, 255, 255, 255], [0, 1, 2, 3, 8, 9, 10, 11, 255, 255, 255, 255, 255, 255, 255, 255],
  [4, 5, 8, 9, 10, 11, 255, 255, 255, 255, 255, 255, 255, 255, 255, 255], [0, 1, 4, 5, 8, 9, 10, 11, 255, 255, 255, 255, 255, 255, 255, 255],
  [2, 3, 4, 5, 8, 9, 10, 11, 255, 255, 255, 255, 255, 255, 255, 255], [0, 1, 2, 3, 4, 5, 8, 9, 10, 11, 255, 255, 255, 255, 255, 255],
  [6, 7, 8, 9, 10, 11, 255, 255, 255, 255, 255, 255, 255, 255, 255, 255], [0, 1, 6, 7, 8, 9, 10, 11, 255, 255, 255, 255, 255, 255, 255, 255],
  [2, 3, 6, 7, 8, 9, 10, 11, 255, 255, 255, 255, 255, 255, 255, 255], [0, 1, 2, 3, 6, 7, 8, 9, 10, 11, 255, 255, 255, 255, 255, 255],
  [4, 5, 6, 7, 8, 9, 10, 11, 255, 255, 255, 255, 255, 255, 255, 255], [0, 1, 4, 5, 6, 7, 8, 9, 10, 11, 255, 255, 255, 255, 255, 255],
  [2, 3, 4, 5, 6, 7, 8, 9, 10, 11, 255, 255, 255, 255, 255, 255], [0, 1, 2, 3, 4, 5, 6, 7, 8, 9, 10, 11, 255, 255, 255, 255],
  [12, 13, 255, 255, 255, 255, 255, 255, 255, 255, 255, 255, 255, 255, 255, 255], [0, 1, 12, 13, 255, 255, 255, 255, 255, 255, 255, 255, 255, 255, 255, 255],
  [2, 3, 12, 13, 255, 255, 255, 255, 255, 255, 255, 255, 255, 255, 255, 255], [0, 1, 2, 3, 12, 13, 255, 255, 255, 255, 255, 255, 255, 255, 255, 255],
  [4, 5, 12, 13, 255, 255, 255, 255, 255, 255, 255, 255, 255, 255, 255, 255], [0, 1, 4, 5, 12, 13, 255, 255, 255, 255, 255, 255, 255, 255, 255, 255],
  [2, 3, 4, 5, 12, 13, 255, 255, 255, 255, 255, 255, 255, 255, 255, 255], [0, 1, 2, 3, 4, 5, 12, 13, 255, 255, 255, 255, 255, 255, 255, 255],
  [6, 7, 12, 13, 255, 255, 255, 255, 255, 255, 255, 255, 255, 255, 255, 255], [0, 1, 6, 7, 12, 13, 255, 255, 255, 255, 255, 255, 255, 255, 255, 255],
  [2, 3, 6, 7, 12, 13, 255, 255, 255, 255, 255, 255, 255, 255, 255, 255], [0, 1, 2, 3, 6, 7, 12, 13, 255, 255, 255, 255, 255, 255, 255, 255],
  [4, 5, 6, 7, 12, 13, 255, 255, 255, 255, 255, 255, 255, 255, 255, 255], [0, 1, 4, 5, 6, 7, 12, 13, 255, 255, 255, 255, 255, 255, 255, 255],
  [2, 3, 4, 5, 6, 7, 12, 13, 255, 255, 255, 255, 255, 255, 255, 255], [0, 1, 2, 3, 4, 5, 6, 7, 12, 13, 255, 255, 255, 255, 255, 255],
  [8, 9, 12, 13, 255, 255, 255, 255, 255, 255, 255, 255, 255, 255, 255, 255], [0, 1, 8, 9, 12, 13, 255, 255, 255, 255, 255, 255, 255, 255, 255, 255],
  [2, 3, 8, 9, 12, 13, 255, 255, 255, 255, 255, 255, 255, 255, 255, 255], [0, 1, 2, 3, 8, 9, 12, 13, 255, 255, 255, 255, 255, 255, 255, 255],
  [4, 5, 8, 9, 12, 13, 255, 255, 255, 255, 255, 255, 255, 255, 255, 255], [0, 1, 4, 5, 8, 9, 12, 13, 255, 255, 255, 255, 255, 255, 255, 255],
  [2, 3, 4, 5, 8, 9, 12, 13, 255, 255, 255, 255, 255, 255, 255, 255], [0, 1, 2, 3, 4, 5, 8, 9, 12, 13, 255, 255, 255, 255, 255, 255],
  [6, 7, 8, 9, 12, 13, 255, 255, 255, 255, 255, 255, 255, 255, 255, 255], [0, 1, 6, 7, 8, 9, 12, 13, 255, 255, 255, 255, 255, 255, 255, 255],
  [2, 3, 6, 7, 8, 9, 12, 13, 255, 255, 255, 255, 255, 255, 255, 255], [0, 1, 2, 3, 6, 7, 8, 9, 12, 13, 255, 255, 255, 255, 255, 255],
  [4, 5, 6, 7, 8, 9, 12, 13, 255, 255, 255, 255, 255, 255, 255, 255], [0, 1, 4, 5, 6, 7, 8, 9, 12, 13, 255, 255, 255, 255, 255, 255],
  [2, 3, 4, 5, 6, 7, 8, 9, 12, 13, 255, 255, 255, 255, 255, 255], [0, 1, 2, 3, 4, 5, 6, 7, 8, 9, 12, 13, 255, 255, 255, 255],
  [10, 11, 12, 13, 255, 255, 255, 255, 255, 255, 255, 255, 255, 255, 255, 255], [0, 1, 10, 11, 12, 13, 255, 255, 255, 255, 255, 255, 255, 255, 255, 255],
  [2, 3, 10, 11, 12, 13, 255, 255, 255, 255, 255, 255, 255, 255, 255, 255], [0, 1, 2, 3, 10, 11, 12, 13, 255, 255, 255, 255, 255, 255, 255, 255],
  [4, 5, 10, 11, 12, 13, 255, 255, 255, 255, 255, 255, 255, 255, 255, 255], [0, 1, 4, 5, 10, 11, 12, 13, 255, 255, 255, 255, 255, 255, 255, 255],
  [2, 3, 4, 5, 10, 11, 12, 13, 255, 255, 255, 255, 255, 255, 255, 255], [0, 1, 2, 3, 4, 5, 10, 11, 12, 13, 255, 255, 255, 255, 255, 255],
  [6, 7, 10, 11, 12, 13, 255, 255, 255, 255, 255, 255, 255, 255, 255, 255], [0, 1, 6, 7, 10, 11, 12, 13, 255, 255, 255, 255, 255, 255, 255, 255],
  [2, 3, 6, 7, 10, 11, 12, 13, 255, 255, 255, 255, 255, 255, 255, 255], [0, 1, 2, 3, 6, 7, 10, 11, 12, 13, 255, 255, 255, 255, 255, 255],
  [4, 5, 6, 7, 10, 11, 12, 13, 255, 255, 255, 255, 255, 255, 255, 255], [0, 1, 4, 5, 6, 7, 10, 11, 12, 13, 255, 255, 255, 255, 255, 255],
  [2, 3, 4, 5, 6, 7, 10, 11, 12, 13, 255, 255, 255, 255, 255, 255], [0, 1, 2, 3, 4, 5, 6, 7, 10, 11, 12, 13, 255, 255, 255, 255],
  [8, 9, 10, 11, 12, 13, 255, 255, 255, 255, 255, 255, 255, 255, 255, 255], [0, 1, 8, 9, 10, 11, 12, 13, 255, 255, 255, 255, 255, 255, 255, 255],
  [2, 3, 8, 9, 10, 11, 12, 13, 255, 255, 255, 255, 255, 255, 255, 255], [0, 1, 2, 3, 8, 9, 10, 11, 12, 13, 255, 255, 255, 255, 255, 255],
  [4, 5, 8, 9, 10, 11, 12, 13, 255, 255, 255, 255, 255, 255, 255, 255], [0, 1, 4, 5, 8, 9, 10, 11, 12, 13, 255, 255, 255, 255, 255, 255],
  [2, 3, 4, 5, 8, 9, 10, 11, 12, 13, 255, 255, 255, 255, 255, 255], [0, 1, 2, 3, 4, 5, 8, 9, 10, 11, 12, 13, 255, 255, 255, 255],
  [6, 7, 8, 9, 10, 11, 12, 13, 255, 255, 255, 255, 255, 255, 255, 255], [0, 1, 6, 7, 8, 9, 10, 11, 12, 13, 255, 255, 255, 255, 255, 255],
  [2, 3, 6, 7, 8, 9, 10, 11, 12, 13, 255, 255, 255, 255, 255, 255], [0, 1, 2, 3, 6, 7, 8, 9, 10, 11, 12, 13, 255, 255, 255, 255],
  [4, 5, 6, 7, 8, 9, 10, 11, 12, 13, 255, 255, 255, 255, 255, 255], [0, 1, 4, 5, 6, 7, 8, 9, 10, 11, 12, 13, 255, 255, 255, 255],
  [2, 3, 4, 5, 6, 7, 8, 9, 10, 11, 12, 13, 255, 255, 255, 255], [0, 1, 2, 3, 4, 5, 6, 7, 8, 9, 10, 11, 12, 13, 255, 255],
  [14, 15, 255, 255, 255, 255, 255, 255, 255, 255, 255, 255, 255, 255, 255, 255], [0, 1, 14, 15, 255, 255, 255, 255, 255, 255, 255, 255, 255, 255, 255, 255],
  [2, 3, 14, 15, 255, 255, 255, 255, 255, 255, 255, 255, 255, 255, 255, 255], [0, 1, 2, 3, 14, 15, 255, 255, 255, 255, 255, 255, 255, 255, 255, 255],
  [4, 5, 14, 15, 255, 255, 255, 255, 255, 255, 255, 255, 255, 255, 255, 255], [0, 1, 4, 5, 14, 15, 255, 255, 255, 255, 255, 255, 255, 255, 255, 255],
  [2, 3, 4, 5, 14, 15, 255, 255, 255, 255, 255, 255, 255, 255, 255, 255], [0, 1, 2, 3, 4, 5, 14, 15, 255, 255, 255, 255, 255, 255, 255, 255],
  [6, 7, 14, 15, 255, 255, 255, 255, 255, 255, 255, 255, 255, 255, 255, 255], [0, 1, 6, 7, 14, 15, 255, 255, 255, 255, 255, 255, 255, 255, 255, 255],
  [2, 3, 6, 7, 14, 15, 255, 255, 255, 255, 255, 255, 255, 255, 255, 255], [0, 1, 2, 3, 6, 7, 14, 15, 255, 255, 255, 255, 255, 255, 255, 255],
  [4, 5, 6, 7, 14, 15, 255, 255, 255, 255, 255, 255, 255, 255, 255, 255], [0, 1, 4, 5, 6, 7, 14, 15, 255, 255, 255, 255, 255, 255, 255, 255],
  [2, 3, 4, 5, 6, 7, 14, 15, 255, 255, 255, 255, 255, 255, 255, 255], [0, 1, 2, 3, 4, 5, 6, 7, 14, 15, 255, 255, 255, 255, 255, 255],
  [8, 9, 14, 15, 255, 255, 255, 255, 255, 255, 255, 255, 255, 255, 255, 255], [0, 1, 8, 9, 14, 15, 255, 255, 255, 255, 255, 255, 255, 255, 255, 255],
  [2, 3, 8, 9, 14, 15, 255, 255, 255, 255, 255, 255, 255, 255, 255, 255], [0, 1, 2, 3, 8, 9, 14, 15, 255, 255, 255, 255, 255, 255, 255, 255],
  [4, 5, 8, 9, 14, 15, 255, 255, 255, 255, 255, 255, 255, 255, 255, 255], [0, 1, 4, 5, 8, 9, 14, 15, 255, 255, 255, 255, 255, 255, 255, 255],
  [2, 3, 4, 5, 8, 9, 14, 15, 255, 255, 255, 255, 255, 255, 255, 255], [0, 1, 2, 3, 4, 5, 8, 9, 14, 15, 255, 255, 255, 255, 255, 255],
  [6, 7, 8, 9, 14, 15, 255, 255, 255, 255, 255, 255, 255, 255, 255, 255], [0, 1, 6, 7, 8, 9, 14, 15, 255, 255, 255, 255, 255, 255, 255, 255],
  [2, 3, 6, 7, 8, 9, 14, 15, 255, 255, 255, 255, 255, 255, 255, 255], [0, 1, 2, 3, 6, 7, 8, 9, 14, 15, 255, 255, 255, 255, 255, 255],
  [4, 5, 6, 7, 8, 9, 14, 15, 255, 255, 255, 255, 255, 255, 255, 255], [0, 1, 4, 5, 6, 7, 8, 9, 14, 15, 255, 255, 255, 255, 255, 255],
  [2, 3, 4, 5, 6, 7, 8, 9, 14, 15, 255, 255, 255, 255, 255, 255], [0, 1, 2, 3, 4, 5, 6, 7, 8, 9, 14, 15, 255, 255, 255, 255],
  [10, 11, 14, 15, 255, 255, 255, 255, 255, 255, 255, 255, 255, 255, 255, 255], [0, 1, 10, 11, 14, 15, 255, 255, 255, 255, 255, 255, 255, 255, 255, 255],
  [2, 3, 10, 11, 14, 15, 255, 255, 255, 255, 255, 255, 255, 255, 255, 255], [0, 1, 2, 3, 10, 11, 14, 15, 255, 255, 255, 255, 255, 255, 255, 255],
  [4, 5, 10, 11, 14, 15, 255, 255, 255, 255, 255, 255, 255, 255, 255, 255], [0, 1, 4, 5, 10, 11, 14, 15, 255, 255, 255, 255, 255, 255, 255, 255],
  [2, 3, 4, 5, 10, 11, 14, 15, 255, 255, 255, 255, 255, 255, 255, 255], [0, 1, 2, 3, 4, 5, 10, 11, 14, 15, 255, 255, 255, 255, 255, 255],
  [6, 7, 10, 11, 14, 15, 255, 255, 255, 255, 255, 255, 255, 255, 255, 255], [0, 1, 6, 7, 10, 11, 14, 15, 255, 255, 255, 255, 255, 255, 255, 255],
  [2, 3, 6, 7, 10, 11, 14, 15, 255, 255, 255, 255, 255, 255, 255, 255], [0, 1, 2, 3, 6, 7, 10, 11, 14, 15, 255, 255, 255, 255, 255, 255],
  [4, 5, 6, 7, 10, 11, 14, 15, 255, 255, 255, 255, 255, 255, 255, 255], [0, 1, 4, 5, 6, 7, 10, 11, 14, 15, 255, 255, 255, 255, 255, 255],
  [2, 3, 4, 5, 6, 7, 10, 11, 14, 15, 255, 255, 255, 255, 255, 255], [0, 1, 2, 3, 4, 5, 6, 7, 10, 11, 14, 15, 255, 255, 255, 255],
  [8, 9, 10, 11, 14, 15, 255, 255, 255, 255, 255, 255, 255, 255, 255, 255], [0, 1, 8, 9, 10, 11, 14, 15, 255, 255, 255, 255, 255, 255, 255, 255],
  [2, 3, 8, 9, 10, 11, 14, 15, 255, 255, 255, 255, 255, 255, 255, 255], [0, 1, 2, 3, 8, 9, 10, 11, 14, 15, 255, 255, 255, 255, 255, 255],
  [4, 5, 8, 9, 10, 11, 14, 15, 255, 255, 255, 255, 255, 255, 255, 255], [0, 1, 4, 5, 8, 9, 10, 11, 14, 15, 255, 255, 255, 255, 255, 255],
  [2, 3, 4, 5, 8, 9, 10, 11, 14, 15, 255, 255, 255, 255, 255, 255], [0, 1, 2, 3, 4, 5, 8, 9, 10, 11, 14, 15, 255, 255, 255, 255],
  [6, 7, 8, 9, 10, 11, 14, 15, 255, 255, 255, 255, 255, 255, 255, 255], [0, 1, 6, 7, 8, 9, 10, 11, 14, 15, 255, 255, 255, 255, 255, 255],
  [2, 3, 6, 7, 8, 9, 10, 11, 14, 15, 255, 255, 255, 255, 255, 255], [0, 1, 2, 3, 6, 7, 8, 9, 10, 11, 14, 15, 255, 255, 255, 255],
  [4, 5, 6, 7, 8, 9, 10, 11, 14, 15, 255, 255, 255, 255, 255, 255], [0, 1, 4, 5, 6, 7, 8, 9, 10, 11, 14, 15, 255, 255, 255, 255],
  [2, 3, 4, 5, 6, 7, 8, 9, 10, 11, 14, 15, 255, 255, 255, 255], [0, 1, 2, 3, 4, 5, 6, 7, 8, 9, 10, 11, 14, 15, 255, 255],
  [12, 13, 14, 15, 255, 255, 255, 255, 255, 255, 255, 255, 255, 255, 255, 255], [0, 1, 12, 13, 14, 15, 255, 255, 255, 255, 255, 255, 255, 255, 255, 255],
  [2, 3, 12, 13, 14, 15, 255, 255, 255, 255, 255, 255, 255, 255, 255, 255], [0, 1, 2, 3, 12, 13, 14, 15, 255, 255, 255, 255, 255, 255, 255, 255],
  [4, 5, 12, 13, 14, 15, 255, 255, 255, 255, 255, 255, 255, 255, 255, 255], [0, 1, 4, 5, 12, 13, 14, 15, 255, 255, 255, 255, 255, 255, 255, 255],
  [2, 3, 4, 5, 12, 13, 14, 15, 255, 255, 255, 255, 255, 255, 255, 255], [0, 1, 2, 3, 4, 5, 12, 13, 14, 15, 255, 255, 255, 255, 255, 255],
  [6, 7, 12, 13, 14, 15, 255, 255, 255, 255, 255, 255, 255, 255, 255, 255], [0, 1, 6, 7, 12, 13, 14, 15, 255, 255, 255, 255, 255, 255, 255, 255],
  [2, 3, 6, 7, 12, 13, 14, 15, 255, 255, 255, 255, 255, 255, 255, 255], [0, 1, 2, 3, 6, 7, 12, 13, 14, 15, 255, 255, 255, 255, 255, 255],
  [4, 5, 6, 7, 12, 13, 14, 15, 255, 255, 255, 255, 255, 255, 255, 255], [0, 1, 4, 5, 6, 7, 12, 13, 14, 15, 255, 255, 255, 255, 255, 255],
  [2, 3, 4, 5, 6, 7, 12, 13, 14, 15, 255, 255, 255, 255, 255, 255], [0, 1, 2, 3, 4, 5, 6, 7, 12, 13, 14, 15, 255, 255, 255, 255],
  [8, 9, 12, 13, 14, 15, 255, 255, 255, 255, 255, 255, 255, 255, 255, 255], [0, 1, 8, 9, 12, 13, 14, 15, 255, 255, 255, 255, 255, 255, 255, 255],
  [2, 3, 8, 9, 12, 13, 14, 15, 255, 255, 255, 255, 255, 255, 255, 255], [0, 1, 2, 3, 8, 9, 12, 13, 14, 15, 255, 255, 255, 255, 255, 255],
  [4, 5, 8, 9, 12, 13, 14, 15, 255, 255, 255, 255, 255, 255, 255, 255], [0, 1, 4, 5, 8, 9, 12, 13, 14, 15, 255, 255, 255, 255, 255, 255],
  [2, 3, 4, 5, 8, 9, 12, 13, 14, 15, 255, 255, 255, 255, 255, 255], [0, 1, 2, 3, 4, 5, 8, 9, 12, 13, 14, 15, 255, 255, 255, 255],
  [6, 7, 8, 9, 12, 13, 14, 15, 255, 255, 255, 255, 255, 255, 255, 255], [0, 1, 6, 7, 8, 9, 12, 13, 14, 15, 255, 255, 255, 255, 255, 255],
  [2, 3, 6, 7, 8, 9, 12, 13, 14, 15, 255, 255, 255, 255, 255, 255], [0, 1, 2, 3, 6, 7, 8, 9, 12, 13, 14, 15, 255, 255, 255, 255],
  [4, 5, 6, 7, 8, 9, 12, 13, 14, 15, 255, 255, 255, 255, 255, 255], [0, 1, 4, 5, 6, 7, 8, 9, 12, 13, 14, 15, 255, 255, 255, 255],
  [2, 3, 4, 5, 6, 7, 8, 9, 12, 13, 14, 15, 255, 255, 255, 255], [0, 1, 2, 3, 4, 5, 6, 7, 8, 9, 12, 13, 14, 15, 255, 255],
  [10, 11, 12, 13, 14, 15, 255, 255, 255, 255, 255, 255, 255, 255, 255, 255], [0, 1, 10, 11, 12, 13, 14, 15, 255, 255, 255, 255, 255, 255, 255, 255],
  [2, 3, 10, 11, 12, 13, 14, 15, 255, 255, 255, 255, 255, 255, 255, 255], [0, 1, 2, 3, 10, 11, 12, 13, 14, 15, 255, 255, 255, 255, 255, 255],
  [4, 5, 10, 11, 12, 13, 14, 15, 255, 255, 255, 255, 255, 255, 255, 255], [0, 1, 4, 5, 10, 11, 12, 13, 14, 15, 255, 255, 255, 255, 255, 255],
  [2, 3, 4, 5, 10, 11, 12, 13, 14, 15, 255, 255, 255, 255, 255, 255], [0, 1, 2, 3, 4, 5, 10, 11, 12, 13, 14, 15, 255, 255, 255, 255],
  [6, 7, 10, 11, 12, 13, 14, 15, 255, 255, 255, 255, 255, 255, 255, 255], [0, 1, 6, 7, 10, 11, 12, 13, 14, 15, 255, 255, 255, 255, 255, 255],
  [2, 3, 6, 7, 10, 11, 12, 13, 14, 15, 255, 255, 255, 255, 255, 255], [0, 1, 2, 3, 6, 7, 10, 11, 12, 13, 14, 15, 255, 255, 255, 255],
  [4, 5, 6, 7, 10, 11, 12, 13, 14, 15, 255, 255, 255, 255, 255, 255], [0, 1, 4, 5, 6, 7, 10, 11, 12, 13, 14, 15, 255, 255, 255, 255],
  [2, 3, 4, 5, 6, 7, 10, 11, 12, 13, 14, 15, 255, 255, 255, 255], [0, 1, 2, 3, 4, 5, 6, 7, 10, 11, 12, 13, 14, 15, 255, 255],
  [8, 9, 10, 11, 12, 13, 14, 15, 255, 255, 255, 255, 255, 255, 255, 255], [0, 1, 8, 9, 10, 11, 12, 13, 14, 15, 255, 255, 255, 255, 255, 255],
  [2, 3, 8, 9, 10, 11, 12, 13, 14, 15, 255, 255, 255, 255, 255, 255], [0, 1, 2, 3, 8, 9, 10, 11, 12, 13, 14, 15, 255, 255, 255, 255],
  [4, 5, 8, 9, 10, 11, 12, 13, 14, 15, 255, 255, 255, 255, 255, 255], [0, 1, 4, 5, 8, 9, 10, 11, 12, 13, 14, 15, 255, 255, 255, 255],
  [2, 3, 4, 5, 8, 9, 10, 11, 12, 13, 14, 15, 255, 255, 255, 255], [0, 1, 2, 3, 4, 5, 8, 9, 10, 11, 12, 13, 14, 15, 255, 255],
  [6, 7, 8, 9, 10, 11, 12, 13, 14, 15, 255, 255, 255, 255, 255, 255], [0, 1, 6, 7, 8, 9, 10, 11, 12, 13, 14, 15, 255, 255, 255, 255],
  [2, 3, 6, 7, 8, 9, 10, 11, 12, 13, 14, 15, 255, 255, 255, 255], [0, 1, 2, 3, 6, 7, 8, 9, 10, 11, 12, 13, 14, 15, 255, 255],
  [4, 5, 6, 7, 8, 9, 10, 11, 12, 13, 14, 15, 255, 255, 255, 255], [0, 1, 4, 5, 6, 7, 8, 9, 10, 11, 12, 13, 14, 15, 255, 255],
  [2, 3, 4, 5, 6, 7, 8, 9, 10, 11, 12, 13, 14, 15, 255, 255], [0, 1, 2, 3, 4, 5, 6, 7, 8, 9, 10, 11, 12, 13, 14, 15]]
/-- `ldr q, [table_idx, rec_idx, uxtw #4]`: row `m` of the table.  Used in rej_uniform_asm_clean.S 472 and elsewhere. -/
def ldrTable (m : Nat) : M VB := do
  let row ← rd (Buf.ofList tableData) m
  pure fun j => row.getD j 0
/-- `bits`, loaded from `bit_table_data`, lines 288-289.  File: rej_uniform_asm_clean.S. -/
def bits : VB := of16 fun k => [0x1, 0x2, 0x4, 0x8, 0x10, 0x20, 0x40, 0x80].getD k 0
/-- `mlkem_q`: `movz tmp, #MLKEM_Q; dup mlkem_q.8h, tmp`.  rej_uniform_asm_clean.S 395-396. -/
def mlkem_q : VB := of16 fun _ => 3329

/-- The loop state: the buffer on the stack, the position of `output_tmp` in it, `count`, the position of `buf`, `buflen`.  rej_uniform_asm_clean.S 389-606: the registers named at its top. -/
structure St where
  stk : Poly
  ot : Nat
  count : Nat
  pos : Nat
  buflen : Nat

/-- One round of `loop48` after its first two instructions, lines 418-517.  File: rej_uniform_asm_clean.S. -/
def round48 (buf : Buf UInt8) (s : St) : M St := do
  let buflen := s.buflen - 48
  let (buf0, buf1, buf2) ← ld3 buf s.pos 16
  let tmp0 := zip1b buf0 buf1
  let tmp1 := zip2b buf0 buf1
  let tmp2 := zip1b buf1 buf2
  let tmp3 := zip2b buf1 buf2
  let tmp0 := bic8h tmp0 0xf0 8
  let tmp1 := bic8h tmp1 0xf0 8
  let tmp2 := ushr8h tmp2 4
  let tmp3 := ushr8h tmp3 4
  let val0 := zip1h tmp0 tmp2
  let val1 := zip2h tmp0 tmp2
  let val2 := zip1h tmp1 tmp3
  let val3 := zip2h tmp1 tmp3
  let sign0 := cmhi8h mlkem_q val0
  let sign1 := cmhi8h mlkem_q val1
  let sign2 := cmhi8h mlkem_q val2
  let sign3 := cmhi8h mlkem_q val3
  let sign0 := and16b sign0 bits
  let sign1 := and16b sign1 bits
  let sign2 := and16b sign2 bits
  let sign3 := and16b sign3 bits
  let rec_idx_0 := uaddlv8h sign0
  let rec_idx_1 := uaddlv8h sign1
  let rec_idx_2 := uaddlv8h sign2
  let rec_idx_3 := uaddlv8h sign3
  let table0 ← ldrTable rec_idx_0
  let table1 ← ldrTable rec_idx_1
  let table2 ← ldrTable rec_idx_2
  let table3 ← ldrTable rec_idx_3
  let sign0 := cnt16b sign0
  let sign1 := cnt16b sign1
  let sign2 := cnt16b sign2
  let sign3 := cnt16b sign3
  let ctr0 := uaddlv8h sign0
  let ctr1 := uaddlv8h sign1
  let ctr2 := uaddlv8h sign2
  let ctr3 := uaddlv8h sign3
  let val0 := tbl16b val0 table0
  let val1 := tbl16b val1 table1
  let val2 := tbl16b val2 table2
  let val3 := tbl16b val3 table3
  let stk ← storeu128 s.stk s.ot val0 8
  let ot := s.ot + ctr0
  let stk ← storeu128 stk ot val1 8
  let ot := ot + ctr1
  let stk ← storeu128 stk ot val2 8
  let ot := ot + ctr2
  let stk ← storeu128 stk ot val3 8
  let ot := ot + ctr3
  let ctr01 := ctr0 + ctr1
  let ctr23 := ctr2 + ctr3
  let count := s.count + ctr01
  let count := count + ctr23
  pure ⟨stk, ot, count, s.pos + 48, buflen⟩

/-- The last round of 24 bytes, lines 530-576.  File: rej_uniform_asm_clean.S. -/
def round24 (buf : Buf UInt8) (s : St) : M St := do
  let buflen := s.buflen - 24
  let (buf0, buf1, buf2) ← ld3 buf s.pos 8
  let tmp0 := zip1b buf0 buf1
  let tmp1 := zip1b buf1 buf2
  let tmp0 := bic8h tmp0 0xf0 8
  let tmp1 := ushr8h tmp1 4
  let val0 := zip1h tmp0 tmp1
  let val1 := zip2h tmp0 tmp1
  let sign0 := cmhi8h mlkem_q val0
  let sign1 := cmhi8h mlkem_q val1
  let sign0 := and16b sign0 bits
  let sign1 := and16b sign1 bits
  let rec_idx_0 := uaddlv8h sign0
  let rec_idx_1 := uaddlv8h sign1
  let table0 ← ldrTable rec_idx_0
  let table1 ← ldrTable rec_idx_1
  let sign0 := cnt16b sign0
  let sign1 := cnt16b sign1
  let ctr0 := uaddlv8h sign0
  let ctr1 := uaddlv8h sign1
  let val0 := tbl16b val0 table0
  let val1 := tbl16b val1 table1
  let stk ← storeu128 s.stk s.ot val0 8
  let ot := s.ot + ctr0
  let stk ← storeu128 stk ot val1 8
  let ot := ot + ctr1
  let count := s.count + ctr0
  let count := count + ctr1
  pure ⟨stk, ot, count, s.pos + 24, buflen⟩

/-- `ldr q, [p]` and `str q, [q]`: eight elements of `src` at `i` go to `dst` at `o`; first `n` of them.  Simplification: the loads and stores alternate.  Used in rej_uniform_asm_clean.S 325 and elsewhere. -/
def copy8 (dst : Poly) (o : Nat) (src : Poly) (i : Nat) : Nat → M Poly
  | 0 => pure dst
  | n + 1 => do
    let dst ← copy8 dst o src i n
    let x ← rd src (i + n)
    wr dst (o + n) x

/-- `rej_uniform_asm_clean`, lines 389-606, at `r + ro`, with the contents `stk` (288 elements: `STACK_SIZE` is `2*256 + 64` bytes) of the stack buffer on entry.  Returns the output
buffer and `count`.  The loop is left either because fewer than 48 bytes remain (to `loop48_end`) or because there are 256 coefficients (to `memory_copy`); the plain `if` distinguishes
the two, it is not a branch of the program.  Each round consumes 48 bytes, so `buflen` rounds suffice; that this budget is never exhausted is a theorem.  File: rej_uniform_asm_clean.S. -/
def rej_uniform_asm_clean (r : Poly) (ro : Nat) (stk : Poly) (buf : Buf UInt8) (buflen : Nat) : M (Poly × Nat) := do
  let s ← whileM buflen
    (fun s => andM (decide (s.buflen ≥ 48)) (decide (s.count < 256)))
    (fun s => round48 buf s)
    (⟨stk, 0, 0, 0, buflen⟩ : St)
  let s ← if s.buflen ≥ 48 then pure s else
    branch (decide (s.count ≥ 256)) (pure s) (branch (decide (s.buflen < 24)) (pure s) (round24 buf s))
  let count := if s.count < 256 then s.count else 256
  let r ← forN 8 r fun i r => do
    let r ← copy8 r (ro + 32 * i) s.stk (32 * i) 8
    let r ← copy8 r (ro + 32 * i + 8) s.stk (32 * i + 8) 8
    let r ← copy8 r (ro + 32 * i + 16) s.stk (32 * i + 16) 8
    copy8 r (ro + 32 * i + 24) s.stk (32 * i + 24) 8
  pure (r, count)

/-- `rej_uniform_native`, profiles/clean.h 68-76 and profiles/opt.h 68-76, at `r + ro`: `none` is the return value `-1`. -/
def rej_uniform_native (r : Poly) (ro len : Nat) (stk : Poly) (buf : Buf UInt8) (buflen : Nat) : M (Poly × Option Nat) := do
  let c ← orM (decide (len ≠ 256)) (decide (buflen % 24 ≠ 0))
  branch c (pure (r, none)) (do
    let (r, ctr) ← rej_uniform_asm_clean r ro stk buf buflen
    pure (r, some ctr))

/-- `rej_uniform`, rej_uniform.c 78-90 (`MLKEM_USE_NATIVE_REJ_UNIFORM`). -/
def rej_uniform (stk : Poly) (r : Poly) (target offset : Nat) (buf : Buf UInt8) (buflen : Nat) : M (Poly × Nat) := do
  let (r, ret) ← rej_uniform_native r offset (sub32 target offset) stk buf buflen
  branch ret.isSome (pure (r, offset + ret.getD 0)) (rej_uniform_scalar r target offset buf buflen)

end Verif.Model.A64Rej

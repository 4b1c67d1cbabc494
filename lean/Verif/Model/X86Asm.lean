import Verif.Model.Poly
/-! # The AVX2 assembly of the x86_64 backend (`/repo/mlkem/native/x86_64/*.S`)

Generated by `/verif/tools/gen_avx2.py` (this head is hand-written: `/verif/tools/x86asm_head.txt`).

The instruction set is modelled by the meaning given in Intel's manual.  A `ymm` register is a function from the positions `0 … 15` (0 the least significant)
to 16-bit elements, written as signed numbers.  Memory is a collection of separate objects, one for each pointer argument (so the arguments of a function do not
overlap); an access outside the object, a read of an uninitialised element and a misaligned `vmovdqa` are errors.  Operands are in AT&T order: the last register is the
destination, and `op a b d` computes `b op a` into `d`.  All code here is straight-line; the only branches are calls, which are expanded. -/
namespace Verif.Model.X86

/-- The pointer arguments of the functions, and the stack slot.  Machine model: no line of /repo corresponds to it; the code it runs is that of the .S files cited at the programs below. -/
inductive Ptr where
  | rdi | rsi | rdx | rcx | rsp
deriving DecidableEq, Repr

/-- The instructions used.  Offsets of `_ld`, `_st`, `_m` operands count 16-bit elements, those of `vmovdqu` (byte arrays) count bytes.  Machine model: no line of /repo corresponds to it; the code it runs is that of the .S files cited at the programs below. -/
inductive Ins where
  | vmovdqa_ld (p : Ptr) (off d : Nat)
  | vmovdqa_st (s : Nat) (p : Ptr) (off : Nat)
  | vmovdqu_ld (p : Ptr) (off d : Nat)
  | vmovdqu_st (s : Nat) (p : Ptr) (off : Nat)
  | vpbroadcastq (p : Ptr) (off d : Nat)
  | vpermq (imm : Nat) (p : Ptr) (off d : Nat)
  | vpermd (p : Ptr) (off idx d : Nat)
  | vpsubw_m (p : Ptr) (off b d : Nat)
  | vpaddw (a b d : Nat)
  | vpsubw (a b d : Nat)
  | vpmullw (a b d : Nat)
  | vpmulhw (a b d : Nat)
  | vpand (a b d : Nat)
  | vpor (a b d : Nat)
  | vpsraw (imm a d : Nat)
  | vpsllw (imm a d : Nat)
  | vpsrlw (imm a d : Nat)
  | vpsrlq (imm a d : Nat)
  | vpslld (imm a d : Nat)
  | vpsrld (imm a d : Nat)
  | vperm2i128 (imm a b d : Nat)
  | vpblendd (imm a b d : Nat)
  | vpblendw (imm a b d : Nat)
  | vpunpcklqdq (a b d : Nat)
  | vpunpckhqdq (a b d : Nat)
  | vpshufb (a b d : Nat)
  | vmovsldup (a d : Nat)
deriving DecidableEq, Repr

/-- A 256-bit register as sixteen signed 16-bit elements.  Machine model: no line of /repo corresponds to it; the code it runs is that of the .S files cited at the programs below. -/
abbrev Ymm := Nat → Int

/-- The machine state: registers, objects of 16-bit elements and objects of bytes.  Machine model: no line of /repo corresponds to it; the code it runs is that of the .S files cited at the programs below. -/
structure St where
  ymm : Nat → Ymm
  w : Ptr → Buf Int
  b : Ptr → Buf UInt8

/-- The signed number in `-2^15 … 2^15 - 1` congruent to `x` modulo `2^16`.  Machine model: no line of /repo corresponds to it; the code it runs is that of the .S files cited at the programs below. -/
def s16 (x : Int) : Int := (x + 32768) % 65536 - 32768

/-- Write a register.  Machine model: no line of /repo corresponds to it; the code it runs is that of the .S files cited at the programs below. -/
def St.put (s : St) (d : Nat) (v : Ymm) : St := { s with ymm := fun r => if r = d then v else s.ymm r }
/-- Replace an object of 16-bit elements.  Machine model: no line of /repo corresponds to it; the code it runs is that of the .S files cited at the programs below. -/
def St.putw (s : St) (p : Ptr) (v : Buf Int) : St := { s with w := fun r => if r = p then v else s.w r }
/-- Replace an object of bytes.  Machine model: no line of /repo corresponds to it; the code it runs is that of the .S files cited at the programs below. -/
def St.putb (s : St) (p : Ptr) (v : Buf UInt8) : St := { s with b := fun r => if r = p then v else s.b r }

/-- Load the elements `off … off + n - 1`.  Machine model: no line of /repo corresponds to it; the code it runs is that of the .S files cited at the programs below. -/
def ldw (b : Buf Int) (off : Nat) : Nat → M Ymm
  | 0 => pure fun _ => 0
  | n + 1 => do
    let v ← ldw b off n
    let x ← rd b (off + n)
    pure fun k => if k = n then x else v k
/-- Store `n` elements at `off`.  Machine model: no line of /repo corresponds to it; the code it runs is that of the .S files cited at the programs below. -/
def stw (b : Buf Int) (off : Nat) (v : Ymm) : Nat → M (Buf Int)
  | 0 => pure b
  | n + 1 => do
    let b ← stw b off v n
    wr b (off + n) (v n)
/-- Load `n` elements of two bytes each (little-endian) from a byte array.  Machine model: no line of /repo corresponds to it; the code it runs is that of the .S files cited at the programs below. -/
def ldb (b : Buf UInt8) (off : Nat) : Nat → M Ymm
  | 0 => pure fun _ => 0
  | n + 1 => do
    let v ← ldb b off n
    let x ← rd b (off + 2 * n)
    let y ← rd b (off + 2 * n + 1)
    pure fun k => if k = n then s16 (x.toNat + 256 * y.toNat) else v k
/-- Store `n` elements as two bytes each (little-endian) in a byte array.  Machine model: no line of /repo corresponds to it; the code it runs is that of the .S files cited at the programs below. -/
def stb (b : Buf UInt8) (off : Nat) (v : Ymm) : Nat → M (Buf UInt8)
  | 0 => pure b
  | n + 1 => do
    let b ← stb b off v n
    let b ← wr b (off + 2 * n) (toU8 (u16 (v n)))
    wr b (off + 2 * n + 1) (toU8 (u16 (v n) / 256))
/-- Aligned load of 32 bytes; all 16-bit objects are 32-byte aligned (`ALIGN`, common.h 53-59, align.h). -/
def lda (b : Buf Int) (off : Nat) : M Ymm := if off % 16 = 0 then ldw b off 16 else M.fail .oob
/-- Aligned store of 32 bytes.  Machine model: no line of /repo corresponds to it; the code it runs is that of the .S files cited at the programs below. -/
def sta (b : Buf Int) (off : Nat) (v : Ymm) : M (Buf Int) := if off % 16 = 0 then stw b off v 16 else M.fail .oob

/-- 32-bit element `i`.  Machine model: no line of /repo corresponds to it; the code it runs is that of the .S files cited at the programs below. -/
def dword (v : Ymm) (i : Nat) : Nat := u16 (v (2 * i)) + 65536 * u16 (v (2 * i + 1))
/-- 64-bit element `i`.  Machine model: no line of /repo corresponds to it; the code it runs is that of the .S files cited at the programs below. -/
def qword (v : Ymm) (i : Nat) : Nat := dword v (2 * i) + 4294967296 * dword v (2 * i + 1)
/-- Byte `j`.  Machine model: no line of /repo corresponds to it; the code it runs is that of the .S files cited at the programs below. -/
def byte (v : Ymm) (j : Nat) : Nat := u16 (v (j / 2)) / 256 ^ (j % 2) % 256
/-- 16-bit element `k` of a number.  Machine model: no line of /repo corresponds to it; the code it runs is that of the .S files cited at the programs below. -/
def elem (x k : Nat) : Int := s16 ((x / 65536 ^ k % 65536 : Nat) : Int)

/-- `vperm2i128`: each half of the result is a half of `b` (selector 0, 1) or `a` (2, 3), or zero.  Used in shuffle.inc 7 and elsewhere. -/
def perm2i128 (imm : Nat) (a b : Ymm) : Ymm := fun k =>
  let c := imm / 16 ^ (k / 8) % 16
  if 8 ≤ c then 0 else if c % 4 < 2 then b (8 * (c % 2) + k % 8) else a (8 * (c % 2) + k % 8)
/-- `vpunpcklqdq`: the low 64 bits of each half of `b` and `a`.  Used in shuffle.inc 12 and elsewhere. -/
def unpacklq (a b : Ymm) : Ymm := fun k => if k % 8 < 4 then b k else a (k - 4)
/-- `vpunpckhqdq`: the high 64 bits of each half of `b` and `a`.  Used in shuffle.inc 13 and elsewhere. -/
def unpackhq (a b : Ymm) : Ymm := fun k => if k % 8 < 4 then b (k + 4) else a k
/-- `vmovsldup`: the even 32-bit elements, each twice.  Used in shuffle.inc 21 and elsewhere. -/
def movsldup (a : Ymm) : Ymm := fun k => a (4 * (k / 4) + k % 2)
/-- `vpshufb`: bytes of `b` selected within each half by the bytes of `a`.  Used in intt.S 91 and elsewhere. -/
def shufb (a b : Ymm) : Ymm := fun k =>
  let sel := fun j => if 128 ≤ byte a j then 0 else byte b (16 * (j / 16) + byte a j % 16)
  s16 ((sel (2 * k) + 256 * sel (2 * k + 1) : Nat) : Int)

/-- One instruction.  Machine model: no line of /repo corresponds to it; the code it runs is that of the .S files cited at the programs below. -/
def Ins.step (i : Ins) (s : St) : M St :=
  match i with
  | vmovdqa_ld p off d => do let v ← lda (s.w p) off; pure (s.put d v)
  | vmovdqa_st r p off => do let b ← sta (s.w p) off (s.ymm r); pure (s.putw p b)
  | vmovdqu_ld p off d => do let v ← ldb (s.b p) off 16; pure (s.put d v)
  | vmovdqu_st r p off => do let b ← stb (s.b p) off (s.ymm r) 16; pure (s.putb p b)
  | vpbroadcastq p off d => do let v ← ldw (s.w p) off 4; pure (s.put d fun k => v (k % 4))
  | vpermq imm p off d => do let v ← ldw (s.w p) off 16; pure (s.put d fun k => v (4 * (imm / 4 ^ (k / 4) % 4) + k % 4))
  | vpermd p off idx d => do let v ← ldw (s.w p) off 16; pure (s.put d fun k => v (2 * (dword (s.ymm idx) (k / 2) % 8) + k % 2))
  | vpsubw_m p off b d => do let v ← ldw (s.w p) off 16; pure (s.put d fun k => s16 (s.ymm b k - v k))
  | vpaddw a b d => pure (s.put d fun k => s16 (s.ymm b k + s.ymm a k))
  | vpsubw a b d => pure (s.put d fun k => s16 (s.ymm b k - s.ymm a k))
  | vpmullw a b d => pure (s.put d fun k => s16 (s.ymm b k * s.ymm a k))
  | vpmulhw a b d => pure (s.put d fun k => s.ymm b k * s.ymm a k / 65536)
  | vpand a b d => pure (s.put d fun k => s16 ((u16 (s.ymm b k) &&& u16 (s.ymm a k) : Nat) : Int))
  | vpor a b d => pure (s.put d fun k => s16 ((u16 (s.ymm b k) ||| u16 (s.ymm a k) : Nat) : Int))
  | vpsraw imm a d => pure (s.put d fun k => s.ymm a k / 2 ^ imm)
  | vpsllw imm a d => pure (s.put d fun k => s16 ((u16 (s.ymm a k) * 2 ^ imm : Nat) : Int))
  | vpsrlw imm a d => pure (s.put d fun k => s16 ((u16 (s.ymm a k) / 2 ^ imm : Nat) : Int))
  | vpsrlq imm a d => pure (s.put d fun k => elem (qword (s.ymm a) (k / 4) / 2 ^ imm) (k % 4))
  | vpslld imm a d => pure (s.put d fun k => elem (dword (s.ymm a) (k / 2) * 2 ^ imm) (k % 2))
  | vpsrld imm a d => pure (s.put d fun k => elem (dword (s.ymm a) (k / 2) / 2 ^ imm) (k % 2))
  | vperm2i128 imm a b d => pure (s.put d (perm2i128 imm (s.ymm a) (s.ymm b)))
  | vpblendd imm a b d => pure (s.put d fun k => if imm.testBit (k / 2) then s.ymm a k else s.ymm b k)
  | vpblendw imm a b d => pure (s.put d fun k => if imm.testBit (k % 8) then s.ymm a k else s.ymm b k)
  | vpunpcklqdq a b d => pure (s.put d (unpacklq (s.ymm a) (s.ymm b)))
  | vpunpckhqdq a b d => pure (s.put d (unpackhq (s.ymm a) (s.ymm b)))
  | vpshufb a b d => pure (s.put d (shufb (s.ymm a) (s.ymm b)))
  | vmovsldup a d => pure (s.put d (movsldup (s.ymm a)))

/-- A straight-line program.  Machine model: no line of /repo corresponds to it; the code it runs is that of the .S files cited at the programs below. -/
def run : List Ins → St → M St
  | [], s => pure s
  | i :: l, s => do
    let s ← i.step s
    run l s


/-! ## Constants (consts.h 16-27, consts.c 30-87, x86_64_zetas.i) -/

/-- consts.h: offset `_16XQ` in 16-bit elements.  consts.h 16. -/
abbrev _16XQ : Nat := 0
/-- consts.h: offset `_16XQINV` in 16-bit elements.  consts.h 17. -/
abbrev _16XQINV : Nat := 16
/-- consts.h: offset `_16XV` in 16-bit elements.  consts.h 18. -/
abbrev _16XV : Nat := 32
/-- consts.h: offset `_16XFLO` in 16-bit elements.  consts.h 19. -/
abbrev _16XFLO : Nat := 48
/-- consts.h: offset `_16XFHI` in 16-bit elements.  consts.h 20. -/
abbrev _16XFHI : Nat := 64
/-- consts.h: offset `_16XMONTSQLO` in 16-bit elements.  consts.h 21. -/
abbrev _16XMONTSQLO : Nat := 80
/-- consts.h: offset `_16XMONTSQHI` in 16-bit elements.  consts.h 22. -/
abbrev _16XMONTSQHI : Nat := 96
/-- consts.h: offset `_16XMASK` in 16-bit elements.  consts.h 23. -/
abbrev _16XMASK : Nat := 112
/-- consts.h: offset `_REVIDXB` in 16-bit elements.  consts.h 24. -/
abbrev _REVIDXB : Nat := 128
/-- consts.h: offset `_REVIDXD` in 16-bit elements.  consts.h 25. -/
abbrev _REVIDXD : Nat := 144
/-- consts.h: offset `_ZETAS_EXP` in 16-bit elements.  consts.h 26. -/
abbrev _ZETAS_EXP : Nat := 160
/-- consts.h: offset `_16XSHIFT` in 16-bit elements.  consts.h 27. -/
abbrev _16XSHIFT : Nat := 624
/-- consts.c 30-87 with x86_64_zetas.i: the table `qdata`. -/
def qdataList : List Int := [
  3329, 3329, 3329, 3329, 3329, 3329, 3329, 3329, 3329, 3329, 3329, 3329, 3329, 3329, 3329, 3329,
  -3327, -3327, -3327, -3327, -3327, -3327, -3327, -3327, -3327, -3327, -3327, -3327, -3327, -3327, -3327, -3327,
  20159, 20159, 20159, 20159, 20159, 20159, 20159, 20159, 20159, 20159, 20159, 20159, 20159, 20159, 20159, 20159,
  -10079, -10079, -10079, -10079, -10079, -10079, -10079, -10079, -10079, -10079, -10079, -10079, -10079, -10079, -10079, -10079,
  1441, 1441, 1441, 1441, 1441, 1441, 1441, 1441, 1441, 1441, 1441, 1441, 1441, 1441, 1441, 1441,
  20553, 20553, 20553, 20553, 20553, 20553, 20553, 20553, 20553, 20553, 20553, 20553, 20553, 20553, 20553, 20553,
  1353, 1353, 1353, 1353, 1353, 1353, 1353, 1353, 1353, 1353, 1353, 1353, 1353, 1353, 1353, 1353,
  4095, 4095, 4095, 4095, 4095, 4095, 4095, 4095, 4095, 4095, 4095, 4095, 4095, 4095, 4095, 4095,
  3854, 3340, 2826, 2312, 1798, 1284, 770, 256, 3854, 3340, 2826, 2312, 1798, 1284, 770, 256,
  7, 0, 6, 0, 5, 0, 4, 0, 3, 0, 2, 0, 1, 0, 0, 0,
  31498, 31498, 31498, 31498, -758, -758, -758, -758, 0, 0, 0, 0, 0, 0, 0, 0,
  14745, 14745, 14745, 14745, 14745, 14745, 14745, 14745, 14745, 14745, 14745, 14745, 14745, 14745, 14745, 14745,
  -359, -359, -359, -359, -359, -359, -359, -359, -359, -359, -359, -359, -359, -359, -359, -359,
  13525, 13525, 13525, 13525, 13525, 13525, 13525, 13525, -12402, -12402, -12402, -12402, -12402, -12402, -12402, -12402,
  1493, 1493, 1493, 1493, 1493, 1493, 1493, 1493, 1422, 1422, 1422, 1422, 1422, 1422, 1422, 1422,
  -20907, -20907, -20907, -20907, 27758, 27758, 27758, 27758, -3799, -3799, -3799, -3799, -15690, -15690, -15690, -15690,
  -171, -171, -171, -171, 622, 622, 622, 622, 1577, 1577, 1577, 1577, 182, 182, 182, 182,
  -5827, -5827, 17363, 17363, -26360, -26360, -29057, -29057, 5571, 5571, -1102, -1102, 21438, 21438, -26242, -26242,
  573, 573, -1325, -1325, 264, 264, 383, 383, -829, -829, 1458, 1458, -1602, -1602, -130, -130,
  -5689, -6516, 1496, 30967, -23565, 20179, 20710, 25080, -12796, 26616, 16064, -12442, 9134, -650, -25986, 27837,
  1223, 652, -552, 1015, -1293, 1491, -282, -1544, 516, -8, -320, -666, -1618, -1162, 126, 1469,
  -335, -11477, -32227, 20494, -27738, 945, -14883, 6182, 32010, 10631, 29175, -28762, -18486, 17560, -14430, -5276,
  -1103, 555, -1251, 1550, 422, 177, -291, 1574, -246, 1159, -777, -602, -1590, -872, 418, -156,
  11182, 13387, -14233, -21655, 13131, -4587, 23092, 5493, -32502, 30317, -18741, 12639, 20100, 18525, 19529, -12619,
  430, 843, 871, 105, 587, -235, -460, 1653, 778, -147, 1483, 1119, 644, 349, 329, -75,
  787, 787, 787, 787, 787, 787, 787, 787, 787, 787, 787, 787, 787, 787, 787, 787,
  -1517, -1517, -1517, -1517, -1517, -1517, -1517, -1517, -1517, -1517, -1517, -1517, -1517, -1517, -1517, -1517,
  28191, 28191, 28191, 28191, 28191, 28191, 28191, 28191, -16694, -16694, -16694, -16694, -16694, -16694, -16694, -16694,
  287, 287, 287, 287, 287, 287, 287, 287, 202, 202, 202, 202, 202, 202, 202, 202,
  10690, 10690, 10690, 10690, 1358, 1358, 1358, 1358, -11202, -11202, -11202, -11202, 31164, 31164, 31164, 31164,
  962, 962, 962, 962, -1202, -1202, -1202, -1202, -1474, -1474, -1474, -1474, 1468, 1468, 1468, 1468,
  -28073, -28073, 24313, 24313, -10532, -10532, 8800, 8800, 18426, 18426, 8859, 8859, 26675, 26675, -16163, -16163,
  -681, -681, 1017, 1017, 732, 732, 608, 608, -1542, -1542, 411, 411, -205, -205, -1571, -1571,
  19883, -28250, -15887, -8898, -28309, 9075, -30199, 18249, 13426, 14017, -29156, -12757, 16832, 4311, -24155, -17915,
  -853, -90, -271, 830, 107, -1421, -247, -951, -398, 961, -1508, -725, 448, -1065, 677, -1275,
  -31183, 25435, -7382, 24391, -20927, 10946, 24214, 16989, 10335, -7934, -22502, 10906, 31636, 28644, 23998, -17422,
  817, 603, 1322, -1465, -1215, 1218, -874, -1187, -1185, -1278, -1510, -870, -108, 996, 958, 1522,
  20297, 2146, 15355, -32384, -6280, -14903, -11044, 14469, -21498, -20198, 23210, -17442, -23860, -20257, 7756, 23132,
  1097, 610, -1285, 384, -136, -1335, 220, -1659, -1530, 794, -854, 478, -308, 991, -1460, 1628,
  32, 32, 32, 32, 32, 32, 32, 32, 32, 32, 32, 32, 32, 32, 32, 32]
/-- The object `qdata`.  consts.c 30. -/
def qdata : Buf Int := Buf.ofList qdataList

/-! ## shuffle.inc and fq.inc -/

/-- shuffle.inc 6-9: macro `shuffle8`. -/
def shuffle8 (r0 : Nat) (r1 : Nat) (r2 : Nat) (r3 : Nat) : List Ins :=
    [.vperm2i128 32 r1 r0 r2,
    .vperm2i128 49 r1 r0 r3]

/-- shuffle.inc 11-14: macro `shuffle4`. -/
def shuffle4 (r0 : Nat) (r1 : Nat) (r2 : Nat) (r3 : Nat) : List Ins :=
    [.vpunpcklqdq r1 r0 r2,
    .vpunpckhqdq r1 r0 r3]

/-- shuffle.inc 19-30: macro `shuffle2`. -/
def shuffle2 (r0 : Nat) (r1 : Nat) (r2 : Nat) (r3 : Nat) : List Ins :=
    [.vmovsldup r1 r2,
    .vpblendd 170 r2 r0 r2,
    .vpsrlq 32 r0 r0,
    .vpblendd 170 r1 r0 r3]

/-- shuffle.inc 32-37: macro `shuffle1`. -/
def shuffle1 (r0 : Nat) (r1 : Nat) (r2 : Nat) (r3 : Nat) : List Ins :=
    [.vpslld 16 r1 r2,
    .vpblendw 170 r2 r0 r2,
    .vpsrld 16 r0 r0,
    .vpblendw 170 r1 r0 r3]

/-- fq.inc 11-20: macro `red16` (every use has `rs` = 0: the `.else` branch). -/
def red16 (r : Nat) (x : Nat := 12) : List Ins :=
    [.vpmulhw 1 r x,
    .vpsraw 10 x x,
    .vpmullw 0 x x,
    .vpsubw x r r]

/-- fq.inc 22-27: macro `csubq`. -/
def csubq (r : Nat) (x : Nat := 12) : List Ins :=
    [.vpsubw 0 r r,
    .vpsraw 15 r x,
    .vpand 0 x x,
    .vpaddw x r r]

/-- fq.inc 29-33: macro `caddq`. -/
def caddq (r : Nat) (x : Nat := 12) : List Ins :=
    [.vpsraw 15 r x,
    .vpand 0 x x,
    .vpaddw x r r]

/-- fq.inc 37-42: macro `fqmulprecomp`. -/
def fqmulprecomp (al : Nat) (ah : Nat) (b : Nat) (x : Nat := 12) : List Ins :=
    [.vpmullw al b x,
    .vpmulhw ah b b,
    .vpmulhw 0 x x,
    .vpsubw x b b]

/-! ## ntt.S -/
namespace Ntt

/-- ntt.S 19-31: macro `mul`. -/
def mul (rh0 : Nat) (rh1 : Nat) (rh2 : Nat) (rh3 : Nat) (zl0 : Nat := 15) (zl1 : Nat := 15) (zh0 : Nat := 2) (zh1 : Nat := 2) : List Ins :=
    [.vpmullw zl0 rh0 12,
    .vpmullw zl0 rh1 13,
    .vpmullw zl1 rh2 14,
    .vpmullw zl1 rh3 15,
    .vpmulhw zh0 rh0 rh0,
    .vpmulhw zh0 rh1 rh1,
    .vpmulhw zh1 rh2 rh2,
    .vpmulhw zh1 rh3 rh3]

/-- ntt.S 35-41: macro `reduce`. -/
def reduce : List Ins :=
    [.vpmulhw 0 12 12,
    .vpmulhw 0 13 13,
    .vpmulhw 0 14 14,
    .vpmulhw 0 15 15]

/-- ntt.S 61-79: macro `update`. -/
def update (rln : Nat) (rl0 : Nat) (rl1 : Nat) (rl2 : Nat) (rl3 : Nat) (rh0 : Nat) (rh1 : Nat) (rh2 : Nat) (rh3 : Nat) : List Ins :=
    [.vpaddw rh0 rl0 rln,
    .vpsubw rh0 rl0 rh0,
    .vpaddw rh1 rl1 rl0,
    .vpsubw rh1 rl1 rh1,
    .vpaddw rh2 rl2 rl1,
    .vpsubw rh2 rl2 rh2,
    .vpaddw rh3 rl3 rl2,
    .vpsubw rh3 rl3 rh3,
    .vpsubw 12 rln rln,
    .vpaddw 12 rh0 rh0,
    .vpsubw 13 rl0 rl0,
    .vpaddw 13 rh1 rh1,
    .vpsubw 14 rl1 rl1,
    .vpaddw 14 rh2 rh2,
    .vpsubw 15 rl2 rl2,
    .vpaddw 15 rh3 rh3]

/-- ntt.S 81-107: macro `level0`. -/
def level0 (off : Nat) : List Ins :=
    [.vpbroadcastq .rsi ((_ZETAS_EXP+0)) 15,
    .vmovdqa_ld .rdi ((64*off+128)) 8,
    .vmovdqa_ld .rdi ((64*off+144)) 9,
    .vmovdqa_ld .rdi ((64*off+160)) 10,
    .vmovdqa_ld .rdi ((64*off+176)) 11,
    .vpbroadcastq .rsi ((_ZETAS_EXP+4)) 2] ++
    mul 8 9 10 11 ++
    [.vmovdqa_ld .rdi ((64*off+0)) 4,
    .vmovdqa_ld .rdi ((64*off+16)) 5,
    .vmovdqa_ld .rdi ((64*off+32)) 6,
    .vmovdqa_ld .rdi ((64*off+48)) 7] ++
    reduce ++
    update 3 4 5 6 7 8 9 10 11 ++
    [.vmovdqa_st 3 .rdi ((64*off+0)),
    .vmovdqa_st 4 .rdi ((64*off+16)),
    .vmovdqa_st 5 .rdi ((64*off+32)),
    .vmovdqa_st 6 .rdi ((64*off+48)),
    .vmovdqa_st 8 .rdi ((64*off+128)),
    .vmovdqa_st 9 .rdi ((64*off+144)),
    .vmovdqa_st 10 .rdi ((64*off+160)),
    .vmovdqa_st 11 .rdi ((64*off+176))]

/-- ntt.S 109-207: macro `levels1t6`. -/
def levels1t6 (off : Nat) : List Ins :=
    [.vmovdqa_ld .rsi ((_ZETAS_EXP+224*off+16)) 15,
    .vmovdqa_ld .rdi ((128*off+64)) 8,
    .vmovdqa_ld .rdi ((128*off+80)) 9,
    .vmovdqa_ld .rdi ((128*off+96)) 10,
    .vmovdqa_ld .rdi ((128*off+112)) 11,
    .vmovdqa_ld .rsi ((_ZETAS_EXP+224*off+32)) 2] ++
    mul 8 9 10 11 ++
    [.vmovdqa_ld .rdi ((128*off+0)) 4,
    .vmovdqa_ld .rdi ((128*off+16)) 5,
    .vmovdqa_ld .rdi ((128*off+32)) 6,
    .vmovdqa_ld .rdi ((128*off+48)) 7] ++
    reduce ++
    update 3 4 5 6 7 8 9 10 11 ++
    shuffle8 5 10 7 10 ++
    shuffle8 6 11 5 11 ++
    [.vmovdqa_ld .rsi ((_ZETAS_EXP+224*off+48)) 15,
    .vmovdqa_ld .rsi ((_ZETAS_EXP+224*off+64)) 2] ++
    mul 7 10 5 11 ++
    shuffle8 3 8 6 8 ++
    shuffle8 4 9 3 9 ++
    reduce ++
    update 4 6 8 3 9 7 10 5 11 ++
    shuffle4 8 5 9 5 ++
    shuffle4 3 11 8 11 ++
    [.vmovdqa_ld .rsi ((_ZETAS_EXP+224*off+80)) 15,
    .vmovdqa_ld .rsi ((_ZETAS_EXP+224*off+96)) 2] ++
    mul 9 5 8 11 ++
    shuffle4 4 7 3 7 ++
    shuffle4 6 10 4 10 ++
    reduce ++
    update 6 3 7 4 10 9 5 8 11 ++
    shuffle2 7 8 10 8 ++
    shuffle2 4 11 7 11 ++
    [.vmovdqa_ld .rsi ((_ZETAS_EXP+224*off+112)) 15,
    .vmovdqa_ld .rsi ((_ZETAS_EXP+224*off+128)) 2] ++
    mul 10 8 7 11 ++
    shuffle2 6 9 4 9 ++
    shuffle2 3 5 6 5 ++
    reduce ++
    update 3 4 9 6 5 10 8 7 11 ++
    shuffle1 9 7 5 7 ++
    shuffle1 6 11 9 11 ++
    [.vmovdqa_ld .rsi ((_ZETAS_EXP+224*off+144)) 15,
    .vmovdqa_ld .rsi ((_ZETAS_EXP+224*off+160)) 2] ++
    mul 5 7 9 11 ++
    shuffle1 3 10 6 10 ++
    shuffle1 4 8 3 8 ++
    reduce ++
    update 4 6 10 3 8 5 7 9 11 ++
    [.vmovdqa_ld .rsi ((_ZETAS_EXP+224*off+176)) 14,
    .vmovdqa_ld .rsi ((_ZETAS_EXP+224*off+208)) 15,
    .vmovdqa_ld .rsi ((_ZETAS_EXP+224*off+192)) 8,
    .vmovdqa_ld .rsi ((_ZETAS_EXP+224*off+224)) 2] ++
    mul 10 3 9 11 14 15 8 2 ++
    reduce ++
    update 8 4 6 5 7 10 3 9 11 ++
    [.vmovdqa_st 8 .rdi ((128*off+0)),
    .vmovdqa_st 4 .rdi ((128*off+16)),
    .vmovdqa_st 10 .rdi ((128*off+32)),
    .vmovdqa_st 3 .rdi ((128*off+48)),
    .vmovdqa_st 6 .rdi ((128*off+64)),
    .vmovdqa_st 5 .rdi ((128*off+80)),
    .vmovdqa_st 9 .rdi ((128*off+96)),
    .vmovdqa_st 11 .rdi ((128*off+112))]

/-- ntt.S 211-220: `MLKEM_NAMESPACE(ntt_avx2)`. -/
def ntt_avx2 : List Ins :=
    [.vmovdqa_ld .rsi (_16XQ) 0] ++
    level0 0 ++
    level0 1 ++
    levels1t6 0 ++
    levels1t6 1

end Ntt
/-! ## intt.S -/
namespace Intt

/-- intt.S 24-56: macro `butterfly`. -/
def butterfly (rl0 : Nat) (rl1 : Nat) (rl2 : Nat) (rl3 : Nat) (rh0 : Nat) (rh1 : Nat) (rh2 : Nat) (rh3 : Nat) (zl0 : Nat := 2) (zl1 : Nat := 2) (zh0 : Nat := 3) (zh1 : Nat := 3) : List Ins :=
    [.vpsubw rl0 rh0 12,
    .vpaddw rh0 rl0 rl0,
    .vpsubw rl1 rh1 13,
    .vpmullw zl0 12 rh0,
    .vpaddw rh1 rl1 rl1,
    .vpsubw rl2 rh2 14,
    .vpmullw zl0 13 rh1,
    .vpaddw rh2 rl2 rl2,
    .vpsubw rl3 rh3 15,
    .vpmullw zl1 14 rh2,
    .vpaddw rh3 rl3 rl3,
    .vpmullw zl1 15 rh3,
    .vpmulhw zh0 12 12,
    .vpmulhw zh0 13 13,
    .vpmulhw zh1 14 14,
    .vpmulhw zh1 15 15,
    .vpmulhw 0 rh0 rh0,
    .vpmulhw 0 rh1 rh1,
    .vpmulhw 0 rh2 rh2,
    .vpmulhw 0 rh3 rh3,
    .vpsubw rh0 12 rh0,
    .vpsubw rh1 13 rh1,
    .vpsubw rh2 14 rh2,
    .vpsubw rh3 15 rh3]

/-- intt.S 58-211: macro `intt_levels0t5`. -/
def intt_levels0t5 (off : Nat) : List Ins :=
    [.vmovdqa_ld .rsi (_16XFLO) 2,
    .vmovdqa_ld .rsi (_16XFHI) 3,
    .vmovdqa_ld .rdi ((128*off+0)) 4,
    .vmovdqa_ld .rdi ((128*off+32)) 6,
    .vmovdqa_ld .rdi ((128*off+16)) 5,
    .vmovdqa_ld .rdi ((128*off+48)) 7] ++
    fqmulprecomp 2 3 4 ++
    fqmulprecomp 2 3 6 ++
    fqmulprecomp 2 3 5 ++
    fqmulprecomp 2 3 7 ++
    [.vmovdqa_ld .rdi ((128*off+64)) 8,
    .vmovdqa_ld .rdi ((128*off+96)) 10,
    .vmovdqa_ld .rdi ((128*off+80)) 9,
    .vmovdqa_ld .rdi ((128*off+112)) 11] ++
    fqmulprecomp 2 3 8 ++
    fqmulprecomp 2 3 10 ++
    fqmulprecomp 2 3 9 ++
    fqmulprecomp 2 3 11 ++
    [.vpermq 78 .rsi ((_ZETAS_EXP+(1-off)*224+208)) 15,
    .vpermq 78 .rsi ((_ZETAS_EXP+(1-off)*224+176)) 1,
    .vpermq 78 .rsi ((_ZETAS_EXP+(1-off)*224+224)) 2,
    .vpermq 78 .rsi ((_ZETAS_EXP+(1-off)*224+192)) 3,
    .vmovdqa_ld .rsi (_REVIDXB) 12,
    .vpshufb 12 15 15,
    .vpshufb 12 1 1,
    .vpshufb 12 2 2,
    .vpshufb 12 3 3] ++
    butterfly 4 5 8 9 6 7 10 11 15 1 2 3 ++
    [.vpermq 78 .rsi ((_ZETAS_EXP+(1-off)*224+144)) 2,
    .vpermq 78 .rsi ((_ZETAS_EXP+(1-off)*224+160)) 3,
    .vmovdqa_ld .rsi (_REVIDXB) 1,
    .vpshufb 1 2 2,
    .vpshufb 1 3 3] ++
    butterfly 4 5 6 7 8 9 10 11 2 2 3 3 ++
    shuffle1 4 5 3 5 ++
    shuffle1 6 7 4 7 ++
    shuffle1 8 9 6 9 ++
    shuffle1 10 11 8 11 ++
    [.vmovdqa_ld .rsi (_REVIDXD) 12,
    .vpermd .rsi ((_ZETAS_EXP+(1-off)*224+112)) 12 2,
    .vpermd .rsi ((_ZETAS_EXP+(1-off)*224+128)) 12 10] ++
    butterfly 3 4 6 8 5 7 9 11 2 2 10 10 ++
    [.vmovdqa_ld .rsi (_16XV) 1] ++
    red16 3 ++
    shuffle2 3 4 10 4 ++
    shuffle2 6 8 3 8 ++
    shuffle2 5 7 6 7 ++
    shuffle2 9 11 5 11 ++
    [.vpermq 27 .rsi ((_ZETAS_EXP+(1-off)*224+80)) 2,
    .vpermq 27 .rsi ((_ZETAS_EXP+(1-off)*224+96)) 9] ++
    butterfly 10 3 6 5 4 8 7 11 2 2 9 9 ++
    red16 10 ++
    shuffle4 10 3 9 3 ++
    shuffle4 6 5 10 5 ++
    shuffle4 4 8 6 8 ++
    shuffle4 7 11 4 11 ++
    [.vpermq 78 .rsi ((_ZETAS_EXP+(1-off)*224+48)) 2,
    .vpermq 78 .rsi ((_ZETAS_EXP+(1-off)*224+64)) 7] ++
    butterfly 9 10 6 4 3 5 8 11 2 2 7 7 ++
    red16 9 ++
    shuffle8 9 10 7 10 ++
    shuffle8 6 4 9 4 ++
    shuffle8 3 5 6 5 ++
    shuffle8 8 11 3 11 ++
    [.vmovdqa_ld .rsi ((_ZETAS_EXP+(1-off)*224+16)) 2,
    .vmovdqa_ld .rsi ((_ZETAS_EXP+(1-off)*224+32)) 8] ++
    butterfly 7 9 6 3 10 4 5 11 2 2 8 8 ++
    red16 7 ++
    [.vmovdqa_st 7 .rdi ((128*off+0)),
    .vmovdqa_st 9 .rdi ((128*off+16)),
    .vmovdqa_st 6 .rdi ((128*off+32)),
    .vmovdqa_st 3 .rdi ((128*off+48)),
    .vmovdqa_st 10 .rdi ((128*off+64)),
    .vmovdqa_st 4 .rdi ((128*off+80)),
    .vmovdqa_st 5 .rdi ((128*off+96)),
    .vmovdqa_st 11 .rdi ((128*off+112))]

/-- intt.S 213-241: macro `intt_level6`. -/
def intt_level6 (off : Nat) : List Ins :=
    [.vmovdqa_ld .rdi ((64*off+0)) 4,
    .vmovdqa_ld .rdi ((64*off+128)) 8,
    .vmovdqa_ld .rdi ((64*off+16)) 5,
    .vmovdqa_ld .rdi ((64*off+144)) 9,
    .vpbroadcastq .rsi ((_ZETAS_EXP+0)) 2,
    .vmovdqa_ld .rdi ((64*off+32)) 6,
    .vmovdqa_ld .rdi ((64*off+160)) 10,
    .vmovdqa_ld .rdi ((64*off+48)) 7,
    .vmovdqa_ld .rdi ((64*off+176)) 11,
    .vpbroadcastq .rsi ((_ZETAS_EXP+4)) 3] ++
    butterfly 4 5 6 7 8 9 10 11 ++
    [.vmovdqa_st 4 .rdi ((64*off+0)),
    .vmovdqa_st 5 .rdi ((64*off+16)),
    .vmovdqa_st 6 .rdi ((64*off+32)),
    .vmovdqa_st 7 .rdi ((64*off+48)),
    .vmovdqa_st 8 .rdi ((64*off+128)),
    .vmovdqa_st 9 .rdi ((64*off+144)),
    .vmovdqa_st 10 .rdi ((64*off+160)),
    .vmovdqa_st 11 .rdi ((64*off+176))]

/-- intt.S 245-253: `MLKEM_NAMESPACE(invntt_avx2)`. -/
def invntt_avx2 : List Ins :=
    [.vmovdqa_ld .rsi (_16XQ) 0] ++
    intt_levels0t5 0 ++
    intt_levels0t5 1 ++
    intt_level6 0 ++
    intt_level6 1

end Intt
/-! ## fq.S -/

/-- fq.S 23-62: `reduce128_avx2`; `o` is the offset of `rdi`. -/
def reduce128_avx2 (o : Nat) : List Ins :=
    [.vmovdqa_ld .rdi (o + 0) 2,
    .vmovdqa_ld .rdi (o + 16) 3,
    .vmovdqa_ld .rdi (o + 32) 4,
    .vmovdqa_ld .rdi (o + 48) 5,
    .vmovdqa_ld .rdi (o + 64) 6,
    .vmovdqa_ld .rdi (o + 80) 7,
    .vmovdqa_ld .rdi (o + 96) 8,
    .vmovdqa_ld .rdi (o + 112) 9] ++
    red16 2 ++
    red16 3 ++
    red16 4 ++
    red16 5 ++
    red16 6 ++
    red16 7 ++
    red16 8 ++
    red16 9 ++
    csubq 2 ++
    csubq 3 ++
    csubq 4 ++
    csubq 5 ++
    csubq 6 ++
    csubq 7 ++
    csubq 8 ++
    csubq 9 ++
    [.vmovdqa_st 2 .rdi (o + 0),
    .vmovdqa_st 3 .rdi (o + 16),
    .vmovdqa_st 4 .rdi (o + 32),
    .vmovdqa_st 5 .rdi (o + 48),
    .vmovdqa_st 6 .rdi (o + 64),
    .vmovdqa_st 7 .rdi (o + 80),
    .vmovdqa_st 8 .rdi (o + 96),
    .vmovdqa_st 9 .rdi (o + 112)]

/-- fq.S: `reduce_avx2`.  fq.S 64-72. -/
def reduce_avx2 : List Ins := [.vmovdqa_ld .rsi (_16XQ) 0, .vmovdqa_ld .rsi (_16XV) 1] ++ reduce128_avx2 0 ++ reduce128_avx2 128

/-- fq.S 75-105: `tomont128_avx2`; `o` is the offset of `rdi`. -/
def tomont128_avx2 (o : Nat) : List Ins :=
    [.vmovdqa_ld .rdi (o + 0) 3,
    .vmovdqa_ld .rdi (o + 16) 4,
    .vmovdqa_ld .rdi (o + 32) 5,
    .vmovdqa_ld .rdi (o + 48) 6,
    .vmovdqa_ld .rdi (o + 64) 7,
    .vmovdqa_ld .rdi (o + 80) 8,
    .vmovdqa_ld .rdi (o + 96) 9,
    .vmovdqa_ld .rdi (o + 112) 10] ++
    fqmulprecomp 1 2 3 11 ++
    fqmulprecomp 1 2 4 12 ++
    fqmulprecomp 1 2 5 13 ++
    fqmulprecomp 1 2 6 14 ++
    fqmulprecomp 1 2 7 15 ++
    fqmulprecomp 1 2 8 11 ++
    fqmulprecomp 1 2 9 12 ++
    fqmulprecomp 1 2 10 13 ++
    [.vmovdqa_st 3 .rdi (o + 0),
    .vmovdqa_st 4 .rdi (o + 16),
    .vmovdqa_st 5 .rdi (o + 32),
    .vmovdqa_st 6 .rdi (o + 48),
    .vmovdqa_st 7 .rdi (o + 64),
    .vmovdqa_st 8 .rdi (o + 80),
    .vmovdqa_st 9 .rdi (o + 96),
    .vmovdqa_st 10 .rdi (o + 112)]

/-- fq.S: `tomont_avx2`.  fq.S 107-116. -/
def tomont_avx2 : List Ins :=
    [.vmovdqa_ld .rsi (_16XQ) 0, .vmovdqa_ld .rsi (_16XMONTSQLO) 1, .vmovdqa_ld .rsi (_16XMONTSQHI) 2] ++ tomont128_avx2 0 ++ tomont128_avx2 128

/-! ## shuffle.S -/

/-- shuffle.S 19-60: `MLKEM_NAMESPACE(nttpack_avx2)` (not called by the library). -/
def nttpack_avx2 : List Ins :=
    [.vmovdqa_ld .rdi (0) 4,
    .vmovdqa_ld .rdi (16) 5,
    .vmovdqa_ld .rdi (32) 6,
    .vmovdqa_ld .rdi (48) 7,
    .vmovdqa_ld .rdi (64) 8,
    .vmovdqa_ld .rdi (80) 9,
    .vmovdqa_ld .rdi (96) 10,
    .vmovdqa_ld .rdi (112) 11] ++
    shuffle1 4 5 3 5 ++
    shuffle1 6 7 4 7 ++
    shuffle1 8 9 6 9 ++
    shuffle1 10 11 8 11 ++
    shuffle2 3 4 10 4 ++
    shuffle2 6 8 3 8 ++
    shuffle2 5 7 6 7 ++
    shuffle2 9 11 5 11 ++
    shuffle4 10 3 9 3 ++
    shuffle4 6 5 10 5 ++
    shuffle4 4 8 6 8 ++
    shuffle4 7 11 4 11 ++
    shuffle8 9 10 7 10 ++
    shuffle8 6 4 9 4 ++
    shuffle8 3 5 6 5 ++
    shuffle8 8 11 3 11 ++
    [.vmovdqa_st 7 .rdi (0),
    .vmovdqa_st 9 .rdi (16),
    .vmovdqa_st 6 .rdi (32),
    .vmovdqa_st 3 .rdi (48),
    .vmovdqa_st 10 .rdi (64),
    .vmovdqa_st 4 .rdi (80),
    .vmovdqa_st 5 .rdi (96),
    .vmovdqa_st 11 .rdi (112)]

/-- shuffle.S 62-103: `nttunpack128_avx2`; `o` is the offset of `rdi`. -/
def nttunpack128_avx2 (o : Nat) : List Ins :=
    [.vmovdqa_ld .rdi (o + 0) 4,
    .vmovdqa_ld .rdi (o + 16) 5,
    .vmovdqa_ld .rdi (o + 32) 6,
    .vmovdqa_ld .rdi (o + 48) 7,
    .vmovdqa_ld .rdi (o + 64) 8,
    .vmovdqa_ld .rdi (o + 80) 9,
    .vmovdqa_ld .rdi (o + 96) 10,
    .vmovdqa_ld .rdi (o + 112) 11] ++
    shuffle8 4 8 3 8 ++
    shuffle8 5 9 4 9 ++
    shuffle8 6 10 5 10 ++
    shuffle8 7 11 6 11 ++
    shuffle4 3 5 7 5 ++
    shuffle4 8 10 3 10 ++
    shuffle4 4 6 8 6 ++
    shuffle4 9 11 4 11 ++
    shuffle2 7 8 9 8 ++
    shuffle2 5 6 7 6 ++
    shuffle2 3 4 5 4 ++
    shuffle2 10 11 3 11 ++
    shuffle1 9 5 10 5 ++
    shuffle1 8 4 9 4 ++
    shuffle1 7 3 8 3 ++
    shuffle1 6 11 7 11 ++
    [.vmovdqa_st 10 .rdi (o + 0),
    .vmovdqa_st 5 .rdi (o + 16),
    .vmovdqa_st 9 .rdi (o + 32),
    .vmovdqa_st 4 .rdi (o + 48),
    .vmovdqa_st 8 .rdi (o + 64),
    .vmovdqa_st 3 .rdi (o + 80),
    .vmovdqa_st 7 .rdi (o + 96),
    .vmovdqa_st 11 .rdi (o + 112)]

/-- shuffle.S 105-110: `nttunpack_avx2`. -/
def nttunpack_avx2 : List Ins := nttunpack128_avx2 0 ++ nttunpack128_avx2 128

/-- shuffle.S 112-170: `ntttobytes128_avx`; `o` is the offset of `rsi` in elements, `p` that of `rdi` in bytes. -/
def ntttobytes128_avx (o p : Nat) : List Ins :=
    [.vmovdqa_ld .rsi (o + 0) 5,
    .vmovdqa_ld .rsi (o + 16) 6,
    .vmovdqa_ld .rsi (o + 32) 7,
    .vmovdqa_ld .rsi (o + 48) 8,
    .vmovdqa_ld .rsi (o + 64) 9,
    .vmovdqa_ld .rsi (o + 80) 10,
    .vmovdqa_ld .rsi (o + 96) 11,
    .vmovdqa_ld .rsi (o + 112) 12,
    .vpsllw 12 6 4,
    .vpor 4 5 4,
    .vpsrlw 4 6 5,
    .vpsllw 8 7 6,
    .vpor 5 6 5,
    .vpsrlw 8 7 6,
    .vpsllw 4 8 7,
    .vpor 6 7 6,
    .vpsllw 12 10 7,
    .vpor 7 9 7,
    .vpsrlw 4 10 8,
    .vpsllw 8 11 9,
    .vpor 8 9 8,
    .vpsrlw 8 11 9,
    .vpsllw 4 12 10,
    .vpor 9 10 9] ++
    shuffle1 4 5 3 5 ++
    shuffle1 6 7 4 7 ++
    shuffle1 8 9 6 9 ++
    shuffle2 3 4 8 4 ++
    shuffle2 6 5 3 5 ++
    shuffle2 7 9 6 9 ++
    shuffle4 8 3 7 3 ++
    shuffle4 6 4 8 4 ++
    shuffle4 5 9 6 9 ++
    shuffle8 7 8 5 8 ++
    shuffle8 6 3 7 3 ++
    shuffle8 4 9 6 9 ++
    [.vmovdqu_st 5 .rdi (p + 0),
    .vmovdqu_st 7 .rdi (p + 32),
    .vmovdqu_st 6 .rdi (p + 64),
    .vmovdqu_st 8 .rdi (p + 96),
    .vmovdqu_st 3 .rdi (p + 128),
    .vmovdqu_st 9 .rdi (p + 160)]

/-- shuffle.S 172-180: `ntttobytes_avx2`. -/
def ntttobytes_avx2 : List Ins := [.vmovdqa_ld .rdx (_16XQ) 0] ++ ntttobytes128_avx 0 0 ++ ntttobytes128_avx 128 192

/-- shuffle.S 182-246: `nttfrombytes128_avx`; `o` is the offset of `rdi` in elements, `p` that of `rsi` in bytes. -/
def nttfrombytes128_avx (o p : Nat) : List Ins :=
    [.vmovdqu_ld .rsi (p + 0) 4,
    .vmovdqu_ld .rsi (p + 32) 5,
    .vmovdqu_ld .rsi (p + 64) 6,
    .vmovdqu_ld .rsi (p + 96) 7,
    .vmovdqu_ld .rsi (p + 128) 8,
    .vmovdqu_ld .rsi (p + 160) 9] ++
    shuffle8 4 7 3 7 ++
    shuffle8 5 8 4 8 ++
    shuffle8 6 9 5 9 ++
    shuffle4 3 8 6 8 ++
    shuffle4 7 5 3 5 ++
    shuffle4 4 9 7 9 ++
    shuffle2 6 5 4 5 ++
    shuffle2 8 7 6 7 ++
    shuffle2 3 9 8 9 ++
    shuffle1 4 7 10 7 ++
    shuffle1 5 8 4 8 ++
    shuffle1 6 9 5 9 ++
    [.vpsrlw 12 10 11,
    .vpsllw 4 7 12,
    .vpor 11 12 11,
    .vpand 0 10 10,
    .vpand 0 11 11,
    .vpsrlw 8 7 12,
    .vpsllw 8 4 13,
    .vpor 12 13 12,
    .vpand 0 12 12,
    .vpsrlw 4 4 13,
    .vpand 0 13 13,
    .vpsrlw 12 8 14,
    .vpsllw 4 5 15,
    .vpor 14 15 14,
    .vpand 0 8 8,
    .vpand 0 14 14,
    .vpsrlw 8 5 15,
    .vpsllw 8 9 1,
    .vpor 15 1 15,
    .vpand 0 15 15,
    .vpsrlw 4 9 1,
    .vpand 0 1 1,
    .vmovdqa_st 10 .rdi (o + 0),
    .vmovdqa_st 11 .rdi (o + 16),
    .vmovdqa_st 12 .rdi (o + 32),
    .vmovdqa_st 13 .rdi (o + 48),
    .vmovdqa_st 8 .rdi (o + 64),
    .vmovdqa_st 14 .rdi (o + 80),
    .vmovdqa_st 15 .rdi (o + 96),
    .vmovdqa_st 1 .rdi (o + 112)]

/-- shuffle.S 248-256: `nttfrombytes_avx2`. -/
def nttfrombytes_avx2 : List Ins := [.vmovdqa_ld .rdx (_16XMASK) 0] ++ nttfrombytes128_avx 0 0 ++ nttfrombytes128_avx 128 192

/-! ## basemul.S -/

/-- basemul.S 17-117: macro `schoolbook`; `r9` is the offset of `%r9` from `%rcx` in elements. -/
def schoolbook (off r9 : Nat) : List Ins :=
    [.vmovdqa_ld .rcx (_16XQINV) 0,
    .vmovdqa_ld .rsi ((64*off+0)) 1,
    .vmovdqa_ld .rsi ((64*off+16)) 2,
    .vmovdqa_ld .rsi ((64*off+32)) 3,
    .vmovdqa_ld .rsi ((64*off+48)) 4,
    .vpmullw 0 1 9,
    .vpmullw 0 2 10,
    .vpmullw 0 3 11,
    .vpmullw 0 4 12,
    .vmovdqa_ld .rdx ((64*off+0)) 5,
    .vmovdqa_ld .rdx ((64*off+16)) 6,
    .vpmulhw 5 1 13,
    .vpmulhw 6 1 1,
    .vpmulhw 5 2 14,
    .vpmulhw 6 2 2,
    .vmovdqa_ld .rdx ((64*off+32)) 7,
    .vmovdqa_ld .rdx ((64*off+48)) 8,
    .vpmulhw 7 3 15,
    .vpmulhw 8 3 3,
    .vpmulhw 7 4 0,
    .vpmulhw 8 4 4,
    .vmovdqa_st 13 .rsp (0),
    .vpmullw 5 9 13,
    .vpmullw 6 9 9,
    .vpmullw 5 10 5,
    .vpmullw 6 10 10,
    .vpmullw 7 11 6,
    .vpmullw 8 11 11,
    .vpmullw 7 12 7,
    .vpmullw 8 12 12,
    .vmovdqa_ld .rcx (_16XQ) 8,
    .vpmulhw 8 13 13,
    .vpmulhw 8 9 9,
    .vpmulhw 8 5 5,
    .vpmulhw 8 10 10,
    .vpmulhw 8 6 6,
    .vpmulhw 8 11 11,
    .vpmulhw 8 7 7,
    .vpmulhw 8 12 12,
    .vpsubw_m .rsp (0) 13 13,
    .vpsubw 9 1 9,
    .vpsubw 5 14 5,
    .vpsubw 10 2 10,
    .vpsubw 6 15 6,
    .vpsubw 11 3 11,
    .vpsubw 7 0 7,
    .vpsubw 12 4 12,
    .vmovdqa_ld .rcx (r9 + 0) 0,
    .vmovdqa_ld .rcx (r9 + 16) 1,
    .vpmullw 0 10 2,
    .vpmullw 0 12 3,
    .vpmulhw 1 10 10,
    .vpmulhw 1 12 12,
    .vpmulhw 8 2 2,
    .vpmulhw 8 3 3,
    .vpsubw 2 10 10,
    .vpsubw 3 12 12,
    .vpaddw 5 9 9,
    .vpaddw 7 11 11,
    .vpsubw 13 10 13,
    .vpsubw 12 6 6,
    .vmovdqa_st 13 .rdi ((64*off+0)),
    .vmovdqa_st 9 .rdi ((64*off+16)),
    .vmovdqa_st 6 .rdi ((64*off+32)),
    .vmovdqa_st 11 .rdi ((64*off+48))]

/-- basemul.S 120-139: `basemul_avx2`.  The stack slot is a 32-byte object of its own. -/
def basemul_avx2 : List Ins :=
    schoolbook 0 (_ZETAS_EXP+176) ++ schoolbook 1 (_ZETAS_EXP+176+32) ++ schoolbook 2 (_ZETAS_EXP+176+32+192) ++ schoolbook 3 (_ZETAS_EXP+176+32+192+32)

end Verif.Model.X86

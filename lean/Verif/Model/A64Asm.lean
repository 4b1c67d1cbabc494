import Verif.Model.X86Asm
/-! # The AArch64 assembly of the arithmetic backend (`/repo/mlkem/native/aarch64/*.S`)

Generated by `/verif/tools/gen_a64.py` (this head is hand-written: `/verif/tools/a64asm_head.txt`).

The instruction set is modelled by the meaning given in the Arm Architecture Reference Manual.  A general-purpose register holds a number or a pointer (an object and a byte
offset); register 31 is `sp`.  A vector register is a function from the positions `0 … 7` (0 the least significant) to 16-bit elements, written as signed numbers; a 32-bit element
`k` is made of the 16-bit elements `2k` (low) and `2k + 1` (high), a byte `j` is half of the 16-bit element `j / 2`.  Memory is a collection of separate objects: one for each
pointer argument (so the arguments of a function do not overlap), 64 bytes of stack, and the constant tables.  An access outside its object, a read of an uninitialised element, and a store to a table are
errors.  Operands are in the order of the assembly: destination first.

Simplifications: 16-bit objects are accessed in whole elements only (no access of the code is misaligned with respect to the elements; the model fails on one).  `subs` sets flags that no
instruction of these functions reads, so it is modelled as `sub`.  `ASM_LOAD` (common.i) is one instruction `adr`.  The general-purpose register written by `ldrsh` and `ldrh` is only
read by `dup`; the two are modelled for loads from tables only. -/
namespace Verif.Model.A64
open Verif.Model.X86 (s16 ldw stw)

/-- The tables: aarch64_zetas.c 19-164, and the labels `const_addr`, `ninv_addr`, `ninv_tw_addr` of the `.S` files. -/
inductive Table where
  | aarch64_ntt_zetas_layer01234
  | aarch64_ntt_zetas_layer56
  | aarch64_invntt_zetas_layer01234
  | aarch64_invntt_zetas_layer56
  | aarch64_zetas_mulcache_native
  | aarch64_zetas_mulcache_twisted_native
  | nttConst
  | inttConst
  | inttNinv
  | inttNinvTw
  | polyConst
  | polyvecConst
deriving DecidableEq, Repr

/-- aarch64_zetas.c 19-28. -/
def aarch64_ntt_zetas_layer01234 : List Int := [
  -1600, -15749, -749, -7373, -40, -394, -687, -6762, 630, 6201, -1432, -14095, 848, 8347, 0, 0, 1062, 10453, 296, 2914, -882, -8682, 0, 0, -1410,
  -13879, 1339, 13180, 1476, 14529, 0, 0, 193, 1900, -283, -2786, 56, 551, 0, 0, 797, 7845, -1089, -10719, 1333, 13121, 0, 0, -543, -5345, 1426,
  14036, -1235, -12156, 0, 0, -69, -679, 535, 5266, -447, -4400, 0, 0, 569, 5601, -936, -9213, -450, -4429, 0, 0, -1583, -15582, -1355, -13338, 821,
  8081, 0, 0]
/-- aarch64_zetas.c 30-74. -/
def aarch64_ntt_zetas_layer56 : List Int := [
  289, 289, 331, 331, -76, -76, -1573, -1573, 2845, 2845, 3258, 3258, -748, -748, -15483, -15483, 17, 17, 583, 583, 1637, 1637, -1041, -1041, 167,
  167, 5739, 5739, 16113, 16113, -10247, -10247, -568, -568, -680, -680, 723, 723, 1100, 1100, -5591, -5591, -6693, -6693, 7117, 7117, 10828, 10828,
  1197, 1197, -1025, -1025, -1052, -1052, -1274, -1274, 11782, 11782, -10089, -10089, -10355, -10355, -12540, -12540, 1409, 1409, -48, -48, 756, 756,
  -314, -314, 13869, 13869, -472, -472, 7441, 7441, -3091, -3091, -667, -667, 233, 233, -1173, -1173, -279, -279, -6565, -6565, 2293, 2293, -11546,
  -11546, -2746, -2746, 650, 650, -1352, -1352, -816, -816, 632, 632, 6398, 6398, -13308, -13308, -8032, -8032, 6221, 6221, -1626, -1626, -540, -540,
  -1482, -1482, 1461, 1461, -16005, -16005, -5315, -5315, -14588, -14588, 14381, 14381, 1651, 1651, -1540, -1540, 952, 952, -642, -642, 16251, 16251,
  -15159, -15159, 9371, 9371, -6319, -6319, -464, -464, 33, 33, 1320, 1320, -1414, -1414, -4567, -4567, 325, 325, 12993, 12993, -13918, -13918, 939,
  939, -892, -892, 733, 733, 268, 268, 9243, 9243, -8780, -8780, 7215, 7215, 2638, 2638, -1021, -1021, -941, -941, -992, -992, 641, 641, -10050,
  -10050, -9262, -9262, -9764, -9764, 6309, 6309, -1010, -1010, 1435, 1435, 807, 807, 452, 452, -9942, -9942, 14125, 14125, 7943, 7943, 4449, 4449,
  1584, 1584, -1292, -1292, 375, 375, -1239, -1239, 15592, 15592, -12717, -12717, 3691, 3691, -12196, -12196, -1031, -1031, -109, -109, -780, -780,
  1645, 1645, -10148, -10148, -1073, -1073, -7678, -7678, 16192, 16192, 1438, 1438, -461, -461, 1534, 1534, -927, -927, 14155, 14155, -4538, -4538,
  15099, 15099, -9125, -9125, 1063, 1063, -556, -556, -1230, -1230, -863, -863, 10463, 10463, -5473, -5473, -12107, -12107, -8495, -8495, 319, 319,
  757, 757, 561, 561, -735, -735, 3140, 3140, 7451, 7451, 5522, 5522, -7235, -7235, -682, -682, -712, -712, 1481, 1481, 648, 648, -6713, -6713,
  -7008, -7008, 14578, 14578, 6378, 6378, -525, -525, 403, 403, 1143, 1143, -554, -554, -5168, -5168, 3967, 3967, 11251, 11251, -5453, -5453, 1092,
  1092, 1026, 1026, -1179, -1179, 886, 886, 10749, 10749, 10099, 10099, -11605, -11605, 8721, 8721, -855, -855, -219, -219, 1227, 1227, 910, 910,
  -8416, -8416, -2156, -2156, 12078, 12078, 8957, 8957, -1607, -1607, -1455, -1455, -1219, -1219, 885, 885, -15818, -15818, -14322, -14322, -11999,
  -11999, 8711, 8711, 1212, 1212, 1029, 1029, -394, -394, -1175, -1175, 11930, 11930, 10129, 10129, -3878, -3878, -11566, -11566]
/-- aarch64_zetas.c 76-85. -/
def aarch64_invntt_zetas_layer01234 : List Int := [
  1583, 15582, -821, -8081, 1355, 13338, 0, 0, -569, -5601, 450, 4429, 936, 9213, 0, 0, 69, 679, 447, 4400, -535, -5266, 0, 0, 543, 5345, 1235,
  12156, -1426, -14036, 0, 0, -797, -7845, -1333, -13121, 1089, 10719, 0, 0, -193, -1900, -56, -551, 283, 2786, 0, 0, 1410, 13879, -1476, -14529,
  -1339, -13180, 0, 0, -1062, -10453, 882, 8682, -296, -2914, 0, 0, 1600, 15749, 40, 394, 749, 7373, -848, -8347, 1432, 14095, -630, -6201, 687,
  6762, 0, 0]
/-- aarch64_zetas.c 87-131. -/
def aarch64_invntt_zetas_layer56 : List Int := [
  -910, -910, -1227, -1227, 219, 219, 855, 855, -8957, -8957, -12078, -12078, 2156, 2156, 8416, 8416, 1175, 1175, 394, 394, -1029, -1029, -1212,
  -1212, 11566, 11566, 3878, 3878, -10129, -10129, -11930, -11930, -885, -885, 1219, 1219, 1455, 1455, 1607, 1607, -8711, -8711, 11999, 11999, 14322,
  14322, 15818, 15818, -648, -648, -1481, -1481, 712, 712, 682, 682, -6378, -6378, -14578, -14578, 7008, 7008, 6713, 6713, -886, -886, 1179, 1179,
  -1026, -1026, -1092, -1092, -8721, -8721, 11605, 11605, -10099, -10099, -10749, -10749, 554, 554, -1143, -1143, -403, -403, 525, 525, 5453, 5453,
  -11251, -11251, -3967, -3967, 5168, 5168, 927, 927, -1534, -1534, 461, 461, -1438, -1438, 9125, 9125, -15099, -15099, 4538, 4538, -14155, -14155,
  735, 735, -561, -561, -757, -757, -319, -319, 7235, 7235, -5522, -5522, -7451, -7451, -3140, -3140, 863, 863, 1230, 1230, 556, 556, -1063, -1063,
  8495, 8495, 12107, 12107, 5473, 5473, -10463, -10463, -452, -452, -807, -807, -1435, -1435, 1010, 1010, -4449, -4449, -7943, -7943, -14125, -14125,
  9942, 9942, -1645, -1645, 780, 780, 109, 109, 1031, 1031, -16192, -16192, 7678, 7678, 1073, 1073, 10148, 10148, 1239, 1239, -375, -375, 1292, 1292,
  -1584, -1584, 12196, 12196, -3691, -3691, 12717, 12717, -15592, -15592, 1414, 1414, -1320, -1320, -33, -33, 464, 464, 13918, 13918, -12993, -12993,
  -325, -325, 4567, 4567, -641, -641, 992, 992, 941, 941, 1021, 1021, -6309, -6309, 9764, 9764, 9262, 9262, 10050, 10050, -268, -268, -733, -733,
  892, 892, -939, -939, -2638, -2638, -7215, -7215, 8780, 8780, -9243, -9243, -632, -632, 816, 816, 1352, 1352, -650, -650, -6221, -6221, 8032, 8032,
  13308, 13308, -6398, -6398, 642, 642, -952, -952, 1540, 1540, -1651, -1651, 6319, 6319, -9371, -9371, 15159, 15159, -16251, -16251, -1461, -1461,
  1482, 1482, 540, 540, 1626, 1626, -14381, -14381, 14588, 14588, 5315, 5315, 16005, 16005, 1274, 1274, 1052, 1052, 1025, 1025, -1197, -1197, 12540,
  12540, 10355, 10355, 10089, 10089, -11782, -11782, 279, 279, 1173, 1173, -233, -233, 667, 667, 2746, 2746, 11546, 11546, -2293, -2293, 6565, 6565,
  314, 314, -756, -756, 48, 48, -1409, -1409, 3091, 3091, -7441, -7441, 472, 472, -13869, -13869, 1573, 1573, 76, 76, -331, -331, -289, -289, 15483,
  15483, 748, 748, -3258, -3258, -2845, -2845, -1100, -1100, -723, -723, 680, 680, 568, 568, -10828, -10828, -7117, -7117, 6693, 6693, 5591, 5591,
  1041, 1041, -1637, -1637, -583, -583, -17, -17, 10247, 10247, -16113, -16113, -5739, -5739, -167, -167]
/-- aarch64_zetas.c 133-146. -/
def aarch64_zetas_mulcache_native : List Int := [
  17, -17, -568, 568, 583, -583, -680, 680, 1637, -1637, 723, -723, -1041, 1041, 1100, -1100, 1409, -1409, -667, 667, -48, 48, 233, -233, 756, -756,
  -1173, 1173, -314, 314, -279, 279, -1626, 1626, 1651, -1651, -540, 540, -1540, 1540, -1482, 1482, 952, -952, 1461, -1461, -642, 642, 939, -939,
  -1021, 1021, -892, 892, -941, 941, 733, -733, -992, 992, 268, -268, 641, -641, 1584, -1584, -1031, 1031, -1292, 1292, -109, 109, 375, -375, -780,
  780, -1239, 1239, 1645, -1645, 1063, -1063, 319, -319, -556, 556, 757, -757, -1230, 1230, 561, -561, -863, 863, -735, 735, -525, 525, 1092, -1092,
  403, -403, 1026, -1026, 1143, -1143, -1179, 1179, -554, 554, 886, -886, -1607, 1607, 1212, -1212, -1455, 1455, 1029, -1029, -1219, 1219, -394, 394,
  885, -885, -1175, 1175]
/-- aarch64_zetas.c 148-164. -/
def aarch64_zetas_mulcache_twisted_native : List Int := [
  167, -167, -5591, 5591, 5739, -5739, -6693, 6693, 16113, -16113, 7117, -7117, -10247, 10247, 10828, -10828, 13869, -13869, -6565, 6565, -472, 472,
  2293, -2293, 7441, -7441, -11546, 11546, -3091, 3091, -2746, 2746, -16005, 16005, 16251, -16251, -5315, 5315, -15159, 15159, -14588, 14588, 9371,
  -9371, 14381, -14381, -6319, 6319, 9243, -9243, -10050, 10050, -8780, 8780, -9262, 9262, 7215, -7215, -9764, 9764, 2638, -2638, 6309, -6309, 15592,
  -15592, -10148, 10148, -12717, 12717, -1073, 1073, 3691, -3691, -7678, 7678, -12196, 12196, 16192, -16192, 10463, -10463, 3140, -3140, -5473, 5473,
  7451, -7451, -12107, 12107, 5522, -5522, -8495, 8495, -7235, 7235, -5168, 5168, 10749, -10749, 3967, -3967, 10099, -10099, 11251, -11251, -11605,
  11605, -5453, 5453, 8721, -8721, -15818, 15818, 11930, -11930, -14322, 14322, 10129, -10129, -11999, 11999, -3878, 3878, 8711, -8711, -11566, 11566]
/-- ntt_clean.S 190-197; ntt_opt.S 190-197. -/
def nttConst : List Int := [
  3329, 20159, 0, 0, 0, 0, 0, 0]
/-- intt_clean.S 152-159; intt_opt.S 152-159. -/
def inttConst : List Int := [
  3329, 20159, 0, 0, 0, 0, 0, 0]
/-- intt_clean.S 160-167; intt_opt.S 160-167. -/
def inttNinv : List Int := [
  512, 512, 512, 512, 512, 512, 512, 512]
/-- intt_clean.S 168-175; intt_opt.S 168-175. -/
def inttNinvTw : List Int := [
  5040, 5040, 5040, 5040, 5040, 5040, 5040, 5040]
/-- poly_clean.S 39-46; poly_opt.S 39-46. -/
def polyConst : List Int := [
  3329, 20159, -1044, -10276, 0, 0, 0, 0]
/-- polyvec_clean.S 136-143; polyvec_opt.S 132-139. -/
def polyvecConst : List Int := [
  3329, 20159, 3327, 0, 0, 0, 0, 0]
/-- The contents of a table.  Machine model: no line of /repo corresponds to it; the code it runs is that of the .S files cited at the programs below. -/
def Table.data : Table → List Int
  | .aarch64_ntt_zetas_layer01234 => A64.aarch64_ntt_zetas_layer01234
  | .aarch64_ntt_zetas_layer56 => A64.aarch64_ntt_zetas_layer56
  | .aarch64_invntt_zetas_layer01234 => A64.aarch64_invntt_zetas_layer01234
  | .aarch64_invntt_zetas_layer56 => A64.aarch64_invntt_zetas_layer56
  | .aarch64_zetas_mulcache_native => A64.aarch64_zetas_mulcache_native
  | .aarch64_zetas_mulcache_twisted_native => A64.aarch64_zetas_mulcache_twisted_native
  | .nttConst => A64.nttConst
  | .inttConst => A64.inttConst
  | .inttNinv => A64.inttNinv
  | .inttNinvTw => A64.inttNinvTw
  | .polyConst => A64.polyConst
  | .polyvecConst => A64.polyvecConst

/-- The objects: the pointer arguments in order, the stack frame, the tables.  Machine model: no line of /repo corresponds to it; the code it runs is that of the .S files cited at the programs below. -/
inductive Obj where
  | a0 | a1 | a2 | a3 | stk
  | tab (t : Table)
deriving DecidableEq, Repr

/-- The contents of a general-purpose register.  Machine model: no line of /repo corresponds to it; the code it runs is that of the .S files cited at the programs below. -/
inductive Reg where
  | num (x : Int)
  | ptr (o : Obj) (off : Int)
deriving DecidableEq, Repr

/-- A vector register as eight signed 16-bit elements.  Machine model: no line of /repo corresponds to it; the code it runs is that of the .S files cited at the programs below. -/
abbrev V := Nat → Int

/-- The machine state.  Machine model: no line of /repo corresponds to it; the code it runs is that of the .S files cited at the programs below. -/
structure St where
  x : Nat → Reg
  v : Nat → V
  m : Obj → Buf Int
  b : Obj → Buf UInt8

/-- The instructions used; `n` is the base register, offsets and increments count bytes.  Machine model: no line of /repo corresponds to it; the code it runs is that of the .S files cited at the programs below. -/
inductive Ins where
  | adr (d : Nat) (t : Table)
  | mov_i (d : Nat) (i : Int)
  | mov_r (d a : Nat)
  | add_i (d a : Nat) (i : Int)
  | sub_i (d a : Nat) (i : Int)
  | subs_i (d a : Nat) (i : Int)
  | ldrsh (d n : Nat) (off : Int)
  | ldrh (d n : Nat) (off : Int)
  | dup (d a : Nat)
  | ldr (d n : Nat) (off : Int)
  | ldr_post (d n : Nat) (inc : Int)
  | str (r n : Nat) (off : Int)
  | str_post (r n : Nat) (inc : Int)
  | ld1 (d n : Nat) (inc : Int)
  | ld1r (d n : Nat) (inc : Int)
  | ld2 (d0 d1 n : Nat) (inc : Int)
  | st2 (r0 r1 n : Nat) (inc : Int)
  | st3 (r0 r1 r2 n : Nat) (inc : Int)
  | st4 (r0 r1 r2 r3 n : Nat) (inc : Int)
  | stp_d (r0 r1 n : Nat) (off : Int)
  | ldp_d (d0 d1 n : Nat) (off : Int)
  | add (d a b : Nat)
  | sub (d a b : Nat)
  | mul (d a b : Nat)
  | mul_e (d a b i : Nat)
  | mls_e (d a b i : Nat)
  | sqrdmulh (d a b : Nat)
  | sqrdmulh_e (d a b i : Nat)
  | sqdmulh_e (d a b i : Nat)
  | srshr (d a i : Nat)
  | sshr (d a i : Nat)
  | and (d a b : Nat)
  | trn1_4s (d a b : Nat)
  | trn2_4s (d a b : Nat)
  | trn1_2d (d a b : Nat)
  | trn2_2d (d a b : Nat)
  | uzp1 (d a b : Nat)
  | uzp2 (d a b : Nat)
  | smull (d a b : Nat)
  | smull2 (d a b : Nat)
  | smlal (d a b : Nat)
  | smlal2 (d a b : Nat)
  | xtn (d a : Nat)
  | shrn (d a i : Nat)
  | sli (d a i : Nat)
deriving DecidableEq, Repr

/-- How a block ends.  Machine model: no line of /repo corresponds to it; the code it runs is that of the .S files cited at the programs below. -/
inductive End where
  /-- fall through to the next block -/
  | next
  /-- `cbnz`: to block `t` if register `r` is not zero, otherwise to the next block -/
  | cbnz (r t : Nat)
  /-- `ret` -/
  | ret
deriving DecidableEq, Repr

/-- A block of straight-line code.  Machine model: no line of /repo corresponds to it; the code it runs is that of the .S files cited at the programs below. -/
structure Block where
  ins : List Ins
  fin : End
deriving DecidableEq, Repr

/-! ## Values -/

/-- Saturate to 16 bits.  Machine model: no line of /repo corresponds to it; the code it runs is that of the .S files cited at the programs below. -/
def sat16 (x : Int) : Int := if x < -32768 then -32768 else if 32767 < x then 32767 else x
/-- The signed number congruent to `x` modulo `2^32`.  Machine model: no line of /repo corresponds to it; the code it runs is that of the .S files cited at the programs below. -/
def s32 (x : Int) : Int := (x + 2147483648) % 4294967296 - 2147483648
/-- `sqrdmulh` on one element: twice the product, rounded, high half, saturated.  Used in intt_clean.S 43 and elsewhere. -/
def rdmulh (a b : Int) : Int := sat16 ((2 * a * b + 32768) / 65536)
/-- `sqdmulh` on one element: twice the product, high half, saturated.  Used in intt_clean.S 74 and elsewhere. -/
def dmulh (a b : Int) : Int := sat16 (2 * a * b / 65536)
/-- `srshr` on one element.  Used in intt_clean.S 75 and elsewhere. -/
def rshr (i : Nat) (a : Int) : Int := (a + 2 ^ i / 2) / 2 ^ i
/-- The 32-bit element `k`.  Machine model: no line of /repo corresponds to it; the code it runs is that of the .S files cited at the programs below. -/
def word (f : V) (k : Nat) : Int := u16 (f (2 * k)) + 65536 * f (2 * k + 1)
/-- The register with the 32-bit elements `g 0 … g 3`.  Machine model: no line of /repo corresponds to it; the code it runs is that of the .S files cited at the programs below. -/
def words (g : Nat → Int) : V := fun k => if k % 2 = 0 then s16 (g (k / 2)) else s16 (g (k / 2) / 65536)
/-- Byte `j`.  Machine model: no line of /repo corresponds to it; the code it runs is that of the .S files cited at the programs below. -/
def byte (f : V) (j : Nat) : Nat := u16 (f (j / 2)) / 256 ^ (j % 2) % 256
/-- The register with the bytes `g 0 … g 7` and zeros.  Machine model: no line of /repo corresponds to it; the code it runs is that of the .S files cited at the programs below. -/
def bytes8 (g : Nat → Nat) : V := fun k => if k < 4 then s16 ((g (2 * k) % 256 + 256 * (g (2 * k + 1) % 256) : Nat) : Int) else 0

/-- Write a vector register.  Machine model: no line of /repo corresponds to it; the code it runs is that of the .S files cited at the programs below. -/
def St.put (s : St) (d : Nat) (f : V) : St := { s with v := fun r => if r = d then f else s.v r }
/-- Write a general-purpose register.  Machine model: no line of /repo corresponds to it; the code it runs is that of the .S files cited at the programs below. -/
def St.putx (s : St) (d : Nat) (a : Reg) : St := { s with x := fun r => if r = d then a else s.x r }
/-- Replace an object of 16-bit elements.  Machine model: no line of /repo corresponds to it; the code it runs is that of the .S files cited at the programs below. -/
def St.putm (s : St) (o : Obj) (b : Buf Int) : St := { s with m := fun r => if r = o then b else s.m r }
/-- Replace an object of bytes.  Machine model: no line of /repo corresponds to it; the code it runs is that of the .S files cited at the programs below. -/
def St.putb (s : St) (o : Obj) (b : Buf UInt8) : St := { s with b := fun r => if r = o then b else s.b r }

/-- Add to a register; numbers are modulo `2^64`.  Machine model: no line of /repo corresponds to it; the code it runs is that of the .S files cited at the programs below. -/
def Reg.plus (a : Reg) (i : Int) : Reg :=
  match a with
  | .num x => .num ((x + i) % 18446744073709551616)
  | .ptr o off => .ptr o (off + i)

/-! ## Memory -/

/-- The object of 16-bit elements.  Machine model: no line of /repo corresponds to it; the code it runs is that of the .S files cited at the programs below. -/
def St.obj (s : St) (o : Obj) : Buf Int :=
  match o with
  | .tab t => Buf.ofList t.data
  | o => s.m o
/-- The object and the byte offset addressed by `[xn, #off]`.  Machine model: no line of /repo corresponds to it; the code it runs is that of the .S files cited at the programs below. -/
def St.addr (s : St) (n : Nat) (off : Int) : M (Obj × Nat) :=
  match s.x n with
  | .num _ => M.fail .oob
  | .ptr o p => if 0 ≤ p + off then pure (o, (p + off).toNat) else M.fail .oob
/-- Load `c` elements from `[xn, #off]`.  Machine model: no line of /repo corresponds to it; the code it runs is that of the .S files cited at the programs below. -/
def St.ld (s : St) (n : Nat) (off : Int) (c : Nat) : M V := do
  let (o, p) ← s.addr n off
  if p % 2 = 0 then ldw (s.obj o) (p / 2) c else M.fail .oob
/-- Store eight elements at `[xn, #off]`; tables are read-only.  Machine model: no line of /repo corresponds to it; the code it runs is that of the .S files cited at the programs below. -/
def St.st (s : St) (n : Nat) (off : Int) (f : V) : M St := do
  let (o, p) ← s.addr n off
  match o with
  | .tab _ => M.fail .oob
  | o => if p % 2 = 0 then do let b ← stw (s.m o) (p / 2) f 8; pure (s.putm o b) else M.fail .oob
/-- Store `c` bytes at `p`.  Machine model: no line of /repo corresponds to it; the code it runs is that of the .S files cited at the programs below. -/
def stby (b : Buf UInt8) (p : Nat) (g : Nat → Nat) : Nat → M (Buf UInt8)
  | 0 => pure b
  | c + 1 => do
    let b ← stby b p g c
    wr b (p + c) (toU8 (g c))
/-- Store 24 bytes at `[xn]`.  Machine model: no line of /repo corresponds to it; the code it runs is that of the .S files cited at the programs below. -/
def St.st24 (s : St) (n : Nat) (g : Nat → Nat) : M St := do
  let (o, p) ← s.addr n 0
  let b ← stby (s.b o) p g 24
  pure (s.putb o b)
/-- Load an element of a table from `[xn, #off]`.  Machine model: no line of /repo corresponds to it; the code it runs is that of the .S files cited at the programs below. -/
def St.ldt (s : St) (n : Nat) (off : Int) : M Int := do
  let (o, p) ← s.addr n off
  match o with
  | .tab t => if p % 2 = 0 then rd (Buf.ofList t.data) (p / 2) else M.fail .oob
  | _ => M.fail .oob
/-- Post-index: add to the base register.  Machine model: no line of /repo corresponds to it; the code it runs is that of the .S files cited at the programs below. -/
def St.bump (s : St) (n : Nat) (inc : Int) : St := s.putx n ((s.x n).plus inc)

/-! ## Execution -/

/-- One instruction.  Machine model: no line of /repo corresponds to it; the code it runs is that of the .S files cited at the programs below. -/
def Ins.step (i : Ins) (s : St) : M St :=
  match i with
  | adr d t => pure (s.putx d (.ptr (.tab t) 0))
  | mov_i d i => pure (s.putx d (.num i))
  | mov_r d a => pure (s.putx d (s.x a))
  | add_i d a i => pure (s.putx d ((s.x a).plus i))
  | sub_i d a i | subs_i d a i => pure (s.putx d ((s.x a).plus (-i)))
  | ldrsh d n off => do let x ← s.ldt n off; pure (s.putx d (.num x))
  | ldrh d n off => do let x ← s.ldt n off; pure (s.putx d (.num (x % 65536)))
  | dup d a => match s.x a with
    | .num x => pure (s.put d fun _ => s16 x)
    | .ptr _ _ => M.fail .oob
  | ldr d n off => do let f ← s.ld n off 8; pure (s.put d f)
  | ldr_post d n inc => do let f ← s.ld n 0 8; pure ((s.put d f).bump n inc)
  | str r n off => s.st n off (s.v r)
  | str_post r n inc => do let s ← s.st n 0 (s.v r); pure (s.bump n inc)
  | ld1 d n inc => do let f ← s.ld n 0 8; pure ((s.put d f).bump n inc)
  | ld1r d n inc => do let f ← s.ld n 0 1; pure ((s.put d fun _ => f 0).bump n inc)
  | ld2 d0 d1 n inc => do
    let f ← s.ld n 0 8
    let g ← s.ld n 16 8
    let h := fun k => if k < 8 then f k else g (k - 8)
    pure (((s.put d0 fun k => h (2 * k)).put d1 fun k => h (2 * k + 1)).bump n inc)
  | st2 r0 r1 n inc => do
    let h := fun k => if k % 2 = 0 then s.v r0 (k / 2) else s.v r1 (k / 2)
    let s ← s.st n 0 h
    let s ← s.st n 16 fun k => h (8 + k)
    pure (s.bump n inc)
  | st3 r0 r1 r2 n inc => do
    let s ← s.st24 n fun k => if k % 3 = 0 then byte (s.v r0) (k / 3) else if k % 3 = 1 then byte (s.v r1) (k / 3) else byte (s.v r2) (k / 3)
    pure (s.bump n inc)
  | st4 r0 r1 r2 r3 n inc => do
    let h := fun w k => if k < 2 then s.v r0 (2 * w + k) else if k < 4 then s.v r1 (2 * w + (k - 2)) else if k < 6 then s.v r2 (2 * w + (k - 4)) else s.v r3 (2 * w + (k - 6))
    let s ← s.st n 0 (h 0)
    let s ← s.st n 16 (h 1)
    let s ← s.st n 32 (h 2)
    let s ← s.st n 48 (h 3)
    pure (s.bump n inc)
  | stp_d r0 r1 n off => s.st n off fun k => if k < 4 then s.v r0 k else s.v r1 (k - 4)
  | ldp_d d0 d1 n off => do
    let f ← s.ld n off 8
    pure ((s.put d0 fun k => if k < 4 then f k else 0).put d1 fun k => if k < 4 then f (k + 4) else 0)
  | add d a b => pure (s.put d fun k => s16 (s.v a k + s.v b k))
  | sub d a b => pure (s.put d fun k => s16 (s.v a k - s.v b k))
  | mul d a b => pure (s.put d fun k => s16 (s.v a k * s.v b k))
  | mul_e d a b i => pure (s.put d fun k => s16 (s.v a k * s.v b i))
  | mls_e d a b i => pure (s.put d fun k => s16 (s.v d k - s.v a k * s.v b i))
  | sqrdmulh d a b => pure (s.put d fun k => rdmulh (s.v a k) (s.v b k))
  | sqrdmulh_e d a b i => pure (s.put d fun k => rdmulh (s.v a k) (s.v b i))
  | sqdmulh_e d a b i => pure (s.put d fun k => dmulh (s.v a k) (s.v b i))
  | srshr d a i => pure (s.put d fun k => rshr i (s.v a k))
  | sshr d a i => pure (s.put d fun k => s.v a k / 2 ^ i)
  | and d a b => pure (s.put d fun k => s16 ((u16 (s.v a k) &&& u16 (s.v b k) : Nat) : Int))
  | trn1_4s d a b => pure (s.put d fun k => if k / 2 % 2 = 0 then s.v a k else s.v b (k - 2))
  | trn2_4s d a b => pure (s.put d fun k => if k / 2 % 2 = 0 then s.v a (k + 2) else s.v b k)
  | trn1_2d d a b => pure (s.put d fun k => if k / 4 % 2 = 0 then s.v a k else s.v b (k - 4))
  | trn2_2d d a b => pure (s.put d fun k => if k / 4 % 2 = 0 then s.v a (k + 4) else s.v b k)
  | uzp1 d a b => pure (s.put d fun k => if k < 4 then s.v a (2 * k) else s.v b (2 * (k - 4)))
  | uzp2 d a b => pure (s.put d fun k => if k < 4 then s.v a (2 * k + 1) else s.v b (2 * (k - 4) + 1))
  | smull d a b => pure (s.put d (words fun k => s.v a k * s.v b k))
  | smull2 d a b => pure (s.put d (words fun k => s.v a (k + 4) * s.v b (k + 4)))
  | smlal d a b => pure (s.put d (words fun k => s32 (word (s.v d) k + s.v a k * s.v b k)))
  | smlal2 d a b => pure (s.put d (words fun k => s32 (word (s.v d) k + s.v a (k + 4) * s.v b (k + 4))))
  | xtn d a => pure (s.put d (bytes8 fun j => u16 (s.v a j)))
  | shrn d a i => pure (s.put d (bytes8 fun j => u16 (s.v a j) / 2 ^ i))
  | sli d a i => pure (s.put d (bytes8 fun j => byte (s.v a) j * 2 ^ i % 256 + byte (s.v d) j % 2 ^ i))

/-- Straight-line code.  Machine model: no line of /repo corresponds to it; the code it runs is that of the .S files cited at the programs below. -/
def runI : List Ins → St → M St
  | [], s => pure s
  | i :: l, s => do
    let s ← i.step s
    runI l s

/-- A function, from block `pc`; `f` bounds the number of blocks executed (running out is the error `fuel`).  Machine model: no line of /repo corresponds to it; the code it runs is that of the .S files cited at the programs below. -/
def runB (prog : List Block) : Nat → Nat → St → M St
  | 0, _, _ => M.fail .fuel
  | f + 1, pc, s =>
    match prog[pc]? with
    | none => M.fail .oob
    | some b => do
      let s ← runI b.ins s
      match b.fin with
      | .next => runB prog f (pc + 1) s
      | .ret => pure s
      | .cbnz r t => match s.x r with
        | .num z => branch (decide (z ≠ 0)) (runB prog f t s) (runB prog f (pc + 1) s)
        | .ptr _ _ => M.fail .oob

/-- Run a function; no function executes more than 100 blocks (otherwise the model fails).  Machine model: no line of /repo corresponds to it; the code it runs is that of the .S files cited at the programs below. -/
def run (prog : List Block) (s : St) : M St := runB prog 100 0 s

/-! ## The functions -/

/-- `ntt_asm_clean`, ntt_clean.S 201-295. -/
def ntt_asm_clean : List Block := [
  -- block 0: lines 201-209
  ⟨[
    .sub_i 31 31 64, .stp_d 8 9 31 0, .stp_d 10 11 31 16, .stp_d 12 13 31 32, .stp_d 14 15 31 48, .adr 5 .nttConst, .ld1 7 5 0, .mov_r 3 0,
    .mov_i 4 4, .ldr_post 0 1 32, .ldr 1 1 (-16)],
   .next⟩,
  -- block 1: lines 228-261
  ⟨[
    .ldr 8 0 0, .ldr 9 0 64, .ldr 10 0 128, .ldr 11 0 192, .ldr 12 0 256, .ldr 13 0 320, .ldr 14 0 384, .ldr 15 0 448, .sqrdmulh_e 27 12 0 1,
    .mul_e 24 12 0 0, .mls_e 24 27 7 0, .sub 12 8 24, .add 8 8 24, .sqrdmulh_e 27 13 0 1, .mul_e 24 13 0 0, .mls_e 24 27 7 0, .sub 13 9 24,
    .add 9 9 24, .sqrdmulh_e 27 14 0 1, .mul_e 24 14 0 0, .mls_e 24 27 7 0, .sub 14 10 24, .add 10 10 24, .sqrdmulh_e 27 15 0 1, .mul_e 24 15 0 0,
    .mls_e 24 27 7 0, .sub 15 11 24, .add 11 11 24, .sqrdmulh_e 27 10 0 3, .mul_e 24 10 0 2, .mls_e 24 27 7 0, .sub 10 8 24, .add 8 8 24,
    .sqrdmulh_e 27 11 0 3, .mul_e 24 11 0 2, .mls_e 24 27 7 0, .sub 11 9 24, .add 9 9 24, .sqrdmulh_e 27 14 0 5, .mul_e 24 14 0 4, .mls_e 24 27 7 0,
    .sub 14 12 24, .add 12 12 24, .sqrdmulh_e 27 15 0 5, .mul_e 24 15 0 4, .mls_e 24 27 7 0, .sub 15 13 24, .add 13 13 24, .sqrdmulh_e 27 9 0 7,
    .mul_e 24 9 0 6, .mls_e 24 27 7 0, .sub 9 8 24, .add 8 8 24, .sqrdmulh_e 27 11 1 1, .mul_e 24 11 1 0, .mls_e 24 27 7 0, .sub 11 10 24,
    .add 10 10 24, .sqrdmulh_e 27 13 1 3, .mul_e 24 13 1 2, .mls_e 24 27 7 0, .sub 13 12 24, .add 12 12 24, .sqrdmulh_e 27 15 1 5, .mul_e 24 15 1 4,
    .mls_e 24 27 7 0, .sub 15 14 24, .add 14 14 24, .str_post 8 0 16, .str 9 0 48, .str 10 0 112, .str 11 0 176, .str 12 0 240, .str 13 0 304,
    .str 14 0 368, .str 15 0 432, .subs_i 4 4 1],
   .cbnz 4 1⟩,
  -- block 2: lines 264-265
  ⟨[
    .mov_r 0 3, .mov_i 4 8],
   .next⟩,
  -- block 3: lines 270-292
  ⟨[
    .ldr 8 0 0, .ldr 9 0 16, .ldr 10 0 32, .ldr 11 0 48, .ldr_post 0 1 16, .sqrdmulh_e 27 10 0 1, .mul_e 24 10 0 0, .mls_e 24 27 7 0, .sub 10 8 24,
    .add 8 8 24, .sqrdmulh_e 27 11 0 1, .mul_e 24 11 0 0, .mls_e 24 27 7 0, .sub 11 9 24, .add 9 9 24, .sqrdmulh_e 27 9 0 3, .mul_e 24 9 0 2,
    .mls_e 24 27 7 0, .sub 9 8 24, .add 8 8 24, .sqrdmulh_e 27 11 0 5, .mul_e 24 11 0 4, .mls_e 24 27 7 0, .sub 11 10 24, .add 10 10 24,
    .trn1_4s 25 8 9, .trn2_4s 26 8 9, .trn1_4s 27 10 11, .trn2_4s 28 10 11, .trn2_2d 10 25 27, .trn2_2d 11 26 28, .trn1_2d 8 25 27, .trn1_2d 9 26 28,
    .ldr_post 0 2 96, .ldr 4 2 (-80), .ldr 1 2 (-64), .ldr 5 2 (-48), .ldr 2 2 (-32), .ldr 6 2 (-16), .sqrdmulh 27 10 4, .mul 24 10 0,
    .mls_e 24 27 7 0, .sub 10 8 24, .add 8 8 24, .sqrdmulh 27 11 4, .mul 24 11 0, .mls_e 24 27 7 0, .sub 11 9 24, .add 9 9 24, .sqrdmulh 27 9 5,
    .mul 24 9 1, .mls_e 24 27 7 0, .sub 9 8 24, .add 8 8 24, .sqrdmulh 27 11 6, .mul 24 11 2, .mls_e 24 27 7 0, .sub 11 10 24, .add 10 10 24,
    .st4 8 9 10 11 0 64, .subs_i 4 4 1],
   .cbnz 4 3⟩,
  -- block 4: lines 295-295
  ⟨[
    .ldp_d 8 9 31 0, .ldp_d 10 11 31 16, .ldp_d 12 13 31 32, .ldp_d 14 15 31 48, .add_i 31 31 64],
   .ret⟩]

/-- `intt_asm_clean`, intt_clean.S 179-371. -/
def intt_asm_clean : List Block := [
  -- block 0: lines 179-242
  ⟨[
    .sub_i 31 31 64, .stp_d 8 9 31 0, .stp_d 10 11 31 16, .stp_d 12 13 31 32, .stp_d 14 15 31 48, .adr 5 .inttConst, .ld1 7 5 0, .adr 5 .inttNinv,
    .ld1r 29 5 0, .adr 5 .inttNinvTw, .ld1r 30 5 0, .mov_r 3 0, .mov_i 4 8],
   .next⟩,
  -- block 1: lines 246-259
  ⟨[
    .ldr 8 3 0, .ldr 9 3 16, .ldr 10 3 32, .ldr 11 3 48, .sqrdmulh 27 8 30, .mul 8 8 29, .mls_e 8 27 7 0, .sqrdmulh 27 9 30, .mul 9 9 29,
    .mls_e 9 27 7 0, .sqrdmulh 27 10 30, .mul 10 10 29, .mls_e 10 27 7 0, .sqrdmulh 27 11 30, .mul 11 11 29, .mls_e 11 27 7 0, .str_post 8 3 64,
    .str 9 3 (-48), .str 10 3 (-32), .str 11 3 (-16), .subs_i 4 4 1],
   .cbnz 4 1⟩,
  -- block 2: lines 262-263
  ⟨[
    .mov_r 3 0, .mov_i 4 8],
   .next⟩,
  -- block 3: lines 268-320
  ⟨[
    .ldr 8 3 0, .ldr 9 3 16, .ldr 10 3 32, .ldr 11 3 48, .trn1_4s 25 8 9, .trn2_4s 26 8 9, .trn1_4s 27 10 11, .trn2_4s 28 10 11, .trn2_2d 10 25 27,
    .trn2_2d 11 26 28, .trn1_2d 8 25 27, .trn1_2d 9 26 28, .ldr_post 0 2 96, .ldr 4 2 (-80), .ldr 1 2 (-64), .ldr 5 2 (-48), .ldr 2 2 (-32),
    .ldr 6 2 (-16), .sub 24 8 9, .add 8 8 9, .sqrdmulh 27 24 5, .mul 9 24 1, .mls_e 9 27 7 0, .sub 24 10 11, .add 10 10 11, .sqrdmulh 27 24 6,
    .mul 11 24 2, .mls_e 11 27 7 0, .sub 24 8 10, .add 8 8 10, .sqrdmulh 27 24 4, .mul 10 24 0, .mls_e 10 27 7 0, .sub 24 9 11, .add 9 9 11,
    .sqrdmulh 27 24 4, .mul 11 24 0, .mls_e 11 27 7 0, .trn1_4s 25 8 9, .trn2_4s 26 8 9, .trn1_4s 27 10 11, .trn2_4s 28 10 11, .trn2_2d 10 25 27,
    .trn2_2d 11 26 28, .trn1_2d 8 25 27, .trn1_2d 9 26 28, .ldr_post 0 1 16, .sub 24 8 9, .add 8 8 9, .sqrdmulh_e 27 24 0 3, .mul_e 9 24 0 2,
    .mls_e 9 27 7 0, .sub 24 10 11, .add 10 10 11, .sqrdmulh_e 27 24 0 5, .mul_e 11 24 0 4, .mls_e 11 27 7 0, .sqdmulh_e 25 8 7 1, .srshr 25 25 11,
    .mls_e 8 25 7 0, .sqdmulh_e 25 10 7 1, .srshr 25 25 11, .mls_e 10 25 7 0, .sqdmulh_e 25 9 7 1, .srshr 25 25 11, .mls_e 9 25 7 0,
    .sqdmulh_e 25 11 7 1, .srshr 25 25 11, .mls_e 11 25 7 0, .sub 24 8 10, .add 8 8 10, .sqrdmulh_e 27 24 0 1, .mul_e 10 24 0 0, .mls_e 10 27 7 0,
    .sub 24 9 11, .add 9 9 11, .sqrdmulh_e 27 24 0 1, .mul_e 11 24 0 0, .mls_e 11 27 7 0, .str_post 8 3 64, .str 9 3 (-48), .str 10 3 (-32),
    .str 11 3 (-16), .subs_i 4 4 1],
   .cbnz 4 3⟩,
  -- block 4: lines 325-326
  ⟨[
    .mov_i 4 4, .ldr_post 0 1 32, .ldr 1 1 (-16)],
   .next⟩,
  -- block 5: lines 332-368
  ⟨[
    .ldr 8 0 0, .ldr 9 0 64, .ldr 10 0 128, .ldr 11 0 192, .ldr 12 0 256, .ldr 13 0 320, .ldr 14 0 384, .ldr 15 0 448, .sub 24 8 9, .add 8 8 9,
    .sqrdmulh_e 27 24 0 7, .mul_e 9 24 0 6, .mls_e 9 27 7 0, .sub 24 10 11, .add 10 10 11, .sqrdmulh_e 27 24 1 1, .mul_e 11 24 1 0, .mls_e 11 27 7 0,
    .sub 24 12 13, .add 12 12 13, .sqrdmulh_e 27 24 1 3, .mul_e 13 24 1 2, .mls_e 13 27 7 0, .sub 24 14 15, .add 14 14 15, .sqrdmulh_e 27 24 1 5,
    .mul_e 15 24 1 4, .mls_e 15 27 7 0, .sub 24 8 10, .add 8 8 10, .sqrdmulh_e 27 24 0 3, .mul_e 10 24 0 2, .mls_e 10 27 7 0, .sub 24 9 11,
    .add 9 9 11, .sqrdmulh_e 27 24 0 3, .mul_e 11 24 0 2, .mls_e 11 27 7 0, .sub 24 12 14, .add 12 12 14, .sqrdmulh_e 27 24 0 5, .mul_e 14 24 0 4,
    .mls_e 14 27 7 0, .sub 24 13 15, .add 13 13 15, .sqrdmulh_e 27 24 0 5, .mul_e 15 24 0 4, .mls_e 15 27 7 0, .sub 24 8 12, .add 8 8 12,
    .sqrdmulh_e 27 24 0 1, .mul_e 12 24 0 0, .mls_e 12 27 7 0, .sub 24 9 13, .add 9 9 13, .sqrdmulh_e 27 24 0 1, .mul_e 13 24 0 0, .mls_e 13 27 7 0,
    .sub 24 10 14, .add 10 10 14, .sqrdmulh_e 27 24 0 1, .mul_e 14 24 0 0, .mls_e 14 27 7 0, .sub 24 11 15, .add 11 11 15, .sqrdmulh_e 27 24 0 1,
    .mul_e 15 24 0 0, .mls_e 15 27 7 0, .str 12 0 256, .str 13 0 320, .str 14 0 384, .str 15 0 448, .str_post 8 0 16, .str 9 0 48, .str 10 0 112,
    .str 11 0 176, .subs_i 4 4 1],
   .cbnz 4 5⟩,
  -- block 6: lines 371-371
  ⟨[
    .ldp_d 8 9 31 0, .ldp_d 10 11 31 16, .ldp_d 12 13 31 32, .ldp_d 14 15 31 48, .add_i 31 31 64],
   .ret⟩]

/-- `poly_reduce_asm_clean`, poly_clean.S 63-91. -/
def poly_reduce_asm_clean : List Block := [
  -- block 0: lines 63-69
  ⟨[
    .adr 2 .polyConst, .ld1 2 2 0, .mov_i 3 3329, .dup 4 3, .mov_i 1 8],
   .next⟩,
  -- block 1: lines 71-91
  ⟨[
    .ldr_post 0 0 64, .sqdmulh_e 1 0 2 1, .srshr 1 1 11, .mls_e 0 1 2 0, .sshr 3 0 15, .and 3 4 3, .add 0 0 3, .str 0 0 (-64), .ldr 0 0 (-48),
    .sqdmulh_e 1 0 2 1, .srshr 1 1 11, .mls_e 0 1 2 0, .sshr 3 0 15, .and 3 4 3, .add 0 0 3, .str 0 0 (-48), .ldr 0 0 (-32), .sqdmulh_e 1 0 2 1,
    .srshr 1 1 11, .mls_e 0 1 2 0, .sshr 3 0 15, .and 3 4 3, .add 0 0 3, .str 0 0 (-32), .ldr 0 0 (-16), .sqdmulh_e 1 0 2 1, .srshr 1 1 11,
    .mls_e 0 1 2 0, .sshr 3 0 15, .and 3 4 3, .add 0 0 3, .str 0 0 (-16), .subs_i 1 1 1],
   .cbnz 1 1⟩,
  -- block 2
  ⟨[
],
   .ret⟩]

/-- `poly_mulcache_compute_asm_clean`, poly_clean.S 138-151. -/
def poly_mulcache_compute_asm_clean : List Block := [
  -- block 0: lines 138-141
  ⟨[
    .adr 4 .polyConst, .ld1 6 4 0, .mov_i 5 16],
   .next⟩,
  -- block 1: lines 143-151
  ⟨[
    .ldr_post 4 1 32, .ldr 5 1 (-16), .ldr_post 2 2 16, .ldr_post 3 3 16, .uzp2 1 4 5, .sqrdmulh 4 1 3, .mul 7 1 2, .mls_e 7 4 6 0, .str_post 7 0 16,
    .subs_i 5 5 1],
   .cbnz 5 1⟩,
  -- block 2
  ⟨[
],
   .ret⟩]

/-- `poly_tobytes_asm_clean`, poly_clean.S 197-215. -/
def poly_tobytes_asm_clean : List Block := [
  -- block 0: lines 197-197
  ⟨[
    .mov_i 2 16],
   .next⟩,
  -- block 1: lines 199-215
  ⟨[
    .ld2 0 1 1 32, .xtn 2 0, .shrn 3 0 8, .xtn 5 1, .sli 3 5 4, .shrn 4 1 4, .st3 2 3 4 0 24, .subs_i 2 2 1],
   .cbnz 2 1⟩,
  -- block 2
  ⟨[
],
   .ret⟩]

/-- `poly_tomont_asm_clean`, poly_clean.S 256-283. -/
def poly_tomont_asm_clean : List Block := [
  -- block 0: lines 256-264
  ⟨[
    .adr 2 .polyConst, .ld1 2 2 0, .ldrsh 3 2 4, .dup 3 3, .ldrh 3 2 6, .dup 4 3, .mov_i 1 8],
   .next⟩,
  -- block 1: lines 267-283
  ⟨[
    .ldr_post 0 0 64, .sqrdmulh 5 0 4, .mul 1 0 3, .mls_e 1 5 2 0, .str 1 0 (-64), .ldr 0 0 (-48), .sqrdmulh 5 0 4, .mul 1 0 3, .mls_e 1 5 2 0,
    .str 1 0 (-48), .ldr 0 0 (-32), .sqrdmulh 5 0 4, .mul 1 0 3, .mls_e 1 5 2 0, .str 1 0 (-32), .ldr 0 0 (-16), .sqrdmulh 5 0 4, .mul 1 0 3,
    .mls_e 1 5 2 0, .str 1 0 (-16), .sub_i 1 1 1],
   .cbnz 1 1⟩,
  -- block 2
  ⟨[
],
   .ret⟩]

/-- `polyvec_basemul_acc_montgomery_cached_asm_clean` for `MLKEM_K == 2`, polyvec_clean.S 151-180. -/
def polyvec_basemul_acc_montgomery_cached_asm_clean_k2 : List Block := [
  -- block 0: lines 151-164
  ⟨[
    .sub_i 31 31 64, .stp_d 8 9 31 0, .stp_d 10 11 31 16, .stp_d 12 13 31 32, .stp_d 14 15 31 48, .adr 14 .polyvecConst, .ld1 2 14 0, .ldrsh 15 14 0,
    .dup 0 15, .add_i 4 1 512, .add_i 5 2 512, .add_i 6 3 256, .mov_i 13 16],
   .next⟩,
  -- block 1: lines 167-177
  ⟨[
    .ld2 3 4 1 32, .ld2 5 6 2 32, .ld1 7 3 16, .smull 8 3 5, .smull2 10 3 5, .smlal 8 4 7, .smlal2 10 4 7, .smull 9 3 6, .smull2 11 3 6,
    .smlal 9 4 5, .smlal2 11 4 5, .ld2 3 4 4 32, .ld2 5 6 5 32, .ld1 7 6 16, .smlal 8 3 5, .smlal2 10 3 5, .smlal 8 4 7, .smlal2 10 4 7,
    .smlal 9 3 6, .smlal2 11 3 6, .smlal 9 4 5, .smlal2 11 4 5, .uzp1 28 8 10, .mul_e 28 28 2 2, .smlal 8 28 0, .smlal2 10 28 0, .uzp2 26 8 10,
    .uzp1 28 9 11, .mul_e 28 28 2 2, .smlal 9 28 0, .smlal2 11 28 0, .uzp2 27 9 11, .st2 26 27 0 32, .subs_i 13 13 1],
   .cbnz 13 1⟩,
  -- block 2: lines 180-180
  ⟨[
    .ldp_d 8 9 31 0, .ldp_d 10 11 31 16, .ldp_d 12 13 31 32, .ldp_d 14 15 31 48, .add_i 31 31 64],
   .ret⟩]

/-- `polyvec_basemul_acc_montgomery_cached_asm_clean` for `MLKEM_K == 3`, polyvec_clean.S 190-224. -/
def polyvec_basemul_acc_montgomery_cached_asm_clean_k3 : List Block := [
  -- block 0: lines 190-206
  ⟨[
    .sub_i 31 31 64, .stp_d 8 9 31 0, .stp_d 10 11 31 16, .stp_d 12 13 31 32, .stp_d 14 15 31 48, .adr 14 .polyvecConst, .ld1 2 14 0, .ldrsh 15 14 0,
    .dup 0 15, .add_i 4 1 512, .add_i 5 2 512, .add_i 6 3 256, .add_i 7 1 1024, .add_i 8 2 1024, .add_i 9 3 512, .mov_i 13 16],
   .next⟩,
  -- block 1: lines 209-221
  ⟨[
    .ld2 3 4 1 32, .ld2 5 6 2 32, .ld1 7 3 16, .smull 8 3 5, .smull2 10 3 5, .smlal 8 4 7, .smlal2 10 4 7, .smull 9 3 6, .smull2 11 3 6,
    .smlal 9 4 5, .smlal2 11 4 5, .ld2 3 4 4 32, .ld2 5 6 5 32, .ld1 7 6 16, .smlal 8 3 5, .smlal2 10 3 5, .smlal 8 4 7, .smlal2 10 4 7,
    .smlal 9 3 6, .smlal2 11 3 6, .smlal 9 4 5, .smlal2 11 4 5, .ld2 3 4 7 32, .ld2 5 6 8 32, .ld1 7 9 16, .smlal 8 3 5, .smlal2 10 3 5,
    .smlal 8 4 7, .smlal2 10 4 7, .smlal 9 3 6, .smlal2 11 3 6, .smlal 9 4 5, .smlal2 11 4 5, .uzp1 28 8 10, .mul_e 28 28 2 2, .smlal 8 28 0,
    .smlal2 10 28 0, .uzp2 26 8 10, .uzp1 28 9 11, .mul_e 28 28 2 2, .smlal 9 28 0, .smlal2 11 28 0, .uzp2 27 9 11, .st2 26 27 0 32, .subs_i 13 13 1],
   .cbnz 13 1⟩,
  -- block 2: lines 224-224
  ⟨[
    .ldp_d 8 9 31 0, .ldp_d 10 11 31 16, .ldp_d 12 13 31 32, .ldp_d 14 15 31 48, .add_i 31 31 64],
   .ret⟩]

/-- `polyvec_basemul_acc_montgomery_cached_asm_clean` for `MLKEM_K == 4`, polyvec_clean.S 234-281. -/
def polyvec_basemul_acc_montgomery_cached_asm_clean_k4 : List Block := [
  -- block 0: lines 234-261
  ⟨[
    .sub_i 31 31 64, .stp_d 8 9 31 0, .stp_d 10 11 31 16, .stp_d 12 13 31 32, .stp_d 14 15 31 48, .adr 14 .polyvecConst, .ld1 2 14 0, .ldrsh 15 14 0,
    .dup 0 15, .add_i 4 1 512, .add_i 5 2 512, .add_i 6 3 256, .add_i 7 1 1024, .add_i 8 2 1024, .add_i 9 3 512, .add_i 10 1 1536, .add_i 11 2 1536,
    .add_i 12 3 768, .mov_i 13 16],
   .next⟩,
  -- block 1: lines 264-278
  ⟨[
    .ld2 3 4 1 32, .ld2 5 6 2 32, .ld1 7 3 16, .smull 8 3 5, .smull2 10 3 5, .smlal 8 4 7, .smlal2 10 4 7, .smull 9 3 6, .smull2 11 3 6,
    .smlal 9 4 5, .smlal2 11 4 5, .ld2 3 4 4 32, .ld2 5 6 5 32, .ld1 7 6 16, .smlal 8 3 5, .smlal2 10 3 5, .smlal 8 4 7, .smlal2 10 4 7,
    .smlal 9 3 6, .smlal2 11 3 6, .smlal 9 4 5, .smlal2 11 4 5, .ld2 3 4 7 32, .ld2 5 6 8 32, .ld1 7 9 16, .smlal 8 3 5, .smlal2 10 3 5,
    .smlal 8 4 7, .smlal2 10 4 7, .smlal 9 3 6, .smlal2 11 3 6, .smlal 9 4 5, .smlal2 11 4 5, .ld2 3 4 10 32, .ld2 5 6 11 32, .ld1 7 12 16,
    .smlal 8 3 5, .smlal2 10 3 5, .smlal 8 4 7, .smlal2 10 4 7, .smlal 9 3 6, .smlal2 11 3 6, .smlal 9 4 5, .smlal2 11 4 5, .uzp1 28 8 10,
    .mul_e 28 28 2 2, .smlal 8 28 0, .smlal2 10 28 0, .uzp2 26 8 10, .uzp1 28 9 11, .mul_e 28 28 2 2, .smlal 9 28 0, .smlal2 11 28 0, .uzp2 27 9 11,
    .st2 26 27 0 32, .subs_i 13 13 1],
   .cbnz 13 1⟩,
  -- block 2: lines 281-281
  ⟨[
    .ldp_d 8 9 31 0, .ldp_d 10 11 31 16, .ldp_d 12 13 31 32, .ldp_d 14 15 31 48, .add_i 31 31 64],
   .ret⟩]

/-- `ntt_asm_opt`, ntt_opt.S 201-892. -/
def ntt_asm_opt : List Block := [
  -- block 0: lines 201-264
  ⟨[
    .sub_i 31 31 64, .stp_d 8 9 31 0, .stp_d 10 11 31 16, .stp_d 12 13 31 32, .stp_d 14 15 31 48, .adr 5 .nttConst, .ld1 7 5 0, .mov_r 3 0,
    .mov_i 4 4, .ldr_post 0 1 32, .ldr 1 1 (-16), .ldr 30 0 0, .ldr 2 0 64, .ldr 21 0 128, .ldr 22 0 192, .ldr 29 0 256, .ldr 31 0 448,
    .mul_e 18 29 0 0, .ldr 5 0 320, .mul_e 15 31 0 0, .ldr 20 0 384, .sub_i 4 4 1],
   .next⟩,
  -- block 1: lines 279-436
  ⟨[
    .sqrdmulh_e 9 29 0 1, .sqrdmulh_e 29 5 0 1, .mul_e 5 5 0 0, .sqrdmulh_e 4 20 0 1, .mls_e 18 9 7 0, .mul_e 9 20 0 0, .mls_e 5 29 7 0,
    .sqrdmulh_e 29 31 0 1, .sub 31 30 18, .mls_e 9 4 7 0, .sub 4 2 5, .add 5 2 5, .add 18 30 18, .sub 20 21 9, .add 9 21 9, .mls_e 15 29 7 0,
    .sqrdmulh_e 29 20 0 5, .mul_e 20 20 0 4, .sqrdmulh_e 30 9 0 3, .sub 2 22 15, .add 15 22 15, .mls_e 20 29 7 0, .sqrdmulh_e 29 2 0 5,
    .mul_e 2 2 0 4, .mul_e 9 9 0 2, .sub 21 31 20, .add 31 31 20, .mls_e 2 29 7 0, .sqrdmulh_e 29 15 0 3, .mul_e 20 15 0 2, .mls_e 9 30 7 0,
    .sub 15 4 2, .add 4 4 2, .mls_e 20 29 7 0, .sub 29 18 9, .add 9 18 9, .sqrdmulh_e 18 4 1 3, .sub 30 5 20, .add 5 5 20, .mul_e 4 4 1 2,
    .sqrdmulh_e 20 30 1 1, .sqrdmulh_e 2 5 0 7, .mul_e 5 5 0 6, .mul_e 30 30 1 0, .mls_e 4 18 7 0, .sqrdmulh_e 18 15 1 5, .mls_e 5 2 7 0,
    .mls_e 30 20 7 0, .sub 20 31 4, .add 4 31 4, .sub 31 9 5, .mul_e 15 15 1 4, .add 9 9 5, .sub 5 29 30, .add 29 29 30, .mls_e 15 18 7 0,
    .str_post 9 0 16, .ldr 30 0 0, .sub 9 21 15, .add 18 21 15, .str 31 0 48, .ldr 2 0 64, .str 29 0 112, .ldr 21 0 128, .str 5 0 176, .ldr 22 0 192,
    .str 4 0 240, .ldr 29 0 256, .str 20 0 304, .ldr 5 0 320, .str 18 0 368, .mul_e 18 29 0 0, .str 9 0 432, .ldr 31 0 448, .ldr 20 0 384,
    .mul_e 15 31 0 0, .sub_i 4 4 1],
   .cbnz 4 1⟩,
  -- block 2: lines 451-635
  ⟨[
    .sqrdmulh_e 13 31 0 1, .mul_e 8 20 0 0, .sqrdmulh_e 26 20 0 1, .mul_e 31 5 0 0, .mls_e 15 13 7 0, .sqrdmulh_e 4 5 0 1, .mls_e 8 26 7 0,
    .sqrdmulh_e 6 29 0 1, .add 17 22 15, .mls_e 31 4 7 0, .sub 3 21 8, .sqrdmulh_e 5 17 0 3, .mul_e 29 17 0 2, .mul_e 20 3 0 4, .sqrdmulh_e 4 3 0 5,
    .mls_e 18 6 7 0, .mls_e 29 5 7 0, .add 13 2 31, .mls_e 20 4 7 0, .sub 16 30 18, .add 25 21 8, .sub 9 13 29, .add 21 16 20, .sub 10 16 20,
    .mul_e 4 9 1 0, .sqrdmulh_e 16 25 0 3, .mul_e 26 25 0 2, .sqrdmulh_e 5 9 1 1, .sub 9 22 15, .add 27 30 18, .mls_e 26 16 7 0,
    .sqrdmulh_e 16 9 0 5, .mul_e 20 9 0 4, .mls_e 4 5 7 0, .sub 6 27 26, .sub 18 2 31, .mls_e 20 16 7 0, .sub 5 6 4, .add 9 6 4, .add 4 13 29,
    .str 5 0 192, .add 5 18 20, .str 9 0 128, .sub 20 18 20, .sqrdmulh_e 2 5 1 3, .mul_e 15 5 1 2, .add 6 27 26, .sqrdmulh_e 29 20 1 5,
    .mul_e 20 20 1 4, .mls_e 15 2 7 0, .sqrdmulh_e 9 4 0 7, .mul_e 5 4 0 6, .mls_e 20 29 7 0, .add 3 21 15, .sub 4 21 15, .mls_e 5 9 7 0,
    .str 3 0 256, .add 9 10 20, .str 4 0 320, .sub 29 10 20, .str 9 0 384, .add 24 6 5, .str 29 0 448, .sub 4 6 5, .str_post 24 0 16, .str 4 0 48,
    .mov_r 0 3, .mov_i 4 8, .ldr 29 0 48, .ldr_post 14 1 16, .ldr 5 0 16, .sqrdmulh_e 9 29 14 1, .mul_e 29 29 14 0, .ldr 13 0 32, .mls_e 29 9 7 0,
    .sqrdmulh_e 11 13 14 1, .ldr 16 2 16, .sub 28 5 29, .add 12 5 29, .ldr 24 2 80, .sub_i 4 4 1],
   .next⟩,
  -- block 3: lines 650-775
  ⟨[
    .ldr_post 0 2 96, .ldr 23 0 112, .ldr 21 0 80, .ldr 17 0 0, .ldr 27 2 (-64), .sqrdmulh_e 26 12 14 3, .sqrdmulh_e 2 28 14 5, .mul_e 30 28 14 4,
    .mul_e 22 13 14 0, .ldr 13 0 96, .mls_e 30 2 7 0, .mls_e 22 11 7 0, .mul_e 3 12 14 2, .ldr_post 14 1 16, .sub 2 17 22, .mls_e 3 26 7 0,
    .add 22 17 22, .add 4 2 30, .sub 6 2 30, .add 26 22 3, .sub 22 22 3, .trn2_4s 29 4 6, .sqrdmulh_e 25 23 14 1, .trn2_4s 1 26 22,
    .mul_e 10 23 14 0, .trn1_4s 18 26 22, .trn2_2d 17 1 29, .trn1_2d 2 1 29, .trn1_4s 29 4 6, .sqrdmulh 4 17 16, .mls_e 10 25 7 0, .trn2_2d 30 18 29,
    .sqrdmulh_e 11 13 14 1, .sqrdmulh 23 30 16, .mul 16 17 0, .mul 1 30 0, .trn1_2d 30 18 29, .sub 28 21 10, .mls_e 16 4 7 0, .mls_e 1 23 7 0,
    .ldr 8 2 (-32), .sub 22 2 16, .ldr 9 2 (-48), .add 25 30 1, .add 5 2 16, .sqrdmulh 16 22 24, .mul 2 22 8, .mul 26 5 27, .sub 29 30 1,
    .sqrdmulh 30 5 9, .mls_e 2 16 7 0, .ldr 16 2 16, .mls_e 26 30 7 0, .add 12 21 10, .sub 3 29 2, .add 2 29 2, .add 0 25 26, .sub 1 25 26,
    .ldr 24 2 80, .st4 0 1 2 3 0 64, .sub_i 4 4 1],
   .cbnz 4 3⟩,
  -- block 4: lines 790-892
  ⟨[
    .mul_e 18 28 14 4, .sqrdmulh_e 15 28 14 5, .mul_e 5 13 14 0, .ldr 9 0 0, .mls_e 18 15 7 0, .mls_e 5 11 7 0, .mul_e 10 12 14 2,
    .sqrdmulh_e 29 12 14 3, .ldr 2 2 32, .sub 4 9 5, .mls_e 10 29 7 0, .add 29 9 5, .sub 21 4 18, .add 9 4 18, .add 18 29 10, .sub 0 29 10,
    .trn2_4s 20 9 21, .trn1_4s 31 9 21, .trn2_4s 9 18 0, .ldr_post 10 2 96, .trn2_2d 29 9 20, .trn1_2d 20 9 20, .mul 4 29 10, .sqrdmulh 5 29 16,
    .ldr 15 2 (-32), .trn1_4s 30 18 0, .mls_e 4 5 7 0, .ldr 9 2 (-48), .trn2_2d 3 30 31, .add 29 20 4, .sub 5 20 4, .mul 18 3 10, .sqrdmulh 26 3 16,
    .sqrdmulh 6 5 24, .mul 4 29 2, .mul 0 5 15, .mls_e 18 26 7 0, .sqrdmulh 9 29 9, .trn1_2d 31 30 31, .mls_e 0 6 7 0, .sub 5 31 18, .mls_e 4 9 7 0,
    .add 20 31 18, .sub 29 5 0, .add 28 5 0, .sub 27 20 4, .add 26 20 4, .st4 26 27 28 29 0 64, .ldp_d 8 9 31 0, .ldp_d 10 11 31 16,
    .ldp_d 12 13 31 32, .ldp_d 14 15 31 48, .add_i 31 31 64],
   .ret⟩]

/-- `intt_asm_opt`, intt_opt.S 179-1027. -/
def intt_asm_opt : List Block := [
  -- block 0: lines 179-242
  ⟨[
    .sub_i 31 31 64, .stp_d 8 9 31 0, .stp_d 10 11 31 16, .stp_d 12 13 31 32, .stp_d 14 15 31 48, .adr 5 .inttConst, .ld1 7 5 0, .adr 5 .inttNinv,
    .ld1r 29 5 0, .adr 5 .inttNinvTw, .ld1r 30 5 0, .mov_r 3 0, .mov_i 4 8],
   .next⟩,
  -- block 1: lines 246-259
  ⟨[
    .ldr 8 3 0, .ldr 9 3 16, .ldr 10 3 32, .ldr 11 3 48, .sqrdmulh 27 8 30, .mul 8 8 29, .mls_e 8 27 7 0, .sqrdmulh 27 9 30, .mul 9 9 29,
    .mls_e 9 27 7 0, .sqrdmulh 27 10 30, .mul 10 10 29, .mls_e 10 27 7 0, .sqrdmulh 27 11 30, .mul 11 11 29, .mls_e 11 27 7 0, .str_post 8 3 64,
    .str 9 3 (-48), .str 10 3 (-32), .str 11 3 (-16), .subs_i 4 4 1],
   .cbnz 4 1⟩,
  -- block 2: lines 262-306
  ⟨[
    .mov_r 3 0, .mov_i 4 8, .ldr 26 3 0, .ldr 8 3 16, .ldr 24 3 32, .ldr 16 3 48, .ldr_post 9 2 96, .trn1_4s 0 24 16, .ldr 6 2 (-80), .ldr 3 2 (-64),
    .ldr 15 2 (-48), .ldr 4 2 (-32), .ldr 28 2 (-16), .sub_i 4 4 1],
   .next⟩,
  -- block 3: lines 321-492
  ⟨[
    .trn1_4s 12 26 8, .trn2_4s 26 26 8, .trn2_4s 8 24 16, .trn2_2d 11 12 0, .trn1_2d 12 12 0, .trn2_2d 16 26 8, .trn1_2d 26 26 8, .sub 8 11 16,
    .add 11 11 16, .sub 16 12 26, .add 12 12 26, .sqrdmulh 26 8 28, .sqrdmulh 15 16 15, .mul 16 16 3, .mul 8 8 4, .sub 0 12 11, .add 12 12 11,
    .mls_e 16 15 7 0, .mls_e 8 26 7 0, .sqrdmulh 26 0 6, .mul 11 0 9, .ldr_post 15 1 16, .sub 0 16 8, .mls_e 11 26 7 0, .add 26 16 8,
    .sqrdmulh 8 0 6, .mul 16 0 9, .trn1_4s 0 12 26, .trn2_4s 12 12 26, .ldr 26 3 64, .mls_e 16 8 7 0, .ldr 8 3 80, .ldr 24 3 96, .trn1_4s 9 11 16,
    .trn2_4s 11 11 16, .ldr 16 3 112, .trn2_2d 6 0 9, .trn2_2d 3 12 11, .trn1_2d 0 0 9, .trn1_2d 12 12 11, .sub 11 6 3, .sub 9 0 12, .add 12 0 12,
    .sqrdmulh_e 0 11 15 5, .sqrdmulh_e 4 9 15 3, .mul_e 9 9 15 2, .mul_e 11 11 15 4, .add 6 6 3, .sqdmulh_e 3 12 7 1, .mls_e 9 4 7 0,
    .mls_e 11 0 7 0, .sqdmulh_e 0 6 7 1, .srshr 3 3 11, .sqdmulh_e 4 9 7 1, .sqdmulh_e 28 11 7 1, .mls_e 12 3 7 0, .srshr 0 0 11, .srshr 3 4 11,
    .srshr 4 28 11, .mls_e 6 0 7 0, .mls_e 9 3 7 0, .mls_e 11 4 7 0, .trn1_4s 0 24 16, .sub 3 12 6, .add 12 12 6, .sub 6 9 11, .sqrdmulh_e 4 3 15 1,
    .mul_e 3 3 15 0, .sqrdmulh_e 28 6 15 1, .mul_e 15 6 15 0, .add 11 9 11, .mls_e 3 4 7 0, .str_post 12 3 64, .mls_e 15 28 7 0, .str 11 3 (-48),
    .ldr_post 9 2 96, .str 3 3 (-32), .ldr 6 2 (-80), .str 15 3 (-16), .ldr 3 2 (-64), .ldr 15 2 (-48), .ldr 4 2 (-32), .ldr 28 2 (-16), .sub_i 4 4 1],
   .cbnz 4 3⟩,
  -- block 4: lines 507-706
  ⟨[
    .trn1_4s 11 26 8, .trn2_4s 24 24 16, .trn2_4s 26 26 8, .trn1_2d 18 11 0, .trn2_2d 11 11 0, .trn2_2d 12 26 24, .trn1_2d 8 26 24, .sub 26 11 12,
    .sub 13 18 8, .add 24 18 8, .mul 16 26 4, .sqrdmulh 17 13 15, .mul 3 13 3, .sqrdmulh 26 26 28, .add 10 11 12, .mls_e 3 17 7 0, .mls_e 16 26 7 0,
    .sub 26 24 10, .ldr_post 4 1 16, .sub 12 3 16, .sqrdmulh 15 26 6, .mul 11 26 9, .mul 8 12 9, .sqrdmulh 12 12 6, .add 0 24 10, .mls_e 11 15 7 0,
    .add 6 3 16, .mls_e 8 12 7 0, .trn2_4s 26 0 6, .trn2_4s 12 11 8, .trn1_4s 3 11 8, .trn1_4s 17 0 6, .trn1_2d 8 26 12, .trn2_2d 13 26 12,
    .trn1_2d 11 17 3, .trn2_2d 15 17 3, .sub 12 11 8, .add 16 15 13, .sub 26 15 13, .mul_e 0 12 4 2, .sqrdmulh_e 9 12 4 3, .mul_e 13 26 4 4,
    .sqrdmulh_e 26 26 4 5, .add 24 11 8, .mls_e 0 9 7 0, .sqdmulh_e 12 16 7 1, .mls_e 13 26 7 0, .sqdmulh_e 11 24 7 1, .sqdmulh_e 8 0 7 1,
    .srshr 12 12 11, .sqdmulh_e 26 13 7 1, .srshr 11 11 11, .mls_e 16 12 7 0, .srshr 8 8 11, .srshr 26 26 11, .mls_e 24 11 7 0, .mls_e 0 8 7 0,
    .mls_e 13 26 7 0, .sub 26 24 16, .add 15 24 16, .sub 12 0 13, .mul_e 11 26 4 0, .sqrdmulh_e 16 26 4 1, .mul_e 26 12 4 0, .sqrdmulh_e 8 12 4 1,
    .add 12 0 13, .mls_e 11 16 7 0, .str_post 15 3 64, .mls_e 26 8 7 0, .str 12 3 (-48), .str 11 3 (-32), .str 26 3 (-16), .mov_i 4 4,
    .ldr_post 0 1 32, .ldr 1 1 (-16), .ldr 24 0 128, .ldr 16 0 192, .ldr 9 0 256, .ldr 6 0 320, .ldr 3 0 384, .ldr 4 0 448, .add 28 9 6,
    .add 19 24 16, .add 13 3 4, .ldr 11 0 0, .add 23 28 13, .ldr 15 0 64, .sub_i 4 4 1],
   .next⟩,
  -- block 5: lines 721-878
  ⟨[
    .sub 12 11 15, .add 26 11 15, .sub 8 24 16, .sqrdmulh_e 11 12 0 7, .mul_e 12 12 0 6, .sub 16 26 19, .add 26 26 19, .sqrdmulh_e 15 8 1 1,
    .mul_e 8 8 1 0, .mls_e 12 11 7 0, .sub 11 9 6, .sqrdmulh_e 24 16 0 3, .mul_e 16 16 0 2, .sub 9 26 23, .add 26 26 23, .mls_e 8 15 7 0,
    .sqrdmulh_e 15 11 1 3, .mul_e 11 11 1 2, .sub 6 3 4, .sub 3 12 8, .add 12 12 8, .mls_e 11 15 7 0, .sqrdmulh_e 8 6 1 5, .mls_e 16 24 7 0,
    .mul_e 15 6 1 4, .sqrdmulh_e 24 3 0 3, .mul_e 6 3 0 2, .sqrdmulh_e 3 9 0 1, .mul_e 9 9 0 0, .str_post 26 0 16, .mls_e 15 8 7 0, .mls_e 6 24 7 0,
    .sub 26 28 13, .mls_e 9 3 7 0, .sub 8 11 15, .sqrdmulh_e 24 26 0 5, .mul_e 26 26 0 4, .add 11 11 15, .sqrdmulh_e 15 8 0 5, .mul_e 8 8 0 4,
    .mls_e 26 24 7 0, .sub 24 12 11, .add 12 12 11, .mls_e 8 15 7 0, .sqrdmulh_e 11 24 0 1, .mul_e 15 24 0 0, .sub 24 16 26, .add 26 16 26,
    .sub 16 6 8, .mls_e 15 11 7 0, .sqrdmulh_e 11 24 0 1, .mul_e 24 24 0 0, .add 8 6 8, .sqrdmulh_e 6 16 0 1, .mul_e 16 16 0 0, .mls_e 24 11 7 0,
    .str 9 0 240, .ldr 11 0 0, .mls_e 16 6 7 0, .str 15 0 304, .ldr 15 0 64, .str 24 0 368, .ldr 24 0 128, .str 16 0 432, .ldr 16 0 192,
    .str 12 0 48, .ldr 9 0 256, .ldr 6 0 320, .ldr 3 0 384, .ldr 4 0 448, .str 26 0 112, .add 28 9 6, .add 13 3 4, .str 8 0 176, .add 19 24 16,
    .add 23 28 13, .sub_i 4 4 1],
   .cbnz 4 5⟩,
  -- block 6: lines 893-1027
  ⟨[
    .add 10 11 15, .sub 12 28 13, .sub 11 11 15, .sub 22 10 19, .mul_e 18 12 0 4, .sqrdmulh_e 26 12 0 5, .sqrdmulh_e 12 22 0 3, .mul_e 13 22 0 2,
    .sub 31 24 16, .sqrdmulh_e 22 11 0 7, .mls_e 18 26 7 0, .mls_e 13 12 7 0, .sqrdmulh_e 2 31 1 1, .mul_e 5 31 1 0, .mul_e 15 11 0 6, .sub 12 13 18,
    .sub 4 3 4, .mls_e 5 2 7 0, .sqrdmulh_e 26 12 0 1, .mul_e 12 12 0 0, .mls_e 15 22 7 0, .sqrdmulh_e 8 4 1 5, .mul_e 4 4 1 4, .mls_e 12 26 7 0,
    .sub 21 15 5, .sub 28 9 6, .mls_e 4 8 7 0, .mul_e 24 21 0 2, .sqrdmulh_e 8 21 0 3, .sqrdmulh_e 6 28 1 3, .add 19 10 19, .mul_e 28 28 1 2,
    .mls_e 24 8 7 0, .sub 11 19 23, .str 12 0 384, .mls_e 28 6 7 0, .sqrdmulh_e 16 11 0 1, .mul_e 9 11 0 0, .add 6 15 5, .add 26 28 4, .sub 15 28 4,
    .mls_e 9 16 7 0, .add 3 6 26, .mul_e 8 15 0 4, .sqrdmulh_e 15 15 0 5, .str 9 0 256, .sub 2 6 26, .str 3 0 64, .mls_e 8 15 7 0,
    .sqrdmulh_e 15 2 0 1, .mul_e 11 2 0 0, .add 16 13 18, .sub 12 24 8, .add 8 24 8, .mls_e 11 15 7 0, .sqrdmulh_e 26 12 0 1, .mul_e 12 12 0 0,
    .str 8 0 192, .add 15 19 23, .str 11 0 320, .mls_e 12 26 7 0, .str_post 15 0 16, .str 16 0 112, .str 12 0 432, .ldp_d 8 9 31 0,
    .ldp_d 10 11 31 16, .ldp_d 12 13 31 32, .ldp_d 14 15 31 48, .add_i 31 31 64],
   .ret⟩]

/-- `poly_reduce_asm_opt`, poly_opt.S 63-233. -/
def poly_reduce_asm_opt : List Block := [
  -- block 0: lines 63-118
  ⟨[
    .adr 2 .polyConst, .ld1 2 2 0, .mov_i 3 3329, .dup 4 3, .mov_i 1 8, .ldr 21 0 48, .ldr 3 0 32, .sqdmulh_e 6 21 2 1, .sqdmulh_e 30 3 2 1,
    .srshr 6 6 11, .srshr 30 30 11, .mls_e 21 6 2 0, .mls_e 3 30 2 0, .ldr_post 22 0 64, .sshr 6 21 15, .sshr 30 3 15, .and 6 4 6, .add 6 21 6,
    .and 21 4 30, .add 21 3 21, .sub_i 1 1 1],
   .next⟩,
  -- block 1: lines 133-202
  ⟨[
    .sqdmulh_e 0 22 2 1, .str 6 0 (-16), .ldr 31 0 48, .srshr 5 0 11, .str 21 0 (-32), .sqdmulh_e 24 31 2 1, .mls_e 22 5 2 0, .ldr 20 0 (-48),
    .srshr 6 24 11, .sshr 0 22 15, .sqdmulh_e 21 20 2 1, .mls_e 31 6 2 0, .ldr 30 0 32, .srshr 23 21 11, .and 19 4 0, .sshr 16 31 15,
    .mls_e 20 23 2 0, .and 28 4 16, .sqdmulh_e 23 30 2 1, .add 6 31 28, .add 31 22 19, .sshr 17 20 15, .srshr 18 23 11, .and 26 4 17, .add 7 20 26,
    .mls_e 30 18 2 0, .ldr_post 22 0 64, .str 7 0 (-112), .sshr 0 30 15, .str 31 0 (-128), .and 29 4 0, .add 21 30 29, .sub_i 1 1 1],
   .cbnz 1 1⟩,
  -- block 2: lines 217-233
  ⟨[
    .ldr 29 0 (-48), .sqdmulh_e 1 22 2 1, .str 21 0 (-32), .sqdmulh_e 25 29 2 1, .str 6 0 (-16), .srshr 30 1 11, .srshr 20 25 11, .mls_e 22 30 2 0,
    .mls_e 29 20 2 0, .sshr 24 22 15, .and 31 4 24, .sshr 24 29 15, .add 3 22 31, .and 17 4 24, .add 25 29 17, .str 3 0 (-64), .str 25 0 (-48)],
   .ret⟩]

/-- `poly_mulcache_compute_asm_opt`, poly_opt.S 301-391. -/
def poly_mulcache_compute_asm_opt : List Block := [
  -- block 0: lines 301-337
  ⟨[
    .adr 4 .polyConst, .ld1 6 4 0, .mov_i 5 16, .ldr 3 1 16, .ldr_post 1 1 32, .ldr_post 26 3 16, .uzp2 30 1 3, .ldr_post 21 2 16, .sqrdmulh 3 30 26,
    .mul 26 30 21, .sub_i 5 5 1],
   .next⟩,
  -- block 1: lines 352-375
  ⟨[
    .ldr 30 1 16, .ldr_post 21 1 32, .mls_e 26 3 6 0, .ldr_post 3 3 16, .uzp2 24 21 30, .ldr_post 21 2 16, .str_post 26 0 16, .sqrdmulh 3 24 3,
    .mul 26 24 21, .sub_i 5 5 1],
   .cbnz 5 1⟩,
  -- block 2: lines 390-391
  ⟨[
    .mls_e 26 3 6 0, .str_post 26 0 16],
   .ret⟩]

/-- `poly_tomont_asm_opt`, poly_opt.S 502-628. -/
def poly_tomont_asm_opt : List Block := [
  -- block 0: lines 502-539
  ⟨[
    .adr 2 .polyConst, .ld1 2 2 0, .ldrsh 3 2 4, .dup 3 3, .ldrh 3 2 6, .dup 4 3, .mov_i 1 8, .ldr 6 0 16, .ldr 20 0 32, .mul 21 6 3,
    .sqrdmulh 6 6 4, .mls_e 21 6 2 0, .sub_i 1 1 1],
   .next⟩,
  -- block 1: lines 554-599
  ⟨[
    .ldr_post 18 0 64, .str 21 0 (-48), .ldr 16 0 16, .sqrdmulh 27 20 4, .mul 1 20 3, .mul 21 16 3, .sqrdmulh 0 16 4, .ldr 30 0 (-16),
    .sqrdmulh 6 18 4, .mul 18 18 3, .mls_e 1 27 2 0, .mul 5 30 3, .sqrdmulh 22 30 4, .mls_e 18 6 2 0, .str 1 0 (-32), .mls_e 21 0 2 0,
    .mls_e 5 22 2 0, .str 18 0 (-64), .ldr 20 0 32, .str 5 0 (-16), .sub_i 1 1 1],
   .cbnz 1 1⟩,
  -- block 2: lines 614-628
  ⟨[
    .mul 31 20 3, .sqrdmulh 25 20 4, .ldr_post 27 0 64, .ldr 23 0 (-16), .mls_e 31 25 2 0, .sqrdmulh 30 27 4, .mul 6 27 3, .mul 20 23 3,
    .sqrdmulh 26 23 4, .str 31 0 (-32), .mls_e 6 30 2 0, .str 21 0 (-48), .mls_e 20 26 2 0, .str 6 0 (-64), .str 20 0 (-16)],
   .ret⟩]

/-- `polyvec_basemul_acc_montgomery_cached_asm_opt` for `MLKEM_K == 2`, polyvec_opt.S 147-352. -/
def polyvec_basemul_acc_montgomery_cached_asm_opt_k2 : List Block := [
  -- block 0: lines 147-191
  ⟨[
    .sub_i 31 31 64, .stp_d 8 9 31 0, .stp_d 10 11 31 16, .stp_d 12 13 31 32, .stp_d 14 15 31 48, .adr 14 .polyvecConst, .ld1 2 14 0, .ldrsh 15 14 0,
    .dup 0 15, .add_i 4 1 512, .add_i 5 2 512, .add_i 6 3 256, .mov_i 13 16, .ld2 6 7 1 32, .ld2 4 5 2 32, .ld1 12 3 16, .ld2 15 16 4 32,
    .ld2 29 30 5 32, .ld1 31 6 16, .sub_i 13 13 1],
   .next⟩,
  -- block 1: lines 206-277
  ⟨[
    .smull 13 6 4, .smull2 10 6 4, .smull 21 6 5, .smull2 3 6 5, .smlal 13 7 12, .smlal2 10 7 12, .smlal 21 7 4, .smlal2 3 7 4, .smlal 13 15 29,
    .smlal2 10 15 29, .smlal 21 15 30, .smlal2 3 15 30, .smlal 13 16 31, .smlal2 10 16 31, .smlal 21 16 29, .smlal2 3 16 29, .ld2 6 7 1 32,
    .uzp1 12 13 10, .uzp1 30 21 3, .mul_e 12 12 2 2, .mul_e 30 30 2 2, .ld2 4 5 2 32, .smlal 13 12 0, .smlal2 10 12 0, .smlal 21 30 0,
    .smlal2 3 30 0, .ld1 12 3 16, .uzp2 13 13 10, .uzp2 14 21 3, .ld2 15 16 4 32, .st2 13 14 0 32, .ld2 29 30 5 32, .ld1 31 6 16, .sub_i 13 13 1],
   .cbnz 13 1⟩,
  -- block 2: lines 292-352
  ⟨[
    .smull 13 6 5, .smull2 10 6 5, .smull 21 6 4, .smull2 3 6 4, .smlal 13 7 4, .smlal2 10 7 4, .smlal 21 7 12, .smlal2 3 7 12, .smlal 13 15 30,
    .smlal2 10 15 30, .smlal 21 15 29, .smlal2 3 15 29, .smlal 13 16 29, .smlal2 10 16 29, .smlal 21 16 31, .smlal2 3 16 31, .uzp1 12 13 10,
    .uzp1 6 21 3, .mul_e 12 12 2 2, .mul_e 6 6 2 2, .smlal 13 12 0, .smlal 21 6 0, .smlal2 3 6 0, .smlal2 10 12 0, .uzp2 21 21 3, .uzp2 22 13 10,
    .st2 21 22 0 32, .ldp_d 8 9 31 0, .ldp_d 10 11 31 16, .ldp_d 12 13 31 32, .ldp_d 14 15 31 48, .add_i 31 31 64],
   .ret⟩]

/-- `polyvec_basemul_acc_montgomery_cached_asm_opt` for `MLKEM_K == 3`, polyvec_opt.S 362-702. -/
def polyvec_basemul_acc_montgomery_cached_asm_opt_k3 : List Block := [
  -- block 0: lines 362-501
  ⟨[
    .sub_i 31 31 64, .stp_d 8 9 31 0, .stp_d 10 11 31 16, .stp_d 12 13 31 32, .stp_d 14 15 31 48, .adr 14 .polyvecConst, .ld1 2 14 0, .ldrsh 15 14 0,
    .dup 0 15, .add_i 4 1 512, .add_i 5 2 512, .add_i 6 3 256, .add_i 7 1 1024, .add_i 8 2 1024, .add_i 9 3 512, .mov_i 13 16, .ld2 7 8 2 32,
    .ld2 28 29 1 32, .ld1 10 3 16, .smull2 15 28 8, .smull 9 28 8, .ld1 31 3 16, .smlal2 15 29 7, .ld2 19 20 5 32, .smlal 9 29 7, .ld2 16 17 4 32,
    .ld2 3 4 7 32, .smlal 9 16 20, .smlal2 15 16 20, .smull 1 28 7, .smull2 22 28 7, .smlal 9 17 19, .smlal2 15 17 19, .ld2 6 7 8 32, .smlal 1 29 10,
    .smlal2 22 29 10, .smlal2 15 3 7, .smlal 9 3 7, .smlal 1 16 19, .smlal2 22 16 19, .ld1 5 6 16, .smlal 9 4 6, .smlal2 15 4 6, .smlal 1 17 5,
    .smlal2 22 17 5, .ld1 30 9 16, .smlal 1 3 6, .smlal2 22 3 6, .ld2 11 12 1 32, .smlal 1 4 30, .smlal2 22 4 30, .uzp1 21 9 15, .ld1 14 6 16,
    .uzp1 13 1 22, .mul_e 10 21 2 2, .mul_e 21 13 2 2, .ld2 23 24 2 32, .smlal2 15 10 0, .smlal2 22 21 0, .smlal 1 21 0, .smull2 13 11 23,
    .ld2 25 26 5 32, .smlal 9 10 0, .smlal2 13 12 31, .smull2 27 11 24, .uzp2 16 1 22, .uzp2 17 9 15, .ld2 6 7 4 32, .sub_i 13 13 2],
   .next⟩,
  -- block 1: lines 516-609
  ⟨[
    .st2 16 17 0 32, .smlal2 13 6 25, .smull 20 11 24, .smull 17 11 23, .smlal2 27 12 23, .smlal2 13 7 14, .smlal 20 12 23, .smlal 17 12 31,
    .smlal2 27 6 26, .ld1 5 9 16, .smlal 17 6 25, .smlal 20 6 26, .ld2 23 24 2 32, .ld2 15 16 8 32, .smlal 17 7 14, .ld2 8 9 7 32, .smlal 20 7 25,
    .smlal2 27 7 25, .smlal2 13 8 15, .smlal 17 8 15, .smlal 20 8 16, .smlal2 27 8 16, .smlal2 13 9 5, .smlal 17 9 5, .smlal 20 9 15,
    .smlal2 27 9 15, .ld2 11 12 1 32, .uzp1 31 17 13, .uzp1 8 20 27, .ld2 6 7 4 32, .mul_e 18 31 2 2, .mul_e 14 8 2 2, .ld1 31 3 16, .smlal 17 18 0,
    .smlal2 27 14 0, .smlal2 13 18 0, .smlal 20 14 0, .ld2 25 26 5 32, .uzp2 16 17 13, .smull2 13 11 23, .uzp2 17 20 27, .ld1 14 6 16,
    .smlal2 13 12 31, .smull2 27 11 24, .sub_i 13 13 1],
   .cbnz 13 1⟩,
  -- block 2: lines 624-702
  ⟨[
    .ld2 21 22 8 32, .smull 10 11 24, .smlal2 13 6 25, .smlal2 27 12 23, .smull 18 11 23, .smlal 10 12 23, .ld2 29 30 7 32, .smlal2 27 6 26,
    .smlal 10 6 26, .smlal 18 12 31, .smlal2 13 7 14, .smlal2 27 7 25, .smlal 10 7 25, .smlal 18 6 25, .smlal2 13 29 21, .smlal2 27 29 22,
    .smlal 10 29 22, .smlal 18 7 14, .ld1 3 9 16, .smlal 10 30 21, .smlal 18 29 21, .smlal2 27 30 21, .smlal2 13 30 3, .smlal 18 30 3, .uzp1 8 10 27,
    .mul_e 23 8 2 2, .uzp1 30 18 13, .mul_e 19 30 2 2, .smlal2 27 23 0, .smlal 10 23 0, .smlal 18 19 0, .smlal2 13 19 0, .st2 16 17 0 32,
    .uzp2 12 10 27, .uzp2 11 18 13, .st2 11 12 0 32, .ldp_d 8 9 31 0, .ldp_d 10 11 31 16, .ldp_d 12 13 31 32, .ldp_d 14 15 31 48, .add_i 31 31 64],
   .ret⟩]

/-- `polyvec_basemul_acc_montgomery_cached_asm_opt` for `MLKEM_K == 4`, polyvec_opt.S 712-1121. -/
def polyvec_basemul_acc_montgomery_cached_asm_opt_k4 : List Block := [
  -- block 0: lines 712-786
  ⟨[
    .sub_i 31 31 64, .stp_d 8 9 31 0, .stp_d 10 11 31 16, .stp_d 12 13 31 32, .stp_d 14 15 31 48, .adr 14 .polyvecConst, .ld1 2 14 0, .ldrsh 15 14 0,
    .dup 0 15, .add_i 4 1 512, .add_i 5 2 512, .add_i 6 3 256, .add_i 7 1 1024, .add_i 8 2 1024, .add_i 9 3 512, .add_i 10 1 1536, .add_i 11 2 1536,
    .add_i 12 3 768, .mov_i 13 16, .ld2 3 4 1 32, .ld2 13 14 2 32, .ld1 31 3 16, .smull 9 3 14, .smull2 6 3 14, .smull2 29 3 13, .smull 11 3 13,
    .smlal 9 4 13, .smlal2 6 4 13, .smlal2 29 4 31, .smlal 11 4 31, .ld2 27 28 7 32, .ld2 18 19 10 32, .ld2 20 21 8 32, .ld2 25 26 11 32,
    .ld2 16 17 5 32, .ld2 7 8 1 32, .ld1 3 3 16, .sub_i 13 13 2],
   .next⟩,
  -- block 1: lines 801-916
  ⟨[
    .ld2 13 14 4 32, .ld1 15 6 16, .smlal2 29 13 16, .smlal 9 13 17, .smlal2 6 13 17, .smlal 11 13 16, .smlal2 29 14 15, .smlal 9 14 16,
    .smlal2 6 14 16, .ld1 30 9 16, .smlal 9 27 21, .smlal2 6 27 21, .smlal 11 14 15, .smlal2 29 27 20, .smlal 9 28 20, .smlal2 6 28 20,
    .smlal 11 27 20, .smlal2 29 28 30, .smlal 9 18 26, .smlal2 6 18 26, .smlal 11 28 30, .smlal2 29 18 25, .smlal 9 19 25, .smlal2 6 19 25,
    .ld1 23 12 16, .smlal 11 18 25, .uzp1 14 9 6, .smlal2 29 19 23, .mul_e 27 14 2 2, .smlal 11 19 23, .ld2 4 5 2 32, .smlal 9 27 0, .smlal2 6 27 0,
    .ld2 27 28 7 32, .uzp1 13 11 29, .uzp2 15 9 6, .mul_e 13 13 2 2, .ld2 18 19 10 32, .smull 9 7 5, .smlal 11 13 0, .smlal2 29 13 0,
    .ld2 20 21 8 32, .smlal 9 8 4, .uzp2 14 11 29, .smull2 29 7 4, .smull2 6 7 5, .ld2 25 26 11 32, .smull 11 7 4, .smlal2 6 8 4, .smlal2 29 8 3,
    .ld2 16 17 5 32, .smlal 11 8 3, .ld2 7 8 1 32, .ld1 3 3 16, .st2 14 15 0 32, .sub_i 13 13 1],
   .cbnz 13 1⟩,
  -- block 2: lines 931-1121
  ⟨[
    .ld2 14 15 4 32, .ld1 1 6 16, .smlal2 29 14 16, .smlal 11 14 16, .ld2 12 13 5 32, .smlal2 29 15 1, .smlal 11 15 1, .ld1 10 9 16,
    .smlal2 29 27 20, .smlal 11 27 20, .ld2 22 23 2 32, .smlal2 29 28 10, .smlal 11 28 10, .ld1 31 12 16, .smlal2 29 18 25, .smlal 11 18 25,
    .smull2 1 7 23, .smlal 9 14 17, .smlal2 29 19 31, .smlal 11 19 31, .smull 31 7 23, .smlal 9 15 16, .smull 10 7 22, .smlal2 1 8 22,
    .smlal 31 8 22, .ld2 4 5 4 32, .ld2 23 24 11 32, .smlal2 1 4 13, .smlal 31 4 13, .ld1 30 6 16, .smlal2 1 5 12, .smlal 10 8 3, .smull2 7 7 22,
    .uzp1 22 11 29, .smlal2 6 14 17, .smlal 10 4 12, .smlal2 7 8 3, .ld2 13 14 7 32, .mul_e 17 22 2 2, .smlal2 7 4 12, .smlal 10 5 30,
    .smlal2 6 15 16, .smlal 11 17 0, .ld2 3 4 8 32, .smlal2 7 5 30, .ld1 30 9 16, .smlal 10 13 3, .smlal2 7 13 3, .ld2 15 16 10 32, .smlal 10 14 30,
    .smlal 9 27 21, .smlal2 7 14 30, .smlal2 6 27 21, .smlal 10 15 23, .ld1 27 12 16, .smlal2 7 15 23, .smlal 31 5 12, .smlal2 6 28 20,
    .smlal 10 16 27, .smlal2 7 16 27, .smlal 31 13 4, .smlal2 6 18 26, .smlal2 1 13 4, .smlal 9 28 20, .smlal 31 14 3, .uzp1 13 10 7, .smlal2 1 14 3,
    .smlal 9 18 26, .smlal 31 15 24, .smlal2 6 19 25, .smlal2 1 15 24, .smlal 9 19 25, .smlal 31 16 23, .mul_e 13 13 2 2, .smlal2 1 16 23,
    .uzp1 23 9 6, .smlal2 29 17 0, .mul_e 12 23 2 2, .uzp1 4 31 1, .smlal 10 13 0, .mul_e 23 4 2 2, .smlal 9 12 0, .smlal2 7 13 0, .smlal2 6 12 0,
    .smlal 31 23 0, .smlal2 1 23 0, .uzp2 12 10 7, .uzp2 25 9 6, .uzp2 24 11 29, .uzp2 13 31 1, .st2 24 25 0 32, .st2 12 13 0 32, .ldp_d 8 9 31 0,
    .ldp_d 10 11 31 16, .ldp_d 12 13 31 32, .ldp_d 14 15 31 48, .add_i 31 31 64],
   .ret⟩]

end Verif.Model.A64

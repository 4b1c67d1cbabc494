import Verif.Model.Keccak
/-! # Four-way Keccak-f[1600] with AVX2 (`/repo/fips202/native/x86_64/xkcp/KeccakP-1600-times4-SIMD256.c`)

Generated by `/verif/tools/gen_xkcp.py` from the macros, statement by statement.  A 256-bit vector is four 64-bit elements, element `0` the least
significant.  The intrinsics are modelled by their documented element-wise meaning.  A macro `…(i, A, E)` updates the variables `A..` in place
(`XOReq256(A##ba, Da)`); these are dead afterwards, because the next macro call overwrites all of them before reading one, so only `E..` and the
column parities are returned. -/
namespace Verif.Model

/-- `__m256i` as four 64-bit elements.  Model of vectors: no line of /repo of its own. -/
abbrev V256 := Fin 4 → W

/-- `_mm256_xor_si256`.  Used in KeccakP-1600-times4-SIMD256.c 62. -/
def mm256_xor (a b : V256) : V256 := fun w => a w ^^^ b w
/-- `_mm256_or_si256`.  Used in KeccakP-1600-times4-SIMD256.c 54. -/
def mm256_or (a b : V256) : V256 := fun w => a w ||| b w
/-- `_mm256_andnot_si256`: the first operand is negated.  Used in KeccakP-1600-times4-SIMD256.c 50. -/
def mm256_andnot (a b : V256) : V256 := fun w => ~~~(a w) &&& b w
/-- `_mm256_slli_epi64` (shift count below 64).  Used in KeccakP-1600-times4-SIMD256.c 54. -/
def mm256_slli_epi64 (a : V256) (n : Nat) : V256 := fun w => a w <<< n
/-- `_mm256_srli_epi64` (shift count below 64).  Used in KeccakP-1600-times4-SIMD256.c 54. -/
def mm256_srli_epi64 (a : V256) (n : Nat) : V256 := fun w => a w >>> n
/-- `CONST256_64` (line 52): `_mm256_broadcast_sd` of one 64-bit constant.  File: KeccakP-1600-times4-SIMD256.c. -/
def mm256_broadcast (c : W) : V256 := fun _ => c
/-- Byte `j` (0..31) of a vector.  Model of vectors: no line of /repo of its own. -/
def v256Byte (a : V256) (j : Nat) : BitVec 8 := (a (Fin.ofNat 4 (j / 8))).extractLsb' (8 * (j % 8)) 8
/-- `_mm256_shuffle_epi8`: output byte `j` is zero if the top bit of control byte `j` is set, and otherwise the byte of `a` in the same 128-bit half
selected by the low four bits of the control byte.  Used in KeccakP-1600-times4-SIMD256.c 55. -/
def mm256_shuffle_epi8 (a b : V256) : V256 := fun w =>
  let f := fun k : Nat =>
    let c := v256Byte b (8 * w.val + k)
    if c.getLsbD 7 then 0#8 else v256Byte a (16 * ((8 * w.val + k) / 16) + c.toNat % 16)
  f 7 ++ f 6 ++ f 5 ++ f 4 ++ f 3 ++ f 2 ++ f 1 ++ f 0
/-- Lines 57-58.  File: KeccakP-1600-times4-SIMD256.c. -/
def rho8 : V256 := fun w => match w with | 0 => 0x0605040302010007#64 | 1 => 0x0E0D0C0B0A09080F#64 | 2 => 0x1615141312111017#64 | 3 => 0x1E1D1C1B1A19181F#64
/-- Lines 59-60.  File: KeccakP-1600-times4-SIMD256.c. -/
def rho56 : V256 := fun w => match w with | 0 => 0x0007060504030201#64 | 1 => 0x080F0E0D0C0B0A09#64 | 2 => 0x1017161514131211#64 | 3 => 0x181F1E1D1C1B1A19#64
/-- Lines 53-54.  File: KeccakP-1600-times4-SIMD256.c. -/
def ROL64in256 (a : V256) (o : Nat) : V256 := mm256_or (mm256_slli_epi64 a o) (mm256_srli_epi64 a (64 - o))
/-- Line 55.  File: KeccakP-1600-times4-SIMD256.c. -/
def ROL64in256_8 (a : V256) : V256 := mm256_shuffle_epi8 a rho8
/-- Line 56.  File: KeccakP-1600-times4-SIMD256.c. -/
def ROL64in256_56 (a : V256) : V256 := mm256_shuffle_epi8 a rho56

/-- The 25 vector variables `Aba .. Asu` or `Eba .. Esu` (lines 68-86).  File: KeccakP-1600-times4-SIMD256.c. -/
structure LanesV where
  ba : V256
  be : V256
  bi : V256
  bo : V256
  bu : V256
  ga : V256
  ge : V256
  gi : V256
  go : V256
  gu : V256
  ka : V256
  ke : V256
  ki : V256
  ko : V256
  ku : V256
  ma : V256
  me : V256
  mi : V256
  mo : V256
  mu : V256
  sa : V256
  se : V256
  si : V256
  so : V256
  su : V256

/-- The column parities `Ca .. Cu`.  KeccakP-1600-times4-SIMD256.c 68-93. -/
structure ParityV where
  Ca : V256
  Ce : V256
  Ci : V256
  Co : V256
  Cu : V256

/-- `prepareTheta`, lines 88-93.  File: KeccakP-1600-times4-SIMD256.c. -/
def prepareTheta (A : LanesV) : ParityV :=
  let Aba := A.ba
  let Abe := A.be
  let Abi := A.bi
  let Abo := A.bo
  let Abu := A.bu
  let Aga := A.ga
  let Age := A.ge
  let Agi := A.gi
  let Ago := A.go
  let Agu := A.gu
  let Aka := A.ka
  let Ake := A.ke
  let Aki := A.ki
  let Ako := A.ko
  let Aku := A.ku
  let Ama := A.ma
  let Ame := A.me
  let Ami := A.mi
  let Amo := A.mo
  let Amu := A.mu
  let Asa := A.sa
  let Ase := A.se
  let Asi := A.si
  let Aso := A.so
  let Asu := A.su
  let Ca := (mm256_xor Aba (mm256_xor Aga (mm256_xor Aka (mm256_xor Ama Asa))))
  let Ce := (mm256_xor Abe (mm256_xor Age (mm256_xor Ake (mm256_xor Ame Ase))))
  let Ci := (mm256_xor Abi (mm256_xor Agi (mm256_xor Aki (mm256_xor Ami Asi))))
  let Co := (mm256_xor Abo (mm256_xor Ago (mm256_xor Ako (mm256_xor Amo Aso))))
  let Cu := (mm256_xor Abu (mm256_xor Agu (mm256_xor Aku (mm256_xor Amu Asu))))
  ⟨Ca, Ce, Ci, Co, Cu⟩

/-- `thetaRhoPiChiIotaPrepareTheta(i, A, E)`, lines 99-215; `rc` is `KeccakF1600RoundConstants[i]`.  File: KeccakP-1600-times4-SIMD256.c. -/
def thetaRhoPiChiIotaPrepareTheta (rc : W) (A : LanesV) (C : ParityV) : LanesV × ParityV :=
  let Aba := A.ba
  let Abe := A.be
  let Abi := A.bi
  let Abo := A.bo
  let Abu := A.bu
  let Aga := A.ga
  let Age := A.ge
  let Agi := A.gi
  let Ago := A.go
  let Agu := A.gu
  let Aka := A.ka
  let Ake := A.ke
  let Aki := A.ki
  let Ako := A.ko
  let Aku := A.ku
  let Ama := A.ma
  let Ame := A.me
  let Ami := A.mi
  let Amo := A.mo
  let Amu := A.mu
  let Asa := A.sa
  let Ase := A.se
  let Asi := A.si
  let Aso := A.so
  let Asu := A.su
  let Ca := C.Ca
  let Ce := C.Ce
  let Ci := C.Ci
  let Co := C.Co
  let Cu := C.Cu
  let Ce1 := ROL64in256 Ce 1
  let Da := (mm256_xor Cu Ce1)
  let Ci1 := ROL64in256 Ci 1
  let De := (mm256_xor Ca Ci1)
  let Co1 := ROL64in256 Co 1
  let Di := (mm256_xor Ce Co1)
  let Cu1 := ROL64in256 Cu 1
  let Do := (mm256_xor Ci Cu1)
  let Ca1 := ROL64in256 Ca 1
  let Du := (mm256_xor Co Ca1)
  let Aba := mm256_xor Aba Da
  let Bba := Aba
  let Age := mm256_xor Age De
  let Bbe := ROL64in256 Age 44
  let Aki := mm256_xor Aki Di
  let Bbi := ROL64in256 Aki 43
  let Eba := (mm256_xor Bba (mm256_andnot Bbe Bbi))
  let Eba := mm256_xor Eba (mm256_broadcast rc)
  let Ca := Eba
  let Amo := mm256_xor Amo Do
  let Bbo := ROL64in256 Amo 21
  let Ebe := (mm256_xor Bbe (mm256_andnot Bbi Bbo))
  let Ce := Ebe
  let Asu := mm256_xor Asu Du
  let Bbu := ROL64in256 Asu 14
  let Ebi := (mm256_xor Bbi (mm256_andnot Bbo Bbu))
  let Ci := Ebi
  let Ebo := (mm256_xor Bbo (mm256_andnot Bbu Bba))
  let Co := Ebo
  let Ebu := (mm256_xor Bbu (mm256_andnot Bba Bbe))
  let Cu := Ebu
  let Abo := mm256_xor Abo Do
  let Bga := ROL64in256 Abo 28
  let Agu := mm256_xor Agu Du
  let Bge := ROL64in256 Agu 20
  let Aka := mm256_xor Aka Da
  let Bgi := ROL64in256 Aka 3
  let Ega := (mm256_xor Bga (mm256_andnot Bge Bgi))
  let Ca := mm256_xor Ca Ega
  let Ame := mm256_xor Ame De
  let Bgo := ROL64in256 Ame 45
  let Ege := (mm256_xor Bge (mm256_andnot Bgi Bgo))
  let Ce := mm256_xor Ce Ege
  let Asi := mm256_xor Asi Di
  let Bgu := ROL64in256 Asi 61
  let Egi := (mm256_xor Bgi (mm256_andnot Bgo Bgu))
  let Ci := mm256_xor Ci Egi
  let Ego := (mm256_xor Bgo (mm256_andnot Bgu Bga))
  let Co := mm256_xor Co Ego
  let Egu := (mm256_xor Bgu (mm256_andnot Bga Bge))
  let Cu := mm256_xor Cu Egu
  let Abe := mm256_xor Abe De
  let Bka := ROL64in256 Abe 1
  let Agi := mm256_xor Agi Di
  let Bke := ROL64in256 Agi 6
  let Ako := mm256_xor Ako Do
  let Bki := ROL64in256 Ako 25
  let Eka := (mm256_xor Bka (mm256_andnot Bke Bki))
  let Ca := mm256_xor Ca Eka
  let Amu := mm256_xor Amu Du
  let Bko := ROL64in256_8 Amu
  let Eke := (mm256_xor Bke (mm256_andnot Bki Bko))
  let Ce := mm256_xor Ce Eke
  let Asa := mm256_xor Asa Da
  let Bku := ROL64in256 Asa 18
  let Eki := (mm256_xor Bki (mm256_andnot Bko Bku))
  let Ci := mm256_xor Ci Eki
  let Eko := (mm256_xor Bko (mm256_andnot Bku Bka))
  let Co := mm256_xor Co Eko
  let Eku := (mm256_xor Bku (mm256_andnot Bka Bke))
  let Cu := mm256_xor Cu Eku
  let Abu := mm256_xor Abu Du
  let Bma := ROL64in256 Abu 27
  let Aga := mm256_xor Aga Da
  let Bme := ROL64in256 Aga 36
  let Ake := mm256_xor Ake De
  let Bmi := ROL64in256 Ake 10
  let Ema := (mm256_xor Bma (mm256_andnot Bme Bmi))
  let Ca := mm256_xor Ca Ema
  let Ami := mm256_xor Ami Di
  let Bmo := ROL64in256 Ami 15
  let Eme := (mm256_xor Bme (mm256_andnot Bmi Bmo))
  let Ce := mm256_xor Ce Eme
  let Aso := mm256_xor Aso Do
  let Bmu := ROL64in256_56 Aso
  let Emi := (mm256_xor Bmi (mm256_andnot Bmo Bmu))
  let Ci := mm256_xor Ci Emi
  let Emo := (mm256_xor Bmo (mm256_andnot Bmu Bma))
  let Co := mm256_xor Co Emo
  let Emu := (mm256_xor Bmu (mm256_andnot Bma Bme))
  let Cu := mm256_xor Cu Emu
  let Abi := mm256_xor Abi Di
  let Bsa := ROL64in256 Abi 62
  let Ago := mm256_xor Ago Do
  let Bse := ROL64in256 Ago 55
  let Aku := mm256_xor Aku Du
  let Bsi := ROL64in256 Aku 39
  let Esa := (mm256_xor Bsa (mm256_andnot Bse Bsi))
  let Ca := mm256_xor Ca Esa
  let Ama := mm256_xor Ama Da
  let Bso := ROL64in256 Ama 41
  let Ese := (mm256_xor Bse (mm256_andnot Bsi Bso))
  let Ce := mm256_xor Ce Ese
  let Ase := mm256_xor Ase De
  let Bsu := ROL64in256 Ase 2
  let Esi := (mm256_xor Bsi (mm256_andnot Bso Bsu))
  let Ci := mm256_xor Ci Esi
  let Eso := (mm256_xor Bso (mm256_andnot Bsu Bsa))
  let Co := mm256_xor Co Eso
  let Esu := (mm256_xor Bsu (mm256_andnot Bsa Bse))
  let Cu := mm256_xor Cu Esu
  (⟨Eba, Ebe, Ebi, Ebo, Ebu, Ega, Ege, Egi, Ego, Egu, Eka, Eke, Eki, Eko, Eku, Ema, Eme, Emi, Emo, Emu, Esa, Ese, Esi, Eso, Esu⟩, ⟨Ca, Ce, Ci, Co, Cu⟩)

/-- `thetaRhoPiChiIota(i, A, E)`, lines 222-313; `rc` is `KeccakF1600RoundConstants[i]`.  File: KeccakP-1600-times4-SIMD256.c. -/
def thetaRhoPiChiIota (rc : W) (A : LanesV) (C : ParityV) : LanesV :=
  let Aba := A.ba
  let Abe := A.be
  let Abi := A.bi
  let Abo := A.bo
  let Abu := A.bu
  let Aga := A.ga
  let Age := A.ge
  let Agi := A.gi
  let Ago := A.go
  let Agu := A.gu
  let Aka := A.ka
  let Ake := A.ke
  let Aki := A.ki
  let Ako := A.ko
  let Aku := A.ku
  let Ama := A.ma
  let Ame := A.me
  let Ami := A.mi
  let Amo := A.mo
  let Amu := A.mu
  let Asa := A.sa
  let Ase := A.se
  let Asi := A.si
  let Aso := A.so
  let Asu := A.su
  let Ca := C.Ca
  let Ce := C.Ce
  let Ci := C.Ci
  let Co := C.Co
  let Cu := C.Cu
  let Ce1 := ROL64in256 Ce 1
  let Da := (mm256_xor Cu Ce1)
  let Ci1 := ROL64in256 Ci 1
  let De := (mm256_xor Ca Ci1)
  let Co1 := ROL64in256 Co 1
  let Di := (mm256_xor Ce Co1)
  let Cu1 := ROL64in256 Cu 1
  let Do := (mm256_xor Ci Cu1)
  let Ca1 := ROL64in256 Ca 1
  let Du := (mm256_xor Co Ca1)
  let Aba := mm256_xor Aba Da
  let Bba := Aba
  let Age := mm256_xor Age De
  let Bbe := ROL64in256 Age 44
  let Aki := mm256_xor Aki Di
  let Bbi := ROL64in256 Aki 43
  let Eba := (mm256_xor Bba (mm256_andnot Bbe Bbi))
  let Eba := mm256_xor Eba (mm256_broadcast rc)
  let Amo := mm256_xor Amo Do
  let Bbo := ROL64in256 Amo 21
  let Ebe := (mm256_xor Bbe (mm256_andnot Bbi Bbo))
  let Asu := mm256_xor Asu Du
  let Bbu := ROL64in256 Asu 14
  let Ebi := (mm256_xor Bbi (mm256_andnot Bbo Bbu))
  let Ebo := (mm256_xor Bbo (mm256_andnot Bbu Bba))
  let Ebu := (mm256_xor Bbu (mm256_andnot Bba Bbe))
  let Abo := mm256_xor Abo Do
  let Bga := ROL64in256 Abo 28
  let Agu := mm256_xor Agu Du
  let Bge := ROL64in256 Agu 20
  let Aka := mm256_xor Aka Da
  let Bgi := ROL64in256 Aka 3
  let Ega := (mm256_xor Bga (mm256_andnot Bge Bgi))
  let Ame := mm256_xor Ame De
  let Bgo := ROL64in256 Ame 45
  let Ege := (mm256_xor Bge (mm256_andnot Bgi Bgo))
  let Asi := mm256_xor Asi Di
  let Bgu := ROL64in256 Asi 61
  let Egi := (mm256_xor Bgi (mm256_andnot Bgo Bgu))
  let Ego := (mm256_xor Bgo (mm256_andnot Bgu Bga))
  let Egu := (mm256_xor Bgu (mm256_andnot Bga Bge))
  let Abe := mm256_xor Abe De
  let Bka := ROL64in256 Abe 1
  let Agi := mm256_xor Agi Di
  let Bke := ROL64in256 Agi 6
  let Ako := mm256_xor Ako Do
  let Bki := ROL64in256 Ako 25
  let Eka := (mm256_xor Bka (mm256_andnot Bke Bki))
  let Amu := mm256_xor Amu Du
  let Bko := ROL64in256_8 Amu
  let Eke := (mm256_xor Bke (mm256_andnot Bki Bko))
  let Asa := mm256_xor Asa Da
  let Bku := ROL64in256 Asa 18
  let Eki := (mm256_xor Bki (mm256_andnot Bko Bku))
  let Eko := (mm256_xor Bko (mm256_andnot Bku Bka))
  let Eku := (mm256_xor Bku (mm256_andnot Bka Bke))
  let Abu := mm256_xor Abu Du
  let Bma := ROL64in256 Abu 27
  let Aga := mm256_xor Aga Da
  let Bme := ROL64in256 Aga 36
  let Ake := mm256_xor Ake De
  let Bmi := ROL64in256 Ake 10
  let Ema := (mm256_xor Bma (mm256_andnot Bme Bmi))
  let Ami := mm256_xor Ami Di
  let Bmo := ROL64in256 Ami 15
  let Eme := (mm256_xor Bme (mm256_andnot Bmi Bmo))
  let Aso := mm256_xor Aso Do
  let Bmu := ROL64in256_56 Aso
  let Emi := (mm256_xor Bmi (mm256_andnot Bmo Bmu))
  let Emo := (mm256_xor Bmo (mm256_andnot Bmu Bma))
  let Emu := (mm256_xor Bmu (mm256_andnot Bma Bme))
  let Abi := mm256_xor Abi Di
  let Bsa := ROL64in256 Abi 62
  let Ago := mm256_xor Ago Do
  let Bse := ROL64in256 Ago 55
  let Aku := mm256_xor Aku Du
  let Bsi := ROL64in256 Aku 39
  let Esa := (mm256_xor Bsa (mm256_andnot Bse Bsi))
  let Ama := mm256_xor Ama Da
  let Bso := ROL64in256 Ama 41
  let Ese := (mm256_xor Bse (mm256_andnot Bsi Bso))
  let Ase := mm256_xor Ase De
  let Bsu := ROL64in256 Ase 2
  let Esi := (mm256_xor Bsi (mm256_andnot Bso Bsu))
  let Eso := (mm256_xor Bso (mm256_andnot Bsu Bsa))
  let Esu := (mm256_xor Bsu (mm256_andnot Bsa Bse))
  ⟨Eba, Ebe, Ebi, Ebo, Ebu, Ega, Ege, Egi, Ego, Egu, Eka, Eke, Eki, Eko, Eku, Ema, Eme, Emi, Emo, Emu, Esa, Ese, Esi, Eso, Esu⟩

/-- `KeccakF1600RoundConstants[24]`, lines 316-325.  File: KeccakP-1600-times4-SIMD256.c. -/
def KeccakF1600RoundConstantsList : List W := [
  0x0000000000000001#64, 0x0000000000008082#64, 0x800000000000808a#64,
  0x8000000080008000#64, 0x000000000000808b#64, 0x0000000080000001#64,
  0x8000000080008081#64, 0x8000000000008009#64, 0x000000000000008a#64,
  0x0000000000000088#64, 0x0000000080008009#64, 0x000000008000000a#64,
  0x000000008000808b#64, 0x800000000000008b#64, 0x8000000000008089#64,
  0x8000000000008003#64, 0x8000000000008002#64, 0x8000000000000080#64,
  0x000000000000800a#64, 0x800000008000000a#64, 0x8000000080008081#64,
  0x8000000000008080#64, 0x0000000080000001#64, 0x8000000080008008#64]

/-- The constant table `KeccakF1600RoundConstants[24]`.  KeccakP-1600-times4-SIMD256.c 316-325. -/
def KeccakF1600RoundConstants : Buf W := Buf.ofList KeccakF1600RoundConstantsList

/-- `_mm256_i64gather_epi64` with the index vector of `copyFromState` (lines 331-334): lane `l` of the four states.  File: KeccakP-1600-times4-SIMD256.c. -/
def gather (s : Buf W) (l : Nat) : M V256 := do
  let a ← rd s (0 + l)
  let b ← rd s (25 + l)
  let c ← rd s (50 + l)
  let d ← rd s (75 + l)
  pure fun w => match w with | 0 => a | 1 => b | 2 => c | 3 => d

/-- `copyFromState(X, state)`, lines 329-361.  File: KeccakP-1600-times4-SIMD256.c. -/
def copyFromStateV (s : Buf W) : M LanesV := do
  let ba ← gather s 0
  let be ← gather s 1
  let bi ← gather s 2
  let bo ← gather s 3
  let bu ← gather s 4
  let ga ← gather s 5
  let ge ← gather s 6
  let gi ← gather s 7
  let go ← gather s 8
  let gu ← gather s 9
  let ka ← gather s 10
  let ke ← gather s 11
  let ki ← gather s 12
  let ko ← gather s 13
  let ku ← gather s 14
  let ma ← gather s 15
  let me ← gather s 16
  let mi ← gather s 17
  let mo ← gather s 18
  let mu ← gather s 19
  let sa ← gather s 20
  let se ← gather s 21
  let si ← gather s 22
  let so ← gather s 23
  let su ← gather s 24
  pure ⟨ba, be, bi, bo, bu, ga, ge, gi, go, gu, ka, ke, ki, ko, ku, ma, me, mi, mo, mu, sa, se, si, so, su⟩

/-- `SCATTER_STORE256(state, idx, v)`, lines 363-373.  File: KeccakP-1600-times4-SIMD256.c. -/
def SCATTER_STORE256 (s : Buf W) (idx : Nat) (v : V256) : M (Buf W) := do
  let s ← wr s (0 + idx) (v 0)
  let s ← wr s (25 + idx) (v 1)
  let s ← wr s (50 + idx) (v 2)
  wr s (75 + idx) (v 3)

/-- `copyToState(state, X)`, lines 375-400.  File: KeccakP-1600-times4-SIMD256.c. -/
def copyToStateV (s : Buf W) (X : LanesV) : M (Buf W) := do
  let s ← SCATTER_STORE256 s 0 X.ba
  let s ← SCATTER_STORE256 s 1 X.be
  let s ← SCATTER_STORE256 s 2 X.bi
  let s ← SCATTER_STORE256 s 3 X.bo
  let s ← SCATTER_STORE256 s 4 X.bu
  let s ← SCATTER_STORE256 s 5 X.ga
  let s ← SCATTER_STORE256 s 6 X.ge
  let s ← SCATTER_STORE256 s 7 X.gi
  let s ← SCATTER_STORE256 s 8 X.go
  let s ← SCATTER_STORE256 s 9 X.gu
  let s ← SCATTER_STORE256 s 10 X.ka
  let s ← SCATTER_STORE256 s 11 X.ke
  let s ← SCATTER_STORE256 s 12 X.ki
  let s ← SCATTER_STORE256 s 13 X.ko
  let s ← SCATTER_STORE256 s 14 X.ku
  let s ← SCATTER_STORE256 s 15 X.ma
  let s ← SCATTER_STORE256 s 16 X.me
  let s ← SCATTER_STORE256 s 17 X.mi
  let s ← SCATTER_STORE256 s 18 X.mo
  let s ← SCATTER_STORE256 s 19 X.mu
  let s ← SCATTER_STORE256 s 20 X.sa
  let s ← SCATTER_STORE256 s 21 X.se
  let s ← SCATTER_STORE256 s 22 X.si
  let s ← SCATTER_STORE256 s 23 X.so
  SCATTER_STORE256 s 24 X.su

/-- One line `thetaRhoPiChiIotaPrepareTheta(i, A, E)` of `rounds24`: the load of the round constant and the round.  File: KeccakP-1600-times4-SIMD256.c. -/
def roundM (i : Nat) (x : LanesV × ParityV) : M (LanesV × ParityV) := do
  let rc ← rd KeccakF1600RoundConstants i
  pure (thetaRhoPiChiIotaPrepareTheta rc x.1 x.2)

/-- `KeccakP1600times4_PermuteAll_24rounds`, lines 436-445, with `rounds24` of KeccakP-1600-unrolling.macros 20-44 (all rounds unrolled; the macros
alternate between the variables `A..` and `E..`).  File: KeccakP-1600-times4-SIMD256.c. -/
def KeccakP1600times4_PermuteAll_24rounds (states : Buf W) : M (Buf W) := do
  let A ← copyFromStateV states
  let x ← roundM 0 (A, prepareTheta A)
  let x ← roundM 1 x
  let x ← roundM 2 x
  let x ← roundM 3 x
  let x ← roundM 4 x
  let x ← roundM 5 x
  let x ← roundM 6 x
  let x ← roundM 7 x
  let x ← roundM 8 x
  let x ← roundM 9 x
  let x ← roundM 10 x
  let x ← roundM 11 x
  let x ← roundM 12 x
  let x ← roundM 13 x
  let x ← roundM 14 x
  let x ← roundM 15 x
  let x ← roundM 16 x
  let x ← roundM 17 x
  let x ← roundM 18 x
  let x ← roundM 19 x
  let x ← roundM 20 x
  let x ← roundM 21 x
  let x ← roundM 22 x
  let rc ← rd KeccakF1600RoundConstants 23
  copyToStateV states (thetaRhoPiChiIota rc x.1 x.2)

/-- `keccak_f1600_x4_native`, profiles/xkcp.h 18-21: the branch `MLKEM_USE_FIPS202_X4_NATIVE` of `KeccakF1600x4_StatePermute`. -/
def keccak_f1600_x4_native (s : Buf W) : M (Buf W) := KeccakP1600times4_PermuteAll_24rounds s

end Verif.Model

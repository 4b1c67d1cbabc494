#!/usr/bin/env python3
"""Transcribes the macros of KeccakP-1600-times4-SIMD256.c into Verif/Model/X86Keccak.lean, statement by statement."""
import re
SRC='/repo/fips202/native/x86_64/xkcp/KeccakP-1600-times4-SIMD256.c'
L=open(SRC).read().split('\n')
def macro(name):
    i=next(k for k,l in enumerate(L) if l.startswith('#define '+name))
    j=i; body=[]
    while True:
        body.append(L[j].rstrip().rstrip('\\'))
        if not L[j].rstrip().endswith('\\'): break
        j+=1
    return i+1,j+1,' '.join(body[1:])
def stmts(t): return [x.strip() for x in t.replace('##','').split(';') if x.strip()]
def expr(e):
    e=e.strip()
    m=re.fullmatch(r'(XOR256|ANDnu256)\((.*)\)',e)
    if m:
        d=0
        for k,c in enumerate(m[2]):
            d+= c=='('; d-= c==')'
            if c==',' and d==0: return '(%s %s %s)'%({'XOR256':'mm256_xor','ANDnu256':'mm256_andnot'}[m[1]],expr(m[2][:k]),expr(m[2][k+1:]))
    if e.startswith('CONST256_64'): return '(mm256_broadcast rc)'
    assert re.fullmatch(r'\w+',e),e
    return e
def tr(s):
    m=re.fullmatch(r'ROL64in256\((\w+), (\w+), (\d+)\)',s)
    if m: return f'let {m[1]} := ROL64in256 {m[2]} {m[3]}'
    m=re.fullmatch(r'ROL64in256_(8|56)\((\w+), (\w+)\)',s)
    if m: return f'let {m[2]} := ROL64in256_{m[1]} {m[3]}'
    m=re.fullmatch(r'XOReq256\((\w+), (.*)\)',s)
    if m: return f'let {m[1]} := mm256_xor {m[1]} {expr(m[2])}'
    m=re.fullmatch(r'(\w+) = (.*)',s)
    return f'let {m[1]} := {expr(m[2])}'
names=[r+c for r in 'bgkms' for c in 'aeiou']
o=[]
w=o.append
w('''import Verif.Model.Keccak
/-! # Four-way Keccak-f[1600] with AVX2 (`/repo/fips202/native/x86_64/xkcp/KeccakP-1600-times4-SIMD256.c`)

Generated by `/verif/tools/gen_xkcp.py` from the macros, statement by statement.  A 256-bit vector is four 64-bit elements, element `0` the least
significant.  The intrinsics are modelled by their documented element-wise meaning.  A macro `…(i, A, E)` updates the variables `A..` in place
(`XOReq256(A##ba, Da)`); these are dead afterwards, because the next macro call overwrites all of them before reading one, so only `E..` and the
column parities are returned. -/
namespace Verif.Model

/-- `__m256i` as four 64-bit elements.  Model of vectors: no line of /repo of its own. -/
abbrev V256 := Fin 4 → W

/-- `_mm256_xor_si256`.  Used in KeccakP-1600-times4-SIMD256.c 62. -/
def mm256_xor (a b : V256) : V256 := fun w => a w ^^^ b w
/-- `_mm256_or_si256`.  Used in KeccakP-1600-times4-SIMD256.c 54. -/
def mm256_or (a b : V256) : V256 := fun w => a w ||| b w
/-- `_mm256_andnot_si256`: the first operand is negated.  Used in KeccakP-1600-times4-SIMD256.c 50. -/
def mm256_andnot (a b : V256) : V256 := fun w => ~~~(a w) &&& b w
/-- `_mm256_slli_epi64` (shift count below 64).  Used in KeccakP-1600-times4-SIMD256.c 54. -/
def mm256_slli_epi64 (a : V256) (n : Nat) : V256 := fun w => a w <<< n
/-- `_mm256_srli_epi64` (shift count below 64).  Used in KeccakP-1600-times4-SIMD256.c 54. -/
def mm256_srli_epi64 (a : V256) (n : Nat) : V256 := fun w => a w >>> n
/-- `CONST256_64` (line 52): `_mm256_broadcast_sd` of one 64-bit constant.  File: KeccakP-1600-times4-SIMD256.c. -/
def mm256_broadcast (c : W) : V256 := fun _ => c
/-- Byte `j` (0..31) of a vector.  Model of vectors: no line of /repo of its own. -/
def v256Byte (a : V256) (j : Nat) : BitVec 8 := (a (Fin.ofNat 4 (j / 8))).extractLsb' (8 * (j % 8)) 8
/-- `_mm256_shuffle_epi8`: output byte `j` is zero if the top bit of control byte `j` is set, and otherwise the byte of `a` in the same 128-bit half
selected by the low four bits of the control byte.  Used in KeccakP-1600-times4-SIMD256.c 55. -/
def mm256_shuffle_epi8 (a b : V256) : V256 := fun w =>
  let f := fun k : Nat =>
    let c := v256Byte b (8 * w.val + k)
    if c.getLsbD 7 then 0#8 else v256Byte a (16 * ((8 * w.val + k) / 16) + c.toNat % 16)
  f 7 ++ f 6 ++ f 5 ++ f 4 ++ f 3 ++ f 2 ++ f 1 ++ f 0
/-- Lines 57-58.  File: KeccakP-1600-times4-SIMD256.c. -/
def rho8 : V256 := fun w => match w with | 0 => 0x0605040302010007#64 | 1 => 0x0E0D0C0B0A09080F#64 | 2 => 0x1615141312111017#64 | 3 => 0x1E1D1C1B1A19181F#64
/-- Lines 59-60.  File: KeccakP-1600-times4-SIMD256.c. -/
def rho56 : V256 := fun w => match w with | 0 => 0x0007060504030201#64 | 1 => 0x080F0E0D0C0B0A09#64 | 2 => 0x1017161514131211#64 | 3 => 0x181F1E1D1C1B1A19#64
/-- Lines 53-54.  File: KeccakP-1600-times4-SIMD256.c. -/
def ROL64in256 (a : V256) (o : Nat) : V256 := mm256_or (mm256_slli_epi64 a o) (mm256_srli_epi64 a (64 - o))
/-- Line 55.  File: KeccakP-1600-times4-SIMD256.c. -/
def ROL64in256_8 (a : V256) : V256 := mm256_shuffle_epi8 a rho8
/-- Line 56.  File: KeccakP-1600-times4-SIMD256.c. -/
def ROL64in256_56 (a : V256) : V256 := mm256_shuffle_epi8 a rho56

/-- The 25 vector variables `Aba .. Asu` or `Eba .. Esu` (lines 68-86).  File: KeccakP-1600-times4-SIMD256.c. -/
structure LanesV where''')
for n in names: w(f'  {n} : V256')
w('''
/-- The column parities `Ca .. Cu`.  KeccakP-1600-times4-SIMD256.c 68-93. -/
structure ParityV where''')
for c in 'aeiou': w(f'  C{c} : V256')
a,b,t=macro('prepareTheta')
w(f'''
/-- `prepareTheta`, lines {a}-{b}.  File: KeccakP-1600-times4-SIMD256.c. -/
def prepareTheta (A : LanesV) : ParityV :=''')
for n in names: w(f'  let A{n} := A.{n}')
for s in stmts(t): w('  '+tr(s))
w('  ⟨Ca, Ce, Ci, Co, Cu⟩')
a,b,t=macro('thetaRhoPiChiIotaPrepareTheta')
w(f'''
/-- `thetaRhoPiChiIotaPrepareTheta(i, A, E)`, lines {a}-{b}; `rc` is `KeccakF1600RoundConstants[i]`.  File: KeccakP-1600-times4-SIMD256.c. -/
def thetaRhoPiChiIotaPrepareTheta (rc : W) (A : LanesV) (C : ParityV) : LanesV × ParityV :=''')
for n in names: w(f'  let A{n} := A.{n}')
for c in 'aeiou': w(f'  let C{c} := C.C{c}')
for s in stmts(t): w('  '+tr(s))
w('  (⟨'+', '.join('E'+n for n in names)+'⟩, ⟨Ca, Ce, Ci, Co, Cu⟩)')
a,b,t=macro('thetaRhoPiChiIota(')
w(f'''
/-- `thetaRhoPiChiIota(i, A, E)`, lines {a}-{b}; `rc` is `KeccakF1600RoundConstants[i]`.  File: KeccakP-1600-times4-SIMD256.c. -/
def thetaRhoPiChiIota (rc : W) (A : LanesV) (C : ParityV) : LanesV :=''')
for n in names: w(f'  let A{n} := A.{n}')
for c in 'aeiou': w(f'  let C{c} := C.C{c}')
for s in stmts(t): w('  '+tr(s))
w('  ⟨'+', '.join('E'+n for n in names)+'⟩')
i=next(k for k,l in enumerate(L) if 'KeccakF1600RoundConstants[24]' in l)
rc=re.findall(r'0x[0-9a-f]{16}',' '.join(L[i:i+12])); assert len(rc)==24
w(f'''
/-- `KeccakF1600RoundConstants[24]`, lines {i}-{i+9}.  File: KeccakP-1600-times4-SIMD256.c. -/
def KeccakF1600RoundConstantsList : List W := [''')
w(',\n'.join('  '+', '.join(x+'#64' for x in rc[k:k+3]) for k in range(0,24,3))+']')
w('''
/-- The constant table `KeccakF1600RoundConstants[24]`.  KeccakP-1600-times4-SIMD256.c 316-325. -/
def KeccakF1600RoundConstants : Buf W := Buf.ofList KeccakF1600RoundConstantsList
''')
a,b,t=macro('copyFromState')
w(f'''/-- `_mm256_i64gather_epi64` with the index vector of `copyFromState` (lines {a+2}-{a+5}): lane `l` of the four states.  File: KeccakP-1600-times4-SIMD256.c. -/
def gather (s : Buf W) (l : Nat) : M V256 := do
  let a ← rd s (0 + l)
  let b ← rd s (25 + l)
  let c ← rd s (50 + l)
  let d ← rd s (75 + l)
  pure fun w => match w with | 0 => a | 1 => b | 2 => c | 3 => d

/-- `copyFromState(X, state)`, lines {a}-{b}.  File: KeccakP-1600-times4-SIMD256.c. -/
def copyFromStateV (s : Buf W) : M LanesV := do''')
ex=re.findall(r'X##?(\w+) = _mm256_i64gather_epi64\(\(long long \*\)\((\d+) \* 8\), _idx, 1\)',t)
assert len(ex)==25
for n,k in ex: w(f'  let {n} ← gather s {k}')
w('  pure ⟨'+', '.join(names)+'⟩')
a,b,t=macro('SCATTER_STORE256')
w(f'''
/-- `SCATTER_STORE256(state, idx, v)`, lines {a}-{b}.  File: KeccakP-1600-times4-SIMD256.c. -/
def SCATTER_STORE256 (s : Buf W) (idx : Nat) (v : V256) : M (Buf W) := do
  let s ← wr s (0 + idx) (v 0)
  let s ← wr s (25 + idx) (v 1)
  let s ← wr s (50 + idx) (v 2)
  wr s (75 + idx) (v 3)
''')
a,b,t=macro('copyToState')
w(f'''/-- `copyToState(state, X)`, lines {a}-{b}.  File: KeccakP-1600-times4-SIMD256.c. -/
def copyToStateV (s : Buf W) (X : LanesV) : M (Buf W) := do''')
ex=re.findall(r'SCATTER_STORE256\(state, (\d+), X##(\w+)\)',t); assert len(ex)==25
for k,n in ex[:-1]: w(f'  let s ← SCATTER_STORE256 s {k} X.{n}')
w('  SCATTER_STORE256 s %s X.%s'%ex[-1])
M=open('/repo/fips202/native/x86_64/xkcp/KeccakP-1600-unrolling.macros').read()
rs=re.findall(r'(thetaRhoPiChiIota\w*)\( ?(\d+), ([AE]), ([AE])\)',M); assert len(rs)==24
w('''
/-- One line `thetaRhoPiChiIotaPrepareTheta(i, A, E)` of `rounds24`: the load of the round constant and the round.  File: KeccakP-1600-times4-SIMD256.c. -/
def roundM (i : Nat) (x : LanesV × ParityV) : M (LanesV × ParityV) := do
  let rc ← rd KeccakF1600RoundConstants i
  pure (thetaRhoPiChiIotaPrepareTheta rc x.1 x.2)

/-- `KeccakP1600times4_PermuteAll_24rounds`, lines 436-445, with `rounds24` of KeccakP-1600-unrolling.macros 20-44 (all rounds unrolled; the macros
alternate between the variables `A..` and `E..`).  File: KeccakP-1600-times4-SIMD256.c. -/
def KeccakP1600times4_PermuteAll_24rounds (states : Buf W) : M (Buf W) := do
  let A ← copyFromStateV states
  let x ← roundM 0 (A, prepareTheta A)''')
assert [int(k) for m,k,x,y in rs]==list(range(24)) and all(m.endswith('PrepareTheta') for m,k,x,y in rs[:23]) and [x+y for m,k,x,y in rs]==['AE','EA']*12
for m,k,x,y in rs[1:23]: w(f'  let x ← roundM {k} x')
w('  let rc ← rd KeccakF1600RoundConstants 23')
w('  copyToStateV states (thetaRhoPiChiIota rc x.1 x.2)')
w('''
/-- `keccak_f1600_x4_native`, profiles/xkcp.h 18-21: the branch `MLKEM_USE_FIPS202_X4_NATIVE` of `KeccakF1600x4_StatePermute`. -/
def keccak_f1600_x4_native (s : Buf W) : M (Buf W) := KeccakP1600times4_PermuteAll_24rounds s

end Verif.Model''')
open('/verif/lean/Verif/Model/X86Keccak.lean','w').write('\n'.join(o)+'\n')

import Verif.Model.Params
/-! # The Keccak-f[1600] permutation and byte access to its state (`/repo/fips202/keccakf1600.c`)

`uint64_t` lanes are `BitVec 64`.  A state pointer is a lane buffer with an offset `so` (in lanes). -/
namespace Verif.Model

/-- A 64-bit lane.  No line of /repo of its own (`uint64_t`). -/
abbrev W := BitVec 64

/-- `a - b` in `uint32_t`.  C arithmetic: no line of /repo of its own. -/
def sub32 (a b : Nat) : Nat := u32 (a + (4294967296 - u32 b))
/-- `a - b` in `uint64_t` / `size_t`.  C arithmetic: no line of /repo of its own. -/
def sub64 (a b : Nat) : Nat := u64 (a + (18446744073709551616 - u64 b))

/-- keccakf1600.c 22 -/
def ROL (a : W) (offset : Nat) : W := (a <<< offset) ^^^ (a >>> (64 - offset))

/-- keccakf1600.c 106-118 -/
def KeccakF_RoundConstantsList : List W := [
  0x0000000000000001#64, 0x0000000000008082#64,
  0x800000000000808a#64, 0x8000000080008000#64,
  0x000000000000808b#64, 0x0000000080000001#64,
  0x8000000080008081#64, 0x8000000000008009#64,
  0x000000000000008a#64, 0x0000000000000088#64,
  0x0000000080008009#64, 0x000000008000000a#64,
  0x000000008000808b#64, 0x800000000000008b#64,
  0x8000000000008089#64, 0x8000000000008003#64,
  0x8000000000008002#64, 0x8000000000000080#64,
  0x000000000000800a#64, 0x800000008000000a#64,
  0x8000000080008081#64, 0x8000000000008080#64,
  0x0000000080000001#64, 0x8000000080008008#64]

/-- The constant table `KeccakF_RoundConstants[24]`.  keccakf1600.c 106-118. -/
def KeccakF_RoundConstants : Buf W := Buf.ofList KeccakF_RoundConstantsList

/-- The 25 local variables `Aba .. Asu` of `KeccakF1600_StatePermute` (keccakf1600.c 124-128). -/
structure Lanes where
  Aba : W
  Abe : W
  Abi : W
  Abo : W
  Abu : W
  Aga : W
  Age : W
  Agi : W
  Ago : W
  Agu : W
  Aka : W
  Ake : W
  Aki : W
  Ako : W
  Aku : W
  Ama : W
  Ame : W
  Ami : W
  Amo : W
  Amu : W
  Asa : W
  Ase : W
  Asi : W
  Aso : W
  Asu : W

/-- The body of the loop of `KeccakF1600_StatePermute` (keccakf1600.c 165-355): two rounds, statement by statement.  `rc0`, `rc1` are the values
of `KeccakF_RoundConstants[round]` and `[round + 1]`. -/
def keccakTwoRounds (rc0 rc1 : W) (A : Lanes) : Lanes :=
  let Aba := A.Aba
  let Abe := A.Abe
  let Abi := A.Abi
  let Abo := A.Abo
  let Abu := A.Abu
  let Aga := A.Aga
  let Age := A.Age
  let Agi := A.Agi
  let Ago := A.Ago
  let Agu := A.Agu
  let Aka := A.Aka
  let Ake := A.Ake
  let Aki := A.Aki
  let Ako := A.Ako
  let Aku := A.Aku
  let Ama := A.Ama
  let Ame := A.Ame
  let Ami := A.Ami
  let Amo := A.Amo
  let Amu := A.Amu
  let Asa := A.Asa
  let Ase := A.Ase
  let Asi := A.Asi
  let Aso := A.Aso
  let Asu := A.Asu
  -- prepareTheta
  let BCa := Aba ^^^ Aga ^^^ Aka ^^^ Ama ^^^ Asa
  let BCe := Abe ^^^ Age ^^^ Ake ^^^ Ame ^^^ Ase
  let BCi := Abi ^^^ Agi ^^^ Aki ^^^ Ami ^^^ Asi
  let BCo := Abo ^^^ Ago ^^^ Ako ^^^ Amo ^^^ Aso
  let BCu := Abu ^^^ Agu ^^^ Aku ^^^ Amu ^^^ Asu
  -- thetaRhoPiChiIotaPrepareTheta(round  , A, E)
  let Da := BCu ^^^ (ROL BCe 1)
  let De := BCa ^^^ (ROL BCi 1)
  let Di := BCe ^^^ (ROL BCo 1)
  let Do := BCi ^^^ (ROL BCu 1)
  let Du := BCo ^^^ (ROL BCa 1)
  let Aba := Aba ^^^ Da
  let BCa := Aba
  let Age := Age ^^^ De
  let BCe := ROL Age 44
  let Aki := Aki ^^^ Di
  let BCi := ROL Aki 43
  let Amo := Amo ^^^ Do
  let BCo := ROL Amo 21
  let Asu := Asu ^^^ Du
  let BCu := ROL Asu 14
  let Eba := BCa ^^^ ((~~~BCe) &&& BCi)
  let Eba := Eba ^^^ rc0
  let Ebe := BCe ^^^ ((~~~BCi) &&& BCo)
  let Ebi := BCi ^^^ ((~~~BCo) &&& BCu)
  let Ebo := BCo ^^^ ((~~~BCu) &&& BCa)
  let Ebu := BCu ^^^ ((~~~BCa) &&& BCe)
  let Abo := Abo ^^^ Do
  let BCa := ROL Abo 28
  let Agu := Agu ^^^ Du
  let BCe := ROL Agu 20
  let Aka := Aka ^^^ Da
  let BCi := ROL Aka 3
  let Ame := Ame ^^^ De
  let BCo := ROL Ame 45
  let Asi := Asi ^^^ Di
  let BCu := ROL Asi 61
  let Ega := BCa ^^^ ((~~~BCe) &&& BCi)
  let Ege := BCe ^^^ ((~~~BCi) &&& BCo)
  let Egi := BCi ^^^ ((~~~BCo) &&& BCu)
  let Ego := BCo ^^^ ((~~~BCu) &&& BCa)
  let Egu := BCu ^^^ ((~~~BCa) &&& BCe)
  let Abe := Abe ^^^ De
  let BCa := ROL Abe 1
  let Agi := Agi ^^^ Di
  let BCe := ROL Agi 6
  let Ako := Ako ^^^ Do
  let BCi := ROL Ako 25
  let Amu := Amu ^^^ Du
  let BCo := ROL Amu 8
  let Asa := Asa ^^^ Da
  let BCu := ROL Asa 18
  let Eka := BCa ^^^ ((~~~BCe) &&& BCi)
  let Eke := BCe ^^^ ((~~~BCi) &&& BCo)
  let Eki := BCi ^^^ ((~~~BCo) &&& BCu)
  let Eko := BCo ^^^ ((~~~BCu) &&& BCa)
  let Eku := BCu ^^^ ((~~~BCa) &&& BCe)
  let Abu := Abu ^^^ Du
  let BCa := ROL Abu 27
  let Aga := Aga ^^^ Da
  let BCe := ROL Aga 36
  let Ake := Ake ^^^ De
  let BCi := ROL Ake 10
  let Ami := Ami ^^^ Di
  let BCo := ROL Ami 15
  let Aso := Aso ^^^ Do
  let BCu := ROL Aso 56
  let Ema := BCa ^^^ ((~~~BCe) &&& BCi)
  let Eme := BCe ^^^ ((~~~BCi) &&& BCo)
  let Emi := BCi ^^^ ((~~~BCo) &&& BCu)
  let Emo := BCo ^^^ ((~~~BCu) &&& BCa)
  let Emu := BCu ^^^ ((~~~BCa) &&& BCe)
  let Abi := Abi ^^^ Di
  let BCa := ROL Abi 62
  let Ago := Ago ^^^ Do
  let BCe := ROL Ago 55
  let Aku := Aku ^^^ Du
  let BCi := ROL Aku 39
  let Ama := Ama ^^^ Da
  let BCo := ROL Ama 41
  let Ase := Ase ^^^ De
  let BCu := ROL Ase 2
  let Esa := BCa ^^^ ((~~~BCe) &&& BCi)
  let Ese := BCe ^^^ ((~~~BCi) &&& BCo)
  let Esi := BCi ^^^ ((~~~BCo) &&& BCu)
  let Eso := BCo ^^^ ((~~~BCu) &&& BCa)
  let Esu := BCu ^^^ ((~~~BCa) &&& BCe)
  -- prepareTheta
  let BCa := Eba ^^^ Ega ^^^ Eka ^^^ Ema ^^^ Esa
  let BCe := Ebe ^^^ Ege ^^^ Eke ^^^ Eme ^^^ Ese
  let BCi := Ebi ^^^ Egi ^^^ Eki ^^^ Emi ^^^ Esi
  let BCo := Ebo ^^^ Ego ^^^ Eko ^^^ Emo ^^^ Eso
  let BCu := Ebu ^^^ Egu ^^^ Eku ^^^ Emu ^^^ Esu
  -- thetaRhoPiChiIotaPrepareTheta(round+1, E, A)
  let Da := BCu ^^^ (ROL BCe 1)
  let De := BCa ^^^ (ROL BCi 1)
  let Di := BCe ^^^ (ROL BCo 1)
  let Do := BCi ^^^ (ROL BCu 1)
  let Du := BCo ^^^ (ROL BCa 1)
  let Eba := Eba ^^^ Da
  let BCa := Eba
  let Ege := Ege ^^^ De
  let BCe := ROL Ege 44
  let Eki := Eki ^^^ Di
  let BCi := ROL Eki 43
  let Emo := Emo ^^^ Do
  let BCo := ROL Emo 21
  let Esu := Esu ^^^ Du
  let BCu := ROL Esu 14
  let Aba := BCa ^^^ ((~~~BCe) &&& BCi)
  let Aba := Aba ^^^ rc1
  let Abe := BCe ^^^ ((~~~BCi) &&& BCo)
  let Abi := BCi ^^^ ((~~~BCo) &&& BCu)
  let Abo := BCo ^^^ ((~~~BCu) &&& BCa)
  let Abu := BCu ^^^ ((~~~BCa) &&& BCe)
  let Ebo := Ebo ^^^ Do
  let BCa := ROL Ebo 28
  let Egu := Egu ^^^ Du
  let BCe := ROL Egu 20
  let Eka := Eka ^^^ Da
  let BCi := ROL Eka 3
  let Eme := Eme ^^^ De
  let BCo := ROL Eme 45
  let Esi := Esi ^^^ Di
  let BCu := ROL Esi 61
  let Aga := BCa ^^^ ((~~~BCe) &&& BCi)
  let Age := BCe ^^^ ((~~~BCi) &&& BCo)
  let Agi := BCi ^^^ ((~~~BCo) &&& BCu)
  let Ago := BCo ^^^ ((~~~BCu) &&& BCa)
  let Agu := BCu ^^^ ((~~~BCa) &&& BCe)
  let Ebe := Ebe ^^^ De
  let BCa := ROL Ebe 1
  let Egi := Egi ^^^ Di
  let BCe := ROL Egi 6
  let Eko := Eko ^^^ Do
  let BCi := ROL Eko 25
  let Emu := Emu ^^^ Du
  let BCo := ROL Emu 8
  let Esa := Esa ^^^ Da
  let BCu := ROL Esa 18
  let Aka := BCa ^^^ ((~~~BCe) &&& BCi)
  let Ake := BCe ^^^ ((~~~BCi) &&& BCo)
  let Aki := BCi ^^^ ((~~~BCo) &&& BCu)
  let Ako := BCo ^^^ ((~~~BCu) &&& BCa)
  let Aku := BCu ^^^ ((~~~BCa) &&& BCe)
  let Ebu := Ebu ^^^ Du
  let BCa := ROL Ebu 27
  let Ega := Ega ^^^ Da
  let BCe := ROL Ega 36
  let Eke := Eke ^^^ De
  let BCi := ROL Eke 10
  let Emi := Emi ^^^ Di
  let BCo := ROL Emi 15
  let Eso := Eso ^^^ Do
  let BCu := ROL Eso 56
  let Ama := BCa ^^^ ((~~~BCe) &&& BCi)
  let Ame := BCe ^^^ ((~~~BCi) &&& BCo)
  let Ami := BCi ^^^ ((~~~BCo) &&& BCu)
  let Amo := BCo ^^^ ((~~~BCu) &&& BCa)
  let Amu := BCu ^^^ ((~~~BCa) &&& BCe)
  let Ebi := Ebi ^^^ Di
  let BCa := ROL Ebi 62
  let Ego := Ego ^^^ Do
  let BCe := ROL Ego 55
  let Eku := Eku ^^^ Du
  let BCi := ROL Eku 39
  let Ema := Ema ^^^ Da
  let BCo := ROL Ema 41
  let Ese := Ese ^^^ De
  let BCu := ROL Ese 2
  let Asa := BCa ^^^ ((~~~BCe) &&& BCi)
  let Ase := BCe ^^^ ((~~~BCi) &&& BCo)
  let Asi := BCi ^^^ ((~~~BCo) &&& BCu)
  let Aso := BCo ^^^ ((~~~BCu) &&& BCa)
  let Asu := BCu ^^^ ((~~~BCa) &&& BCe)
  { Aba := Aba, Abe := Abe, Abi := Abi, Abo := Abo, Abu := Abu, Aga := Aga, Age := Age, Agi := Agi, Ago := Ago, Agu := Agu, Aka := Aka, Ake := Ake, Aki := Aki, Ako := Ako, Aku := Aku, Ama := Ama, Ame := Ame, Ami := Ami, Amo := Amo, Amu := Amu, Asa := Asa, Ase := Ase, Asi := Asi, Aso := Aso, Asu := Asu }

/-- `copyFromState`, keccakf1600.c 137-162. -/
def copyFromState (s : Buf W) (so : Nat) : M Lanes := do
  let Aba ← rd s (so + 0)
  let Abe ← rd s (so + 1)
  let Abi ← rd s (so + 2)
  let Abo ← rd s (so + 3)
  let Abu ← rd s (so + 4)
  let Aga ← rd s (so + 5)
  let Age ← rd s (so + 6)
  let Agi ← rd s (so + 7)
  let Ago ← rd s (so + 8)
  let Agu ← rd s (so + 9)
  let Aka ← rd s (so + 10)
  let Ake ← rd s (so + 11)
  let Aki ← rd s (so + 12)
  let Ako ← rd s (so + 13)
  let Aku ← rd s (so + 14)
  let Ama ← rd s (so + 15)
  let Ame ← rd s (so + 16)
  let Ami ← rd s (so + 17)
  let Amo ← rd s (so + 18)
  let Amu ← rd s (so + 19)
  let Asa ← rd s (so + 20)
  let Ase ← rd s (so + 21)
  let Asi ← rd s (so + 22)
  let Aso ← rd s (so + 23)
  let Asu ← rd s (so + 24)
  pure { Aba := Aba, Abe := Abe, Abi := Abi, Abo := Abo, Abu := Abu, Aga := Aga, Age := Age, Agi := Agi, Ago := Ago, Agu := Agu, Aka := Aka, Ake := Ake, Aki := Aki, Ako := Ako, Aku := Aku, Ama := Ama, Ame := Ame, Ami := Ami, Amo := Amo, Amu := Amu, Asa := Asa, Ase := Ase, Asi := Asi, Aso := Aso, Asu := Asu }

/-- `copyToState`, keccakf1600.c 358-383. -/
def copyToState (s : Buf W) (so : Nat) (A : Lanes) : M (Buf W) := do
  let s ← wr s (so + 0) A.Aba
  let s ← wr s (so + 1) A.Abe
  let s ← wr s (so + 2) A.Abi
  let s ← wr s (so + 3) A.Abo
  let s ← wr s (so + 4) A.Abu
  let s ← wr s (so + 5) A.Aga
  let s ← wr s (so + 6) A.Age
  let s ← wr s (so + 7) A.Agi
  let s ← wr s (so + 8) A.Ago
  let s ← wr s (so + 9) A.Agu
  let s ← wr s (so + 10) A.Aka
  let s ← wr s (so + 11) A.Ake
  let s ← wr s (so + 12) A.Aki
  let s ← wr s (so + 13) A.Ako
  let s ← wr s (so + 14) A.Aku
  let s ← wr s (so + 15) A.Ama
  let s ← wr s (so + 16) A.Ame
  let s ← wr s (so + 17) A.Ami
  let s ← wr s (so + 18) A.Amo
  let s ← wr s (so + 19) A.Amu
  let s ← wr s (so + 20) A.Asa
  let s ← wr s (so + 21) A.Ase
  let s ← wr s (so + 22) A.Asi
  let s ← wr s (so + 23) A.Aso
  let s ← wr s (so + 24) A.Asu
  pure s

/-- `KeccakF1600_StatePermute`, keccakf1600.c 120-386, on `state + so`. The loop `for (round = 0; round < 24; round += 2)` runs 12 times
with `round = 2*t`. -/
def KeccakF1600_StatePermute (s : Buf W) (so : Nat) : M (Buf W) := do
  let A ← copyFromState s so
  let A ← forN 12 A fun t A => do
    let rc0 ← rd KeccakF_RoundConstants (2 * t)
    let rc1 ← rd KeccakF_RoundConstants (2 * t + 1)
    pure (keccakTwoRounds rc0 rc1 A)
  copyToState s so A

/-- `KeccakF1600_StateExtractBytes`, portable version, keccakf1600.c 24-41: state `s + so`, output `data + dof`. -/
def KeccakF1600_StateExtractBytes (s : Buf W) (so : Nat) (data : Buf UInt8) (dof : Nat) (offset length : Nat) : M (Buf UInt8) :=
  forN length data fun i data => do
    let lane ← rd s (so + (u32 (offset + i)) >>> 3)
    wr data (dof + i) (toU8 (lane >>> (8 * (u32 (offset + i) &&& 0x07))).toNat)

/-- `KeccakF1600_StateXORBytes`, portable version, keccakf1600.c 43-61: state `s + so`, input `data + dof`. -/
def KeccakF1600_StateXORBytes (s : Buf W) (so : Nat) (data : Buf UInt8) (dof : Nat) (offset length : Nat) : M (Buf W) :=
  forN length s fun i s => do
    let d ← rd data (dof + i)
    let lane ← rd s (so + (u32 (offset + i)) >>> 3)
    wr s (so + (u32 (offset + i)) >>> 3) (lane ^^^ (BitVec.ofNat 64 d.toNat) <<< (8 * (u32 (offset + i) &&& 0x07)))

/-- The object representation of a lane buffer on a little-endian machine: byte `k` of lane `l` is at position `8*l + k`.  For the branch `SYS_LITTLE_ENDIAN` of keccakf1600.c 23-88. -/
def leBytes (s : Buf W) : Buf UInt8 :=
  Array.ofFn (n := 8 * s.size) fun p =>
    match s[p.val / 8]? with
    | some (some w) => some (toU8 (w >>> (8 * (p.val % 8))).toNat)
    | _ => none

/-- The lane buffer with the given little-endian object representation.  For the branch `SYS_LITTLE_ENDIAN` of keccakf1600.c 23-88. -/
def ofLeBytes (b : Buf UInt8) : Buf W :=
  Array.ofFn (n := b.size / 8) fun l =>
    match b[8 * l.val]?, b[8 * l.val + 1]?, b[8 * l.val + 2]?, b[8 * l.val + 3]?,
        b[8 * l.val + 4]?, b[8 * l.val + 5]?, b[8 * l.val + 6]?, b[8 * l.val + 7]? with
    | some (some b0), some (some b1), some (some b2), some (some b3),
      some (some b4), some (some b5), some (some b6), some (some b7) =>
      some (BitVec.ofNat 64 (b0.toNat + 256 * (b1.toNat + 256 * (b2.toNat + 256 * (b3.toNat + 256 * (b4.toNat
        + 256 * (b5.toNat + 256 * (b6.toNat + 256 * b7.toNat))))))))
    | _, _, _, _, _, _, _, _ => none

/-- `KeccakF1600_StateExtractBytes`, `SYS_LITTLE_ENDIAN` version, keccakf1600.c 28-33: the state is accessed through a byte pointer. -/
def KeccakF1600_StateExtractBytes_LE (s : Buf W) (so : Nat) (data : Buf UInt8) (dof : Nat) (offset length : Nat) : M (Buf UInt8) :=
  let state_ptr := leBytes s
  forN length data fun i data => do
    let v ← rd state_ptr (8 * so + offset + i)
    wr data (dof + i) v

/-- `KeccakF1600_StateXORBytes`, `SYS_LITTLE_ENDIAN` version, keccakf1600.c 47-52: the state is accessed through a byte pointer. -/
def KeccakF1600_StateXORBytes_LE (s : Buf W) (so : Nat) (data : Buf UInt8) (dof : Nat) (offset length : Nat) : M (Buf W) := do
  let state_ptr ← forN length (leBytes s) fun i st => do
    let d ← rd data (dof + i)
    let v ← rd st (8 * so + offset + i)
    wr st (8 * so + offset + i) (v ^^^ d)
  pure (ofLeBytes state_ptr)

/-- Four things, one per Keccak instance.  No line of /repo of its own: the four pointer arguments of the x4 functions in keccakf1600.h and fips202x4.h. -/
structure Four (α : Type) where
  x0 : α
  x1 : α
  x2 : α
  x3 : α

/-- `KECCAK_LANES`, keccakf1600.h.  keccakf1600.h 13. -/
def KECCAK_LANES : Nat := 25

/-- `KeccakF1600x4_StateExtractBytes`, keccakf1600.c 63-77; the four outputs all at offset `dof`. -/
def KeccakF1600x4_StateExtractBytes (s : Buf W) (data : Four (Buf UInt8)) (dof : Nat) (offset length : Nat) : M (Four (Buf UInt8)) := do
  let d0 ← KeccakF1600_StateExtractBytes s (KECCAK_LANES * 0) data.x0 dof offset length
  let d1 ← KeccakF1600_StateExtractBytes s (KECCAK_LANES * 1) data.x1 dof offset length
  let d2 ← KeccakF1600_StateExtractBytes s (KECCAK_LANES * 2) data.x2 dof offset length
  let d3 ← KeccakF1600_StateExtractBytes s (KECCAK_LANES * 3) data.x3 dof offset length
  pure ⟨d0, d1, d2, d3⟩

/-- `KeccakF1600x4_StateXORBytes`, keccakf1600.c 78-88; the four inputs all at offset `dof`. -/
def KeccakF1600x4_StateXORBytes (s : Buf W) (data : Four (Buf UInt8)) (dof : Nat) (offset length : Nat) : M (Buf W) := do
  let s ← KeccakF1600_StateXORBytes s (KECCAK_LANES * 0) data.x0 dof offset length
  let s ← KeccakF1600_StateXORBytes s (KECCAK_LANES * 1) data.x1 dof offset length
  let s ← KeccakF1600_StateXORBytes s (KECCAK_LANES * 2) data.x2 dof offset length
  KeccakF1600_StateXORBytes s (KECCAK_LANES * 3) data.x3 dof offset length

/-- `KeccakF1600x4_StatePermute`, keccakf1600.c 90-103 (portable branch). -/
def KeccakF1600x4_StatePermute (s : Buf W) : M (Buf W) := do
  let s ← KeccakF1600_StatePermute s (KECCAK_LANES * 0)
  let s ← KeccakF1600_StatePermute s (KECCAK_LANES * 1)
  let s ← KeccakF1600_StatePermute s (KECCAK_LANES * 2)
  KeccakF1600_StatePermute s (KECCAK_LANES * 3)

end Verif.Model

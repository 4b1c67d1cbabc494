/-! # Specification of AES (FIPS 197)

This file does not mention the code.  Section numbers are those of FIPS 197. -/
namespace Verif.Spec

/-- A byte; bit `i` is the coefficient of `x^i` (Section 4). -/
abbrev Byte := BitVec 8

/-- Multiplication by `x` modulo `x^8 + x^4 + x^3 + x + 1` (Section 4.2). -/
def xtime (b : Byte) : Byte := (b <<< 1) ^^^ (if b.msb then 0x1b#8 else 0#8)

/-- `x^n` times `b`. -/
def xtimes : Nat → Byte → Byte
  | 0, b => b
  | n + 1, b => xtime (xtimes n b)

/-- Multiplication in GF(2^8) (Section 4.2). -/
def gmul (a b : Byte) : Byte := (List.range 8).foldl (fun s i => if a.getLsbD i then s ^^^ xtimes i b else s) 0#8

/-- The multiplicative inverse, with 0 sent to 0 (Section 4.4): `b^254 = b^2 b^4 b^8 b^16 b^32 b^64 b^128`. -/
def ginv (b : Byte) : Byte :=
  let b2 := gmul b b
  let b4 := gmul b2 b2
  let b8 := gmul b4 b4
  let b16 := gmul b8 b8
  let b32 := gmul b16 b16
  let b64 := gmul b32 b32
  let b128 := gmul b64 b64
  gmul b2 (gmul b4 (gmul b8 (gmul b16 (gmul b32 (gmul b64 b128)))))

/-- The S-box: the inverse, then the affine map `b'_i = b_i + b_{i+4} + b_{i+5} + b_{i+6} + b_{i+7} + c_i`, indices modulo 8, `c = 0x63` (Section 5.1.1).  Bit `i` of `b.rotateRight n` is bit `(i + n) mod 8` of `b`. -/
def sbox (a : Byte) : Byte :=
  let b := ginv a
  b ^^^ b.rotateRight 4 ^^^ b.rotateRight 5 ^^^ b.rotateRight 6 ^^^ b.rotateRight 7 ^^^ 0x63#8

/-- The state: entry `r + 4 c` is the byte in row `r` and column `c` (Section 3.4). -/
abbrev AState := Nat → Byte

/-- Section 5.1.1. -/
def SubBytes (s : AState) : AState := fun k => sbox (s k)

/-- Section 5.1.2: `s'[r, c] = s[r, (c + r) mod 4]`. -/
def ShiftRows (s : AState) : AState := fun k => s (k % 4 + 4 * ((k / 4 + k % 4) % 4))

/-- Section 5.1.3: row `r` of the product of the circulant matrix `2 3 1 1` with each column. -/
def MixColumns (s : AState) : AState := fun k =>
  gmul 2#8 (s (k % 4 + 4 * (k / 4))) ^^^ gmul 3#8 (s ((k % 4 + 1) % 4 + 4 * (k / 4))) ^^^ s ((k % 4 + 2) % 4 + 4 * (k / 4)) ^^^ s ((k % 4 + 3) % 4 + 4 * (k / 4))

/-- Four bytes. -/
structure Word where
  a0 : Byte
  a1 : Byte
  a2 : Byte
  a3 : Byte
deriving DecidableEq

/-- Byte `r` of a word. -/
def Word.byte (w : Word) (r : Nat) : Byte := if r = 0 then w.a0 else if r = 1 then w.a1 else if r = 2 then w.a2 else w.a3

/-- Section 5.2: `RotWord`. -/
def RotWord (w : Word) : Word := ⟨w.a1, w.a2, w.a3, w.a0⟩

/-- Section 5.2: `SubWord`. -/
def SubWord (w : Word) : Word := ⟨sbox w.a0, sbox w.a1, sbox w.a2, sbox w.a3⟩

/-- Exclusive or of words. -/
def Word.xor (v w : Word) : Word := ⟨v.a0 ^^^ w.a0, v.a1 ^^^ w.a1, v.a2 ^^^ w.a2, v.a3 ^^^ w.a3⟩

/-- Section 5.2: `Rcon[j] = [x^(j-1), 0, 0, 0]`. -/
def Rcon (j : Nat) : Word := ⟨xtimes (j - 1) 1#8, 0#8, 0#8, 0#8⟩

/-- The word at position `i` of the key (Algorithm 2, lines 2-5). -/
def keyWord (key : List UInt8) (i : Nat) : Word :=
  ⟨(key.getD (4 * i) 0).toBitVec, (key.getD (4 * i + 1) 0).toBitVec, (key.getD (4 * i + 2) 0).toBitVec, (key.getD (4 * i + 3) 0).toBitVec⟩

/-- Section 5.2, Algorithm 2: the first `Nk + n` words of the expanded key, for a key of `Nk` words. -/
def KeyExpansion (Nk : Nat) (key : List UInt8) : Nat → List Word
  | 0 => (List.range Nk).map (keyWord key)
  | n + 1 =>
    let w := KeyExpansion Nk key n
    let i := Nk + n
    let temp := w.getD (i - 1) ⟨0, 0, 0, 0⟩
    let temp := if i % Nk = 0 then (SubWord (RotWord temp)).xor (Rcon (i / Nk)) else if 6 < Nk ∧ i % Nk = 4 then SubWord temp else temp
    w ++ [(w.getD (i - Nk) ⟨0, 0, 0, 0⟩).xor temp]

/-- The number of rounds for a key of `Nk` words (Table 3: 10, 12, 14 for 4, 6, 8 words). -/
def numRounds (Nk : Nat) : Nat := Nk + 6

/-- All `4 (Nr + 1)` words. -/
def expandedKey (Nk : Nat) (key : List UInt8) : List Word := KeyExpansion Nk key (4 * (numRounds Nk + 1) - Nk)

/-- Section 5.1.4: column `c` of the state is combined with word `4 round + c`. -/
def AddRoundKey (w : List Word) (round : Nat) (s : AState) : AState := fun k => s k ^^^ (w.getD (4 * round + k / 4) ⟨0, 0, 0, 0⟩).byte (k % 4)

/-- The sixteen bytes after an operation on the state with the given sixteen bytes. -/
def onState (f : AState → AState) (s : List Byte) : List Byte := (List.range 16).map (f fun k => s.getD k 0#8)

/-- The state after `n` of the full rounds (Algorithm 1, lines 3-9). -/
def rounded (w : List Word) (s : List Byte) : Nat → List Byte
  | 0 => onState (AddRoundKey w 0) s
  | n + 1 => onState (fun s => AddRoundKey w (n + 1) (MixColumns (ShiftRows (SubBytes s)))) (rounded w s n)

/-- Algorithm 1: `Cipher` with `Nr` rounds. -/
def Cipher (w : List Word) (Nr : Nat) (s : List Byte) : List Byte := onState (fun s => AddRoundKey w Nr (ShiftRows (SubBytes s))) (rounded w s (Nr - 1))

/-- AES with a key of `4 Nk` bytes on a block of 16 bytes. -/
def AES (Nk : Nat) (key block : List UInt8) : List UInt8 :=
  (Cipher (expandedKey Nk key) (numRounds Nk) (block.map UInt8.toBitVec)).map UInt8.ofBitVec

/-- A number as four big-endian bytes, modulo `2^32`. -/
def be32 (n : Nat) : List UInt8 := (List.range 4).map fun i => UInt8.ofNat (n / 256 ^ (3 - i))

/-- The first `n` bytes of the key stream of counter mode (SP 800-38A, Section 6.5) with counter blocks `iv || 0`, `iv || 1`, …, for an `iv` of 12 bytes. -/
def ctrStream (Nk : Nat) (key iv : List UInt8) (n : Nat) : List UInt8 := ((List.range ((n + 15) / 16)).flatMap fun i => AES Nk key (iv ++ be32 i)).take n

/-- Electronic codebook mode (SP 800-38A, Section 6.1): every block of 16 bytes on its own. -/
def ecb (Nk : Nat) (key msg : List UInt8) : List UInt8 := (List.range (msg.length / 16)).flatMap fun i => AES Nk key ((msg.drop (16 * i)).take 16)

end Verif.Spec

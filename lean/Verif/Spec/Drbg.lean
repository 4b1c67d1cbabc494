import Verif.Spec.Fips197
/-! # Specification of CTR_DRBG with AES-256, without derivation function, without additional input (NIST SP 800-90A, Section 10.2.1)

This file does not mention the code. -/
namespace Verif.Spec

/-- The internal state: `Key` (32 bytes) and `V` (16 bytes, a big-endian number).  The reseed counter is left out. -/
structure DrbgState where
  key : List UInt8
  v : List UInt8

/-- The number with the big-endian digits `V`. -/
def beNat (V : List UInt8) : Nat := V.foldl (fun n b => 256 * n + b.toNat) 0

/-- `n` as 16 big-endian bytes, modulo `2^128`. -/
def beBytes (n : Nat) : List UInt8 := (List.range 16).map fun i => UInt8.ofNat (n / 256 ^ (15 - i))

/-- `V + k mod 2^128`. -/
def incV (V : List UInt8) (k : Nat) : List UInt8 := beBytes (beNat V + k)

/-- The first `n` blocks of key stream: `AES(Key, V+1) || … || AES(Key, V+n)`. -/
def keyStream (s : DrbgState) (n : Nat) : List UInt8 := (List.range n).flatMap fun i => AES 8 s.key (incV s.v (i + 1))

/-- Exclusive or of two byte strings. -/
def xorBytes (a b : List UInt8) : List UInt8 := List.zipWith (· ^^^ ·) a b

/-- Section 10.2.1.2, `CTR_DRBG_Update`, with `seedlen = 48` bytes: new `Key` and `V` from three blocks. -/
def CTR_DRBG_Update (provided : List UInt8) (s : DrbgState) : DrbgState :=
  let temp := xorBytes (keyStream s 3) provided
  ⟨temp.take 32, temp.drop 32⟩

/-- Section 10.2.1.3.1, `CTR_DRBG_Instantiate` without derivation function: `seed_material = entropy_input ⊕ personalization_string`. -/
def CTR_DRBG_Instantiate (entropy personalization : List UInt8) : DrbgState :=
  CTR_DRBG_Update (xorBytes entropy personalization) ⟨List.replicate 32 0, List.replicate 16 0⟩

/-- Section 10.2.1.5.1, `CTR_DRBG_Generate` without additional input: `n` bytes and the new state. -/
def CTR_DRBG_Generate (s : DrbgState) (n : Nat) : List UInt8 × DrbgState :=
  let blocks := (n + 15) / 16
  ((keyStream s blocks).take n, CTR_DRBG_Update (List.replicate 48 0) ⟨s.key, incV s.v blocks⟩)

end Verif.Spec

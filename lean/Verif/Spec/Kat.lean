import Verif.Spec.Fips203
import Verif.Spec.Drbg
/-! # Specification of the known-answer files

What the two generators of known-answer tests are to print, in terms of FIPS 203, SP 800-90A and FIPS 202.  This file does not mention the code. -/
namespace Verif.Spec

/-- The bytes `0, 1, …, n - 1` shifted by `a`. -/
def bytesFrom (a n : Nat) : List UInt8 := (List.range n).map fun i => UInt8.ofNat (a + i)

/-- Bytes in hexadecimal, two digits each, with the sixteen given digits. -/
def hexText (digits : List Char) : List UInt8 → String
  | [] => ""
  | b :: bs => String.ofList [digits.getD (b.toNat / 16) '0', digits.getD (b.toNat % 16) '0'] ++ hexText digits bs

/-- Upper-case digits. -/
def upperHex : List Char := ['0', '1', '2', '3', '4', '5', '6', '7', '8', '9', 'A', 'B', 'C', 'D', 'E', 'F']
/-- Lower-case digits. -/
def lowerHex : List Char := ['0', '1', '2', '3', '4', '5', '6', '7', '8', '9', 'a', 'b', 'c', 'd', 'e', 'f']

/-- Answer number `i` of CTR_DRBG to requests of `n` bytes each. -/
def nthOutput (s : DrbgState) (n : Nat) : Nat → List UInt8
  | 0 => (CTR_DRBG_Generate s n).1
  | i + 1 => nthOutput (CTR_DRBG_Generate s n).2 n i

/-- One known-answer case: public key, secret key, ciphertext, the shared secret of the sender and that of the receiver. -/
structure KatCase where
  ek : List UInt8
  dk : List UInt8
  c : List UInt8
  ssE : List UInt8
  ssD : List UInt8

/-- Key generation from `d` and `z`, encapsulation with `m`, decapsulation. -/
def katCase (k n : Nat) (d z m : List UInt8) : Option KatCase := do
  let (ek, dk) ← KeyGen_internal k n d z
  let (K, c) ← Encaps_internal k n ek m
  let K' ← Decaps_internal k n dk c
  some ⟨ek, dk, c, K, K'⟩

/-- The 48-byte seed of case `i` of NIST's file: answer `i` of CTR_DRBG instantiated with the bytes 0 to 47. -/
def nistSeed (i : Nat) : List UInt8 := nthOutput (CTR_DRBG_Instantiate (bytesFrom 0 48) (List.replicate 48 0)) 48 i

/-- Case `i`: CTR_DRBG, instantiated with the seed, answers a request for 64 bytes (`d` and `z`) and one for 32 bytes (`m`). -/
def nistCase (k n i : Nat) : Option KatCase :=
  let s := CTR_DRBG_Instantiate (nistSeed i) (List.replicate 48 0)
  let dz := (CTR_DRBG_Generate s 64).1
  let m := (CTR_DRBG_Generate (CTR_DRBG_Generate s 64).2 32).1
  katCase k n (dz.take 32) (dz.drop 32) m

/-- The text of a case in NIST's format. -/
def nistCaseText (i : Nat) (seed : List UInt8) (x : KatCase) : String :=
  "count = " ++ toString i ++ "\n" ++
  "seed = " ++ hexText upperHex seed ++ "\n" ++
  "pk = " ++ hexText upperHex x.ek ++ "\n" ++
  "sk = " ++ hexText upperHex x.dk ++ "\n" ++
  "ct = " ++ hexText upperHex x.c ++ "\n" ++
  "ss = " ++ hexText upperHex x.ssE ++ "\n" ++ "\n"

/-- The cases listed, one after the other, with exit code 0; the first case in which the two shared secrets differ is the last one and the exit code is -4. -/
def nistText (k n : Nat) : List Nat → Option (Int × String)
  | [] => some (0, "")
  | i :: is => do
    let x ← nistCase k n i
    if x.ssE = x.ssD then
      let (code, t) ← nistText k n is
      some (code, nistCaseText i (nistSeed i) x ++ t)
    else some (-4, nistCaseText i (nistSeed i) x)

/-- The name printed for the parameter set. -/
def algName (k : Nat) : String := if k = 2 then "Kyber512" else if k = 3 then "Kyber768" else "Kyber1024"

/-- NIST's known-answer file with `count` cases, and the exit code. -/
def nistFile (k n count : Nat) : Option (Int × String) := do
  let (code, t) ← nistText k n (List.range count)
  some (code, "# " ++ algName k ++ "\n\n" ++ t)

/-- The coins of case `i` of the second file: bytes `96 i` to `96 i + 95` of SHAKE256 of the bytes 32 to 95. -/
def shakeCoins (i : Nat) : List UInt8 := (SHAKE256 (bytesFrom 32 64) (96 * (i + 1))).drop (96 * i)

/-- Case `i` of the second file. -/
def shakeCase (k n i : Nat) : Option KatCase :=
  katCase k n ((shakeCoins i).take 32) (((shakeCoins i).drop 32).take 32) ((shakeCoins i).drop 64)

/-- The cases listed, one after the other, with exit code 0; at the first case in which the two shared secrets differ the exit code is -1 and no shared secret is printed. -/
def shakeText (k n : Nat) : List Nat → Option (Int × String)
  | [] => some (0, "")
  | i :: is => do
    let x ← shakeCase k n i
    let t := "pk = " ++ hexText lowerHex x.ek ++ "\n" ++ "sk = " ++ hexText lowerHex x.dk ++ "\n" ++ "ct = " ++ hexText lowerHex x.c ++ "\n"
    if x.ssE = x.ssD then
      let (code, t') ← shakeText k n is
      some (code, t ++ "ss = " ++ hexText lowerHex x.ssE ++ "\n" ++ t')
    else some (-1, t)

end Verif.Spec

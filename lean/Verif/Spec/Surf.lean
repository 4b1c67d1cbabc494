/-! # Specification of the random bytes of the test programs

SURF, after D. J. Bernstein, "SURF: Simple Unpredictable Random Function", as one recursive sequence of words, and the stream of bytes taken from it.  This file does not mention the code. -/
namespace Verif.Spec

/-- The fixed seed of 32 words: the digits of π. -/
def surfSeed : List (BitVec 32) := [3, 1, 4, 1, 5, 9, 2, 6, 5, 3, 5, 8, 9, 7, 9, 3, 2, 3, 8, 4, 6, 2, 6, 4, 3, 3, 8, 3, 2, 7, 9, 5]

/-- The rotation amounts. -/
def surfRot (n : Nat) : Nat := [5, 7, 9, 13].getD (n % 4) 0

/-- The sequence of words for an input of twelve words. -/
def surfSeq (inp : Nat → BitVec 32) (n : Nat) : BitVec 32 :=
  if n < 12 then inp n ^^^ surfSeed.getD (12 + n) 0
  else surfSeq inp (n - 12) + (((surfSeq inp (n - 1) ^^^ surfSeed.getD (n % 12) 0) + BitVec.ofNat 32 (n / 12 * 0x9e3779b9)) ^^^ (surfSeq inp (n - 1)).rotateLeft (surfRot n))

/-- The eight words of output: after 16 and after 32 rounds of twelve steps. -/
def surfOut (inp : Nat → BitVec 32) (i : Nat) : BitVec 32 := surfSeed.getD (24 + i) 0 ^^^ surfSeq inp (196 + i) ^^^ surfSeq inp (388 + i)

/-- A 128-bit counter in the first four of twelve words, lowest word first. -/
def counterWords (c : Nat) (i : Nat) : BitVec 32 := if i < 4 then BitVec.ofNat 32 (c / 2 ^ (32 * i)) else 0

/-- Byte `n` of the stream: block `n / 8 + 1`, the words from the last to the first, the lowest byte of each. -/
def surfByte (n : Nat) : UInt8 := UInt8.ofNat (surfOut (counterWords (n / 8 + 1)) (7 - n % 8)).toNat

end Verif.Spec

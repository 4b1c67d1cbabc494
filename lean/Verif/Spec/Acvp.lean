import Verif.Spec.Kat
/-! # Specification of the ACVP test program

Which command lines ask for what, and what the answer is, in terms of FIPS 203.  This file does not mention the code. -/
namespace Verif.Spec

/-- The bytes of a text in ASCII. -/
def ascii (s : String) : List UInt8 := s.toList.map fun c => UInt8.ofNat c.toNat

/-- The character `a` is a hexadecimal digit, upper or lower case, of value `x`. -/
def IsHexDigit (a : UInt8) (x : Nat) : Prop := x < 16 ∧ (a.toNat = (upperHex.getD x '0').toNat ∨ a.toNat = (lowerHex.getD x '0').toNat)

/-- The text spells the bytes, two hexadecimal digits each. -/
inductive Spells : List UInt8 → List UInt8 → Prop
  | nil : Spells [] []
  | cons {a b : UInt8} {x y : Nat} {t bs : List UInt8} : IsHexDigit a x → IsHexDigit b y → Spells t bs → Spells (a :: b :: t) (UInt8.ofNat (16 * x + y) :: bs)

/-- The argument `arg` is `name=HEX` where `HEX` spells the bytes `bs`. -/
def NamedHex (name : String) (bs arg : List UInt8) : Prop := ∃ t, arg = ascii name ++ ascii "=" ++ t ∧ Spells t bs

/-- What a user can ask for. -/
inductive AcvpRequest
  | encaps (ek m : List UInt8)
  | decaps (dk c : List UInt8)
  | keyGen (z d : List UInt8)

/-- The arguments (after the name of the program) ask for `r`.  Further arguments are ignored. -/
def Asks (k : Nat) (args : List (List UInt8)) : AcvpRequest → Prop
  | .encaps ek m => ek.length = 384 * k + 32 ∧ m.length = 32 ∧
      ∃ a b rest, args = ascii "encapDecap" :: ascii "AFT" :: ascii "encapsulation" :: a :: b :: rest ∧ NamedHex "ek" ek a ∧ NamedHex "m" m b
  | .decaps dk c => dk.length = 768 * k + 96 ∧ c.length = 32 * (d_u k * k + d_v k) ∧
      ∃ a b rest, args = ascii "encapDecap" :: ascii "VAL" :: ascii "decapsulation" :: a :: b :: rest ∧ NamedHex "dk" dk a ∧ NamedHex "c" c b
  | .keyGen z d => z.length = 32 ∧ d.length = 32 ∧
      ∃ a b rest, args = ascii "keyGen" :: ascii "AFT" :: a :: b :: rest ∧ NamedHex "z" z a ∧ NamedHex "d" d b

/-- A line of the answer. -/
def hexLine (name : String) (bs : List UInt8) : String := name ++ "=" ++ hexText upperHex bs ++ "\n"

/-- The answer of FIPS 203. -/
def acvpAnswer (k n : Nat) : AcvpRequest → Option String
  | .encaps ek m => (Encaps_internal k n ek m).map fun (K, c) => hexLine "c" c ++ hexLine "k" K
  | .decaps dk c => (Decaps_internal k n dk c).map fun K => hexLine "k" K
  | .keyGen z d => (KeyGen_internal k n d z).map fun (ek, dk) => hexLine "ek" ek ++ hexLine "dk" dk

/-- The input checks of FIPS 203 sections 7.2 and 7.3. -/
def acvpValid (k : Nat) : AcvpRequest → Prop
  | .encaps ek _ => modulusCheck k ek
  | .decaps dk _ => hashCheck k dk
  | .keyGen _ _ => True

end Verif.Spec

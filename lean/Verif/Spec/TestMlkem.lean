import Verif.Spec.Fips203
/-! # Specification of the functional test program

When each test passes, in terms of FIPS 203 and of the random bytes drawn.  A test is a function of the source of randomness; it gives whether it passes, and the source afterwards; `none` when the
sampling of a matrix entry does not succeed within `n` bytes, or no nonzero byte is drawn.  This file does not mention the code. -/
namespace Verif.Spec

/-- Bytes drawn from a source, and the source afterwards. -/
abbrev Source (σ : Type) := σ → Nat → List UInt8 × σ

/-- A key pair and an encapsulation from 64 and then 32 fresh bytes: `(ek, dk, K, c)`. -/
def honestRun {σ : Type} (k n : Nat) (src : Source σ) (s : σ) : Option ((List UInt8 × List UInt8 × List UInt8 × List UInt8) × σ) :=
  let (dz, s) := src s 64
  let (m, s) := src s 32
  (KeyGen_internal k n (dz.take 32) (dz.drop 32)).bind fun (ek, dk) =>
    (Encaps_internal k n ek m).map fun (K, c) => ((ek, dk, K, c), s)

/-- Decapsulation gives the key of the encapsulation. -/
def keysTest {σ : Type} (k n : Nat) (src : Source σ) (s : σ) : Option (Bool × σ) :=
  (honestRun k n src s).bind fun ((_, dk, K, c), s) =>
    (Decaps_internal k n dk c).map fun K' => (decide (K' = K), s)

/-- Encapsulation rejects a key with a first coefficient of 4095: always. -/
def invalidPkTest {σ : Type} (k n : Nat) (src : Source σ) (s : σ) : Option (Bool × σ) :=
  (honestRun k n src s).map fun (_, s) => (true, (src s 32).2)

/-- With ten random bytes at the start of the decapsulation key, decapsulation gives another key. -/
def invalidSkATest {σ : Type} (k n : Nat) (src : Source σ) (s : σ) : Option (Bool × σ) :=
  (honestRun k n src s).bind fun ((_, dk, K, c), s) =>
    let (r, s) := src s 10
    (Decaps_internal k n (r ++ dk.drop 10) c).map fun K' => (decide (K' ≠ K), s)

/-- With 32 random bytes in place of the hash of the encapsulation key, decapsulation rejects: unless they are the hash. -/
def invalidSkBTest {σ : Type} (k n : Nat) (src : Source σ) (s : σ) : Option (Bool × σ) :=
  (honestRun k n src s).bind fun ((ek, dk, _, c), s) =>
    let (r, s) := src s 32
    if r = H ek then (Decaps_internal k n dk c).map fun _ => (false, s) else some (true, s)

/-- The first nonzero byte of at most `tries` drawn one by one. -/
def nonzeroByte {σ : Type} (src : Source σ) : Nat → σ → Option (UInt8 × σ)
  | 0, _ => none
  | tries + 1, s =>
    let (l, s) := src s 1
    if l.getD 0 0 = 0 then nonzeroByte src tries s else some (l.getD 0 0, s)

/-- With one byte of the ciphertext changed, decapsulation gives another key.  `sz` bytes are drawn for the position, `pos` gives their value. -/
def invalidCtTest {σ : Type} (k n tries sz : Nat) (pos : List UInt8 → Nat) (src : Source σ) (s : σ) : Option (Bool × σ) :=
  (nonzeroByte src tries s).bind fun (b, s) =>
    let (l, s) := src s sz
    (honestRun k n src s).bind fun ((_, dk, K, c), s) =>
      (Decaps_internal k n dk (c.modify (pos l % c.length) (· ^^^ b))).map fun K' => (decide (K' ≠ K), s)

/-- A text if the test has failed. -/
def complain (ok : Bool) (t : String) : String := if ok then "" else t

/-- One round of the five tests: whether all pass, what is printed, the source afterwards. -/
def testRound {σ : Type} (k n tries sz : Nat) (pos : List UInt8 → Nat) (src : Source σ) (s : σ) : Option (Bool × String × σ) :=
  (keysTest k n src s).bind fun (a, s) => (invalidPkTest k n src s).bind fun (b, s) => (invalidSkATest k n src s).bind fun (c, s) => (invalidSkBTest k n src s).bind fun (d, s) =>
    (invalidCtTest k n tries sz pos src s).map fun (e, s) =>
      (a && b && c && d && e, complain a "ERROR keys\n" ++ complain c "ERROR invalid sk\n" ++ complain d "ERROR test_invalid_sk_b\n" ++ complain e "ERROR invalid ciphertext\n", s)

/-- The sizes, printed after all rounds. -/
def sizesText (k : Nat) : String :=
  "CRYPTO_SECRETKEYBYTES:  " ++ toString (768 * k + 96) ++ "\n" ++ "CRYPTO_PUBLICKEYBYTES:  " ++ toString (384 * k + 32) ++ "\n" ++ "CRYPTO_CIPHERTEXTBYTES: " ++ toString (32 * (d_u k * k + d_v k)) ++ "\n"

/-- The program: exit code, source, text.  The first failing round is the last. -/
def testProgram {σ : Type} (k n tries sz : Nat) (pos : List UInt8 → Nat) (src : Source σ) : Nat → σ → Option (Nat × σ × String)
  | 0, s => some (0, s, sizesText k)
  | r + 1, s => (testRound k n tries sz pos src s).bind fun (ok, t, s) =>
    if ok then (testProgram k n tries sz pos src r s).map fun (code, s, t') => (code, s, t ++ t') else some (1, s, t)

end Verif.Spec

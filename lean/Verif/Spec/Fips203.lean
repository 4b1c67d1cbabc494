import Verif.Spec.Fips202
import Mathlib.Data.ZMod.Basic
import Mathlib.Data.Rat.Floor
import Mathlib.Algebra.BigOperators.Group.Finset.Basic
/-! # Specification of ML-KEM (FIPS 203)

This file does not mention the code.  Section, algorithm and equation numbers are those of FIPS 203.
Conventions: a polynomial (or an element of the NTT domain) is a function from coefficient positions to `Zq`, of which positions 0 - 255 matter; a vector or
matrix of polynomials is a function from indices, of which 0 - `k-1` matter; byte strings are lists. -/
open Finset
namespace Verif.Spec

/-- The integers modulo `q = 3329`. -/
abbrev Zq := ZMod 3329
/-- Elements of `R_q` or `T_q`. -/
abbrev Poly := Nat → Zq

/-! ## Conversion and compression (Section 4.2.1) -/

/-- `ByteEncode_d` (Algorithm 5): bit `i*d + j` of the output is bit `j` of entry `i`. -/
def ByteEncode (d : Nat) (F : Nat → Nat) : List UInt8 :=
  (List.range (32 * d)).map fun k => byteOf fun t => (F ((8 * k + t) / d)).testBit ((8 * k + t) % d)

/-- The modulus of `ByteDecode_d` (Algorithm 6). -/
def decodeMod (d : Nat) : Nat := if d = 12 then 3329 else 2 ^ d

/-- `ByteDecode_d` (Algorithm 6). -/
def ByteDecode (d : Nat) (B : List UInt8) : Nat → Nat := fun i =>
  (∑ j ∈ range d, if bitAt B (i * d + j) then 2 ^ j else 0) % decodeMod d

/-- Rounding to the nearest integer, one half up (Section 2.3). -/
def roundHalfUp (x : ℚ) : ℤ := ⌊x + 1 / 2⌋

/-- `Compress_d` (equation 4.7). -/
def Compress (d : Nat) (x : Zq) : Nat := (roundHalfUp ((2 ^ d : ℚ) / 3329 * x.val) % 2 ^ d).toNat

/-- `Decompress_d` (equation 4.8). -/
def Decompress (d : Nat) (y : Nat) : Zq := ((roundHalfUp ((3329 : ℚ) / 2 ^ d * y) : ℤ) : Zq)

/-! ## The NTT (Section 4.3) -/

/-- The primitive 256-th root of unity. -/
def ζ : Zq := 17

/-- `BitRev_7`. -/
def bitRev7 (i : Nat) : Nat := ∑ k ∈ range 7, if i.testBit k then 2 ^ (6 - k) else 0

/-- `ζ^(2 BitRev_7(i) + 1)`. -/
def γ (i : Nat) : Zq := ζ ^ (2 * bitRev7 i + 1)

/-- The NTT: entries `2i` and `2i+1` are the two coefficients of `f mod (X^2 - γ i)` (equation 4.12), written out with `X^(2j) = (γ i)^j`. -/
def NTT (f : Poly) : Poly := fun n => ∑ j ∈ range 128, f (2 * j + n % 2) * γ (n / 2) ^ j

/-- The inverse NTT: `128^(-1) = 3303`. -/
def NTTInv (g : Poly) : Poly := fun n => 3303 * ∑ i ∈ range 128, g (2 * i + n % 2) * ((γ i)⁻¹) ^ (n / 2)

/-- `MultiplyNTTs` (Algorithms 11 and 12). -/
def MultiplyNTTs (f g : Poly) : Poly := fun n =>
  if n % 2 = 0 then f n * g n + f (n + 1) * g (n + 1) * γ (n / 2)
  else f (n - 1) * g n + f n * g (n - 1)

/-- Product in `R_q = Z_q[X]/(X^256 + 1)`. -/
def mulRq (f g : Poly) : Poly := fun n =>
  ∑ i ∈ range 256, if i ≤ n then f i * g (n - i) else -(f i * g (256 + n - i))

/-! ## Sampling (Section 4.2.2) -/

/-- `SamplePolyCBD_η` (Algorithm 8). -/
def SamplePolyCBD (η : Nat) (B : List UInt8) : Poly := fun i =>
  (∑ j ∈ range η, if bitAt B (2 * i * η + j) then 1 else 0) - ∑ j ∈ range η, if bitAt B (2 * i * η + η + j) then 1 else 0

/-- The loop of `SampleNTT` (Algorithm 7) on the output of the XOF, three bytes at a time; `a` are the entries found so far. It ends early when the byte string
ends. -/
def sampleLoop : List UInt8 → List Zq → List Zq
  | c0 :: c1 :: c2 :: rest, a =>
    if a.length < 256 then
      let d1 := c0.toNat + 256 * (c1.toNat % 16)
      let d2 := c1.toNat / 16 + 16 * c2.toNat
      let a := if d1 < 3329 then a ++ [(d1 : Zq)] else a
      let a := if d2 < 3329 ∧ a.length < 256 then a ++ [(d2 : Zq)] else a
      sampleLoop rest a
    else a
  | _, a => a

/-- `SampleNTT` on the first `n` bytes of the XOF output for seed `B`; `none` if these do not suffice. -/
def SampleNTT (n : Nat) (B : List UInt8) : Option Poly :=
  let a := sampleLoop (SHAKE128 B n) []
  if a.length = 256 then some (fun i => a.getD i 0) else none

/-! ## Hash functions (Section 4.1) -/

/-- equation 4.3 -/
def PRF (η : Nat) (s : List UInt8) (b : Nat) : List UInt8 := SHAKE256 (s ++ [UInt8.ofNat b]) (64 * η)
/-- equation 4.4 -/
def H (s : List UInt8) : List UInt8 := SHA3_256 s
/-- equation 4.4 -/
def J (s : List UInt8) : List UInt8 := SHAKE256 s 32
/-- equation 4.5 -/
def G (s : List UInt8) : List UInt8 × List UInt8 := ((SHA3_512 s).take 32, (SHA3_512 s).drop 32)

/-! ## Parameter sets (Section 8), indexed by `k ∈ {2, 3, 4}` -/

/-- `η₁` -/
def η₁ (k : Nat) : Nat := if k = 2 then 3 else 2
/-- `η₂` -/
def η₂ : Nat := 2
/-- `d_u` -/
def d_u (k : Nat) : Nat := if k = 4 then 11 else 10
/-- `d_v` -/
def d_v (k : Nat) : Nat := if k = 4 then 5 else 4

/-! ## K-PKE (Section 5).  `n` is the number of XOF bytes spent on each matrix entry; FIPS 203 sets no limit. -/

/-- The matrix `Â[i][j] = SampleNTT(ρ ‖ j ‖ i)`. -/
def sampleA (k n : Nat) (ρ : List UInt8) : Option (Nat → Nat → Poly) :=
  if ∀ i < k, ∀ j < k, (SampleNTT n (ρ ++ [UInt8.ofNat j, UInt8.ofNat i])).isSome then
    some fun i j => (SampleNTT n (ρ ++ [UInt8.ofNat j, UInt8.ofNat i])).getD 0
  else none

/-- Concatenated `ByteEncode_12` of `k` polynomials. -/
def encode12 (k : Nat) (v : Nat → Poly) : List UInt8 := (List.range k).flatMap fun i => ByteEncode 12 fun c => (v i c).val

/-- `ByteDecode_12` of the `i`-th block of 384 bytes, as elements of `Z_q`. -/
def decode12 (B : List UInt8) (i : Nat) : Poly := fun c => (ByteDecode 12 ((B.drop (384 * i)).take 384) c : Zq)

/-- Algorithm 13, K-PKE.KeyGen. -/
def kpkeKeyGen (k n : Nat) (d : List UInt8) : Option (List UInt8 × List UInt8) :=
  let ρ := (G (d ++ [UInt8.ofNat k])).1
  let σ := (G (d ++ [UInt8.ofNat k])).2
  (sampleA k n ρ).map fun A =>
    let s := fun i => SamplePolyCBD (η₁ k) (PRF (η₁ k) σ i)
    let e := fun i => SamplePolyCBD (η₁ k) (PRF (η₁ k) σ (k + i))
    let t := fun i c => (∑ j ∈ range k, MultiplyNTTs (A i j) (NTT (s j)) c) + NTT (e i) c
    (encode12 k t ++ ρ, encode12 k fun i => NTT (s i))

/-- Algorithm 14, K-PKE.Encrypt. -/
def kpkeEncrypt (k n : Nat) (ek m r : List UInt8) : Option (List UInt8) :=
  let t := decode12 ek
  let ρ := (ek.drop (384 * k)).take 32
  (sampleA k n ρ).map fun A =>
    let y := fun i => SamplePolyCBD (η₁ k) (PRF (η₁ k) r i)
    let e1 := fun i => SamplePolyCBD η₂ (PRF η₂ r (k + i))
    let e2 := SamplePolyCBD η₂ (PRF η₂ r (2 * k))
    let u := fun i c => NTTInv (fun c => ∑ j ∈ range k, MultiplyNTTs (A j i) (NTT (y j)) c) c + e1 i c
    let μ := fun c => Decompress 1 (ByteDecode 1 m c)
    let v := fun c => NTTInv (fun c => ∑ j ∈ range k, MultiplyNTTs (t j) (NTT (y j)) c) c + e2 c + μ c
    ((List.range k).flatMap fun i => ByteEncode (d_u k) fun c => Compress (d_u k) (u i c))
      ++ ByteEncode (d_v k) fun c => Compress (d_v k) (v c)

/-- The `i`-th polynomial `u'[i]` of a ciphertext (Algorithm 15, lines 1 and 3). -/
def ctU (k : Nat) (c : List UInt8) (i : Nat) : Poly := fun n =>
  Decompress (d_u k) (ByteDecode (d_u k) ((c.drop (32 * d_u k * i)).take (32 * d_u k)) n)

/-- The polynomial `v'` of a ciphertext (Algorithm 15, lines 2 and 4). -/
def ctV (k : Nat) (c : List UInt8) : Poly := fun n =>
  Decompress (d_v k) (ByteDecode (d_v k) ((c.drop (32 * d_u k * k)).take (32 * d_v k)) n)

/-- The polynomial `w` of Algorithm 15, line 6. -/
def decryptW (k : Nat) (dk c : List UInt8) : Poly := fun n =>
  ctV k c n - NTTInv (fun p => ∑ j ∈ range k, MultiplyNTTs (decode12 dk j) (NTT (ctU k c j)) p) n

/-- Algorithm 15, K-PKE.Decrypt. -/
def kpkeDecrypt (k : Nat) (dk c : List UInt8) : List UInt8 := ByteEncode 1 fun n => Compress 1 (decryptW k dk c n)

/-! ## ML-KEM (Sections 6 and 7) -/

/-- Algorithm 16, ML-KEM.KeyGen_internal. -/
def KeyGen_internal (k n : Nat) (d z : List UInt8) : Option (List UInt8 × List UInt8) :=
  (kpkeKeyGen k n d).map fun p => (p.1, p.2 ++ p.1 ++ H p.1 ++ z)

/-- Algorithm 17, ML-KEM.Encaps_internal: shared secret and ciphertext. -/
def Encaps_internal (k n : Nat) (ek m : List UInt8) : Option (List UInt8 × List UInt8) :=
  (kpkeEncrypt k n ek m (G (m ++ H ek)).2).map fun c => ((G (m ++ H ek)).1, c)

/-- Algorithm 18, ML-KEM.Decaps_internal. -/
def Decaps_internal (k n : Nat) (dk c : List UInt8) : Option (List UInt8) :=
  let dkPKE := dk.take (384 * k)
  let ekPKE := (dk.drop (384 * k)).take (384 * k + 32)
  let h := (dk.drop (768 * k + 32)).take 32
  let z := (dk.drop (768 * k + 64)).take 32
  let m' := kpkeDecrypt k dkPKE c
  let Kr := G (m' ++ h)
  let Kbar := J (z ++ c)
  (kpkeEncrypt k n ekPKE m' Kr.2).map fun c' => if c ≠ c' then Kbar else Kr.1

/-- The modulus check of Section 7.2 on an encapsulation key. -/
def modulusCheck (k : Nat) (ek : List UInt8) : Prop :=
  encode12 k (decode12 ek) = ek.take (384 * k)

/-- The hash check of Section 7.3 on a decapsulation key. -/
def hashCheck (k : Nat) (dk : List UInt8) : Prop :=
  H ((dk.drop (384 * k)).take (384 * k + 32)) = (dk.drop (768 * k + 32)).take 32

end Verif.Spec

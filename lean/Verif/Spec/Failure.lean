import Verif.Spec.Fips203
/-! # K-PKE with the noise as an input (FIPS 203, Algorithms 13 to 15; no code mentioned)

FIPS 203 draws all noise polynomials from pseudorandom bytes.  Here the bytes are an input, so that one can count for how many of them a decryption goes wrong. -/
open Finset
namespace Verif.Spec

/-- The bytes from which `SamplePolyCBD` makes the noise of one key generation and one encryption. -/
structure NoiseBytes (k : Nat) where
  s : Fin k → Fin (64 * η₁ k) → UInt8
  e : Fin k → Fin (64 * η₁ k) → UInt8
  y : Fin k → Fin (64 * η₁ k) → UInt8
  e1 : Fin k → Fin (64 * η₂) → UInt8
  e2 : Fin (64 * η₂) → UInt8

/-- The noise polynomials of one key generation and one encryption. -/
structure Noise where
  s : Nat → Poly
  e : Nat → Poly
  y : Nat → Poly
  e1 : Nat → Poly
  e2 : Poly

/-- The polynomials made from the bytes. -/
def NoiseBytes.polys {k : Nat} (b : NoiseBytes k) : Noise where
  s i := if h : i < k then SamplePolyCBD (η₁ k) (List.ofFn (b.s ⟨i, h⟩)) else 0
  e i := if h : i < k then SamplePolyCBD (η₁ k) (List.ofFn (b.e ⟨i, h⟩)) else 0
  y i := if h : i < k then SamplePolyCBD (η₁ k) (List.ofFn (b.y ⟨i, h⟩)) else 0
  e1 i := if h : i < k then SamplePolyCBD η₂ (List.ofFn (b.e1 ⟨i, h⟩)) else 0
  e2 := SamplePolyCBD η₂ (List.ofFn b.e2)

/-- The bytes which FIPS 203 takes for seed `d` and encryption randomness `r`: outputs of PRF for the counters `0 … 2k-1` and `0 … 2k`. -/
def NoiseBytes.ofSeeds (k : Nat) (d r : List UInt8) : NoiseBytes k where
  s i j := (PRF (η₁ k) (G (d ++ [UInt8.ofNat k])).2 i).getD j 0
  e i j := (PRF (η₁ k) (G (d ++ [UInt8.ofNat k])).2 (k + i)).getD j 0
  y i j := (PRF (η₁ k) r i).getD j 0
  e1 i j := (PRF η₂ r (k + i)).getD j 0
  e2 j := (PRF η₂ r (2 * k)).getD j 0

namespace Noise
variable (k : Nat) (A : Nat → Nat → Poly) (m : List UInt8) (N : Noise)

/-- Public vector in the NTT domain (Algorithm 13, line 18). -/
def t (i : Nat) : Poly := fun c => (∑ j ∈ range k, MultiplyNTTs (A i j) (NTT (N.s j)) c) + NTT (N.e i) c
/-- Algorithm 14, line 19. -/
def u (i : Nat) : Poly := fun c => NTTInv (fun c => ∑ j ∈ range k, MultiplyNTTs (A j i) (NTT (N.y j)) c) c + N.e1 i c
/-- Algorithm 14, line 21. -/
def v : Poly := fun c => NTTInv (fun c => ∑ j ∈ range k, MultiplyNTTs (N.t k A j) (NTT (N.y j)) c) c + N.e2 c + Decompress 1 (ByteDecode 1 m c)
/-- The first part of the ciphertext after compression and decompression (Algorithm 14, line 22, and Algorithm 15, line 3). -/
def u' (i : Nat) : Poly := fun c => Decompress (d_u k) (Compress (d_u k) (N.u k A i c))
/-- The second part of the ciphertext after compression and decompression (Algorithm 14, line 23, and Algorithm 15, line 4). -/
def v' : Poly := fun c => Decompress (d_v k) (Compress (d_v k) (N.v k A m c))
/-- The bits which decryption computes (Algorithm 15, lines 6 and 7). -/
def decrypted (c : Nat) : Nat :=
  Compress 1 (N.v' k A m c - NTTInv (fun p => ∑ j ∈ range k, MultiplyNTTs (NTT (N.s j)) (NTT (N.u' k A j)) p) c)
/-- Decryption gives a wrong message. -/
def Wrong : Prop := ∃ c, c < 256 ∧ N.decrypted k A m c ≠ if bitAt m c then 1 else 0

end Noise
end Verif.Spec

import Verif.Spec.Fips203
/-! # The decryption noise of an honest run (FIPS 203 K-PKE, no code mentioned)

All quantities are functions of the key-generation seed `d`, the message `m` and the encryption randomness `r`; `n` is the number of XOF bytes per matrix entry. -/
open Finset
namespace Verif.Spec
namespace Honest

/-- Secret vector (Algorithm 13, line 10). -/
def s (k : Nat) (d : List UInt8) (i : Nat) : Poly := SamplePolyCBD (η₁ k) (PRF (η₁ k) (G (d ++ [UInt8.ofNat k])).2 i)
/-- Error vector of the public key (Algorithm 13, line 14). -/
def e (k : Nat) (d : List UInt8) (i : Nat) : Poly := SamplePolyCBD (η₁ k) (PRF (η₁ k) (G (d ++ [UInt8.ofNat k])).2 (k + i))
/-- Matrix in the NTT domain (Algorithm 13, line 5). -/
def A (k n : Nat) (d : List UInt8) (i j : Nat) : Poly := (SampleNTT n ((G (d ++ [UInt8.ofNat k])).1 ++ [UInt8.ofNat j, UInt8.ofNat i])).getD 0
/-- Public vector in the NTT domain (Algorithm 13, line 18). -/
def t (k n : Nat) (d : List UInt8) (i : Nat) : Poly := fun c => (∑ j ∈ range k, MultiplyNTTs (A k n d i j) (NTT (s k d j)) c) + NTT (e k d i) c
/-- Ephemeral secret (Algorithm 14, line 10). -/
def y (k : Nat) (r : List UInt8) (i : Nat) : Poly := SamplePolyCBD (η₁ k) (PRF (η₁ k) r i)
/-- First error vector (Algorithm 14, line 14). -/
def e1 (k : Nat) (r : List UInt8) (i : Nat) : Poly := SamplePolyCBD η₂ (PRF η₂ r (k + i))
/-- Second error (Algorithm 14, line 17). -/
def e2 (k : Nat) (r : List UInt8) : Poly := SamplePolyCBD η₂ (PRF η₂ r (2 * k))
/-- The encoded message (Algorithm 14, line 20). -/
def μ (m : List UInt8) : Poly := fun c => Decompress 1 (ByteDecode 1 m c)
/-- First part of the ciphertext before compression (Algorithm 14, line 19). -/
def u (k n : Nat) (d r : List UInt8) (i : Nat) : Poly := fun c => NTTInv (fun c => ∑ j ∈ range k, MultiplyNTTs (A k n d j i) (NTT (y k r j)) c) c + e1 k r i c
/-- Second part of the ciphertext before compression (Algorithm 14, line 21). -/
def v (k n : Nat) (d m r : List UInt8) : Poly := fun c => NTTInv (fun c => ∑ j ∈ range k, MultiplyNTTs (t k n d j) (NTT (y k r j)) c) c + e2 k r c + μ m c
/-- What compression adds to `u`. -/
def cu (k n : Nat) (d r : List UInt8) (i : Nat) : Poly := fun c => Decompress (d_u k) (Compress (d_u k) (u k n d r i c)) - u k n d r i c
/-- What compression adds to `v`. -/
def cv (k n : Nat) (d m r : List UInt8) : Poly := fun c => Decompress (d_v k) (Compress (d_v k) (v k n d m r c)) - v k n d m r c

/-- The decryption noise `e·y + e₂ + c_v - s·(e₁ + c_u)`, with products in `Z_q[X]/(X^256 + 1)`. -/
def noise (k n : Nat) (d m r : List UInt8) : Poly := fun c =>
  (∑ i ∈ range k, mulRq (e k d i) (y k r i) c) + e2 k r c + cv k n d m r c
    - ∑ i ∈ range k, mulRq (s k d i) (fun c => e1 k r i c + cu k n d r i c) c

end Honest
end Verif.Spec

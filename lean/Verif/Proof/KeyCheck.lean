import Verif.Proof.Kem
import Verif.Props.Common
/-! # Key checks: canonical encodings -/
namespace Verif
open Model Spec Finset Props

attribute [local irreducible] keccakF partialK finK blocksK sqByte SHAKE256 SHA3_256 SHA3_512 SHAKE128

theorem encByte_decNum (d : Nat) (hd : 0 < d) (B : Nat → UInt8) (k : Nat) : encByte d (decNum d B) k = B k := by
  unfold encByte
  symm
  apply eq_byteOf
  intro t ht
  unfold decNum
  rw [testBit_ofBits]
  have : (8 * k + t) % d < d := Nat.mod_lt _ hd
  simp only [this, decide_true, Bool.true_and]
  unfold fbit
  rw [show (8 * k + t) / d * d + (8 * k + t) % d = 8 * k + t by rw [Nat.mul_comm]; exact Nat.div_add_mod _ _, show (8 * k + t) / 8 = k by omega, show (8 * k + t) % 8 = t by omega]

theorem decNum_encByte (d : Nat) (hd : 0 < d) {f : Nat → Nat} {c : Nat} (hf : f c < 2 ^ d) : decNum d (encByte d f) c = f c := by
  unfold decNum
  symm
  apply eq_ofBits hf
  intro j hj
  unfold fbit encByte
  rw [testBit_byteOf _ (by omega), show 8 * ((c * d + j) / 8) + (c * d + j) % 8 = c * d + j by omega]
  rw [show (c * d + j) / d = c by rw [Nat.mul_comm, Nat.mul_add_div hd, Nat.div_eq_of_lt hj]; omega, show (c * d + j) % d = j by rw [Nat.mul_comm, Nat.mul_add_mod, Nat.mod_eq_of_lt hj]]

theorem encode12_getD {K : Nat} (v : Nat → Spec.Poly) {n : Nat} (hn : n < K * 384) : (encode12 K v).getD n 0 = encByte 12 (fun c => (v (n / 384) c).val) (n % 384) := by
  unfold encode12
  rw [flatMap_getD (L := 384) (fun i => ByteEncode_length _ _) hn, ByteEncode_getD' _ _ (by omega)]

/-- Decoding an encoded vector. -/
theorem decode12_encode12 {K : Nat} (v : Nat → Spec.Poly) (tail : List UInt8) {i c : Nat} (hi : i < K) (hc : c < 256) : decode12 (encode12 K v ++ tail) i c = v i c := by
  have hle : i * 384 + 384 ≤ K * 384 := by rw [← Nat.succ_mul]; exact Nat.mul_le_mul_right _ hi
  rw [decode12_eq _ i hc]
  have h1 : decNum 12 (fun j => (encode12 K v ++ tail).getD (i * 384 + j) 0) c = decNum 12 (encByte 12 (fun c => (v i c).val)) c := by
    refine decNum_congr (fun k hk => ?_) hc
    rw [getD_append_left' _ _ (by rw [encode12_length]; omega), encode12_getD v (by omega), show (i * 384 + k) / 384 = i by omega, show (i * 384 + k) % 384 = k by omega]
  rw [h1, decNum_encByte 12 (by omega) (by have := ZMod.val_lt (v i c); omega)]
  exact ZMod.natCast_zmod_val _

theorem encode12_congr {K : Nat} {v w : Nat → Spec.Poly} (h : ∀ i, i < K → ∀ c, c < 256 → v i c = w i c) : encode12 K v = encode12 K w := by
  apply ext_getD' (by rw [encode12_length, encode12_length])
  intro j hj
  rw [encode12_length] at hj
  rw [encode12_getD v hj, encode12_getD w hj]
  exact encByte_congr (fun c hc => by rw [h _ (Nat.div_lt_of_lt_mul (by omega)) c hc]) (by omega)

theorem modulusCheck_encode {K : Nat} (v : Nat → Spec.Poly) (tail : List UInt8) : modulusCheck K (encode12 K v ++ tail) := by
  unfold modulusCheck
  rw [List.take_left' (by rw [encode12_length, Nat.mul_comm])]
  exact encode12_congr fun i hi c hc => decode12_encode12 v tail hi hc

theorem coeff12_eq (B : List UInt8) (i : Nat) {c : Nat} (hc : c < 256) : coeff12 B (256 * i + c) = decNum 12 (fun j => B.getD (i * 384 + j) 0) c := by
  unfold coeff12 decNum
  refine ofBits_congr (d := 12) fun j hj => ?_
  unfold bitAt fbit
  rw [show (12 * (256 * i + c) + j) / 8 = i * 384 + (c * 12 + j) / 8 by omega, show (12 * (256 * i + c) + j) % 8 = (c * 12 + j) % 8 by omega]

/-- The modulus check in terms of coefficients. -/
theorem modulusCheck_iff {K : Nat} {ek : List UInt8} (hek : ek.length = K * 384 + 32) : modulusCheck K ek ↔ ∀ n, n < 256 * K → coeff12 ek n < 3329 := by
  have hval : ∀ i c, c < 256 → (decode12 ek i c).val = decNum 12 (fun j => ek.getD (i * 384 + j) 0) c % 3329 := fun i c hc => by
    rw [decode12_eq ek i hc, ZMod.val_natCast]
  unfold modulusCheck
  constructor
  · intro h n hn
    have e : n = 256 * (n / 256) + n % 256 := by omega
    have hi : n / 256 < K := Nat.div_lt_of_lt_mul hn
    rw [e, coeff12_eq ek _ (by omega)]
    -- the coefficient is read back from the reencoding, where it is reduced
    have h2 : decNum 12 (fun j => ek.getD (n / 256 * 384 + j) 0) (n % 256) = decNum 12 (encByte 12 (fun c => (decode12 ek (n / 256) c).val)) (n % 256) := by
      refine decNum_congr (fun k hk => ?_) (by omega)
      have hle : n / 256 * 384 + 384 ≤ K * 384 := by rw [← Nat.succ_mul]; exact Nat.mul_le_mul_right _ hi
      rw [← getD_take ek (384 * K) (by omega), ← h, encode12_getD _ (by omega), show (n / 256 * 384 + k) / 384 = n / 256 by omega, show (n / 256 * 384 + k) % 384 = k by omega]
    rw [h2, decNum_encByte 12 (by omega) (by have := ZMod.val_lt (decode12 ek (n / 256) (n % 256)); omega)]
    exact ZMod.val_lt _
  · intro h
    apply ext_getD' (by rw [encode12_length, List.length_take]; omega)
    intro j hj
    rw [encode12_length] at hj
    rw [encode12_getD _ hj, getD_take _ _ (by omega)]
    have : encByte 12 (fun c => (decode12 ek (j / 384) c).val) (j % 384) = encByte 12 (decNum 12 (fun k => ek.getD (j / 384 * 384 + k) 0)) (j % 384) := by
      refine encByte_congr (fun c hc => ?_) (by omega)
      have := h (256 * (j / 384) + c) (by have : j / 384 < K := Nat.div_lt_of_lt_mul (by omega)
                                          omega)
      rw [coeff12_eq ek _ hc] at this
      rw [hval _ _ hc, Nat.mod_eq_of_lt this]
    rw [this, encByte_decNum 12 (by omega), show j / 384 * 384 + j % 384 = j by omega]

end Verif

import Verif.Sem
import Verif.Spec.Fips203
/-! # Bits and bytes -/
open Finset
namespace Verif
open Spec

/-- The number with bits `b 0 .. b (d-1)`. -/
def ofBits (d : Nat) (b : Nat → Bool) : Nat := ∑ j ∈ range d, if b j then 2 ^ j else 0

theorem ofBits_lt (d : Nat) (b : Nat → Bool) : ofBits d b < 2 ^ d := by
  induction d with
  | zero => simp [ofBits]
  | succ d ih =>
    unfold ofBits at *
    rw [sum_range_succ, pow_succ]
    split <;> omega

theorem testBit_ofBits (d : Nat) (b : Nat → Bool) (i : Nat) : (ofBits d b).testBit i = (decide (i < d) && b i) := by
  induction d with
  | zero => simp [ofBits]
  | succ d ih =>
    have hlt := ofBits_lt d b
    have hs : ofBits (d + 1) b = (if b d then 2 ^ d else 0) + ofBits d b := by
      unfold ofBits; rw [sum_range_succ, Nat.add_comm]
    rw [hs]
    by_cases hb : b d
    · simp only [hb, if_true]
      rcases Nat.lt_trichotomy i d with h | h | h
      · rw [Nat.testBit_two_pow_add_gt h, ih]; simp [h, Nat.lt_succ_of_lt h]
      · subst h; rw [Nat.testBit_two_pow_add_eq, ih]; simp [hb]
      · have : 2 ^ d + ofBits d b < 2 ^ i := by
          calc 2 ^ d + ofBits d b < 2 ^ (d + 1) := by rw [pow_succ]; omega
            _ ≤ 2 ^ i := Nat.pow_le_pow_right (by omega) h
        rw [Nat.testBit_lt_two_pow this]; simp; omega
    · simp only [hb]
      rw [if_neg (by simp), Nat.zero_add, ih]
      by_cases hid : i = d
      · subst hid; simp at hb; simp [hb]
      · by_cases h : i < d
        · simp [h, Nat.lt_succ_of_lt h]
        · simp [h, show ¬ i < d + 1 by omega]

theorem eq_ofBits {d x : Nat} {b : Nat → Bool} (hx : x < 2 ^ d) (h : ∀ j, j < d → x.testBit j = b j) : x = ofBits d b := by
  apply Nat.eq_of_testBit_eq
  intro i
  rw [testBit_ofBits]
  by_cases hi : i < d
  · simp [hi, h i hi]
  · rw [Nat.testBit_lt_two_pow (lt_of_lt_of_le hx (Nat.pow_le_pow_right (by omega) (by omega)))]; simp [hi]

theorem ofBits_congr {d : Nat} {b c : Nat → Bool} (h : ∀ j, j < d → b j = c j) : ofBits d b = ofBits d c :=
  sum_congr rfl fun j hj => by rw [h j (mem_range.mp hj)]

theorem byteOf_eq (b : Nat → Bool) : byteOf b = UInt8.ofNat (ofBits 8 b) := by
  unfold byteOf ofBits
  congr 1

theorem byteOf_toNat (b : Nat → Bool) : (byteOf b).toNat = ofBits 8 b := by
  rw [byteOf_eq, UInt8.toNat_ofNat']
  have := ofBits_lt 8 b
  omega

theorem testBit_byteOf (b : Nat → Bool) {t : Nat} (ht : t < 8) : (byteOf b).toNat.testBit t = b t := by
  rw [byteOf_toNat, testBit_ofBits]; simp [ht]

theorem toU8_toNat (x : Nat) : (toU8 x).toNat = x % 256 := by
  unfold toU8; rw [UInt8.toNat_ofNat']

theorem toU8_eq_byteOf {x : Nat} {b : Nat → Bool} (h : ∀ t, t < 8 → x.testBit t = b t) : toU8 x = byteOf b := by
  apply UInt8.toNat_inj.mp
  rw [byteOf_toNat, toU8_toNat]
  apply eq_ofBits (by omega)
  intro j hj
  rw [show 256 = 2 ^ 8 from rfl, Nat.testBit_mod_two_pow]; simp [hj, h j hj]

theorem byteOf_congr {b c : Nat → Bool} (h : ∀ t, t < 8 → b t = c t) : byteOf b = byteOf c := by
  rw [byteOf_eq, byteOf_eq, ofBits_congr h]

/-- A byte is determined by its bits. -/
theorem eq_byteOf {x : UInt8} {b : Nat → Bool} (h : ∀ t, t < 8 → x.toNat.testBit t = b t) : x = byteOf b := by
  apply UInt8.toNat_inj.mp
  rw [byteOf_toNat]
  exact eq_ofBits (UInt8.toNat_lt x) h

theorem testBit_of_lt {x n t : Nat} (h : x < 2 ^ n) (ht : n ≤ t) : x.testBit t = false :=
  Nat.testBit_lt_two_pow (lt_of_lt_of_le h (Nat.pow_le_pow_right (by omega) ht))

theorem uint8_testBit_ge (x : UInt8) {t : Nat} (ht : 8 ≤ t) : x.toNat.testBit t = false :=
  testBit_of_lt (n := 8) (UInt8.toNat_lt x) ht

/-- `ByteDecode` through `ofBits`. -/
theorem ByteDecode_eq (d : Nat) (B : List UInt8) (i : Nat) :
    ByteDecode d B i = ofBits d (fun j => bitAt B (i * d + j)) % decodeMod d := rfl

@[simp] theorem ByteEncode_length (d : Nat) (F : Nat → Nat) : (ByteEncode d F).length = 32 * d := by
  simp [ByteEncode]

theorem ByteEncode_getD (d : Nat) (F : Nat → Nat) {k : Nat} (hk : k < 32 * d) :
    (ByteEncode d F).getD k 0 = byteOf fun t => (F ((8 * k + t) / d)).testBit ((8 * k + t) % d) := by
  simp [ByteEncode, List.getD, hk]

theorem bitAt_ByteEncode (d : Nat) (hd : 0 < d) (F : Nat → Nat) {n : Nat} (hn : n < 256 * d) :
    bitAt (ByteEncode d F) n = (F (n / d)).testBit (n % d) := by
  unfold bitAt
  rw [ByteEncode_getD d F (by omega), testBit_byteOf _ (by omega)]
  rw [show 8 * (n / 8) + n % 8 = n by omega]

theorem ByteEncode_congr {d : Nat} {F F' : Nat → Nat} (h : ∀ i, i < 256 → F i = F' i) : ByteEncode d F = ByteEncode d F' := by
  unfold ByteEncode
  apply List.map_congr_left
  intro k hk
  rw [List.mem_range] at hk
  apply byteOf_congr
  intro t ht
  rw [h]
  apply Nat.div_lt_of_lt_mul
  rw [Nat.mul_comm]; omega

/-- Decoding inverts encoding, up to the modulus. -/
theorem ByteDecode_ByteEncode (d : Nat) (hd : 0 < d) (F : Nat → Nat) (hF : ∀ i, i < 256 → F i < 2 ^ d) {i : Nat} (hi : i < 256) :
    ByteDecode d (ByteEncode d F) i = F i % decodeMod d := by
  rw [ByteDecode_eq]
  congr 1
  symm
  apply eq_ofBits (hF i hi)
  intro j hj
  have h1 : i * d + j < 256 * d := by
    calc i * d + j < i * d + d := by omega
      _ = (i + 1) * d := by rw [Nat.add_mul, Nat.one_mul]
      _ ≤ 256 * d := Nat.mul_le_mul_right _ (by omega)
  rw [bitAt_ByteEncode d hd F h1]
  rw [show (i * d + j) / d = i by rw [Nat.mul_comm, Nat.mul_add_div hd, Nat.div_eq_of_lt hj]; rfl]
  rw [show (i * d + j) % d = j by rw [Nat.mul_comm, Nat.mul_add_mod, Nat.mod_eq_of_lt hj]]

end Verif

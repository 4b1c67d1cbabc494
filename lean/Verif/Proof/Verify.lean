import Verif.Proof.Reduce
import Verif.Proof.Bits
import Verif.Model.Verify
/-! # Constant-time helpers -/
namespace Verif
open Model

theorem shr_16 (n : Nat) : n >>> 16 = n / 65536 := Nat.shiftRight_eq_div_pow n 16
theorem shr_24 (n : Nat) : n >>> 24 = n / 16777216 := Nat.shiftRight_eq_div_pow n 24

theorem ct_cmask_nonzero_u16_eq (x : Nat) (hx : x < 65536) : ct_cmask_nonzero_u16 x = if x = 0 then 0 else 65535 := by
  unfold ct_cmask_nonzero_u16 value_barrier neg32 u32
  simp only [shr_16]
  split <;> omega

theorem ct_cmask_nonzero_u8_eq (x : UInt8) : ct_cmask_nonzero_u8 x = if x = 0 then 0 else 255 := by
  unfold ct_cmask_nonzero_u8 value_barrier neg32 u32 toU8
  have hx := UInt8.toNat_lt x
  simp only [shr_24]
  by_cases h : x = 0
  · subst h; decide
  · rw [if_neg h]
    have h0 : x.toNat ≠ 0 := fun h0 => h (UInt8.toNat_inj.mp (by simpa using h0))
    rw [show (4294967296 - x.toNat % 4294967296) % 4294967296 / 16777216 = 255 by omega]
    rfl

theorem ct_cmask_neg_i16_eq (x : Int) (hx : -32768 ≤ x ∧ x ≤ 32767) : ct_cmask_neg_i16 x = if x < 0 then 65535 else 0 := by
  unfold ct_cmask_neg_i16 value_barrier u16
  simp only [shr16]
  split <;> omega

theorem u16_lt (x : Int) : u16 x < 65536 := by unfold u16; omega

theorem cast_u16 (x : Int) (hx : -32768 ≤ x ∧ x ≤ 32767) : cast_uint16_to_int16 (u16 x) = x := by
  unfold cast_uint16_to_int16 u16
  split <;> omega

theorem ct_sel_int16_eq (a b : Int) (c : Nat) (ha : -32768 ≤ a ∧ a ≤ 32767) (hb : -32768 ≤ b ∧ b ≤ 32767) (hc : c < 65536) :
    ct_sel_int16 a b c = if c ≠ 0 then a else b := by
  unfold ct_sel_int16
  simp only [ct_cmask_nonzero_u16_eq c hc]
  by_cases h : c = 0
  · simp [h, cast_u16 b hb]
  · have hx : u16 a ^^^ u16 b < 2 ^ 16 := Nat.xor_lt_two_pow (u16_lt a) (u16_lt b)
    have : 65535 &&& (u16 a ^^^ u16 b) = u16 a ^^^ u16 b := by
      rw [Nat.and_comm, Nat.and_two_pow_sub_one_eq_mod _ 16, Nat.mod_eq_of_lt hx]
    simp only [h, if_false, this, ne_eq, not_false_eq_true, if_true]
    rw [Nat.xor_comm (u16 a), ← Nat.xor_assoc, Nat.xor_self, Nat.zero_xor, cast_u16 a ha]

theorem ct_sel_uint8_eq (a b c : UInt8) : ct_sel_uint8 a b c = if c ≠ 0 then a else b := by
  unfold ct_sel_uint8
  rw [ct_cmask_nonzero_u8_eq]
  by_cases h : c = 0
  · simp [h]
  · simp only [h, if_false, ne_eq, not_false_eq_true, if_true]
    apply UInt8.toBitVec_inj.mp
    simp only [UInt8.toBitVec_xor, UInt8.toBitVec_and, show UInt8.toBitVec 255 = BitVec.allOnes 8 from rfl, BitVec.allOnes_and]
    rw [BitVec.xor_comm a.toBitVec, ← BitVec.xor_assoc, BitVec.xor_self, BitVec.zero_xor]

theorem uint8_or_eq_zero (a b : UInt8) : a ||| b = 0 ↔ a = 0 ∧ b = 0 := by
  simp only [← UInt8.toBitVec_inj, UInt8.toBitVec_or]
  exact BitVec.or_eq_zero_iff

theorem uint8_xor_eq_zero (a b : UInt8) : a ^^^ b = 0 ↔ a = b := by
  simp only [← UInt8.toBitVec_inj, UInt8.toBitVec_xor]
  exact BitVec.xor_eq_zero_iff

/-- Constant-time comparison: zero exactly on equal contents, and otherwise 255. -/
theorem ct_memcmp_spec {a b : Buf UInt8} {ao bo n : Nat} {f g : Nat → UInt8} (hn : n ≤ 2147483647) (ha : Seg a ao n f) (hb : Seg b bo n g) :
    Post (ct_memcmp a ao b bo n) (fun r => r = if (∀ i, i < n → f i = g i) then 0 else 255) := by
  unfold ct_memcmp
  simp only [wp_bind, wp_i32]
  refine ⟨by omega, ?_⟩
  refine wp_forN (fun i (p : UInt8 × UInt8) => (p.1 = 0 ↔ ∀ j, j < i → f j = g j)) (by simp) ?_ ?_
  · rintro i ⟨r, s⟩ hi hI
    simp only [wp_bind, wp_rd, wp_pure] at *
    refine ⟨_, ha i hi, _, hb i hi, _, ha i hi, _, hb i hi, ?_⟩
    rw [uint8_or_eq_zero, hI, uint8_xor_eq_zero]
    constructor
    · rintro ⟨h1, h2⟩ j hj
      by_cases hji : j = i
      · subst hji; exact h2
      · exact h1 j (by omega)
    · exact fun h => ⟨fun j hj => h j (by omega), h i (by omega)⟩
  · rintro ⟨r, s⟩ hI
    simp only [wp_pure] at *
    simp only [ct_cmask_nonzero_u8_eq, value_barrier]
    have key : ∀ x : UInt8, x ^^^ s ^^^ s = x := by
      intro x
      apply UInt8.toBitVec_inj.mp
      simp [BitVec.xor_assoc]
    rw [key]
    by_cases hr : r = 0
    · rw [if_pos hr, if_pos (hI.mp hr)]
    · rw [if_neg hr, if_neg (fun h => hr (hI.mpr h))]

/-- Constant-time conditional copy: the destination is overwritten exactly when `b = 0`. -/
theorem ct_cmov_zero_spec {r x : Buf UInt8} {ro xo n : Nat} {f g : Nat → UInt8} (b : UInt8) (hr : Seg r ro n f) (hx : Seg x xo n g) :
    Post (ct_cmov_zero r ro x xo n b) (fun r' => Written r r' ro n (fun i => if b = 0 then g i else f i)) := by
  unfold ct_cmov_zero
  refine wp_forN (fun i r' => Written r r' ro i (fun i => if b = 0 then g i else f i)) (Written.refl _ _ _) ?_ (fun _ h => h)
  intro i r' hi hI
  simp only [wp_bind, wp_rd, wp_wr]
  have hsz := hr.le_size (by omega)
  refine ⟨f i, ?_, g i, hx i hi, by rw [hI.1]; omega, hI.push (by omega) rfl ?_⟩
  · rw [hI.2.2 _ (by omega)]; exact hr i hi
  · rw [ct_sel_uint8_eq]; by_cases hb : b = 0 <;> simp [hb]

end Verif

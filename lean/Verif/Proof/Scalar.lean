import Verif.Proof.Verify
import Verif.Model.Poly
import Mathlib.Tactic.Ring
import Mathlib.Tactic.FieldSimp
import Mathlib.Tactic.NormNum
/-! # Compression and decompression of scalars -/
namespace Verif
open Model Spec

/-- Compression in integer arithmetic. -/
def compNat (d u : Nat) : Nat := ((2 ^ (d + 1) * u + 3329) / 6658) % 2 ^ d
/-- Decompression in integer arithmetic. -/
def decompNat (d y : Nat) : Nat := (6658 * y + 2 ^ d) / 2 ^ (d + 1)

theorem roundHalfUp_div (a b v : Nat) (hb : 0 < b) :
    roundHalfUp ((a : ℚ) / b * v) = (((2 * a * v + b) / (2 * b) : Nat) : ℤ) := by
  unfold roundHalfUp
  have hb' : (b : ℚ) ≠ 0 := by positivity
  have : (a : ℚ) / b * v + 1 / 2 = (((2 * a * v + b : ℕ) : ℤ) : ℚ) / ((2 * b : ℕ) : ℚ) := by
    push_cast
    field_simp
  rw [this, Rat.floor_intCast_div_natCast]
  push_cast
  rfl

theorem Compress_eq (d : Nat) (x : Zq) : Compress d x = compNat d x.val := by
  unfold Compress compNat
  have h := roundHalfUp_div (2 ^ d) 3329 x.val (by norm_num)
  push_cast at h
  rw [h]
  rw [pow_succ, Nat.mul_comm (2 ^ d) 2]
  norm_cast

theorem Decompress_eq (d y : Nat) : Decompress d y = (decompNat d y : Zq) := by
  unfold Decompress decompNat
  have h := roundHalfUp_div 3329 (2 ^ d) y (by positivity)
  push_cast at h
  rw [h]
  rw [pow_succ, show 2 ^ d * 2 = 2 * 2 ^ d by ring]
  norm_cast

theorem compNat_lt (d u : Nat) : compNat d u < 2 ^ d := Nat.mod_lt _ (by positivity)

theorem grid {P : Nat → Prop} (h : ∀ a, a < 58 → ∀ b, b < 58 → 58 * a + b < 3329 → P (58 * a + b)) : ∀ u, u < 3329 → P u := by
  intro u hu
  have := h (u / 58) (by omega) (u % 58) (by omega) (by omega)
  rwa [show 58 * (u / 58) + u % 58 = u by omega] at this

theorem scalar_compress_d1_eq : ∀ u, u < 3329 → scalar_compress_d1 u = compNat 1 u :=
  grid (by decide +kernel)
theorem scalar_compress_d4_eq : ∀ u, u < 3329 → scalar_compress_d4 u = compNat 4 u :=
  grid (by decide +kernel)
theorem scalar_compress_d5_eq : ∀ u, u < 3329 → scalar_compress_d5 u = compNat 5 u :=
  grid (by decide +kernel)
theorem scalar_compress_d10_eq : ∀ u, u < 3329 → scalar_compress_d10 u = compNat 10 u :=
  grid (by decide +kernel)
theorem scalar_compress_d11_eq : ∀ u, u < 3329 → scalar_compress_d11 u = compNat 11 u :=
  grid (by decide +kernel)
theorem scalar_decompress_d4_eq (u : Nat) (h : u < 16) : scalar_decompress_d4 u = decompNat 4 u := by
  unfold scalar_decompress_d4 decompNat u32
  rw [Nat.mod_eq_of_lt (a := u * 3329) (by omega), Nat.mod_eq_of_lt (a := u * 3329 + _) (by omega), Nat.mod_eq_of_lt (by omega)]; omega
theorem scalar_decompress_d5_eq (u : Nat) (h : u < 32) : scalar_decompress_d5 u = decompNat 5 u := by
  unfold scalar_decompress_d5 decompNat u32
  rw [Nat.mod_eq_of_lt (a := u * 3329) (by omega), Nat.mod_eq_of_lt (a := u * 3329 + _) (by omega), Nat.mod_eq_of_lt (by omega)]; omega
theorem scalar_decompress_d10_eq (u : Nat) (h : u < 1024) : scalar_decompress_d10 u = decompNat 10 u := by
  unfold scalar_decompress_d10 decompNat u32
  rw [Nat.mod_eq_of_lt (a := u * 3329) (by omega), Nat.mod_eq_of_lt (a := u * 3329 + _) (by omega), Nat.mod_eq_of_lt (by omega)]; omega
theorem scalar_decompress_d11_eq (u : Nat) (h : u < 2048) : scalar_decompress_d11 u = decompNat 11 u := by
  unfold scalar_decompress_d11 decompNat u32
  rw [Nat.mod_eq_of_lt (a := u * 3329) (by omega), Nat.mod_eq_of_lt (a := u * 3329 + _) (by omega), Nat.mod_eq_of_lt (by omega)]; omega

theorem decompNat_lt (d y : Nat) (hd : 0 < d) (hd' : d ≤ 11) (hy : y < 2 ^ d) : decompNat d y < 3329 := by
  unfold decompNat
  apply Nat.div_lt_of_lt_mul
  rw [pow_succ]
  have : 2 ^ d ≤ 2 ^ 11 := Nat.pow_le_pow_right (by omega) hd'
  omega

/-- `scalar_signed_to_unsigned_q`: the canonical representative. -/
theorem signed_to_unsigned_spec (c : Int) (hc : -3329 < c ∧ c < 3329) :
    Post (scalar_signed_to_unsigned_q c) (fun r => (r : Int) = c % 3329) := by
  unfold scalar_signed_to_unsigned_q
  simp only [wp_bind, wp_i16, wp_assertM, wp_pure]
  refine ⟨by omega, ?_⟩
  rw [ct_cmask_neg_i16_eq c (by omega), ct_sel_int16_eq _ _ _ (by omega) (by omega) (by split <;> omega)]
  by_cases h : c < 0
  · simp only [h, if_true]; simp [u16]; omega
  · simp only [h, if_false]; simp [u16]; omega

/-- `poly_reduce` on one coefficient. -/
theorem reduce_coeff_spec (a : Int) (ha : -32768 ≤ a ∧ a ≤ 32767) {F : Prop} {Q : Nat → Prop} (hQ : ∀ u : Nat, (u : Int) = a % 3329 → Q u) :
    PostF F (barrett_reduce a >>= fun t => scalar_signed_to_unsigned_q t) Q := by
  simp only [wp_bind]
  refine Post.use (barrett_reduce_spec a ha) fun r ⟨h1, h2, h3⟩ => ?_
  refine Post.use (signed_to_unsigned_spec r (by omega)) fun u hu => hQ u ?_
  omega

end Verif

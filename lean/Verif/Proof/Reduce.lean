import Verif.Proof.Calc
import Verif.Model.Reduce
/-! # Modular reductions: correctness and bounds -/
namespace Verif
open Model

theorem and_ffff (n : Nat) : n &&& 0xFFFF = n % 65536 := Nat.and_two_pow_sub_one_eq_mod n 16

theorem SCALAR_BOUND_wp {F : Prop} {x : Int} {b : Nat} {Q : Unit → Prop} :
    PostF F (SCALAR_BOUND x b) Q ↔ (-(b : Int) < x ∧ x < b) ∧ Q () := by
  unfold SCALAR_BOUND; simp

theorem a_reduced_eq (a : Int) : (((BitVec.ofInt 32 a) &&& 0xFFFF#32).toNat : Int) = a % 65536 := by
  rw [BitVec.toNat_and, BitVec.toNat_ofNat, show (65535 % 2 ^ 32) = 0xFFFF from rfl, and_ffff, BitVec.toNat_ofInt]
  omega

theorem shr16 (x : Int) : x >>> (16 : Nat) = x / 65536 := by
  rw [Int.shiftRight_eq_div_pow]; rfl

theorem montgomery_reduce_generic_spec (a : Int) (ha : -2038398976 < a ∧ a < 2038398976) :
    Post (montgomery_reduce_generic a) (fun r =>
      ∃ t : Int, -32768 ≤ t ∧ t ≤ 32767 ∧ 65536 * r = a - 3329 * t) := by
  unfold montgomery_reduce_generic
  have h1 := a_reduced_eq a
  generalize ((BitVec.ofInt 32 a) &&& 0xFFFF#32).toNat = ar at h1
  have har : ar < 65536 := by omega
  have h2 : (u32 (ar * QINV)) &&& 0xFFFF = (ar * 62209) % 65536 := by
    rw [and_ffff]; unfold u32 QINV; omega
  simp only [wp_bind, wp_i32, wp_i16, shr16, h2]
  generalize hai : (ar * 62209) % 65536 = ai
  have hai' : ai < 65536 := by omega
  have ht : ∃ t, cast_uint16_to_int16 ai = t ∧ -32768 ≤ t ∧ t ≤ 32767 ∧ (t - ai) % 65536 = 0 := by
    unfold cast_uint16_to_int16
    split
    · exact ⟨_, rfl, by omega, by omega, by omega⟩
    · exact ⟨_, rfl, by omega, by omega, by omega⟩
  obtain ⟨t, ht0, ht1, ht2, ht3⟩ := ht
  rw [ht0]
  have hd : (a - 3329 * t) % 65536 = 0 := by omega
  refine ⟨by omega, by omega, by omega, t, ht1, ht2, by omega⟩

/-- Montgomery reduction of `a`: `65536 * r = a - 3329 * t` with a signed 16-bit `t`. -/
theorem montgomery_reduce_spec (a : Int) (ha : -218169344 < a ∧ a < 218169344) :
    Post (montgomery_reduce a) (fun r => ∃ t : Int, -32768 ≤ t ∧ t ≤ 32767 ∧ 65536 * r = a - 3329 * t) := by
  unfold montgomery_reduce
  simp only [wp_bind, SCALAR_BOUND_wp, wp_pure]
  refine ⟨by omega, ?_⟩
  refine Post.use (montgomery_reduce_generic_spec a (by omega)) fun r ⟨t, h1, h2, h3⟩ => ?_
  exact ⟨by omega, t, h1, h2, h3⟩

/-- `fqmul`. The product bound is what every caller has. -/
theorem fqmul_spec (a b : Int) (ha : -32768 ≤ a ∧ a ≤ 32767) (hb : -1665 < b ∧ b < 1665) :
    Post (fqmul a b) (fun r => (∃ t : Int, -32768 ≤ t ∧ t ≤ 32767 ∧ 65536 * r = a * b - 3329 * t)) := by
  unfold fqmul
  have hp : -54525952 ≤ a * b ∧ a * b ≤ 54525952 := by
    have : (a*b).natAbs ≤ 32768 * 1664 := by
      rw [Int.natAbs_mul]; exact Nat.mul_le_mul (by omega) (by omega)
    omega
  simp only [wp_bind, SCALAR_BOUND_wp, wp_pure, wp_i32]
  refine ⟨by unfold HALF_Q; omega, by omega, ?_⟩
  refine Post.use (montgomery_reduce_spec (a*b) (by omega)) fun r ⟨t, h1, h2, h3⟩ => ?_
  exact ⟨by omega, t, h1, h2, h3⟩

theorem barrett_multiplier_eq : barrett_multiplier = 20159 := by decide

theorem shr26 (x : Int) : x >>> (26 : Nat) = x / 67108864 := by
  rw [Int.shiftRight_eq_div_pow]; rfl

/-- Barrett reduction returns the centered representative, for every `int16_t` input. -/
theorem barrett_reduce_spec (a : Int) (ha : -32768 ≤ a ∧ a ≤ 32767) :
    Post (barrett_reduce a) (fun r => (r - a) % 3329 = 0 ∧ -1664 ≤ r ∧ r ≤ 1664) := by
  unfold barrett_reduce
  simp only [wp_bind, wp_i32, wp_i16, shr26, barrett_multiplier_eq]
  refine ⟨by omega, by omega, by omega, by omega, by omega, by omega, by omega, by omega⟩

end Verif

namespace Verif
open Model

/-- The centered representative modulo `2^16`. -/
def cmod16 (y : Int) : Int := (y + 32768) % 65536 - 32768

/-- Montgomery reduction as a function. -/
def montR (x : Int) : Int := (x - 3329 * cmod16 (x * 62209)) / 65536

theorem montR_eq (x : Int) : 65536 * montR x = x - 3329 * cmod16 (x * 62209) := by
  unfold montR cmod16
  omega

theorem cmod16_bounds (y : Int) : -32768 ≤ cmod16 y ∧ cmod16 y ≤ 32767 := by unfold cmod16; omega

theorem montR_unique {x r t : Int} (h1 : -32768 ≤ t) (h2 : t ≤ 32767) (h : 65536 * r = x - 3329 * t) : r = montR x := by
  have h3 := montR_eq x
  have h4 := cmod16_bounds (x * 62209)
  generalize cmod16 (x * 62209) = t' at *
  omega

theorem montR_bound {x : Int} {B : Int} (h : -B ≤ x ∧ x ≤ B) : 65536 * montR x ≤ B + 109084672 ∧ -(B + 109084672) ≤ 65536 * montR x := by
  have h3 := montR_eq x
  have h4 := cmod16_bounds (x * 62209)
  omega

theorem montR_cong (x : Int) : (65536 * montR x - x) % 3329 = 0 := by
  have h3 := montR_eq x
  omega

theorem montgomery_reduce_post (a : Int) (ha : -218169344 < a ∧ a < 218169344) :
    Post (montgomery_reduce a) (fun r => r = montR a) :=
  Post.use (montgomery_reduce_spec a ha) fun _ ⟨_, h1, h2, h3⟩ => montR_unique h1 h2 h3

theorem fqmul_post (a b : Int) (ha : -32768 ≤ a ∧ a ≤ 32767) (hb : -1665 < b ∧ b < 1665) :
    Post (fqmul a b) (fun r => r = montR (a * b)) :=
  Post.use (fqmul_spec a b ha hb) fun _ ⟨_, h1, h2, h3⟩ => montR_unique h1 h2 h3

/-- The centered representative modulo `q`. -/
def cmodq (a : Int) : Int := (a + 1664) % 3329 - 1664

theorem barrett_reduce_post (a : Int) (ha : -32768 ≤ a ∧ a ≤ 32767) :
    Post (barrett_reduce a) (fun r => r = cmodq a) :=
  Post.use (barrett_reduce_spec a ha) fun r ⟨h1, h2, h3⟩ => by unfold cmodq; omega

theorem cmodq_bounds (a : Int) : -1664 ≤ cmodq a ∧ cmodq a ≤ 1664 := by unfold cmodq; omega
theorem cmodq_cong (a : Int) : (cmodq a - a) % 3329 = 0 := by unfold cmodq; omega

/-- Absolute value of a product. -/
theorem mul_bound {a b A B : Int} (ha : -A ≤ a ∧ a ≤ A) (hb : -B ≤ b ∧ b ≤ B) : -(A * B) ≤ a * b ∧ a * b ≤ A * B := by
  have hA : 0 ≤ A := by omega
  have hB : 0 ≤ B := by omega
  have h1 : (a * b).natAbs ≤ A.natAbs * B.natAbs := by
    rw [Int.natAbs_mul]; exact Nat.mul_le_mul (by omega) (by omega)
  have h2 : ((A.natAbs * B.natAbs : Nat) : Int) = A * B := by
    rw [Int.natCast_mul, Int.natAbs_of_nonneg hA, Int.natAbs_of_nonneg hB]
  omega

end Verif

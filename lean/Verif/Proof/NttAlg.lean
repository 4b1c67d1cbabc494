import Verif.Spec.Fips203
import Mathlib.Algebra.QuadraticAlgebra.Defs
import Mathlib.Algebra.BigOperators.Intervals
import Mathlib.Algebra.BigOperators.Ring.Finset
import Mathlib.Algebra.Field.ZMod
import Mathlib.Algebra.Field.GeomSum
import Mathlib.Tactic.Ring
import Mathlib.Tactic.NormNum.Prime
import Mathlib.Tactic.LinearCombination
/-! # Algebra of the NTT, at the level of the specification -/
open Finset
namespace Verif
open Spec

instance : Fact (Nat.Prime 3329) := ⟨by norm_num⟩

theorem zq_cast_eq {a b : Nat} (h : a % 3329 = b % 3329) : (a : Zq) = (b : Zq) :=
  (ZMod.natCast_eq_natCast_iff' a b 3329).mpr h

theorem γ_pow_128 (i : Nat) : γ i ^ 128 = -1 := by
  unfold γ
  rw [← pow_mul, show (2 * bitRev7 i + 1) * 128 = 256 * bitRev7 i + 128 by ring, pow_add, pow_mul]
  have h1 : ζ ^ 256 = 1 := by
    have := zq_cast_eq (a := 17 ^ 256) (b := 1) (by norm_num)
    unfold ζ; exact_mod_cast this
  have h2 : ζ ^ 128 = -1 := by
    have := zq_cast_eq (a := 17 ^ 128 + 1) (b := 0) (by norm_num)
    unfold ζ; push_cast at this
    linear_combination this
  rw [h1, h2]; simp

theorem γ_ne_zero (i : Nat) : γ i ≠ 0 := by
  intro h
  have := γ_pow_128 i
  rw [h] at this
  norm_num at this

theorem sum_range_mul_two {M : Type} [AddCommMonoid M] (F : Nat → M) (n : Nat) :
    ∑ j ∈ range (2 * n), F j = ∑ j ∈ range n, (F (2 * j) + F (2 * j + 1)) := by
  induction n with
  | zero => simp
  | succ n ih => rw [show 2 * (n + 1) = 2 * n + 1 + 1 by ring, sum_range_succ, sum_range_succ, ih, sum_range_succ, add_assoc]

/-- Product in `Z_q[X]/(X^256+1)` and evaluation at any `Y` with `Y^256 = -1`. -/
theorem eval_mulRq {S : Type} [CommRing S] (φ : Zq →+* S) (Y : S) (hY : Y ^ 256 = -1) (f g : Poly) :
    ∑ n ∈ range 256, φ (mulRq f g n) * Y ^ n = (∑ n ∈ range 256, φ (f n) * Y ^ n) * ∑ n ∈ range 256, φ (g n) * Y ^ n := by
  unfold mulRq
  simp only [map_sum, sum_mul]
  rw [sum_comm]
  apply sum_congr rfl
  intro i hi
  rw [mem_range] at hi
  rw [mul_sum]
  -- left: split n < i and i ≤ n; right: split j < 256 - i and the rest
  have hl : ∑ n ∈ range 256, φ (if i ≤ n then f i * g (n - i) else -(f i * g (256 + n - i))) * Y ^ n
      = ∑ n ∈ range i, φ (-(f i * g (256 + n - i))) * Y ^ n + ∑ j ∈ range (256 - i), φ (f i * g j) * Y ^ (i + j) := by
    conv_lhs => rw [show 256 = i + (256 - i) by omega]
    rw [sum_range_add]
    congr 1
    · apply sum_congr rfl; intro n hn; rw [mem_range] at hn
      rw [if_neg (by omega), show i + (256 - i) = 256 by omega]
    · apply sum_congr rfl; intro n hn
      rw [if_pos (by omega), show i + n - i = n by omega]
  have hr : ∑ j ∈ range 256, φ (f i) * Y ^ i * (φ (g j) * Y ^ j)
      = ∑ j ∈ range (256 - i), φ (f i) * Y ^ i * (φ (g j) * Y ^ j)
        + ∑ n ∈ range i, φ (f i) * Y ^ i * (φ (g (256 - i + n)) * Y ^ (256 - i + n)) := by
    conv_lhs => rw [show 256 = (256 - i) + i by omega]
    rw [sum_range_add]
  rw [hl, hr, add_comm]
  congr 1
  · apply sum_congr rfl; intro j _; rw [map_mul, pow_add]; ring
  · apply sum_congr rfl; intro n hn
    rw [mem_range] at hn
    rw [show 256 + n - i = 256 - i + n by omega, map_neg, map_mul]
    have : Y ^ i * Y ^ (256 - i + n) = - Y ^ n := by
      rw [← pow_add, show i + (256 - i + n) = 256 + n by omega, pow_add, hY]; ring
    linear_combination (-(φ (f i) * φ (g (256 - i + n)))) * this

/-- The ring `Z_q[X]/(X^2 - γ i)`. -/
abbrev T (i : Nat) := QuadraticAlgebra Zq (γ i) 0

def om (i : Nat) : T i := ⟨0, 1⟩

theorem om_sq (i : Nat) : om i ^ 2 = QuadraticAlgebra.C (γ i) := by
  rw [pow_two]
  apply QuadraticAlgebra.ext <;> simp [om]

theorem om_even (i j : Nat) : om i ^ (2 * j) = QuadraticAlgebra.C (γ i ^ j) := by
  rw [pow_mul, om_sq, QuadraticAlgebra.C_pow]

theorem om_odd (i j : Nat) : om i ^ (2 * j + 1) = QuadraticAlgebra.C (γ i ^ j) * om i := by
  rw [pow_succ, om_even]

/-- Evaluation of a polynomial at `X mod (X^2 - γ i)` gives entries `2i` and `2i+1` of the NTT. -/
theorem eval_om (i : Nat) (f : Poly) :
    ∑ n ∈ range 256, algebraMap Zq (T i) (f n) * om i ^ n = (⟨NTT f (2 * i), NTT f (2 * i + 1)⟩ : T i) := by
  rw [show 256 = 2 * 128 from rfl, sum_range_mul_two]
  unfold NTT
  rw [show (2 * i) % 2 = 0 by omega, show (2 * i + 1) % 2 = 1 by omega, show 2 * i / 2 = i by omega, show (2 * i + 1) / 2 = i by omega]
  generalize 128 = m
  induction m with
  | zero => simp; rfl
  | succ m ih =>
    rw [sum_range_succ, ih, sum_range_succ, sum_range_succ, om_even, om_odd]
    generalize γ i ^ m = x
    apply QuadraticAlgebra.ext <;> simp [om]

/-- The NTT turns products in `R_q` into `MultiplyNTTs`. -/
theorem NTT_mulRq (f g : Poly) (n : Nat) : NTT (mulRq f g) n = MultiplyNTTs (NTT f) (NTT g) n := by
  have hom : om (n / 2) ^ 256 = -1 := by
    rw [show 256 = 2 * 128 from rfl, om_even, γ_pow_128, QuadraticAlgebra.C_neg, QuadraticAlgebra.C_one]
  have h := eval_mulRq (algebraMap Zq (T (n / 2))) (om (n / 2)) hom f g
  rw [eval_om, eval_om, eval_om, QuadraticAlgebra.mk_mul_mk] at h
  have h1 := congrArg QuadraticAlgebra.re h
  have h2 := congrArg QuadraticAlgebra.im h
  simp only at h1 h2
  unfold MultiplyNTTs
  rcases Nat.mod_two_eq_zero_or_one n with hn | hn
  · rw [if_pos hn]
    rw [show 2 * (n / 2) = n by omega] at h1
    rw [h1]; ring
  · rw [if_neg (by omega)]
    rw [show 2 * (n / 2) + 1 = n by omega, show 2 * (n / 2) = n - 1 by omega] at h2
    rw [h2]; ring

theorem bitRev7_lt (i : Nat) : bitRev7 i < 128 := by
  unfold bitRev7
  have : ∀ k ∈ range 7, (if i.testBit k then 2 ^ (6 - k) else 0) ≤ 2 ^ (6 - k) := by
    intro k _; split
    · exact le_rfl
    · exact Nat.zero_le _
  have := sum_le_sum this
  have h2 : ∑ k ∈ range 7, 2 ^ (6 - k) = 127 := by decide
  omega

theorem bitRev7_invol : ∀ i, i < 128 → bitRev7 (bitRev7 i) = i := by decide +kernel

/-- Reindexing by bit reversal. -/
theorem sum_bitRev7 {M : Type} [AddCommMonoid M] (F : Nat → M) : ∑ i ∈ range 128, F (bitRev7 i) = ∑ i ∈ range 128, F i := by
  apply sum_nbij' bitRev7 bitRev7
  · intro i _; exact mem_range.mpr (bitRev7_lt i)
  · intro i _; exact mem_range.mpr (bitRev7_lt i)
  · intro i hi; exact bitRev7_invol i (mem_range.mp hi)
  · intro i hi; exact bitRev7_invol i (mem_range.mp hi)
  · intro i _; rfl

theorem ζ_ne_zero : ζ ≠ 0 := by
  intro h
  have := γ_ne_zero 0
  unfold γ at this
  rw [h] at this
  simp at this

theorem pow17_ne_one : ∀ t, t < 128 → 0 < t → 17 ^ (2 * t) % 3329 ≠ 1 := by decide +kernel

theorem ζ_pow_ne_one {t : Nat} (h0 : 0 < t) (h : t < 128) : ζ ^ (2 * t) ≠ 1 := by
  intro h1
  have h2 : ((17 ^ (2 * t) : Nat) : Zq) = ((1 : Nat) : Zq) := by
    unfold ζ at h1; push_cast; exact h1
  rw [ZMod.natCast_eq_natCast_iff'] at h2
  exact pow17_ne_one t h h0 h2

theorem ζ_pow_256 : ζ ^ 256 = 1 := by
  have := zq_cast_eq (a := 17 ^ 256) (b := 1) (by norm_num)
  unfold ζ; exact_mod_cast this

/-- Orthogonality. -/
theorem sum_γ_pow {t : Nat} (h0 : 0 < t) (h : t < 128) : ∑ i ∈ range 128, γ i ^ t = 0 := by
  unfold γ
  rw [sum_bitRev7 (fun i => (ζ ^ (2 * i + 1)) ^ t)]
  have : ∀ i ∈ range 128, (ζ ^ (2 * i + 1)) ^ t = ζ ^ t * (ζ ^ (2 * t)) ^ i := by
    intro i _
    rw [← pow_mul, ← pow_mul, ← pow_add]; congr 1; ring
  rw [sum_congr rfl this, ← mul_sum, geom_sum_eq (ζ_pow_ne_one h0 h), ← pow_mul,
    show 2 * t * 128 = 256 * t by ring, pow_mul, ζ_pow_256]
  simp

theorem c3303 : (3303 : Zq) * 128 = 1 := by
  have := zq_cast_eq (a := 3303 * 128) (b := 1) (by norm_num)
  exact_mod_cast this

theorem sum_γ_delta {j m : Nat} (hj : j < 128) (hm : m < 128) :
    ∑ i ∈ range 128, γ i ^ j * (γ i)⁻¹ ^ m = if j = m then 128 else 0 := by
  rcases Nat.lt_trichotomy j m with h | h | h
  · rw [if_neg (by omega)]
    have : ∀ i ∈ range 128, γ i ^ j * (γ i)⁻¹ ^ m = -(γ i ^ (128 - (m - j))) := by
      intro i _
      have h0 := γ_ne_zero i
      have h1 : γ i ^ (128 - (m - j)) * γ i ^ m = γ i ^ 128 * γ i ^ j := by
        rw [← pow_add, ← pow_add]; congr 1; omega
      rw [γ_pow_128] at h1
      rw [inv_pow]
      field_simp
      linear_combination h1
    rw [sum_congr rfl this, sum_neg_distrib, sum_γ_pow (by omega) (by omega), neg_zero]
  · subst h
    rw [if_pos rfl]
    have : ∀ i ∈ range 128, γ i ^ j * (γ i)⁻¹ ^ j = 1 := by
      intro i _
      rw [← mul_pow, mul_inv_cancel₀ (γ_ne_zero i), one_pow]
    rw [sum_congr rfl this]; simp
  · rw [if_neg (by omega)]
    have : ∀ i ∈ range 128, γ i ^ j * (γ i)⁻¹ ^ m = γ i ^ (j - m) := by
      intro i _
      have h0 := γ_ne_zero i
      rw [inv_pow]
      field_simp
      rw [← pow_add]; congr 1; omega
    rw [sum_congr rfl this, sum_γ_pow (by omega) (by omega)]

/-- `NTTInv` inverts `NTT`. -/
theorem NTTInv_NTT (f : Poly) {n : Nat} (hn : n < 256) : NTTInv (NTT f) n = f n := by
  unfold NTTInv NTT
  have h : ∀ i ∈ range 128, (∑ j ∈ range 128, f (2 * j + (2 * i + n % 2) % 2) * γ ((2 * i + n % 2) / 2) ^ j) * (γ i)⁻¹ ^ (n / 2)
      = ∑ j ∈ range 128, f (2 * j + n % 2) * (γ i ^ j * (γ i)⁻¹ ^ (n / 2)) := by
    intro i _
    rw [sum_mul, show (2 * i + n % 2) % 2 = n % 2 by omega, show (2 * i + n % 2) / 2 = i by omega]
    exact sum_congr rfl fun j _ => by ring
  rw [sum_congr rfl h, sum_comm]
  have h2 : ∀ j ∈ range 128, ∑ i ∈ range 128, f (2 * j + n % 2) * (γ i ^ j * (γ i)⁻¹ ^ (n / 2)) = if j = n / 2 then f n * 128 else 0 := by
    intro j hj
    rw [← mul_sum, sum_γ_delta (mem_range.mp hj) (by omega)]
    split
    · rename_i h; rw [h, show 2 * (n / 2) + n % 2 = n by omega]
    · simp
  rw [sum_congr rfl h2, sum_ite_eq', if_pos (mem_range.mpr (by omega))]
  rw [mul_left_comm, c3303, mul_one]

theorem NTT_congr {f g : Poly} (h : ∀ n, n < 256 → f n = g n) (n : Nat) : NTT f n = NTT g n := by
  unfold NTT
  exact sum_congr rfl fun j hj => by rw [h _ (by have := mem_range.mp hj; omega)]

theorem NTTInv_congr {f g : Poly} (h : ∀ n, n < 256 → f n = g n) (n : Nat) : NTTInv f n = NTTInv g n := by
  unfold NTTInv
  refine congrArg (fun x => 3303 * x) ?_
  exact sum_congr rfl fun j hj => by rw [h _ (by have := mem_range.mp hj; omega)]

theorem mulRq_congr {f f' g g' : Poly} (h : ∀ n, n < 256 → f n = f' n) (h' : ∀ n, n < 256 → g n = g' n) {n : Nat} (hn : n < 256) :
    mulRq f g n = mulRq f' g' n := by
  unfold mulRq
  refine sum_congr rfl fun i hi => ?_
  rw [mem_range] at hi
  split
  · rw [h i hi, h' _ (by omega)]
  · rw [h i hi, h' _ (by omega)]

theorem MultiplyNTTs_congr {f f' g g' : Poly} (h : ∀ n, n < 256 → f n = f' n) (h' : ∀ n, n < 256 → g n = g' n) {n : Nat} (hn : n < 256) :
    MultiplyNTTs f g n = MultiplyNTTs f' g' n := by
  unfold MultiplyNTTs
  split
  · rw [h _ hn, h' _ hn, h _ (by omega), h' _ (by omega)]
  · rw [h _ hn, h' _ hn, h _ (by omega), h' _ (by omega)]

/-- Multiplication through the NTT is multiplication in `R_q`. -/
theorem NTTInv_MultiplyNTTs (f g : Poly) {n : Nat} (hn : n < 256) : NTTInv (MultiplyNTTs (NTT f) (NTT g)) n = mulRq f g n := by
  rw [NTTInv_congr (fun n _ => (NTT_mulRq f g n).symm), NTTInv_NTT _ hn]

end Verif

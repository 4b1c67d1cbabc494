import Verif.Proof.Pack
import Mathlib.Algebra.BigOperators.Ring.Finset
import Mathlib.Tactic.Ring
import Mathlib.Tactic.IntervalCases
import Verif.Model.Cbd
/-! # Centered binomial sampling -/
open Finset
namespace Verif
open Model Spec

variable {F : Prop}

/-- `n` fields of width `w`. -/
def packF (w n : Nat) (c : Nat → Nat) : Nat := ∑ k ∈ range n, c k * 2 ^ (w * k)

theorem packF_succ (w n : Nat) (c : Nat → Nat) : packF w (n + 1) c = 2 ^ w * packF w n (fun k => c (k + 1)) + c 0 := by
  unfold packF
  rw [sum_range_succ', mul_sum]
  congr 1
  · refine sum_congr rfl fun k _ => ?_
    rw [Nat.mul_add, pow_add]; ring
  · simp

theorem packF_digit {w n : Nat} {c : Nat → Nat} (hc : ∀ k, c k < 2 ^ w) {k : Nat} (hk : k < n) : packF w n c / 2 ^ (w * k) % 2 ^ w = c k := by
  induction n generalizing k c with
  | zero => omega
  | succ n ih =>
    rw [packF_succ]
    cases k with
    | zero => simp [Nat.mod_eq_of_lt (hc 0)]
    | succ k =>
      rw [Nat.mul_add, Nat.mul_one, Nat.add_comm (w * k), pow_add, ← Nat.div_div_eq_div_mul, Nat.mul_add_div (by positivity), Nat.div_eq_of_lt (hc 0), Nat.add_zero]
      exact ih (fun k => hc (k + 1)) (by omega)

theorem packF_testBit {w n : Nat} (hw : 0 < w) {c : Nat → Nat} (hc : ∀ k, c k < 2 ^ w) (i : Nat) : (packF w n c).testBit i = (decide (i / w < n) && (c (i / w)).testBit (i % w)) := by
  induction n generalizing i c with
  | zero => simp [packF]
  | succ n ih =>
    rw [packF_succ, Nat.testBit_two_pow_mul_add _ (hc 0)]
    by_cases h : i < w
    · simp [h, Nat.div_eq_of_lt h, Nat.mod_eq_of_lt h]
    · rw [if_neg h, ih (fun k => hc (k + 1))]
      obtain ⟨j, rfl⟩ : ∃ j, i = j + w := ⟨i - w, by omega⟩
      rw [Nat.add_sub_cancel, Nat.add_div_right _ hw, Nat.add_mod_right]
      simp

theorem packF_add (w n : Nat) (c c' : Nat → Nat) : packF w n c + packF w n c' = packF w n (fun k => c k + c' k) := by
  unfold packF
  rw [← sum_add_distrib]
  exact sum_congr rfl fun k _ => by ring

/-- Masking every `w`-th bit. -/
theorem packF_mask {w n : Nat} (hw : 0 < w) (t s : Nat) :
    (t >>> s) &&& packF w n (fun _ => 1) = packF w n (fun k => (t.testBit (w * k + s)).toNat) := by
  have h1 : (1 : Nat) < 2 ^ w := Nat.one_lt_two_pow (by omega)
  apply Nat.eq_of_testBit_eq
  intro i
  rw [Nat.testBit_and, packF_testBit hw (fun _ => h1), packF_testBit hw (fun k => lt_of_le_of_lt (Bool.toNat_le _) h1), Nat.testBit_shiftRight]
  by_cases hi : i / w < n
  · simp only [hi, decide_true, Bool.true_and]
    by_cases hm : i % w = 0
    · rw [hm, show w * (i / w) = i by have := Nat.div_add_mod i w; omega, Nat.add_comm]
      cases t.testBit (i + s) <;> simp
    · rw [testBit_of_lt (n := 1) (x := 1) (by norm_num) (by omega), testBit_of_lt (n := 1) (x := (t.testBit (w * (i / w) + s)).toNat) (by have := Bool.toNat_le (t.testBit (w * (i / w) + s)); omega) (by omega)]
      simp
  · simp [hi]

/-- The `i`-th sample of `SamplePolyCBD_η` as an integer. -/
def cbdI (η : Nat) (B : Nat → UInt8) (i : Nat) : Int :=
  (∑ j ∈ range η, if fbit B (2 * i * η + j) then 1 else 0) - ∑ j ∈ range η, if fbit B (2 * i * η + η + j) then 1 else 0

theorem cbdI_bound (η : Nat) (B : Nat → UInt8) (i : Nat) : -(η : Int) ≤ cbdI η B i ∧ cbdI η B i ≤ η := by
  have key : ∀ (b : Nat → Bool), 0 ≤ ∑ j ∈ range η, (if b j then (1 : Int) else 0) ∧ ∑ j ∈ range η, (if b j then (1 : Int) else 0) ≤ η := by
    intro b
    constructor
    · exact sum_nonneg fun j _ => by split <;> simp
    · calc ∑ j ∈ range η, (if b j then (1 : Int) else 0) ≤ ∑ j ∈ range η, 1 := sum_le_sum fun j _ => by split <;> simp
        _ = η := by simp
  have h1 := key fun j => fbit B (2 * i * η + j)
  have h2 := key fun j => fbit B (2 * i * η + η + j)
  unfold cbdI
  omega

theorem load32_spec {x : Buf UInt8} {xo : Nat} {B : Nat → UInt8} (h : Seg x xo 4 B) :
    Post (load32_littleendian x xo) (fun t => ∀ n, n < 32 → t.testBit n = fbit B n) := by
  unfold load32_littleendian
  simp only [wp_bind, wp_rd, wp_pure]
  refine ⟨_, h.get (by omega), _, h.get (by omega), _, h.get (by omega), _, h.get (by omega), ?_⟩
  intro n hn
  unfold fbit u32
  rw [show 4294967296 = 2 ^ 32 by rfl]
  simp only [Nat.testBit_or, Nat.testBit_mod_two_pow, Nat.testBit_shiftLeft]
  obtain h | h | h | h : n / 8 = 0 ∨ n / 8 = 1 ∨ n / 8 = 2 ∨ n / 8 = 3 := by omega
  · rw [h, show n % 8 = n by omega]
    simp [hn, show ¬ 8 ≤ n by omega, show ¬ 16 ≤ n by omega, show ¬ 24 ≤ n by omega]
  · rw [h, show n % 8 = n - 8 by omega]
    simp [hn, show 8 ≤ n by omega, show ¬ 16 ≤ n by omega, show ¬ 24 ≤ n by omega, uint8_testBit_ge]
  · rw [h, show n % 8 = n - 16 by omega]
    simp [hn, show 8 ≤ n by omega, show 16 ≤ n by omega, show ¬ 24 ≤ n by omega, uint8_testBit_ge, uint8_testBit_ge (B 1) (show 8 ≤ n - 8 by omega)]
  · rw [h, show n % 8 = n - 24 by omega]
    simp [hn, show 8 ≤ n by omega, show 16 ≤ n by omega, show 24 ≤ n by omega, uint8_testBit_ge, uint8_testBit_ge (B 1) (show 8 ≤ n - 8 by omega), uint8_testBit_ge (B 2) (show 8 ≤ n - 16 by omega)]

theorem load24_spec {x : Buf UInt8} {xo : Nat} {B : Nat → UInt8} (h : Seg x xo 3 B) :
    Post (load24_littleendian x xo) (fun t => ∀ n, n < 24 → t.testBit n = fbit B n) := by
  unfold load24_littleendian
  simp only [wp_bind, wp_rd, wp_pure]
  refine ⟨_, h.get (by omega), _, h.get (by omega), _, h.get (by omega), ?_⟩
  intro n hn
  unfold fbit u32
  rw [show 4294967296 = 2 ^ 32 by rfl]
  simp only [Nat.testBit_or, Nat.testBit_mod_two_pow, Nat.testBit_shiftLeft]
  obtain h | h | h : n / 8 = 0 ∨ n / 8 = 1 ∨ n / 8 = 2 := by omega
  · rw [h, show n % 8 = n by omega]
    simp [show n < 32 by omega, show ¬ 8 ≤ n by omega, show ¬ 16 ≤ n by omega]
  · rw [h, show n % 8 = n - 8 by omega]
    simp [show n < 32 by omega, show 8 ≤ n by omega, show ¬ 16 ≤ n by omega, uint8_testBit_ge]
  · rw [h, show n % 8 = n - 16 by omega]
    simp [show n < 32 by omega, show 8 ≤ n by omega, show 16 ≤ n by omega, uint8_testBit_ge, uint8_testBit_ge (B 1) (show 8 ≤ n - 8 by omega)]

theorem fbit_shift (B : Nat → UInt8) (k n : Nat) : fbit (fun j => B (k + j)) n = fbit B (8 * k + n) := by
  unfold fbit
  rw [Nat.mul_add_div (by omega), Nat.mul_add_mod]

/-- Sum of adjacent bits, extracted from the two-bit fields. -/
theorem cbd2_field (t : Nat) {k : Nat} (hk : k < 16) :
    (u32 ((t &&& 0x55555555) + ((t >>> 1) &&& 0x55555555)) >>> (2 * k)) &&& 0x3 = (t.testBit (2 * k)).toNat + (t.testBit (2 * k + 1)).toNat := by
  have hm : (0x55555555 : Nat) = packF 2 16 (fun _ => 1) := by decide +kernel
  have hu : (t &&& 0x55555555) + ((t >>> 1) &&& 0x55555555) < 4294967296 := by
    have h1 := @Nat.and_le_right t 0x55555555
    have h2 := @Nat.and_le_right (t >>> 1) 0x55555555
    omega
  unfold u32
  rw [Nat.mod_eq_of_lt hu, hm]
  have h0 := packF_mask (n := 16) (show 0 < 2 by omega) t 0
  rw [Nat.shiftRight_zero] at h0
  rw [h0, packF_mask (by omega), packF_add, show (3 : Nat) = 2 ^ 2 - 1 from rfl, Nat.and_two_pow_sub_one_eq_mod, Nat.shiftRight_eq_div_pow,
    packF_digit (fun k => ?_) hk]
  · rfl
  · have := Bool.toNat_le (t.testBit (2 * k + 0)); have := Bool.toNat_le (t.testBit (2 * k + 1)); omega

theorem cbd3_field (t : Nat) {k : Nat} (hk : k < 8) :
    (u32 (u32 ((t &&& 0x00249249) + ((t >>> 1) &&& 0x00249249)) + ((t >>> 2) &&& 0x00249249)) >>> (3 * k)) &&& 0x7
      = (t.testBit (3 * k)).toNat + (t.testBit (3 * k + 1)).toNat + (t.testBit (3 * k + 2)).toNat := by
  have hm : (0x00249249 : Nat) = packF 3 8 (fun _ => 1) := by decide +kernel
  have h1 := @Nat.and_le_right t 0x00249249
  have h2 := @Nat.and_le_right (t >>> 1) 0x00249249
  have h3 := @Nat.and_le_right (t >>> 2) 0x00249249
  unfold u32
  rw [Nat.mod_eq_of_lt (by omega), Nat.mod_eq_of_lt (by omega), hm]
  have h0 := packF_mask (n := 8) (show 0 < 3 by omega) t 0
  rw [Nat.shiftRight_zero] at h0
  rw [h0, packF_mask (by omega), packF_mask (by omega), packF_add, packF_add, show (7 : Nat) = 2 ^ 3 - 1 from rfl, Nat.and_two_pow_sub_one_eq_mod, Nat.shiftRight_eq_div_pow,
    packF_digit (fun k => ?_) hk]
  · rfl
  · have := Bool.toNat_le (t.testBit (3 * k + 0)); have := Bool.toNat_le (t.testBit (3 * k + 1)); have := Bool.toNat_le (t.testBit (3 * k + 2)); omega

theorem toNat_ite (b : Bool) : ((b.toNat : Nat) : Int) = if b then 1 else 0 := by cases b <;> rfl

theorem cbd2_spec {r : Model.Poly} {buf : Buf UInt8} {B : Nat → UInt8} (hb : Seg buf 0 128 B) (hr : r.size = 256) :
    Post (cbd2 r buf) (fun r' => Holds r' 256 (cbdI 2 B)) := by
  unfold cbd2
  refine wp_forN (fun i r' => Written r r' 0 (8 * i) (cbdI 2 B)) (Written.refl _ _ _) ?_ (fun _ h => h.holds hr)
  intro i r' hi hI
  simp only [wp_bind]
  refine Post.use (load32_spec (hb.sub (4 * i) 4 (by omega)) |> (by simpa using ·)) fun t ht => ?_
  refine wp_forN (fun j r' => Written r r' 0 (8 * i + j) (cbdI 2 B)) hI ?_ (fun _ h => h)
  intro j r' hj hI
  simp only [wp_bind, wp_i16, wp_wr]
  rw [show 4 * j + 0 = 2 * (2 * j) by omega, show 4 * j + 2 = 2 * (2 * j + 1) by omega, cbd2_field t (by omega), cbd2_field t (by omega),
    ht _ (by omega), ht _ (by omega), ht _ (by omega), ht _ (by omega)]
  simp only [fbit_shift]
  have h := cbdI_bound 2 B (8 * i + j)
  have e : ((((fbit B (8 * (4 * i) + 2 * (2 * j))).toNat + (fbit B (8 * (4 * i) + (2 * (2 * j) + 1))).toNat : Nat)) : Int)
      - ((fbit B (8 * (4 * i) + 2 * (2 * j + 1))).toNat + (fbit B (8 * (4 * i) + (2 * (2 * j + 1) + 1))).toNat : Nat) = cbdI 2 B (8 * i + j) := by
    unfold cbdI
    rw [sum_range_succ, sum_range_one, sum_range_succ, sum_range_one]
    push_cast
    simp only [toNat_ite]
    rw [show 8 * (4 * i) + 2 * (2 * j) = 2 * (8 * i + j) * 2 + 0 by ring, show 8 * (4 * i) + (2 * (2 * j) + 1) = 2 * (8 * i + j) * 2 + 1 by ring,
      show 8 * (4 * i) + 2 * (2 * j + 1) = 2 * (8 * i + j) * 2 + 2 + 0 by ring, show 8 * (4 * i) + (2 * (2 * j + 1) + 1) = 2 * (8 * i + j) * 2 + 2 + 1 by ring]
  rw [e]
  refine ⟨by omega, by rw [hI.1]; omega, ?_⟩
  exact hI.push (by omega) (by omega) rfl

theorem cbd3_spec {r : Model.Poly} {buf : Buf UInt8} {B : Nat → UInt8} (hb : Seg buf 0 192 B) (hr : r.size = 256) :
    Post (cbd3 r buf) (fun r' => Holds r' 256 (cbdI 3 B)) := by
  unfold cbd3
  refine wp_forN (fun i r' => Written r r' 0 (4 * i) (cbdI 3 B)) (Written.refl _ _ _) ?_ (fun _ h => h.holds hr)
  intro i r' hi hI
  simp only [wp_bind]
  refine Post.use (load24_spec (hb.sub (3 * i) 3 (by omega)) |> (by simpa using ·)) fun t ht => ?_
  refine wp_forN (fun j r' => Written r r' 0 (4 * i + j) (cbdI 3 B)) hI ?_ (fun _ h => h)
  intro j r' hj hI
  simp only [wp_bind, wp_i16, wp_wr]
  rw [show 6 * j + 0 = 3 * (2 * j) by omega, show 6 * j + 3 = 3 * (2 * j + 1) by omega, cbd3_field t (by omega), cbd3_field t (by omega),
    ht _ (by omega), ht _ (by omega), ht _ (by omega), ht _ (by omega), ht _ (by omega), ht _ (by omega)]
  simp only [fbit_shift]
  have h := cbdI_bound 3 B (4 * i + j)
  have e : ((((fbit B (8 * (3 * i) + 3 * (2 * j))).toNat + (fbit B (8 * (3 * i) + (3 * (2 * j) + 1))).toNat + (fbit B (8 * (3 * i) + (3 * (2 * j) + 2))).toNat : Nat)) : Int)
      - ((fbit B (8 * (3 * i) + 3 * (2 * j + 1))).toNat + (fbit B (8 * (3 * i) + (3 * (2 * j + 1) + 1))).toNat + (fbit B (8 * (3 * i) + (3 * (2 * j + 1) + 2))).toNat : Nat) = cbdI 3 B (4 * i + j) := by
    unfold cbdI
    rw [sum_range_succ, sum_range_succ, sum_range_one, sum_range_succ, sum_range_succ, sum_range_one]
    push_cast
    simp only [toNat_ite]
    rw [show 8 * (3 * i) + 3 * (2 * j) = 2 * (4 * i + j) * 3 + 0 by ring, show 8 * (3 * i) + (3 * (2 * j) + 1) = 2 * (4 * i + j) * 3 + 1 by ring,
      show 8 * (3 * i) + (3 * (2 * j) + 2) = 2 * (4 * i + j) * 3 + 2 by ring,
      show 8 * (3 * i) + 3 * (2 * j + 1) = 2 * (4 * i + j) * 3 + 3 + 0 by ring, show 8 * (3 * i) + (3 * (2 * j + 1) + 1) = 2 * (4 * i + j) * 3 + 3 + 1 by ring,
      show 8 * (3 * i) + (3 * (2 * j + 1) + 2) = 2 * (4 * i + j) * 3 + 3 + 2 by ring]
  rw [e]
  refine ⟨by omega, by rw [hI.1]; omega, ?_⟩
  exact hI.push (by omega) (by omega) rfl

theorem fbit_list (L : List UInt8) (n : Nat) : fbit (fun k => L.getD k 0) n = bitAt L n := rfl

theorem cbdI_zq (η : Nat) (L : List UInt8) (i : Nat) : ((cbdI η (fun k => L.getD k 0) i : Int) : Zq) = SamplePolyCBD η L i := by
  unfold cbdI SamplePolyCBD
  push_cast
  simp only [fbit_list]
  congr 1

theorem cbdI_congr {η : Nat} {B B' : Nat → UInt8} (h : ∀ k, k < 64 * η → B k = B' k) {i : Nat} (hi : i < 256) : cbdI η B i = cbdI η B' i := by
  have hb : ∀ n, n < 64 * η * 8 → fbit B n = fbit B' n := fun n hn => by unfold fbit; rw [h (n / 8) (by omega)]
  have : i * η + η ≤ 256 * η := by rw [← Nat.succ_mul]; exact Nat.mul_le_mul_right _ hi
  have e : 2 * i * η = 2 * (i * η) := by ring
  unfold cbdI
  congr 1
  · refine sum_congr rfl fun j hj => ?_
    have := mem_range.1 hj
    rw [hb _ (by omega)]
  · refine sum_congr rfl fun j hj => ?_
    have := mem_range.1 hj
    rw [hb _ (by omega)]

theorem poly_cbd_eta1_spec {K : Nat} {r : Model.Poly} {buf : Buf UInt8} {B : Nat → UInt8} (hb : Seg buf 0 (64 * η₁ K) B) (hr : r.size = 256) :
    Post (poly_cbd_eta1 K r buf) (fun r' => Holds r' 256 (cbdI (η₁ K) B)) := by
  unfold poly_cbd_eta1
  by_cases hK : K = 2
  · have e : η₁ K = 3 := by simp [η₁, hK]
    rw [e] at hb ⊢
    rw [if_neg (by simp [MLKEM_ETA1, hK])]
    exact cbd3_spec hb hr
  · have e : η₁ K = 2 := by simp [η₁, hK]
    rw [e] at hb ⊢
    rw [if_pos (by simp [MLKEM_ETA1, hK])]
    exact cbd2_spec hb hr

theorem poly_cbd_eta2_spec {r : Model.Poly} {buf : Buf UInt8} {B : Nat → UInt8} (hb : Seg buf 0 128 B) (hr : r.size = 256) :
    Post (poly_cbd_eta2 r buf) (fun r' => Holds r' 256 (cbdI 2 B)) := cbd2_spec hb hr

end Verif

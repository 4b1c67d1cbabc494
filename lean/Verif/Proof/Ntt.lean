import Verif.Proof.NttAlg
import Verif.Proof.Poly
import Mathlib.Tactic.IntervalCases
/-! # The NTT and inverse NTT of the code -/
open Finset
namespace Verif
open Model Spec

variable {F : Prop}

theorem montR_zq (x : Int) : ((montR x : Int) : Zq) = (x : Zq) * 169 := by
  have h := montR_cong x
  have h1 : ((65536 * montR x - x : Int) : Zq) = 0 := (ZMod.intCast_zmod_eq_zero_iff_dvd _ 3329).mpr (Int.dvd_of_emod_eq_zero h)
  have h2 : (65536 : Zq) * 169 = 1 := by
    have := zq_cast_eq (a := 65536 * 169) (b := 1) (by norm_num)
    exact_mod_cast this
  push_cast at h1
  calc ((montR x : Int) : Zq) = (65536 * 169) * (montR x : Zq) := by rw [h2, one_mul]
    _ = (65536 * (montR x : Zq)) * 169 := by ring
    _ = (x : Zq) * 169 := by rw [sub_eq_zero.mp h1]

theorem cmodq_zq (x : Int) : ((cmodq x : Int) : Zq) = (x : Zq) := by
  have h := cmodq_cong x
  have h1 : ((cmodq x - x : Int) : Zq) = 0 := (ZMod.intCast_zmod_eq_zero_iff_dvd _ 3329).mpr (Int.dvd_of_emod_eq_zero h)
  push_cast at h1
  exact sub_eq_zero.mp h1

/-- Entry `k` of the table. -/
def Z (k : Nat) : Int := zetasList.getD k 0
/-- The root of unity it stands for. -/
def y (k : Nat) : Zq := (Z k : Zq) * 169

theorem zetas_get {k : Nat} (hk : k < 128) : zetas[k]? = some (some (Z k)) := by
  have := (Holds.ofList zetasList 0).get (i := k) hk
  exact this

theorem Z_bound : ∀ k, k < 128 → -1665 < Z k ∧ Z k < 1665 := by decide +kernel

theorem zq_int_eq {a b : Int} (h : (a - b) % 3329 = 0) : (a : Zq) = (b : Zq) := by
  have h1 : ((a - b : Int) : Zq) = 0 := (ZMod.intCast_zmod_eq_zero_iff_dvd _ 3329).mpr (Int.dvd_of_emod_eq_zero h)
  push_cast at h1
  exact sub_eq_zero.mp h1

theorem y_one : y 1 ^ 2 = -1 := by
  have := zq_int_eq (a := (Z 1 * 169) ^ 2) (b := -1) (by decide +kernel)
  push_cast at this; exact this
theorem y_even_aux : ∀ k, k < 64 → 0 < k → ((Z (2 * k) * 169) ^ 2 - Z k * 169) % 3329 = 0 := by decide +kernel
theorem y_odd_aux : ∀ k, k < 64 → 0 < k → ((Z (2 * k + 1) * 169) ^ 2 - -(Z k * 169)) % 3329 = 0 := by decide +kernel
theorem γ_even_aux : ∀ b, b < 64 → (((17 ^ (2 * bitRev7 (2 * b) + 1) : Nat) : Int) - Z (64 + b) * 169) % 3329 = 0 := by decide +kernel
theorem γ_odd_aux : ∀ b, b < 64 → (((17 ^ (2 * bitRev7 (2 * b + 1) + 1) : Nat) : Int) - -(Z (64 + b) * 169)) % 3329 = 0 := by decide +kernel
theorem y_inv_aux : ∀ l, l < 7 → ∀ b, b < 2 ^ l → (Z (2 ^ l + b) * 169 * (Z (2 * 2 ^ l - 1 - b) * 169) - -1) % 3329 = 0 := by decide +kernel

theorem y_even {k : Nat} (h0 : 0 < k) (h : k < 64) : y (2 * k) ^ 2 = y k := by
  have := zq_int_eq (y_even_aux k h h0); push_cast at this; exact this
theorem y_odd {k : Nat} (h0 : 0 < k) (h : k < 64) : y (2 * k + 1) ^ 2 = -y k := by
  have := zq_int_eq (y_odd_aux k h h0); push_cast at this; exact this
theorem γ_even {b : Nat} (h : b < 64) : γ (2 * b) = y (64 + b) := by
  have := zq_int_eq (γ_even_aux b h); push_cast at this; exact this
theorem γ_odd {b : Nat} (h : b < 64) : γ (2 * b + 1) = -y (64 + b) := by
  have := zq_int_eq (γ_odd_aux b h); push_cast at this; exact this
theorem y_inv {l b : Nat} (hl : l < 7) (h : b < 2 ^ l) : y (2 ^ l + b) * y (2 * 2 ^ l - 1 - b) = -1 := by
  have := zq_int_eq (y_inv_aux l hl b h); push_cast at this; exact this

/-- Block `k - 2^L` of layer `L` (with `2^L ≤ k < 2^(L+1)`) works modulo `X^(256/2^L) - W k`. -/
def W (k : Nat) : Zq := if k < 128 then y k ^ 2 else γ (k - 128)

theorem W_low {k : Nat} (h : k < 128) : W k = y k ^ 2 := by simp [W, h]
theorem W_even {k : Nat} (h0 : 0 < k) (h : k < 128) : W (2 * k) = y k := by
  unfold W
  split
  · exact y_even h0 (by omega)
  · rw [show 2 * k - 128 = 2 * (k - 64) by omega, γ_even (by omega)]; congr 1; omega
theorem W_odd {k : Nat} (h0 : 0 < k) (h : k < 128) : W (2 * k + 1) = -y k := by
  unfold W
  split
  · exact y_odd h0 (by omega)
  · rw [show 2 * k + 1 - 128 = 2 * (k - 64) + 1 by omega, γ_odd (by omega)]; congr 2; omega

/-- One layer of butterflies. -/
def nl (len B : Nat) (g : Nat → Zq) : Nat → Zq := fun n =>
  if n % (2 * len) < len then g n + g (n + len) * y (B + n / (2 * len))
  else g (n - len) - g n * y (B + n / (2 * len))

/-- One layer refines the reduction modulo `X^(2 len) - W` into reductions modulo `X^len ∓ y`. -/
theorem nl_step {len B : Nat} (hlen : 0 < len) (hB : 0 < B) (hB' : B ≤ 64) {f g : Nat → Zq}
    (H : ∀ b, b < B → ∀ o, o < 2 * len → g (2 * len * b + o) = ∑ j ∈ range B, f (o + 2 * len * j) * W (B + b) ^ j)
    {c o : Nat} (hc : c < 2 * B) (ho : o < len) :
    nl len B g (len * c + o) = ∑ j ∈ range (2 * B), f (o + len * j) * W (2 * B + c) ^ j := by
  have hsplit : ∀ (w : Zq) (k : Nat), W k = w ^ 2 → k = B + c / 2 →
      (∑ j ∈ range (2 * B), f (o + len * j) * w ^ j) = g (2 * len * (c / 2) + o) + g (2 * len * (c / 2) + (len + o)) * w := by
    intro w k hw hk
    rw [sum_range_mul_two, sum_add_distrib, H (c / 2) (by omega) o (by omega), H (c / 2) (by omega) (len + o) (by omega), sum_mul]
    congr 1
    · apply sum_congr rfl; intro j _
      rw [← hk, hw, ← pow_mul]; congr 2; ring
    · apply sum_congr rfl; intro j _
      rw [← hk, hw, ← pow_mul, mul_assoc, ← pow_succ]; congr 2; ring
  unfold nl
  rcases Nat.mod_two_eq_zero_or_one c with hp | hp
  · obtain ⟨b, rfl⟩ : ∃ b, c = 2 * b := ⟨c / 2, by omega⟩
    have e : len * (2 * b) + o = 2 * len * b + o := by ring
    have hd : (2 * len * b + o) / (2 * len) = b := by
      rw [Nat.mul_add_div (by omega), Nat.div_eq_of_lt (by omega)]; rfl
    have hm : (2 * len * b + o) % (2 * len) = o := by
      rw [Nat.mul_add_mod, Nat.mod_eq_of_lt (by omega)]
    rw [e, hm, if_pos ho, hd]
    have hw : W (2 * B + 2 * b) = y (B + b) := by rw [← Nat.mul_add]; exact W_even (by omega) (by omega)
    rw [hw, hsplit (y (B + b)) (B + b) (W_low (by omega)) (by omega)]
    rw [show 2 * b / 2 = b by omega]
    congr 3; ring
  · obtain ⟨b, rfl⟩ : ∃ b, c = 2 * b + 1 := ⟨c / 2, by omega⟩
    have e : len * (2 * b + 1) + o = 2 * len * b + (len + o) := by ring
    have hd : (2 * len * b + (len + o)) / (2 * len) = b := by
      rw [Nat.mul_add_div (by omega), Nat.div_eq_of_lt (by omega)]; rfl
    have hm : (2 * len * b + (len + o)) % (2 * len) = len + o := by
      rw [Nat.mul_add_mod, Nat.mod_eq_of_lt (by omega)]
    rw [e, hm, if_neg (by omega), hd]
    have hw : W (2 * B + (2 * b + 1)) = -y (B + b) := by rw [← Nat.add_assoc, ← Nat.mul_add]; exact W_odd (by omega) (by omega)
    rw [hw, hsplit (-y (B + b)) (B + b) (by rw [W_low (by omega)]; ring) (by omega)]
    rw [show (2 * b + 1) / 2 = b by omega, show 2 * len * b + (len + o) - len = 2 * len * b + o by omega]
    ring

/-- Layer `L`. -/
def nlayer (L : Nat) : (Nat → Zq) → Nat → Zq := nl (128 / 2 ^ L) (2 ^ L)

/-- The first `L` layers. -/
def fwd : Nat → (Nat → Zq) → Nat → Zq
  | 0, g => g
  | L + 1, g => nlayer L (fwd L g)

theorem fwd_inv (f : Nat → Zq) : ∀ L, L ≤ 7 → ∀ b, b < 2 ^ L → ∀ o, o < 256 / 2 ^ L →
    fwd L f (256 / 2 ^ L * b + o) = ∑ j ∈ range (2 ^ L), f (o + 256 / 2 ^ L * j) * W (2 ^ L + b) ^ j := by
  intro L
  induction L with
  | zero => intro _ b hb o ho; simp at hb; subst hb; simp [fwd]
  | succ L ih =>
    intro hL b hb o ho
    have ih := ih (by omega)
    have hL' : L < 7 := by omega
    have e1 : 256 / 2 ^ (L + 1) = 128 / 2 ^ L := by
      rw [pow_succ]; interval_cases L <;> rfl
    have e2 : 256 / 2 ^ L = 2 * (128 / 2 ^ L) := by interval_cases L <;> rfl
    have e3 : 0 < 128 / 2 ^ L := by interval_cases L <;> decide
    have e4 : 2 ^ L ≤ 64 := by interval_cases L <;> decide
    rw [e1] at ho ⊢
    rw [e2] at ih
    rw [pow_succ, Nat.mul_comm (2 ^ L) 2] at hb ⊢
    rw [← nl_step e3 (Nat.two_pow_pos L) e4 ih hb ho]
    rfl

/-- The seven layers compute the NTT. -/
theorem fwd_NTT (f : Nat → Zq) {n : Nat} (hn : n < 256) : fwd 7 f n = NTT f n := by
  have := fwd_inv f 7 (by omega) (n / 2) (by omega) (n % 2) (by omega)
  rw [show 256 / 2 ^ 7 * (n / 2) + n % 2 = n by omega] at this
  rw [this]
  unfold NTT
  apply sum_congr rfl
  intro j _
  rw [show (2 : Nat) ^ 7 = 128 from rfl]
  unfold W
  rw [if_neg (by omega), show 128 + n / 2 - 128 = n / 2 by omega]
  congr 2; omega

/-! ## The code of the forward transform -/

/-- Effect of `ntt_butterfly_block`. -/
def bf (start len : Nat) (z : Int) (f : Nat → Int) : Nat → Int := fun n =>
  if start ≤ n ∧ n < start + len then f n + montR (f (n + len) * z)
  else if start + len ≤ n ∧ n < start + 2 * len then f (n - len) - montR (f n * z) else f n

theorem mul_z_bound {a z B : Int} (ha : -B ≤ a ∧ a ≤ B) (hB : B ≤ 32768) (hz : -1665 < z ∧ z < 1665) : -2496 ≤ montR (a * z) ∧ montR (a * z) ≤ 2496 := by
  have h := mul_bound (A := 32768) (B := 1664) (a := a) (b := z) (by omega) (by omega)
  have := montR_bound h
  omega

theorem ntt_butterfly_block_spec {r : Model.Poly} {f : Nat → Int} (h : Holds r 256 f) {z : Int} {start len : Nat} (hz : -1665 < z ∧ z < 1665)
    (hs : start + 2 * len ≤ 256) (hf : ∀ n, start ≤ n → n < start + 2 * len → -30000 ≤ f n ∧ f n ≤ 30000) :
    Post (ntt_butterfly_block r z start len) (fun r' => Holds r' 256 (bf start len z f)) := by
  unfold ntt_butterfly_block
  refine wp_forFrom (fun j r' => Holds r' 256 (fun n => if (start ≤ n ∧ n < j) ∨ (start + len ≤ n ∧ n < j + len) then bf start len z f n else f n)) ?_ ?_ ?_
  · exact h.congr fun n _ => by rw [if_neg (by omega)]
  · intro j r' hj1 hj2 hI
    have g1 := hI.get (i := j + len) (by omega)
    have g0 := hI.get (i := j) (by omega)
    rw [if_neg (by omega)] at g1 g0
    simp only [wp_bind, wp_rd, wp_wr, wp_i16, Array.size_setIfInBounds, hI.size]
    refine ⟨_, g1, ?_⟩
    have b0 := hf j (by omega) (by omega)
    have b1 := hf (j + len) (by omega) (by omega)
    refine Post.use (fqmul_post _ _ (by omega) hz) fun t ht => ?_
    have bt := mul_z_bound (a := f (j + len)) (B := 30000) b1 (by omega) hz
    subst ht
    have hne : j + len ≠ j := by omega
    have g0' := (Array.getElem?_setIfInBounds_ne (xs := r') (a := some (f j - montR (f (j + len) * z))) hne).trans g0
    refine ⟨_, g0, by omega, by omega, _, g0', by omega, by omega, ?_⟩
    · refine ((hI.set (by omega) _).set (by omega) _).congr fun n hn => ?_
      by_cases hnj : n = j
      · subst hnj
        rw [upd_same, if_pos (by omega)]
        unfold bf; rw [if_pos (by omega)]
      · rw [upd_ne hnj]
        by_cases hnl : n = j + len
        · subst hnl
          rw [upd_same, if_pos (by omega)]
          unfold bf; rw [if_neg (by omega), if_pos (by omega), show j + len - len = j by omega]
        · rw [upd_ne hnl]
          by_cases hc : (start ≤ n ∧ n < j) ∨ (start + len ≤ n ∧ n < j + len)
          · rw [if_pos hc, if_pos (by omega)]
          · rw [if_neg hc, if_neg (by omega)]
  · intro r' hI
    refine hI.congr fun n hn => ?_
    split
    · rfl
    · unfold bf; rw [if_neg (by omega), if_neg (by omega)]

/-- Integer version of a layer. -/
def il (len B : Nat) (f : Nat → Int) : Nat → Int := fun n =>
  if n % (2 * len) < len then f n + montR (f (n + len) * Z (B + n / (2 * len)))
  else f (n - len) - montR (f n * Z (B + n / (2 * len)))

theorem il_zq {len B : Nat} (f : Nat → Int) (n : Nat) : ((il len B f n : Int) : Zq) = nl len B (fun n => (f n : Zq)) n := by
  unfold il nl y
  split
  · push_cast; rw [montR_zq]; push_cast; ring
  · push_cast; rw [montR_zq]; push_cast; ring

theorem il_bound {len B : Nat} {f : Nat → Int} {bd : Int} (hlen : 0 < len) (hB : 2 * len * B = 256) (hB' : B ≤ 64) (hbd : bd ≤ 30000) (hf : ∀ n, n < 256 → -bd ≤ f n ∧ f n ≤ bd) :
    ∀ n, n < 256 → -(bd + 2496) ≤ il len B f n ∧ il len B f n ≤ bd + 2496 := by
  intro n hn
  have hk : n / (2 * len) < B := by apply Nat.div_lt_of_lt_mul; omega
  have hz := Z_bound (B + n / (2 * len)) (by omega)
  have hdm := Nat.div_add_mod n (2 * len)
  have hmod := Nat.mod_lt n (show 2 * len > 0 by omega)
  have hle : 2 * len * (n / (2 * len)) + 2 * len ≤ 256 := by
    rw [← hB, ← Nat.mul_succ]; exact Nat.mul_le_mul_left _ hk
  unfold il
  split
  · have := mul_z_bound (hf (n + len) (by omega)) (by omega) hz
    have := hf n hn
    omega
  · have := mul_z_bound (hf n hn) (by omega) hz
    have := hf (n - len) (by omega)
    omega

theorem ntt_layer_spec {r : Model.Poly} {f : Nat → Int} (h : Holds r 256 f) {len B : Nat} (hlen : 0 < len) (hB : 2 * len * B = 256) (hB' : B ≤ 64)
    (hf : ∀ n, n < 256 → -27000 ≤ f n ∧ f n ≤ 27000) :
    Post (ntt_layer r len) (fun r' => Holds r' 256 (il len B f)) := by
  have hdiv : 256 / (2 * len) = B := by rw [← hB, Nat.mul_div_cancel_left _ (by omega)]
  have hil := il_bound hlen hB hB' (bd := 27000) (by omega) hf
  unfold ntt_layer
  rw [hdiv]
  simp only [wp_bind, wp_divM, wp_pure, hdiv]
  refine ⟨by omega, ?_⟩
  refine wp_forN (fun b s => Holds s.1 256 (fun n => if n < 2 * len * b then il len B f n else f n) ∧ s.2 = B + b) ?_ ?_ ?_
  · exact ⟨h.congr fun n _ => by simp, rfl⟩
  · rintro b ⟨r', k⟩ hb ⟨hI, hk⟩
    simp only at hk hI
    subst hk
    simp only [wp_bind, wp_rd, wp_pure]
    refine ⟨_, zetas_get (by omega), ?_⟩
    have hle : 2 * len * b + 2 * len ≤ 256 := by
      rw [← hB, ← Nat.mul_succ]; exact Nat.mul_le_mul_left _ hb
    refine Post.use (ntt_butterfly_block_spec hI (Z_bound _ (by omega)) hle ?_) fun r'' hr'' => ⟨?_, by omega⟩
    · intro n _ hn'
      have hn : n < 256 := by omega
      have := hil n hn
      have := hf n hn
      split <;> omega
    · refine hr''.congr fun n hn => ?_
      rw [Nat.mul_succ]
      generalize hS : 2 * len * b = S at *
      have key : S ≤ n → n < S + 2 * len → n / (2 * len) = b ∧ n % (2 * len) = n - S := by
        intro h1 h2
        obtain ⟨o, rfl⟩ : ∃ o, n = S + o := ⟨n - S, by omega⟩
        rw [← hS, Nat.mul_add_div (by omega), Nat.mul_add_mod, Nat.div_eq_of_lt (by omega), Nat.mod_eq_of_lt (by omega)]
        omega
      unfold bf
      beta_reduce
      by_cases c1 : S ≤ n ∧ n < S + len
      · obtain ⟨hd, hm⟩ := key (by omega) (by omega)
        rw [if_pos c1, if_neg (by omega), if_neg (by omega), if_pos (by omega)]
        unfold il; rw [hm, hd, if_pos (by omega)]
      · rw [if_neg c1]
        by_cases c2 : S + len ≤ n ∧ n < S + 2 * len
        · obtain ⟨hd, hm⟩ := key (by omega) (by omega)
          rw [if_pos c2, if_neg (by omega), if_neg (by omega), if_pos (by omega)]
          unfold il; rw [hm, hd, if_neg (by omega)]
        · rw [if_neg c2]
          by_cases c3 : n < S
          · rw [if_pos c3, if_pos (by omega)]
          · rw [if_neg c3, if_neg (by omega)]
  · rintro ⟨r', k⟩ ⟨hI, _⟩
    refine hI.congr fun n hn => ?_
    rw [hB, if_pos hn]

theorem nl_congr {len B : Nat} {g g' : Nat → Zq} (hlen : 0 < len) (hB : 2 * len * B = 256) (h : ∀ n, n < 256 → g n = g' n) :
    ∀ n, n < 256 → nl len B g n = nl len B g' n := by
  intro n hn
  have hk : n / (2 * len) < B := by apply Nat.div_lt_of_lt_mul; omega
  have hdm := Nat.div_add_mod n (2 * len)
  have hmod := Nat.mod_lt n (show 2 * len > 0 by omega)
  have hle : 2 * len * (n / (2 * len)) + 2 * len ≤ 256 := by
    rw [← hB, ← Nat.mul_succ]; exact Nat.mul_le_mul_left _ hk
  unfold nl
  split
  · rw [h n hn, h (n + len) (by omega)]
  · rw [h n hn, h (n - len) (by omega)]

/-- `poly_ntt` computes the NTT; no coefficient exceeds 20800 in absolute value. -/
theorem poly_ntt_spec {p : Model.Poly} {f : Nat → Int} (h : Holds p 256 f) (hf : ∀ n, n < 256 → -3329 < f n ∧ f n < 3329) :
    Post (poly_ntt p) (fun r => ∃ g, Holds r 256 g ∧ (∀ n, n < 256 → -20800 ≤ g n ∧ g n ≤ 20800) ∧
      ∀ n, n < 256 → (g n : Zq) = NTT (fun i => (f i : Zq)) n) := by
  unfold poly_ntt
  simp only [wp_bind, wp_pure]
  refine POLY_BOUND_wp h (fun i hi => by have := hf i hi; omega) ?_
  refine wp_forN (fun l r => ∃ g, Holds r 256 g ∧ (∀ n, n < 256 → -(3328 + 2496 * (l : Int)) ≤ g n ∧ g n ≤ 3328 + 2496 * (l : Int)) ∧
      ∀ n, n < 256 → (g n : Zq) = fwd l (fun i => (f i : Zq)) n) ?_ ?_ ?_
  · exact ⟨f, h, fun n hn => by have := hf n hn; omega, fun n _ => rfl⟩
  · rintro l r hl ⟨g, hg, hb, hz⟩
    have e0 : 128 >>> l = 128 / 2 ^ l := Nat.shiftRight_eq_div_pow _ _
    have e1 : 0 < 128 / 2 ^ l := by interval_cases l <;> decide
    have e2 : 2 * (128 / 2 ^ l) * 2 ^ l = 256 := by interval_cases l <;> rfl
    have e3 : 2 ^ l ≤ 64 := by interval_cases l <;> decide
    rw [e0]
    refine Post.use (ntt_layer_spec hg e1 e2 e3 fun n hn => by have := hb n hn; omega) fun r' hr' => ?_
    refine ⟨_, hr', ?_, ?_⟩
    · intro n hn
      have := il_bound e1 e2 e3 (bd := 3328 + 2496 * (l : Int)) (by omega) hb n hn
      push_cast; omega
    · intro n hn
      rw [il_zq]
      exact nl_congr e1 e2 hz n hn
  · rintro r ⟨g, hg, hb, hz⟩
    refine POLY_BOUND_wp hg (fun i hi => by have := hb i hi; simp [NTT_BOUND, MLKEM_Q]; omega) ?_
    exact ⟨g, hg, fun n hn => by have := hb n hn; omega, fun n hn => by rw [hz n hn, fwd_NTT _ hn]⟩

end Verif

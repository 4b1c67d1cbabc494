import Verif.Proof.Ntt
/-! # The inverse NTT of the code -/
open Finset
namespace Verif
open Model Spec

variable {F : Prop}

/-- Effect of the inner loop of `invntt_layer`. -/
def ibf (start len : Nat) (z : Int) (f : Nat → Int) : Nat → Int := fun n =>
  if start ≤ n ∧ n < start + len then cmodq (f n + f (n + len))
  else if start + len ≤ n ∧ n < start + 2 * len then montR ((f n - f (n - len)) * z) else f n

theorem invntt_block_spec {r : Model.Poly} {f : Nat → Int} (h : Holds r 256 f) {z : Int} {start len : Nat} (hz : -1665 < z ∧ z < 1665)
    (hs : start + 2 * len ≤ 256) (hf : ∀ n, n < 256 → -16383 ≤ f n ∧ f n ≤ 16383) :
    Post (forFrom start len r fun j r => do
      let t ← rd r j
      let s ← i16 (t + (← rd r (j + len)))
      let r ← wr r j (← barrett_reduce s)
      let d ← i16 ((← rd r (j + len)) - t)
      let r ← wr r (j + len) d
      let m ← fqmul (← rd r (j + len)) z
      wr r (j + len) m) (fun r' => Holds r' 256 (ibf start len z f)) := by
  refine wp_forFrom (fun j r' => Holds r' 256 (fun n => if (start ≤ n ∧ n < j) ∨ (start + len ≤ n ∧ n < j + len) then ibf start len z f n else f n)) ?_ ?_ ?_
  · exact h.congr fun n _ => by rw [if_neg (by omega)]
  · intro j r' hj1 hj2 hI
    have g1 := hI.get (i := j + len) (by omega)
    have g0 := hI.get (i := j) (by omega)
    rw [if_neg (by omega)] at g1 g0
    simp only [wp_bind, wp_rd, wp_wr, wp_i16, Array.size_setIfInBounds, hI.size]
    have b0 := hf j (by omega)
    have b1 := hf (j + len) (by omega)
    refine ⟨_, g0, _, g1, by omega, ?_⟩
    refine Post.use (barrett_reduce_post _ (by omega)) fun t ht => ?_
    subst ht
    have g1' := (Array.getElem?_setIfInBounds_ne (xs := r') (a := some (cmodq (f j + f (j + len)))) (show j ≠ j + len by omega)).trans g1
    refine ⟨by omega, _, g1', by omega, by omega, f (j + len) - f j, ?_, ?_⟩
    · rw [Array.getElem?_setIfInBounds_self_of_lt (by simp [hI.size]; omega)]
    refine Post.use (fqmul_post _ _ (by omega) hz) fun t ht => ?_
    subst ht
    refine ⟨by omega, ?_⟩
    refine (((hI.set (by omega) _).set (by omega) _).set (by omega) _).congr fun n hn => ?_
    by_cases hnl : n = j + len
    · subst hnl
      rw [upd_same, if_pos (by omega)]
      unfold ibf; rw [if_neg (by omega), if_pos (by omega), show j + len - len = j by omega]
    · rw [upd_ne hnl, upd_ne hnl]
      by_cases hnj : n = j
      · subst hnj
        rw [upd_same, if_pos (by omega)]
        unfold ibf; rw [if_pos (by omega)]
      · rw [upd_ne hnj]
        by_cases hc : (start ≤ n ∧ n < j) ∨ (start + len ≤ n ∧ n < j + len)
        · rw [if_pos hc, if_pos (by omega)]
        · rw [if_neg hc, if_neg (by omega)]
  · intro r' hI
    refine hI.congr fun n hn => ?_
    split
    · rfl
    · unfold ibf; rw [if_neg (by omega), if_neg (by omega)]

/-- Integer version of an inverse layer. -/
def iil (len B : Nat) (f : Nat → Int) : Nat → Int := fun n =>
  if n % (2 * len) < len then cmodq (f n + f (n + len))
  else montR ((f n - f (n - len)) * Z (2 * B - 1 - n / (2 * len)))

theorem iil_bound {len B : Nat} {f : Nat → Int} (hlen : 0 < len) (hB : 2 * len * B = 256) (hB' : B ≤ 64) (hf : ∀ n, n < 256 → -3329 ≤ f n ∧ f n ≤ 3329) :
    ∀ n, n < 256 → -2385 ≤ iil len B f n ∧ iil len B f n ≤ 2385 := by
  intro n hn
  have hk : n / (2 * len) < B := by apply Nat.div_lt_of_lt_mul; omega
  have hz := Z_bound (2 * B - 1 - n / (2 * len)) (by have := Nat.sub_le (2 * B - 1) (n / (2 * len)); omega)
  have hdm := Nat.div_add_mod n (2 * len)
  have hmod := Nat.mod_lt n (show 2 * len > 0 by omega)
  unfold iil
  split
  · have := cmodq_bounds (f n + f (n + len)); omega
  · have h1 := hf n hn
    have h2 := hf (n - len) (by omega)
    have h := mul_bound (A := 6658) (B := 1664) (a := f n - f (n - len)) (b := Z (2 * B - 1 - n / (2 * len))) (by omega) (by omega)
    have := montR_bound h
    omega

theorem invntt_layer_spec {r : Model.Poly} {f : Nat → Int} (h : Holds r 256 f) {len B : Nat} (hlen : 0 < len) (hB : 2 * len * B = 256) (hB' : B ≤ 64)
    (hf : ∀ n, n < 256 → -3329 ≤ f n ∧ f n ≤ 3329) :
    Post (invntt_layer r len) (fun r' => Holds r' 256 (iil len B f)) := by
  have hdiv : 256 / (2 * len) = B := by rw [← hB, Nat.mul_div_cancel_left _ (by omega)]
  have hdiv2 : 256 / len = 2 * B := by
    rw [← hB, show 2 * len * B = len * (2 * B) by ring, Nat.mul_div_cancel_left _ (by omega)]
  have hil := iil_bound hlen hB hB' hf
  unfold invntt_layer
  have hB0 : 0 < B := by rcases Nat.eq_zero_or_pos B with h0 | h0
                         · subst h0; omega
                         · exact h0
  rw [hdiv]
  simp only [wp_bind, wp_divM, wp_pure, hdiv2]
  refine ⟨by omega, ?_⟩
  rw [show ((2 * B : Nat) : Int) - 1 = ((2 * B - 1 : Nat) : Int) by omega]
  refine wp_forN (fun b s => Holds s.1 256 (fun n => if n < 2 * len * b then iil len B f n else f n) ∧ s.2 = ((2 * B - 1 : Nat) : Int) - b) ?_ ?_ ?_
  · exact ⟨h.congr fun n _ => by simp, by simp⟩
  · rintro b ⟨r', k⟩ hb ⟨hI, hk⟩
    simp only at hk hI
    subst hk
    have hkk : (((2 * B - 1 : Nat) : Int) - (b : Int)).toNat = 2 * B - 1 - b := by omega
    have hkp : (0 : Int) ≤ ((2 * B - 1 : Nat) : Int) - (b : Int) := by omega
    simp only [hkp, if_true, hkk, wp_bind, wp_rd, wp_pure]
    refine ⟨_, zetas_get (by omega), ?_⟩
    have hle : 2 * len * b + 2 * len ≤ 256 := by
      rw [← hB, ← Nat.mul_succ]; exact Nat.mul_le_mul_left _ hb
    refine Post.use (invntt_block_spec hI (Z_bound _ (by omega)) hle ?_) fun r'' hr'' => ⟨?_, by push_cast; omega⟩
    · intro n hn
      have := hil n hn
      have := hf n hn
      split <;> omega
    · refine hr''.congr fun n hn => ?_
      rw [Nat.mul_succ]
      generalize hS : 2 * len * b = S at *
      have key : S ≤ n → n < S + 2 * len → n / (2 * len) = b ∧ n % (2 * len) = n - S := by
        intro h1 h2
        obtain ⟨o, rfl⟩ : ∃ o, n = S + o := ⟨n - S, by omega⟩
        rw [← hS, Nat.mul_add_div (by omega), Nat.mul_add_mod, Nat.div_eq_of_lt (by omega), Nat.mod_eq_of_lt (by omega)]
        omega
      unfold ibf
      beta_reduce
      by_cases c1 : S ≤ n ∧ n < S + len
      · obtain ⟨hd, hm⟩ := key (by omega) (by omega)
        rw [if_pos c1, if_neg (by omega), if_neg (by omega), if_pos (by omega)]
        unfold iil; rw [hm, if_pos (by omega)]
      · rw [if_neg c1]
        by_cases c2 : S + len ≤ n ∧ n < S + 2 * len
        · obtain ⟨hd, hm⟩ := key (by omega) (by omega)
          rw [if_pos c2, if_neg (by omega), if_neg (by omega), if_pos (by omega)]
          unfold iil; rw [hm, hd, if_neg (by omega)]
        · rw [if_neg c2]
          by_cases c3 : n < S
          · rw [if_pos c3, if_pos (by omega)]
          · rw [if_neg c3, if_neg (by omega)]
  · rintro ⟨r', k⟩ ⟨hI, _⟩
    refine hI.congr fun n hn => ?_
    rw [hB, if_pos hn]

/-- An inverse layer followed by the forward layer doubles every entry. -/
theorem nl_iil {len l : Nat} (hl : l < 7) (hlen : 0 < len) (hB : 2 * len * 2 ^ l = 256) (f : Nat → Int) {n : Nat} (hn : n < 256) :
    nl len (2 ^ l) (fun n => ((iil len (2 ^ l) f n : Int) : Zq)) n = 2 * (f n : Zq) := by
  have hk : n / (2 * len) < 2 ^ l := by apply Nat.div_lt_of_lt_mul; omega
  have hy := y_inv hl hk
  have hdm := Nat.div_add_mod n (2 * len)
  have hmod := Nat.mod_lt n (show 2 * len > 0 by omega)
  set b := n / (2 * len) with hb
  have hpos : ∀ o, o < 2 * len → (2 * len * b + o) / (2 * len) = b ∧ (2 * len * b + o) % (2 * len) = o := by
    intro o ho
    rw [Nat.mul_add_div (by omega), Nat.mul_add_mod, Nat.div_eq_of_lt (by omega), Nat.mod_eq_of_lt ho]
    omega
  have hyz : y (2 ^ l + b) * ((Z (2 * 2 ^ l - 1 - b) : Zq) * 169) = -1 := hy
  unfold nl
  rw [← hb]
  by_cases hc : n % (2 * len) < len
  · rw [if_pos hc]
    have e1 : n + len = 2 * len * b + (n % (2 * len) + len) := by omega
    obtain ⟨d1, m1⟩ := hpos (n % (2 * len) + len) (by omega)
    unfold iil
    beta_reduce
    rw [if_pos hc, e1, d1, m1, if_neg (by omega), show 2 * len * b + (n % (2 * len) + len) - len = n by omega, montR_zq, cmodq_zq]
    push_cast
    linear_combination ((f (2 * len * b + (n % (2 * len) + len)) : Zq) - f n) * hyz
  · rw [if_neg hc]
    have e1 : n - len = 2 * len * b + (n % (2 * len) - len) := by omega
    obtain ⟨d1, m1⟩ := hpos (n % (2 * len) - len) (by omega)
    unfold iil
    beta_reduce
    rw [if_neg hc, ← hb, e1, m1, if_pos (by omega), show 2 * len * b + (n % (2 * len) - len) + len = n by omega, montR_zq, cmodq_zq]
    push_cast
    linear_combination (-((f n : Zq) - f (2 * len * b + (n % (2 * len) - len)))) * hyz

theorem nl_smul (len B : Nat) (c : Zq) (g : Nat → Zq) (n : Nat) : nl len B (fun n => c * g n) n = c * nl len B g n := by
  unfold nl; split <;> ring

/-- The last `l` forward layers. -/
def chain : Nat → (Nat → Zq) → Nat → Zq
  | 0, g => g
  | l + 1, g => chain l (nlayer (6 - l) g)

theorem chain_smul (l : Nat) (c : Zq) (g : Nat → Zq) : chain l (fun n => c * g n) = fun n => c * chain l g n := by
  induction l generalizing g with
  | zero => rfl
  | succ l ih =>
    show chain l (nlayer (6 - l) fun n => c * g n) = _
    rw [show (nlayer (6 - l) fun n => c * g n) = fun n => c * nlayer (6 - l) g n from funext fun n => nl_smul _ _ c g n, ih]
    rfl

theorem layer_len {l : Nat} (hl : l < 7) : 0 < 128 / 2 ^ l ∧ 2 * (128 / 2 ^ l) * 2 ^ l = 256 ∧ 2 ^ l ≤ 64 := by
  interval_cases l <;> decide

theorem chain_congr {l : Nat} (hl : l ≤ 7) {g g' : Nat → Zq} (h : ∀ n, n < 256 → g n = g' n) : ∀ n, n < 256 → chain l g n = chain l g' n := by
  induction l generalizing g g' with
  | zero => exact h
  | succ l ih =>
    obtain ⟨h1, h2, _⟩ := layer_len (l := 6 - l) (by omega)
    exact ih (by omega) (nl_congr h1 h2 h)

theorem chain_seven (g : Nat → Zq) : chain 7 g = fwd 7 g := rfl

theorem NTTInv_smul (c : Zq) (g : Spec.Poly) (n : Nat) : NTTInv (fun n => c * g n) n = c * NTTInv g n := by
  have h : ∀ t : Zq, t * ∑ i ∈ range 128, c * g (2 * i + n % 2) * ((γ i)⁻¹) ^ (n / 2) = c * (t * ∑ i ∈ range 128, g (2 * i + n % 2) * ((γ i)⁻¹) ^ (n / 2)) := by
    intro t
    rw [mul_left_comm c t, mul_sum _ _ c]
    exact congrArg (fun x => t * x) (sum_congr rfl fun i _ => mul_assoc _ _ _)
  exact h 3303

/-- `poly_invntt_tomont`, for all `int16_t` inputs. -/
theorem poly_invntt_tomont_spec {p : Model.Poly} {f : Nat → Int} (h : Holds p 256 f) (hf : ∀ n, n < 256 → -32768 ≤ f n ∧ f n ≤ 32767) :
    Post (poly_invntt_tomont p) (fun r => ∃ g, Holds r 256 g ∧ (∀ n, n < 256 → -2385 ≤ g n ∧ g n ≤ 2385) ∧
      ∀ n, n < 256 → (g n : Zq) = 65536 * NTTInv (fun i => (f i : Zq)) n) := by
  unfold poly_invntt_tomont
  simp only [wp_bind, wp_pure]
  refine wp_mapLoop (fun i => montR (f i * 1441)) h ?_ ?_
  · intro i r' f' hi hr' hfi
    simp only [wp_bind, wp_rd, wp_wr]
    refine ⟨f i, by rw [hr'.get hi, hfi], ?_⟩
    refine Post.use (fqmul_post (f i) 1441 (hf i hi) (by omega)) fun u hu => ?_
    subst hu
    exact ⟨by rw [hr'.size]; omega, rfl⟩
  intro r0 hr0
  refine wp_forN (fun l r => ∃ g, Holds r 256 g ∧ (∀ n, n < 256 → -2385 ≤ g n ∧ g n ≤ 2385) ∧
      ∀ n, n < 256 → chain l (fun n => (g n : Zq)) n = 2 ^ l * ((montR (f n * 1441) : Int) : Zq)) ?_ ?_ ?_
  · refine ⟨_, hr0, fun n hn => ?_, fun n _ => by simp [chain]⟩
    have := mul_bound (A := 32768) (B := 1441) (a := f n) (b := 1441) (by have := hf n hn; omega) (by omega)
    have := montR_bound this
    omega
  · rintro l r hl ⟨g, hg, hb, hz⟩
    obtain ⟨e1, e2, e3⟩ := layer_len (l := 6 - l) (by omega)
    have e0 : 2 <<< l = 128 / 2 ^ (6 - l) := by interval_cases l <;> rfl
    rw [e0]
    refine Post.use (invntt_layer_spec hg e1 e2 e3 (fun n hn => by have := hb n hn; omega)) fun r' hr' => ⟨_, hr', iil_bound e1 e2 e3 (fun n hn => by have := hb n hn; omega), fun n hn => ?_⟩
    show chain l (nlayer (6 - l) _) n = _
    refine (chain_congr (by omega) (g' := fun n => 2 * (g n : Zq)) (fun n hn => nl_iil (l := 6 - l) (by omega) e1 e2 g hn) n hn).trans ?_
    rw [chain_smul]
    beta_reduce
    rw [hz n hn, pow_succ]; ring
  · rintro r ⟨g, hg, hb, hz⟩
    refine POLY_BOUND_wp hg (fun i hi => by have := hb i hi; simp; omega) ⟨g, hg, hb, fun n hn => ?_⟩
    have h1 : ∀ n, n < 256 → NTT (fun n => (g n : Zq)) n = 65536 * (f n : Zq) := by
      intro n hn
      rw [← fwd_NTT _ hn, ← chain_seven, hz n hn, montR_zq]
      have h2 : (2 : Zq) ^ 7 * (1441 * 169) = 65536 := by
        have := zq_cast_eq (a := 2 ^ 7 * (1441 * 169)) (b := 65536) (by norm_num)
        exact_mod_cast this
      push_cast
      rw [← h2]; ring
    rw [← NTTInv_NTT (fun n => (g n : Zq)) hn, NTTInv_congr h1, NTTInv_smul]

end Verif

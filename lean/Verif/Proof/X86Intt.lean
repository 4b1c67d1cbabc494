import Verif.Proof.X86Ntt
import Verif.Proof.InvNtt
/-! # The AVX2 inverse transform -/
namespace Verif.X86
open Verif Model Model.X86 Spec

/-- Tag `8192 + n` stands for the input coefficient `n`, tag `256 s + n` for coefficient `n` after the scaling and `s` layers,
tag `4096 + 256 s + n` for the difference of the coefficients `n + len` and `n`. -/
def inttTags : TagOps where
  add t m := if Nat.ble t 1791 && Nat.beq m (t + 2 * 2 ^ (t / 256)) && Nat.beq (t % 256 / (2 * 2 ^ (t / 256)) % 2) 0 then some (t + 256) else none
  sub m t := if Nat.ble t 1791 && Nat.beq m (t + 2 * 2 ^ (t / 256)) && Nat.beq (t % 256 / (2 * 2 ^ (t / 256)) % 2) 0 then some (4096 + t) else none
  mul t z :=
    if Nat.ble 8192 t then (if Nat.ble t 8447 && decide (z = 1441) then some (t - 8192) else none)
    else if Nat.ble 4096 t && Nat.ble t 5887 && Nat.beq (t % 256 / (2 * 2 ^ ((t - 4096) / 256)) % 2) 0 &&
      decide (z = cgt zetasList (2 * 2 ^ (6 - (t - 4096) / 256) - 1 - t % 256 / (2 * (2 * 2 ^ ((t - 4096) / 256)))))
    then some (t - 4096 + 256 + 2 * 2 ^ ((t - 4096) / 256)) else none
  red t := some t

/-- One layer of the inverse transform. -/
def ilayer (s : Nat) (g : Nat → Zq) : Nat → Zq := fun n =>
  if n % (2 * (2 * 2 ^ s)) < 2 * 2 ^ s then g n + g (n + 2 * 2 ^ s) else (g n - g (n - 2 * 2 ^ s)) * y (2 * 2 ^ (6 - s) - 1 - n / (2 * (2 * 2 ^ s)))

/-- The scaling and the first `s` layers. -/
def bwd : Nat → (Nat → Zq) → Nat → Zq
  | 0, g => fun n => g n * (1441 * 169)
  | s + 1, g => ilayer s (bwd s g)

/-- The values of the tags. -/
def inttVal (f : Nat → Zq) (t : Nat) : Zq :=
  if 8192 ≤ t then f (t - 8192)
  else if t < 4096 then bwd (t / 256) f (t % 256)
  else bwd ((t - 4096) / 256) f (t % 256 + 2 * 2 ^ ((t - 4096) / 256)) - bwd ((t - 4096) / 256) f (t % 256)

theorem inttVal_in (f : Nat → Zq) (n : Nat) : inttVal f (8192 + n) = f n := by
  unfold inttVal; rw [if_pos (by omega), Nat.add_sub_cancel_left]
theorem inttVal_lo (f : Nat → Zq) (L : Nat) {n : Nat} (hL : L < 8) (hn : n < 256) : inttVal f (256 * L + n) = bwd L f n := by
  unfold inttVal
  rw [if_neg (by omega), if_pos (by omega), show (256 * L + n) / 256 = L by omega, show (256 * L + n) % 256 = n by omega]
theorem inttVal_hi (f : Nat → Zq) (L : Nat) {n : Nat} (hL : L < 8) (hn : n < 256) :
    inttVal f (4096 + (256 * L + n)) = bwd L f (n + 2 * 2 ^ L) - bwd L f n := by
  unfold inttVal
  rw [if_neg (by omega), if_neg (by omega), show (4096 + (256 * L + n) - 4096) / 256 = L by omega, show (4096 + (256 * L + n)) % 256 = n by omega]

theorem bwd_pair (f : Nat → Zq) {s n : Nat} (hs : s < 7) (hn : n < 256) (h : n / (2 * 2 ^ s) % 2 = 0) :
    n + 2 * 2 ^ s < 256 ∧
    bwd (s + 1) f n = bwd s f n + bwd s f (n + 2 * 2 ^ s) ∧
    bwd (s + 1) f (n + 2 * 2 ^ s) = (bwd s f (n + 2 * 2 ^ s) - bwd s f n) * y (2 * 2 ^ (6 - s) - 1 - n / (2 * (2 * 2 ^ s))) := by
  have e : ∀ n, bwd (s + 1) f n = ilayer s (bwd s f) n := fun _ => rfl
  obtain ⟨len, hlen⟩ : ∃ len, len = 2 * 2 ^ s := ⟨_, rfl⟩
  have hp : len = 128 ∨ len = 64 ∨ len = 32 ∨ len = 16 ∨ len = 8 ∨ len = 4 ∨ len = 2 := by
    rw [hlen]; interval_cases s <;> decide
  rw [e, e]
  unfold ilayer
  rw [← hlen]
  rw [← hlen] at h
  have h0 : n + len < 256 := by rcases hp with rfl | rfl | rfl | rfl | rfl | rfl | rfl <;> omega
  have h1 : n % (2 * len) < len := by rcases hp with rfl | rfl | rfl | rfl | rfl | rfl | rfl <;> omega
  have h2 : ¬ (n + len) % (2 * len) < len := by rcases hp with rfl | rfl | rfl | rfl | rfl | rfl | rfl <;> omega
  have h3 : (n + len) / (2 * len) = n / (2 * len) := by rcases hp with rfl | rfl | rfl | rfl | rfl | rfl | rfl <;> omega
  rw [if_pos h1, if_neg h2, h3, Nat.add_sub_cancel]
  exact ⟨h0, rfl, rfl⟩

theorem inttTags_sound (f : Nat → Zq) : inttTags.Sound (inttVal f) where
  add t m u h := by
    simp only [inttTags] at h
    split at h <;> [skip; cases h]
    rename_i hc
    simp only [Bool.and_eq_true, Nat.ble_eq, Nat.beq_eq] at hc
    obtain ⟨⟨h0, h2⟩, h4⟩ := hc
    cases Option.some.inj h
    obtain ⟨s, n, hn, rfl⟩ : ∃ L n, n < 256 ∧ t = 256 * L + n := ⟨t / 256, t % 256, by omega, by omega⟩
    have hs : s < 7 := by omega
    have e1 : (256 * s + n) / 256 = s := by omega
    have e2 : (256 * s + n) % 256 = n := by omega
    rw [e1] at h2 h4
    rw [e2] at h4
    obtain ⟨g0, g1, g2⟩ := bwd_pair f hs hn h4
    generalize hlen : 2 * 2 ^ s = len at *
    obtain rfl : m = 256 * s + (n + len) := by omega
    rw [show 256 * s + n + 256 = 256 * (s + 1) + n by omega, inttVal_lo f _ (by omega) hn, inttVal_lo f _ (by omega) hn, inttVal_lo f _ (by omega) (by omega)]
    exact g1
  sub m t u h := by
    simp only [inttTags] at h
    split at h <;> [skip; cases h]
    rename_i hc
    simp only [Bool.and_eq_true, Nat.ble_eq, Nat.beq_eq] at hc
    obtain ⟨⟨h0, h2⟩, h4⟩ := hc
    cases Option.some.inj h
    obtain ⟨s, n, hn, rfl⟩ : ∃ L n, n < 256 ∧ t = 256 * L + n := ⟨t / 256, t % 256, by omega, by omega⟩
    have hs : s < 7 := by omega
    have e1 : (256 * s + n) / 256 = s := by omega
    have e2 : (256 * s + n) % 256 = n := by omega
    rw [e1] at h2 h4
    rw [e2] at h4
    obtain ⟨g0, g1, g2⟩ := bwd_pair f hs hn h4
    generalize hlen : 2 * 2 ^ s = len at *
    obtain rfl : m = 256 * s + (n + len) := by omega
    rw [inttVal_hi f _ (by omega) hn, inttVal_lo f _ (by omega) hn, inttVal_lo f _ (by omega) (by omega), hlen]
  mul t z u h := by
    simp only [inttTags] at h
    split at h
    · rename_i h0
      rw [Nat.ble_eq] at h0
      split at h <;> [skip; cases h]
      rename_i hc
      simp only [Bool.and_eq_true, Nat.ble_eq, decide_eq_true_eq] at hc
      cases Option.some.inj h
      obtain ⟨n, rfl⟩ : ∃ n, t = 8192 + n := ⟨t - 8192, by omega⟩
      rw [hc.2, inttVal_in, show 8192 + n - 8192 = 256 * 0 + n by omega, inttVal_lo f 0 (by omega) (by omega)]
      show f n * (1441 * 169) = _
      push_cast
      rfl
    · rename_i h0
      rw [Nat.ble_eq] at h0
      split at h <;> [skip; cases h]
      rename_i hc
      simp only [Bool.and_eq_true, Nat.ble_eq, Nat.beq_eq, decide_eq_true_eq] at hc
      obtain ⟨⟨⟨h1, h2⟩, h3⟩, h4⟩ := hc
      cases Option.some.inj h
      obtain ⟨s, n, hn, rfl⟩ : ∃ L n, n < 256 ∧ t = 4096 + (256 * L + n) := ⟨(t - 4096) / 256, t % 256, by omega, by omega⟩
      have hs : s < 7 := by omega
      have e1 : (4096 + (256 * s + n) - 4096) / 256 = s := by omega
      have e2 : (4096 + (256 * s + n)) % 256 = n := by omega
      rw [e1, e2] at h3 h4
      rw [cgt_eq] at h4
      rw [e1]
      obtain ⟨g0, g1, g2⟩ := bwd_pair f hs hn h3
      rw [show 4096 + (256 * s + n) - 4096 + 256 + 2 * 2 ^ s = 256 * (s + 1) + (n + 2 * 2 ^ s) by omega, inttVal_lo f _ (by omega) g0, inttVal_hi f _ (by omega) hn, g2, h4]
      rfl
  red t u h := by cases Option.some.inj h; rfl

/-- An inverse layer followed by the forward layer doubles every entry. -/
theorem nlayer_ilayer {s : Nat} (hs : s < 7) (g : Nat → Zq) {n : Nat} (hn : n < 256) : nlayer (6 - s) (ilayer s g) n = 2 * g n := by
  obtain ⟨len, hlen⟩ : ∃ len, len = 2 * 2 ^ s := ⟨_, rfl⟩
  have hlen' : 128 / 2 ^ (6 - s) = len := by rw [hlen]; interval_cases s <;> rfl
  have hp : len = 128 ∨ len = 64 ∨ len = 32 ∨ len = 16 ∨ len = 8 ∨ len = 4 ∨ len = 2 := by
    rw [hlen]; interval_cases s <;> decide
  have hB : 2 * len * 2 ^ (6 - s) = 256 := by rw [hlen]; interval_cases s <;> rfl
  have hk : n / (2 * len) < 2 ^ (6 - s) := by apply Nat.div_lt_of_lt_mul; omega
  have hy := y_inv (l := 6 - s) (by omega) hk
  unfold nlayer nl ilayer
  rw [hlen', ← hlen]
  by_cases hc : n % (2 * len) < len
  · have h2 : ¬ (n + len) % (2 * len) < len := by rcases hp with rfl | rfl | rfl | rfl | rfl | rfl | rfl <;> omega
    have h3 : (n + len) / (2 * len) = n / (2 * len) := by rcases hp with rfl | rfl | rfl | rfl | rfl | rfl | rfl <;> omega
    rw [if_pos hc, if_pos hc, if_neg h2, h3, Nat.add_sub_cancel]
    linear_combination (g (n + len) - g n) * hy
  · have h1 : (n - len) % (2 * len) < len := by rcases hp with rfl | rfl | rfl | rfl | rfl | rfl | rfl <;> omega
    have h3 : n - len + len = n := by rcases hp with rfl | rfl | rfl | rfl | rfl | rfl | rfl <;> omega
    rw [if_neg hc, if_neg hc, if_pos h1, h3]
    linear_combination (-(g n - g (n - len))) * hy

theorem bwd_chain (f : Nat → Zq) : ∀ s, s ≤ 7 → ∀ n, n < 256 → chain s (bwd s f) n = 2 ^ s * (f n * (1441 * 169)) := by
  intro s
  induction s with
  | zero => intro _ n _; simp [chain, bwd]
  | succ s ih =>
    intro hs n hn
    show chain s (nlayer (6 - s) (ilayer s (bwd s f))) n = _
    refine (chain_congr (by omega) (g' := fun n => 2 * bwd s f n) (fun n hn => nlayer_ilayer (by omega) _ hn) n hn).trans ?_
    rw [chain_smul]
    beta_reduce
    rw [ih (by omega) n hn, pow_succ]; ring

theorem bwd_seven (f : Nat → Zq) {n : Nat} (hn : n < 256) : bwd 7 f n = 65536 * NTTInv f n := by
  have h1 : ∀ n, n < 256 → NTT (bwd 7 f) n = 65536 * f n := by
    intro n hn
    rw [← fwd_NTT _ hn, ← chain_seven, bwd_chain f 7 (by omega) n hn]
    have h2 : (2 : Zq) ^ 7 * (1441 * 169) = 65536 := by
      have := zq_cast_eq (a := 2 ^ 7 * (1441 * 169)) (b := 65536) (by norm_num)
      exact_mod_cast this
    rw [← h2]; ring
  rw [← NTTInv_NTT (bwd 7 f) hn, NTTInv_congr h1, NTTInv_smul]

theorem intt_chk : chkP inttTags Intt.invntt_avx2 256 (fun i => .v i (8192 + cust i) 32768) (fun p x => match x with
    | .v _ t b => Nat.beq t (1792 + p) && Nat.ble b 26631
    | _ => false) = true := by decide +kernel

/-- The permutation is onto. -/
def custInv (p : Nat) : Nat := 128 * (p / 128) + 16 * (p % 8) + p / 8 % 16
theorem cust_custInv : ∀ {p : Nat}, p < 256 → cust (custInv p) = p := by decide +kernel
theorem custInv_cust : ∀ {p : Nat}, p < 256 → custInv (cust p) = p := by decide +kernel
theorem cust_lt {p : Nat} (h : p < 256) : cust p < 256 := by unfold cust; omega
theorem custInv_lt {p : Nat} (h : p < 256) : custInv p < 256 := by unfold custInv; omega

/-- `intt_native` for the x86_64 backend: position `i` of the argument holds coefficient `cust i`. -/
theorem intt_native_spec {p : Model.Poly} {f : Nat → Int} (h : Holds p 256 fun i => f (cust i)) (hf : ∀ n, n < 256 → -32768 ≤ f n ∧ f n ≤ 32767) (g : Nat → Ymm) :
    Post (intt_native g p) (fun p' => ∃ v, Holds p' 256 v ∧ (∀ n, n < 256 → -26632 < v n ∧ v n < 26632) ∧
      ∀ n, n < 256 → (v n : Zq) = 65536 * NTTInv (fun i => (f i : Zq)) n) := by
  refine PostF.mono (runP_spec (e := fun i => f (cust i)) (inttTags_sound fun i => (f i : Zq)) intt_chk h fun i hi => ⟨?_, rfl⟩) ?_
  · have : -32768 ≤ (fun i => f (cust i)) i ∧ (fun i => f (cust i)) i ≤ 32767 := hf (cust i) (cust_lt hi)
    exact ⟨hi, by decide, by omega, by omega, by omega, (inttVal_in (fun i => (f i : Zq)) (cust i)).symm⟩
  · rintro p' ⟨e', n', v, -, hv, hx⟩
    refine ⟨v, hv, fun i hi => ?_, fun i hi => ?_⟩
    · obtain ⟨x, h1, h2, h3⟩ := hx i hi
      split at h1
      · simp only [Bool.and_eq_true, Nat.ble_eq, Nat.beq_eq] at h1
        obtain ⟨-, -, g1, g2, g3, g4⟩ := h2
        rw [← h3]; simp only [E.eval]; omega
      · cases h1
    · obtain ⟨x, h1, h2, h3⟩ := hx i hi
      split at h1
      · simp only [Bool.and_eq_true, Nat.ble_eq, Nat.beq_eq] at h1
        obtain ⟨-, -, g1, g2, g3, g4⟩ := h2
        rw [← h3]; simp only [E.eval]; rw [g4, h1.1, show 1792 + i = 256 * 7 + i by omega, inttVal_lo _ _ (by omega) hi, bwd_seven _ hi]
      · cases h1

end Verif.X86

import Verif.Proof.X86Mem
import Verif.Proof.Ntt
/-! # The AVX2 forward transform -/
namespace Verif.X86
open Verif Model Model.X86 Spec

/-- Position `p` of a polynomial in the order of the AVX2 code holds coefficient `cust p` of the transform. -/
def cust (p : Nat) : Nat := 128 * (p / 128) + 8 * (p % 16) + p / 16 % 8

/-- Tag `256 L + n` stands for coefficient `n` after `L` layers, tag `4096 + t` for the product with the zeta of its butterfly. -/
def nttTags : TagOps where
  add t m := if Nat.ble t 1791 && Nat.ble 4096 m && Nat.beq (m - 4096) (t + 128 / 2 ^ (t / 256)) && Nat.ble (m - 4096) (256 * (t / 256) + 255) && Nat.beq (t % 256 / (128 / 2 ^ (t / 256)) % 2) 0 then some (t + 256) else none
  sub t m := if Nat.ble t 1791 && Nat.ble 4096 m && Nat.beq (m - 4096) (t + 128 / 2 ^ (t / 256)) && Nat.ble (m - 4096) (256 * (t / 256) + 255) && Nat.beq (t % 256 / (128 / 2 ^ (t / 256)) % 2) 0 then some (m - 4096 + 256) else none
  mul t z := if Nat.ble (t / 256) 6 && Nat.beq (t % 256 / (128 / 2 ^ (t / 256)) % 2) 1 && decide (z = cgt zetasList (2 ^ (t / 256) + t % 256 / (2 * (128 / 2 ^ (t / 256))))) then some (4096 + t) else none
  red _ := none

/-- The values of the tags. -/
def nttVal (f : Nat → Zq) (t : Nat) : Zq :=
  if t < 4096 then fwd (t / 256) f (t % 256) else fwd ((t - 4096) / 256) f (t % 256) * y (2 ^ ((t - 4096) / 256) + t % 256 / (2 * (128 / 2 ^ ((t - 4096) / 256))))

theorem cgt_eq (l : List Int) (k : Nat) : cgt l k = l.getD k 0 := by
  induction l generalizing k with
  | nil => simp [cgt]
  | cons a l ih => cases k with
    | zero => rfl
    | succ k => simpa [cgt] using ih k

theorem fwd_pair (f : Nat → Zq) {L n : Nat} (hL : L < 7) (h : n / (128 / 2 ^ L) % 2 = 0) :
    fwd (L + 1) f n = fwd L f n + fwd L f (n + 128 / 2 ^ L) * y (2 ^ L + (n + 128 / 2 ^ L) / (2 * (128 / 2 ^ L))) ∧
    fwd (L + 1) f (n + 128 / 2 ^ L) = fwd L f n - fwd L f (n + 128 / 2 ^ L) * y (2 ^ L + (n + 128 / 2 ^ L) / (2 * (128 / 2 ^ L))) := by
  have e : ∀ n, fwd (L + 1) f n = nl (128 / 2 ^ L) (2 ^ L) (fwd L f) n := fun _ => rfl
  obtain ⟨len, hlen⟩ : ∃ len, len = 128 / 2 ^ L := ⟨_, rfl⟩
  have hp : len = 128 ∨ len = 64 ∨ len = 32 ∨ len = 16 ∨ len = 8 ∨ len = 4 ∨ len = 2 := by
    rw [hlen]; interval_cases L <;> decide
  rw [e, e, ← hlen]
  rw [← hlen] at h
  unfold nl
  have h1 : n % (2 * len) < len := by rcases hp with rfl | rfl | rfl | rfl | rfl | rfl | rfl <;> omega
  have h2 : ¬ (n + len) % (2 * len) < len := by rcases hp with rfl | rfl | rfl | rfl | rfl | rfl | rfl <;> omega
  have h3 : (n + len) / (2 * len) = n / (2 * len) := by rcases hp with rfl | rfl | rfl | rfl | rfl | rfl | rfl <;> omega
  rw [if_pos h1, if_neg h2, h3, Nat.add_sub_cancel]
  exact ⟨rfl, rfl⟩

theorem nttVal_lo (f : Nat → Zq) (L : Nat) {n : Nat} (hL : L < 8) (hn : n < 256) : nttVal f (256 * L + n) = fwd L f n := by
  unfold nttVal
  rw [if_pos (by omega), show (256 * L + n) / 256 = L by omega, show (256 * L + n) % 256 = n by omega]
theorem nttVal_hi (f : Nat → Zq) (L : Nat) {n : Nat} (hn : n < 256) :
    nttVal f (4096 + (256 * L + n)) = fwd L f n * y (2 ^ L + n / (2 * (128 / 2 ^ L))) := by
  unfold nttVal
  rw [if_neg (by omega), show (4096 + (256 * L + n) - 4096) / 256 = L by omega, show (4096 + (256 * L + n)) % 256 = n by omega]

theorem nttTags_sound (f : Nat → Zq) : nttTags.Sound (nttVal f) where
  add t m u h := by
    simp only [nttTags] at h
    split at h <;> [skip; cases h]
    rename_i hc
    simp only [Bool.and_eq_true, Nat.ble_eq, Nat.beq_eq] at hc
    obtain ⟨⟨⟨⟨h0, h1⟩, h2⟩, h3⟩, h4⟩ := hc
    cases Option.some.inj h
    obtain ⟨L, n, hn, rfl⟩ : ∃ L n, n < 256 ∧ t = 256 * L + n := ⟨t / 256, t % 256, by omega, by omega⟩
    have hL : L < 7 := by omega
    have e1 : (256 * L + n) / 256 = L := by omega
    have e2 : (256 * L + n) % 256 = n := by omega
    rw [e1] at h2 h3 h4
    rw [e2] at h4
    have hp := fwd_pair f hL h4
    generalize hlen : 128 / 2 ^ L = len at *
    obtain rfl : m = 4096 + (256 * L + (n + len)) := by omega
    rw [show 256 * L + n + 256 = 256 * (L + 1) + n by omega, nttVal_lo f _ (by omega) hn, nttVal_lo f _ (by omega) hn, nttVal_hi f _ (by omega), hlen]
    exact hp.1
  sub t m u h := by
    simp only [nttTags] at h
    split at h <;> [skip; cases h]
    rename_i hc
    simp only [Bool.and_eq_true, Nat.ble_eq, Nat.beq_eq] at hc
    obtain ⟨⟨⟨⟨h0, h1⟩, h2⟩, h3⟩, h4⟩ := hc
    cases Option.some.inj h
    obtain ⟨L, n, hn, rfl⟩ : ∃ L n, n < 256 ∧ t = 256 * L + n := ⟨t / 256, t % 256, by omega, by omega⟩
    have hL : L < 7 := by omega
    have e1 : (256 * L + n) / 256 = L := by omega
    have e2 : (256 * L + n) % 256 = n := by omega
    rw [e1] at h2 h3 h4
    rw [e2] at h4
    have hp := fwd_pair f hL h4
    generalize hlen : 128 / 2 ^ L = len at *
    obtain rfl : m = 4096 + (256 * L + (n + len)) := by omega
    rw [show 4096 + (256 * L + (n + len)) - 4096 + 256 = 256 * (L + 1) + (n + len) by omega, nttVal_lo f _ (by omega) (by omega), nttVal_lo f _ (by omega) hn,
      nttVal_hi f _ (by omega), hlen]
    exact hp.2
  mul t z u h := by
    simp only [nttTags] at h
    split at h <;> [skip; cases h]
    rename_i hc
    simp only [Bool.and_eq_true, Nat.ble_eq, Nat.beq_eq, decide_eq_true_eq] at hc
    obtain ⟨⟨h0, -⟩, h2⟩ := hc
    cases Option.some.inj h
    obtain ⟨L, n, hn, rfl⟩ : ∃ L n, n < 256 ∧ t = 256 * L + n := ⟨t / 256, t % 256, by omega, by omega⟩
    have e1 : (256 * L + n) / 256 = L := by omega
    have e2 : (256 * L + n) % 256 = n := by omega
    rw [e1] at h0 h2
    rw [e2, cgt_eq] at h2
    rw [nttVal_hi f L hn, nttVal_lo f L (by omega) hn, h2]
    rfl
  red t u h := by cases h

theorem ntt_chk : chkP nttTags Ntt.ntt_avx2 256 (fun i => .v i i 3328) (fun p x => match x with
    | .v _ t b => Nat.beq t (1792 + cust p) && Nat.ble b 26631
    | _ => false) = true := by decide +kernel

/-- `ntt_native` for the x86_64 backend. -/
theorem ntt_native_spec {p : Model.Poly} {f : Nat → Int} (h : Holds p 256 f) (hf : ∀ n, n < 256 → -3329 < f n ∧ f n < 3329) (g : Nat → Ymm) :
    Post (ntt_native g p) (fun p' => ∃ v, Holds p' 256 v ∧ (∀ n, n < 256 → -26632 < v n ∧ v n < 26632) ∧ ∀ n, n < 256 → (v n : Zq) = NTT (fun i => (f i : Zq)) (cust n)) := by
  refine PostF.mono (runP_spec (e := f) (nttTags_sound fun i => (f i : Zq)) ntt_chk h fun i hi => ⟨?_, rfl⟩) ?_
  · have := hf i hi
    refine ⟨hi, by decide, by omega, by omega, by omega, ?_⟩
    unfold nttVal
    rw [if_pos (by omega), show i / 256 = 0 by omega, show i % 256 = i by omega]; rfl
  · rintro p' ⟨e', n', v, -, hv, hx⟩
    refine ⟨v, hv, fun i hi => ?_, fun i hi => ?_⟩
    · obtain ⟨x, h1, h2, h3⟩ := hx i hi
      split at h1
      · simp only [Bool.and_eq_true, Nat.ble_eq, Nat.beq_eq] at h1
        obtain ⟨-, -, g1, g2, g3, g4⟩ := h2
        rw [← h3]; simp only [E.eval]; omega
      · cases h1
    · obtain ⟨x, h1, h2, h3⟩ := hx i hi
      split at h1
      · simp only [Bool.and_eq_true, Nat.ble_eq, Nat.beq_eq] at h1
        obtain ⟨-, -, g1, g2, g3, g4⟩ := h2
        have hc : cust i < 256 := by unfold cust; omega
        rw [← h3]; simp only [E.eval]; rw [g4, h1.1]
        unfold nttVal
        rw [if_pos (by omega), show (1792 + cust i) / 256 = 7 by omega, show (1792 + cust i) % 256 = cust i by omega, fwd_NTT _ hc]
      · cases h1

end Verif.X86

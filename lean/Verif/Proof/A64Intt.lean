import Verif.Proof.A64Ntt
import Verif.Proof.X86Intt
/-! # The AArch64 inverse transform -/
namespace Verif.A64
open Verif Model Model.A64 Spec
open Verif.X86 (bwd bwd_pair bwd_seven cgt cgt_eq Ext mth)

/-- As `X86.inttTags`; the difference is that of the coefficients `n` and `n + len`, and the constants are the negated roots. -/
def inttTags : TagOps where
  add := X86.inttTags.add
  sub t m := X86.inttTags.sub m t
  mul t z :=
    if Nat.ble 8192 t then (if Nat.ble t 8447 && decide ((z - 512) % 3329 = 0) then some (t - 8192) else none)
    else if Nat.ble 4096 t && Nat.ble t 5887 && Nat.beq (t % 256 / (2 * 2 ^ ((t - 4096) / 256)) % 2) 0 &&
      isZeta (-z) (2 * 2 ^ (6 - (t - 4096) / 256) - 1 - t % 256 / (2 * (2 * 2 ^ ((t - 4096) / 256))))
    then some (t - 4096 + 256 + 2 * 2 ^ ((t - 4096) / 256)) else none
  red t := some t

/-- The values of the tags. -/
def inttVal (f : Nat → Zq) (t : Nat) : Zq := if 8192 ≤ t ∨ t < 4096 then X86.inttVal f t else -X86.inttVal f t

theorem inttVal_in (f : Nat → Zq) (n : Nat) : inttVal f (8192 + n) = f n := by
  unfold inttVal; rw [if_pos (by omega), X86.inttVal_in]
theorem inttVal_lo (f : Nat → Zq) (L : Nat) {n : Nat} (hL : L < 8) (hn : n < 256) : inttVal f (256 * L + n) = bwd L f n := by
  unfold inttVal; rw [if_pos (by omega), X86.inttVal_lo f L hL hn]
theorem inttVal_hi (f : Nat → Zq) (L : Nat) {n : Nat} (hL : L < 8) (hn : n < 256) : inttVal f (4096 + (256 * L + n)) = bwd L f n - bwd L f (n + 2 * 2 ^ L) := by
  unfold inttVal; rw [if_neg (by omega), X86.inttVal_hi f L hL hn, neg_sub]

theorem inttTags_sound (f : Nat → Zq) : inttTags.Sound (inttVal f) where
  add t m u h := by
    simp only [inttTags, X86.inttTags] at h
    split at h <;> [skip; cases h]
    rename_i hc
    simp only [Bool.and_eq_true, Nat.ble_eq, Nat.beq_eq] at hc
    obtain ⟨⟨h0, h2⟩, h4⟩ := hc
    cases Option.some.inj h
    obtain ⟨s, n, hn, rfl⟩ : ∃ L n, n < 256 ∧ t = 256 * L + n := ⟨t / 256, t % 256, by omega, by omega⟩
    have hs : s < 7 := by omega
    have e1 : (256 * s + n) / 256 = s := by omega
    have e2 : (256 * s + n) % 256 = n := by omega
    rw [e1] at h2 h4
    rw [e2] at h4
    obtain ⟨g0, g1, g2⟩ := bwd_pair f hs hn h4
    generalize hlen : 2 * 2 ^ s = len at *
    obtain rfl : m = 256 * s + (n + len) := by omega
    rw [show 256 * s + n + 256 = 256 * (s + 1) + n by omega, inttVal_lo f _ (by omega) hn, inttVal_lo f _ (by omega) hn, inttVal_lo f _ (by omega) (by omega)]
    exact g1
  sub t m u h := by
    simp only [inttTags, X86.inttTags] at h
    split at h <;> [skip; cases h]
    rename_i hc
    simp only [Bool.and_eq_true, Nat.ble_eq, Nat.beq_eq] at hc
    obtain ⟨⟨h0, h2⟩, h4⟩ := hc
    cases Option.some.inj h
    obtain ⟨s, n, hn, rfl⟩ : ∃ L n, n < 256 ∧ t = 256 * L + n := ⟨t / 256, t % 256, by omega, by omega⟩
    have hs : s < 7 := by omega
    have e1 : (256 * s + n) / 256 = s := by omega
    have e2 : (256 * s + n) % 256 = n := by omega
    rw [e1] at h2 h4
    rw [e2] at h4
    obtain ⟨g0, g1, g2⟩ := bwd_pair f hs hn h4
    generalize hlen : 2 * 2 ^ s = len at *
    obtain rfl : m = 256 * s + (n + len) := by omega
    rw [inttVal_hi f _ (by omega) hn, inttVal_lo f _ (by omega) hn, inttVal_lo f _ (by omega) (by omega), hlen]
  mul t z u h := by
    simp only [inttTags, X86.inttTags] at h
    split at h
    · rename_i h0
      rw [Nat.ble_eq] at h0
      split at h <;> [skip; cases h]
      rename_i hc
      simp only [Bool.and_eq_true, Nat.ble_eq, decide_eq_true_eq] at hc
      cases Option.some.inj h
      obtain ⟨n, rfl⟩ : ∃ n, t = 8192 + n := ⟨t - 8192, by omega⟩
      have hz : (z : Zq) = 1441 * 169 := by
        have := cast_eq_of (a := z) (b := 1441 * 169) (by omega)
        exact_mod_cast this
      rw [hz, inttVal_in, show 8192 + n - 8192 = 256 * 0 + n by omega, inttVal_lo f 0 (by omega) (by omega)]
      rfl
    · rename_i h0
      rw [Nat.ble_eq] at h0
      split at h <;> [skip; cases h]
      rename_i hc
      simp only [Bool.and_eq_true, Nat.ble_eq, Nat.beq_eq] at hc
      obtain ⟨⟨⟨h1, h2⟩, h3⟩, h4⟩ := hc
      cases Option.some.inj h
      obtain ⟨s, n, hn, rfl⟩ : ∃ L n, n < 256 ∧ t = 4096 + (256 * L + n) := ⟨(t - 4096) / 256, t % 256, by omega, by omega⟩
      have hs : s < 7 := by omega
      have e1 : (4096 + (256 * s + n) - 4096) / 256 = s := by omega
      have e2 : (4096 + (256 * s + n)) % 256 = n := by omega
      rw [e1, e2] at h3 h4
      have h4 := isZeta_eq h4
      push_cast at h4
      rw [e1]
      obtain ⟨g0, g1, g2⟩ := bwd_pair f hs hn h3
      rw [show 4096 + (256 * s + n) - 4096 + 256 + 2 * 2 ^ s = 256 * (s + 1) + (n + 2 * 2 ^ s) by omega, inttVal_lo f _ (by omega) g0, inttVal_hi f _ (by omega) hn, g2, ← h4]
      ring
  red t u h := by cases Option.some.inj h; rfl

/-- The check of an inverse transform. -/
noncomputable def inttChk (prog : List Block) : Bool :=
  match start inttTags prog (tabArgs .aarch64_invntt_zetas_layer01234 .aarch64_invntt_zetas_layer56) 256 (memOf (fun i => .v i (8192 + i) 32768) 0 32) [] [] [] [] with
  | none => false
  | some r => chkSaved 256 r && chkM (fun p x => match x with
    | .v _ t b => Nat.beq t (1792 + p) && Nat.ble b 26631
    | _ => false) 8 32 0 (mth r.W 0)

theorem inttChk_clean : inttChk intt_asm_clean = true := by decide +kernel
theorem inttChk_opt : inttChk intt_asm_opt = true := by decide +kernel

theorem intt_run {prog : List Block} (hc : inttChk prog = true) {p : Model.Poly} {f : Nat → Int} (h : Holds p 256 f) (hf : ∀ n, n < 256 → -32768 ≤ f n ∧ f n ≤ 32767) (g : Entry)
    {m : Obj → Buf Int} {b : Obj → Buf UInt8} (hm : m .a0 = p) :
    PostF F (run prog (call g (tabArgs .aarch64_invntt_zetas_layer01234 .aarch64_invntt_zetas_layer56) m b)) (fun s => Saved g s ∧ ∃ v, Holds (s.m .a0) 256 v ∧
      ∀ n, n < 256 → (-26632 < v n ∧ v n < 26632) ∧ (v n : Zq) = 65536 * NTTInv (fun i => (f i : Zq)) n) := by
  refine PostF.mono (run1_spec (inttTags_sound fun i => (f i : Zq)) hc (by simp [tabArgs]) h (fun i hi => ?_) g hm) ?_
  · have := hf i hi
    exact ⟨⟨hi, by decide, by omega, by omega, by omega, (inttVal_in (fun i => (f i : Zq)) i).symm⟩, rfl, by omega, by omega⟩
  · rintro s ⟨hs, e', n', v, -, hv, hx⟩
    refine ⟨hs, v, hv, fun i hi => ?_⟩
    obtain ⟨x, h1, h2, h3, -⟩ := hx i hi
    split at h1
    · simp only [Bool.and_eq_true, Nat.ble_eq, Nat.beq_eq] at h1
      obtain ⟨-, -, g1, g2, g3, g4⟩ := h2
      rw [← h3]; simp only [E.eval]
      refine ⟨by omega, ?_⟩
      rw [g4, h1.1, show 1792 + i = 256 * 7 + i by omega, inttVal_lo _ _ (by omega) hi, bwd_seven _ hi]
    · cases h1

end Verif.A64

import Verif.Proof.Failure
/-! # How often decryption goes wrong: from the bytes of a run to the moments -/
open Finset
namespace Verif.Failure
open Verif.Spec

section
attribute [local irreducible] NTT NTTInv MultiplyNTTs mulRq Compress Decompress ByteDecode

variable {k : Nat} (A : Nat → Nat → Poly) (m : List UInt8)

/-- Decryption computes the encoded message plus the noise. -/
theorem decrypted_eq (N : Noise) {c : Nat} (hc : c < 256) :
    N.decrypted k A m c = Compress 1 (Decompress 1 (ByteDecode 1 m c) + ((N.v' k A m c - (N.v k A m c - N.e2 c))
      + ((∑ i ∈ range k, mulRq (N.e i) (N.y i) c) - ∑ j ∈ range k, mulRq (N.s j) (fun n => N.u' k A j n - (N.u k A j n - N.e1 j n)) c))) := by
  unfold Noise.decrypted
  have h := decrypt_algebra k N.s N.e N.y (fun j n => N.u' k A j n - (N.u k A j n - N.e1 j n)) (N.t k A) (N.u' k A) A
    (N.v' k A m c - (N.v k A m c - N.e2 c) + Decompress 1 (ByteDecode 1 m c)) (fun i c => rfl)
    (fun j n => by simp only [Noise.u]; ring) hc
  congr 1
  have e : N.v' k A m c = NTTInv (fun p => ∑ i ∈ range k, MultiplyNTTs (N.t k A i) (NTT (N.y i)) p) c + (N.v' k A m c - (N.v k A m c - N.e2 c) + Decompress 1 (ByteDecode 1 m c)) := by
    unfold Noise.v; ring
  rw [e, h]
  rw [← e]
  ring

/-- The integer noise made of the bits of a run: everything that `f` stands for in `dot`. -/
noncomputable def fOf (k η d : Nat) (A : Nat → Nat → Poly) (y : V k η) (i : Fin k) (a : Fin 256) (b : Bits 2) : ℤ :=
  cErr d (NTTInv (fun c => ∑ j ∈ range k, MultiplyNTTs (A j i) (NTT (fun n => if h : j < k ∧ n < 256 then ((val η (y ⟨j, h.1⟩ ⟨n, h.2⟩) : ℤ) : Zq) else 0)) c) a) (val 2 b)

/-- The bits of the bytes. -/
noncomputable def toBits (k : Nat) : NoiseBytes k ≃ Ω k (η₁ k) where
  toFun b := ⟨fun i => bitsEquiv _ (b.s i), fun i => bitsEquiv _ (b.e i), fun i => bitsEquiv _ (b.y i), fun i => bitsEquiv 2 (b.e1 i), bitsEquiv 2 b.e2⟩
  invFun ω := ⟨fun i => (bitsEquiv _).symm (ω.1 i), fun i => (bitsEquiv _).symm (ω.2.1 i), fun i => (bitsEquiv _).symm (ω.2.2.1 i), fun i => (bitsEquiv 2).symm (ω.2.2.2.1 i),
    (bitsEquiv 2).symm ω.2.2.2.2⟩
  left_inv b := by
    rcases b with ⟨s, e, y, e1, e2⟩
    refine Eq.mpr (NoiseBytes.mk.injEq _ _ _ _ _ _ _ _ _ _) ⟨funext fun i => Equiv.symm_apply_apply _ _, funext fun i => Equiv.symm_apply_apply _ _, funext fun i => Equiv.symm_apply_apply _ _,
      funext fun i => Equiv.symm_apply_apply (bitsEquiv 2) _, Equiv.symm_apply_apply (bitsEquiv 2) _⟩
  right_inv ω := by
    rcases ω with ⟨s, e, y, e1, e2⟩
    refine Prod.ext (funext fun i => Equiv.apply_symm_apply _ _) (Prod.ext (funext fun i => Equiv.apply_symm_apply _ _) (Prod.ext (funext fun i => Equiv.apply_symm_apply _ _)
      (Prod.ext (funext fun i => Equiv.apply_symm_apply (bitsEquiv 2) _) (Equiv.apply_symm_apply (bitsEquiv 2) _))))

theorem polys_s (b : NoiseBytes k) (i : Fin k) (n : Fin 256) : b.polys.s i n = ((val (η₁ k) ((toBits k b).1 i n) : ℤ) : Zq) := by
  unfold NoiseBytes.polys; dsimp only; rw [dif_pos i.2]; exact CBD_val _ _ n
theorem polys_e (b : NoiseBytes k) (i : Fin k) (n : Fin 256) : b.polys.e i n = ((val (η₁ k) ((toBits k b).2.1 i n) : ℤ) : Zq) := by
  unfold NoiseBytes.polys; dsimp only; rw [dif_pos i.2]; exact CBD_val _ _ n
theorem polys_y (b : NoiseBytes k) (i : Fin k) (n : Fin 256) : b.polys.y i n = ((val (η₁ k) ((toBits k b).2.2.1 i n) : ℤ) : Zq) := by
  unfold NoiseBytes.polys; dsimp only; rw [dif_pos i.2]; exact CBD_val _ _ n
theorem polys_e1 (b : NoiseBytes k) (i : Fin k) (n : Fin 256) : b.polys.e1 i n = ((val 2 ((toBits k b).2.2.2.1 i n) : ℤ) : Zq) := by
  unfold NoiseBytes.polys; dsimp only; rw [dif_pos i.2]; exact CBD_val 2 _ n
theorem polys_e2 (b : NoiseBytes k) (n : Fin 256) : b.polys.e2 n = ((val 2 ((toBits k b).2.2.2.2 n) : ℤ) : Zq) := by
  unfold NoiseBytes.polys; exact CBD_val 2 _ n

theorem polys_f (b : NoiseBytes k) (i : Fin k) (n : Fin 256) :
    b.polys.u' k A i n - (b.polys.u k A i n - b.polys.e1 i n) = ((fOf k (η₁ k) (d_u k) A (toBits k b).2.2.1 i n ((toBits k b).2.2.2.1 i n) : ℤ) : Zq) := by
  have hw : NTTInv (fun c => ∑ j ∈ range k, MultiplyNTTs (A j i) (NTT (b.polys.y j)) c) n
      = NTTInv (fun c => ∑ j ∈ range k, MultiplyNTTs (A j i) (NTT (fun p => if h : j < k ∧ p < 256 then ((val (η₁ k) ((toBits k b).2.2.1 ⟨j, h.1⟩ ⟨p, h.2⟩) : ℤ) : Zq) else 0)) c) n := by
    refine NTTInv_congr (fun c hc => sum_congr rfl fun j hj => ?_) n
    refine MultiplyNTTs_congr' (fun _ _ => rfl) (fun q _ => NTT_congr (fun p hp => ?_) q) hc
    rw [dif_pos ⟨mem_range.1 hj, hp⟩]
    exact polys_y b ⟨j, mem_range.1 hj⟩ ⟨p, hp⟩
  unfold fOf
  rw [cErr_cast, ← hw, ← polys_e1]
  unfold Noise.u' Noise.u
  rw [add_sub_cancel_right]

theorem sum_mulRq {F G : Nat → Poly} {f : V k (η₁ k)} {g : Fin k → Fin 256 → ℤ} (hF : ∀ (i : Fin k) (n : Fin 256), F i n = ((val (η₁ k) (f i n) : ℤ) : Zq))
    (hG : ∀ (i : Fin k) (n : Fin 256), G i n = ((g i n : ℤ) : Zq)) (c : Fin 256) : ∑ i ∈ range k, mulRq (F i) (G i) c = ((lin c f g : ℤ) : Zq) := by
  unfold lin
  rw [Finset.sum_range, Int.cast_sum]
  exact sum_congr rfl fun i _ => mulRq_int (hF i) (hG i) c

theorem ByteDecode_bit (m : List UInt8) (c : Nat) : ByteDecode 1 m c = if bitAt m c then 1 else 0 := by
  unfold ByteDecode decodeMod
  rw [if_neg (show ¬ (1 : Nat) = 12 by omega), Finset.sum_range_one, Nat.mul_one, Nat.add_zero]
  split <;> rfl

/-- What decryption computes, with the noise in integers. -/
theorem decrypted_dot (b : NoiseBytes k) (c : Fin 256) : ∃ g : ℤ, (∀ B : Nat, (List.range 3329).all (checkV (d_v k) B) = true → |g| ≤ B) ∧
    b.polys.decrypted k A m c = Compress 1 (Decompress 1 (ByteDecode 1 m c) + ((g + dot (fOf k (η₁ k) (d_u k) A) c (toBits k b) : ℤ) : Zq)) := by
  have hv : b.polys.v' k A m c - (b.polys.v k A m c - b.polys.e2 c)
      = ((cErr (d_v k) (b.polys.v k A m c - b.polys.e2 c) (val 2 ((toBits k b).2.2.2.2 c)) : ℤ) : Zq) := by
    rw [cErr_cast, ← polys_e2]
    unfold Noise.v'
    rw [sub_add_cancel]
  have h1 := sum_mulRq (polys_e b) (polys_y b) c
  have h2 := sum_mulRq (G := fun j n => b.polys.u' k A j n - (b.polys.u k A j n - b.polys.e1 j n)) (polys_s b) (polys_f A b) c
  refine ⟨cErr (d_v k) (b.polys.v k A m c - b.polys.e2 c) (val 2 ((toBits k b).2.2.2.2 c)), fun B hB => cErrV hB _ _, ?_⟩
  rw [decrypted_eq A m _ c.2, hv, h1, h2]
  unfold dot
  push_cast; rfl

theorem ByteDecode_lt (m : List UInt8) (c : Nat) : ByteDecode 1 m c < 2 := by rw [ByteDecode_bit]; split <;> omega

theorem wrong_dot {B : Nat} (hB : (List.range 3329).all (checkV (d_v k) B) = true) (hB' : B ≤ 831) (b : NoiseBytes k) (hb : b.polys.Wrong k A m) :
    ∃ c, ((832 - B : Nat) : ℤ) ≤ |dot (fOf k (η₁ k) (d_u k) A) c (toBits k b)| := by
  obtain ⟨c, hc, hne⟩ := hb
  refine ⟨⟨c, hc⟩, ?_⟩
  by_contra hlt
  push Not at hlt
  apply hne
  obtain ⟨g, hg, e⟩ := decrypted_dot A m b ⟨c, hc⟩
  simp only at e
  rw [e, ← ByteDecode_bit, compress_noisy_bit _ (ByteDecode_lt m c)]
  have hg := hg B hB
  have hbit := ByteDecode_lt m c
  refine ⟨g + dot (fOf k (η₁ k) (d_u k) A) ⟨c, hc⟩ (toBits k b), ?_, ?_, rfl⟩
  · rw [abs_lt] at hlt; rw [abs_le] at hg; push_cast [Nat.cast_sub (show B ≤ 832 by omega)] at hlt; omega
  · rw [abs_lt] at hlt; rw [abs_le] at hg; push_cast [Nat.cast_sub (show B ≤ 832 by omega)] at hlt; omega

/-- Bits that make the first polynomials of `e` and `y` as large as they can be and all else zero. -/
def loud (k η : Nat) : Ω k η :=
  ⟨fun _ _ _ => false, fun i _ j => decide (i.1 = 0) && decide (j.1 < η), fun i _ j => decide (i.1 = 0) && decide (j.1 < η), fun _ _ _ => false, fun _ _ => false⟩

theorem val_false (η : Nat) : val η (fun _ => false) = 0 := by simp [val]

theorem val_loud (η : Nat) : val η (fun j => decide (j.1 < η)) = η := by simp [val]

theorem dot_loud {η : Nat} (hk : 0 < k) (f : V k η → Fin k → Fin 256 → Bits 2 → ℤ) : dot f 255 (loud k η) = 256 * (η * η) := by
  have h1 : ∀ g, lin 255 (loud k η).1 g = 0 := by
    intro g; unfold lin loud
    exact sum_eq_zero fun i _ => sum_eq_zero fun a _ => by rw [val_false, zero_mul]
  have hv : ∀ (i : Fin k) (a : Fin 256), val η ((loud k η).2.1 i a) = if i.1 = 0 then (η : ℤ) else 0 := by
    intro i a
    unfold loud
    by_cases h : i.1 = 0
    · simp only [h, decide_true, Bool.true_and, if_true]; exact val_loud η
    · simp only [h, decide_false, Bool.false_and, if_false]; exact val_false η
  have hv' : ∀ (i : Fin k) (a : Fin 256), val η ((loud k η).2.2.1 i a) = if i.1 = 0 then (η : ℤ) else 0 := hv
  unfold dot
  rw [h1, sub_zero]
  unfold lin
  have h3 : ∀ i : Fin k, (∑ a : Fin 256, val η ((loud k η).2.1 i a) * rot 255 a (fun a => val η ((loud k η).2.2.1 i a))) = if i = ⟨0, hk⟩ then 256 * ((η : ℤ) * η) else 0 := by
    intro i
    have : ∀ a : Fin 256, val η ((loud k η).2.1 i a) * rot 255 a (fun a => val η ((loud k η).2.2.1 i a)) = if i.1 = 0 then (η : ℤ) * η else 0 := by
      intro a
      unfold rot
      rw [if_pos (show a ≤ (255 : Fin 256) from Nat.le_of_lt_succ a.2), hv]
      beta_reduce
      rw [hv']
      split <;> simp
    simp only [this, sum_const, card_univ, Fintype.card_fin, Fin.ext_iff]
    split <;> simp
  simp only [h3, sum_ite_eq', mem_univ, if_true]

/-- There are failures, whatever the matrix and the message. -/
theorem exists_wrong {B : Nat} (hk : 0 < k) (hη : η₁ k = 2 ∨ η₁ k = 3) (hB : (List.range 3329).all (checkV (d_v k) B) = true) (hB' : B ≤ 106) :
    ∃ b : NoiseBytes k, b.polys.Wrong k A m := by
  refine ⟨(toBits k).symm (loud k (η₁ k)), 255, by norm_num, fun h => ?_⟩
  obtain ⟨g, hg, e⟩ := decrypted_dot A m ((toBits k).symm (loud k (η₁ k))) 255
  rw [show ((255 : Fin 256) : Nat) = 255 from rfl] at e
  rw [e, ← ByteDecode_bit, compress_noisy_bit _ (ByteDecode_lt m 255), Equiv.apply_symm_apply, dot_loud hk] at h
  obtain ⟨δ, h1, h2, h3⟩ := h
  have hg := hg B hB
  rw [abs_le] at hg
  rw [ZMod.intCast_eq_intCast_iff] at h3
  have h3 : (g + 256 * (η₁ k * η₁ k : ℤ)) % 3329 = δ % 3329 := h3
  have : ((B : Nat) : ℤ) ≤ 106 := by exact_mod_cast hB'
  rcases hη with hη | hη <;> rw [hη] at h3 <;> omega

theorem count_wrong {B T t : Nat} {X M N : ℚ} (hX : 1 < X) (hB : (List.range 3329).all (checkV (d_v k) B) = true) (hT : T + B = 832) (h0 : 0 < T)
    (hM : ∀ w : Zq, ∑ b : Bits 2, P (η₁ k) (X ^ cErr (d_u k) w (val 2 b)) ≤ M) (hN : ∑ b : Bits (η₁ k), P (η₁ k) (X ^ val (η₁ k) b) ≤ N)
    (hnum : 2 ^ t * (512 * (M * N) ^ (256 * k)) ≤ X ^ T * (2 ^ (6 * η₁ k + 4)) ^ (256 * k)) :
    2 ^ t * Nat.card {b : NoiseBytes k // b.polys.Wrong k A m} ≤ Nat.card (NoiseBytes k) := by
  have h := rare (fOf k (η₁ k) (d_u k) A) X hX M N T t (fun y i a => hM _) hN hnum {ω | ((toBits k).symm ω).polys.Wrong k A m} (fun ω hω => by
    obtain ⟨c, hc⟩ := wrong_dot A m hB (by omega) _ hω
    rw [Equiv.apply_symm_apply] at hc
    exact ⟨c, by rw [show T = 832 - B by omega]; exact hc⟩)
  rw [Nat.card_congr (toBits k)]
  have e : Nat.card {b : NoiseBytes k // b.polys.Wrong k A m} = Nat.card ({ω | ((toBits k).symm ω).polys.Wrong k A m} : Set (Ω k (η₁ k))) := by
    refine Nat.card_congr ((toBits k).subtypeEquiv fun b => ?_)
    show _ ↔ ((toBits k).symm (toBits k b)).polys.Wrong k A m
    rw [Equiv.symm_apply_apply]
  rw [e]
  exact h

end

theorem count2 (A : Nat → Nat → Poly) (m : List UInt8) : 2 ^ 80 * Nat.card {b : NoiseBytes 2 // b.polys.Wrong 2 A m} ≤ Nat.card (NoiseBytes 2) :=
  count_wrong A m (by norm_num) checkV4 (by norm_num) (by norm_num) cErr2 val2 num2
theorem count3 (A : Nat → Nat → Poly) (m : List UInt8) : 2 ^ 90 * Nat.card {b : NoiseBytes 3 // b.polys.Wrong 3 A m} ≤ Nat.card (NoiseBytes 3) :=
  count_wrong A m (by norm_num) checkV4 (by norm_num) (by norm_num) cErr3 val3 num3
theorem count4 (A : Nat → Nat → Poly) (m : List UInt8) : 2 ^ 111 * Nat.card {b : NoiseBytes 4 // b.polys.Wrong 4 A m} ≤ Nat.card (NoiseBytes 4) :=
  count_wrong A m (by norm_num) checkV5 (by norm_num) (by norm_num) cErr4 val4 num4

end Verif.Failure

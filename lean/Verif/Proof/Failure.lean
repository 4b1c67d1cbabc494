import Verif.Spec.Failure
import Verif.Proof.Correct
import Mathlib.Data.List.GetD
import Mathlib.Data.ZMod.ValMinAbs
import Mathlib.Algebra.BigOperators.Pi
import Mathlib.Algebra.Order.BigOperators.Ring.Finset
/-! # How often decryption goes wrong: exponential moments of the noise -/
open Finset
namespace Verif.Failure
open Verif.Spec

/-! ## Bytes and bits -/

/-- The bits from which one coefficient is made. -/
abbrev Bits (η : Nat) := Fin (2 * η) → Bool

def bits (η : Nat) (B : Fin (64 * η) → UInt8) : Fin 256 → Bits η := fun i j => bitAt (List.ofFn B) (2 * i * η + j)

theorem bitAt_ofFn {n : Nat} (B : Fin n → UInt8) {p : Nat} (h : p / 8 < n) : bitAt (List.ofFn B) p = (B ⟨p / 8, h⟩).toNat.testBit (p % 8) := by
  unfold bitAt
  rw [List.getD_eq_getElem _ _ (by simpa using h), List.getElem_ofFn]

theorem bits_injective (η : Nat) : Function.Injective (bits η) := by
  intro B B' h
  funext a
  apply UInt8.toNat_inj.1
  apply Nat.eq_of_testBit_eq
  intro t
  by_cases ht : t < 8
  · rcases Nat.eq_zero_or_pos η with rfl | hη
    · exact absurd a.2 (by omega)
    have ha := a.2
    have hlt : 8 * a.1 + t < 256 * (2 * η) := by omega
    have h2 : (8 * a.1 + t) / (2 * η) < 256 := Nat.div_lt_of_lt_mul (by omega)
    have h3 := congrFun (congrFun h ⟨_, h2⟩) ⟨(8 * a.1 + t) % (2 * η), Nat.mod_lt _ (by omega)⟩
    unfold bits at h3
    have e : 2 * ((8 * a.1 + t) / (2 * η)) * η + (8 * a.1 + t) % (2 * η) = 8 * a.1 + t := by
      have := Nat.div_add_mod (8 * a.1 + t) (2 * η)
      rw [show 2 * ((8 * a.1 + t) / (2 * η)) * η = 2 * η * ((8 * a.1 + t) / (2 * η)) by ring]; exact this
    simp only [e] at h3
    have h8 : (8 * a.1 + t) / 8 = a.1 := by omega
    have h8' : (8 * a.1 + t) % 8 = t := by omega
    rw [bitAt_ofFn B (by omega), bitAt_ofFn B' (by omega)] at h3
    simp only [h8, h8'] at h3
    exact h3
  · have := (B a).toNat_lt; have := (B' a).toNat_lt
    rw [Nat.testBit_lt_two_pow, Nat.testBit_lt_two_pow]
    · exact lt_of_lt_of_le (B' a).toNat_lt (Nat.pow_le_pow_right (by norm_num) (by omega))
    · exact lt_of_lt_of_le (B a).toNat_lt (Nat.pow_le_pow_right (by norm_num) (by omega))

def byteEquiv : UInt8 ≃ Fin 256 := ⟨fun x => x.toFin, fun x => UInt8.ofFin x, fun _ => rfl, fun _ => rfl⟩

instance byteFintype : Fintype UInt8 := Fintype.ofEquiv _ byteEquiv.symm

theorem card_byte : Fintype.card UInt8 = 2 ^ 8 := by rw [Fintype.card_congr byteEquiv, Fintype.card_fin]; norm_num

theorem bits_bijective (η : Nat) : Function.Bijective (bits η) := by
  rw [Fintype.bijective_iff_injective_and_card]
  refine ⟨bits_injective η, ?_⟩
  simp only [Fintype.card_fun, Fintype.card_fin, Fintype.card_bool]
  rw [card_byte, ← pow_mul, ← pow_mul]
  congr 1; ring

noncomputable def bitsEquiv (η : Nat) : (Fin (64 * η) → UInt8) ≃ (Fin 256 → Bits η) := Equiv.ofBijective _ (bits_bijective η)

/-- The coefficient made from its bits. -/
def val (η : Nat) (b : Bits η) : ℤ := (∑ j : Fin η, if b ⟨j, by omega⟩ then 1 else 0) - ∑ j : Fin η, if b ⟨η + j, by omega⟩ then 1 else 0

theorem CBD_val (η : Nat) (B : Fin (64 * η) → UInt8) (n : Fin 256) : SamplePolyCBD η (List.ofFn B) n = ((val η (bits η B n) : ℤ) : Zq) := by
  unfold SamplePolyCBD val bits
  push_cast
  rw [Finset.sum_range, Finset.sum_range]
  simp only [← Nat.add_assoc]

/-! ## Exponential moments -/

/-- The sum of `X ^ val b` over all bits `b`. -/
def P (η : Nat) (X : ℚ) : ℚ := ((1 + X) * (1 + X⁻¹)) ^ η

theorem P_inv (η : Nat) (X : ℚ) : P η X⁻¹ = P η X := by unfold P; rw [inv_inv, mul_comm]

theorem P_nonneg (η : Nat) {X : ℚ} (h : 0 < X) : 0 ≤ P η X := by unfold P; positivity

theorem zpow_sum {ι : Type} (X : ℚ) (hX : 0 < X) (s : Finset ι) (f : ι → ℤ) : X ^ (∑ i ∈ s, f i) = ∏ i ∈ s, X ^ f i := by
  classical
  induction s using Finset.induction_on with
  | empty => simp
  | insert a s ha ih => rw [sum_insert ha, prod_insert ha, zpow_add₀ hX.ne', ih]

theorem sum_prod {ι : Type} [Fintype ι] [DecidableEq ι] {β : Type} [Fintype β] (f : ι → β → ℚ) : ∑ p : ι → β, ∏ i, f i (p i) = ∏ i, ∑ b, f i b := by
  rw [Finset.prod_univ_sum]; simp

theorem sum_prod2 {k n : Nat} {β : Type} [Fintype β] (f : Fin k → Fin n → β → ℚ) :
    ∑ p : Fin k → Fin n → β, ∏ i, ∏ a, f i a (p i a) = ∏ i, ∏ a, ∑ b, f i a b := by
  rw [sum_prod (fun i (q : Fin n → β) => ∏ a, f i a (q a))]
  exact prod_congr rfl fun i _ => sum_prod _

theorem sum_val (η : Nat) (X : ℚ) (hX : 0 < X) : ∑ b : Bits η, X ^ val η b = P η X := by
  have h : ∀ b : Bits η, X ^ val η b = ∏ j : Fin (2 * η), if b j then (if j.1 < η then X else X⁻¹) else 1 := by
    intro b
    unfold val
    have hx : X ≠ 0 := ne_of_gt hX
    rw [zpow_sub₀ hx, div_eq_mul_inv]
    have e : ∏ j : Fin (2 * η), (if b j then (if j.1 < η then X else X⁻¹) else 1)
        = (∏ j : Fin η, if b ⟨j, by omega⟩ then X else 1) * ∏ j : Fin η, if b ⟨η + j, by omega⟩ then X⁻¹ else 1 := by
      rw [← Fin.prod_congr' (fun j : Fin (2 * η) => if b j then (if j.1 < η then X else X⁻¹) else (1 : ℚ)) (show η + η = 2 * η by ring), Fin.prod_univ_add]
      congr 1
      · refine prod_congr rfl fun j _ => ?_
        simp only [Fin.val_cast, Fin.val_castAdd, j.2, if_true]; rfl
      · refine prod_congr rfl fun j _ => ?_
        simp only [Fin.val_cast, Fin.val_natAdd, if_neg (show ¬ η + j.1 < η by omega)]; rfl
    rw [e]
    congr 1
    · rw [zpow_sum X hX]
      exact prod_congr rfl fun j _ => by split <;> simp
    · rw [zpow_sum X hX, ← prod_inv_distrib]
      exact prod_congr rfl fun j _ => by split <;> simp
  simp only [h]
  rw [sum_prod (fun (j : Fin (2 * η)) (b : Bool) => if b then (if j.1 < η then X else X⁻¹) else 1)]
  simp only [Fintype.sum_bool, if_true, Bool.false_eq_true, if_false]
  rw [← Fin.prod_congr' (fun j : Fin (2 * η) => (if j.1 < η then X else X⁻¹) + 1) (show η + η = 2 * η by ring), Fin.prod_univ_add]
  simp only [Fin.val_cast, Fin.val_castAdd, Fin.val_natAdd, Fin.is_lt, if_true, add_lt_iff_neg_left, not_lt_zero', if_false, prod_const, card_univ, Fintype.card_fin]
  unfold P
  rw [mul_pow, add_comm X, add_comm X⁻¹]

/-! ## Products of polynomials -/

/-- The coefficient that meets `a` in coefficient `c` of a product in `Z[X]/(X^256 + 1)`, with its sign. -/
def rot (c a : Fin 256) (g : Fin 256 → ℤ) : ℤ := if a ≤ c then g (c - a) else -g (c - a)

theorem mulRq_int {F G : Poly} {f g : Fin 256 → ℤ} (hF : ∀ n : Fin 256, F n = ((f n : ℤ) : Zq)) (hG : ∀ n : Fin 256, G n = ((g n : ℤ) : Zq)) (c : Fin 256) :
    mulRq F G c = ((∑ a, f a * rot c a g : ℤ) : Zq) := by
  unfold mulRq
  rw [Finset.sum_range, Int.cast_sum]
  refine sum_congr rfl fun a _ => ?_
  have hc := c.2; have ha := a.2
  unfold rot
  by_cases h : a ≤ c
  · have h' : a.1 ≤ c.1 := h
    rw [if_pos h, if_pos h', hF, show c.1 - a.1 = ((c - a : Fin 256) : Nat) by rw [Fin.val_sub]; omega, hG]
    push_cast; rfl
  · have h' : ¬ a.1 ≤ c.1 := h
    rw [if_neg h, if_neg h', hF, show 256 + c.1 - a.1 = ((c - a : Fin 256) : Nat) by rw [Fin.val_sub]; omega, hG]
    push_cast; ring

/-- Random coefficients for a vector of polynomials. -/
abbrev V (k η : Nat) := Fin k → Fin 256 → Bits η

/-- Coefficient `c` of the inner product of a random vector with a fixed one. -/
def lin {k η : Nat} (c : Fin 256) (p : V k η) (g : Fin k → Fin 256 → ℤ) : ℤ := ∑ i, ∑ a, val η (p i a) * rot c a (g i)

theorem sum_lin {k η : Nat} {X : ℚ} (hX : 0 < X) (c : Fin 256) (g : Fin k → Fin 256 → ℤ) :
    ∑ p : V k η, X ^ lin c p g = ∏ i, ∏ a, P η (X ^ g i a) := by
  have h : ∀ p : V k η, X ^ lin c p g = ∏ i, ∏ a, (X ^ rot c a (g i)) ^ val η (p i a) := by
    intro p
    unfold lin
    rw [zpow_sum X hX]
    refine prod_congr rfl fun i _ => ?_
    rw [zpow_sum X hX]
    refine prod_congr rfl fun a _ => ?_
    rw [mul_comm, zpow_mul]
  simp only [h]
  rw [sum_prod2 (fun i a b => (X ^ rot c a (g i)) ^ val η b)]
  refine prod_congr rfl fun i _ => ?_
  rw [← Equiv.prod_comp (Equiv.subLeft c) (fun a => P η (X ^ g i a))]
  refine prod_congr rfl fun a _ => ?_
  rw [sum_val η _ (zpow_pos hX _)]
  unfold rot
  rw [Equiv.subLeft_apply]
  split
  · rfl
  · rw [zpow_neg, P_inv]

theorem sum_lin_neg {k η : Nat} {X : ℚ} (hX : 0 < X) (c : Fin 256) (g : Fin k → Fin 256 → ℤ) :
    ∑ p : V k η, X ^ (-lin c p g) = ∏ i, ∏ a, P η (X ^ g i a) := by
  have := sum_lin (η := η) (inv_pos.2 hX) c g
  simp only [inv_zpow', zpow_neg, P_inv] at this ⊢
  exact this

/-- The random bits of a run. -/
abbrev Ω (k η : Nat) := V k η × V k η × V k η × V k 2 × (Fin 256 → Bits 2)

/-- Coefficient `c` of `e·y - s·f`, where `f` is made from `y` and `e₁`. -/
def dot {k η : Nat} (f : V k η → Fin k → Fin 256 → Bits 2 → ℤ) (c : Fin 256) (ω : Ω k η) : ℤ :=
  lin c ω.2.1 (fun i a => val η (ω.2.2.1 i a)) - lin c ω.1 (fun i a => f ω.2.2.1 i a (ω.2.2.2.1 i a))

/-- The number of choices for the bits of `e₂`. -/
def Z : ℚ := Fintype.card (Fin 256 → Bits 2)

theorem Z_pos : 0 < Z := by unfold Z; exact Nat.cast_pos.2 Fintype.card_pos

theorem moment {k η : Nat} (f : V k η → Fin k → Fin 256 → Bits 2 → ℤ) (c : Fin 256) {X : ℚ} (hX : 0 < X) {M N : ℚ}
    (hM : ∀ y i a, ∑ b, P η (X ^ f y i a b) ≤ M) (hN : ∑ b : Bits η, P η (X ^ val η b) ≤ N) :
    ∑ ω : Ω k η, X ^ dot f c ω ≤ Z * (M * N) ^ (256 * k) := by
  have hM0 : ∀ y i a, 0 ≤ ∑ b, P η (X ^ f y i a b) := fun y i a => sum_nonneg fun b _ => P_nonneg η (zpow_pos hX _)
  have hN0 : 0 ≤ ∑ b : Bits η, P η (X ^ val η b) := sum_nonneg fun b _ => P_nonneg η (zpow_pos hX _)
  have e : ∑ ω : Ω k η, X ^ dot f c ω
      = ∑ y : V k η, Z * ((∏ i, ∏ a, P η (X ^ val η (y i a))) * ∏ i, ∏ a, ∑ b, P η (X ^ f y i a b)) := by
    unfold dot
    simp only [Fintype.sum_prod_type, sub_eq_add_neg, zpow_add₀ hX.ne']
    rw [sum_congr rfl fun s _ => sum_comm, sum_comm]
    refine sum_congr rfl fun y _ => ?_
    simp only [sum_const, nsmul_eq_mul, ← mul_sum, ← sum_mul]
    rw [sum_lin hX c, sum_comm]
    simp only [sum_lin_neg hX c]
    rw [sum_prod2 (fun i a b => P η (X ^ f y i a b))]
    rfl
  have h1 : ∀ y : V k η, (∏ i : Fin k, ∏ a : Fin 256, ∑ b, P η (X ^ f y i a b)) ≤ M ^ (256 * k) := by
    intro y
    refine le_trans (prod_le_prod (fun i _ => prod_nonneg fun a _ => hM0 y i a) fun i _ => prod_le_prod (fun a _ => hM0 y i a) fun a _ => hM y i a) ?_
    simp only [prod_const, card_univ, Fintype.card_fin]
    rw [← pow_mul]
  have h2 : (∑ y : V k η, ∏ i, ∏ a, P η (X ^ val η (y i a))) ≤ N ^ (256 * k) := by
    rw [sum_prod2 (fun _ _ b => P η (X ^ val η b))]
    simp only [prod_const, card_univ, Fintype.card_fin]
    rw [← pow_mul]
    exact pow_le_pow_left₀ hN0 hN _
  rw [e, ← mul_sum]
  refine mul_le_mul_of_nonneg_left ?_ Z_pos.le
  have hMn : 0 ≤ M ^ (256 * k) := by
    rcases Nat.eq_zero_or_pos k with rfl | hk
    · simp
    · exact pow_nonneg (le_trans (hM0 (fun _ _ _ => false) ⟨0, hk⟩ 0) (hM _ _ _)) _
  calc _ ≤ ∑ y : V k η, (∏ i, ∏ a, P η (X ^ val η (y i a))) * M ^ (256 * k) :=
        sum_le_sum fun y _ => mul_le_mul_of_nonneg_left (h1 y) (prod_nonneg fun i _ => prod_nonneg fun a _ => P_nonneg η (zpow_pos hX _))
    _ ≤ N ^ (256 * k) * M ^ (256 * k) := by rw [← sum_mul]; exact mul_le_mul_of_nonneg_right h2 hMn
    _ = (M * N) ^ (256 * k) := by rw [mul_pow, mul_comm]

theorem card_Ω (k η : Nat) : (Fintype.card (Ω k η) : ℚ) = Z * (2 ^ (6 * η + 4)) ^ (256 * k) := by
  have h : Fintype.card (V k η) ^ 3 * Fintype.card (V k 2) = (2 ^ (6 * η + 4)) ^ (256 * k) := by
    simp only [Fintype.card_fun, Fintype.card_fin, Fintype.card_bool]
    simp only [← pow_mul, ← pow_add]
    congr 1; ring
  unfold Z
  rw [Fintype.card_prod, Fintype.card_prod, Fintype.card_prod, Fintype.card_prod]
  generalize Fintype.card (Fin 256 → Bits 2) = C
  have h' : ((Fintype.card (V k η) ^ 3 * Fintype.card (V k 2) : ℕ) : ℚ) = (2 ^ (6 * η + 4)) ^ (256 * k) := by rw [h]; push_cast; rfl
  rw [← h']
  push_cast; ring

/-- If being wrong needs a coefficient of `e·y - s·f` of size at least `T`, then being wrong is rare. -/
theorem rare {k η : Nat} (f : V k η → Fin k → Fin 256 → Bits 2 → ℤ) (X : ℚ) (hX : 1 < X) (M N : ℚ) (T t : Nat)
    (hM : ∀ y i a, ∑ b, P η (X ^ f y i a b) ≤ M) (hN : ∑ b : Bits η, P η (X ^ val η b) ≤ N)
    (hnum : 2 ^ t * (512 * (M * N) ^ (256 * k)) ≤ X ^ T * (2 ^ (6 * η + 4)) ^ (256 * k))
    (S : Set (Ω k η)) (hS : ∀ ω ∈ S, ∃ c, (T : ℤ) ≤ |dot f c ω|) : 2 ^ t * Nat.card S ≤ Nat.card (Ω k η) := by
  classical
  haveI := Fintype.ofFinite S
  have hX0 : 0 < X := by linarith
  have h1 : (Nat.card S : ℚ) * X ^ T ≤ ∑ c : Fin 256, ∑ ω : Ω k η, (X ^ dot f c ω + X⁻¹ ^ dot f c ω) := by
    rw [Nat.card_eq_fintype_card, ← Set.toFinset_card, sum_comm, ← nsmul_eq_mul, ← sum_const]
    refine le_trans (sum_le_sum (g := fun ω => ∑ c : Fin 256, (X ^ dot f c ω + X⁻¹ ^ dot f c ω)) fun ω hω => ?_) (sum_le_sum_of_subset_of_nonneg (subset_univ _) fun ω _ _ => ?_)
    · obtain ⟨c, hc⟩ := hS ω (Set.mem_toFinset.1 hω)
      refine le_trans ?_ (single_le_sum (f := fun c => X ^ dot f c ω + X⁻¹ ^ dot f c ω) (fun c _ => add_nonneg (zpow_nonneg hX0.le _) (zpow_nonneg (inv_nonneg.2 hX0.le) _)) (mem_univ c))
      have p1 : 0 < X ^ dot f c ω := zpow_pos hX0 _
      have p2 : 0 < X⁻¹ ^ dot f c ω := zpow_pos (inv_pos.2 hX0) _
      rcases le_abs.1 hc with h | h
      · have := zpow_le_zpow_right₀ hX.le h
        rw [zpow_natCast] at this
        linarith
      · have := zpow_le_zpow_right₀ hX.le h
        rw [zpow_natCast, zpow_neg, ← inv_zpow] at this
        linarith
    · exact sum_nonneg fun c _ => add_nonneg (zpow_nonneg hX0.le _) (zpow_nonneg (inv_nonneg.2 hX0.le) _)
  have h2 : ∀ c : Fin 256, ∑ ω : Ω k η, (X ^ dot f c ω + X⁻¹ ^ dot f c ω) ≤ 2 * (Z * (M * N) ^ (256 * k)) := by
    intro c
    rw [sum_add_distrib]
    refine le_trans (add_le_add (moment f c hX0 hM hN) (moment f c (inv_pos.2 hX0) (M := M) (N := N) ?_ ?_)) (le_of_eq (two_mul _).symm)
    · intro y i a; simp only [inv_zpow', zpow_neg, P_inv]; exact hM y i a
    · simp only [inv_zpow', zpow_neg, P_inv]; exact hN
  have h3 := h1.trans (sum_le_sum fun c _ => h2 c)
  rw [sum_const, card_univ, Fintype.card_fin, nsmul_eq_mul] at h3
  have hq : (2 ^ t * (Nat.card S : ℚ)) * X ^ T ≤ (Nat.card (Ω k η) : ℚ) * X ^ T := by
    rw [Nat.card_eq_fintype_card (α := Ω k η), card_Ω]
    have : (0 : ℚ) < Z := Z_pos
    calc (2 ^ t * (Nat.card S : ℚ)) * X ^ T = 2 ^ t * (Nat.card S * X ^ T) := by ring
      _ ≤ 2 ^ t * ((256 : ℕ) * (2 * (Z * (M * N) ^ (256 * k)))) := mul_le_mul_of_nonneg_left h3 (by positivity)
      _ = Z * (2 ^ t * (512 * (M * N) ^ (256 * k))) := by push_cast; ring
      _ ≤ Z * (X ^ T * (2 ^ (6 * η + 4)) ^ (256 * k)) := mul_le_mul_of_nonneg_left hnum this.le
      _ = _ := by ring
  have := le_of_mul_le_mul_right hq (by positivity)
  exact_mod_cast this

/-! ## What compression adds -/

/-- Noise and compression error together: how far compression and decompression of `w + e` are from `w`. -/
def cErr (d : Nat) (w : Zq) (e : ℤ) : ℤ := ZMod.valMinAbs (Decompress d (Compress d (w + ((e : ℤ) : Zq))) - w)

theorem cErr_cast (d : Nat) (w : Zq) (e : ℤ) : ((cErr d w e : ℤ) : Zq) = Decompress d (Compress d (w + ((e : ℤ) : Zq))) - w := ZMod.coe_valMinAbs _

/-- The size of `cErr d w (e - 2)` in natural numbers. -/
def errN (d w e : Nat) : Nat :=
  let v := (decompNat d (compNat d ((w + e + 3327) % 3329)) + (3329 - w)) % 3329
  min v (3329 - v)

theorem cErr_natAbs (d : Nat) (w : Zq) (e : Nat) : (cErr d w ((e : ℤ) - 2)).natAbs = errN d w.val e := by
  have hw : w = ((w.val : Nat) : Zq) := (ZMod.natCast_zmod_val w).symm
  have hlt := ZMod.val_lt w
  have h0 : ((3329 : Nat) : Zq) = 0 := ZMod.natCast_self 3329
  have h1 : w + ((((e : ℤ) - 2 : ℤ)) : Zq) = ((w.val + e + 3327 : Nat) : Zq) := by
    have : ((w.val + e + 3327 : Nat) : Zq) + 2 = w + (e : Zq) + ((3329 : Nat) : Zq) := by
      push_cast; rw [← hw]; ring
    rw [h0, add_zero] at this
    push_cast at this ⊢
    linear_combination -this
  have h2 : Decompress d (Compress d (w + ((((e : ℤ) - 2 : ℤ)) : Zq))) - w
      = ((decompNat d (compNat d ((w.val + e + 3327) % 3329)) + (3329 - w.val) : Nat) : Zq) := by
    rw [h1, Compress_eq, Decompress_eq, ZMod.val_natCast, Nat.cast_add, Nat.cast_sub hlt.le, h0, ← hw]; ring
  unfold cErr errN
  rw [ZMod.valMinAbs_natAbs_eq_min, h2, ZMod.val_natCast]

theorem sum_fiber (η : Nat) (F : ℤ → ℚ) (t : Finset ℤ) (h : ∀ b : Bits η, val η b ∈ t) : ∑ b : Bits η, F (val η b) = ∑ v ∈ t, (#{b : Bits η | val η b = v} : ℚ) * F v := by
  rw [← Finset.sum_fiberwise_of_maps_to (s := univ) (t := t) (g := fun b : Bits η => val η b) (fun b _ => h b)]
  refine sum_congr rfl fun v _ => ?_
  rw [sum_congr rfl (g := fun _ => F v) fun b hb => by rw [(mem_filter.1 hb).2], sum_const, nsmul_eq_mul]

theorem sum_bits2 (F : ℤ → ℚ) : ∑ b : Bits 2, F (val 2 b) = F (-2) + 4 * F (-1) + 6 * F (0) + 4 * F (1) + F (2) := by
  rw [sum_fiber 2 F {-2, -1, 0, 1, 2} (by decide +kernel)]
  have c0 : #{b : Bits 2 | val 2 b = -2} = 1 := by decide +kernel
  have c1 : #{b : Bits 2 | val 2 b = -1} = 4 := by decide +kernel
  have c2 : #{b : Bits 2 | val 2 b = 0} = 6 := by decide +kernel
  have c3 : #{b : Bits 2 | val 2 b = 1} = 4 := by decide +kernel
  have c4 : #{b : Bits 2 | val 2 b = 2} = 1 := by decide +kernel
  rw [sum_insert (by decide), sum_insert (by decide), sum_insert (by decide), sum_insert (by decide), sum_singleton, c0, c1, c2, c3, c4]
  push_cast; ring

theorem sum_bits3 (F : ℤ → ℚ) : ∑ b : Bits 3, F (val 3 b) = F (-3) + 6 * F (-2) + 15 * F (-1) + 20 * F (0) + 15 * F (1) + 6 * F (2) + F (3) := by
  rw [sum_fiber 3 F {-3, -2, -1, 0, 1, 2, 3} (by decide +kernel)]
  have c0 : #{b : Bits 3 | val 3 b = -3} = 1 := by decide +kernel
  have c1 : #{b : Bits 3 | val 3 b = -2} = 6 := by decide +kernel
  have c2 : #{b : Bits 3 | val 3 b = -1} = 15 := by decide +kernel
  have c3 : #{b : Bits 3 | val 3 b = 0} = 20 := by decide +kernel
  have c4 : #{b : Bits 3 | val 3 b = 1} = 15 := by decide +kernel
  have c5 : #{b : Bits 3 | val 3 b = 2} = 6 := by decide +kernel
  have c6 : #{b : Bits 3 | val 3 b = 3} = 1 := by decide +kernel
  rw [sum_insert (by decide), sum_insert (by decide), sum_insert (by decide), sum_insert (by decide), sum_insert (by decide), sum_insert (by decide), sum_singleton, c0, c1, c2, c3, c4, c5, c6]
  push_cast; ring

theorem P_natAbs (η : Nat) (X : ℚ) (j : ℤ) : P η (X ^ j) = P η (X ^ j.natAbs) := by
  rcases Int.natAbs_eq j with h | h
  · conv_lhs => rw [h, zpow_natCast]
  · conv_lhs => rw [h, zpow_neg, P_inv, zpow_natCast]

/-- The exponential moment of noise and compression error, with moments in a table. -/
theorem sum_cErr {η d : Nat} {X D : ℚ} (hD : 0 < D) (tab : List Nat) (Mn : Nat) (ht : ∀ j, j < tab.length → P η (X ^ j) * D ≤ (tab.getD j 0 : Nat))
    (hw : ∀ w, w < 3329 → (∀ e, e < 5 → errN d w e < tab.length) ∧
      tab.getD (errN d w 0) 0 + 4 * tab.getD (errN d w 1) 0 + 6 * tab.getD (errN d w 2) 0 + 4 * tab.getD (errN d w 3) 0 + tab.getD (errN d w 4) 0 ≤ Mn) (w : Zq) :
    ∑ b : Bits 2, P η (X ^ cErr d w (val 2 b)) ≤ Mn / D := by
  rw [sum_bits2 (fun v => P η (X ^ cErr d w v)), le_div_iff₀ hD]
  obtain ⟨h1, h2⟩ := hw w.val (ZMod.val_lt w)
  have key : ∀ e : Nat, e < 5 → P η (X ^ cErr d w ((e : ℤ) - 2)) * D ≤ (tab.getD (errN d w.val e) 0 : Nat) := by
    intro e he
    rw [P_natAbs, cErr_natAbs]
    exact ht _ (h1 e he)
  have k0 := key 0 (by omega); have k1 := key 1 (by omega); have k2 := key 2 (by omega); have k3 := key 3 (by omega); have k4 := key 4 (by omega)
  norm_num at k0 k1 k2 k3 k4
  have h3 : ((tab.getD (errN d w.val 0) 0 + 4 * tab.getD (errN d w.val 1) 0 + 6 * tab.getD (errN d w.val 2) 0 + 4 * tab.getD (errN d w.val 3) 0 + tab.getD (errN d w.val 4) 0 : Nat) : ℚ) ≤ Mn := by
    exact_mod_cast h2
  push_cast at h3
  norm_num at h3
  linarith

/-- Table check: the sizes of noise plus compression error. -/
def checkErr (d : Nat) (tab : List Nat) (Mn : Nat) (w : Nat) : Bool :=
  (errN d w 0 < tab.length && errN d w 1 < tab.length && errN d w 2 < tab.length && errN d w 3 < tab.length && errN d w 4 < tab.length) &&
    tab.getD (errN d w 0) 0 + 4 * tab.getD (errN d w 1) 0 + 6 * tab.getD (errN d w 2) 0 + 4 * tab.getD (errN d w 3) 0 + tab.getD (errN d w 4) 0 ≤ Mn

theorem all_range {n : Nat} {p : Nat → Bool} (h : (List.range n).all p = true) (w : Nat) (hw : w < n) : p w = true := List.all_eq_true.1 h w (List.mem_range.2 hw)

theorem checkErr_use {d : Nat} {tab : List Nat} {Mn : Nat} (h : (List.range 3329).all (checkErr d tab Mn) = true) (w : Nat) (hw : w < 3329) : (∀ e, e < 5 → errN d w e < tab.length) ∧
      tab.getD (errN d w 0) 0 + 4 * tab.getD (errN d w 1) 0 + 6 * tab.getD (errN d w 2) 0 + 4 * tab.getD (errN d w 3) 0 + tab.getD (errN d w 4) 0 ≤ Mn := by
  have := all_range h w hw
  unfold checkErr at this
  simp only [Bool.and_eq_true, decide_eq_true_eq] at this
  obtain ⟨⟨⟨⟨⟨h0, h1⟩, h2⟩, h3⟩, h4⟩, h5⟩ := this
  exact ⟨fun e he => by interval_cases e; exacts [h0, h1, h2, h3, h4], h5⟩

def tab2 : List Nat := [640000000, 656133704, 706726672, 798794345, 945603634]
def tab3 : List Nat := [160000000, 162677778, 170936309, 185476968, 207557974]
def tab4 : List Nat := [160000000, 164025000, 176610063, 199373413, 235322617]

theorem check2 : (List.range 3329).all (checkErr 10 tab2 11307626752) = true := by decide +kernel
theorem check3 : (List.range 3329).all (checkErr 10 tab3 2734980944) = true := by decide +kernel
theorem check4 : (List.range 3329).all (checkErr 11 tab4 2726100630) = true := by decide +kernel

theorem tabP {η : Nat} {X : ℚ} {tab : List Nat} (hl : tab.length = 5) (h0 : P η (X ^ 0) * 10000000 ≤ (tab.getD 0 0 : Nat)) (h1 : P η (X ^ 1) * 10000000 ≤ (tab.getD 1 0 : Nat))
    (h2 : P η (X ^ 2) * 10000000 ≤ (tab.getD 2 0 : Nat)) (h3 : P η (X ^ 3) * 10000000 ≤ (tab.getD 3 0 : Nat)) (h4 : P η (X ^ 4) * 10000000 ≤ (tab.getD 4 0 : Nat)) :
    ∀ j, j < tab.length → P η (X ^ j) * 10000000 ≤ (tab.getD j 0 : Nat) := by
  intro j hj
  rw [hl] at hj
  interval_cases j <;> assumption

theorem cErr2 (w : Zq) : ∑ b : Bits 2, P 3 ((6 / 5 : ℚ) ^ cErr 10 w (val 2 b)) ≤ (11307626752 : Nat) / 10000000 :=
  sum_cErr (by norm_num) tab2 _ (tabP rfl (by norm_num [P, tab2]) (by norm_num [P, tab2]) (by norm_num [P, tab2]) (by norm_num [P, tab2]) (by norm_num [P, tab2])) (checkErr_use check2) w
theorem cErr3 (w : Zq) : ∑ b : Bits 2, P 2 ((6 / 5 : ℚ) ^ cErr 10 w (val 2 b)) ≤ (2734980944 : Nat) / 10000000 :=
  sum_cErr (by norm_num) tab3 _ (tabP rfl (by norm_num [P, tab3]) (by norm_num [P, tab3]) (by norm_num [P, tab3]) (by norm_num [P, tab3]) (by norm_num [P, tab3])) (checkErr_use check3) w
theorem cErr4 (w : Zq) : ∑ b : Bits 2, P 2 ((5 / 4 : ℚ) ^ cErr 11 w (val 2 b)) ≤ (2726100630 : Nat) / 10000000 :=
  sum_cErr (by norm_num) tab4 _ (tabP rfl (by norm_num [P, tab4]) (by norm_num [P, tab4]) (by norm_num [P, tab4]) (by norm_num [P, tab4]) (by norm_num [P, tab4])) (checkErr_use check4) w

theorem val2 : ∑ b : Bits 3, P 3 ((6 / 5 : ℚ) ^ val 3 b) ≤ 42562319860 / 10000000 := by
  rw [sum_bits3 (fun v => P 3 ((6 / 5 : ℚ) ^ v))]; norm_num [P]
theorem val3 : ∑ b : Bits 2, P 2 ((6 / 5 : ℚ) ^ val 2 b) ≤ 2603294840 / 10000000 := by
  rw [sum_bits2 (fun v => P 2 ((6 / 5 : ℚ) ^ v))]; norm_num [P]
theorem val4 : ∑ b : Bits 2, P 2 ((5 / 4 : ℚ) ^ val 2 b) ≤ 2625420125 / 10000000 := by
  rw [sum_bits2 (fun v => P 2 ((5 / 4 : ℚ) ^ v))]; norm_num [P]

/-- Noise and compression error of the second part of the ciphertext. -/
def checkV (d B w : Nat) : Bool := errN d w 0 ≤ B && errN d w 1 ≤ B && errN d w 2 ≤ B && errN d w 3 ≤ B && errN d w 4 ≤ B

theorem checkV4 : (List.range 3329).all (checkV 4 106) = true := by decide +kernel
theorem checkV5 : (List.range 3329).all (checkV 5 54) = true := by decide +kernel

theorem val_range2 (b : Bits 2) : ∃ e : Nat, e < 5 ∧ val 2 b = (e : ℤ) - 2 := by
  have : ∀ b : Bits 2, -2 ≤ val 2 b ∧ val 2 b ≤ 2 := by decide +kernel
  obtain ⟨h1, h2⟩ := this b
  exact ⟨(val 2 b + 2).toNat, by omega, by omega⟩

theorem cErrV {d B : Nat} (h : (List.range 3329).all (checkV d B) = true) (w : Zq) (b : Bits 2) : |cErr d w (val 2 b)| ≤ B := by
  obtain ⟨e, he, hb⟩ := val_range2 b
  have := all_range h w.val (ZMod.val_lt w)
  unfold checkV at this
  simp only [Bool.and_eq_true, decide_eq_true_eq] at this
  obtain ⟨⟨⟨⟨h0, h1⟩, h2⟩, h3⟩, h4⟩ := this
  rw [hb, Int.abs_eq_natAbs, cErr_natAbs]
  have : errN d w.val e ≤ B := by interval_cases e; exacts [h0, h1, h2, h3, h4]
  exact_mod_cast this

/-! ## The three parameter sets -/

set_option exponentiation.threshold 5000 in
theorem num2 : (2 : ℚ) ^ 80 * (512 * (((11307626752 : Nat) / 10000000 : ℚ) * (42562319860 / 10000000)) ^ (256 * 2)) ≤ (6 / 5) ^ 726 * (2 ^ (6 * 3 + 4)) ^ (256 * 2) := by
  norm_num
set_option exponentiation.threshold 5000 in
theorem num3 : (2 : ℚ) ^ 90 * (512 * (((2734980944 : Nat) / 10000000 : ℚ) * (2603294840 / 10000000)) ^ (256 * 3)) ≤ (6 / 5) ^ 726 * (2 ^ (6 * 2 + 4)) ^ (256 * 3) := by
  norm_num
set_option exponentiation.threshold 5000 in
theorem num4 : (2 : ℚ) ^ 111 * (512 * (((2726100630 : Nat) / 10000000 : ℚ) * (2625420125 / 10000000)) ^ (256 * 4)) ≤ (5 / 4) ^ 778 * (2 ^ (6 * 2 + 4)) ^ (256 * 4) := by
  norm_num

end Verif.Failure

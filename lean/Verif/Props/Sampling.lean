import Verif.Props.Arith
import Verif.Props.Vec
import Verif.Proof.Noise
import Verif.Proof.GenMatrix
import Mathlib.Data.Fintype.BigOperators
import Mathlib.Data.Fintype.Pi
import Mathlib.SetTheory.Cardinal.Finite
/-! # Properties of the samplers (C24, C25) -/
namespace Verif.Props
open Verif Verif.Model Verif.Spec Finset

/-! ## C24: centered binomial sampling -/

/-- How many of the `n` bits of `B` from bit number `s` on are set (bit `k` is bit `k % 8` of byte `k / 8`). -/
def popcount (B : List UInt8) (s n : Nat) : Int := ∑ j ∈ range n, if bitAt B (s + j) then 1 else 0

/-- The `i`-th coefficient: the first `η` bits of its `2η` bits minus the other `η`. -/
def cbdCoeff (η : Nat) (B : List UInt8) (i : Nat) : Int := popcount B (2 * η * i) η - popcount B (2 * η * i + η) η

theorem cbdCoeff_eq (η : Nat) (B : List UInt8) (i : Nat) : cbdI η (fun k => B.getD k 0) i = cbdCoeff η B i := by
  unfold cbdI cbdCoeff popcount
  simp only [fbit_list]
  rw [show 2 * i * η = 2 * η * i by ring]
  rfl

/-- **C24 (eta1).**  On every buffer of `64 η₁` bytes; the destination may be uninitialised. -/
theorem C24_eta1 (K : Nat) (r : Model.Poly) (hr : r.size = 256) (B : List UInt8) (hB : B.length = 64 * η₁ K) :
    Returns (poly_cbd_eta1 K r (Buf.ofList B)) (poly (cbdCoeff (η₁ K) B)) :=
  ret_eq (poly_cbd_eta1_spec (B := fun k => B.getD k 0) (by rw [← hB]; exact (Holds.ofList B 0).seg) hr) fun _ h => eq_poly (h.congr fun i _ => cbdCoeff_eq _ _ _)

/-- **C24 (eta2).** -/
theorem C24_eta2 (r : Model.Poly) (hr : r.size = 256) (B : List UInt8) (hB : B.length = 128) :
    Returns (poly_cbd_eta2 r (Buf.ofList B)) (poly (cbdCoeff 2 B)) :=
  ret_eq (poly_cbd_eta2_spec (B := fun k => B.getD k 0) (by rw [← hB]; exact (Holds.ofList B 0).seg) hr) fun _ h => eq_poly (h.congr fun i _ => cbdCoeff_eq _ _ _)

/-- **C24 (range, standard).**  The coefficients lie in `[-η, η]`, and modulo `q` they are FIPS 203 `SamplePolyCBD_η`. -/
theorem C24_range (η : Nat) (B : List UInt8) : (∀ i, -(η : Int) ≤ cbdCoeff η B i ∧ cbdCoeff η B i ≤ η) ∧ modq (cbdCoeff η B) = SamplePolyCBD η B := by
  constructor
  · intro i; rw [← cbdCoeff_eq]; exact cbdI_bound _ _ _
  · funext i
    show ((cbdCoeff η B i : Int) : Zq) = _
    rw [← cbdCoeff_eq, cbdI_zq]

/-- **C24 (noise from a seed).**  The three noise functions apply the sampler to the PRF output for each nonce; the seed may lie anywhere in its buffer. -/
theorem C24_getnoise (K : Nat) (S : List UInt8) (so : Nat) (hS : so + 32 ≤ S.length) :
    (∀ r0 r1 r2 r3 : Model.Poly, r0.size = 256 → r1.size = 256 → r2.size = 256 → r3.size = 256 → ∀ n0 n1 n2 n3 : UInt8,
      ∃ a b c d, Returns (poly_getnoise_eta1_4x K ⟨r0, r1, r2, r3⟩ (Buf.ofList S) so ⟨n0, n1, n2, n3⟩) ⟨poly a, poly b, poly c, poly d⟩ ∧
        a = cbdCoeff (η₁ K) (PRF (η₁ K) ((S.drop so).take 32) n0.toNat) ∧ b = cbdCoeff (η₁ K) (PRF (η₁ K) ((S.drop so).take 32) n1.toNat) ∧
        c = cbdCoeff (η₁ K) (PRF (η₁ K) ((S.drop so).take 32) n2.toNat) ∧ d = cbdCoeff (η₁ K) (PRF (η₁ K) ((S.drop so).take 32) n3.toNat)) ∧
    (∀ r0 r1 r2 r3 : Model.Poly, r0.size = 256 → r1.size = 256 → r2.size = 256 → r3.size = 256 → ∀ n0 n1 n2 n3 : UInt8,
      ∃ a b c d, Returns (poly_getnoise_eta1122_4x K ⟨r0, r1, r2, r3⟩ (Buf.ofList S) so ⟨n0, n1, n2, n3⟩) ⟨poly a, poly b, poly c, poly d⟩ ∧
        a = cbdCoeff (η₁ K) (PRF (η₁ K) ((S.drop so).take 32) n0.toNat) ∧ b = cbdCoeff (η₁ K) (PRF (η₁ K) ((S.drop so).take 32) n1.toNat) ∧
        c = cbdCoeff 2 (PRF 2 ((S.drop so).take 32) n2.toNat) ∧ d = cbdCoeff 2 (PRF 2 ((S.drop so).take 32) n3.toNat)) ∧
    (∀ r : Model.Poly, r.size = 256 → ∀ n : UInt8,
      Returns (poly_getnoise_eta2 K r (Buf.ofList S) so n) (poly (cbdCoeff 2 (PRF 2 ((S.drop so).take 32) n.toNat)))) := by
  have hσ : ((S.drop so).take 32).length = 32 := by simp; omega
  have hs : Seg (Buf.ofList S) so 32 (fun j => ((S.drop so).take 32).getD j 0) := by
    intro j hj
    have := (Holds.ofList S 0).2 (so + j) (by omega)
    rw [this]
    simp [List.getD, hj]
  have hn : ∀ η (n : UInt8), noiseI η ((S.drop so).take 32) n = cbdCoeff η (PRF η ((S.drop so).take 32) n.toNat) := by
    intro η n
    funext i
    unfold noiseI PRF
    rw [cbdCoeff_eq, UInt8.ofNat_toNat]
  refine ⟨?_, ?_, ?_⟩
  · intro r0 r1 r2 r3 h0 h1 h2 h3 n0 n1 n2 n3
    refine ⟨_, _, _, _, ret_eq (poly_getnoise_eta1_4x_spec hσ hs ⟨h0, h1, h2, h3⟩) ?_, rfl, rfl, rfl, rfl⟩
    rintro ⟨a, b, c, d⟩ h
    have e0 := eq_poly h.h0; have e1 := eq_poly h.h1; have e2 := eq_poly h.h2; have e3 := eq_poly h.h3
    simp only [hn] at e0 e1 e2 e3
    rw [e0, e1, e2, e3]
  · intro r0 r1 r2 r3 h0 h1 h2 h3 n0 n1 n2 n3
    refine ⟨_, _, _, _, ret_eq (poly_getnoise_eta1122_4x_spec hσ hs ⟨h0, h1, h2, h3⟩) ?_, rfl, rfl, rfl, rfl⟩
    rintro ⟨a, b, c, d⟩ h
    have e0 := eq_poly h.h0; have e1 := eq_poly h.h1; have e2 := eq_poly h.h2; have e3 := eq_poly h.h3
    simp only [hn] at e0 e1 e2 e3
    rw [e0, e1, e2, e3]
  · intro r hr n
    exact ret_eq (poly_getnoise_eta2_spec hσ hs hr) fun a h => by rw [eq_poly h, hn]

/-! ### Distribution -/

/-- The bits used for each coefficient. -/
def splitBits (η : Nat) (B : Fin (64 * η) → UInt8) : Fin 256 → Fin (2 * η) → Bool := fun i j => bitAt (List.ofFn B) (2 * η * i + j)

theorem ofFn_getD {n : Nat} (B : Fin n → UInt8) {k : Nat} (h : k < n) : (List.ofFn B).getD k 0 = B ⟨k, h⟩ := by
  simp [List.getD, h]

/-- Bytes are the numbers below 256. -/
def byteEquiv : Fin 256 ≃ UInt8 := ⟨UInt8.ofFin, UInt8.toFin, fun _ => rfl, fun _ => rfl⟩

instance : Fintype UInt8 := Fintype.ofEquiv _ byteEquiv

theorem card_byte : Fintype.card UInt8 = 2 ^ 8 := by rw [← Fintype.card_congr byteEquiv, Fintype.card_fin]; norm_num

theorem splitBits_bijective (η : Nat) (hη : 0 < η) : Function.Bijective (splitBits η) := by
  rw [Fintype.bijective_iff_injective_and_card]
  constructor
  · intro B B' h
    funext ⟨k, hk⟩
    apply UInt8.toNat_inj.mp
    apply Nat.eq_of_testBit_eq
    intro t
    by_cases ht : t < 8
    · have hd : (8 * k + t) / (2 * η) < 256 := by
        rw [Nat.div_lt_iff_lt_mul (by omega)]; omega
      have hm : (8 * k + t) % (2 * η) < 2 * η := Nat.mod_lt _ (by omega)
      have := congrFun (congrFun h ⟨_, hd⟩) ⟨_, hm⟩
      unfold splitBits bitAt at this
      simp only [Nat.div_add_mod] at this
      rw [show (8 * k + t) / 8 = k by omega, show (8 * k + t) % 8 = t by omega, ofFn_getD _ hk, ofFn_getD _ hk] at this
      exact this
    · rw [testBit_of_lt (n := 8) (UInt8.toNat_lt _) (by omega), testBit_of_lt (n := 8) (UInt8.toNat_lt _) (by omega)]
  · simp only [Fintype.card_pi, Finset.prod_const, Finset.card_univ, Fintype.card_fin, Fintype.card_bool]
    rw [card_byte, ← pow_mul, ← pow_mul]
    congr 1
    omega

/-- The value made of `2η` bits. -/
def signedSum (η : Nat) (b : Fin (2 * η) → Bool) : Int :=
  (∑ j : Fin η, if b ⟨j, by omega⟩ then 1 else 0) - ∑ j : Fin η, if b ⟨η + j, by omega⟩ then 1 else 0

theorem cbdCoeff_split (η : Nat) (B : Fin (64 * η) → UInt8) (i : Fin 256) : cbdCoeff η (List.ofFn B) i = signedSum η (splitBits η B i) := by
  unfold cbdCoeff signedSum popcount splitBits
  rw [Finset.sum_range, Finset.sum_range]
  simp only [Nat.add_assoc]

theorem count_signedSum2 : ∀ v : Fin 5, Fintype.card {b : Fin (2 * 2) → Bool // signedSum 2 b = (v : Int) - 2} = Nat.choose 4 v := by decide +kernel
theorem count_signedSum3 : ∀ v : Fin 7, Fintype.card {b : Fin (2 * 3) → Bool // signedSum 3 b = (v : Int) - 3} = Nat.choose 6 v := by decide +kernel

theorem poly_inj {f g : Nat → Int} (h : poly f = poly g) {i : Nat} (hi : i < 256) : f i = g i := by
  have h1 := (poly_holds f).2 i hi
  have h2 := (poly_holds g).2 i hi
  rw [h, h2] at h1
  simpa using h1.symm

theorem count_buffers (η : Nat) (hη : 0 < η) (v : Fin 256 → Int) (c : Fin 256 → Nat) (hc : ∀ i, Fintype.card {b : Fin (2 * η) → Bool // signedSum η b = v i} = c i) :
    Nat.card {B : Fin (64 * η) → UInt8 // ∀ i : Fin 256, cbdCoeff η (List.ofFn B) i = v i} = ∏ i, c i := by
  rw [Nat.card_congr (β := {x : Fin 256 → Fin (2 * η) → Bool // ∀ i, signedSum η (x i) = v i})
    ((Equiv.ofBijective _ (splitBits_bijective η hη)).subtypeEquiv fun B => by simp only [cbdCoeff_split]; rfl)]
  rw [Nat.card_congr (Equiv.subtypePiEquivPi (p := fun i b => signedSum η b = v i)), Nat.card_pi]
  exact Finset.prod_congr rfl fun i _ => by rw [Nat.card_eq_fintype_card, hc]

/-- **C24 (distribution, eta1).**  Fix any 256 target values `v i - η` with `0 ≤ v i ≤ 2η`.  Of the `2^(512 η)` input buffers exactly `∏ i, C(2η, v i)` make `poly_cbd_eta1`
return these coefficients: with a uniformly random buffer the coefficients are independent and centered binomial, exactly. -/
theorem C24_distribution_eta1 (K : Nat) (r : Model.Poly) (hr : r.size = 256) (v : Fin 256 → Fin (2 * η₁ K + 1)) :
    Nat.card {B : Fin (64 * η₁ K) → UInt8 //
        ∃ f, Returns (poly_cbd_eta1 K r (Buf.ofList (List.ofFn B))) (poly f) ∧ ∀ i : Fin 256, f i = ((v i : Nat) : Int) - η₁ K}
      = ∏ i, Nat.choose (2 * η₁ K) (v i) := by
  have hset : ∀ B : Fin (64 * η₁ K) → UInt8, (∃ f, Returns (poly_cbd_eta1 K r (Buf.ofList (List.ofFn B))) (poly f) ∧ ∀ i : Fin 256, f i = ((v i : Nat) : Int) - η₁ K) ↔
      ∀ i : Fin 256, cbdCoeff (η₁ K) (List.ofFn B) i = ((v i : Nat) : Int) - η₁ K := by
    intro B
    have h := C24_eta1 K r hr (List.ofFn B) List.length_ofFn
    constructor
    · rintro ⟨f, hf, hv⟩ i
      rw [← hv i, poly_inj (h.unique hf) i.isLt]
    · intro hv
      exact ⟨_, h, hv⟩
  rw [Nat.card_congr (Equiv.subtypeEquivRight hset)]
  refine count_buffers (η₁ K) (by rcases η₁_cases K with h | h <;> omega) _ _ fun i => ?_
  generalize v i = x
  clear hset v
  rcases η₁_cases K with h | h
  · generalize η₁ K = η at h x; subst h; exact count_signedSum3 x
  · generalize η₁ K = η at h x; subst h; exact count_signedSum2 x

/-- **C24 (distribution, eta2).** -/
theorem C24_distribution_eta2 (r : Model.Poly) (hr : r.size = 256) (v : Fin 256 → Fin 5) :
    Nat.card {B : Fin 128 → UInt8 // ∃ f, Returns (poly_cbd_eta2 r (Buf.ofList (List.ofFn B))) (poly f) ∧ ∀ i : Fin 256, f i = ((v i : Nat) : Int) - 2}
      = ∏ i, Nat.choose 4 (v i) := by
  have hset : ∀ B : Fin 128 → UInt8, (∃ f, Returns (poly_cbd_eta2 r (Buf.ofList (List.ofFn B))) (poly f) ∧ ∀ i : Fin 256, f i = ((v i : Nat) : Int) - 2) ↔
      ∀ i : Fin 256, cbdCoeff 2 (List.ofFn B) i = ((v i : Nat) : Int) - 2 := by
    intro B
    have h := C24_eta2 r hr (List.ofFn B) List.length_ofFn
    constructor
    · rintro ⟨f, hf, hv⟩ i
      rw [← hv i, poly_inj (h.unique hf) i.isLt]
    · intro hv
      exact ⟨_, h, hv⟩
  rw [Nat.card_congr (Equiv.subtypeEquivRight hset)]
  exact count_buffers 2 (by omega) _ _ fun i => count_signedSum2 (v i)

/-- A buffer on which the sampler does something: the coefficients 3, -3, 1 with `η = 3` come from the bits 111 000, 000 111, 100 000. -/
example : cbdCoeff 3 ([0x07, 0x7e] ++ List.replicate 190 0) 0 = 3 ∧ cbdCoeff 3 ([0x07, 0x7e] ++ List.replicate 190 0) 1 = -3 := by decide +kernel

/-! ## C25: uniform sampling by rejection

Seeds for which the premise "256 accepted candidates" of the theorems below holds, and seeds for which it does not, are in `Verif.Props.Examples` (`run_enough`, `zeros_enough`). -/

/-- The 12-bit numbers in a byte string, in order: every three bytes hold two of them, little-endian. -/
def candidates : List UInt8 → List Nat
  | c0 :: c1 :: c2 :: rest => (c0.toNat + 256 * (c1.toNat % 16)) :: (c1.toNat / 16 + 16 * c2.toNat) :: candidates rest
  | _ => []

/-- Those below `q`. -/
def accepted (L : List UInt8) : List Nat := (candidates L).filter (· < 3329)

/-- The `n`-th element of a list as a coefficient. -/
def nth (L : List Nat) : Nat → Int := fun n => (L.getD n 0 : Nat)

theorem sN_eq_accepted {T : Nat} {L : List UInt8} {a : List Nat} (h : a.length ≤ T) : sN T L a = a ++ (accepted L).take (T - a.length) := by
  induction L, a using sN.induct (T := T) with
  | case1 c0 c1 c2 rest a hl ih =>
    rw [sN, if_pos hl, ih (sStep_length hl)]
    unfold accepted
    rw [candidates]
    unfold sStep
    simp only [cand]
    by_cases h1 : c0.toNat + 256 * (c1.toNat % 16) < 3329
    · rw [List.filter_cons_of_pos (by simpa using h1)]
      obtain ⟨k, hk⟩ : ∃ k, T - a.length = k + 1 := ⟨T - a.length - 1, by omega⟩
      rw [hk, List.take_succ_cons]
      by_cases h2 : c1.toNat / 16 + 16 * c2.toNat < 3329
      · rw [List.filter_cons_of_pos (by simpa using h2)]
        cases k with
        | zero =>
          have : ¬ a.length + 1 < T := by omega
          simp [h1, this, show T - (a.length + 1) = 0 by omega]
        | succ k =>
          have : a.length + 1 < T := by omega
          simp [h1, h2, this, show T - (a.length + 1 + 1) = k by omega]
      · rw [List.filter_cons_of_neg (by simpa using h2)]
        simp [h1, h2, show T - (a.length + 1) = k by omega]
    · rw [List.filter_cons_of_neg (by simpa using h1)]
      by_cases h2 : c1.toNat / 16 + 16 * c2.toNat < 3329
      · rw [List.filter_cons_of_pos (by simpa using h2)]
        obtain ⟨k, hk⟩ : ∃ k, T - a.length = k + 1 := ⟨T - a.length - 1, by omega⟩
        rw [hk, List.take_succ_cons]
        simp [h1, h2, hl, show T - (a.length + 1) = k by omega]
      · rw [List.filter_cons_of_neg (by simpa using h2)]
        simp [h1, h2]
  | case2 c0 c1 c2 rest a hl =>
    rw [sN_full (by omega), show T - a.length = 0 by omega]; simp
  | case3 L a hl =>
    match L, hl with
    | [], _ => simp [sN, accepted, candidates]
    | [_], _ => simp [sN, accepted, candidates]
    | [_, _], _ => simp [sN, accepted, candidates]
    | _ :: _ :: _ :: _, hl => exact (hl _ _ _ _ rfl).elim

theorem smp_eq (B : List UInt8) (n : Nat) : smp B n = (accepted (SHAKE128 B n)).take 256 := by
  unfold smp; rw [sN_eq_accepted (by simp)]; simp

theorem smp_len_iff (B : List UInt8) (n : Nat) : (smp B n).length = 256 ↔ 256 ≤ (accepted (SHAKE128 B n)).length := by
  rw [smp_eq, List.length_take]; omega

theorem smp_nth (B : List UInt8) (n : Nat) {c : Nat} (hc : c < 256) : (((smp B n).getD c 0 : Nat) : Int) = nth (accepted (SHAKE128 B n)) c := by
  rw [smp_eq]; unfold nth; simp [List.getD, hc]

/-- **C25 (the sampler itself).**  `rej_uniform` continues a list `a` of entries already at the start of `r` with the accepted candidates of the buffer, in order, until
`target` entries are there, returns their number and writes nothing after them.  For every buffer `L` whose length is not among the last three values of an
`unsigned int`; if the length is not a multiple of three the last one or two bytes are ignored. -/
theorem C25_rej_uniform (target : Nat) (r : Model.Poly) (ht : target ≤ r.size) (ht32 : target < 2 ^ 32) (a : List Nat) (ha : a.length ≤ target)
    (hra : ∀ i, i < a.length → r[i]? = some (some (nth a i))) (L : List UInt8) (hL : L.length + 3 < 2 ^ 32) :
    ∃ r' a', Returns (rej_uniform r target a.length (Buf.ofList L) L.length) (r', a'.length) ∧ a' = a ++ (accepted L).take (target - a.length) ∧
      r'.size = r.size ∧ (∀ i, i < a'.length → r'[i]? = some (some (nth a' i))) ∧ ∀ i, target ≤ i → r'[i]? = r[i]? := by
  obtain ⟨x, h, h1, h2, h3, h4⟩ := ret_of_post (rej_uniform_spec (T := target) (L := L) ht ht32 hL ha hra (Holds.ofList L 0).seg)
  refine ⟨x.1, _, ?_, (sN_eq_accepted ha), h1, h2, h4⟩
  rw [← h3]; exact h

theorem returns_of_postF {α : Type} {F : Prop} {p : M α} {Q : α → Prop} {b : α} (h : PostF F p Q) (hF : ¬ F) (hb : ∀ a, Q a → a = b) : Returns p b :=
  ret_eq (PostF.monoF h fun f => hF f) hb

theorem oob_of_postF {α : Type} {F : Prop} {p : M α} {Q : α → Prop} (h : PostF F p Q) (hQ : ∀ a, ¬ Q a) : OutOfBudget p := by
  unfold PostF at h
  split at h
  · exact (hQ _ h).elim
  · rfl
  · exact h.elim

/-- A call that meets the hypotheses of C25: two coefficients are already there, room for two more, and of the four candidates the second and third are rejected. -/
example : ∃ r' a', Returns (rej_uniform (Buf.ofList [5, 6, 0, 0, 9]) 4 2 (Buf.ofList [0x00, 0x1d, 0xd0, 0x01, 0x0d, 0x00]) 6) (r', a') ∧ a' = 4 ∧ r'[2]? = some (some 3328) ∧ r'[3]? = some (some 0) ∧
    r'[4]? = some (some 9) := by
  obtain ⟨r', a', h1, h2, h3, h4, h5⟩ := C25_rej_uniform 4 (Buf.ofList [5, 6, 0, 0, 9]) (by decide) (by decide) [5, 6] (by decide) (by decide) [0x00, 0x1d, 0xd0, 0x01, 0x0d, 0x00] (by decide)
  have e : a' = [5, 6, 3328, 0] := by rw [h2]; decide
  subst e
  exact ⟨r', _, h1, rfl, h4 2 (by decide), h4 3 (by decide), h5 4 (by decide)⟩

/-- **C25 (one entry).**  `gen_matrix_entry` with room for `fuel` refills returns the first 256 accepted candidates of the SHAKE128 stream of the 34-byte seed if the first
`168 (3 + fuel)` bytes contain that many, and runs out of budget exactly if they do not. -/
theorem C25_entry (fuel : Nat) (entry : Model.Poly) (he : entry.size = 256) (B : List UInt8) (hB : B.length = 34) :
    (256 ≤ (accepted (SHAKE128 B (xofBytes fuel))).length → Returns (gen_matrix_entry fuel entry (Buf.ofList B)) (poly (nth (accepted (SHAKE128 B (xofBytes fuel)))))) ∧
    ((accepted (SHAKE128 B (xofBytes fuel))).length < 256 → OutOfBudget (gen_matrix_entry fuel entry (Buf.ofList B))) := by
  have h := gen_matrix_entry_spec (fuel := fuel) he hB (by have := (Holds.ofList B 0).seg; rwa [hB] at this)
  rw [show 168 * (3 + fuel) = xofBytes fuel from rfl] at h
  constructor
  · intro hl
    rw [← smp_len_iff] at hl
    exact returns_of_postF h (fun hn => hn hl) fun a q => eq_poly (q.2.congr fun i hi => smp_nth _ _ hi)
  · intro hl
    refine oob_of_postF h fun a q => ?_
    rw [smp_len_iff] at q
    omega

/-- **C25 (batch of four).**  `gen_matrix_entry_x4` returns, for each of four seeds, what `gen_matrix_entry` returns for it. -/
theorem C25_entry_x4 (fuel : Nat) (v0 v1 v2 v3 : Model.Poly) (h0 : v0.size = 256) (h1 : v1.size = 256) (h2 : v2.size = 256) (h3 : v3.size = 256)
    (B0 B1 B2 B3 : List UInt8) (l0 : B0.length = 34) (l1 : B1.length = 34) (l2 : B2.length = 34) (l3 : B3.length = 34) :
    ((∀ B ∈ [B0, B1, B2, B3], 256 ≤ (accepted (SHAKE128 B (xofBytes fuel))).length) →
      Returns (gen_matrix_entry_x4 fuel ⟨v0, v1, v2, v3⟩ ⟨Buf.ofList B0, Buf.ofList B1, Buf.ofList B2, Buf.ofList B3⟩)
        ⟨poly (nth (accepted (SHAKE128 B0 (xofBytes fuel)))), poly (nth (accepted (SHAKE128 B1 (xofBytes fuel)))),
          poly (nth (accepted (SHAKE128 B2 (xofBytes fuel)))), poly (nth (accepted (SHAKE128 B3 (xofBytes fuel))))⟩) ∧
    ((∃ B ∈ [B0, B1, B2, B3], (accepted (SHAKE128 B (xofBytes fuel))).length < 256) →
      OutOfBudget (gen_matrix_entry_x4 fuel ⟨v0, v1, v2, v3⟩ ⟨Buf.ofList B0, Buf.ofList B1, Buf.ofList B2, Buf.ofList B3⟩)) := by
  have s0 := (Holds.ofList B0 0).seg; have s1 := (Holds.ofList B1 0).seg; have s2 := (Holds.ofList B2 0).seg; have s3 := (Holds.ofList B3 0).seg
  rw [l0] at s0; rw [l1] at s1; rw [l2] at s2; rw [l3] at s3
  have h := gen_matrix_entry_x4_spec (fuel := fuel) (vec := ⟨v0, v1, v2, v3⟩) (seed := ⟨Buf.ofList B0, Buf.ofList B1, Buf.ofList B2, Buf.ofList B3⟩)
    (B := fun w => [B0, B1, B2, B3].getD w []) ⟨h0, h1, h2, h3⟩ (by intro w hw; interval_cases w <;> assumption) ⟨s0, s1, s2, s3⟩
  rw [show 168 * (3 + fuel) = xofBytes fuel from rfl] at h
  constructor
  · intro hl
    simp only [List.forall_mem_cons, ← smp_len_iff] at hl
    refine returns_of_postF h ?_ ?_
    · rintro ⟨w, hw, hn⟩
      interval_cases w
      · exact hn hl.1
      · exact hn hl.2.1
      · exact hn hl.2.2.1
      · exact hn hl.2.2.2.1
    · rintro ⟨a, b, c, d⟩ ⟨_, q⟩
      have e0 := eq_poly (q.h0.congr fun i hi => smp_nth _ _ hi)
      have e1 := eq_poly (q.h1.congr fun i hi => smp_nth _ _ hi)
      have e2 := eq_poly (q.h2.congr fun i hi => smp_nth _ _ hi)
      have e3 := eq_poly (q.h3.congr fun i hi => smp_nth _ _ hi)
      simp only [] at e0 e1 e2 e3
      rw [e0, e1, e2, e3]
      rfl
  · rintro ⟨B, hB, hl⟩
    refine oob_of_postF h fun a q => ?_
    have hq : ∀ B' ∈ [B0, B1, B2, B3], 256 ≤ (accepted (SHAKE128 B' (xofBytes fuel))).length := by
      simp only [List.forall_mem_cons, ← smp_len_iff]
      exact ⟨q.1 0 (by omega), q.1 1 (by omega), q.1 2 (by omega), q.1 3 (by omega), by simp⟩
    have := hq B hB
    omega

/-- The seed of the matrix entry in row `i`, column `j`: FIPS 203 uses `ρ‖j‖i` for the matrix `A` and so `ρ‖i‖j` for its transpose. -/
def entrySeed (ρ : List UInt8) (transposed : Bool) (i j : Nat) : List UInt8 :=
  if transposed then ρ ++ [UInt8.ofNat i, UInt8.ofNat j] else ρ ++ [UInt8.ofNat j, UInt8.ofNat i]

/-- **C25 (the matrix).**  `gen_matrix` fills all `K²` entries (row `i`, column `j` at position `K i + j`) in this way, whether an entry is generated in a batch of four or alone. -/
theorem C25_matrix (K : Nat) (hK : IsParam K) (fuel : Nat) (a : PolyVec) (ha : IsVec (K * K) a) (S : List UInt8) (so : Nat) (hS : so + 32 ≤ S.length)
    (transposed : Bool) :
    ((∀ i j, i < K → j < K → 256 ≤ (accepted (SHAKE128 (entrySeed ((S.drop so).take 32) transposed i j) (xofBytes fuel))).length) →
      Returns (gen_matrix K fuel a (Buf.ofList S) so transposed)
        (vec (K * K) fun n => nth (accepted (SHAKE128 (entrySeed ((S.drop so).take 32) transposed (n / K) (n % K)) (xofBytes fuel))))) ∧
    ((∃ i j, i < K ∧ j < K ∧ (accepted (SHAKE128 (entrySeed ((S.drop so).take 32) transposed i j) (xofBytes fuel))).length < 256) →
      OutOfBudget (gen_matrix K fuel a (Buf.ofList S) so transposed)) := by
  have hσ : ((S.drop so).take 32).length = 32 := by simp; omega
  have hs : Seg (Buf.ofList S) so 32 (fun j => ((S.drop so).take 32).getD j 0) := by
    intro j hj
    have := (Holds.ofList S 0).2 (so + j) (by omega)
    rw [this]
    simp [List.getD, hj]
  have hK0 : 0 < K := by rcases hK with h | h | h <;> omega
  have h := gen_matrix_spec (K := K) (fuel := fuel) (tr := transposed) (a := a) (by rcases hK with rfl | rfl | rfl <;> decide) ha hσ hs
  rw [show 168 * (3 + fuel) = xofBytes fuel from rfl] at h
  have hseed : ∀ n, seedAt K ((S.drop so).take 32) transposed n = entrySeed ((S.drop so).take 32) transposed (n / K) (n % K) := fun n => rfl
  have hdiv : ∀ n, n < K * K → n / K < K := fun n hn => Nat.div_lt_of_lt_mul hn
  constructor
  · intro hl
    refine returns_of_postF h ?_ ?_
    · rintro ⟨i, hi, hn⟩
      rw [Ne, smp_len_iff, hseed] at hn
      exact hn (hl _ _ (hdiv i hi) (Nat.mod_lt _ hK0))
    · rintro a' ⟨q, _⟩
      exact eq_vec (q.congr fun i hi c hc => by rw [smp_nth _ _ hc, hseed])
  · rintro ⟨i, j, hi, hj, hl⟩
    refine oob_of_postF h fun a' q => ?_
    have hlt : K * i + j < K * K := by
      have : K * i + K ≤ K * K := by rw [← Nat.mul_succ]; exact Nat.mul_le_mul_left K hi
      omega
    have := q.2 (K * i + j) hlt
    rw [smp_len_iff, hseed, Nat.mul_add_div hK0, Nat.mul_add_mod, Nat.div_eq_of_lt hj, Nat.mod_eq_of_lt hj] at this
    simp only [Nat.add_zero] at this
    omega

theorem candidates_append {L L' : List UInt8} (h : L.length % 3 = 0) : candidates (L ++ L') = candidates L ++ candidates L' := by
  induction L using candidates.induct with
  | case1 c0 c1 c2 rest ih =>
    simp only [List.cons_append]
    rw [candidates, candidates, ih (by simp at h; omega)]; rfl
  | case2 L hl =>
    match L, hl with
    | [], _ => rfl
    | [_], _ => simp at h
    | [_, _], _ => simp at h
    | _ :: _ :: _ :: _, hl => exact (hl _ _ _ _ rfl).elim

/-- **C25 (cutting).**  The accepted candidates of a string cut at a multiple of three bytes are those of its parts; a SHAKE128 block has 168 bytes, a multiple of three. -/
theorem C25_cut (L L' : List UInt8) (h : L.length % 3 = 0) : accepted (L ++ L') = accepted L ++ accepted L' := by
  unfold accepted; rw [candidates_append h, List.filter_append]

/-- **C25 (FIPS 203).**  This is `SampleNTT`. -/
theorem C25_SampleNTT (n : Nat) (B : List UInt8) :
    SampleNTT n B = if 256 ≤ (accepted (SHAKE128 B n)).length then some (fun i => if i < 256 then ((accepted (SHAKE128 B n)).getD i 0 : Zq) else 0) else none := by
  rw [SampleNTT_eq]
  by_cases h : 256 ≤ (accepted (SHAKE128 B n)).length
  · rw [if_pos h, if_pos ((smp_len_iff B n).2 h)]
    congr 1
    funext i
    rw [smp_eq]
    by_cases hi : i < 256
    · simp [List.getD, hi]
    · simp [List.getD, hi]
  · rw [if_neg h, if_neg (fun h' => h ((smp_len_iff B n).1 h'))]

/-- **C25 (uniformity).**  Three uniformly random bytes give two independent uniform 12-bit candidates: every pair comes from exactly one triple. -/
theorem C25_uniform (d1 d2 : Nat) (h1 : d1 < 4096) (h2 : d2 < 4096) : ∃! c : UInt8 × UInt8 × UInt8, candidates [c.1, c.2.1, c.2.2] = [d1, d2] := by
  refine ⟨(UInt8.ofNat (d1 % 256), UInt8.ofNat (d1 / 256 + 16 * (d2 % 16)), UInt8.ofNat (d2 / 16)), ?_, ?_⟩
  · simp only [candidates, UInt8.toNat_ofNat']
    congr 1
    · omega
    · congr 1; omega
  · rintro ⟨c0, c1, c2⟩ h
    simp only [candidates, List.cons.injEq, and_true] at h
    have := c0.toNat_lt; have := c1.toNat_lt; have := c2.toNat_lt
    refine Prod.ext ?_ (Prod.ext ?_ ?_) <;> apply UInt8.toNat_inj.mp <;> simp only [UInt8.toNat_ofNat'] <;> omega

/-- Acceptance and rejection at the boundary: the candidates are `0xd00`, `0xd01`, `0xd01`, `0x000`. -/
example : candidates [0x00, 0x1d, 0xd0, 0x01, 0x0d, 0x00] = [3328, 3329, 3329, 0] ∧ accepted [0x00, 0x1d, 0xd0, 0x01, 0x0d, 0x00] = [3328, 0] := by decide

end Verif.Props

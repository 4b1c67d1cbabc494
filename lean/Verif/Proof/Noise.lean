import Verif.Proof.SpongeX4
import Verif.Proof.Cbd
import Verif.Proof.Polyvec
import Verif.Model.Indcpa
import Mathlib.Tactic.IntervalCases
/-! # Hash wrappers and noise sampling -/
namespace Verif
open Model Spec

attribute [local irreducible] keccakF partialK finK blocksK sqByte SHAKE256 SHA3_256 SHA3_512 SHAKE128

theorem SHAKE256_length (M : List UInt8) (n : Nat) : (SHAKE256 M n).length = n := by rw [SHAKE256_eq]; simp
theorem SHAKE128_length (M : List UInt8) (n : Nat) : (SHAKE128 M n).length = n := by rw [SHAKE128_eq]; simp
theorem SHA3_256_length (M : List UInt8) : (SHA3_256 M).length = 32 := by rw [SHA3_256_eq]; simp
theorem SHA3_512_length (M : List UInt8) : (SHA3_512 M).length = 64 := by rw [SHA3_512_eq]; simp

theorem getD_append_right' {α : Type} (l l' : List α) (d : α) (k : Nat) : (l ++ l').getD (l.length + k) d = l'.getD k d := by
  rw [getD_append, if_neg (by omega), Nat.add_sub_cancel_left]
theorem getD_append_left' {α : Type} {l : List α} (l' : List α) (d : α) {k : Nat} (h : k < l.length) : (l ++ l').getD k d = l.getD k d := by
  rw [getD_append, if_pos h]

/-- `extkey = key || nonce`. -/
theorem extKey_spec {seed : Buf UInt8} {so : Nat} {σ : List UInt8} (hσ : σ.length = 32) (hs : Seg seed so 32 (fun j => σ.getD j 0)) :
    Post (extKey seed so) (fun e => Written (Buf.uninit UInt8 (32 + 1)) e 0 32 (fun j => σ.getD j 0)) := by
  unfold extKey
  exact memcpy_spec (by simp) hs

theorem extKey_seg {e : Buf UInt8} {σ : List UInt8} {b : UInt8} (hσ : σ.length = 32) (h : Written (Buf.uninit UInt8 (32 + 1)) e 0 32 (fun j => σ.getD j 0)) :
    Seg (e.setIfInBounds 32 (some b)) 0 33 (fun j => (σ ++ [b]).getD j 0) := by
  intro i hi
  have hsz := h.1
  rw [Buf.size_uninit] at hsz
  by_cases h32 : i = 32
  · subst h32
    rw [Nat.zero_add, Array.getElem?_setIfInBounds_self, if_pos (by omega)]
    have := getD_append_right' σ [b] 0 0
    rw [hσ] at this
    exact congrArg (fun v => some (some v)) this.symm
  · rw [Array.getElem?_setIfInBounds_ne (by omega)]
    beta_reduce
    rw [getD_append_left' _ _ (by omega)]
    exact h.2.1 i (by omega)

theorem prf_spec {out key : Buf UInt8} {outlen ko : Nat} {σ : List UInt8} {b : UInt8} (hσ : σ.length = 32) (hk : Seg key ko 32 (fun j => σ.getD j 0)) (ho : outlen ≤ out.size)
    (hl : outlen < 18446744073709551616) :
    Post (prf out outlen key ko b) (fun o' => Written out o' 0 outlen (fun j => (SHAKE256 (σ ++ [b]) outlen).getD j 0)) := by
  unfold prf
  simp only [wp_bind, wp_wr]
  refine Post.use (extKey_spec hσ hk) fun e he => ⟨by rw [he.1]; simp, ?_⟩
  have hl33 : (σ ++ [b]).length = 32 + 1 := by simp [hσ]
  rw [← hl33]
  exact shake256_spec (by rw [hl33]; exact extKey_seg hσ he) (by rw [hl33]; omega) (by omega) hl

theorem rkprf_spec {K : Nat} {out key input : Buf UInt8} {ko : Nat} {z c : List UInt8} (hz : z.length = 32) (hc : c.length = MLKEM_CIPHERTEXTBYTES K)
    (hcl : c.length < 4294967296) (hk : Seg key ko 32 (fun j => z.getD j 0)) (hi : Seg input 0 c.length (fun j => c.getD j 0)) (ho : 32 ≤ out.size) :
    Post (rkprf K out key ko input) (fun o' => Written out o' 0 32 (fun j => (J (z ++ c)).getD j 0)) := by
  unfold rkprf shake256_inc_init shake256_inc_absorb shake256_inc_finalize shake256_inc_squeeze SHAKE256_RATE
  simp only [wp_bind]
  refine Post.use (keccak_inc_init_spec (by simp) 136 (fun j => (z ++ c).getD j 0)) fun s hs => ?_
  refine Post.use (keccak_inc_absorb_spec (by omega) (by omega) hs (hk.congr fun j hj => by
    rw [Nat.zero_add, getD_append_left' _ _ (by omega)]) (by omega)) fun s hs => ?_
  rw [← hc]
  refine Post.use (keccak_inc_absorb_spec (by omega) (by omega) hs (hi.congr fun j hj => by
    rw [Nat.zero_add, ← hz, getD_append_right']) (by omega)) fun s hs => ?_
  refine Post.use (keccak_inc_finalize_spec (by omega) (by omega) (by decide) hs) fun s hs => ?_
  refine Post.use (keccak_inc_squeeze_spec (by omega) (by omega) hs (by omega) (by omega)) fun x hx => ?_
  simp only [wp_pure]
  refine hx.1.congr fun j hj => ?_
  have hl : (z ++ c).length = 0 + 32 + c.length := by simp [hz]
  unfold J
  rw [SHAKE256_eq, getD_map_range _ _ hj, hl, Nat.zero_add j]

/-! ## Noise -/

/-- The noise polynomial for seed `σ` and nonce `b`, as integers. -/
def noiseI (η : Nat) (σ : List UInt8) (b : UInt8) : Nat → Int := cbdI η (fun k => (SHAKE256 (σ ++ [b]) (64 * η)).getD k 0)

theorem noiseI_zq (η : Nat) (σ : List UInt8) (b i : Nat) : (noiseI η σ (UInt8.ofNat b) i : Zq) = SamplePolyCBD η (PRF η σ b) i := by
  unfold noiseI PRF; exact cbdI_zq _ _ _

theorem noiseI_bound (η : Nat) (σ : List UInt8) (b : UInt8) (i : Nat) : -(η : Int) ≤ noiseI η σ b i ∧ noiseI η σ b i ≤ η := cbdI_bound _ _ _

theorem η₁_cases (K : Nat) : η₁ K = 3 ∨ η₁ K = 2 := by unfold η₁; split <;> simp
theorem eta1_eq (K : Nat) : MLKEM_ETA1 K = η₁ K := rfl
theorem eta1_bytes (K : Nat) : MLKEM_ETA1 K * 256 / 4 = 64 * η₁ K := by rw [eta1_eq]; omega
theorem eta2_bytes : MLKEM_ETA2 * 256 / 4 = 64 * 2 := rfl

/-- Four polynomials hold `f 0`, …, `f 3`. -/
structure Holds4 (r : Four Model.Poly) (f0 f1 f2 f3 : Nat → Int) : Prop where
  h0 : Holds r.x0 256 f0
  h1 : Holds r.x1 256 f1
  h2 : Holds r.x2 256 f2
  h3 : Holds r.x3 256 f3

structure Fresh4 (r : Four Model.Poly) : Prop where
  h0 : r.x0.size = 256
  h1 : r.x1.size = 256
  h2 : r.x2.size = 256
  h3 : r.x3.size = 256

theorem noise_bound' {η B : Nat} (h : η < B) (σ : List UInt8) (b : UInt8) (i : Nat) : -(B : Int) < noiseI η σ b i ∧ noiseI η σ b i < B := by
  have := noiseI_bound η σ b i; omega

theorem poly_getnoise_eta1_4x_spec {K : Nat} {r : Four Model.Poly} {seed : Buf UInt8} {so : Nat} {σ : List UInt8} {nonce : Four UInt8} (hσ : σ.length = 32)
    (hs : Seg seed so 32 (fun j => σ.getD j 0)) (hr : Fresh4 r) :
    Post (poly_getnoise_eta1_4x K r seed so nonce) (fun r' => Holds4 r' (noiseI (η₁ K) σ nonce.x0) (noiseI (η₁ K) σ nonce.x1) (noiseI (η₁ K) σ nonce.x2) (noiseI (η₁ K) σ nonce.x3)) := by
  unfold poly_getnoise_eta1_4x
  simp only [wp_bind, wp_wr]
  refine Post.use (extKey_spec hσ hs) fun e0 g0 => Post.use (extKey_spec hσ hs) fun e1 g1 => Post.use (extKey_spec hσ hs) fun e2 g2 => Post.use (extKey_spec hσ hs) fun e3 g3 => ?_
  refine ⟨by rw [g0.1]; simp, by rw [g1.1]; simp, by rw [g2.1]; simp, by rw [g3.1]; simp, ?_⟩
  have he : Seg4 (⟨e0.setIfInBounds 32 (some nonce.x0), e1.setIfInBounds 32 (some nonce.x1), e2.setIfInBounds 32 (some nonce.x2), e3.setIfInBounds 32 (some nonce.x3)⟩ : Four (Buf UInt8)) 0 33
      (fun w j => (σ ++ [[nonce.x0, nonce.x1, nonce.x2, nonce.x3].getD w 0]).getD j 0) :=
    ⟨extKey_seg hσ g0, extKey_seg hσ g1, extKey_seg hσ g2, extKey_seg hσ g3⟩
  generalize e0.setIfInBounds 32 (some nonce.x0) = e0, e1.setIfInBounds 32 (some nonce.x1) = e1, e2.setIfInBounds 32 (some nonce.x2) = e2, e3.setIfInBounds 32 (some nonce.x3) = e3 at he ⊢
  rw [eta1_bytes]
  have hη : 64 * η₁ K ≤ 192 := by rcases η₁_cases K with h | h <;> omega
  refine Post.use (shake256x4_spec (Ms := fun w => σ ++ [[nonce.x0, nonce.x1, nonce.x2, nonce.x3].getD w 0]) (fun w _ => by simp [hσ]) he
    ⟨by simp [Four.rep], by simp [Four.rep], by simp [Four.rep], by simp [Four.rep]⟩) fun buf hb => ?_
  refine Post.use (poly_cbd_eta1_spec hb.s0.seg hr.h0) fun r0 h0 => ?_
  refine Post.use (poly_cbd_eta1_spec hb.s1.seg hr.h1) fun r1 h1 => ?_
  refine Post.use (poly_cbd_eta1_spec hb.s2.seg hr.h2) fun r2 h2 => ?_
  refine Post.use (poly_cbd_eta1_spec hb.s3.seg hr.h3) fun r3 h3 => ?_
  rw [eta1_eq]
  refine POLY_BOUND_wp h0 (fun i _ => noise_bound' (by omega) _ _ i) ?_
  refine POLY_BOUND_wp h1 (fun i _ => noise_bound' (by omega) _ _ i) ?_
  refine POLY_BOUND_wp h2 (fun i _ => noise_bound' (by omega) _ _ i) ?_
  refine POLY_BOUND_wp h3 (fun i _ => noise_bound' (by omega) _ _ i) ?_
  simp only [wp_pure]
  exact ⟨h0, h1, h2, h3⟩

theorem poly_getnoise_eta2_spec {K : Nat} {r : Model.Poly} {seed : Buf UInt8} {so : Nat} {σ : List UInt8} {nonce : UInt8} (hσ : σ.length = 32)
    (hs : Seg seed so 32 (fun j => σ.getD j 0)) (hr : r.size = 256) :
    Post (poly_getnoise_eta2 K r seed so nonce) (fun r' => Holds r' 256 (noiseI 2 σ nonce)) := by
  unfold poly_getnoise_eta2
  simp only [wp_bind]
  rw [eta2_bytes]
  refine Post.use (prf_spec hσ hs (by simp) (by omega)) fun buf hb => ?_
  refine Post.use (poly_cbd_eta2_spec hb.seg hr) fun r0 h0 => ?_
  refine POLY_BOUND_wp h0 (fun i _ => noise_bound' (by rw [eta1_eq]; rcases η₁_cases K with h | h <;> omega) _ _ i) ?_
  simp only [wp_pure]
  exact h0

theorem poly_getnoise_eta1122_4x_spec {K : Nat} {r : Four Model.Poly} {seed : Buf UInt8} {so : Nat} {σ : List UInt8} {nonce : Four UInt8} (hσ : σ.length = 32)
    (hs : Seg seed so 32 (fun j => σ.getD j 0)) (hr : Fresh4 r) :
    Post (poly_getnoise_eta1122_4x K r seed so nonce) (fun r' => Holds4 r' (noiseI (η₁ K) σ nonce.x0) (noiseI (η₁ K) σ nonce.x1) (noiseI 2 σ nonce.x2) (noiseI 2 σ nonce.x3)) := by
  unfold poly_getnoise_eta1122_4x
  simp only [wp_bind, wp_wr]
  refine Post.use (extKey_spec hσ hs) fun e0 g0 => Post.use (extKey_spec hσ hs) fun e1 g1 => Post.use (extKey_spec hσ hs) fun e2 g2 => Post.use (extKey_spec hσ hs) fun e3 g3 => ?_
  refine ⟨by rw [g0.1]; simp, by rw [g1.1]; simp, by rw [g2.1]; simp, by rw [g3.1]; simp, ?_⟩
  have he : Seg4 (⟨e0.setIfInBounds 32 (some nonce.x0), e1.setIfInBounds 32 (some nonce.x1), e2.setIfInBounds 32 (some nonce.x2), e3.setIfInBounds 32 (some nonce.x3)⟩ : Four (Buf UInt8)) 0 33
      (fun w j => (σ ++ [[nonce.x0, nonce.x1, nonce.x2, nonce.x3].getD w 0]).getD j 0) :=
    ⟨extKey_seg hσ g0, extKey_seg hσ g1, extKey_seg hσ g2, extKey_seg hσ g3⟩
  generalize e0.setIfInBounds 32 (some nonce.x0) = e0, e1.setIfInBounds 32 (some nonce.x1) = e1, e2.setIfInBounds 32 (some nonce.x2) = e2, e3.setIfInBounds 32 (some nonce.x3) = e3 at he ⊢
  rw [eta1_bytes, eta2_bytes, eta1_eq]
  have hη : 64 * η₁ K ≤ 192 := by rcases η₁_cases K with h | h <;> omega
  have hl33 : ∀ b : UInt8, (σ ++ [b]).length = 32 + 1 := by simp [hσ]
  have fin : ∀ b0 b1 b2 b3 : Buf UInt8, Seg b0 0 (64 * η₁ K) (fun j => (SHAKE256 (σ ++ [nonce.x0]) (64 * η₁ K)).getD j 0) →
        Seg b1 0 (64 * η₁ K) (fun j => (SHAKE256 (σ ++ [nonce.x1]) (64 * η₁ K)).getD j 0) →
        Seg b2 0 (64 * 2) (fun j => (SHAKE256 (σ ++ [nonce.x2]) (64 * 2)).getD j 0) →
        Seg b3 0 (64 * 2) (fun j => (SHAKE256 (σ ++ [nonce.x3]) (64 * 2)).getD j 0) →
      Post (do
        let r0 ← poly_cbd_eta1 K r.x0 b0
        let r1 ← poly_cbd_eta1 K r.x1 b1
        let r2 ← poly_cbd_eta2 r.x2 b2
        let r3 ← poly_cbd_eta2 r.x3 b3
        POLY_BOUND r0 (η₁ K + 1)
        POLY_BOUND r1 (η₁ K + 1)
        POLY_BOUND r2 (MLKEM_ETA2 + 1)
        POLY_BOUND r3 (MLKEM_ETA2 + 1)
        pure (⟨r0, r1, r2, r3⟩ : Four Model.Poly))
        (fun r' => Holds4 r' (noiseI (η₁ K) σ nonce.x0) (noiseI (η₁ K) σ nonce.x1) (noiseI 2 σ nonce.x2) (noiseI 2 σ nonce.x3)) := by
    intro b0 b1 b2 b3 hb0 hb1 hb2 hb3
    simp only [wp_bind]
    refine Post.use (poly_cbd_eta1_spec hb0 hr.h0) fun r0 h0 => ?_
    refine Post.use (poly_cbd_eta1_spec hb1 hr.h1) fun r1 h1 => ?_
    refine Post.use (poly_cbd_eta2_spec hb2 hr.h2) fun r2 h2 => ?_
    refine Post.use (poly_cbd_eta2_spec hb3 hr.h3) fun r3 h3 => ?_
    refine POLY_BOUND_wp h0 (fun i _ => noise_bound' (by omega) _ _ i) ?_
    refine POLY_BOUND_wp h1 (fun i _ => noise_bound' (by omega) _ _ i) ?_
    refine POLY_BOUND_wp h2 (fun i _ => noise_bound' (by decide) _ _ i) ?_
    refine POLY_BOUND_wp h3 (fun i _ => noise_bound' (by decide) _ _ i) ?_
    simp only [wp_pure]
    exact ⟨h0, h1, h2, h3⟩
  by_cases h2 : η₁ K = MLKEM_ETA2
  · rw [if_pos h2, wp_bind]
    refine Post.use (shake256x4_spec (Ms := fun w => σ ++ [[nonce.x0, nonce.x1, nonce.x2, nonce.x3].getD w 0]) (fun w _ => by simp [hσ]) he
      ⟨by simp, by simp, by simp [h2, MLKEM_ETA2], by simp [h2, MLKEM_ETA2]⟩) fun buf hb => ?_
    exact fin _ _ _ _ hb.s0.seg hb.s1.seg (by rw [h2] at hb; exact hb.s2.seg) (by rw [h2] at hb; exact hb.s3.seg)
  · rw [if_neg h2]
    rw [wp_bind]
    have go : ∀ {ek : Buf UInt8} {b : UInt8} {n : Nat}, n ≤ 192 → Seg ek 0 33 (fun j => (σ ++ [b]).getD j 0) →
        Post (shake256 (Buf.uninit UInt8 n) 0 n ek 0 (32 + 1)) (fun o' => Written (Buf.uninit UInt8 n) o' 0 n (fun j => (SHAKE256 (σ ++ [b]) n).getD j 0)) := by
      intro ek b n hn hek
      rw [← hl33 b]
      exact shake256_spec (by rw [hl33]; exact hek) (by rw [hl33]; omega) (by simp) (by omega)
    refine Post.use (go hη he.s0) fun b0 h0 => ?_
    rw [wp_bind]
    refine Post.use (go hη he.s1) fun b1 h1 => ?_
    rw [wp_bind]
    refine Post.use (go (by omega) he.s2) fun b2 h2 => ?_
    rw [wp_bind]
    refine Post.use (go (by omega) he.s3) fun b3 h3 => ?_
    rw [wp_bind, wp_pure]
    exact fin _ _ _ _ h0.seg h1.seg h2.seg h3.seg

/-- Noise vector with nonces `o + i`. -/
def noiseV (η : Nat) (σ : List UInt8) (o : Nat) : Nat → Nat → Int := fun i => noiseI η σ (UInt8.ofNat (o + i))

theorem noiseV_zq (η : Nat) (σ : List UInt8) (o i n : Nat) : (noiseV η σ o i n : Zq) = SamplePolyCBD η (PRF η σ (o + i)) n := noiseI_zq _ _ _ _

theorem keypairNoise_spec {K : Nat} (hK : K = 2 ∨ K = 3 ∨ K = 4) {skpv e pkpv : PolyVec} {seed : Buf UInt8} {so : Nat} {σ : List UInt8} (hσ : σ.length = 32)
    (hs : Seg seed so 32 (fun j => σ.getD j 0)) (h1 : VAll skpv K (fun _ p => p.size = 256)) (h2 : VAll e K (fun _ p => p.size = 256)) (h3 : VAll pkpv K (fun _ p => p.size = 256)) :
    Post (keypairNoise K skpv e pkpv seed so) (fun x => VHolds x.1 K 256 (noiseV (η₁ K) σ 0) ∧ VHolds x.2.1 K 256 (noiseV (η₁ K) σ K) ∧ VAll x.2.2 K (fun _ p => p.size = 256)) := by
  unfold keypairNoise
  rcases hK with rfl | rfl | rfl
  · rw [if_pos rfl]
    obtain ⟨s0, hs0, es0⟩ := h1.2 0 (by omega)
    obtain ⟨s1, hs1, es1⟩ := h1.2 1 (by omega)
    obtain ⟨e0, he0, ee0⟩ := h2.2 0 (by omega)
    obtain ⟨e1, he1, ee1⟩ := h2.2 1 (by omega)
    simp only [wp_bind, wp_vget, wp_vset, wp_pure, Array.size_setIfInBounds, h1.1, h2.1]
    refine ⟨s0, hs0, s1, hs1, e0, he0, e1, he1, ?_⟩
    refine Post.use (poly_getnoise_eta1_4x_spec hσ hs ⟨es0, es1, ee0, ee1⟩) fun r hr => ?_
    refine ⟨by omega, by omega, by omega, by omega, ⟨by simp [h1.1], fun i hi => ?_⟩, ⟨by simp [h2.1], fun i hi => ?_⟩, h3⟩
    · interval_cases i
      · exact ⟨r.x0, by simp [Array.getElem?_setIfInBounds, h1.1], hr.h0⟩
      · exact ⟨r.x1, by simp [Array.getElem?_setIfInBounds, h1.1], hr.h1⟩
    · interval_cases i
      · exact ⟨r.x2, by simp [Array.getElem?_setIfInBounds, h2.1], hr.h2⟩
      · exact ⟨r.x3, by simp [Array.getElem?_setIfInBounds, h2.1], hr.h3⟩
  · rw [if_neg (by omega), if_pos rfl]
    obtain ⟨s0, hs0, es0⟩ := h1.2 0 (by omega)
    obtain ⟨s1, hs1, es1⟩ := h1.2 1 (by omega)
    obtain ⟨s2, hs2, es2⟩ := h1.2 2 (by omega)
    obtain ⟨e0, he0, ee0⟩ := h2.2 0 (by omega)
    obtain ⟨e1, he1, ee1⟩ := h2.2 1 (by omega)
    obtain ⟨e2, he2, ee2⟩ := h2.2 2 (by omega)
    obtain ⟨p0, hp0, ep0⟩ := h3.2 0 (by omega)
    simp only [wp_bind, wp_vget, wp_vset, wp_pure, Array.size_setIfInBounds, h1.1, h2.1, h3.1]
    refine ⟨s0, hs0, s1, hs1, s2, hs2, p0, hp0, ?_⟩
    refine Post.use (poly_getnoise_eta1_4x_spec hσ hs ⟨es0, es1, es2, ep0⟩) fun r hr => ?_
    refine ⟨by omega, by omega, by omega, by omega, e0, he0, e1, he1, e2, he2, r.x3, by simp [h3.1], ?_⟩
    refine Post.use (poly_getnoise_eta1_4x_spec hσ hs ⟨ee0, ee1, ee2, hr.h3.1⟩) fun r' hr' => ?_
    refine ⟨by omega, by omega, by omega, by omega, ⟨by simp [h1.1], fun i hi => ?_⟩, ⟨by simp [h2.1], fun i hi => ?_⟩, ?_⟩
    · interval_cases i
      · exact ⟨r.x0, by simp [Array.getElem?_setIfInBounds, h1.1], hr.h0⟩
      · exact ⟨r.x1, by simp [Array.getElem?_setIfInBounds, h1.1], hr.h1⟩
      · exact ⟨r.x2, by simp [Array.getElem?_setIfInBounds, h1.1], hr.h2⟩
    · interval_cases i
      · exact ⟨r'.x0, by simp [Array.getElem?_setIfInBounds, h2.1], hr'.h0⟩
      · exact ⟨r'.x1, by simp [Array.getElem?_setIfInBounds, h2.1], hr'.h1⟩
      · exact ⟨r'.x2, by simp [Array.getElem?_setIfInBounds, h2.1], hr'.h2⟩
    · exact (h3.set (R' := fun _ p => p.size = 256) (by omega) hr.h3.1 (fun _ _ _ _ h => h)).set (by omega) hr'.h3.1 (fun _ _ _ _ h => h)
  · rw [if_neg (by omega), if_neg (by omega)]
    obtain ⟨s0, hs0, es0⟩ := h1.2 0 (by omega)
    obtain ⟨s1, hs1, es1⟩ := h1.2 1 (by omega)
    obtain ⟨s2, hs2, es2⟩ := h1.2 2 (by omega)
    obtain ⟨s3, hs3, es3⟩ := h1.2 3 (by omega)
    obtain ⟨e0, he0, ee0⟩ := h2.2 0 (by omega)
    obtain ⟨e1, he1, ee1⟩ := h2.2 1 (by omega)
    obtain ⟨e2, he2, ee2⟩ := h2.2 2 (by omega)
    obtain ⟨e3, he3, ee3⟩ := h2.2 3 (by omega)
    simp only [wp_bind, wp_vget, wp_vset, wp_pure, Array.size_setIfInBounds, h1.1, h2.1, h3.1]
    refine ⟨s0, hs0, s1, hs1, s2, hs2, s3, hs3, ?_⟩
    refine Post.use (poly_getnoise_eta1_4x_spec hσ hs ⟨es0, es1, es2, es3⟩) fun r hr => ?_
    refine ⟨by omega, by omega, by omega, by omega, e0, he0, e1, he1, e2, he2, e3, he3, ?_⟩
    refine Post.use (poly_getnoise_eta1_4x_spec hσ hs ⟨ee0, ee1, ee2, ee3⟩) fun r' hr' => ?_
    refine ⟨by omega, by omega, by omega, by omega, ⟨by simp [h1.1], fun i hi => ?_⟩, ⟨by simp [h2.1], fun i hi => ?_⟩, h3⟩
    · interval_cases i
      · exact ⟨r.x0, by simp [Array.getElem?_setIfInBounds, h1.1], hr.h0⟩
      · exact ⟨r.x1, by simp [Array.getElem?_setIfInBounds, h1.1], hr.h1⟩
      · exact ⟨r.x2, by simp [Array.getElem?_setIfInBounds, h1.1], hr.h2⟩
      · exact ⟨r.x3, by simp [Array.getElem?_setIfInBounds, h1.1], hr.h3⟩
    · interval_cases i
      · exact ⟨r'.x0, by simp [Array.getElem?_setIfInBounds, h2.1], hr'.h0⟩
      · exact ⟨r'.x1, by simp [Array.getElem?_setIfInBounds, h2.1], hr'.h1⟩
      · exact ⟨r'.x2, by simp [Array.getElem?_setIfInBounds, h2.1], hr'.h2⟩
      · exact ⟨r'.x3, by simp [Array.getElem?_setIfInBounds, h2.1], hr'.h3⟩

theorem encNoise_spec {K : Nat} (hK : K = 2 ∨ K = 3 ∨ K = 4) {sp ep : PolyVec} {epp : Model.Poly} {b : PolyVec} {seed : Buf UInt8} {so : Nat} {σ : List UInt8} (hσ : σ.length = 32)
    (hs : Seg seed so 32 (fun j => σ.getD j 0)) (h1 : VAll sp K (fun _ p => p.size = 256)) (h2 : VAll ep K (fun _ p => p.size = 256)) (h4 : epp.size = 256)
    (h3 : VAll b K (fun _ p => p.size = 256)) :
    Post (encNoise K sp ep epp b seed so) (fun x => VHolds x.1 K 256 (noiseV (η₁ K) σ 0) ∧ VHolds x.2.1 K 256 (noiseV 2 σ K) ∧ Holds x.2.2.1 256 (noiseI 2 σ (UInt8.ofNat (2 * K))) ∧
      VAll x.2.2.2 K (fun _ p => p.size = 256)) := by
  unfold encNoise
  rcases hK with rfl | rfl | rfl
  · rw [if_pos rfl]
    obtain ⟨s0, hs0, es0⟩ := h1.2 0 (by omega)
    obtain ⟨s1, hs1, es1⟩ := h1.2 1 (by omega)
    obtain ⟨e0, he0, ee0⟩ := h2.2 0 (by omega)
    obtain ⟨e1, he1, ee1⟩ := h2.2 1 (by omega)
    simp only [wp_bind, wp_vget, wp_vset, wp_pure, Array.size_setIfInBounds, h1.1, h2.1]
    refine ⟨s0, hs0, s1, hs1, e0, he0, e1, he1, ?_⟩
    refine Post.use (poly_getnoise_eta1122_4x_spec hσ hs ⟨es0, es1, ee0, ee1⟩) fun r hr => ?_
    refine ⟨by omega, by omega, by omega, by omega, ?_⟩
    refine Post.use (poly_getnoise_eta2_spec hσ hs h4) fun epp' hepp => ?_
    refine ⟨⟨by simp [h1.1], fun i hi => ?_⟩, ⟨by simp [h2.1], fun i hi => ?_⟩, hepp, h3⟩
    · interval_cases i
      · exact ⟨r.x0, by simp [Array.getElem?_setIfInBounds, h1.1], hr.h0⟩
      · exact ⟨r.x1, by simp [Array.getElem?_setIfInBounds, h1.1], hr.h1⟩
    · interval_cases i
      · exact ⟨r.x2, by simp [Array.getElem?_setIfInBounds, h2.1], hr.h2⟩
      · exact ⟨r.x3, by simp [Array.getElem?_setIfInBounds, h2.1], hr.h3⟩
  · rw [if_neg (by omega), if_pos rfl]
    obtain ⟨s0, hs0, es0⟩ := h1.2 0 (by omega)
    obtain ⟨s1, hs1, es1⟩ := h1.2 1 (by omega)
    obtain ⟨s2, hs2, es2⟩ := h1.2 2 (by omega)
    obtain ⟨e0, he0, ee0⟩ := h2.2 0 (by omega)
    obtain ⟨e1, he1, ee1⟩ := h2.2 1 (by omega)
    obtain ⟨e2, he2, ee2⟩ := h2.2 2 (by omega)
    obtain ⟨p0, hp0, ep0⟩ := h3.2 0 (by omega)
    unfold poly_getnoise_eta2_4x
    simp only [wp_bind, wp_vget, wp_vset, wp_pure, Array.size_setIfInBounds, h1.1, h2.1, h3.1]
    refine ⟨s0, hs0, s1, hs1, s2, hs2, p0, hp0, ?_⟩
    refine Post.use (poly_getnoise_eta1_4x_spec hσ hs ⟨es0, es1, es2, ep0⟩) fun r hr => ?_
    refine ⟨by omega, by omega, by omega, by omega, e0, he0, e1, he1, e2, he2, ?_⟩
    refine Post.use (poly_getnoise_eta1_4x_spec hσ hs ⟨ee0, ee1, ee2, h4⟩) fun r' hr' => ?_
    refine ⟨by omega, by omega, by omega, ⟨by simp [h1.1], fun i hi => ?_⟩, ⟨by simp [h2.1], fun i hi => ?_⟩, hr'.h3, ?_⟩
    · interval_cases i
      · exact ⟨r.x0, by simp [Array.getElem?_setIfInBounds, h1.1], hr.h0⟩
      · exact ⟨r.x1, by simp [Array.getElem?_setIfInBounds, h1.1], hr.h1⟩
      · exact ⟨r.x2, by simp [Array.getElem?_setIfInBounds, h1.1], hr.h2⟩
    · interval_cases i
      · exact ⟨r'.x0, by simp [Array.getElem?_setIfInBounds, h2.1], hr'.h0⟩
      · exact ⟨r'.x1, by simp [Array.getElem?_setIfInBounds, h2.1], hr'.h1⟩
      · exact ⟨r'.x2, by simp [Array.getElem?_setIfInBounds, h2.1], hr'.h2⟩
    · exact VAll.set (K := 3) (i := 0) (R' := fun _ p => p.size = 256) h3 (by omega) hr.h3.1 (fun _ _ _ _ h => h)
  · rw [if_neg (by omega), if_neg (by omega)]
    obtain ⟨s0, hs0, es0⟩ := h1.2 0 (by omega)
    obtain ⟨s1, hs1, es1⟩ := h1.2 1 (by omega)
    obtain ⟨s2, hs2, es2⟩ := h1.2 2 (by omega)
    obtain ⟨s3, hs3, es3⟩ := h1.2 3 (by omega)
    obtain ⟨e0, he0, ee0⟩ := h2.2 0 (by omega)
    obtain ⟨e1, he1, ee1⟩ := h2.2 1 (by omega)
    obtain ⟨e2, he2, ee2⟩ := h2.2 2 (by omega)
    obtain ⟨e3, he3, ee3⟩ := h2.2 3 (by omega)
    unfold poly_getnoise_eta2_4x
    simp only [wp_bind, wp_vget, wp_vset, wp_pure, Array.size_setIfInBounds, h1.1, h2.1, h3.1]
    refine ⟨s0, hs0, s1, hs1, s2, hs2, s3, hs3, ?_⟩
    refine Post.use (poly_getnoise_eta1_4x_spec hσ hs ⟨es0, es1, es2, es3⟩) fun r hr => ?_
    refine ⟨by omega, by omega, by omega, by omega, e0, he0, e1, he1, e2, he2, e3, he3, ?_⟩
    refine Post.use (poly_getnoise_eta1_4x_spec hσ hs ⟨ee0, ee1, ee2, ee3⟩) fun r' hr' => ?_
    refine ⟨by omega, by omega, by omega, by omega, ?_⟩
    refine Post.use (poly_getnoise_eta2_spec hσ hs h4) fun epp' hepp => ?_
    refine ⟨⟨by simp [h1.1], fun i hi => ?_⟩, ⟨by simp [h2.1], fun i hi => ?_⟩, hepp, h3⟩
    · interval_cases i
      · exact ⟨r.x0, by simp [Array.getElem?_setIfInBounds, h1.1], hr.h0⟩
      · exact ⟨r.x1, by simp [Array.getElem?_setIfInBounds, h1.1], hr.h1⟩
      · exact ⟨r.x2, by simp [Array.getElem?_setIfInBounds, h1.1], hr.h2⟩
      · exact ⟨r.x3, by simp [Array.getElem?_setIfInBounds, h1.1], hr.h3⟩
    · interval_cases i
      · exact ⟨r'.x0, by simp [Array.getElem?_setIfInBounds, h2.1], hr'.h0⟩
      · exact ⟨r'.x1, by simp [Array.getElem?_setIfInBounds, h2.1], hr'.h1⟩
      · exact ⟨r'.x2, by simp [Array.getElem?_setIfInBounds, h2.1], hr'.h2⟩
      · exact ⟨r'.x3, by simp [Array.getElem?_setIfInBounds, h2.1], hr'.h3⟩

end Verif

import Verif.Proof.InvNtt
/-! # Base multiplication -/
open Finset
namespace Verif
open Model Spec

variable {F : Prop}

/-- The value of one coefficient computed by the base multiplication. -/
def bm (a b c : Nat → Int) (n : Nat) : Int :=
  if n % 2 = 0 then montR (a (n + 1) * c (n / 2) + a n * b n) else montR (a (n - 1) * b n + a n * b (n - 1))

theorem Written.seg_of {α : Type} {b b' : Buf α} {n k m : Nat} {g : Nat → α} (h : Written b b' 0 n g) (hk : k + m ≤ n) : Seg b' k m (fun i => g (k + i)) := by
  intro i hi
  have := h.2.1 (k + i) (by omega)
  rwa [Nat.zero_add] at this

theorem bm_bound {a b c : Nat → Int} {n : Nat} (ha : ∀ n, n < 256 → -3329 < a n ∧ a n < 3329) (hb : ∀ n, n < 256 → -32768 ≤ b n ∧ b n ≤ 32767)
    (hc : ∀ n, n < 128 → -32768 ≤ c n ∧ c n ≤ 32767) (hn : n < 256) : -4992 ≤ bm a b c n ∧ bm a b c n ≤ 4992 := by
  unfold bm
  split
  · have h1 := mul_bound (A := 3328) (B := 32768) (a := a (n + 1)) (b := c (n / 2)) (by have := ha (n + 1) (by omega); omega) (by have := hc (n / 2) (by omega); omega)
    have h2 := mul_bound (A := 3328) (B := 32768) (a := a n) (b := b n) (by have := ha n hn; omega) (by have := hb n hn; omega)
    have := montR_bound (x := a (n + 1) * c (n / 2) + a n * b n) (B := 3328 * 32768 + 3328 * 32768) (by omega)
    omega
  · have h1 := mul_bound (A := 3328) (B := 32768) (a := a (n - 1)) (b := b n) (by have := ha (n - 1) (by omega); omega) (by have := hb n hn; omega)
    have h2 := mul_bound (A := 3328) (B := 32768) (a := a n) (b := b (n - 1)) (by have := ha n hn; omega) (by have := hb (n - 1) (by omega); omega)
    have := montR_bound (x := a (n - 1) * b n + a n * b (n - 1)) (B := 3328 * 32768 + 3328 * 32768) (by omega)
    omega

theorem basemul_cached_spec {r0 r a b : Model.Poly} {fa fb fc : Nat → Int} {k : Nat} {bc : Int} (hk : k < 128)
    (ha : Holds a 256 fa) (hb : Holds b 256 fb)
    (hfa : ∀ n, n < 256 → -3329 < fa n ∧ fa n < 3329) (hfb : ∀ n, n < 256 → -32768 ≤ fb n ∧ fb n ≤ 32767)
    (hfc : ∀ n, n < 128 → -32768 ≤ fc n ∧ fc n ≤ 32767) (hbc : bc = fc k)
    (hr : r0.size = 256) (hI : Written r0 r 0 (2 * k) (bm fa fb fc)) :
    Post (basemul_cached r (2 * k) a (2 * k) b (2 * k) bc) (fun r' => Written r0 r' 0 (2 * k + 2) (bm fa fb fc)) := by
  subst hbc
  unfold basemul_cached
  simp only [wp_bind, wp_assertM, wp_rd, wp_i32, wp_pure]
  have sa : Seg a (2 * k) 2 (fun i => fa (2 * k + i)) := fun i hi => ha.get (by omega)
  refine ⟨boundChk_eq sa _ _ fun i hi => hfa _ (by omega), ?_⟩
  have A0 := hfa (2 * k) (by omega)
  have A1 := hfa (2 * k + 1) (by omega)
  have B0 := hfb (2 * k) (by omega)
  have B1 := hfb (2 * k + 1) (by omega)
  have C := hfc k hk
  have m1 := mul_bound (A := 3328) (B := 32768) (a := fa (2 * k + 1)) (b := fc k) (by omega) (by omega)
  have m2 := mul_bound (A := 3328) (B := 32768) (a := fa (2 * k)) (b := fb (2 * k)) (by omega) (by omega)
  have m3 := mul_bound (A := 3328) (B := 32768) (a := fa (2 * k)) (b := fb (2 * k + 1)) (by omega) (by omega)
  have m4 := mul_bound (A := 3328) (B := 32768) (a := fa (2 * k + 1)) (b := fb (2 * k)) (by omega) (by omega)
  refine ⟨_, ha.get (by omega), by omega, _, ha.get (by omega), _, hb.get (by omega), by omega, by omega,
    _, ha.get (by omega), _, hb.get (by omega), by omega, _, ha.get (by omega), _, hb.get (by omega), by omega, by omega, ?_⟩
  refine Post.use (montgomery_reduce_post _ (by omega)) fun t0 h0 => ?_
  simp only [wp_wr]
  refine ⟨by rw [hI.1]; omega, ?_⟩
  refine Post.use (montgomery_reduce_post _ (by omega)) fun t1 h1 => ?_
  have e0 : t0 = bm fa fb fc (2 * k) := by
    unfold bm; rw [if_pos (by omega), show 2 * k / 2 = k by omega]; exact h0
  have e1 : t1 = bm fa fb fc (2 * k + 1) := by
    unfold bm; rw [if_neg (by omega), show 2 * k + 1 - 1 = 2 * k by omega]; exact h1
  have hW := (hI.push (by omega) (by omega : 2 * k = 0 + 2 * k) e0).push (by omega) (by omega : 2 * k + 1 = 0 + (2 * k + 1)) e1
  refine ⟨by simp [hI.1]; omega, ?_, hW⟩
  refine boundChk_eq (hW.seg_of (k := 2 * k) (m := 2) (by omega)) _ _ fun i hi => ?_
  have := bm_bound hfa hfb hfc (n := 2 * k + i) (by omega)
  simp; omega

theorem poly_basemul_spec {r a b c : Model.Poly} {fa fb fc : Nat → Int}
    (ha : Holds a 256 fa) (hb : Holds b 256 fb) (hc : Holds c 128 fc)
    (hfa : ∀ n, n < 256 → -3329 < fa n ∧ fa n < 3329) (hfb : ∀ n, n < 256 → -32768 ≤ fb n ∧ fb n ≤ 32767)
    (hfc : ∀ n, n < 128 → -3329 < fc n ∧ fc n < 3329) (hr : r.size = 256) :
    Post (poly_basemul_montgomery_cached r a b c) (fun r' => Holds r' 256 (bm fa fb fc)) := by
  unfold poly_basemul_montgomery_cached
  simp only [wp_bind]
  refine MULCACHE_BOUND_wp hc (fun i hi => by have := hfc i hi; omega) ?_
  refine wp_forN (fun i r' => Written r r' 0 (4 * i) _) (Written.refl _ _ _) ?_ (fun _ h => h.holds hr)
  intro i r' hi hI
  simp only [wp_bind, wp_rd]
  refine ⟨_, hc.get (by omega), ?_⟩
  rw [show 4 * i = 2 * (2 * i) by omega] at hI ⊢
  refine Post.use (basemul_cached_spec (by omega) ha hb hfa hfb (fun n hn => by have := hfc n hn; omega) rfl hr hI) fun r1 h1 => ?_
  refine ⟨_, hc.get (by omega), ?_⟩
  rw [show 2 * (2 * i) + 2 = 2 * (2 * i + 1) by omega] at h1 ⊢
  exact Post.use (basemul_cached_spec (by omega) ha hb hfa hfb (fun n hn => by have := hfc n hn; omega) rfl hr h1) fun r2 h2 => by rwa [show 4 * (i + 1) = 2 * (2 * i + 1) + 2 by omega]

/-- The factor of the cache. -/
def zz (k : Nat) : Int := if k % 2 = 0 then Z (64 + k / 2) else -Z (64 + k / 2)

theorem zz_zq {k : Nat} (hk : k < 128) : ((zz k : Int) : Zq) * 169 = γ k := by
  unfold zz
  split
  · rw [show γ k = γ (2 * (k / 2)) by congr 1; omega, γ_even (by omega)]; rfl
  · rw [show γ k = γ (2 * (k / 2) + 1) by congr 1; omega, γ_odd (by omega)]; push_cast; unfold y; ring

/-- The value of the cache. -/
def mc (b : Nat → Int) (k : Nat) : Int := montR (b (2 * k + 1) * zz k)

theorem zz_bound {k : Nat} (hk : k < 128) : -1665 < zz k ∧ zz k < 1665 := by
  have := Z_bound (64 + k / 2) (by omega)
  unfold zz; split <;> omega

theorem mc_bound {b : Nat → Int} (hb : ∀ n, n < 256 → -32768 ≤ b n ∧ b n ≤ 32767) {k : Nat} (hk : k < 128) : -2496 ≤ mc b k ∧ mc b k ≤ 2496 := by
  have := hb (2 * k + 1) (by omega)
  exact mul_z_bound (B := 32768) (by omega) (by omega) (zz_bound hk)

theorem poly_mulcache_compute_spec {x a : Model.Poly} {f : Nat → Int} (ha : Holds a 256 f) (hf : ∀ n, n < 256 → -32768 ≤ f n ∧ f n ≤ 32767) (hx : x.size = 128) :
    Post (poly_mulcache_compute x a) (fun x' => Holds x' 128 (mc f)) := by
  unfold poly_mulcache_compute
  simp only [wp_bind, wp_pure]
  refine wp_forN (fun i x' => Written x x' 0 (2 * i) (mc f)) (Written.refl _ _ _) ?_ ?_
  · intro i x' hi hI
    simp only [wp_bind, wp_rd, wp_i16, wp_wr]
    have hz := Z_bound (64 + i) (by omega)
    refine ⟨_, ha.get (by omega), _, zetas_get (by omega), ?_⟩
    refine Post.use (fqmul_post _ _ (hf _ (by omega)) hz) fun t0 h0 => ?_
    refine ⟨by rw [hI.1]; omega, _, ha.get (by omega), _, zetas_get (by omega), by omega, ?_⟩
    refine Post.use (fqmul_post _ _ (hf _ (by omega)) (by omega)) fun t1 h1 => ?_
    refine ⟨by simp [hI.1]; omega, ?_⟩
    refine (hI.push (by omega) (by omega) ?_).push (by omega) (by omega) ?_
    · rw [h0]; unfold mc zz; rw [if_pos (by omega), show 64 + 2 * i / 2 = 64 + i by omega]; congr 3; omega
    · rw [h1]; unfold mc zz; rw [if_neg (by omega), show 64 + (2 * i + 1) / 2 = 64 + i by omega]; congr 3; omega
  · intro x' hI
    have hI := hI.holds hx
    exact MULCACHE_BOUND_wp hI (fun i hi => by have := mc_bound hf hi; omega) hI

/-- Base multiplication with the computed cache is `MultiplyNTTs`, up to the Montgomery factor. -/
theorem bm_zq (a b : Nat → Int) {n : Nat} (hn : n < 256) :
    ((bm a b (mc b) n : Int) : Zq) = 169 * MultiplyNTTs (fun i => (a i : Zq)) (fun i => (b i : Zq)) n := by
  unfold bm MultiplyNTTs
  split
  · rw [montR_zq]; push_cast; unfold mc; rw [montR_zq]; push_cast
    rw [show 2 * (n / 2) + 1 = n + 1 by omega, mul_assoc (b (n + 1) : Zq), zz_zq (by omega)]
    ring
  · rw [montR_zq]; push_cast; ring

end Verif

import Verif.Proof.NativeSponge
/-! # Hashing, noise and matrix generation on top of a backend (the proofs of `Verif.Proof.{SpongeX4,Noise,GenMatrix}` with the backend's contract) -/
namespace Verif.Native
open Model Spec

attribute [local irreducible] keccakF partialK finK blocksK sqByte SHAKE256 SHA3_256 SHA3_512 SHAKE128

variable {bk : Backend} {π : Nat → Nat} {C : Model.Poly → (Nat → Int) → Prop} (hM : Meets bk π C)
include hM

theorem keccak_absorb_x4_spec {s : Buf Model.W} {rb : Nat} {B : Nat → Nat → UInt8} {m : Four (Buf UInt8)} {mo mlen : Nat} {p : UInt8} (hrb : 0 < rb) (hr : rb ≤ 168) (hp : p.toNat < 128)
    (hsz : s.size = 100) (h : State4 s (fun _ => zeroK)) (hm : Seg4 m mo mlen B) :
    Post (keccak_absorb_x4 bk s rb m mo mlen p) (fun s' => s'.size = s.size ∧ State4 s' (fun w => finK rb (B w) mlen p)) := by
  unfold keccak_absorb_x4
  simp only [wp_bind]
  refine wp_while (fun x => ∃ q, q * rb ≤ mlen ∧ x.2.1 = mo + q * rb ∧ x.2.2 = mlen - q * rb ∧ x.1.size = s.size ∧ State4 x.1 (fun w => partialK rb (B w) (q * rb))) (fun x => x.2.2)
    (fun x => decide (x.2.2 ≥ rb)) ⟨0, by omega, by simp, by simp, rfl, ?_⟩ (Nat.le_refl _) ?_ ?_ ?_
  · exact h.congr fun w _ => by rw [Nat.zero_mul, partialK_zero]
  · intro x _; simp only [wp_pure]
  · rintro ⟨s1, mo1, ml1⟩ ⟨q, hq, h1, h2, hf, hI⟩ hC
    simp only [] at h1 h2 hf hI hC ⊢
    simp only [decide_eq_true_eq] at hC
    refine ⟨by omega, ?_⟩
    simp only [wp_bind]
    have hsub : Seg4 m mo1 rb (fun w j => B w (q * rb + j)) := by
      rw [h1]; exact hm.sub (q * rb) rb (by omega)
    refine Post.use (KeccakF1600x4_StateXORBytes_spec hI hsub (by omega)) fun s2 hs2 => ?_
    refine Post.use (hM.perm (hs2.1.trans (hf.trans hsz)) hs2.2) fun s3 hs3 => ?_
    simp only [wp_pure]
    refine ⟨⟨q + 1, by rw [Nat.succ_mul]; omega, by rw [Nat.succ_mul]; omega, by rw [Nat.succ_mul]; omega, hs3.1.trans (hs2.1.trans hf), hs3.2.congr fun w _ => ?_⟩, by omega⟩
    have := partialK_block hrb (B w) (q * rb)
    rw [Nat.mul_mod_left, Nat.sub_zero] at this
    rw [this, Nat.succ_mul]
  · rintro ⟨s1, mo1, ml1⟩ ⟨q, hq, h1, h2, hf, hI⟩ hC
    simp only [] at h1 h2 hf hI hC ⊢
    simp only [decide_eq_false_iff_not] at hC
    have hmod : mlen % rb = ml1 := by
      rw [show mlen = q * rb + ml1 by omega, Nat.mul_comm, Nat.mul_add_mod, Nat.mod_eq_of_lt (by omega)]
    have hpost : Post (branch (decide (ml1 > 0)) (KeccakF1600x4_StateXORBytes s1 m mo1 0 (u32 ml1)) (pure s1)) (fun s2 => s2.size = s.size ∧ State4 s2 (fun w => partialK rb (B w) mlen)) := by
      have hsub : Seg4 m mo1 ml1 (fun w j => B w (q * rb + j)) := by
        rw [h1]; exact hm.sub (q * rb) ml1 (by omega)
      simp only [wp_branch, wp_pure, decide_eq_true_eq, decide_eq_false_iff_not]
      refine ⟨fun h0 => ?_, fun h0 => ⟨hf, ?_⟩⟩
      · rw [u32_small (by omega)]
        refine Post.use (KeccakF1600x4_StateXORBytes_spec hI hsub (by omega)) fun s2 hs2 => ⟨hs2.1.trans hf, hs2.2.congr fun w _ => ?_⟩
        have e := partialK_add (rb := rb) (B w) (n := q * rb) (len := ml1) (by rw [Nat.mul_mod_left]; omega)
        rw [Nat.mul_mod_left, show q * rb + ml1 = mlen by omega] at e
        exact e
      · rw [show mlen = q * rb by omega]; exact hI
    refine Post.use hpost fun s2 hs2 => ?_
    exact Post.use (pad_x4_spec hrb hr hp hmod.symm hs2.2) fun s3 hs3 => ⟨hs3.1.trans hs2.1, hs3.2⟩

theorem keccak_squeezeblocks_x4_spec {s : Buf Model.W} {rb k : Nat} {T : Nat → KState} {h : Four (Buf UInt8)} {ho nblocks : Nat} (hrb : 0 < rb) (hr : rb ≤ 168)
    (hsz : s.size = 100) (hs : State4 s (fun w => iter keccakF k (T w))) (hho : Size4 h (ho + nblocks * rb)) :
    Post (keccak_squeezeblocks_x4 bk h ho nblocks s rb) (fun x => Written4 h x.1 ho (nblocks * rb) (fun w j => sqByte rb (T w) (k * rb + j)) ∧ x.2.size = s.size ∧
      State4 x.2 (fun w => iter keccakF (k + nblocks) (T w))) := by
  unfold keccak_squeezeblocks_x4
  simp only [wp_bind]
  refine wp_while (fun x => ∃ d, d ≤ nblocks ∧ x.2.2.1 = ho + d * rb ∧ x.2.2.2 = nblocks - d ∧ Written4 h x.1 ho (d * rb) (fun w j => sqByte rb (T w) (k * rb + j)) ∧ x.2.1.size = s.size ∧
      State4 x.2.1 (fun w => iter keccakF (k + d) (T w))) (fun x => x.2.2.2)
    (fun x => decide (x.2.2.2 > 0)) ⟨0, by omega, by simp, rfl, by rw [Nat.zero_mul]; exact Written4.refl _ _ _, rfl, hs⟩ (Nat.le_refl _) ?_ ?_ ?_
  · intro x _; simp only [wp_pure]
  · rintro ⟨h2, s2, ho2, nb2⟩ ⟨d, hd, e1, e2, hW, hf, hI⟩ hC
    simp only [] at e1 e2 hW hf hI hC ⊢
    simp only [decide_eq_true_eq] at hC
    refine ⟨hC, ?_⟩
    simp only [wp_bind]
    refine Post.use (hM.perm (hf.trans hsz) hI) fun s3 hs3 => ?_
    have hle : (d + 1) * rb ≤ nblocks * rb := Nat.mul_le_mul_right _ (by omega)
    rw [Nat.succ_mul] at hle
    have hsz := (hW.size hho).mono (k := ho2 + rb) (by omega)
    have hst : State4 s3 (fun w => iter keccakF (k + d + 1) (T w)) := hs3.2.congr fun w _ => (iter_succ' keccakF (k + d) (T w)).symm
    refine Post.use (KeccakF1600x4_StateExtractBytes_spec hst hsz (by omega)) fun h4 hh4 => ?_
    simp only [wp_pure]
    refine ⟨⟨d + 1, by omega, by rw [Nat.succ_mul]; omega, by omega, ?_, hs3.1.trans hf, hst⟩, by omega⟩
    rw [e1] at hh4
    rw [Nat.succ_mul]
    refine (hW.trans hh4).congr fun w j _ hj => ?_
    by_cases hjd : j < d * rb
    · rw [if_pos hjd]
    · rw [if_neg hjd, Nat.zero_add, sqByte_at (rb := rb) (T w) (by omega), Nat.add_mul, show k * rb + d * rb + (j - d * rb) = k * rb + j by omega]
  · rintro ⟨h2, s2, ho2, nb2⟩ ⟨d, hd, e1, e2, hW, hf, hI⟩ hC
    simp only [] at e1 e2 hW hf hI hC ⊢
    simp only [decide_eq_false_iff_not] at hC
    simp only [wp_pure]
    have : d = nblocks := by omega
    subst this
    exact ⟨hW, hf, hI⟩

theorem shake128x4_absorb_spec {s : Buf Model.W} {m : Four (Buf UInt8)} {mo mlen : Nat} {B : Nat → Nat → UInt8} (hsz : s.size = 100) (hm : Seg4 m mo mlen B) :
    Post (shake128x4_absorb bk s m mo mlen) (fun s' => s'.size = 100 ∧ State4 s' (fun w => finK 168 (B w) mlen 0x1F)) := by
  unfold shake128x4_absorb
  simp only [wp_bind]
  refine Post.use (zeroState_x4_spec hsz) fun s1 hs1 => ?_
  exact Post.use (keccak_absorb_x4_spec hM (by decide) (by decide) (by decide) hs1.1 hs1.2 hm) fun s2 hs2 => ⟨hs2.1.trans hs1.1, hs2.2⟩

theorem shake256x4_absorb_spec {s : Buf Model.W} {m : Four (Buf UInt8)} {mo mlen : Nat} {B : Nat → Nat → UInt8} (hsz : s.size = 100) (hm : Seg4 m mo mlen B) :
    Post (shake256x4_absorb bk s m mo mlen) (fun s' => s'.size = 100 ∧ State4 s' (fun w => finK 136 (B w) mlen 0x1F)) := by
  unfold shake256x4_absorb
  simp only [wp_bind]
  refine Post.use (zeroState_x4_spec hsz) fun s1 hs1 => ?_
  exact Post.use (keccak_absorb_x4_spec hM (by decide) (by decide) (by decide) hs1.1 hs1.2 hm) fun s2 hs2 => ⟨hs2.1.trans hs1.1, hs2.2⟩

/-- `shake256x4` computes four independent SHAKE256 outputs. -/
theorem shake256x4_spec {out : Four (Buf UInt8)} {outlen : Nat} {m : Four (Buf UInt8)} {mo mlen : Nat} {Ms : Nat → List UInt8} (hlen : ∀ w, w < 4 → (Ms w).length = mlen)
    (hm : Seg4 m mo mlen (fun w j => (Ms w).getD j 0)) (ho : Size4 out outlen) :
    Post (shake256x4 bk out outlen m mo mlen) (fun o' => Written4 out o' 0 outlen (fun w j => (SHAKE256 (Ms w) outlen).getD j 0)) := by
  have hspec : ∀ w j, w < 4 → j < outlen → (SHAKE256 (Ms w) outlen).getD j 0 = sqByte 136 (finK 136 (fun j => (Ms w).getD j 0) mlen 0x1F) j := by
    intro w j hw hj
    rw [SHAKE256_eq, getD_map_range _ _ hj, hlen w hw]
  have hd := Nat.div_add_mod outlen 136
  unfold shake256x4
  simp only [wp_bind]
  rw [show SHAKE256_RATE = 136 from rfl]
  refine Post.use (shake256x4_absorb_spec hM (by simp) hm) fun s1 hs1 => ?_
  unfold shake256x4_squeezeblocks
  refine Post.use (keccak_squeezeblocks_x4_spec hM (k := 0) (rb := SHAKE256_RATE) (ho := 0) (by decide) (by decide) hs1.1 hs1.2 (ho.mono (by unfold SHAKE256_RATE; omega))) fun x hx => ?_
  rw [show SHAKE256_RATE = 136 from rfl] at hx
  simp only [wp_branch, decide_eq_true_eq, decide_eq_false_iff_not]
  refine ⟨fun hne => ?_, fun heq => ?_⟩
  · simp only [wp_bind]
    refine Post.use (keccak_squeezeblocks_x4_spec hM (k := 0 + outlen / 136) (rb := SHAKE256_RATE) (ho := 0) (nblocks := 1) (by decide) (by decide) (hx.2.1.trans hs1.1) hx.2.2 ⟨by simp [Four.rep]; decide, by simp [Four.rep]; decide, by simp [Four.rep]; decide, by simp [Four.rep]; decide⟩) fun y hy => ?_
    rw [show SHAKE256_RATE = 136 from rfl] at hy
    have hsz := hx.1.size ho
    have seg : ∀ {b b' : Buf UInt8} {g : Nat → UInt8}, Written b b' 0 (1 * 136) g → Seg b' 0 (outlen - outlen / 136 * 136) g :=
      fun h i hi => h.2.1 i (by omega)
    refine Post.use (memcpy_spec (by have := hsz.s0; omega) (seg hy.1.s0)) fun o0 h0 => ?_
    refine Post.use (memcpy_spec (by have := hsz.s1; omega) (seg hy.1.s1)) fun o1 h1 => ?_
    refine Post.use (memcpy_spec (by have := hsz.s2; omega) (seg hy.1.s2)) fun o2 h2 => ?_
    refine Post.use (memcpy_spec (by have := hsz.s3; omega) (seg hy.1.s3)) fun o3 h3 => ?_
    simp only [wp_pure]
    have hW : Written4 x.1 (⟨o0, o1, o2, o3⟩ : Four (Buf UInt8)) (0 + outlen / 136 * 136) (outlen - outlen / 136 * 136)
        (fun w j => sqByte 136 (finK 136 (fun j => (Ms w).getD j 0) mlen 0x1F) ((0 + outlen / 136) * 136 + j)) := by
      rw [Nat.zero_add]; exact ⟨h0, h1, h2, h3⟩
    have := hx.1.trans hW
    rw [show outlen / 136 * 136 + (outlen - outlen / 136 * 136) = outlen by omega] at this
    refine this.congr fun w j hw hj => ?_
    rw [hspec w j hw hj]
    by_cases hj' : j < outlen / 136 * 136
    · rw [if_pos hj', Nat.zero_mul, Nat.zero_add]
    · rw [if_neg hj', Nat.zero_add, show outlen / 136 * 136 + (j - outlen / 136 * 136) = j by omega]
  · simp only [wp_pure]
    have e : outlen / 136 * 136 = outlen := by omega
    rw [e] at hx
    refine hx.1.congr fun w j hw hj => ?_
    rw [hspec w j hw hj, Nat.zero_mul, Nat.zero_add]

theorem poly_getnoise_eta1_4x_spec {K : Nat} {r : Four Model.Poly} {seed : Buf UInt8} {so : Nat} {σ : List UInt8} {nonce : Four UInt8} (hσ : σ.length = 32)
    (hs : Seg seed so 32 (fun j => σ.getD j 0)) (hr : Fresh4 r) :
    Post (poly_getnoise_eta1_4x bk K r seed so nonce) (fun r' => Holds4 r' (noiseI (η₁ K) σ nonce.x0) (noiseI (η₁ K) σ nonce.x1) (noiseI (η₁ K) σ nonce.x2) (noiseI (η₁ K) σ nonce.x3)) := by
  unfold poly_getnoise_eta1_4x
  simp only [wp_bind, wp_wr]
  refine Post.use (extKey_spec hσ hs) fun e0 g0 => Post.use (extKey_spec hσ hs) fun e1 g1 => Post.use (extKey_spec hσ hs) fun e2 g2 => Post.use (extKey_spec hσ hs) fun e3 g3 => ?_
  refine ⟨by rw [g0.1]; simp, by rw [g1.1]; simp, by rw [g2.1]; simp, by rw [g3.1]; simp, ?_⟩
  have he : Seg4 (⟨e0.setIfInBounds 32 (some nonce.x0), e1.setIfInBounds 32 (some nonce.x1), e2.setIfInBounds 32 (some nonce.x2), e3.setIfInBounds 32 (some nonce.x3)⟩ : Four (Buf UInt8)) 0 33
      (fun w j => (σ ++ [[nonce.x0, nonce.x1, nonce.x2, nonce.x3].getD w 0]).getD j 0) :=
    ⟨extKey_seg hσ g0, extKey_seg hσ g1, extKey_seg hσ g2, extKey_seg hσ g3⟩
  generalize e0.setIfInBounds 32 (some nonce.x0) = e0, e1.setIfInBounds 32 (some nonce.x1) = e1, e2.setIfInBounds 32 (some nonce.x2) = e2, e3.setIfInBounds 32 (some nonce.x3) = e3 at he ⊢
  rw [eta1_bytes]
  have hη : 64 * η₁ K ≤ 192 := by rcases η₁_cases K with h | h <;> omega
  refine Post.use (shake256x4_spec hM (Ms := fun w => σ ++ [[nonce.x0, nonce.x1, nonce.x2, nonce.x3].getD w 0]) (fun w _ => by simp [hσ]) he
    ⟨by simp [Four.rep], by simp [Four.rep], by simp [Four.rep], by simp [Four.rep]⟩) fun buf hb => ?_
  refine Post.use (poly_cbd_eta1_spec hb.s0.seg hr.h0) fun r0 h0 => ?_
  refine Post.use (poly_cbd_eta1_spec hb.s1.seg hr.h1) fun r1 h1 => ?_
  refine Post.use (poly_cbd_eta1_spec hb.s2.seg hr.h2) fun r2 h2 => ?_
  refine Post.use (poly_cbd_eta1_spec hb.s3.seg hr.h3) fun r3 h3 => ?_
  rw [eta1_eq]
  refine POLY_BOUND_wp h0 (fun i _ => noise_bound' (by omega) _ _ i) ?_
  refine POLY_BOUND_wp h1 (fun i _ => noise_bound' (by omega) _ _ i) ?_
  refine POLY_BOUND_wp h2 (fun i _ => noise_bound' (by omega) _ _ i) ?_
  refine POLY_BOUND_wp h3 (fun i _ => noise_bound' (by omega) _ _ i) ?_
  simp only [wp_pure]
  exact ⟨h0, h1, h2, h3⟩

theorem poly_getnoise_eta1122_4x_spec {K : Nat} {r : Four Model.Poly} {seed : Buf UInt8} {so : Nat} {σ : List UInt8} {nonce : Four UInt8} (hσ : σ.length = 32)
    (hs : Seg seed so 32 (fun j => σ.getD j 0)) (hr : Fresh4 r) :
    Post (poly_getnoise_eta1122_4x bk K r seed so nonce) (fun r' => Holds4 r' (noiseI (η₁ K) σ nonce.x0) (noiseI (η₁ K) σ nonce.x1) (noiseI 2 σ nonce.x2) (noiseI 2 σ nonce.x3)) := by
  unfold poly_getnoise_eta1122_4x
  simp only [wp_bind, wp_wr]
  refine Post.use (extKey_spec hσ hs) fun e0 g0 => Post.use (extKey_spec hσ hs) fun e1 g1 => Post.use (extKey_spec hσ hs) fun e2 g2 => Post.use (extKey_spec hσ hs) fun e3 g3 => ?_
  refine ⟨by rw [g0.1]; simp, by rw [g1.1]; simp, by rw [g2.1]; simp, by rw [g3.1]; simp, ?_⟩
  have he : Seg4 (⟨e0.setIfInBounds 32 (some nonce.x0), e1.setIfInBounds 32 (some nonce.x1), e2.setIfInBounds 32 (some nonce.x2), e3.setIfInBounds 32 (some nonce.x3)⟩ : Four (Buf UInt8)) 0 33
      (fun w j => (σ ++ [[nonce.x0, nonce.x1, nonce.x2, nonce.x3].getD w 0]).getD j 0) :=
    ⟨extKey_seg hσ g0, extKey_seg hσ g1, extKey_seg hσ g2, extKey_seg hσ g3⟩
  generalize e0.setIfInBounds 32 (some nonce.x0) = e0, e1.setIfInBounds 32 (some nonce.x1) = e1, e2.setIfInBounds 32 (some nonce.x2) = e2, e3.setIfInBounds 32 (some nonce.x3) = e3 at he ⊢
  rw [eta1_bytes, eta2_bytes, eta1_eq]
  have hη : 64 * η₁ K ≤ 192 := by rcases η₁_cases K with h | h <;> omega
  have hl33 : ∀ b : UInt8, (σ ++ [b]).length = 32 + 1 := by simp [hσ]
  have fin : ∀ b0 b1 b2 b3 : Buf UInt8, Seg b0 0 (64 * η₁ K) (fun j => (SHAKE256 (σ ++ [nonce.x0]) (64 * η₁ K)).getD j 0) →
        Seg b1 0 (64 * η₁ K) (fun j => (SHAKE256 (σ ++ [nonce.x1]) (64 * η₁ K)).getD j 0) →
        Seg b2 0 (64 * 2) (fun j => (SHAKE256 (σ ++ [nonce.x2]) (64 * 2)).getD j 0) →
        Seg b3 0 (64 * 2) (fun j => (SHAKE256 (σ ++ [nonce.x3]) (64 * 2)).getD j 0) →
      Post (do
        let r0 ← poly_cbd_eta1 K r.x0 b0
        let r1 ← poly_cbd_eta1 K r.x1 b1
        let r2 ← poly_cbd_eta2 r.x2 b2
        let r3 ← poly_cbd_eta2 r.x3 b3
        POLY_BOUND r0 (η₁ K + 1)
        POLY_BOUND r1 (η₁ K + 1)
        POLY_BOUND r2 (MLKEM_ETA2 + 1)
        POLY_BOUND r3 (MLKEM_ETA2 + 1)
        pure (⟨r0, r1, r2, r3⟩ : Four Model.Poly))
        (fun r' => Holds4 r' (noiseI (η₁ K) σ nonce.x0) (noiseI (η₁ K) σ nonce.x1) (noiseI 2 σ nonce.x2) (noiseI 2 σ nonce.x3)) := by
    intro b0 b1 b2 b3 hb0 hb1 hb2 hb3
    simp only [wp_bind]
    refine Post.use (poly_cbd_eta1_spec hb0 hr.h0) fun r0 h0 => ?_
    refine Post.use (poly_cbd_eta1_spec hb1 hr.h1) fun r1 h1 => ?_
    refine Post.use (poly_cbd_eta2_spec hb2 hr.h2) fun r2 h2 => ?_
    refine Post.use (poly_cbd_eta2_spec hb3 hr.h3) fun r3 h3 => ?_
    refine POLY_BOUND_wp h0 (fun i _ => noise_bound' (by omega) _ _ i) ?_
    refine POLY_BOUND_wp h1 (fun i _ => noise_bound' (by omega) _ _ i) ?_
    refine POLY_BOUND_wp h2 (fun i _ => noise_bound' (by decide) _ _ i) ?_
    refine POLY_BOUND_wp h3 (fun i _ => noise_bound' (by decide) _ _ i) ?_
    simp only [wp_pure]
    exact ⟨h0, h1, h2, h3⟩
  by_cases h2 : η₁ K = MLKEM_ETA2
  · rw [if_pos h2, wp_bind]
    refine Post.use (shake256x4_spec hM (Ms := fun w => σ ++ [[nonce.x0, nonce.x1, nonce.x2, nonce.x3].getD w 0]) (fun w _ => by simp [hσ]) he
      ⟨by simp, by simp, by simp [h2, MLKEM_ETA2], by simp [h2, MLKEM_ETA2]⟩) fun buf hb => ?_
    exact fin _ _ _ _ hb.s0.seg hb.s1.seg (by rw [h2] at hb; exact hb.s2.seg) (by rw [h2] at hb; exact hb.s3.seg)
  · rw [if_neg h2]
    rw [wp_bind]
    have go : ∀ {ek : Buf UInt8} {b : UInt8} {n : Nat}, n ≤ 192 → Seg ek 0 33 (fun j => (σ ++ [b]).getD j 0) →
        Post (shake256 bk (Buf.uninit UInt8 n) 0 n ek 0 (32 + 1)) (fun o' => Written (Buf.uninit UInt8 n) o' 0 n (fun j => (SHAKE256 (σ ++ [b]) n).getD j 0)) := by
      intro ek b n hn hek
      rw [← hl33 b]
      exact shake256_spec hM (by rw [hl33]; exact hek) (by rw [hl33]; omega) (by simp) (by omega)
    refine Post.use (go hη he.s0) fun b0 h0 => ?_
    rw [wp_bind]
    refine Post.use (go hη he.s1) fun b1 h1 => ?_
    rw [wp_bind]
    refine Post.use (go (by omega) he.s2) fun b2 h2 => ?_
    rw [wp_bind]
    refine Post.use (go (by omega) he.s3) fun b3 h3 => ?_
    rw [wp_bind, wp_pure]
    exact fin _ _ _ _ h0.seg h1.seg h2.seg h3.seg

theorem keypairNoise_spec {K : Nat} (hK : K = 2 ∨ K = 3 ∨ K = 4) {skpv e pkpv : PolyVec} {seed : Buf UInt8} {so : Nat} {σ : List UInt8} (hσ : σ.length = 32)
    (hs : Seg seed so 32 (fun j => σ.getD j 0)) (h1 : VAll skpv K (fun _ p => p.size = 256)) (h2 : VAll e K (fun _ p => p.size = 256)) (h3 : VAll pkpv K (fun _ p => p.size = 256)) :
    Post (keypairNoise bk K skpv e pkpv seed so) (fun x => VHolds x.1 K 256 (noiseV (η₁ K) σ 0) ∧ VHolds x.2.1 K 256 (noiseV (η₁ K) σ K) ∧ VAll x.2.2 K (fun _ p => p.size = 256)) := by
  unfold keypairNoise
  rcases hK with rfl | rfl | rfl
  · rw [if_pos rfl]
    obtain ⟨s0, hs0, es0⟩ := h1.2 0 (by omega)
    obtain ⟨s1, hs1, es1⟩ := h1.2 1 (by omega)
    obtain ⟨e0, he0, ee0⟩ := h2.2 0 (by omega)
    obtain ⟨e1, he1, ee1⟩ := h2.2 1 (by omega)
    simp only [wp_bind, wp_vget, wp_vset, wp_pure, Array.size_setIfInBounds, h1.1, h2.1]
    refine ⟨s0, hs0, s1, hs1, e0, he0, e1, he1, ?_⟩
    refine Post.use (poly_getnoise_eta1_4x_spec hM hσ hs ⟨es0, es1, ee0, ee1⟩) fun r hr => ?_
    refine ⟨by omega, by omega, by omega, by omega, ⟨by simp [h1.1], fun i hi => ?_⟩, ⟨by simp [h2.1], fun i hi => ?_⟩, h3⟩
    · interval_cases i
      · exact ⟨r.x0, by simp [Array.getElem?_setIfInBounds, h1.1], hr.h0⟩
      · exact ⟨r.x1, by simp [Array.getElem?_setIfInBounds, h1.1], hr.h1⟩
    · interval_cases i
      · exact ⟨r.x2, by simp [Array.getElem?_setIfInBounds, h2.1], hr.h2⟩
      · exact ⟨r.x3, by simp [Array.getElem?_setIfInBounds, h2.1], hr.h3⟩
  · rw [if_neg (by omega), if_pos rfl]
    obtain ⟨s0, hs0, es0⟩ := h1.2 0 (by omega)
    obtain ⟨s1, hs1, es1⟩ := h1.2 1 (by omega)
    obtain ⟨s2, hs2, es2⟩ := h1.2 2 (by omega)
    obtain ⟨e0, he0, ee0⟩ := h2.2 0 (by omega)
    obtain ⟨e1, he1, ee1⟩ := h2.2 1 (by omega)
    obtain ⟨e2, he2, ee2⟩ := h2.2 2 (by omega)
    obtain ⟨p0, hp0, ep0⟩ := h3.2 0 (by omega)
    simp only [wp_bind, wp_vget, wp_vset, wp_pure, Array.size_setIfInBounds, h1.1, h2.1, h3.1]
    refine ⟨s0, hs0, s1, hs1, s2, hs2, p0, hp0, ?_⟩
    refine Post.use (poly_getnoise_eta1_4x_spec hM hσ hs ⟨es0, es1, es2, ep0⟩) fun r hr => ?_
    refine ⟨by omega, by omega, by omega, by omega, e0, he0, e1, he1, e2, he2, r.x3, by simp [h3.1], ?_⟩
    refine Post.use (poly_getnoise_eta1_4x_spec hM hσ hs ⟨ee0, ee1, ee2, hr.h3.1⟩) fun r' hr' => ?_
    refine ⟨by omega, by omega, by omega, by omega, ⟨by simp [h1.1], fun i hi => ?_⟩, ⟨by simp [h2.1], fun i hi => ?_⟩, ?_⟩
    · interval_cases i
      · exact ⟨r.x0, by simp [Array.getElem?_setIfInBounds, h1.1], hr.h0⟩
      · exact ⟨r.x1, by simp [Array.getElem?_setIfInBounds, h1.1], hr.h1⟩
      · exact ⟨r.x2, by simp [Array.getElem?_setIfInBounds, h1.1], hr.h2⟩
    · interval_cases i
      · exact ⟨r'.x0, by simp [Array.getElem?_setIfInBounds, h2.1], hr'.h0⟩
      · exact ⟨r'.x1, by simp [Array.getElem?_setIfInBounds, h2.1], hr'.h1⟩
      · exact ⟨r'.x2, by simp [Array.getElem?_setIfInBounds, h2.1], hr'.h2⟩
    · exact (h3.set (R' := fun _ p => p.size = 256) (by omega) hr.h3.1 (fun _ _ _ _ h => h)).set (by omega) hr'.h3.1 (fun _ _ _ _ h => h)
  · rw [if_neg (by omega), if_neg (by omega)]
    obtain ⟨s0, hs0, es0⟩ := h1.2 0 (by omega)
    obtain ⟨s1, hs1, es1⟩ := h1.2 1 (by omega)
    obtain ⟨s2, hs2, es2⟩ := h1.2 2 (by omega)
    obtain ⟨s3, hs3, es3⟩ := h1.2 3 (by omega)
    obtain ⟨e0, he0, ee0⟩ := h2.2 0 (by omega)
    obtain ⟨e1, he1, ee1⟩ := h2.2 1 (by omega)
    obtain ⟨e2, he2, ee2⟩ := h2.2 2 (by omega)
    obtain ⟨e3, he3, ee3⟩ := h2.2 3 (by omega)
    simp only [wp_bind, wp_vget, wp_vset, wp_pure, Array.size_setIfInBounds, h1.1, h2.1, h3.1]
    refine ⟨s0, hs0, s1, hs1, s2, hs2, s3, hs3, ?_⟩
    refine Post.use (poly_getnoise_eta1_4x_spec hM hσ hs ⟨es0, es1, es2, es3⟩) fun r hr => ?_
    refine ⟨by omega, by omega, by omega, by omega, e0, he0, e1, he1, e2, he2, e3, he3, ?_⟩
    refine Post.use (poly_getnoise_eta1_4x_spec hM hσ hs ⟨ee0, ee1, ee2, ee3⟩) fun r' hr' => ?_
    refine ⟨by omega, by omega, by omega, by omega, ⟨by simp [h1.1], fun i hi => ?_⟩, ⟨by simp [h2.1], fun i hi => ?_⟩, h3⟩
    · interval_cases i
      · exact ⟨r.x0, by simp [Array.getElem?_setIfInBounds, h1.1], hr.h0⟩
      · exact ⟨r.x1, by simp [Array.getElem?_setIfInBounds, h1.1], hr.h1⟩
      · exact ⟨r.x2, by simp [Array.getElem?_setIfInBounds, h1.1], hr.h2⟩
      · exact ⟨r.x3, by simp [Array.getElem?_setIfInBounds, h1.1], hr.h3⟩
    · interval_cases i
      · exact ⟨r'.x0, by simp [Array.getElem?_setIfInBounds, h2.1], hr'.h0⟩
      · exact ⟨r'.x1, by simp [Array.getElem?_setIfInBounds, h2.1], hr'.h1⟩
      · exact ⟨r'.x2, by simp [Array.getElem?_setIfInBounds, h2.1], hr'.h2⟩
      · exact ⟨r'.x3, by simp [Array.getElem?_setIfInBounds, h2.1], hr'.h3⟩

theorem encNoise_spec {K : Nat} (hK : K = 2 ∨ K = 3 ∨ K = 4) {sp ep : PolyVec} {epp : Model.Poly} {b : PolyVec} {seed : Buf UInt8} {so : Nat} {σ : List UInt8} (hσ : σ.length = 32)
    (hs : Seg seed so 32 (fun j => σ.getD j 0)) (h1 : VAll sp K (fun _ p => p.size = 256)) (h2 : VAll ep K (fun _ p => p.size = 256)) (h4 : epp.size = 256)
    (h3 : VAll b K (fun _ p => p.size = 256)) :
    Post (encNoise bk K sp ep epp b seed so) (fun x => VHolds x.1 K 256 (noiseV (η₁ K) σ 0) ∧ VHolds x.2.1 K 256 (noiseV 2 σ K) ∧ Holds x.2.2.1 256 (noiseI 2 σ (UInt8.ofNat (2 * K))) ∧
      VAll x.2.2.2 K (fun _ p => p.size = 256)) := by
  unfold encNoise
  rcases hK with rfl | rfl | rfl
  · rw [if_pos rfl]
    obtain ⟨s0, hs0, es0⟩ := h1.2 0 (by omega)
    obtain ⟨s1, hs1, es1⟩ := h1.2 1 (by omega)
    obtain ⟨e0, he0, ee0⟩ := h2.2 0 (by omega)
    obtain ⟨e1, he1, ee1⟩ := h2.2 1 (by omega)
    simp only [wp_bind, wp_vget, wp_vset, wp_pure, Array.size_setIfInBounds, h1.1, h2.1]
    refine ⟨s0, hs0, s1, hs1, e0, he0, e1, he1, ?_⟩
    refine Post.use (poly_getnoise_eta1122_4x_spec hM hσ hs ⟨es0, es1, ee0, ee1⟩) fun r hr => ?_
    refine ⟨by omega, by omega, by omega, by omega, ?_⟩
    refine Post.use (poly_getnoise_eta2_spec hM hσ hs h4) fun epp' hepp => ?_
    refine ⟨⟨by simp [h1.1], fun i hi => ?_⟩, ⟨by simp [h2.1], fun i hi => ?_⟩, hepp, h3⟩
    · interval_cases i
      · exact ⟨r.x0, by simp [Array.getElem?_setIfInBounds, h1.1], hr.h0⟩
      · exact ⟨r.x1, by simp [Array.getElem?_setIfInBounds, h1.1], hr.h1⟩
    · interval_cases i
      · exact ⟨r.x2, by simp [Array.getElem?_setIfInBounds, h2.1], hr.h2⟩
      · exact ⟨r.x3, by simp [Array.getElem?_setIfInBounds, h2.1], hr.h3⟩
  · rw [if_neg (by omega), if_pos rfl]
    obtain ⟨s0, hs0, es0⟩ := h1.2 0 (by omega)
    obtain ⟨s1, hs1, es1⟩ := h1.2 1 (by omega)
    obtain ⟨s2, hs2, es2⟩ := h1.2 2 (by omega)
    obtain ⟨e0, he0, ee0⟩ := h2.2 0 (by omega)
    obtain ⟨e1, he1, ee1⟩ := h2.2 1 (by omega)
    obtain ⟨e2, he2, ee2⟩ := h2.2 2 (by omega)
    obtain ⟨p0, hp0, ep0⟩ := h3.2 0 (by omega)
    unfold poly_getnoise_eta2_4x
    simp only [wp_bind, wp_vget, wp_vset, wp_pure, Array.size_setIfInBounds, h1.1, h2.1, h3.1]
    refine ⟨s0, hs0, s1, hs1, s2, hs2, p0, hp0, ?_⟩
    refine Post.use (poly_getnoise_eta1_4x_spec hM hσ hs ⟨es0, es1, es2, ep0⟩) fun r hr => ?_
    refine ⟨by omega, by omega, by omega, by omega, e0, he0, e1, he1, e2, he2, ?_⟩
    refine Post.use (poly_getnoise_eta1_4x_spec hM hσ hs ⟨ee0, ee1, ee2, h4⟩) fun r' hr' => ?_
    refine ⟨by omega, by omega, by omega, ⟨by simp [h1.1], fun i hi => ?_⟩, ⟨by simp [h2.1], fun i hi => ?_⟩, hr'.h3, ?_⟩
    · interval_cases i
      · exact ⟨r.x0, by simp [Array.getElem?_setIfInBounds, h1.1], hr.h0⟩
      · exact ⟨r.x1, by simp [Array.getElem?_setIfInBounds, h1.1], hr.h1⟩
      · exact ⟨r.x2, by simp [Array.getElem?_setIfInBounds, h1.1], hr.h2⟩
    · interval_cases i
      · exact ⟨r'.x0, by simp [Array.getElem?_setIfInBounds, h2.1], hr'.h0⟩
      · exact ⟨r'.x1, by simp [Array.getElem?_setIfInBounds, h2.1], hr'.h1⟩
      · exact ⟨r'.x2, by simp [Array.getElem?_setIfInBounds, h2.1], hr'.h2⟩
    · exact VAll.set (K := 3) (i := 0) (R' := fun _ p => p.size = 256) h3 (by omega) hr.h3.1 (fun _ _ _ _ h => h)
  · rw [if_neg (by omega), if_neg (by omega)]
    obtain ⟨s0, hs0, es0⟩ := h1.2 0 (by omega)
    obtain ⟨s1, hs1, es1⟩ := h1.2 1 (by omega)
    obtain ⟨s2, hs2, es2⟩ := h1.2 2 (by omega)
    obtain ⟨s3, hs3, es3⟩ := h1.2 3 (by omega)
    obtain ⟨e0, he0, ee0⟩ := h2.2 0 (by omega)
    obtain ⟨e1, he1, ee1⟩ := h2.2 1 (by omega)
    obtain ⟨e2, he2, ee2⟩ := h2.2 2 (by omega)
    obtain ⟨e3, he3, ee3⟩ := h2.2 3 (by omega)
    unfold poly_getnoise_eta2_4x
    simp only [wp_bind, wp_vget, wp_vset, wp_pure, Array.size_setIfInBounds, h1.1, h2.1, h3.1]
    refine ⟨s0, hs0, s1, hs1, s2, hs2, s3, hs3, ?_⟩
    refine Post.use (poly_getnoise_eta1_4x_spec hM hσ hs ⟨es0, es1, es2, es3⟩) fun r hr => ?_
    refine ⟨by omega, by omega, by omega, by omega, e0, he0, e1, he1, e2, he2, e3, he3, ?_⟩
    refine Post.use (poly_getnoise_eta1_4x_spec hM hσ hs ⟨ee0, ee1, ee2, ee3⟩) fun r' hr' => ?_
    refine ⟨by omega, by omega, by omega, by omega, ?_⟩
    refine Post.use (poly_getnoise_eta2_spec hM hσ hs h4) fun epp' hepp => ?_
    refine ⟨⟨by simp [h1.1], fun i hi => ?_⟩, ⟨by simp [h2.1], fun i hi => ?_⟩, hepp, h3⟩
    · interval_cases i
      · exact ⟨r.x0, by simp [Array.getElem?_setIfInBounds, h1.1], hr.h0⟩
      · exact ⟨r.x1, by simp [Array.getElem?_setIfInBounds, h1.1], hr.h1⟩
      · exact ⟨r.x2, by simp [Array.getElem?_setIfInBounds, h1.1], hr.h2⟩
      · exact ⟨r.x3, by simp [Array.getElem?_setIfInBounds, h1.1], hr.h3⟩
    · interval_cases i
      · exact ⟨r'.x0, by simp [Array.getElem?_setIfInBounds, h2.1], hr'.h0⟩
      · exact ⟨r'.x1, by simp [Array.getElem?_setIfInBounds, h2.1], hr'.h1⟩
      · exact ⟨r'.x2, by simp [Array.getElem?_setIfInBounds, h2.1], hr'.h2⟩
      · exact ⟨r'.x3, by simp [Array.getElem?_setIfInBounds, h2.1], hr'.h3⟩

theorem rej_next {v : Model.Poly} {c m n : Nat} {B : List UInt8} {buf : Buf UInt8} (hn : n ≤ 3) (h : EntryAt v c B m)
    (hb : Seg buf 0 (n * 168) (fun j => sqByte 168 (finK 168 (fun j => B.getD j 0) B.length 0x1F) (m * 168 + j))) :
    Post (bk.rej_uniform v 256 c buf (n * 168)) (fun x => EntryAt x.1 x.2 B (m + n)) := by
  have hlen : ((List.range (n * 168)).map (fun j => sqByte 168 (finK 168 (fun j => B.getD j 0) B.length 0x1F) (168 * m + j))).length = n * 168 := by simp
  rw [h.cnt]
  conv => arg 1; rw [← hlen]
  refine Post.use (hM.rej (by rw [h.size]) (by omega) (by rw [hlen]; omega) (by rw [hlen]; omega) (smp_le _ _) h.has ?_) fun x hx => ⟨hx.1.trans h.size, ?_, ?_⟩
  · rw [hlen]
    exact hb.congr fun j hj => by rw [getD_map_range _ _ hj, Nat.mul_comm]
  · rw [show 168 * (m + n) = 168 * m + n * 168 by omega, smp_add _ _ _ (by omega)]
    exact hx.2.1
  · rw [show 168 * (m + n) = 168 * m + n * 168 by omega, smp_add _ _ _ (by omega)]
    exact hx.2.2.1

theorem gen_matrix_entry_spec {fuel : Nat} {entry : Model.Poly} {seed : Buf UInt8} {B : List UInt8} (he : entry.size = 256) (hB : B.length = 34) (hs : Seg seed 0 34 (fun j => B.getD j 0)) :
    PostF ((smp B (168 * (3 + fuel))).length ≠ 256) (gen_matrix_entry bk fuel entry seed)
      (fun r => (smp B (168 * (3 + fuel))).length = 256 ∧ Holds r 256 (fun i => ((smp B (168 * (3 + fuel))).getD i 0 : Nat))) := by
  unfold gen_matrix_entry shake128_squeezeblocks
  rw [NB_eq, show SHAKE128_RATE = 168 from rfl]
  simp only [wp_bind]
  refine Post.use (shake128_absorb_spec hM (by simp) hs) fun s1 hs1 => ?_
  rw [show 32 + 2 = B.length from hB.symm] at hs1
  refine Post.use (keccak_squeezeblocks_spec hM (k := 0) (by omega) (by omega) hs1.2 (by simp)) fun x hx => ?_
  refine Post.use (rej_next hM (by decide) (entry_zero he) (hx.1.seg.congr fun j _ => rfl)) fun y hy => ?_
  refine wp_while_fuel (k0 := 0) (fun k (x : Model.Poly × Nat × Buf UInt8 × Buf Model.W) => EntryAt x.1 x.2.1 B (3 + k) ∧ x.2.2.1.size = 3 * 168 ∧
      SegK x.2.2.2 0 (iter keccakF (3 + k) (finK 168 (fun j => B.getD j 0) B.length 0x1F))) (fun x => decide (x.2.1 < 256)) ⟨?_, ?_, ?_⟩ ?_ ?_ ?_ ?_
  · exact hy
  · exact hx.1.1.trans (by simp)
  · exact hx.2.2
  · intro k x _; simp only [wp_pure]
  · rintro k ⟨e, c, b, s⟩ hk ⟨h1, h2, h3⟩ _
    simp only [] at h1 h2 h3 ⊢
    simp only [wp_bind]
    refine Post.use (keccak_squeezeblocks_spec hM (k := 3 + k) (nblocks := 1) (by omega) (by omega) h3 (by omega)) fun z hz => ?_
    refine Post.use (rej_next hM (n := 1) (by omega) h1 hz.1.seg) fun w hw => ?_
    simp only [wp_pure]
    exact ⟨hw, hz.1.1.trans h2, hz.2.2⟩
  · rintro ⟨e, c, b, s⟩ ⟨h1, _, _⟩ hC
    simp only [] at h1 hC
    simp only [decide_eq_true_eq] at hC
    have := h1.cnt
    rw [Nat.zero_add] at this
    omega
  · rintro k ⟨e, c, b, s⟩ hk ⟨h1, _, _⟩ hC
    simp only [] at h1 hC ⊢
    simp only [decide_eq_false_iff_not] at hC
    simp only [wp_pure]
    exact h1.full (by omega) (by omega)

theorem gen_matrix_entry_x4_spec {fuel : Nat} {vec : Four Model.Poly} {seed : Four (Buf UInt8)} {B : Nat → List UInt8} (he : Fresh4 vec) (hB : ∀ w, w < 4 → (B w).length = 34)
    (hs : Seg4 seed 0 34 (fun w j => (B w).getD j 0)) :
    PostF (∃ w, w < 4 ∧ (smp (B w) (168 * (3 + fuel))).length ≠ 256) (gen_matrix_entry_x4 bk fuel vec seed)
      (fun r => (∀ w, w < 4 → (smp (B w) (168 * (3 + fuel))).length = 256) ∧ Holds4 r (fun i => ((smp (B 0) (168 * (3 + fuel))).getD i 0 : Nat))
        (fun i => ((smp (B 1) (168 * (3 + fuel))).getD i 0 : Nat)) (fun i => ((smp (B 2) (168 * (3 + fuel))).getD i 0 : Nat))
        (fun i => ((smp (B 3) (168 * (3 + fuel))).getD i 0 : Nat))) := by
  unfold gen_matrix_entry_x4 shake128x4_squeezeblocks
  rw [NB_eq, show SHAKE128_RATE = 168 from rfl]
  simp only [wp_bind]
  refine Post.use (shake128x4_absorb_spec hM (by simp) hs) fun s1 hs1 => ?_
  have hs2 : State4 s1 (fun w => iter keccakF 0 (finK 168 (fun j => (B w).getD j 0) (B w).length 0x1F)) := hs1.2.congr fun w hw => by rw [hB w hw]; rfl
  refine Post.use (keccak_squeezeblocks_x4_spec hM (k := 0) (by omega) (by omega) hs1.1 hs2 ⟨by simp [Four.rep], by simp [Four.rep], by simp [Four.rep], by simp [Four.rep]⟩) fun x hx => ?_
  refine Post.use (rej_next hM (by decide) (entry_zero he.h0) hx.1.s0.seg) fun y0 hy0 => ?_
  refine Post.use (rej_next hM (by decide) (entry_zero he.h1) hx.1.s1.seg) fun y1 hy1 => ?_
  refine Post.use (rej_next hM (by decide) (entry_zero he.h2) hx.1.s2.seg) fun y2 hy2 => ?_
  refine Post.use (rej_next hM (by decide) (entry_zero he.h3) hx.1.s3.seg) fun y3 hy3 => ?_
  refine wp_while_fuel (k0 := 0) (fun k (x : Four Model.Poly × Four Nat × Four (Buf UInt8) × Buf Model.W) =>
      EntryAt x.1.x0 x.2.1.x0 (B 0) (3 + k) ∧ EntryAt x.1.x1 x.2.1.x1 (B 1) (3 + k) ∧ EntryAt x.1.x2 x.2.1.x2 (B 2) (3 + k) ∧ EntryAt x.1.x3 x.2.1.x3 (B 3) (3 + k) ∧
      Size4 x.2.2.1 (3 * 168) ∧ x.2.2.2.size = 100 ∧ State4 x.2.2.2 (fun w => iter keccakF (3 + k) (finK 168 (fun j => (B w).getD j 0) (B w).length 0x1F)))
    (fun x => decide (x.2.1.x0 < 256 ∨ x.2.1.x1 < 256 ∨ x.2.1.x2 < 256 ∨ x.2.1.x3 < 256)) ⟨?_, ?_, ?_, ?_, ?_, ?_, ?_⟩ ?_ ?_ ?_ ?_
  · exact hy0
  · exact hy1
  · exact hy2
  · exact hy3
  · exact hx.1.size ⟨by simp [Four.rep], by simp [Four.rep], by simp [Four.rep], by simp [Four.rep]⟩
  · exact hx.2.1.trans hs1.1
  · exact hx.2.2
  · rintro k ⟨v, c, b, s⟩ _
    simp only [wp_branch, wp_pure, decide_eq_true_eq, decide_eq_false_iff_not]
    refine ⟨fun h => ?_, fun h0 => ⟨fun h => ?_, fun h1 => ⟨fun h => ?_, fun h2 => ?_⟩⟩⟩
    · simp [h]
    · simp [h]
    · simp [h]
    · simp [h0, h1, h2]
  · rintro k ⟨v, c, b, s⟩ hk ⟨h0, h1, h2, h3, h4, hz4, h5⟩ _
    simp only [] at h0 h1 h2 h3 h4 hz4 h5 ⊢
    simp only [wp_bind]
    refine Post.use (keccak_squeezeblocks_x4_spec hM (k := 3 + k) (nblocks := 1) (by omega) (by omega) hz4 h5 (h4.mono (by omega))) fun z hz => ?_
    refine Post.use (rej_next hM (n := 1) (by omega) h0 hz.1.s0.seg) fun w0 hw0 => ?_
    refine Post.use (rej_next hM (n := 1) (by omega) h1 hz.1.s1.seg) fun w1 hw1 => ?_
    refine Post.use (rej_next hM (n := 1) (by omega) h2 hz.1.s2.seg) fun w2 hw2 => ?_
    refine Post.use (rej_next hM (n := 1) (by omega) h3 hz.1.s3.seg) fun w3 hw3 => ?_
    simp only [wp_pure]
    exact ⟨hw0, hw1, hw2, hw3, hz.1.size h4, hz.2.1.trans hz4, hz.2.2⟩
  · rintro ⟨v, c, b, s⟩ ⟨h0, h1, h2, h3, h4, -, h5⟩ hC
    simp only [] at h0 h1 h2 h3 hC
    rw [Nat.zero_add] at h0 h1 h2 h3
    simp only [decide_eq_true_eq] at hC
    rcases hC with h | h | h | h
    · exact ⟨0, by omega, by have := h0.cnt; omega⟩
    · exact ⟨1, by omega, by have := h1.cnt; omega⟩
    · exact ⟨2, by omega, by have := h2.cnt; omega⟩
    · exact ⟨3, by omega, by have := h3.cnt; omega⟩
  · rintro k ⟨v, c, b, s⟩ hk ⟨h0, h1, h2, h3, h4, h5⟩ hC
    simp only [] at h0 h1 h2 h3 hC ⊢
    simp only [decide_eq_false_iff_not] at hC
    simp only [wp_pure]
    have f0 := h0.full (N := 3 + fuel) (by omega) (by omega)
    have f1 := h1.full (N := 3 + fuel) (by omega) (by omega)
    have f2 := h2.full (N := 3 + fuel) (by omega) (by omega)
    have f3 := h3.full (N := 3 + fuel) (by omega) (by omega)
    refine ⟨fun w hw => ?_, f0.2, f1.2, f2.2, f3.2⟩
    interval_cases w
    · exact f0.1
    · exact f1.1
    · exact f2.1
    · exact f3.1

omit hM in
theorem nested_lt {K i j : Nat} (hi : i < K) (hj : j < K) : K * i + j < K * K := by
  have : K * i + K ≤ K * K := by rw [← Nat.mul_succ]; exact Nat.mul_le_mul_left K hi
  omega

/-- The final permutation of all entries of the matrix. -/
theorem permuteAll_spec {K : Nat} {a : PolyVec} {f : Nat → Nat → Int} (ha : VHolds a (K * K) 256 f) (hf : ∀ i n, i < K * K → n < 256 → 0 ≤ f i n ∧ f i n < 3329) :
    Post (match bk.poly_permute_bitrev_to_custom with
      | none => pure a
      | some permute => forN K a fun i a => forN K a fun j a => vmod a (K * i + j) permute) (fun a' => VHolds a' (K * K) 256 (fun i n => f i (π n))) := by
  have hp := hM.permute
  split
  · rename_i e
    simp only [e] at hp
    simp only [Post, wp_pure]
    exact ha.congr fun i c hi hc => by rw [hp c hc]
  · rename_i permute e
    simp only [e] at hp
    refine wp_forN (fun i a => VAll a (K * K) (fun j p => Holds p 256 fun n => if j < K * i then f j (π n) else f j n)) ?_ ?_ ?_
    · exact ha.mono fun i p _ h => h.congr fun n _ => by simp
    · intro i a hi hI
      refine wp_forN (fun k a => VAll a (K * K) (fun j p => Holds p 256 fun n => if j < K * i + k then f j (π n) else f j n)) hI ?_ ?_
      · intro k a hk hI
        have hlt := nested_lt hi hk
        obtain ⟨p, e, h⟩ := hI.2 (K * i + k) hlt
        rw [wp_vmod]
        refine ⟨p, e, ?_⟩
        have h' : Holds p 256 (f (K * i + k)) := h.congr fun n _ => by simp
        refine PostF.mono (hp h' fun n hn => hf _ n hlt hn) fun p' hp' => ⟨by rw [hI.1]; exact hlt, ?_⟩
        refine VAll.set hI hlt (hp'.congr fun n _ => by simp) fun j q hj hne hq => hq.congr fun n _ => ?_
        by_cases hc : j < K * i + k
        · rw [if_pos hc, if_pos (by omega)]
        · rw [if_neg hc, if_neg (by omega)]
      · intro a hI
        rw [← Nat.mul_succ] at hI
        exact hI
    · intro a hI
      exact VAll.mono hI fun i p hi hq => hq.congr fun n _ => by rw [if_pos hi]

theorem gen_matrix_spec {K fuel : Nat} {a : PolyVec} {seed : Buf UInt8} {so : Nat} {ρ : List UInt8} {tr : Bool} (hK : K * K % 4 ≤ 1) (ha : VAll a (K * K) (fun _ p => p.size = 256))
    (hρ : ρ.length = 32) (hs : Seg seed so 32 (fun j => ρ.getD j 0)) :
    PostF (∃ i, i < K * K ∧ (smp (seedAt K ρ tr i) (168 * (3 + fuel))).length ≠ 256) (gen_matrix bk K fuel a seed so tr)
      (fun a' => VHolds a' (K * K) 256 (fun i c => ((smp (seedAt K ρ tr i) (168 * (3 + fuel))).getD (π c) 0 : Nat)) ∧ ∀ i, i < K * K → (smp (seedAt K ρ tr i) (168 * (3 + fuel))).length = 256) := by
  generalize hN : 168 * (3 + fuel) = N
  unfold gen_matrix
  simp only [wp_bind]
  have hseed : ∀ s', Written (Buf.uninit UInt8 (32 + 2)) s' 0 32 (fun j => ρ.getD j 0) → Seeded s' ρ := fun s' h => ⟨h.1.trans (by simp), h.seg⟩
  refine Post.use (memcpy_spec (by simp) hs) fun s0 h0 => ?_
  refine Post.use (memcpy_spec (by simp) hs) fun s1 h1 => ?_
  refine Post.use (memcpy_spec (by simp) hs) fun s2 h2 => ?_
  refine Post.use (memcpy_spec (by simp) hs) fun s3 h3 => ?_
  refine wp_forN (fun t (x : PolyVec × Four (Buf UInt8)) => VAll x.1 (K * K) (MatTo K N ρ tr (4 * t)) ∧ Seeded x.2.x0 ρ ∧ Seeded x.2.x1 ρ ∧ Seeded x.2.x2 ρ ∧ Seeded x.2.x3 ρ)
    ⟨ha.mono fun i p _ h => ⟨h, fun h => by omega⟩, hseed _ h0, hseed _ h1, hseed _ h2, hseed _ h3⟩ ?_ ?_
  · rintro t ⟨a, s⟩ ht ⟨hA, g0, g1, g2, g3⟩
    simp only [] at hA g0 g1 g2 g3 ⊢
    simp only [wp_bind, wp_vget, wp_vset, Array.size_setIfInBounds, hA.1, wp_pure]
    have hK0 : K ≠ 0 := by rintro rfl; simp at ht
    refine Post.use (setSeed_spec hK0 g0 hρ) fun s0 k0 => ?_
    refine Post.use (setSeed_spec hK0 g1 hρ) fun s1 k1 => ?_
    refine Post.use (setSeed_spec hK0 g2 hρ) fun s2 k2 => ?_
    refine Post.use (setSeed_spec hK0 g3 hρ) fun s3 k3 => ?_
    obtain ⟨p0, e0, q0⟩ := hA.2 (4 * t + 0) (by omega)
    obtain ⟨p1, e1, q1⟩ := hA.2 (4 * t + 1) (by omega)
    obtain ⟨p2, e2, q2⟩ := hA.2 (4 * t + 2) (by omega)
    obtain ⟨p3, e3, q3⟩ := hA.2 (4 * t + 3) (by omega)
    refine ⟨p0, e0, p1, e1, p2, e2, p3, e3, ?_⟩
    refine PostF.mono (PostF.monoF (gen_matrix_entry_x4_spec hM (B := fun w => seedAt K ρ tr (4 * t + w)) ⟨q0.1, q1.1, q2.1, q3.1⟩ (fun w _ => seedXY_length hρ _ _ _) ⟨k0.2, k1.2, k2.2, k3.2⟩) ?_) ?_
    · rintro ⟨w, hw, h⟩
      exact ⟨4 * t + w, by omega, hN ▸ h⟩
    · rw [hN]
      rintro r ⟨hl, hr⟩
      refine ⟨by omega, by omega, by omega, by omega, ?_, k0.1, k1.1, k2.1, k3.1⟩
      have a1 := MatTo.set hA (by omega) (hl 0 (by omega)) hr.h0
      have a2 := MatTo.set a1 (by omega) (hl 1 (by omega)) hr.h1
      have a3 := MatTo.set a2 (by omega) (hl 2 (by omega)) hr.h2
      exact MatTo.set a3 (by omega) (hl 3 (by omega)) hr.h3
  · rintro ⟨a, s⟩ ⟨hA, g0, g1, g2, g3⟩
    simp only [] at hA g0 g1 g2 g3 ⊢
    have fin : ∀ a', VAll a' (K * K) (MatTo K N ρ tr (K * K)) →
        PostF (∃ i, i < K * K ∧ (smp (seedAt K ρ tr i) N).length ≠ 256) (match bk.poly_permute_bitrev_to_custom with
          | none => pure a'
          | some permute => forN K a' fun i a => forN K a fun j a => vmod a (K * i + j) permute)
          (fun a'' => VHolds a'' (K * K) 256 (fun i c => ((smp (seedAt K ρ tr i) N).getD (π c) 0 : Nat)) ∧ ∀ i, i < K * K → (smp (seedAt K ρ tr i) N).length = 256) := by
      intro a' h
      have h1 : VHolds a' (K * K) 256 (fun i c => ((smp (seedAt K ρ tr i) N).getD c 0 : Nat)) := h.mono fun i p hi hp => (hp.2 hi).2
      refine Post.use (permuteAll_spec hM h1 fun i n _ _ => ?_) fun a'' h2 => ⟨h2, fun i hi => ?_⟩
      · have := smp_getD_lt (seedAt K ρ tr i) N n
        omega
      · obtain ⟨p, _, hp⟩ := h.2 i hi
        exact (hp.2 hi).1
    simp only [wp_branch, decide_eq_true_eq, decide_eq_false_iff_not, wp_bind, wp_vget, wp_vset, wp_pure, wp_assertM, hA.1]
    refine ⟨fun hlt => ?_, fun hge => ⟨by omega, fin _ ?_⟩⟩
    · have hK0 : K ≠ 0 := by rintro rfl; simp at hlt
      refine Post.use (setSeed_spec hK0 g0 hρ) fun s0 k0 => ?_
      obtain ⟨p0, e0, q0⟩ := hA.2 (4 * (K * K / 4)) hlt
      refine ⟨p0, e0, ?_⟩
      refine PostF.mono (PostF.monoF (gen_matrix_entry_spec hM (B := seedAt K ρ tr (4 * (K * K / 4))) q0.1 (seedXY_length hρ _ _ _) k0.2) ?_) ?_
      · intro h
        exact ⟨_, hlt, hN ▸ h⟩
      · rw [hN]
        rintro r ⟨hl, hr⟩
        refine ⟨hlt, by omega, fin _ ?_⟩
        have := MatTo.set hA hlt hl hr
        rwa [show 4 * (K * K / 4) + 1 = K * K by omega] at this
    · rwa [show 4 * (K * K / 4) = K * K by omega] at hA


end Verif.Native

import Verif.Proof.Native
/-! # Hashing on top of a backend (the proofs of `Verif.Proof.{Sponge,Noise}` with the backend's contract) -/
namespace Verif.Native
open Model Spec

attribute [local irreducible] keccakF partialK finK blocksK sqByte SHAKE256 SHA3_256 SHA3_512 SHAKE128

variable {bk : Backend} {π : Nat → Nat} {C : Model.Poly → (Nat → Int) → Prop} (hM : Meets bk π C)
include hM

theorem keccak_inc_absorb_spec {s : Buf Model.W} {rb : Nat} {B : Nat → UInt8} {n : Nat} {m : Buf UInt8} {mo mlen : Nat} (hrb : 0 < rb) (hr : rb ≤ 168)
    (h : IncAbs s rb B n) (hm : Seg m mo mlen (fun j => B (n + j))) (hlen : mlen + 200 < 18446744073709551616) :
    Post (keccak_inc_absorb bk s rb m mo mlen) (fun s' => IncAbs s' rb B (n + mlen)) := by
  unfold keccak_inc_absorb
  simp only [wp_bind]
  refine wp_while (fun x => ∃ d, d ≤ mlen ∧ x.2.1 = mo + d ∧ x.2.2 = mlen - d ∧ IncAbs x.1 rb B (n + d)) (fun x => x.2.2)
    (fun x => match x.1[25]? with | some (some c) => decide (x.2.2 + c.toNat ≥ rb) | _ => false) ⟨0, by omega, rfl, rfl, h⟩ (by simp) ?_ ?_ ?_
  · rintro ⟨s1, mo1, ml1⟩ ⟨d, hd, h1, h2, hI⟩
    simp only [] at h1 h2 hI ⊢
    have hlt := Nat.mod_lt (n + d) hrb
    simp only [wp_bind, wp_rd, wp_pure]
    refine ⟨_, hI.pos, ?_⟩
    rw [hI.pos]
    simp only [bv64_toNat (show (n + d) % rb < 18446744073709551616 by omega)]
    rw [u64_small (by omega)]
  · rintro ⟨s1, mo1, ml1⟩ ⟨d, hd, h1, h2, hI⟩ hC
    simp only [] at h1 h2 hI hC ⊢
    have hlt := Nat.mod_lt (n + d) hrb
    have hbv := bv64_toNat (show (n + d) % rb < 18446744073709551616 by omega)
    rw [hI.pos] at hC
    simp only [hbv, decide_eq_true_eq] at hC
    refine ⟨by omega, ?_⟩
    simp only [wp_bind, wp_rd]
    refine ⟨_, hI.pos, ?_⟩
    rw [hbv, sub64_eq (by omega) (by omega), u32_small (by omega), u32_small (by omega), sub64_eq (by omega) (by omega)]
    have hsub : Seg m mo1 (rb - (n + d) % rb) (fun j => B (n + d + j)) := by
      rw [h1]
      exact (hm.sub d (rb - (n + d) % rb) (by omega)).congr fun j _ => by simp only [Nat.add_assoc]
    refine Post.use (KeccakF1600_StateXORBytes_spec hI.st hsub (by omega)) fun s2 hs2 => ?_
    simp only [wp_wr]
    refine ⟨by rw [hs2.1.1, hI.size]; omega, ?_⟩
    refine Post.use (hM.perm1 (hs2.2.set25 _)) fun s3 hs3 => ?_
    simp only [wp_pure]
    have e0 : (n + (d + (rb - (n + d) % rb))) % rb = 0 := by
      have hdm := Nat.div_add_mod (n + d) rb
      rw [show n + (d + (rb - (n + d) % rb)) = rb * ((n + d) / rb) + rb by omega]
      simp
    refine ⟨⟨d + (rb - (n + d) % rb), by omega, by omega, by omega, ⟨?_, ?_, ?_⟩⟩, by omega⟩
    · rw [hs3.1.1, Array.size_setIfInBounds, hs2.1.1, hI.size]
    · refine hs3.2.congr ?_
      rw [partialK_block hrb, Nat.add_assoc]
    · rw [hs3.1.2 _ (by omega), Array.getElem?_setIfInBounds_self, if_pos (by rw [hs2.1.1, hI.size]; omega), e0]
  · rintro ⟨s1, mo1, ml1⟩ ⟨d, hd, h1, h2, hI⟩ hC
    simp only [] at h1 h2 hI hC ⊢
    have hlt := Nat.mod_lt (n + d) hrb
    have hbv := bv64_toNat (show (n + d) % rb < 18446744073709551616 by omega)
    rw [hI.pos] at hC
    simp only [hbv, decide_eq_false_iff_not] at hC
    simp only [wp_bind, wp_rd]
    refine ⟨_, hI.pos, ?_⟩
    rw [hbv, u32_small (by omega), u32_small (by omega)]
    have hsub : Seg m mo1 ml1 (fun j => B (n + d + j)) := by
      rw [h1]
      exact (hm.sub d ml1 (by omega)).congr fun j _ => by simp only [Nat.add_assoc]
    refine Post.use (KeccakF1600_StateXORBytes_spec hI.st hsub (by omega)) fun s2 hs2 => ?_
    refine ⟨_, (hs2.1.2 25 (by omega)).trans hI.pos, ?_⟩
    simp only [wp_wr]
    have hmod : (n + mlen) % rb = (n + d) % rb + ml1 := by
      rw [show n + mlen = n + d + ml1 by omega, Nat.add_mod, Nat.mod_eq_of_lt (show ml1 < rb by omega), Nat.mod_eq_of_lt (by omega)]
    refine ⟨by rw [hs2.1.1, hI.size]; omega, ⟨?_, ?_, ?_⟩⟩
    · rw [Array.size_setIfInBounds, hs2.1.1, hI.size]
    · refine hs2.2.set25 _ |>.congr ?_
      rw [partialK_add B (by omega), show n + d + ml1 = n + mlen by omega]
    · rw [Array.getElem?_setIfInBounds_self, if_pos (by rw [hs2.1.1, hI.size]; omega), hmod, BitVec.ofNat_add]

theorem keccak_inc_squeeze_spec {s : Buf Model.W} {rb : Nat} {T : KState} {n : Nat} {h : Buf UInt8} {ho outlen : Nat} (hrb : 0 < rb) (hr : rb ≤ 168)
    (hs : IncSq s rb T n) (hho : ho + outlen ≤ h.size) (hlen : outlen < 18446744073709551616) :
    Post (keccak_inc_squeeze bk h ho outlen s rb) (fun x => Written h x.1 ho outlen (fun j => sqByte rb T (n + j)) ∧ IncSq x.2 rb T (n + outlen)) := by
  have hd := Nat.div_add_mod (n + rb - 1) rb
  have hlt := Nat.mod_lt (n + rb - 1) hrb
  rw [Nat.mul_comm] at hd
  unfold keccak_inc_squeeze
  change PostF False _ _
  rw [wp_bind, wp_rd]
  refine ⟨_, hs.pos, ?_⟩
  generalize hq : (n + rb - 1) / rb = q at *
  have hcb : q * rb - n < rb := by omega
  generalize hc : q * rb - n = c at *
  simp only [bv64_toNat (show c < 18446744073709551616 by omega)]
  rw [wp_bind]
  generalize hlen' : min outlen c = len
  have hpost : Post (branch (decide (outlen < c)) (pure outlen) (pure c)) (fun l => l = len) := by
    simp only [wp_branch, wp_pure, decide_eq_true_eq, decide_eq_false_iff_not]
    omega
  refine Post.use hpost fun l hl => ?_
  subst hl
  rw [wp_bind, sub64_eq (by omega) (by omega), u32_small (by omega), u32_small (by omega)]
  refine Post.use (KeccakF1600_StateExtractBytes_spec (len := l) hs.st (by omega) (by omega)) fun h1 hh1 => ?_
  rw [wp_bind, wp_wr]
  refine ⟨by rw [hs.size]; omega, ?_⟩
  simp only [wp_bind]
  have hW1 : Written h h1 ho l (fun j => sqByte rb T (n + j)) := by
    refine hh1.congr fun j hj => ?_
    obtain ⟨q', rfl⟩ : ∃ q', q = q' + 1 := ⟨q - 1, by
      have : q ≠ 0 := by rintro rfl; omega
      omega⟩
    rw [hq]
    rw [Nat.succ_mul] at hc hd
    rw [sqByte_at (rb := rb) T (by omega), show q' * rb + (rb - c + j) = n + j by omega]
  have hmul : ∀ k, (k * rb + rb - 1) / rb = k := by
    intro k
    rw [show k * rb + rb - 1 = rb * k + (rb - 1) by rw [Nat.mul_comm]; omega, Nat.mul_add_div hrb, Nat.div_eq_of_lt (by omega), Nat.add_zero]
  have hnext : ∀ k l', 0 < l' → l' ≤ rb → (k * rb + l' + rb - 1) / rb = k + 1 := by
    intro k l' h0 h1
    rw [show k * rb + l' + rb - 1 = rb * (k + 1) + (l' - 1) by rw [Nat.mul_add, Nat.mul_comm k]; omega, Nat.mul_add_div hrb, Nat.div_eq_of_lt (by omega), Nat.add_zero]
  refine wp_while (fun x => ∃ d, d ≤ outlen ∧ x.2.2.1 = ho + d ∧ x.2.2.2 = outlen - d ∧ Written h x.1 ho d (fun j => sqByte rb T (n + j)) ∧ IncSq x.2.1 rb T (n + d) ∧
      (d < outlen → ∃ k, n + d = k * rb)) (fun x => x.2.2.2)
    (fun x => decide (x.2.2.2 > 0)) ⟨l, by omega, rfl, sub64_eq (by omega) (by omega), hW1, ?_, ?_⟩ ?_ ?_ ?_ ?_
  · have hq2 : (n + l + rb - 1) / rb = q := by
      have h1 : n + l + rb - 1 = rb * q + (n + l + rb - 1 - q * rb) := by rw [Nat.mul_comm rb]; omega
      rw [h1, Nat.mul_add_div hrb, Nat.div_eq_of_lt (by omega), Nat.add_zero]
    refine ⟨?_, ?_, ?_⟩
    · rw [Array.size_setIfInBounds, hs.size]
    · rw [hq2, ← hq]; exact hs.st.set25 _
    · rw [Array.getElem?_setIfInBounds_self, if_pos (by rw [hs.size]; omega), hq2, sub64_eq (by omega) (by omega), show q * rb - (n + l) = c - l by omega]
  · intro hlo
    exact ⟨q, by omega⟩
  · show sub64 outlen l ≤ outlen
    rw [sub64_eq (by omega) (by omega)]; omega
  · intro x _
    simp only [wp_pure]
  · rintro ⟨h2, s2, ho2, ol2⟩ ⟨d, hd2, e1, e2, hW, hI, hk⟩ hC
    simp only [] at e1 e2 hW hI hk hC ⊢
    simp only [decide_eq_true_eq] at hC
    refine ⟨hC, ?_⟩
    obtain ⟨k, hke⟩ := hk (by omega)
    clear hk
    have hst := hI.st
    rw [hke, hmul] at hst
    rw [wp_bind]
    refine Post.use (hM.perm1 hst) fun s3 hs3 => ?_
    rw [wp_bind]
    generalize hln : min ol2 rb = ln
    have hpost : Post (branch (decide (ol2 < rb)) (pure ol2) (pure rb)) (fun l => l = ln) := by
      simp only [wp_branch, wp_pure, decide_eq_true_eq, decide_eq_false_iff_not]
      omega
    refine Post.use hpost fun l hl => ?_
    subst hl
    rw [wp_bind, u32_small (by omega)]
    rw [← iter_succ' keccakF] at hs3
    have hsz := hW.1
    refine Post.use (KeccakF1600_StateExtractBytes_spec hs3.2 (by omega) (by omega)) fun h4 hh4 => ?_
    rw [wp_bind, wp_wr]
    refine ⟨by rw [hs3.1.1, hI.size]; omega, ?_⟩
    rw [sub64_eq (by omega) (by omega), sub64_eq (by omega) (by omega)]
    simp only [wp_pure]
    have hnx := hnext k l (by omega) (by omega)
    refine ⟨⟨d + l, by omega, by omega, by omega, ?_, ⟨?_, ?_, ?_⟩, ?_⟩, by omega⟩
    · rw [e1] at hh4
      refine (hW.trans hh4).congr fun j hj => ?_
      by_cases hjd : j < d
      · rw [if_pos hjd]
      · rw [if_neg hjd, Nat.zero_add, sqByte_at (rb := rb) T (by omega), ← hke, show n + d + (j - d) = n + j by omega]
    · rw [Array.size_setIfInBounds, hs3.1.1, hI.size]
    · rw [← Nat.add_assoc, hke, hnx]
      exact hs3.2.set25 _
    · rw [Array.getElem?_setIfInBounds_self, if_pos (by rw [hs3.1.1, hI.size]; omega), ← Nat.add_assoc, hke, hnx, Nat.succ_mul, show k * rb + rb - (k * rb + l) = rb - l by omega]
    · intro hdl
      exact ⟨k + 1, by rw [Nat.succ_mul]; omega⟩
  · rintro ⟨h2, s2, ho2, ol2⟩ ⟨d, hd2, e1, e2, hW, hI, hk⟩ hC
    simp only [] at e1 e2 hW hI hk hC ⊢
    simp only [decide_eq_false_iff_not] at hC
    simp only [wp_pure]
    have : d = outlen := by omega
    subst this
    exact ⟨hW, hI⟩

/-- One-shot hashing through the incremental interface. -/
theorem oneshot_spec {rb : Nat} {p : UInt8} {out : Buf UInt8} {oo outlen : Nat} {inp : Buf UInt8} {io inlen : Nat} {B : Nat → UInt8} (hrb : 0 < rb) (hr : rb ≤ 168) (hp : p.toNat < 128)
    (hin : Seg inp io inlen B) (hlen : inlen + 200 < 18446744073709551616) (ho : oo + outlen ≤ out.size) (holen : outlen < 18446744073709551616) :
    Post (do
      let s ← keccak_inc_init (Buf.uninit Model.W 26)
      let s ← keccak_inc_absorb bk s rb inp io inlen
      let s ← keccak_inc_finalize s rb p
      let (output, _) ← keccak_inc_squeeze bk out oo outlen s rb
      pure output) (fun o' => Written out o' oo outlen (sqByte rb (finK rb B inlen p))) := by
  simp only [wp_bind]
  refine Post.use (keccak_inc_init_spec (by simp) rb B) fun s hs => ?_
  refine Post.use (keccak_inc_absorb_spec hM hrb hr hs (hin.congr fun j _ => by rw [Nat.zero_add]) hlen) fun s hs => ?_
  refine Post.use (keccak_inc_finalize_spec hrb hr hp hs) fun s hs => ?_
  refine Post.use (keccak_inc_squeeze_spec hM hrb hr hs ho holen) fun x hx => ?_
  simp only [wp_pure]
  refine hx.1.congr fun j _ => ?_
  simp only [Nat.zero_add]

theorem shake256_spec {out : Buf UInt8} {oo outlen : Nat} {inp : Buf UInt8} {io : Nat} {M : List UInt8}
    (hin : Seg inp io M.length (fun j => M.getD j 0)) (hlen : M.length + 200 < 18446744073709551616) (ho : oo + outlen ≤ out.size) (holen : outlen < 18446744073709551616) :
    Post (shake256 bk out oo outlen inp io M.length) (fun o' => Written out o' oo outlen (fun j => (SHAKE256 M outlen).getD j 0)) := by
  refine Post.use (oneshot_spec hM (rb := 136) (p := 0x1F) (by omega) (by omega) (by decide) hin hlen ho holen) fun o' h => h.congr fun j hj => ?_
  rw [SHAKE256_eq, getD_map_range _ _ hj]

theorem sha3_256_spec {out : Buf UInt8} {oo : Nat} {inp : Buf UInt8} {io : Nat} {M : List UInt8}
    (hin : Seg inp io M.length (fun j => M.getD j 0)) (hlen : M.length + 200 < 18446744073709551616) (ho : oo + 32 ≤ out.size) :
    Post (sha3_256 bk out oo inp io M.length) (fun o' => Written out o' oo 32 (fun j => (SHA3_256 M).getD j 0)) := by
  refine Post.use (oneshot_spec hM (rb := 136) (p := 0x06) (by omega) (by omega) (by decide) hin hlen ho (by omega)) fun o' h => h.congr fun j hj => ?_
  rw [SHA3_256_eq, getD_map_range _ _ hj]

theorem sha3_512_spec {out : Buf UInt8} {oo : Nat} {inp : Buf UInt8} {io : Nat} {M : List UInt8}
    (hin : Seg inp io M.length (fun j => M.getD j 0)) (hlen : M.length + 200 < 18446744073709551616) (ho : oo + 64 ≤ out.size) :
    Post (sha3_512 bk out oo inp io M.length) (fun o' => Written out o' oo 64 (fun j => (SHA3_512 M).getD j 0)) := by
  refine Post.use (oneshot_spec hM (rb := 72) (p := 0x06) (by omega) (by omega) (by decide) hin hlen ho (by omega)) fun o' h => h.congr fun j hj => ?_
  rw [SHA3_512_eq, getD_map_range _ _ hj]

theorem keccak_absorb_spec {s : Buf Model.W} {rb : Nat} {B : Nat → UInt8} {m : Buf UInt8} {mo mlen : Nat} {p : UInt8} (hrb : 0 < rb) (hr : rb ≤ 168) (hp : p.toNat < 128)
    (h : SegK s 0 zeroK) (hm : Seg m mo mlen B) :
    Post (keccak_absorb bk s rb m mo mlen p) (fun s' => FrameK s s' 0 ∧ SegK s' 0 (finK rb B mlen p)) := by
  unfold keccak_absorb
  simp only [wp_bind]
  refine wp_while (fun x => ∃ q, q * rb ≤ mlen ∧ x.2.1 = mo + q * rb ∧ x.2.2 = mlen - q * rb ∧ FrameK s x.1 0 ∧ SegK x.1 0 (partialK rb B (q * rb))) (fun x => x.2.2)
    (fun x => decide (x.2.2 ≥ rb)) ⟨0, by omega, by simp, by simp, FrameK.refl _ _, ?_⟩ (Nat.le_refl _) ?_ ?_ ?_
  · rw [Nat.zero_mul, partialK_zero]; exact h
  · intro x _; simp only [wp_pure]
  · rintro ⟨s1, mo1, ml1⟩ ⟨q, hq, h1, h2, hf, hI⟩ hC
    simp only [] at h1 h2 hf hI hC ⊢
    simp only [decide_eq_true_eq] at hC
    refine ⟨by omega, ?_⟩
    simp only [wp_bind]
    have hsub : Seg m mo1 rb (fun j => B (q * rb + j)) := by
      rw [h1]; exact hm.sub (q * rb) rb (by omega)
    refine Post.use (KeccakF1600_StateXORBytes_spec hI hsub (by omega)) fun s2 hs2 => ?_
    refine Post.use (hM.perm1 hs2.2) fun s3 hs3 => ?_
    simp only [wp_pure]
    refine ⟨⟨q + 1, by rw [Nat.succ_mul]; omega, by rw [Nat.succ_mul]; omega, by rw [Nat.succ_mul]; omega, (hf.trans hs2.1).trans hs3.1, hs3.2.congr ?_⟩, by omega⟩
    have := partialK_block hrb B (q * rb)
    rw [Nat.mul_mod_left, Nat.sub_zero] at this
    rw [this, Nat.succ_mul]
  · rintro ⟨s1, mo1, ml1⟩ ⟨q, hq, h1, h2, hf, hI⟩ hC
    simp only [] at h1 h2 hf hI hC ⊢
    simp only [decide_eq_false_iff_not] at hC
    have hmod : mlen % rb = ml1 := by
      rw [show mlen = q * rb + ml1 by omega, Nat.mul_comm, Nat.mul_add_mod, Nat.mod_eq_of_lt (by omega)]
    have hpost : Post (branch (decide (ml1 > 0)) (KeccakF1600_StateXORBytes s1 0 m mo1 0 (u32 ml1)) (pure s1)) (fun s2 => FrameK s s2 0 ∧ SegK s2 0 (partialK rb B mlen)) := by
      have hsub : Seg m mo1 ml1 (fun j => B (q * rb + j)) := by
        rw [h1]; exact hm.sub (q * rb) ml1 (by omega)
      have e := partialK_add (rb := rb) B (n := q * rb) (len := ml1) (by rw [Nat.mul_mod_left]; omega)
      rw [Nat.mul_mod_left, show q * rb + ml1 = mlen by omega] at e
      simp only [wp_branch, wp_pure, decide_eq_true_eq, decide_eq_false_iff_not]
      refine ⟨fun h0 => ?_, fun h0 => ⟨hf, ?_⟩⟩
      · rw [u32_small (by omega)]
        exact Post.use (KeccakF1600_StateXORBytes_spec hI hsub (by omega)) fun s2 hs2 => ⟨hf.trans hs2.1, hs2.2.congr e⟩
      · rw [show mlen = q * rb by omega]; exact hI
    refine Post.use hpost fun s2 hs2 => ?_
    exact Post.use (pad_spec hrb hr hp hmod.symm hs2.2) fun s3 hs3 => ⟨hs2.1.trans hs3.1, hs3.2⟩

theorem keccak_squeezeblocks_spec {s : Buf Model.W} {rb k : Nat} {T : KState} {h : Buf UInt8} {ho nblocks : Nat} (hrb : 0 < rb) (hr : rb ≤ 168)
    (hs : SegK s 0 (iter keccakF k T)) (hho : ho + nblocks * rb ≤ h.size) :
    Post (keccak_squeezeblocks bk h ho nblocks s rb) (fun x => Written h x.1 ho (nblocks * rb) (fun j => sqByte rb T (k * rb + j)) ∧ FrameK s x.2 0 ∧ SegK x.2 0 (iter keccakF (k + nblocks) T)) := by
  unfold keccak_squeezeblocks
  simp only [wp_bind]
  refine wp_while (fun x => ∃ d, d ≤ nblocks ∧ x.2.2.1 = ho + d * rb ∧ x.2.2.2 = nblocks - d ∧ Written h x.1 ho (d * rb) (fun j => sqByte rb T (k * rb + j)) ∧ FrameK s x.2.1 0 ∧
      SegK x.2.1 0 (iter keccakF (k + d) T)) (fun x => x.2.2.2)
    (fun x => decide (x.2.2.2 > 0)) ⟨0, by omega, by simp, rfl, by rw [Nat.zero_mul]; exact Written.refl _ _ _, FrameK.refl _ _, hs⟩ (Nat.le_refl _) ?_ ?_ ?_
  · intro x _; simp only [wp_pure]
  · rintro ⟨h2, s2, ho2, nb2⟩ ⟨d, hd, e1, e2, hW, hf, hI⟩ hC
    simp only [] at e1 e2 hW hf hI hC ⊢
    simp only [decide_eq_true_eq] at hC
    refine ⟨hC, ?_⟩
    simp only [wp_bind]
    refine Post.use (hM.perm1 hI) fun s3 hs3 => ?_
    rw [← iter_succ' keccakF] at hs3
    have hle : (d + 1) * rb ≤ nblocks * rb := Nat.mul_le_mul_right _ (by omega)
    rw [Nat.succ_mul] at hle
    have hsz := hW.1
    refine Post.use (KeccakF1600_StateExtractBytes_spec hs3.2 (by omega) (by omega)) fun h4 hh4 => ?_
    simp only [wp_pure]
    refine ⟨⟨d + 1, by omega, by rw [Nat.succ_mul]; omega, by omega, ?_, hf.trans hs3.1, hs3.2⟩, by omega⟩
    rw [e1] at hh4
    rw [Nat.succ_mul]
    refine (hW.trans hh4).congr fun j hj => ?_
    by_cases hjd : j < d * rb
    · rw [if_pos hjd]
    · rw [if_neg hjd, Nat.zero_add, sqByte_at (rb := rb) T (by omega), Nat.add_mul, show k * rb + d * rb + (j - d * rb) = k * rb + j by omega]
  · rintro ⟨h2, s2, ho2, nb2⟩ ⟨d, hd, e1, e2, hW, hf, hI⟩ hC
    simp only [] at e1 e2 hW hf hI hC ⊢
    simp only [decide_eq_false_iff_not] at hC
    simp only [wp_pure]
    have : d = nblocks := by omega
    subst this
    exact ⟨hW, hf, hI⟩

theorem shake128_absorb_spec {s : Buf Model.W} {m : Buf UInt8} {mo mlen : Nat} {B : Nat → UInt8} (hsz : 25 ≤ s.size) (hm : Seg m mo mlen B) :
    Post (shake128_absorb bk s m mo mlen) (fun s' => s'.size = s.size ∧ SegK s' 0 (finK 168 B mlen 0x1F)) := by
  unfold shake128_absorb
  simp only [wp_bind]
  refine Post.use (zeroLanes_spec hsz) fun s1 hs1 => ?_
  exact Post.use (keccak_absorb_spec hM (by decide) (by decide) (by decide) (segK_zero hs1.2.1) hm) fun s2 hs2 => ⟨hs2.1.1.trans hs1.1, hs2.2⟩

theorem prf_spec {out key : Buf UInt8} {outlen ko : Nat} {σ : List UInt8} {b : UInt8} (hσ : σ.length = 32) (hk : Seg key ko 32 (fun j => σ.getD j 0)) (ho : outlen ≤ out.size)
    (hl : outlen < 18446744073709551616) :
    Post (prf bk out outlen key ko b) (fun o' => Written out o' 0 outlen (fun j => (SHAKE256 (σ ++ [b]) outlen).getD j 0)) := by
  unfold prf
  simp only [wp_bind, wp_wr]
  refine Post.use (extKey_spec hσ hk) fun e he => ⟨by rw [he.1]; simp, ?_⟩
  have hl33 : (σ ++ [b]).length = 32 + 1 := by simp [hσ]
  rw [← hl33]
  exact shake256_spec hM (by rw [hl33]; exact extKey_seg hσ he) (by rw [hl33]; omega) (by omega) hl

theorem rkprf_spec {K : Nat} {out key input : Buf UInt8} {ko : Nat} {z c : List UInt8} (hz : z.length = 32) (hc : c.length = MLKEM_CIPHERTEXTBYTES K)
    (hcl : c.length < 4294967296) (hk : Seg key ko 32 (fun j => z.getD j 0)) (hi : Seg input 0 c.length (fun j => c.getD j 0)) (ho : 32 ≤ out.size) :
    Post (rkprf bk K out key ko input) (fun o' => Written out o' 0 32 (fun j => (J (z ++ c)).getD j 0)) := by
  unfold rkprf shake256_inc_init shake256_inc_absorb shake256_inc_finalize shake256_inc_squeeze SHAKE256_RATE
  simp only [wp_bind]
  refine Post.use (keccak_inc_init_spec (by simp) 136 (fun j => (z ++ c).getD j 0)) fun s hs => ?_
  refine Post.use (keccak_inc_absorb_spec hM (by omega) (by omega) hs (hk.congr fun j hj => by
    rw [Nat.zero_add, getD_append_left' _ _ (by omega)]) (by omega)) fun s hs => ?_
  rw [← hc]
  refine Post.use (keccak_inc_absorb_spec hM (by omega) (by omega) hs (hi.congr fun j hj => by
    rw [Nat.zero_add, ← hz, getD_append_right']) (by omega)) fun s hs => ?_
  refine Post.use (keccak_inc_finalize_spec (by omega) (by omega) (by decide) hs) fun s hs => ?_
  refine Post.use (keccak_inc_squeeze_spec hM (by omega) (by omega) hs (by omega) (by omega)) fun x hx => ?_
  simp only [wp_pure]
  refine hx.1.congr fun j hj => ?_
  have hl : (z ++ c).length = 0 + 32 + c.length := by simp [hz]
  unfold J
  rw [SHAKE256_eq, getD_map_range _ _ hj, hl, Nat.zero_add j]

theorem poly_getnoise_eta2_spec {K : Nat} {r : Model.Poly} {seed : Buf UInt8} {so : Nat} {σ : List UInt8} {nonce : UInt8} (hσ : σ.length = 32)
    (hs : Seg seed so 32 (fun j => σ.getD j 0)) (hr : r.size = 256) :
    Post (poly_getnoise_eta2 bk K r seed so nonce) (fun r' => Holds r' 256 (noiseI 2 σ nonce)) := by
  unfold poly_getnoise_eta2
  simp only [wp_bind]
  rw [eta2_bytes]
  refine Post.use (prf_spec hM hσ hs (by simp) (by omega)) fun buf hb => ?_
  refine Post.use (poly_cbd_eta2_spec hb.seg hr) fun r0 h0 => ?_
  refine POLY_BOUND_wp h0 (fun i _ => noise_bound' (by rw [eta1_eq]; rcases η₁_cases K with h | h <;> omega) _ _ i) ?_
  simp only [wp_pure]
  exact h0

theorem hash_g_spec {out : Buf UInt8} {oo : Nat} {inp : Buf UInt8} {io n : Nat} {M : List UInt8} (hn : M.length = n)
    (hin : SegL inp io M) (hlen : n + 200 < 18446744073709551616) (ho : oo + 64 ≤ out.size) :
    Post (hash_g bk out oo inp io n) (fun o' => WrittenL out o' oo (SHA3_512 M)) := by
  subst hn
  exact Post.use (sha3_512_spec hM hin hlen ho) fun o h => WrittenL.ofN h (SHA3_512_length M)

theorem hash_h_spec {out : Buf UInt8} {oo : Nat} {inp : Buf UInt8} {io n : Nat} {M : List UInt8} (hn : M.length = n)
    (hin : SegL inp io M) (hlen : n + 200 < 18446744073709551616) (ho : oo + 32 ≤ out.size) :
    Post (hash_h bk out oo inp io n) (fun o' => WrittenL out o' oo (H M)) := by
  subst hn
  exact Post.use (sha3_256_spec hM hin hlen ho) fun o h => WrittenL.ofN h (SHA3_256_length M)

theorem check_sk_spec {K : Nat} (hK : K = 2 ∨ K = 3 ∨ K = 4) {sk : Buf UInt8} {dk : List UInt8} (hdk : dk.length = K * 768 + 96) (hsk : SegL sk 0 dk) :
    Post (check_sk bk K sk) (fun r => (r = 0 ∧ hashCheck K dk) ∨ (r = -1 ∧ ¬ hashCheck K dk)) := by
  unfold check_sk
  simp only [wp_bind, wp_branch, wp_pure]
  refine Post.use (hash_h_spec hM (M := dkEk K dk) (by rw [dkEk_length hdk, pkbytes_eq]) (dkEk_seg hdk hsk) (by rw [pkbytes_eq]; omega) (by simp)) fun t ht => ?_
  refine Post.use (memcmpL_spec (dkH_length hdk) (H_length _) (dkH_seg hdk hsk) ht.segL) fun d hd => ?_
  unfold hashCheck
  constructor
  · intro h; right; exact ⟨trivial, fun e => (of_decide_eq_true h) (hd.2 e.symm)⟩
  · intro h
    have h := of_decide_eq_false h
    left; exact ⟨trivial, (hd.1 (not_not.1 h)).symm⟩

end Verif.Native

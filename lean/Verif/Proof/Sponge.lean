import Verif.Model.Fips202x4
import Verif.Proof.SpongeSpec
/-! # The sponge functions of `fips202.c` against their byte-level description -/
namespace Verif
open Model Spec

attribute [local irreducible] keccakF partialK finK blocksK sqByte

theorem sub64_eq {a b : Nat} (h : b ≤ a) (ha : a < 18446744073709551616) : sub64 a b = a - b := by
  unfold sub64 u64; omega
theorem sub32_eq {a b : Nat} (h : b ≤ a) (ha : a < 4294967296) : sub32 a b = a - b := by
  unfold sub32 u32; omega
theorem u64_small {x : Nat} (h : x < 18446744073709551616) : u64 x = x := Nat.mod_eq_of_lt h
theorem bv64_toNat {x : Nat} (h : x < 18446744073709551616) : (BitVec.ofNat 64 x).toNat = x := by
  rw [BitVec.toNat_ofNat]; exact Nat.mod_eq_of_lt h

theorem seg_single (v : UInt8) : Seg (Buf.ofList [v]) 0 1 (fun _ => v) := by
  intro i hi
  have : i = 0 := by omega
  subst this; rfl

theorem segK_zero {s : Buf W} {so : Nat} (h : Seg s so 25 (fun _ => 0#64)) : SegK s so zeroK := by
  intro l hl
  exact ⟨_, h l hl, fun z _ => by simp [stateBit_zeroK]⟩

theorem blocksK_zero (rb : Nat) (B : Nat → UInt8) : blocksK rb B 0 = zeroK := by unfold blocksK; rfl
theorem partialK_zero {rb : Nat} (B : Nat → UInt8) : partialK rb B 0 = zeroK := by
  unfold partialK
  rw [Nat.zero_mod, xorK_zero, Nat.zero_div, blocksK_zero]

theorem zeroLanes_spec {s : Buf W} {n : Nat} (h : n ≤ s.size) : Post (forN n s fun i s => wr s i 0#64) (fun s' => Written s s' 0 n (fun _ => 0#64)) := by
  refine wp_forN (fun i s' => Written s s' 0 i _) (Written.refl _ _ _) ?_ (fun _ h => h)
  intro i s' hi hI
  simp only [wp_wr]
  exact ⟨by rw [hI.1]; omega, hI.push (by omega) (by omega) rfl⟩

/-! ## Incremental interface -/

/-- An absorbing context after `n` bytes of `B`. -/
structure IncAbs (s : Buf W) (rb : Nat) (B : Nat → UInt8) (n : Nat) : Prop where
  size : s.size = 26
  st : SegK s 0 (partialK rb B n)
  pos : s[25]? = some (some (BitVec.ofNat 64 (n % rb)))

theorem keccak_inc_init_spec {s : Buf W} (h : s.size = 26) (rb : Nat) (B : Nat → UInt8) : Post (keccak_inc_init s) (fun s' => IncAbs s' rb B 0) := by
  unfold keccak_inc_init
  simp only [wp_bind]
  refine Post.use (zeroLanes_spec (by omega)) fun s' hs' => ?_
  simp only [wp_wr]
  have hsz := hs'.1
  refine ⟨by omega, ⟨by simp; omega, ?_, ?_⟩⟩
  · rw [partialK_zero]
    apply segK_zero
    intro i hi
    rw [Array.getElem?_setIfInBounds_ne (by omega)]
    exact hs'.2.1 i hi
  · rw [Array.getElem?_setIfInBounds_self, if_pos (by omega), Nat.zero_mod]

theorem IncAbs.congr {s : Buf W} {rb n : Nat} {B B' : Nat → UInt8} (h : IncAbs s rb B n) (e : ∀ j, j < n → B j = B' j) : IncAbs s rb B' n :=
  ⟨h.size, partialK_congr e ▸ h.st, h.pos⟩

theorem SegK.set25 {s : Buf W} {S : KState} (h : SegK s 0 S) (v : W) : SegK (s.setIfInBounds 25 (some v)) 0 S := by
  intro l hl
  obtain ⟨w, hw, hb⟩ := h l hl
  exact ⟨w, by rw [Array.getElem?_setIfInBounds_ne (by omega)]; exact hw, hb⟩

theorem keccak_inc_absorb_spec {s : Buf W} {rb : Nat} {B : Nat → UInt8} {n : Nat} {m : Buf UInt8} {mo mlen : Nat} (hrb : 0 < rb) (hr : rb ≤ 168)
    (h : IncAbs s rb B n) (hm : Seg m mo mlen (fun j => B (n + j))) (hlen : mlen + 200 < 18446744073709551616) :
    Post (keccak_inc_absorb s rb m mo mlen) (fun s' => IncAbs s' rb B (n + mlen)) := by
  unfold keccak_inc_absorb
  simp only [wp_bind]
  refine wp_while (fun x => ∃ d, d ≤ mlen ∧ x.2.1 = mo + d ∧ x.2.2 = mlen - d ∧ IncAbs x.1 rb B (n + d)) (fun x => x.2.2)
    (fun x => match x.1[25]? with | some (some c) => decide (x.2.2 + c.toNat ≥ rb) | _ => false) ⟨0, by omega, rfl, rfl, h⟩ (by simp) ?_ ?_ ?_
  · rintro ⟨s1, mo1, ml1⟩ ⟨d, hd, h1, h2, hI⟩
    simp only [] at h1 h2 hI ⊢
    have hlt := Nat.mod_lt (n + d) hrb
    simp only [wp_bind, wp_rd, wp_pure]
    refine ⟨_, hI.pos, ?_⟩
    rw [hI.pos]
    simp only [bv64_toNat (show (n + d) % rb < 18446744073709551616 by omega)]
    rw [u64_small (by omega)]
  · rintro ⟨s1, mo1, ml1⟩ ⟨d, hd, h1, h2, hI⟩ hC
    simp only [] at h1 h2 hI hC ⊢
    have hlt := Nat.mod_lt (n + d) hrb
    have hbv := bv64_toNat (show (n + d) % rb < 18446744073709551616 by omega)
    rw [hI.pos] at hC
    simp only [hbv, decide_eq_true_eq] at hC
    refine ⟨by omega, ?_⟩
    simp only [wp_bind, wp_rd]
    refine ⟨_, hI.pos, ?_⟩
    rw [hbv, sub64_eq (by omega) (by omega), u32_small (by omega), u32_small (by omega), sub64_eq (by omega) (by omega)]
    have hsub : Seg m mo1 (rb - (n + d) % rb) (fun j => B (n + d + j)) := by
      rw [h1]
      exact (hm.sub d (rb - (n + d) % rb) (by omega)).congr fun j _ => by simp only [Nat.add_assoc]
    refine Post.use (KeccakF1600_StateXORBytes_spec hI.st hsub (by omega)) fun s2 hs2 => ?_
    simp only [wp_wr]
    refine ⟨by rw [hs2.1.1, hI.size]; omega, ?_⟩
    refine Post.use (KeccakF1600_StatePermute_spec (hs2.2.set25 _)) fun s3 hs3 => ?_
    simp only [wp_pure]
    have e0 : (n + (d + (rb - (n + d) % rb))) % rb = 0 := by
      have hdm := Nat.div_add_mod (n + d) rb
      rw [show n + (d + (rb - (n + d) % rb)) = rb * ((n + d) / rb) + rb by omega]
      simp
    refine ⟨⟨d + (rb - (n + d) % rb), by omega, by omega, by omega, ⟨?_, ?_, ?_⟩⟩, by omega⟩
    · rw [hs3.1.1, Array.size_setIfInBounds, hs2.1.1, hI.size]
    · refine hs3.2.congr ?_
      rw [partialK_block hrb, Nat.add_assoc]
    · rw [hs3.1.2 _ (by omega), Array.getElem?_setIfInBounds_self, if_pos (by rw [hs2.1.1, hI.size]; omega), e0]
  · rintro ⟨s1, mo1, ml1⟩ ⟨d, hd, h1, h2, hI⟩ hC
    simp only [] at h1 h2 hI hC ⊢
    have hlt := Nat.mod_lt (n + d) hrb
    have hbv := bv64_toNat (show (n + d) % rb < 18446744073709551616 by omega)
    rw [hI.pos] at hC
    simp only [hbv, decide_eq_false_iff_not] at hC
    simp only [wp_bind, wp_rd]
    refine ⟨_, hI.pos, ?_⟩
    rw [hbv, u32_small (by omega), u32_small (by omega)]
    have hsub : Seg m mo1 ml1 (fun j => B (n + d + j)) := by
      rw [h1]
      exact (hm.sub d ml1 (by omega)).congr fun j _ => by simp only [Nat.add_assoc]
    refine Post.use (KeccakF1600_StateXORBytes_spec hI.st hsub (by omega)) fun s2 hs2 => ?_
    refine ⟨_, (hs2.1.2 25 (by omega)).trans hI.pos, ?_⟩
    simp only [wp_wr]
    have hmod : (n + mlen) % rb = (n + d) % rb + ml1 := by
      rw [show n + mlen = n + d + ml1 by omega, Nat.add_mod, Nat.mod_eq_of_lt (show ml1 < rb by omega), Nat.mod_eq_of_lt (by omega)]
    refine ⟨by rw [hs2.1.1, hI.size]; omega, ⟨?_, ?_, ?_⟩⟩
    · rw [Array.size_setIfInBounds, hs2.1.1, hI.size]
    · refine hs2.2.set25 _ |>.congr ?_
      rw [partialK_add B (by omega), show n + d + ml1 = n + mlen by omega]
    · rw [Array.getElem?_setIfInBounds_self, if_pos (by rw [hs2.1.1, hI.size]; omega), hmod, BitVec.ofNat_add]

/-- A squeezing context on `T` after `n` output bytes. -/
structure IncSq (s : Buf W) (rb : Nat) (T : KState) (n : Nat) : Prop where
  size : s.size = 26
  st : SegK s 0 (iter keccakF ((n + rb - 1) / rb) T)
  pos : s[25]? = some (some (BitVec.ofNat 64 ((n + rb - 1) / rb * rb - n)))

/-- The two-byte padding step common to `keccak_absorb` and `keccak_inc_finalize`. -/
theorem pad_spec {s : Buf W} {so rb : Nat} {B : Nat → UInt8} {n c : Nat} {p : UInt8} (hrb : 0 < rb) (hr : rb ≤ 168) (hp : p.toNat < 128) (hc : c = n % rb)
    (h : SegK s so (partialK rb B n)) :
    Post (branch (decide (c = sub32 rb 1))
      (KeccakF1600_StateXORBytes s so (Buf.ofList [p ||| 128]) 0 (u32 c) 1)
      (do
        let s ← KeccakF1600_StateXORBytes s so (Buf.ofList [p]) 0 (u32 c) 1
        KeccakF1600_StateXORBytes s so (Buf.ofList [128]) 0 (sub32 rb 1) 1))
      (fun s' => FrameK s s' so ∧ SegK s' so (finK rb B n p)) := by
  have hlt := Nat.mod_lt n hrb
  rw [sub32_eq (by omega) (by omega), u32_small (by omega)]
  simp only [wp_branch, decide_eq_true_eq, decide_eq_false_iff_not]
  refine ⟨fun hcc => ?_, fun hcc => ?_⟩
  · refine Post.use (KeccakF1600_StateXORBytes_spec h (seg_single _) (by omega)) fun s' hs' => ⟨hs'.1, hs'.2.congr ?_⟩
    unfold finK
    rw [xorK_or _ _ _ hp, ← hc, hcc]
  · simp only [wp_bind]
    refine Post.use (KeccakF1600_StateXORBytes_spec h (seg_single _) (by omega)) fun s' hs' => ?_
    refine Post.use (KeccakF1600_StateXORBytes_spec hs'.2 (seg_single _) (by omega)) fun s'' hs'' => ⟨hs'.1.trans hs''.1, hs''.2.congr ?_⟩
    unfold finK
    rw [← hc]

theorem keccak_inc_finalize_spec {s : Buf W} {rb : Nat} {B : Nat → UInt8} {n : Nat} {p : UInt8} (hrb : 0 < rb) (hr : rb ≤ 168) (hp : p.toNat < 128)
    (h : IncAbs s rb B n) : Post (keccak_inc_finalize s rb p) (fun s' => IncSq s' rb (finK rb B n p) 0) := by
  have hlt := Nat.mod_lt n hrb
  unfold keccak_inc_finalize
  change PostF False _ _
  rw [wp_bind, wp_rd]
  refine ⟨_, h.pos, ?_⟩
  simp only [bv64_toNat (show n % rb < 18446744073709551616 by omega)]
  rw [wp_bind]
  refine Post.use (pad_spec hrb hr hp rfl h.st) fun s' hs' => ?_
  simp only [wp_wr]
  refine ⟨by rw [hs'.1.1, h.size]; omega, ⟨?_, ?_, ?_⟩⟩
  · rw [Array.size_setIfInBounds, hs'.1.1, h.size]
  · rw [Nat.div_eq_of_lt (by omega)]
    exact hs'.2.set25 _
  · rw [Array.getElem?_setIfInBounds_self, if_pos (by rw [hs'.1.1, h.size]; omega), Nat.div_eq_of_lt (by omega), Nat.zero_mul]

theorem sqByte_at {rb : Nat} (T : KState) {q o : Nat} (h : o < rb) : kbyte (iter keccakF (q + 1) T) o = sqByte rb T (q * rb + o) := by
  unfold sqByte
  rw [show (q * rb + o) / rb = q by rw [Nat.mul_comm, Nat.mul_add_div (by omega), Nat.div_eq_of_lt h, Nat.add_zero],
    show (q * rb + o) % rb = o by rw [Nat.mul_comm, Nat.mul_add_mod, Nat.mod_eq_of_lt h]]

theorem keccak_inc_squeeze_spec {s : Buf W} {rb : Nat} {T : KState} {n : Nat} {h : Buf UInt8} {ho outlen : Nat} (hrb : 0 < rb) (hr : rb ≤ 168)
    (hs : IncSq s rb T n) (hho : ho + outlen ≤ h.size) (hlen : outlen < 18446744073709551616) :
    Post (keccak_inc_squeeze h ho outlen s rb) (fun x => Written h x.1 ho outlen (fun j => sqByte rb T (n + j)) ∧ IncSq x.2 rb T (n + outlen)) := by
  have hd := Nat.div_add_mod (n + rb - 1) rb
  have hlt := Nat.mod_lt (n + rb - 1) hrb
  rw [Nat.mul_comm] at hd
  unfold keccak_inc_squeeze
  change PostF False _ _
  rw [wp_bind, wp_rd]
  refine ⟨_, hs.pos, ?_⟩
  generalize hq : (n + rb - 1) / rb = q at *
  have hcb : q * rb - n < rb := by omega
  generalize hc : q * rb - n = c at *
  simp only [bv64_toNat (show c < 18446744073709551616 by omega)]
  rw [wp_bind]
  generalize hlen' : min outlen c = len
  have hpost : Post (branch (decide (outlen < c)) (pure outlen) (pure c)) (fun l => l = len) := by
    simp only [wp_branch, wp_pure, decide_eq_true_eq, decide_eq_false_iff_not]
    omega
  refine Post.use hpost fun l hl => ?_
  subst hl
  rw [wp_bind, sub64_eq (by omega) (by omega), u32_small (by omega), u32_small (by omega)]
  refine Post.use (KeccakF1600_StateExtractBytes_spec (len := l) hs.st (by omega) (by omega)) fun h1 hh1 => ?_
  rw [wp_bind, wp_wr]
  refine ⟨by rw [hs.size]; omega, ?_⟩
  simp only [wp_bind]
  have hW1 : Written h h1 ho l (fun j => sqByte rb T (n + j)) := by
    refine hh1.congr fun j hj => ?_
    obtain ⟨q', rfl⟩ : ∃ q', q = q' + 1 := ⟨q - 1, by
      have : q ≠ 0 := by rintro rfl; omega
      omega⟩
    rw [hq]
    rw [Nat.succ_mul] at hc hd
    rw [sqByte_at (rb := rb) T (by omega), show q' * rb + (rb - c + j) = n + j by omega]
  have hmul : ∀ k, (k * rb + rb - 1) / rb = k := by
    intro k
    rw [show k * rb + rb - 1 = rb * k + (rb - 1) by rw [Nat.mul_comm]; omega, Nat.mul_add_div hrb, Nat.div_eq_of_lt (by omega), Nat.add_zero]
  have hnext : ∀ k l', 0 < l' → l' ≤ rb → (k * rb + l' + rb - 1) / rb = k + 1 := by
    intro k l' h0 h1
    rw [show k * rb + l' + rb - 1 = rb * (k + 1) + (l' - 1) by rw [Nat.mul_add, Nat.mul_comm k]; omega, Nat.mul_add_div hrb, Nat.div_eq_of_lt (by omega), Nat.add_zero]
  refine wp_while (fun x => ∃ d, d ≤ outlen ∧ x.2.2.1 = ho + d ∧ x.2.2.2 = outlen - d ∧ Written h x.1 ho d (fun j => sqByte rb T (n + j)) ∧ IncSq x.2.1 rb T (n + d) ∧
      (d < outlen → ∃ k, n + d = k * rb)) (fun x => x.2.2.2)
    (fun x => decide (x.2.2.2 > 0)) ⟨l, by omega, rfl, sub64_eq (by omega) (by omega), hW1, ?_, ?_⟩ ?_ ?_ ?_ ?_
  · have hq2 : (n + l + rb - 1) / rb = q := by
      have h1 : n + l + rb - 1 = rb * q + (n + l + rb - 1 - q * rb) := by rw [Nat.mul_comm rb]; omega
      rw [h1, Nat.mul_add_div hrb, Nat.div_eq_of_lt (by omega), Nat.add_zero]
    refine ⟨?_, ?_, ?_⟩
    · rw [Array.size_setIfInBounds, hs.size]
    · rw [hq2, ← hq]; exact hs.st.set25 _
    · rw [Array.getElem?_setIfInBounds_self, if_pos (by rw [hs.size]; omega), hq2, sub64_eq (by omega) (by omega), show q * rb - (n + l) = c - l by omega]
  · intro hlo
    exact ⟨q, by omega⟩
  · show sub64 outlen l ≤ outlen
    rw [sub64_eq (by omega) (by omega)]; omega
  · intro x _
    simp only [wp_pure]
  · rintro ⟨h2, s2, ho2, ol2⟩ ⟨d, hd2, e1, e2, hW, hI, hk⟩ hC
    simp only [] at e1 e2 hW hI hk hC ⊢
    simp only [decide_eq_true_eq] at hC
    refine ⟨hC, ?_⟩
    obtain ⟨k, hke⟩ := hk (by omega)
    clear hk
    have hst := hI.st
    rw [hke, hmul] at hst
    rw [wp_bind]
    refine Post.use (KeccakF1600_StatePermute_spec hst) fun s3 hs3 => ?_
    rw [wp_bind]
    generalize hln : min ol2 rb = ln
    have hpost : Post (branch (decide (ol2 < rb)) (pure ol2) (pure rb)) (fun l => l = ln) := by
      simp only [wp_branch, wp_pure, decide_eq_true_eq, decide_eq_false_iff_not]
      omega
    refine Post.use hpost fun l hl => ?_
    subst hl
    rw [wp_bind, u32_small (by omega)]
    rw [← iter_succ' keccakF] at hs3
    have hsz := hW.1
    refine Post.use (KeccakF1600_StateExtractBytes_spec hs3.2 (by omega) (by omega)) fun h4 hh4 => ?_
    rw [wp_bind, wp_wr]
    refine ⟨by rw [hs3.1.1, hI.size]; omega, ?_⟩
    rw [sub64_eq (by omega) (by omega), sub64_eq (by omega) (by omega)]
    simp only [wp_pure]
    have hnx := hnext k l (by omega) (by omega)
    refine ⟨⟨d + l, by omega, by omega, by omega, ?_, ⟨?_, ?_, ?_⟩, ?_⟩, by omega⟩
    · rw [e1] at hh4
      refine (hW.trans hh4).congr fun j hj => ?_
      by_cases hjd : j < d
      · rw [if_pos hjd]
      · rw [if_neg hjd, Nat.zero_add, sqByte_at (rb := rb) T (by omega), ← hke, show n + d + (j - d) = n + j by omega]
    · rw [Array.size_setIfInBounds, hs3.1.1, hI.size]
    · rw [← Nat.add_assoc, hke, hnx]
      exact hs3.2.set25 _
    · rw [Array.getElem?_setIfInBounds_self, if_pos (by rw [hs3.1.1, hI.size]; omega), ← Nat.add_assoc, hke, hnx, Nat.succ_mul, show k * rb + rb - (k * rb + l) = rb - l by omega]
    · intro hdl
      exact ⟨k + 1, by rw [Nat.succ_mul]; omega⟩
  · rintro ⟨h2, s2, ho2, ol2⟩ ⟨d, hd2, e1, e2, hW, hI, hk⟩ hC
    simp only [] at e1 e2 hW hI hk hC ⊢
    simp only [decide_eq_false_iff_not] at hC
    simp only [wp_pure]
    have : d = outlen := by omega
    subst this
    exact ⟨hW, hI⟩

/-- One-shot hashing through the incremental interface. -/
theorem oneshot_spec {rb : Nat} {p : UInt8} {out : Buf UInt8} {oo outlen : Nat} {inp : Buf UInt8} {io inlen : Nat} {B : Nat → UInt8} (hrb : 0 < rb) (hr : rb ≤ 168) (hp : p.toNat < 128)
    (hin : Seg inp io inlen B) (hlen : inlen + 200 < 18446744073709551616) (ho : oo + outlen ≤ out.size) (holen : outlen < 18446744073709551616) :
    Post (do
      let s ← keccak_inc_init (Buf.uninit W 26)
      let s ← keccak_inc_absorb s rb inp io inlen
      let s ← keccak_inc_finalize s rb p
      let (output, _) ← keccak_inc_squeeze out oo outlen s rb
      pure output) (fun o' => Written out o' oo outlen (sqByte rb (finK rb B inlen p))) := by
  simp only [wp_bind]
  refine Post.use (keccak_inc_init_spec (by simp) rb B) fun s hs => ?_
  refine Post.use (keccak_inc_absorb_spec hrb hr hs (hin.congr fun j _ => by rw [Nat.zero_add]) hlen) fun s hs => ?_
  refine Post.use (keccak_inc_finalize_spec hrb hr hp hs) fun s hs => ?_
  refine Post.use (keccak_inc_squeeze_spec hrb hr hs ho holen) fun x hx => ?_
  simp only [wp_pure]
  refine hx.1.congr fun j _ => ?_
  simp only [Nat.zero_add]

theorem finK_list {rb : Nat} {B : Nat → UInt8} {M : List UInt8} {n : Nat} {p : UInt8} (hn : M.length = n) (h : ∀ j, j < n → B j = M.getD j 0) :
    finK rb B n p = finK rb (fun j => M.getD j 0) M.length p := by
  subst hn
  unfold finK
  rw [partialK_congr h]

theorem getD_map_range {α : Type} (f : Nat → α) (d : α) {n i : Nat} (h : i < n) : ((List.range n).map f).getD i d = f i := by
  simp [List.getD_eq_getElem?_getD, h]

theorem shake256_spec {out : Buf UInt8} {oo outlen : Nat} {inp : Buf UInt8} {io : Nat} {M : List UInt8}
    (hin : Seg inp io M.length (fun j => M.getD j 0)) (hlen : M.length + 200 < 18446744073709551616) (ho : oo + outlen ≤ out.size) (holen : outlen < 18446744073709551616) :
    Post (shake256 out oo outlen inp io M.length) (fun o' => Written out o' oo outlen (fun j => (SHAKE256 M outlen).getD j 0)) := by
  refine Post.use (oneshot_spec (rb := 136) (p := 0x1F) (by omega) (by omega) (by decide) hin hlen ho holen) fun o' h => h.congr fun j hj => ?_
  rw [SHAKE256_eq, getD_map_range _ _ hj]

theorem sha3_256_spec {out : Buf UInt8} {oo : Nat} {inp : Buf UInt8} {io : Nat} {M : List UInt8}
    (hin : Seg inp io M.length (fun j => M.getD j 0)) (hlen : M.length + 200 < 18446744073709551616) (ho : oo + 32 ≤ out.size) :
    Post (sha3_256 out oo inp io M.length) (fun o' => Written out o' oo 32 (fun j => (SHA3_256 M).getD j 0)) := by
  refine Post.use (oneshot_spec (rb := 136) (p := 0x06) (by omega) (by omega) (by decide) hin hlen ho (by omega)) fun o' h => h.congr fun j hj => ?_
  rw [SHA3_256_eq, getD_map_range _ _ hj]

theorem sha3_512_spec {out : Buf UInt8} {oo : Nat} {inp : Buf UInt8} {io : Nat} {M : List UInt8}
    (hin : Seg inp io M.length (fun j => M.getD j 0)) (hlen : M.length + 200 < 18446744073709551616) (ho : oo + 64 ≤ out.size) :
    Post (sha3_512 out oo inp io M.length) (fun o' => Written out o' oo 64 (fun j => (SHA3_512 M).getD j 0)) := by
  refine Post.use (oneshot_spec (rb := 72) (p := 0x06) (by omega) (by omega) (by decide) hin hlen ho (by omega)) fun o' h => h.congr fun j hj => ?_
  rw [SHA3_512_eq, getD_map_range _ _ hj]

/-! ## Block interface -/

theorem keccak_absorb_spec {s : Buf W} {rb : Nat} {B : Nat → UInt8} {m : Buf UInt8} {mo mlen : Nat} {p : UInt8} (hrb : 0 < rb) (hr : rb ≤ 168) (hp : p.toNat < 128)
    (h : SegK s 0 zeroK) (hm : Seg m mo mlen B) :
    Post (keccak_absorb s rb m mo mlen p) (fun s' => FrameK s s' 0 ∧ SegK s' 0 (finK rb B mlen p)) := by
  unfold keccak_absorb
  simp only [wp_bind]
  refine wp_while (fun x => ∃ q, q * rb ≤ mlen ∧ x.2.1 = mo + q * rb ∧ x.2.2 = mlen - q * rb ∧ FrameK s x.1 0 ∧ SegK x.1 0 (partialK rb B (q * rb))) (fun x => x.2.2)
    (fun x => decide (x.2.2 ≥ rb)) ⟨0, by omega, by simp, by simp, FrameK.refl _ _, ?_⟩ (Nat.le_refl _) ?_ ?_ ?_
  · rw [Nat.zero_mul, partialK_zero]; exact h
  · intro x _; simp only [wp_pure]
  · rintro ⟨s1, mo1, ml1⟩ ⟨q, hq, h1, h2, hf, hI⟩ hC
    simp only [] at h1 h2 hf hI hC ⊢
    simp only [decide_eq_true_eq] at hC
    refine ⟨by omega, ?_⟩
    simp only [wp_bind]
    have hsub : Seg m mo1 rb (fun j => B (q * rb + j)) := by
      rw [h1]; exact hm.sub (q * rb) rb (by omega)
    refine Post.use (KeccakF1600_StateXORBytes_spec hI hsub (by omega)) fun s2 hs2 => ?_
    refine Post.use (KeccakF1600_StatePermute_spec hs2.2) fun s3 hs3 => ?_
    simp only [wp_pure]
    refine ⟨⟨q + 1, by rw [Nat.succ_mul]; omega, by rw [Nat.succ_mul]; omega, by rw [Nat.succ_mul]; omega, (hf.trans hs2.1).trans hs3.1, hs3.2.congr ?_⟩, by omega⟩
    have := partialK_block hrb B (q * rb)
    rw [Nat.mul_mod_left, Nat.sub_zero] at this
    rw [this, Nat.succ_mul]
  · rintro ⟨s1, mo1, ml1⟩ ⟨q, hq, h1, h2, hf, hI⟩ hC
    simp only [] at h1 h2 hf hI hC ⊢
    simp only [decide_eq_false_iff_not] at hC
    have hmod : mlen % rb = ml1 := by
      rw [show mlen = q * rb + ml1 by omega, Nat.mul_comm, Nat.mul_add_mod, Nat.mod_eq_of_lt (by omega)]
    have hpost : Post (branch (decide (ml1 > 0)) (KeccakF1600_StateXORBytes s1 0 m mo1 0 (u32 ml1)) (pure s1)) (fun s2 => FrameK s s2 0 ∧ SegK s2 0 (partialK rb B mlen)) := by
      have hsub : Seg m mo1 ml1 (fun j => B (q * rb + j)) := by
        rw [h1]; exact hm.sub (q * rb) ml1 (by omega)
      have e := partialK_add (rb := rb) B (n := q * rb) (len := ml1) (by rw [Nat.mul_mod_left]; omega)
      rw [Nat.mul_mod_left, show q * rb + ml1 = mlen by omega] at e
      simp only [wp_branch, wp_pure, decide_eq_true_eq, decide_eq_false_iff_not]
      refine ⟨fun h0 => ?_, fun h0 => ⟨hf, ?_⟩⟩
      · rw [u32_small (by omega)]
        exact Post.use (KeccakF1600_StateXORBytes_spec hI hsub (by omega)) fun s2 hs2 => ⟨hf.trans hs2.1, hs2.2.congr e⟩
      · rw [show mlen = q * rb by omega]; exact hI
    refine Post.use hpost fun s2 hs2 => ?_
    exact Post.use (pad_spec hrb hr hp hmod.symm hs2.2) fun s3 hs3 => ⟨hs2.1.trans hs3.1, hs3.2⟩

theorem keccak_squeezeblocks_spec {s : Buf W} {rb k : Nat} {T : KState} {h : Buf UInt8} {ho nblocks : Nat} (hrb : 0 < rb) (hr : rb ≤ 168)
    (hs : SegK s 0 (iter keccakF k T)) (hho : ho + nblocks * rb ≤ h.size) :
    Post (keccak_squeezeblocks h ho nblocks s rb) (fun x => Written h x.1 ho (nblocks * rb) (fun j => sqByte rb T (k * rb + j)) ∧ FrameK s x.2 0 ∧ SegK x.2 0 (iter keccakF (k + nblocks) T)) := by
  unfold keccak_squeezeblocks
  simp only [wp_bind]
  refine wp_while (fun x => ∃ d, d ≤ nblocks ∧ x.2.2.1 = ho + d * rb ∧ x.2.2.2 = nblocks - d ∧ Written h x.1 ho (d * rb) (fun j => sqByte rb T (k * rb + j)) ∧ FrameK s x.2.1 0 ∧
      SegK x.2.1 0 (iter keccakF (k + d) T)) (fun x => x.2.2.2)
    (fun x => decide (x.2.2.2 > 0)) ⟨0, by omega, by simp, rfl, by rw [Nat.zero_mul]; exact Written.refl _ _ _, FrameK.refl _ _, hs⟩ (Nat.le_refl _) ?_ ?_ ?_
  · intro x _; simp only [wp_pure]
  · rintro ⟨h2, s2, ho2, nb2⟩ ⟨d, hd, e1, e2, hW, hf, hI⟩ hC
    simp only [] at e1 e2 hW hf hI hC ⊢
    simp only [decide_eq_true_eq] at hC
    refine ⟨hC, ?_⟩
    simp only [wp_bind]
    refine Post.use (KeccakF1600_StatePermute_spec hI) fun s3 hs3 => ?_
    rw [← iter_succ' keccakF] at hs3
    have hle : (d + 1) * rb ≤ nblocks * rb := Nat.mul_le_mul_right _ (by omega)
    rw [Nat.succ_mul] at hle
    have hsz := hW.1
    refine Post.use (KeccakF1600_StateExtractBytes_spec hs3.2 (by omega) (by omega)) fun h4 hh4 => ?_
    simp only [wp_pure]
    refine ⟨⟨d + 1, by omega, by rw [Nat.succ_mul]; omega, by omega, ?_, hf.trans hs3.1, hs3.2⟩, by omega⟩
    rw [e1] at hh4
    rw [Nat.succ_mul]
    refine (hW.trans hh4).congr fun j hj => ?_
    by_cases hjd : j < d * rb
    · rw [if_pos hjd]
    · rw [if_neg hjd, Nat.zero_add, sqByte_at (rb := rb) T (by omega), Nat.add_mul, show k * rb + d * rb + (j - d * rb) = k * rb + j by omega]
  · rintro ⟨h2, s2, ho2, nb2⟩ ⟨d, hd, e1, e2, hW, hf, hI⟩ hC
    simp only [] at e1 e2 hW hf hI hC ⊢
    simp only [decide_eq_false_iff_not] at hC
    simp only [wp_pure]
    have : d = nblocks := by omega
    subst this
    exact ⟨hW, hf, hI⟩

theorem shake128_absorb_spec {s : Buf W} {m : Buf UInt8} {mo mlen : Nat} {B : Nat → UInt8} (hsz : 25 ≤ s.size) (hm : Seg m mo mlen B) :
    Post (shake128_absorb s m mo mlen) (fun s' => s'.size = s.size ∧ SegK s' 0 (finK 168 B mlen 0x1F)) := by
  unfold shake128_absorb
  simp only [wp_bind]
  refine Post.use (zeroLanes_spec hsz) fun s1 hs1 => ?_
  exact Post.use (keccak_absorb_spec (by decide) (by decide) (by decide) (segK_zero hs1.2.1) hm) fun s2 hs2 => ⟨hs2.1.1.trans hs1.1, hs2.2⟩

end Verif

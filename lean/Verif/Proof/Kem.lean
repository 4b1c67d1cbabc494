import Verif.Proof.Indcpa
import Verif.Proof.Verify
import Verif.Model.Kem
/-! # The KEM refines ML-KEM -/
namespace Verif
open Model Spec Finset

attribute [local irreducible] keccakF partialK finK blocksK sqByte SHAKE256 SHA3_256 SHA3_512 SHAKE128

theorem memcmpLoop_spec {a b : Buf UInt8} {ao bo : Nat} {f g : Nat → UInt8} (n i : Nat) (ha : Seg a ao (i + n) f) (hb : Seg b bo (i + n) g) :
    Post (memcmpLoop a ao b bo i n) (fun d => d = 0 ↔ ∀ j, i ≤ j → j < i + n → f j = g j) := by
  induction n generalizing i with
  | zero =>
    unfold memcmpLoop
    simp only [wp_bind, wp_emit, wp_pure, true_iff]
    intro j h1 h2; omega
  | succ n ih =>
    unfold memcmpLoop
    simp only [wp_bind, wp_emit, wp_rd, wp_branch, wp_pure]
    refine ⟨_, ha i (by omega), _, hb i (by omega), fun h => ?_, fun h => ?_⟩
    · have h := eq_of_beq h
      refine Post.use (ih (i + 1) (by rwa [show i + 1 + n = i + (n + 1) by omega]) (by rwa [show i + 1 + n = i + (n + 1) by omega])) fun d hd => ?_
      rw [hd]
      constructor
      · intro H j h1 h2
        by_cases e : j = i
        · subst e; exact h
        · exact H j (by omega) (by omega)
      · intro H j h1 h2
        exact H j (by omega) (by omega)
    · have hne : f i ≠ g i := by intro e; rw [e] at h; simp at h
      constructor
      · intro e
        exact absurd (UInt8.toNat_inj.1 (by omega)) hne
      · intro H
        exact absurd (H i (by omega) (by omega)) hne

theorem memcmp_spec {a b : Buf UInt8} {ao bo n : Nat} {f g : Nat → UInt8} (ha : Seg a ao n f) (hb : Seg b bo n g) :
    Post (memcmp a ao b bo n) (fun d => d = 0 ↔ ∀ j, j < n → f j = g j) := by
  refine Post.use (memcmpLoop_spec n 0 (by rwa [Nat.zero_add]) (by rwa [Nat.zero_add])) fun d hd => ?_
  rw [hd]
  exact ⟨fun h j hj => h j (by omega) (by omega), fun h j _ hj => h j (by omega)⟩

theorem list_eq_iff {L L' : List UInt8} {n : Nat} (h : L.length = n) (h' : L'.length = n) : (∀ j, j < n → L.getD j 0 = L'.getD j 0) ↔ L = L' :=
  ⟨fun H => ext_getD' (h.trans h'.symm) fun j hj => H j (by omega), fun e j _ => by rw [e]⟩

theorem memcmpL_spec {a b : Buf UInt8} {ao bo n : Nat} {L L' : List UInt8} (hl : L.length = n) (hl' : L'.length = n) (ha : SegL a ao L) (hb : SegL b bo L') :
    Post (memcmp a ao b bo n) (fun d => d = 0 ↔ L = L') := by
  refine Post.use (memcmp_spec (ha.toN hl) (hb.toN hl')) fun d hd => ?_
  rw [hd]; exact list_eq_iff hl hl'

theorem check_pk_spec {K : Nat} {pk : Buf UInt8} {ek : List UInt8} (hek : ek.length = K * 384 + 32) (hpk : SegL pk 0 ek) :
    Post (check_pk K pk) (fun r => (r = 0 ∧ modulusCheck K ek) ∨ (r = -1 ∧ ¬ modulusCheck K ek)) := by
  have h := unpack_vec_spec (K := K) (by omega) hpk (VAll.new K)
  change PostF False _ _ at h
  simp only [wp_bind] at h
  unfold check_pk
  rw [polyvecbytes_eq]
  simp only [wp_bind, wp_branch, wp_pure]
  refine PostF.mono h fun r hr => PostF.mono hr fun r' hr' => ?_
  refine Post.use (polyvec_tobytes_spec (f := fun i c => (decode12 ek i c).val) hr' (fun i c _ _ => ZMod.val_lt _) (by rw [Buf.size_uninit]; omega)) fun b hb => ?_
  have hb' := encode12_written (f := fun i c => (decode12 ek i c).val) (v := decode12 ek) hb fun _ _ _ _ => rfl
  refine Post.use (memcmpL_spec (L := ek.take (384 * K)) (by rw [List.length_take]; omega) (encode12_length _ _) (hpk.take _ (by omega)) hb'.segL) fun d hd => ?_
  unfold modulusCheck
  constructor
  · intro h; right; exact ⟨trivial, fun e => (of_decide_eq_true h) (hd.2 e.symm)⟩
  · intro h
    have h := of_decide_eq_false h
    left; exact ⟨trivial, (hd.1 (not_not.1 h)).symm⟩

theorem K_bound {K : Nat} (hK : K = 2 ∨ K = 3 ∨ K = 4) : K * 384 ≤ 1536 := by omega
theorem skbytes_eq (K : Nat) : MLKEM_SECRETKEYBYTES K = K * 768 + 96 := by
  unfold MLKEM_SECRETKEYBYTES MLKEM_INDCPA_SECRETKEYBYTES MLKEM_INDCPA_PUBLICKEYBYTES MLKEM_SYMBYTES; rw [polyvecbytes_eq]; omega
theorem pkbytes_eq (K : Nat) : MLKEM_PUBLICKEYBYTES K = K * 384 + 32 := rfl
theorem iskbytes_eq (K : Nat) : MLKEM_INDCPA_SECRETKEYBYTES K = K * 384 := rfl

/-- The parts of a decapsulation key. -/
abbrev dkEk (K : Nat) (dk : List UInt8) : List UInt8 := (dk.drop (384 * K)).take (384 * K + 32)
abbrev dkH (K : Nat) (dk : List UInt8) : List UInt8 := (dk.drop (768 * K + 32)).take 32
abbrev dkZ (K : Nat) (dk : List UInt8) : List UInt8 := (dk.drop (768 * K + 64)).take 32

theorem dkEk_length {K : Nat} {dk : List UInt8} (h : dk.length = K * 768 + 96) : (dkEk K dk).length = K * 384 + 32 := by rw [List.length_take, List.length_drop]; omega
theorem dkH_length {K : Nat} {dk : List UInt8} (h : dk.length = K * 768 + 96) : (dkH K dk).length = 32 := by rw [List.length_take, List.length_drop]; omega
theorem dkZ_length {K : Nat} {dk : List UInt8} (h : dk.length = K * 768 + 96) : (dkZ K dk).length = 32 := by rw [List.length_take, List.length_drop]; omega

theorem dkEk_seg {K : Nat} {sk : Buf UInt8} {dk : List UInt8} (h : dk.length = K * 768 + 96) (hs : SegL sk 0 dk) : SegL sk (MLKEM_INDCPA_SECRETKEYBYTES K) (dkEk K dk) := by
  have := hs.sub (384 * K) (384 * K + 32) (by omega)
  rwa [show 0 + 384 * K = MLKEM_INDCPA_SECRETKEYBYTES K by rw [iskbytes_eq]; omega] at this
theorem dkH_seg {K : Nat} {sk : Buf UInt8} {dk : List UInt8} (h : dk.length = K * 768 + 96) (hs : SegL sk 0 dk) : SegL sk (MLKEM_SECRETKEYBYTES K - 2 * 32) (dkH K dk) := by
  have := hs.sub (768 * K + 32) 32 (by omega)
  rwa [show 0 + (768 * K + 32) = MLKEM_SECRETKEYBYTES K - 2 * 32 by rw [skbytes_eq]; omega] at this
theorem dkZ_seg {K : Nat} {sk : Buf UInt8} {dk : List UInt8} (h : dk.length = K * 768 + 96) (hs : SegL sk 0 dk) : SegL sk (MLKEM_SECRETKEYBYTES K - 32) (dkZ K dk) := by
  have := hs.sub (768 * K + 64) 32 (by omega)
  rwa [show 0 + (768 * K + 64) = MLKEM_SECRETKEYBYTES K - 32 by rw [skbytes_eq]; omega] at this

theorem check_sk_spec {K : Nat} (hK : K = 2 ∨ K = 3 ∨ K = 4) {sk : Buf UInt8} {dk : List UInt8} (hdk : dk.length = K * 768 + 96) (hsk : SegL sk 0 dk) :
    Post (check_sk K sk) (fun r => (r = 0 ∧ hashCheck K dk) ∨ (r = -1 ∧ ¬ hashCheck K dk)) := by
  unfold check_sk
  simp only [wp_bind, wp_branch, wp_pure]
  refine Post.use (hash_h_spec (M := dkEk K dk) (by rw [dkEk_length hdk, pkbytes_eq]) (dkEk_seg hdk hsk) (by rw [pkbytes_eq]; omega) (by simp)) fun t ht => ?_
  refine Post.use (memcmpL_spec (dkH_length hdk) (H_length _) (dkH_seg hdk hsk) ht.segL) fun d hd => ?_
  unfold hashCheck
  constructor
  · intro h; right; exact ⟨trivial, fun e => (of_decide_eq_true h) (hd.2 e.symm)⟩
  · intro h
    have h := of_decide_eq_false h
    left; exact ⟨trivial, (hd.1 (not_not.1 h)).symm⟩

/-- Key generation. The outputs may lie in larger objects: only the documented bytes are written. -/
theorem keypair_derand_spec {K fuel : Nat} (hK : K = 2 ∨ K = 3 ∨ K = 4) {pk sk coins : Buf UInt8} {d z : List UInt8} (hd : d.length = 32) (hz : z.length = 32) (hc : SegL coins 0 (d ++ z))
    (hpk : K * 384 + 32 ≤ pk.size) (hsk : K * 768 + 96 ≤ sk.size) :
    PostF (KeyGen_internal K (168 * (3 + fuel)) d z = none) (crypto_kem_keypair_derand K fuel pk sk coins) (fun x => ∃ ek dk, KeyGen_internal K (168 * (3 + fuel)) d z = some (ek, dk) ∧
      ek.length = K * 384 + 32 ∧ dk.length = K * 768 + 96 ∧ x.1 = 0 ∧ WrittenL pk x.2.1 0 ek ∧ WrittenL sk x.2.2 0 dk) := by
  have hcd : SegL coins 0 d := by
    have := hc.take 32 (by simp [hd])
    rwa [List.take_left' hd] at this
  have hcz : SegL coins 32 z := by
    have := hc.sub 32 32 (by simp [hd, hz])
    rwa [List.drop_left' hd, List.take_of_length_le (by omega), Nat.zero_add] at this
  have hsk1 : K * 384 ≤ sk.size := by rw [Nat.mul_comm] at hsk ⊢; omega
  have hsk2 : K * 384 + (K * 384 + 32) ≤ sk.size := by rw [Nat.mul_comm] at hsk ⊢; omega
  unfold crypto_kem_keypair_derand KeyGen_internal
  simp only [wp_bind, wp_pure]
  refine PostF.mono (PostF.monoF (indcpa_keypair_spec (fuel := fuel) hK hd hcd hpk hsk1) ?_) ?_
  · intro h; rw [h, Option.map_none]
  rintro x ⟨ek, dk, he, lek, ldk, w1, w2⟩
  simp only [he, Option.map_some]
  refine Post.use (memcpyL_spec (n := MLKEM_PUBLICKEYBYTES K) lek (w2.1.symm ▸ hsk2) w1.segL) fun s1 h1 => ?_
  refine Post.use (hash_h_spec (n := MLKEM_PUBLICKEYBYTES K) lek w1.segL (by rw [pkbytes_eq]; omega) (by rw [h1.1, w2.1, skbytes_eq]; omega)) fun s2 h2 => ?_
  refine Post.use (memcpyL_spec hz (by rw [h2.1, h1.1, w2.1, skbytes_eq]; omega) hcz) fun s3 h3 => ?_
  have hH := H_length ek
  refine ⟨_, _, rfl, lek, ?_, trivial, w1, ?_⟩
  · simp only [List.length_append, ldk, lek, hH, hz]; omega
  · refine ((w2.append h1 ?_).append h2 ?_).append h3 ?_ <;> simp only [List.length_append, ldk, lek, hH, iskbytes_eq, skbytes_eq] <;> omega

/-- Encapsulation. -/
theorem enc_derand_spec {K fuel : Nat} (hK : K = 2 ∨ K = 3 ∨ K = 4) {ct ss pk coins : Buf UInt8} {ek m : List UInt8} (hek : ek.length = K * 384 + 32) (hpk : SegL pk 0 ek)
    (hm : m.length = 32) (hc : SegL coins 0 m) (hct : MLKEM_CIPHERTEXTBYTES K ≤ ct.size) (hss : 32 ≤ ss.size) :
    PostF (modulusCheck K ek ∧ Encaps_internal K (168 * (3 + fuel)) ek m = none) (crypto_kem_enc_derand K fuel ct ss pk coins) (fun x =>
      (modulusCheck K ek ∧ ∃ k c, Encaps_internal K (168 * (3 + fuel)) ek m = some (k, c) ∧ k.length = 32 ∧ c.length = MLKEM_CIPHERTEXTBYTES K ∧
        x.1 = 0 ∧ WrittenL ct x.2.1 0 c ∧ WrittenL ss x.2.2 0 k) ∨ (¬ modulusCheck K ek ∧ x = (-1, ct, ss))) := by
  unfold crypto_kem_enc_derand Encaps_internal
  simp only [wp_bind, wp_branch, wp_pure]
  refine Post.use (check_pk_spec hek hpk) fun r hr => ?_
  rcases hr with ⟨rfl, hmod⟩ | ⟨rfl, hmod⟩
  · refine ⟨fun h => absurd h (by decide), fun _ => ?_⟩
    refine Post.use (memcpyL_spec hm (by simp) hc) fun b1 h1 => ?_
    refine Post.use (hash_h_spec (by rw [hek, pkbytes_eq]) hpk (by rw [pkbytes_eq]; omega) (by rw [h1.1]; simp)) fun b2 h2 => ?_
    have hH := H_length ek
    have hb := WrittenL.append h1 h2 (by rw [hm])
    refine Post.use (hash_g_spec (M := m ++ H ek) (by rw [List.length_append, hm, hH]) hb.segL (by omega) (by simp)) fun kr hkr => ?_
    obtain ⟨hk1, hk2⟩ := G_seg hkr.segL
    have l1 := G1_length (m ++ H ek)
    have l2 := G2_length (m ++ H ek)
    have hms : SegL b2 0 m := by
      have := hb.segL.take 32 (by simp [hm])
      rwa [List.take_left' hm] at this
    refine PostF.mono (PostF.monoF (indcpa_enc_spec (fuel := fuel) hK hm hms hek hpk l2 hk2 hct) ?_) ?_
    · intro h; rw [h]; exact ⟨hmod, rfl⟩
    · rintro c ⟨c', he, lc, hcw⟩
      refine Post.use (memcpyL_spec l1 (by omega) hk1) fun s hs => ?_
      rw [he]
      exact .inl ⟨hmod, _, _, rfl, l1, lc, trivial, hcw, hs⟩
  · exact ⟨fun _ => .inr ⟨hmod, trivial⟩, fun h => absurd h (by decide)⟩

/-- Decapsulation. -/
theorem dec_spec {K fuel : Nat} (hK : K = 2 ∨ K = 3 ∨ K = 4) {ss ct sk : Buf UInt8} {c dk : List UInt8} (hc : c.length = MLKEM_CIPHERTEXTBYTES K) (hct : SegL ct 0 c)
    (hdk : dk.length = K * 768 + 96) (hsk : SegL sk 0 dk) (hss : 32 ≤ ss.size) :
    PostF (hashCheck K dk ∧ Decaps_internal K (168 * (3 + fuel)) dk c = none) (crypto_kem_dec K fuel ss ct sk) (fun x =>
      (hashCheck K dk ∧ ∃ k, Decaps_internal K (168 * (3 + fuel)) dk c = some k ∧ k.length = 32 ∧ x.1 = 0 ∧ WrittenL ss x.2 0 k) ∨ (¬ hashCheck K dk ∧ x = (-1, ss))) := by
  unfold crypto_kem_dec Decaps_internal
  dsimp only
  simp only [wp_bind, wp_branch, wp_pure]
  refine Post.use (check_sk_spec hK hdk hsk) fun r hr => ?_
  rcases hr with ⟨rfl, hmod⟩ | ⟨rfl, hmod⟩
  · refine ⟨fun h => absurd h (by decide), fun _ => ?_⟩
    refine Post.use (indcpa_dec_spec hK (by simp) hc hct (dk := dk.take (384 * K)) (by rw [List.length_take]; omega) (hsk.take _ (by omega))) fun b1 h1 => ?_
    generalize hm' : kpkeDecrypt K (dk.take (384 * K)) c = m'
    have hm : m'.length = 32 := by rw [← hm']; exact ByteEncode_length _ _
    rw [hm'] at h1
    refine Post.use (memcpyL_spec (dkH_length hdk) (by rw [h1.1]; simp) (dkH_seg hdk hsk)) fun b2 h2 => ?_
    have hb := WrittenL.append h1 h2 (by rw [hm])
    refine Post.use (hash_g_spec (M := m' ++ dkH K dk) (by rw [List.length_append, hm, dkH_length hdk]) hb.segL (by omega) (by simp)) fun kr hkr => ?_
    obtain ⟨hk1, hk2⟩ := G_seg hkr.segL
    have l1 := G1_length (m' ++ dkH K dk)
    have l2 := G2_length (m' ++ dkH K dk)
    have hms : SegL b2 0 m' := by
      have := hb.segL.take 32 (by simp [hm])
      rwa [List.take_left' hm] at this
    have hcb : MLKEM_CIPHERTEXTBYTES K ≤ 2000 := by rcases hK with rfl | rfl | rfl <;> decide
    refine PostF.mono (PostF.monoF (indcpa_enc_spec (fuel := fuel) (ms := m') hK hm hms (dkEk_length hdk) (dkEk_seg hdk hsk) l2 hk2 (by simp)) ?_) ?_
    · intro h; exact ⟨hmod, by unfold dkEk dkH at h; rw [h]; rfl⟩
    · rintro cmp ⟨c', he, lc, hcw⟩
      refine Post.use (ct_memcmp_spec (by omega) (hct.toN hc) (hcw.segL.toN lc)) fun f hf => ?_
      refine Post.use (rkprf_spec (dkZ_length hdk) hc (by omega) ((dkZ_seg hdk hsk).toN (dkZ_length hdk)) hct hss) fun s1 hs1 => ?_
      refine Post.use (ct_cmov_zero_spec f hs1.seg (hk1.toN l1)) fun s2 hs2 => ?_
      have he' : kpkeEncrypt K (168 * (3 + fuel)) (dkEk K dk) m' (G (m' ++ dkH K dk)).2 = some c' := he
      unfold dkEk dkH at he'
      rw [he']
      left
      rw [Option.map_some]
      refine ⟨hmod, _, rfl, by beta_reduce; split <;> [exact J_length _; exact l1], trivial, ?_⟩
      have iff := list_eq_iff hc lc
      have key : ∀ L : List UInt8, L.length = 32 → (∀ i, i < 32 → (if f = 0 then (G (m' ++ dkH K dk)).1.getD i 0 else (J (dkZ K dk ++ c)).getD i 0) = L.getD i 0) → WrittenL ss s2 0 L := by
        intro L hL h
        refine WrittenL.ofN (n := 32) ⟨hs2.1.trans hs1.1, fun i hi => ?_, fun j hj => ?_⟩ hL
        · rw [hs2.2.1 i hi]; exact congrArg (fun v => some (some v)) (h i hi)
        · rw [hs2.2.2 j hj, hs1.2.2 j hj]
      by_cases e : c = c'
      · rw [if_neg (not_not.2 e)]
        have : f = 0 := by rw [hf, if_pos (iff.2 e)]
        exact key _ l1 fun i _ => by rw [if_pos this]
      · rw [if_pos e]
        have : f ≠ 0 := by rw [hf, if_neg (fun h => e (iff.1 h))]; decide
        exact key _ (J_length _) fun i _ => by rw [if_neg this]
  · exact ⟨fun _ => .inr ⟨hmod, trivial⟩, fun h => absurd h (by decide)⟩

end Verif

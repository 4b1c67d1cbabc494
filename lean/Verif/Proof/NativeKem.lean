import Verif.Proof.NativeHash
/-! # The public-key encryption scheme and the KEM on top of a backend (the proofs of `Verif.Proof.{Polyvec,Indcpa,Kem}` with the backend's contract) -/
namespace Verif.Native
open Model Spec Finset

attribute [local irreducible] keccakF partialK finK blocksK sqByte SHAKE256 SHA3_256 SHA3_512 SHAKE128

variable {bk : Backend} {π : Nat → Nat} {C : Model.Poly → (Nat → Int) → Prop} (hM : Meets bk π C)

theorem chooseV {v : PolyVec} {K n : Nat} {P : Nat → (Nat → Int) → Prop} (h : VAll v K (fun i p => ∃ g : Nat → Int, Holds p n (fun c => g (π c)) ∧ P i g)) :
    ∃ f : Nat → Nat → Int, VHolds v K n (fun i c => f i (π c)) ∧ ∀ i, i < K → P i (f i) := by
  have : ∀ i, ∃ g : Nat → Int, i < K → ∃ p, v[i]? = some p ∧ Holds p n (fun c => g (π c)) ∧ P i g := by
    intro i
    by_cases hi : i < K
    · obtain ⟨p, hp, g, hg⟩ := h.2 i hi
      exact ⟨g, fun _ => ⟨p, hp, hg⟩⟩
    · exact ⟨fun _ => 0, fun h => absurd h hi⟩
  choose f hf using this
  exact ⟨f, ⟨h.1, fun i hi => let ⟨p, hp, hg, _⟩ := hf i hi; ⟨p, hp, hg⟩⟩, fun i hi => (hf i hi).choose_spec.2.2⟩

theorem mont_back (S : Zq) : 65536 * (169 * S) = S := by
  have := zq_cast_eq (a := 65536 * 169) (b := 1) (by norm_num)
  simp only [Nat.cast_mul, Nat.cast_ofNat, Nat.cast_one] at this
  rw [← mul_assoc, this, one_mul]

include hM

theorem polyvec_tobytes_spec {K : Nat} {a : PolyVec} {f : Nat → Nat → Nat} (ha : VHolds a K 256 (fun i c => (f i (π c) : Int)))
    (hf : ∀ i c, i < K → c < 256 → f i c < 3329) {r : Buf UInt8} {ro : Nat} (hr : ro + K * 384 ≤ r.size) :
    Post (polyvec_tobytes bk K r ro a) (fun r' => Written r r' ro (K * 384) (fun k => encByte 12 (f (k / 384)) (k % 384))) := by
  unfold polyvec_tobytes
  refine wp_forN (fun i r' => Written r r' ro (i * 384) (fun k => encByte 12 (f (k / 384)) (k % 384))) (by rw [Nat.zero_mul]; exact Written.refl _ _ _) ?_ (fun _ h => h)
  intro i r' hi hI
  simp only [wp_bind, wp_vget]
  obtain ⟨p, hp, hh⟩ := ha.get hi
  refine ⟨p, hp, ?_⟩
  have : i * 384 + 384 ≤ K * 384 := by omega
  refine Post.use (hM.tobytes hh (fun c hc => hf i c hi hc) (by rw [hI.1, MLKEM_POLYBYTES]; omega)) fun r'' h'' => ?_
  exact Written.blocks (g := fun i => encByte 12 (f i)) (by omega) hI h''

theorem polyvec_frombytes_spec {K : Nat} {a : Buf UInt8} {ao : Nat} {B : Nat → UInt8} (ha : Seg a ao (K * 384) B) {r : PolyVec}
    (hr : VAll r K (fun _ p => p.size = 256)) :
    Post (polyvec_frombytes bk K r a ao) (fun r' => VHolds r' K 256 (fun i c => (decNum 12 (fun k => B (i * 384 + k)) (π c) : Int))) := by
  unfold polyvec_frombytes
  refine wp_vmapLoop hr ?_ (fun _ h => h)
  intro i p hi hp
  exact hM.frombytes (ha.sub (i * 384) 384 (by omega)) hp

theorem polyvec_ntt_spec {K : Nat} {r : PolyVec} {f : Nat → Nat → Int} (hr : VHolds r K 256 f) (hf : ∀ i c, i < K → c < 256 → -3329 < f i c ∧ f i c < 3329) :
    Post (polyvec_ntt bk K r) (fun r' => ∃ g : Nat → Nat → Int, VHolds r' K 256 (fun i c => g i (π c)) ∧ ∀ i, i < K → ∀ c, c < 256 → (-26632 < g i c ∧ g i c < 26632) ∧ (g i c : Zq) = NTT (fun n => (f i n : Zq)) c) := by
  unfold polyvec_ntt
  refine wp_vmapLoop (R' := fun i (p : Model.Poly) => ∃ g : Nat → Int, Holds p 256 (fun c => g (π c)) ∧ ∀ c, c < 256 → (-26632 < g c ∧ g c < 26632) ∧ (g c : Zq) = NTT (fun n => (f i n : Zq)) c) hr ?_ (fun _ h => chooseV h)
  intro i p hi hp
  exact hM.ntt hp fun c hc => hf i c hi hc

theorem polyvec_invntt_spec {K : Nat} {r : PolyVec} {f : Nat → Nat → Int} (hr : VHolds r K 256 fun i c => f i (π c)) (hf : ∀ i c, i < K → c < 256 → -32768 ≤ f i c ∧ f i c ≤ 32767) :
    Post (polyvec_invntt_tomont bk K r) (fun r' => ∃ g, VHolds r' K 256 g ∧ ∀ i, i < K → ∀ c, c < 256 → (-26632 < g i c ∧ g i c < 26632) ∧ (g i c : Zq) = 65536 * NTTInv (fun n => (f i n : Zq)) c) := by
  unfold polyvec_invntt_tomont
  refine wp_vmapLoop (R' := fun i (p : Model.Poly) => ∃ g : Nat → Int, Holds p 256 g ∧ ∀ c, c < 256 → (-26632 < g c ∧ g c < 26632) ∧ (g c : Zq) = 65536 * NTTInv (fun n => (f i n : Zq)) c) hr ?_ (fun _ h => h.choose)
  intro i p hi hp
  exact hM.intt hp fun c hc => hf i c hi hc

theorem polyvec_reduce_spec {K : Nat} {r : PolyVec} {f : Nat → Nat → Int} (hr : VHolds r K 256 f) (hf : ∀ i c, i < K → c < 256 → -32768 ≤ f i c ∧ f i c ≤ 32767) :
    Post (polyvec_reduce bk K r) (fun r' => VHolds r' K 256 (fun i c => f i c % 3329)) := by
  unfold polyvec_reduce
  exact wp_vmapLoop hr (fun i p hi hp => hM.reduce hp fun c hc => hf i c hi hc) (fun _ h => h)

theorem polyvec_tomont_spec {K : Nat} {r : PolyVec} {f : Nat → Nat → Int} (hr : VHolds r K 256 fun i c => f i (π c)) (hf : ∀ i c, i < K → c < 256 → -32768 ≤ f i c ∧ f i c ≤ 32767) :
    Post (polyvec_tomont bk K r) (fun r' => ∃ g : Nat → Nat → Int, VHolds r' K 256 (fun i c => g i (π c)) ∧ ∀ i, i < K → ∀ c, c < 256 → (-3329 < g i c ∧ g i c < 3329) ∧ (g i c : Zq) = 65536 * (f i c : Zq)) := by
  unfold polyvec_tomont
  refine wp_vmapLoop (R' := fun i (p : Model.Poly) => ∃ g : Nat → Int, Holds p 256 (fun c => g (π c)) ∧ ∀ c, c < 256 → (-3329 < g c ∧ g c < 3329) ∧ (g c : Zq) = 65536 * (f i c : Zq)) hr ?_ (fun _ h => chooseV h)
  intro i p hi hp
  exact hM.tomont hp fun c hc => hf i c hi hc

theorem polyvec_mulcache_spec {K : Nat} {x a : PolyVec} {f : Nat → Nat → Int} (hx : VAll x K (fun _ p => p.size = 128)) (ha : VHolds a K 256 fun i c => f i (π c))
    (hf : ∀ i c, i < K → c < 256 → -26632 < f i c ∧ f i c < 26632) :
    Post (polyvec_mulcache_compute bk K x a) (fun x' => VAll x' K (fun i p => C p (f i))) := by
  unfold polyvec_mulcache_compute
  refine wp_vloop hx ?_ (fun _ h => h)
  intro i v' p hi hs hp hr
  simp only [wp_bind, wp_vget, wp_vmod]
  obtain ⟨q, hq, hh⟩ := ha.get hi
  exact ⟨q, hq, p, hp, Post.use (hM.mulcache hr hh (fun c hc => hf i c hi hc)) fun p' hp' => ⟨by omega, p', rfl, hp'⟩⟩

theorem polyvec_basemul_acc_spec {K : Nat} (hK : 2 ≤ K ∧ K ≤ 4) {r : Model.Poly} {a b c : PolyVec} {fa fb : Nat → Nat → Int}
    (ha : VHolds a K 256 fun i n => fa i (π n)) (hb : VHolds b K 256 fun i n => fb i (π n)) (hc : VAll c K (fun i p => C p (fb i)))
    (hfa : ∀ i n, i < K → n < 256 → -3329 < fa i n ∧ fa i n < 3329) (hfb : ∀ i n, i < K → n < 256 → -26632 < fb i n ∧ fb i n < 26632)
    (hr : r.size = 256) :
    Post (bk.polyvec_basemul_acc_montgomery_cached K r a b c) (fun r' => ∃ v : Nat → Int, Holds r' 256 (fun n => v (π n)) ∧ ∀ n, n < 256 → (-32768 ≤ v n ∧ v n ≤ 32767) ∧
      (v n : Zq) = 169 * ∑ j ∈ range K, MultiplyNTTs (fun n => (fa j n : Zq)) (fun n => (fb j n : Zq)) n) := hM.basemul hK ha hb hc hfa hfb hr

theorem pack_pk_spec {K : Nat} {a : PolyVec} {f : Nat → Nat → Nat} {v : Nat → Spec.Poly} {r seed : Buf UInt8} {so : Nat} {ρ : List UInt8} (ha : VHolds a K 256 (fun i c => (f i (π c) : Int)))
    (hv : ∀ i c, i < K → c < 256 → f i c = (v i c).val) (hρ : ρ.length = 32) (hs : SegL seed so ρ) (hr : K * 384 + 32 ≤ r.size) :
    Post (pack_pk bk K r a seed so) (fun r' => WrittenL r r' 0 (encode12 K v ++ ρ)) := by
  have hf : ∀ i c, i < K → c < 256 → f i c < 3329 := fun i c hi hc => by rw [hv i c hi hc]; exact ZMod.val_lt _
  unfold pack_pk
  simp only [wp_bind]
  refine POLYVEC_BOUND_wp ha (fun i c hi hc => by have := hf i _ hi (hM.lt hc); omega) ?_
  refine Post.use (polyvec_tobytes_spec hM ha hf (by omega)) fun r1 h1 => ?_
  refine Post.use (memcpyL_spec hρ (by rw [polyvecbytes_eq, h1.1]; omega) hs) fun r2 h2 => ?_
  exact (encode12_written h1 hv).append h2 (by rw [encode12_length, polyvecbytes_eq]; omega)

theorem pack_sk_spec {K : Nat} {a : PolyVec} {f : Nat → Nat → Nat} {v : Nat → Spec.Poly} {r : Buf UInt8} (ha : VHolds a K 256 (fun i c => (f i (π c) : Int)))
    (hv : ∀ i c, i < K → c < 256 → f i c = (v i c).val) (hr : K * 384 ≤ r.size) :
    Post (pack_sk bk K r a) (fun r' => WrittenL r r' 0 (encode12 K v)) := by
  have hf : ∀ i c, i < K → c < 256 → f i c < 3329 := fun i c hi hc => by rw [hv i c hi hc]; exact ZMod.val_lt _
  unfold pack_sk
  simp only [wp_bind]
  refine POLYVEC_BOUND_wp ha (fun i c hi hc => by have := hf i _ hi (hM.lt hc); omega) ?_
  exact Post.use (polyvec_tobytes_spec hM ha hf (by omega)) fun r1 h1 => encode12_written h1 hv

theorem unpack_vec_spec {K : Nat} {a : PolyVec} {b : Buf UInt8} {o : Nat} {B : List UInt8} (hB : K * 384 ≤ B.length) (hs : SegL b o B) (ha : VAll a K (fun _ p => p.size = 256)) :
    Post (do let p ← polyvec_frombytes bk K a b o; polyvec_reduce bk K p) (fun r => VHolds r K 256 (fun i c => canon (decode12 B) i (π c))) := by
  simp only [wp_bind]
  refine Post.use (polyvec_frombytes_spec hM (fun j hj => hs j (by omega)) ha) fun r h => ?_
  refine Post.use (polyvec_reduce_spec hM h fun i c hi hc => ?_) fun r' h' => h'.congr fun i c hi hc => ?_
  · have := decNum_lt 12 (fun k => B.getD (i * 384 + k) 0) (π c)
    omega
  · unfold canon
    rw [decode12_eq B i (hM.lt hc), ← val_eq_emod]
    push_cast; rfl

theorem unpack_pk_spec {K : Nat} {a : PolyVec} {seed b : Buf UInt8} {o : Nat} {B : List UInt8} (hB : B.length = K * 384 + 32) (hs : SegL b o B) (ha : VAll a K (fun _ p => p.size = 256)) (hse : seed.size = 32) :
    Post (unpack_pk bk K a seed b o) (fun r => VHolds r.1 K 256 (fun i c => canon (decode12 B) i (π c)) ∧ SegL r.2 0 ((B.drop (384 * K)).take 32)) := by
  have h := unpack_vec_spec hM (by omega) hs ha
  change PostF False _ _ at h
  simp only [wp_bind] at h
  unfold unpack_pk
  simp only [wp_bind, wp_pure]
  refine PostF.mono h fun r hr => ?_
  have hseg : SegL b (o + MLKEM_POLYVECBYTES K) ((B.drop (384 * K)).take 32) := by
    rw [polyvecbytes_eq, Nat.mul_comm]
    exact hs.sub (384 * K) 32 (by omega)
  refine Post.use (memcpyL_spec (by rw [List.length_take, List.length_drop]; omega) (by omega) hseg) fun s2 h2 => ?_
  exact PostF.mono hr fun r' hr' => ⟨hr', h2.segL⟩

theorem unpack_sk_spec {K : Nat} {a : PolyVec} {b : Buf UInt8} {B : List UInt8} (hB : K * 384 ≤ B.length) (hs : SegL b 0 B) (ha : VAll a K (fun _ p => p.size = 256)) :
    Post (unpack_sk bk K a b) (fun r => VHolds r K 256 (fun i c => canon (decode12 B) i (π c))) := unpack_vec_spec hM hB hs ha

/-- Matrix-vector product. -/
theorem matvec_mul_spec {K : Nat} (hK : 2 ≤ K ∧ K ≤ 4) {out a v vc : PolyVec} {fa fv : Nat → Nat → Int} (ho : VAll out K (fun _ p => p.size = 256))
    (ha : VHolds a (K * K) 256 fun i n => fa i (π n)) (hv : VHolds v K 256 fun i n => fv i (π n)) (hc : VAll vc K (fun i p => C p (fv i)))
    (hfa : ∀ i n, i < K * K → n < 256 → -3329 < fa i n ∧ fa i n < 3329) (hfv : ∀ i n, i < K → n < 256 → -26632 < fv i n ∧ fv i n < 26632) :
    Post (matvec_mul bk K out a v vc) (fun r => ∃ g : Nat → Nat → Int, VHolds r K 256 (fun i n => g i (π n)) ∧ ∀ i, i < K → ∀ n, n < 256 → (-32768 ≤ g i n ∧ g i n ≤ 32767) ∧
      (g i n : Zq) = 169 * ∑ j ∈ range K, MultiplyNTTs (fun n => (fa (K * i + j) n : Zq)) (fun n => (fv j n : Zq)) n) := by
  unfold matvec_mul
  refine wp_vloop (R' := fun i (p : Model.Poly) => ∃ g : Nat → Int, Holds p 256 (fun n => g (π n)) ∧ ∀ n, n < 256 → (-32768 ≤ g n ∧ g n ≤ 32767) ∧
      (g n : Zq) = 169 * ∑ j ∈ range K, MultiplyNTTs (fun n => (fa (K * i + j) n : Zq)) (fun n => (fv j n : Zq)) n) ho ?_ (fun _ h => chooseV h)
  intro i v' p hi hs hp hr
  have hle : K * i + K ≤ K * K := by rw [← Nat.mul_succ]; exact Nat.mul_le_mul_left K hi
  simp only [wp_bind, wp_vmod]
  refine Post.use (matRow_spec ha hi) fun row hrow => ?_
  refine ⟨p, hp, ?_⟩
  refine Post.use (polyvec_basemul_acc_spec hM hK hrow hv hc (fun j n hj hn => hfa _ n (by omega) hn) hfv hr) fun p' hp' => ⟨by omega, p', rfl, hp'⟩

/-- Matrix generation against the specification matrix. -/
theorem gen_matrix_sampleA {K fuel : Nat} (hK : K = 2 ∨ K = 3 ∨ K = 4) {seed : Buf UInt8} {so : Nat} {ρ : List UInt8} (tr : Bool) (hρ : ρ.length = 32) (hs : SegL seed so ρ) :
    PostF (sampleA K (168 * (3 + fuel)) ρ = none) (gen_matrix bk K fuel (newVec (K * K)) seed so tr) (fun a => ∃ A, sampleA K (168 * (3 + fuel)) ρ = some A ∧
      ∃ fa : Nat → Nat → Int, VHolds a (K * K) 256 (fun i n => fa i (π n)) ∧ (∀ i n, i < K * K → n < 256 → -3329 < fa i n ∧ fa i n < 3329) ∧
        ∀ i j n, i < K → j < K → (fa (K * i + j) n : Zq) = if tr then A j i n else A i j n) := by
  refine PostF.mono (PostF.monoF (gen_matrix_spec hM (tr := tr) (sq_cases hK) (VAll.new (K * K)) hρ (hs.toN hρ)) ?_) ?_
  · rintro ⟨i, hi, h⟩
    cases tr
    · exact sampleA_fail hi h
    · have hK0 : 0 < K := by omega
      have e : i = K * (i / K) + i % K := (Nat.div_add_mod i K).symm
      have hx : i / K < K := Nat.div_lt_of_lt_mul hi
      have hy : i % K < K := Nat.mod_lt _ hK0
      rw [e, seedAt_tr K ρ hx hy] at h
      exact sampleA_fail (mat_lt hy hx) h
  · rintro a ⟨ha, hl⟩
    have hl' : ∀ i, i < K * K → (smp (seedAt K ρ false i) (168 * (3 + fuel))).length = 256 := by
      intro i hi
      cases tr
      · exact hl i hi
      · have hK0 : 0 < K := by omega
        have e : i = K * (i / K) + i % K := (Nat.div_add_mod i K).symm
        have hx : i / K < K := Nat.div_lt_of_lt_mul hi
        have hy : i % K < K := Nat.mod_lt _ hK0
        have := hl (K * (i % K) + i / K) (mat_lt hy hx)
        rw [seedAt_tr K ρ hy hx] at this
        rw [e]; exact this
    refine ⟨_, sampleA_eq fun x hx y hy => ?_, fun i c => ((smp (seedAt K ρ tr i) (168 * (3 + fuel))).getD c 0 : Nat), ha, ?_, ?_⟩
    · have := hl' (K * x + y) (mat_lt hx hy)
      unfold seedAt at this
      rwa [(mat_idx hy).1, (mat_idx hy).2] at this
    · intro i n hi hn
      have := smp_getD_lt (seedAt K ρ tr i) (168 * (3 + fuel)) n
      beta_reduce
      omega
    · intro i j n hi hj
      beta_reduce
      cases tr
      · rw [seedAt_false K ρ hj]
        have h2 := hl' (K * i + j) (mat_lt hi hj)
        rw [seedAt_false K ρ hj] at h2
        rw [if_neg (by simp), SampleNTT_val h2]
        push_cast; rfl
      · rw [seedAt_tr K ρ hi hj, seedAt_false K ρ hi]
        have h2 := hl' (K * j + i) (mat_lt hj hi)
        rw [seedAt_false K ρ hi] at h2
        rw [if_pos rfl, SampleNTT_val h2]
        push_cast; rfl

theorem indcpa_keypair_spec {K fuel : Nat} (hK : K = 2 ∨ K = 3 ∨ K = 4) {pk sk coins : Buf UInt8} {d : List UInt8} (hd : d.length = 32) (hc : SegL coins 0 d)
    (hpk : K * 384 + 32 ≤ pk.size) (hsk : K * 384 ≤ sk.size) :
    PostF (kpkeKeyGen K (168 * (3 + fuel)) d = none) (indcpa_keypair_derand bk K fuel pk sk coins) (fun x => ∃ ek dk, kpkeKeyGen K (168 * (3 + fuel)) d = some (ek, dk) ∧
      ek.length = K * 384 + 32 ∧ dk.length = K * 384 ∧ WrittenL pk x.1 0 ek ∧ WrittenL sk x.2 0 dk) := by
  generalize hN : 168 * (3 + fuel) = N
  unfold indcpa_keypair_derand
  simp only [wp_bind, wp_wr]
  refine Post.use (memcpyL_spec hd (by simp) hc) fun c1 h1 => ⟨by rw [h1.1]; simp, ?_⟩
  have hcds : SegL (c1.setIfInBounds 32 (some (toU8 K))) 0 (d ++ [UInt8.ofNat K]) := by
    refine SegL.ofN (n := 33) (extKey_seg hd ?_) (by simp [hd])
    have := h1; unfold WrittenL at this; rwa [hd] at this
  refine Post.use (hash_g_spec hM (by simp [hd]) hcds (by omega) (by simp)) fun buf hb => ?_
  obtain ⟨hρ, hσ⟩ := G_seg hb.segL
  have lρ := G1_length (d ++ [UInt8.ofNat K])
  have lσ := G2_length (d ++ [UInt8.ofNat K])
  unfold kpkeKeyGen
  dsimp only
  generalize (G (d ++ [UInt8.ofNat K])).1 = ρ at *
  generalize (G (d ++ [UInt8.ofNat K])).2 = σ at *
  refine PostF.mono (PostF.monoF (gen_matrix_sampleA hM (fuel := fuel) hK false lρ hρ) ?_) ?_
  · rw [hN]; intro h; simp only [h]; rfl
  rw [hN]
  rintro a ⟨A, hA, fa, ha, hfa, hfaA⟩
  simp only [hA, Option.map_some]
  refine Post.use (keypairNoise_spec hM hK lσ (hσ.toN lσ) (VAll.new K) (VAll.new K) (VAll.new K)) fun x ⟨hx1, hx2, hx3⟩ => ?_
  have nb : ∀ o i c, -3329 < noiseV (η₁ K) σ o i c ∧ noiseV (η₁ K) σ o i c < 3329 := fun o i c => by
    have := noiseI_bound (η₁ K) σ (UInt8.ofNat (o + i)) c
    have e := η₁_cases K
    unfold noiseV; omega
  refine Post.use (polyvec_ntt_spec hM hx1 fun i c _ _ => nb _ _ _) fun s ⟨gs, hs, hgs⟩ => ?_
  refine Post.use (polyvec_ntt_spec hM hx2 fun i c _ _ => nb _ _ _) fun e ⟨ge, he, hge⟩ => ?_
  refine Post.use (polyvec_mulcache_spec hM (VAll.newCache K) hs fun i c hi hc => by have := (hgs i hi c hc).1; omega) fun sc hsc => ?_
  refine Post.use (matvec_mul_spec hM (by omega) hx3 ha hs hsc hfa fun i c hi hc => by have := (hgs i hi c hc).1; omega) fun p ⟨gp, hp, hgp⟩ => ?_
  refine Post.use (polyvec_tomont_spec hM hp fun i c hi hc => by have := (hgp i hi _ hc).1; omega) fun p1 ⟨gt, hp1, hgt⟩ => ?_
  have tb : ∀ i c, i < K → c < 256 → -3329 < gt i c ∧ gt i c < 3329 := fun i c hi hc => (hgt i hi c hc).1
  refine Post.use (polyvec_add_spec hp1 he fun i c hi hc => by have := tb i _ hi (hM.lt hc); have := (hge i hi _ (hM.lt hc)).1; omega) fun p2 hp2 => ?_
  refine Post.use (polyvec_reduce_spec hM hp2 fun i c hi hc => by have := tb i _ hi (hM.lt hc); have := (hge i hi _ (hM.lt hc)).1; omega) fun p3 hp3 => ?_
  refine Post.use (polyvec_reduce_spec hM hs fun i c hi hc => by have := (hgs i hi _ (hM.lt hc)).1; omega) fun s3 hs3 => ?_
  have hsv : ∀ i, i < K → ∀ c, c < 256 → (gs i c : Zq) = NTT (SamplePolyCBD (η₁ K) (PRF (η₁ K) σ i)) c := fun i hi c hc => by
    rw [(hgs i hi c hc).2]
    refine NTT_congr (fun n _ => ?_) c
    rw [noiseV_zq, Nat.zero_add]
  have htv : ∀ i, i < K → ∀ c, c < 256 → ((gt i c + ge i c : Int) : Zq) =
      (∑ j ∈ range K, MultiplyNTTs (A i j) (NTT (SamplePolyCBD (η₁ K) (PRF (η₁ K) σ j))) c) + NTT (SamplePolyCBD (η₁ K) (PRF (η₁ K) σ (K + i))) c := fun i hi c hc => by
    rw [Int.cast_add, (hgt i hi c hc).2, (hgp i hi c hc).2, (hge i hi c hc).2]
    refine add_eq ?_ ?_
    · rw [sum_MultiplyNTTs_congr (a' := A i) (b' := fun j => NTT (SamplePolyCBD (η₁ K) (PRF (η₁ K) σ j))) (fun j hj n hn => by rw [hfaA i j n hi hj]; simp) hsv hc]
      exact mont_back _
    · exact NTT_congr (fun n _ => noiseV_zq _ _ _ _ _) c
  refine Post.use (pack_sk_spec hM (f := fun i c => (NTT (SamplePolyCBD (η₁ K) (PRF (η₁ K) σ i)) c).val) (hs3.congr fun i c hi hc => canon_of hsv i _ hi (hM.lt hc)) (fun _ _ _ _ => rfl) hsk) fun sk' hsk' => ?_
  refine Post.use (pack_pk_spec hM (f := fun i c => ((∑ j ∈ range K, MultiplyNTTs (A i j) (NTT (SamplePolyCBD (η₁ K) (PRF (η₁ K) σ j))) c) + NTT (SamplePolyCBD (η₁ K) (PRF (η₁ K) σ (K + i))) c).val) (hp3.congr fun i c hi hc => canon_of htv i _ hi (hM.lt hc)) (fun _ _ _ _ => rfl) lρ hρ hpk) fun pk' hpk' => ?_
  simp only [wp_pure]
  exact ⟨_, _, rfl, by rw [List.length_append, encode12_length, lρ], encode12_length _ _, hpk', hsk'⟩

theorem indcpa_enc_spec {K fuel : Nat} (hK : K = 2 ∨ K = 3 ∨ K = 4) {c m pk coins : Buf UInt8} {mo po co : Nat} {ek ms r : List UInt8}
    (hm : ms.length = 32) (hms : SegL m mo ms) (hek : ek.length = K * 384 + 32) (hpk : SegL pk po ek) (hr : r.length = 32) (hco : SegL coins co r)
    (hc : MLKEM_CIPHERTEXTBYTES K ≤ c.size) :
    PostF (kpkeEncrypt K (168 * (3 + fuel)) ek ms r = none) (indcpa_enc bk K fuel c m mo pk po coins co) (fun c' => ∃ ct, kpkeEncrypt K (168 * (3 + fuel)) ek ms r = some ct ∧
      ct.length = MLKEM_CIPHERTEXTBYTES K ∧ WrittenL c c' 0 ct) := by
  generalize hN : 168 * (3 + fuel) = N
  unfold indcpa_enc
  simp only [wp_bind]
  refine Post.use (unpack_pk_spec hM hek hpk (VAll.new K) (by simp)) fun x ⟨hx1, hx2⟩ => ?_
  refine Post.use (poly_frommsg_spec (hms.toN hm) (by simp [newPoly])) fun k hk => ?_
  have lρ : ((ek.drop (384 * K)).take 32).length = 32 := by rw [List.length_take, List.length_drop]; omega
  unfold kpkeEncrypt
  dsimp only
  generalize (ek.drop (384 * K)).take 32 = ρ at *
  refine PostF.mono (PostF.monoF (gen_matrix_sampleA hM (fuel := fuel) hK true lρ hx2) ?_) ?_
  · rw [hN]; intro h; simp only [h]; rfl
  rw [hN]
  rintro a ⟨A, hA, fa, ha, hfa, hfaA⟩
  simp only [hA, Option.map_some]
  refine Post.use (encNoise_spec hM hK hr (hco.toN hr) (VAll.new K) (VAll.new K) (by simp [newPoly]) (VAll.new K)) fun y ⟨hy1, hy2, hy3, hy4⟩ => ?_
  have nb : ∀ η, η = 3 ∨ η = 2 → ∀ o i c, -4 < noiseV η r o i c ∧ noiseV η r o i c < 4 := fun η e o i c => by
    have := noiseI_bound η r (UInt8.ofNat (o + i)) c
    unfold noiseV; omega
  refine Post.use (polyvec_ntt_spec hM hy1 fun i c _ _ => by have := nb _ (η₁_cases K) 0 i c; omega) fun s ⟨gs, hs, hgs⟩ => ?_
  refine Post.use (polyvec_mulcache_spec hM (VAll.newCache K) hs fun i c hi hc => by have := (hgs i hi c hc).1; omega) fun sc hsc => ?_
  have sb : ∀ i c, i < K → c < 256 → -26632 < gs i c ∧ gs i c < 26632 := fun i c hi hc => by have := (hgs i hi c hc).1; omega
  refine Post.use (matvec_mul_spec hM (by omega) hy4 ha hs hsc hfa sb) fun b ⟨gb, hb, hgb⟩ => ?_
  refine Post.use (polyvec_basemul_acc_spec hM (by omega) hx1 hs hsc (fun i n _ _ => by
    have := ZMod.val_lt (decode12 ek i n); unfold canon; omega) sb (by simp [newPoly])) fun v ⟨gv, hv, hgv⟩ => ?_
  refine Post.use (polyvec_invntt_spec hM hb fun i c hi hc => by have := (hgb i hi c hc).1; omega) fun b1 ⟨gb1, hb1, hgb1⟩ => ?_
  refine Post.use (hM.intt hv fun c hc => by have := (hgv c hc).1; omega) fun v1 ⟨gv1, hv1, hgv1⟩ => ?_
  refine Post.use (polyvec_add_spec hb1 hy2 fun i c hi hc => by have := (hgb1 i hi c hc).1; have := nb 2 (.inr rfl) K i c; omega) fun b2 hb2 => ?_
  have e2 : ∀ c, -4 < noiseI 2 r (UInt8.ofNat (2 * K)) c ∧ noiseI 2 r (UInt8.ofNat (2 * K)) c < 4 := fun c => by
    have := noiseI_bound 2 r (UInt8.ofNat (2 * K)) c; omega
  refine Post.use (poly_add_spec hv1 hy3 fun c hc => by have := (hgv1 c hc).1; have := e2 c; omega) fun v2 hv2 => ?_
  have mb : ∀ c, decompNat 1 (decNum 1 (fun j => ms.getD j 0) c) < 3329 := fun c => decompNat_lt _ _ (by omega) (by omega) (decNum_lt _ _ _)
  refine Post.use (poly_add_spec hv2 hk fun c hc => by have := (hgv1 c hc).1; have := e2 c; have := mb c; omega) fun v3 hv3 => ?_
  refine Post.use (polyvec_reduce_spec hM hb2 fun i c hi hc => by have := (hgb1 i hi c hc).1; have := nb 2 (.inr rfl) K i c; omega) fun b3 hb3 => ?_
  refine Post.use (hM.reduce hv3 fun c hc => by have := (hgv1 c hc).1; have := e2 c; have := mb c; omega) fun v4 hv4 => ?_
  have hsv : ∀ i, i < K → ∀ c, c < 256 → (gs i c : Zq) = NTT (SamplePolyCBD (η₁ K) (PRF (η₁ K) r i)) c := fun i hi c hc => by
    rw [(hgs i hi c hc).2]
    refine NTT_congr (fun n _ => ?_) c
    rw [noiseV_zq, Nat.zero_add]
  have huv : ∀ i, i < K → ∀ c, c < 256 → ((gb1 i c + noiseV 2 r K i c : Int) : Zq) =
      NTTInv (fun c => ∑ j ∈ range K, MultiplyNTTs (A j i) (NTT (SamplePolyCBD (η₁ K) (PRF (η₁ K) r j))) c) c + SamplePolyCBD η₂ (PRF η₂ r (K + i)) c := fun i hi c hc => by
    rw [Int.cast_add, (hgb1 i hi c hc).2, noiseV_zq]
    refine add_eq (invScale_congr ?_ c) rfl
    intro n hn
    rw [(hgb i hi n hn).2]
    refine mul_eq ?_
    exact sum_MultiplyNTTs_congr (fun j hj n hn => by rw [hfaA i j n hi hj]; simp) hsv hn
  have hvv : ∀ c, c < 256 → ((gv1 c + noiseI 2 r (UInt8.ofNat (2 * K)) c + (decompNat 1 (decNum 1 (fun j => ms.getD j 0) c) : Nat) : Int) : Zq) =
      NTTInv (fun c => ∑ j ∈ range K, MultiplyNTTs (decode12 ek j) (NTT (SamplePolyCBD (η₁ K) (PRF (η₁ K) r j))) c) c + SamplePolyCBD η₂ (PRF η₂ r (2 * K)) c + Decompress 1 (ByteDecode 1 ms c) := fun c hc => by
    rw [Int.cast_add, Int.cast_add, (hgv1 c hc).2, noiseI_zq, Int.cast_natCast, frommsg_zq ms hc]
    refine add_eq (add_eq (invScale_congr ?_ c) rfl) rfl
    intro n hn
    rw [(hgv n hn).2]
    refine mul_eq ?_
    exact sum_MultiplyNTTs_congr (fun j hj n hn => by unfold canon; rw [Int.cast_natCast, ZMod.natCast_zmod_val]) hsv hn
  refine Post.use (pack_ct_spec (hb3.congr (canon_of huv)) (hv4.congr fun c hc => by rw [← val_eq_emod, hvv c hc]) hc) fun c' hc' => ?_
  refine ⟨_, rfl, ?_, hc'⟩
  rw [List.length_append, flatMap_length (fun i => ByteEncode_length _ _), ByteEncode_length]
  unfold MLKEM_CIPHERTEXTBYTES MLKEM_INDCPA_BYTES MLKEM_POLYVECCOMPRESSEDBYTES_DU; rw [du_bytes, dv_bytes]

theorem indcpa_dec_spec {K : Nat} (hK : K = 2 ∨ K = 3 ∨ K = 4) {m c sk : Buf UInt8} {ct dk : List UInt8} (hm : 32 ≤ m.size) (hct : ct.length = MLKEM_CIPHERTEXTBYTES K) (hc : SegL c 0 ct)
    (hdk : K * 384 ≤ dk.length) (hsk : SegL sk 0 dk) : Post (indcpa_dec bk K m c sk) (fun m' => WrittenL m m' 0 (kpkeDecrypt K dk ct)) := by
  rw [ctbytes_eq] at hct
  unfold indcpa_dec unpack_ciphertext
  simp only [wp_bind, wp_pure]
  refine Post.use (polyvec_decompress_du_spec (fun j hj => hc j (by omega)) (VAll.new K)) fun b hb => ?_
  have hco : MLKEM_POLYVECCOMPRESSEDBYTES_DU K = 0 + K * (32 * d_u K) := by unfold MLKEM_POLYVECCOMPRESSEDBYTES_DU; rw [du_bytes]; omega
  rw [hco]
  refine Post.use (poly_decompress_dv_spec (Seg.sub hc (K * (32 * d_u K)) (32 * d_v K) (by omega)) (by simp [newPoly])) fun v hv => ?_
  refine Post.use (unpack_sk_spec hM hdk hsk (VAll.new K)) fun s hs => ?_
  have ub : ∀ i c, decompNat (d_u K) (decNum (d_u K) (fun k => ct.getD (i * (32 * d_u K) + k) 0) c) < 3329 := fun i c => decompNat_du_lt K (decNum_lt _ _ _)
  have vb : ∀ c, decompNat (d_v K) (decNum (d_v K) (fun k => ct.getD (K * (32 * d_u K) + k) 0) c) < 3329 := fun c =>
    decompNat_lt _ _ (by rcases d_v_cases K with h | h <;> omega) (by rcases d_v_cases K with h | h <;> omega) (decNum_lt _ _ _)
  refine Post.use (polyvec_ntt_spec hM hb fun i c _ _ => by have := ub i c; beta_reduce; omega) fun b1 ⟨gb, hb1, hgb⟩ => ?_
  unfold polyvec_basemul_acc_montgomery
  simp only [wp_bind]
  have sb : ∀ i c, i < K → c < 256 → -26632 < gb i c ∧ gb i c < 26632 := fun i c hi hc => by have := (hgb i hi c hc).1; omega
  refine Post.use (polyvec_mulcache_spec hM (VAll.newCache K) hb1 fun i c hi hc => by have := sb i c hi hc; omega) fun bc hbc => ?_
  refine Post.use (polyvec_basemul_acc_spec hM (by omega) hs hb1 hbc (fun i n _ _ => by
    have := ZMod.val_lt (decode12 dk i n); unfold canon; omega) sb (by simp [newPoly])) fun t ⟨gt, ht, hgt⟩ => ?_
  refine Post.use (hM.intt ht fun c hc => by have := (hgt c hc).1; omega) fun t1 ⟨gt1, ht1, hgt1⟩ => ?_
  refine Post.use (poly_sub_spec hv ht1 fun c hc => by have := (hgt1 c hc).1; have := vb c; beta_reduce; omega) fun w hw => ?_
  refine Post.use (hM.reduce hw fun c hc => by have := (hgt1 c hc).1; have := vb c; beta_reduce; omega) fun w1 hw1 => ?_
  have hww : ∀ c, c < 256 → (((decompNat (d_v K) (decNum (d_v K) (fun k => ct.getD (K * (32 * d_u K) + k) 0) c) : Nat) - gt1 c : Int) : Zq) = decryptW K dk ct c := fun c hc => by
    unfold decryptW
    rw [Int.cast_sub, Int.cast_natCast, ctV_eq ct hc, (hgt1 c hc).2]
    refine sub_eq (invScale_congr ?_ c)
    intro n hn
    rw [(hgt n hn).2]
    refine mul_eq ?_
    refine sum_MultiplyNTTs_congr (fun j hj n hn => by unfold canon; rw [Int.cast_natCast, ZMod.natCast_zmod_val]) (fun j hj n hn => ?_) hn
    rw [(hgb j hj n hn).2]
    exact NTT_congr (fun k hk => by rw [ctU_eq ct j hk, Int.cast_natCast]) n
  refine Post.use (poly_tomsg_spec (f := fun c => (decryptW K dk ct c).val) (hw1.congr fun c hc => by rw [← hww c hc, val_eq_emod]) (fun c _ => ZMod.val_lt _) (by omega)) fun m' hm' => ?_
  refine WrittenL.ofN (n := 32) (hm'.congr fun j hj => ?_) (ByteEncode_length _ _)
  unfold kpkeDecrypt
  rw [ByteEncode_getD' _ _ (by omega)]
  exact encByte_congr (fun c _ => (Compress_eq _ _).symm) (by omega)


theorem check_pk_spec {K : Nat} {pk : Buf UInt8} {ek : List UInt8} (hek : ek.length = K * 384 + 32) (hpk : SegL pk 0 ek) :
    Post (check_pk bk K pk) (fun r => (r = 0 ∧ modulusCheck K ek) ∨ (r = -1 ∧ ¬ modulusCheck K ek)) := by
  have h := unpack_vec_spec hM (K := K) (by omega) hpk (VAll.new K)
  change PostF False _ _ at h
  simp only [wp_bind] at h
  unfold check_pk
  rw [polyvecbytes_eq]
  simp only [wp_bind, wp_branch, wp_pure]
  refine PostF.mono h fun r hr => PostF.mono hr fun r' hr' => ?_
  refine Post.use (polyvec_tobytes_spec hM (f := fun i c => (decode12 ek i c).val) hr' (fun i c _ _ => ZMod.val_lt _) (by rw [Buf.size_uninit]; omega)) fun b hb => ?_
  have hb' := encode12_written (f := fun i c => (decode12 ek i c).val) (v := decode12 ek) hb fun _ _ _ _ => rfl
  refine Post.use (memcmpL_spec (L := ek.take (384 * K)) (by rw [List.length_take]; omega) (encode12_length _ _) (hpk.take _ (by omega)) hb'.segL) fun d hd => ?_
  unfold modulusCheck
  constructor
  · intro h; right; exact ⟨trivial, fun e => (of_decide_eq_true h) (hd.2 e.symm)⟩
  · intro h
    have h := of_decide_eq_false h
    left; exact ⟨trivial, (hd.1 (not_not.1 h)).symm⟩

/-- Key generation. The outputs may lie in larger objects: only the documented bytes are written. -/
theorem keypair_derand_spec {K fuel : Nat} (hK : K = 2 ∨ K = 3 ∨ K = 4) {pk sk coins : Buf UInt8} {d z : List UInt8} (hd : d.length = 32) (hz : z.length = 32) (hc : SegL coins 0 (d ++ z))
    (hpk : K * 384 + 32 ≤ pk.size) (hsk : K * 768 + 96 ≤ sk.size) :
    PostF (KeyGen_internal K (168 * (3 + fuel)) d z = none) (crypto_kem_keypair_derand bk K fuel pk sk coins) (fun x => ∃ ek dk, KeyGen_internal K (168 * (3 + fuel)) d z = some (ek, dk) ∧
      ek.length = K * 384 + 32 ∧ dk.length = K * 768 + 96 ∧ x.1 = 0 ∧ WrittenL pk x.2.1 0 ek ∧ WrittenL sk x.2.2 0 dk) := by
  have hcd : SegL coins 0 d := by
    have := hc.take 32 (by simp [hd])
    rwa [List.take_left' hd] at this
  have hcz : SegL coins 32 z := by
    have := hc.sub 32 32 (by simp [hd, hz])
    rwa [List.drop_left' hd, List.take_of_length_le (by omega), Nat.zero_add] at this
  have hsk1 : K * 384 ≤ sk.size := by rw [Nat.mul_comm] at hsk ⊢; omega
  have hsk2 : K * 384 + (K * 384 + 32) ≤ sk.size := by rw [Nat.mul_comm] at hsk ⊢; omega
  unfold crypto_kem_keypair_derand KeyGen_internal
  simp only [wp_bind, wp_pure]
  refine PostF.mono (PostF.monoF (indcpa_keypair_spec hM (fuel := fuel) hK hd hcd hpk hsk1) ?_) ?_
  · intro h; rw [h, Option.map_none]
  rintro x ⟨ek, dk, he, lek, ldk, w1, w2⟩
  simp only [he, Option.map_some]
  refine Post.use (memcpyL_spec (n := MLKEM_PUBLICKEYBYTES K) lek (w2.1.symm ▸ hsk2) w1.segL) fun s1 h1 => ?_
  refine Post.use (hash_h_spec hM (n := MLKEM_PUBLICKEYBYTES K) lek w1.segL (by rw [pkbytes_eq]; omega) (by rw [h1.1, w2.1, skbytes_eq]; omega)) fun s2 h2 => ?_
  refine Post.use (memcpyL_spec hz (by rw [h2.1, h1.1, w2.1, skbytes_eq]; omega) hcz) fun s3 h3 => ?_
  have hH := H_length ek
  refine ⟨_, _, rfl, lek, ?_, trivial, w1, ?_⟩
  · simp only [List.length_append, ldk, lek, hH, hz]; omega
  · refine ((w2.append h1 ?_).append h2 ?_).append h3 ?_ <;> simp only [List.length_append, ldk, lek, hH, iskbytes_eq, skbytes_eq] <;> omega

/-- Encapsulation. -/
theorem enc_derand_spec {K fuel : Nat} (hK : K = 2 ∨ K = 3 ∨ K = 4) {ct ss pk coins : Buf UInt8} {ek m : List UInt8} (hek : ek.length = K * 384 + 32) (hpk : SegL pk 0 ek)
    (hm : m.length = 32) (hc : SegL coins 0 m) (hct : MLKEM_CIPHERTEXTBYTES K ≤ ct.size) (hss : 32 ≤ ss.size) :
    PostF (modulusCheck K ek ∧ Encaps_internal K (168 * (3 + fuel)) ek m = none) (crypto_kem_enc_derand bk K fuel ct ss pk coins) (fun x =>
      (modulusCheck K ek ∧ ∃ k c, Encaps_internal K (168 * (3 + fuel)) ek m = some (k, c) ∧ k.length = 32 ∧ c.length = MLKEM_CIPHERTEXTBYTES K ∧
        x.1 = 0 ∧ WrittenL ct x.2.1 0 c ∧ WrittenL ss x.2.2 0 k) ∨ (¬ modulusCheck K ek ∧ x = (-1, ct, ss))) := by
  unfold crypto_kem_enc_derand Encaps_internal
  simp only [wp_bind, wp_branch, wp_pure]
  refine Post.use (check_pk_spec hM hek hpk) fun r hr => ?_
  rcases hr with ⟨rfl, hmod⟩ | ⟨rfl, hmod⟩
  · refine ⟨fun h => absurd h (by decide), fun _ => ?_⟩
    refine Post.use (memcpyL_spec hm (by simp) hc) fun b1 h1 => ?_
    refine Post.use (hash_h_spec hM (by rw [hek, pkbytes_eq]) hpk (by rw [pkbytes_eq]; omega) (by rw [h1.1]; simp)) fun b2 h2 => ?_
    have hH := H_length ek
    have hb := WrittenL.append h1 h2 (by rw [hm])
    refine Post.use (hash_g_spec hM (M := m ++ H ek) (by rw [List.length_append, hm, hH]) hb.segL (by omega) (by simp)) fun kr hkr => ?_
    obtain ⟨hk1, hk2⟩ := G_seg hkr.segL
    have l1 := G1_length (m ++ H ek)
    have l2 := G2_length (m ++ H ek)
    have hms : SegL b2 0 m := by
      have := hb.segL.take 32 (by simp [hm])
      rwa [List.take_left' hm] at this
    refine PostF.mono (PostF.monoF (indcpa_enc_spec hM (fuel := fuel) hK hm hms hek hpk l2 hk2 hct) ?_) ?_
    · intro h; rw [h]; exact ⟨hmod, rfl⟩
    · rintro c ⟨c', he, lc, hcw⟩
      refine Post.use (memcpyL_spec l1 (by omega) hk1) fun s hs => ?_
      rw [he]
      exact .inl ⟨hmod, _, _, rfl, l1, lc, trivial, hcw, hs⟩
  · exact ⟨fun _ => .inr ⟨hmod, trivial⟩, fun h => absurd h (by decide)⟩

/-- Decapsulation. -/
theorem dec_spec {K fuel : Nat} (hK : K = 2 ∨ K = 3 ∨ K = 4) {ss ct sk : Buf UInt8} {c dk : List UInt8} (hc : c.length = MLKEM_CIPHERTEXTBYTES K) (hct : SegL ct 0 c)
    (hdk : dk.length = K * 768 + 96) (hsk : SegL sk 0 dk) (hss : 32 ≤ ss.size) :
    PostF (hashCheck K dk ∧ Decaps_internal K (168 * (3 + fuel)) dk c = none) (crypto_kem_dec bk K fuel ss ct sk) (fun x =>
      (hashCheck K dk ∧ ∃ k, Decaps_internal K (168 * (3 + fuel)) dk c = some k ∧ k.length = 32 ∧ x.1 = 0 ∧ WrittenL ss x.2 0 k) ∨ (¬ hashCheck K dk ∧ x = (-1, ss))) := by
  unfold crypto_kem_dec Decaps_internal
  dsimp only
  simp only [wp_bind, wp_branch, wp_pure]
  refine Post.use (check_sk_spec hM hK hdk hsk) fun r hr => ?_
  rcases hr with ⟨rfl, hmod⟩ | ⟨rfl, hmod⟩
  · refine ⟨fun h => absurd h (by decide), fun _ => ?_⟩
    refine Post.use (indcpa_dec_spec hM hK (by simp) hc hct (dk := dk.take (384 * K)) (by rw [List.length_take]; omega) (hsk.take _ (by omega))) fun b1 h1 => ?_
    generalize hm' : kpkeDecrypt K (dk.take (384 * K)) c = m'
    have hm : m'.length = 32 := by rw [← hm']; exact ByteEncode_length _ _
    rw [hm'] at h1
    refine Post.use (memcpyL_spec (dkH_length hdk) (by rw [h1.1]; simp) (dkH_seg hdk hsk)) fun b2 h2 => ?_
    have hb := WrittenL.append h1 h2 (by rw [hm])
    refine Post.use (hash_g_spec hM (M := m' ++ dkH K dk) (by rw [List.length_append, hm, dkH_length hdk]) hb.segL (by omega) (by simp)) fun kr hkr => ?_
    obtain ⟨hk1, hk2⟩ := G_seg hkr.segL
    have l1 := G1_length (m' ++ dkH K dk)
    have l2 := G2_length (m' ++ dkH K dk)
    have hms : SegL b2 0 m' := by
      have := hb.segL.take 32 (by simp [hm])
      rwa [List.take_left' hm] at this
    have hcb : MLKEM_CIPHERTEXTBYTES K ≤ 2000 := by rcases hK with rfl | rfl | rfl <;> decide
    refine PostF.mono (PostF.monoF (indcpa_enc_spec hM (fuel := fuel) (ms := m') hK hm hms (dkEk_length hdk) (dkEk_seg hdk hsk) l2 hk2 (by simp)) ?_) ?_
    · intro h; exact ⟨hmod, by unfold dkEk dkH at h; rw [h]; rfl⟩
    · rintro cmp ⟨c', he, lc, hcw⟩
      refine Post.use (ct_memcmp_spec (by omega) (hct.toN hc) (hcw.segL.toN lc)) fun f hf => ?_
      refine Post.use (rkprf_spec hM (dkZ_length hdk) hc (by omega) ((dkZ_seg hdk hsk).toN (dkZ_length hdk)) hct hss) fun s1 hs1 => ?_
      refine Post.use (ct_cmov_zero_spec f hs1.seg (hk1.toN l1)) fun s2 hs2 => ?_
      have he' : kpkeEncrypt K (168 * (3 + fuel)) (dkEk K dk) m' (G (m' ++ dkH K dk)).2 = some c' := he
      unfold dkEk dkH at he'
      rw [he']
      left
      rw [Option.map_some]
      refine ⟨hmod, _, rfl, by beta_reduce; split <;> [exact J_length _; exact l1], trivial, ?_⟩
      have iff := list_eq_iff hc lc
      have key : ∀ L : List UInt8, L.length = 32 → (∀ i, i < 32 → (if f = 0 then (G (m' ++ dkH K dk)).1.getD i 0 else (J (dkZ K dk ++ c)).getD i 0) = L.getD i 0) → WrittenL ss s2 0 L := by
        intro L hL h
        refine WrittenL.ofN (n := 32) ⟨hs2.1.trans hs1.1, fun i hi => ?_, fun j hj => ?_⟩ hL
        · rw [hs2.2.1 i hi]; exact congrArg (fun v => some (some v)) (h i hi)
        · rw [hs2.2.2 j hj, hs1.2.2 j hj]
      by_cases e : c = c'
      · rw [if_neg (not_not.2 e)]
        have : f = 0 := by rw [hf, if_pos (iff.2 e)]
        exact key _ l1 fun i _ => by rw [if_pos this]
      · rw [if_pos e]
        have : f ≠ 0 := by rw [hf, if_neg (fun h => e (iff.1 h))]; decide
        exact key _ (J_length _) fun i _ => by rw [if_neg this]
  · exact ⟨fun _ => .inr ⟨hmod, trivial⟩, fun h => absurd h (by decide)⟩


end Verif.Native

import Verif.Proof.ByteList
import Verif.Proof.GenMatrix
import Verif.Proof.Basemul
import Verif.Proof.InvNtt
/-! # The public-key encryption scheme refines K-PKE -/
namespace Verif
open Model Spec Finset

attribute [local irreducible] keccakF partialK finK blocksK sqByte SHAKE256 SHA3_256 SHA3_512 SHAKE128

theorem polyvecbytes_eq (K : Nat) : MLKEM_POLYVECBYTES K = K * 384 := rfl

theorem pack_pk_spec {K : Nat} {a : PolyVec} {f : Nat → Nat → Nat} {v : Nat → Spec.Poly} {r seed : Buf UInt8} {so : Nat} {ρ : List UInt8} (ha : VHolds a K 256 (fun i c => (f i c : Int)))
    (hv : ∀ i c, i < K → c < 256 → f i c = (v i c).val) (hρ : ρ.length = 32) (hs : SegL seed so ρ) (hr : K * 384 + 32 ≤ r.size) :
    Post (pack_pk K r a seed so) (fun r' => WrittenL r r' 0 (encode12 K v ++ ρ)) := by
  have hf : ∀ i c, i < K → c < 256 → f i c < 3329 := fun i c hi hc => by rw [hv i c hi hc]; exact ZMod.val_lt _
  unfold pack_pk
  simp only [wp_bind]
  refine POLYVEC_BOUND_wp ha (fun i c hi hc => by have := hf i c hi hc; omega) ?_
  refine Post.use (polyvec_tobytes_spec ha hf (by omega)) fun r1 h1 => ?_
  refine Post.use (memcpyL_spec hρ (by rw [polyvecbytes_eq, h1.1]; omega) hs) fun r2 h2 => ?_
  exact (encode12_written h1 hv).append h2 (by rw [encode12_length, polyvecbytes_eq]; omega)

theorem pack_sk_spec {K : Nat} {a : PolyVec} {f : Nat → Nat → Nat} {v : Nat → Spec.Poly} {r : Buf UInt8} (ha : VHolds a K 256 (fun i c => (f i c : Int)))
    (hv : ∀ i c, i < K → c < 256 → f i c = (v i c).val) (hr : K * 384 ≤ r.size) :
    Post (pack_sk K r a) (fun r' => WrittenL r r' 0 (encode12 K v)) := by
  have hf : ∀ i c, i < K → c < 256 → f i c < 3329 := fun i c hi hc => by rw [hv i c hi hc]; exact ZMod.val_lt _
  unfold pack_sk
  simp only [wp_bind]
  refine POLYVEC_BOUND_wp ha (fun i c hi hc => by have := hf i c hi hc; omega) ?_
  exact Post.use (polyvec_tobytes_spec ha hf (by omega)) fun r1 h1 => encode12_written h1 hv

/-- Canonical representatives of `v`. -/
abbrev canon (v : Nat → Spec.Poly) : Nat → Nat → Int := fun i c => ((v i c).val : Int)

theorem unpack_vec_spec {K : Nat} {a : PolyVec} {b : Buf UInt8} {o : Nat} {B : List UInt8} (hB : K * 384 ≤ B.length) (hs : SegL b o B) (ha : VAll a K (fun _ p => p.size = 256)) :
    Post (do let p ← polyvec_frombytes K a b o; polyvec_reduce K p) (fun r => VHolds r K 256 (canon (decode12 B))) := by
  simp only [wp_bind]
  refine Post.use (polyvec_frombytes_spec (fun j hj => hs j (by omega)) ha) fun r h => ?_
  refine Post.use (polyvec_reduce_spec h fun i c hi hc => ?_) fun r' h' => h'.congr fun i c hi hc => ?_
  · have := decNum_lt 12 (fun k => B.getD (i * 384 + k) 0) c
    omega
  · unfold canon
    rw [decode12_eq B i hc, ← val_eq_emod]
    push_cast; rfl

theorem unpack_pk_spec {K : Nat} {a : PolyVec} {seed b : Buf UInt8} {o : Nat} {B : List UInt8} (hB : B.length = K * 384 + 32) (hs : SegL b o B) (ha : VAll a K (fun _ p => p.size = 256)) (hse : seed.size = 32) :
    Post (unpack_pk K a seed b o) (fun r => VHolds r.1 K 256 (canon (decode12 B)) ∧ SegL r.2 0 ((B.drop (384 * K)).take 32)) := by
  have h := unpack_vec_spec (by omega) hs ha
  change PostF False _ _ at h
  simp only [wp_bind] at h
  unfold unpack_pk
  simp only [wp_bind, wp_pure]
  refine PostF.mono h fun r hr => ?_
  have hseg : SegL b (o + MLKEM_POLYVECBYTES K) ((B.drop (384 * K)).take 32) := by
    rw [polyvecbytes_eq, Nat.mul_comm]
    exact hs.sub (384 * K) 32 (by omega)
  refine Post.use (memcpyL_spec (by rw [List.length_take, List.length_drop]; omega) (by omega) hseg) fun s2 h2 => ?_
  exact PostF.mono hr fun r' hr' => ⟨hr', h2.segL⟩

theorem unpack_sk_spec {K : Nat} {a : PolyVec} {b : Buf UInt8} {B : List UInt8} (hB : K * 384 ≤ B.length) (hs : SegL b 0 B) (ha : VAll a K (fun _ p => p.size = 256)) :
    Post (unpack_sk K a b) (fun r => VHolds r K 256 (canon (decode12 B))) := unpack_vec_spec hB hs ha

/-- Matrix-vector product. -/
theorem matvec_mul_spec {K : Nat} (hK : 1 ≤ K ∧ K ≤ 4) {out a v vc : PolyVec} {fa fv : Nat → Nat → Int} (ho : VAll out K (fun _ p => p.size = 256))
    (ha : VHolds a (K * K) 256 fa) (hv : VHolds v K 256 fv) (hc : VHolds vc K 128 (fun i => mc (fv i)))
    (hfa : ∀ i n, i < K * K → n < 256 → -3329 < fa i n ∧ fa i n < 3329) (hfv : ∀ i n, i < K → n < 256 → -26632 < fv i n ∧ fv i n < 26632) :
    Post (matvec_mul K out a v vc) (fun r => ∃ g, VHolds r K 256 g ∧ ∀ i, i < K → ∀ n, n < 256 → (-19968 ≤ g i n ∧ g i n ≤ 19968) ∧
      (g i n : Zq) = 169 * ∑ j ∈ range K, MultiplyNTTs (fun n => (fa (K * i + j) n : Zq)) (fun n => (fv j n : Zq)) n) := by
  unfold matvec_mul
  refine wp_vloop (R' := fun i (p : Model.Poly) => ∃ g : Nat → Int, Holds p 256 g ∧ ∀ n, n < 256 → (-19968 ≤ g n ∧ g n ≤ 19968) ∧
      (g n : Zq) = 169 * ∑ j ∈ range K, MultiplyNTTs (fun n => (fa (K * i + j) n : Zq)) (fun n => (fv j n : Zq)) n) ho ?_ (fun _ h => h.choose)
  intro i v' p hi hs hp hr
  have hle : K * i + K ≤ K * K := by rw [← Nat.mul_succ]; exact Nat.mul_le_mul_left K hi
  simp only [wp_bind, wp_vmod]
  refine Post.use (matRow_spec ha hi) fun row hrow => ?_
  refine ⟨p, hp, ?_⟩
  refine Post.use (polyvec_basemul_acc_spec hK hrow hv hc (fun j n hj hn => hfa _ n (by omega) hn) hfv hr) fun p' hp' => ⟨by omega, p', rfl, hp'⟩

theorem c2285 : (169 : Zq) * 65536 = 1 := by
  have := zq_cast_eq (a := 169 * 65536) (b := 1) (by norm_num)
  push_cast at this; exact this
theorem cmont : (1353 : Zq) * 169 * 169 = 1 := by
  have := zq_cast_eq (a := 1353 * 169 * 169) (b := 1) (by norm_num)
  push_cast at this; exact this

theorem add_eq {a b a' b' : Zq} (h : a = a') (h' : b = b') : a + b = a' + b' := by rw [h, h']
theorem sub_eq {a b b' : Zq} (h' : b = b') : a - b = a - b' := by rw [h']
theorem mul_eq {t b b' : Zq} (h' : b = b') : t * b = t * b' := by rw [h']
theorem mont_cancel (S : Zq) : 169 * S * ((1353 : Int) : Zq) * 169 = S := by
  have h := cmont
  have : ((1353 : Int) : Zq) = 1353 := by push_cast; rfl
  rw [this]
  generalize (1353 : Zq) = a at *
  generalize (169 : Zq) = b at *
  calc b * S * a * b = (a * b * b) * S := by ring
    _ = S := by rw [h, one_mul]

theorem invScale {a b : Zq} (hb : b * a = 1) (g : Spec.Poly) (n : Nat) : b * NTTInv (fun n => a * g n) n = NTTInv g n := by
  rw [NTTInv_smul, ← mul_assoc, hb, one_mul]

theorem invScale_congr {f g : Spec.Poly} (h : ∀ n, n < 256 → f n = 169 * g n) (n : Nat) : 65536 * NTTInv f n = NTTInv g n := by
  rw [NTTInv_congr h]
  exact invScale (by rw [mul_comm]; exact c2285) g n

theorem mat_idx {K i j : Nat} (hj : j < K) : (K * i + j) / K = i ∧ (K * i + j) % K = j := by
  constructor
  · rw [Nat.mul_add_div (by omega), Nat.div_eq_of_lt hj]; omega
  · rw [Nat.mul_add_mod, Nat.mod_eq_of_lt hj]

theorem sq_cases {K : Nat} (hK : K = 2 ∨ K = 3 ∨ K = 4) : K * K % 4 ≤ 1 := by rcases hK with rfl | rfl | rfl <;> decide

theorem sampleA_fail {K N i : Nat} {ρ : List UInt8} (hi : i < K * K) (h : (smp (seedAt K ρ false i) N).length ≠ 256) : sampleA K N ρ = none := by
  have hK : 0 < K := by rcases Nat.eq_zero_or_pos K with h | h <;> [(subst h; omega); exact h]
  exact sampleA_none (Nat.div_lt_of_lt_mul hi) (Nat.mod_lt _ hK) h

theorem seedAt_tr (K : Nat) (ρ : List UInt8) {x y : Nat} (hx : x < K) (hy : y < K) : seedAt K ρ true (K * x + y) = seedAt K ρ false (K * y + x) := by
  unfold seedAt seedXY
  rw [(mat_idx hy).1, (mat_idx hy).2, (mat_idx hx).1, (mat_idx hx).2]
  simp

theorem seedAt_false (K : Nat) (ρ : List UInt8) {x y : Nat} (hy : y < K) : seedAt K ρ false (K * x + y) = ρ ++ [UInt8.ofNat y, UInt8.ofNat x] := by
  unfold seedAt seedXY
  rw [(mat_idx hy).1, (mat_idx hy).2]; simp

theorem mat_lt {K x y : Nat} (hx : x < K) (hy : y < K) : K * x + y < K * K := by
  have : K * x + K ≤ K * K := by rw [← Nat.mul_succ]; exact Nat.mul_le_mul_left K hx
  omega

/-- Matrix generation against the specification matrix. -/
theorem gen_matrix_sampleA {K fuel : Nat} (hK : K = 2 ∨ K = 3 ∨ K = 4) {seed : Buf UInt8} {so : Nat} {ρ : List UInt8} (tr : Bool) (hρ : ρ.length = 32) (hs : SegL seed so ρ) :
    PostF (sampleA K (168 * (3 + fuel)) ρ = none) (gen_matrix K fuel (newVec (K * K)) seed so tr) (fun a => ∃ A, sampleA K (168 * (3 + fuel)) ρ = some A ∧
      ∃ fa : Nat → Nat → Int, VHolds a (K * K) 256 fa ∧ (∀ i n, i < K * K → n < 256 → -3329 < fa i n ∧ fa i n < 3329) ∧
        ∀ i j n, i < K → j < K → (fa (K * i + j) n : Zq) = if tr then A j i n else A i j n) := by
  refine PostF.mono (PostF.monoF (gen_matrix_spec (tr := tr) (sq_cases hK) (VAll.new (K * K)) hρ (hs.toN hρ)) ?_) ?_
  · rintro ⟨i, hi, h⟩
    cases tr
    · exact sampleA_fail hi h
    · have hK0 : 0 < K := by omega
      have e : i = K * (i / K) + i % K := (Nat.div_add_mod i K).symm
      have hx : i / K < K := Nat.div_lt_of_lt_mul hi
      have hy : i % K < K := Nat.mod_lt _ hK0
      rw [e, seedAt_tr K ρ hx hy] at h
      exact sampleA_fail (mat_lt hy hx) h
  · rintro a ⟨ha, hl⟩
    have hl' : ∀ i, i < K * K → (smp (seedAt K ρ false i) (168 * (3 + fuel))).length = 256 := by
      intro i hi
      cases tr
      · exact hl i hi
      · have hK0 : 0 < K := by omega
        have e : i = K * (i / K) + i % K := (Nat.div_add_mod i K).symm
        have hx : i / K < K := Nat.div_lt_of_lt_mul hi
        have hy : i % K < K := Nat.mod_lt _ hK0
        have := hl (K * (i % K) + i / K) (mat_lt hy hx)
        rw [seedAt_tr K ρ hy hx] at this
        rw [e]; exact this
    refine ⟨_, sampleA_eq fun x hx y hy => ?_, _, ha, ?_, ?_⟩
    · have := hl' (K * x + y) (mat_lt hx hy)
      unfold seedAt at this
      rwa [(mat_idx hy).1, (mat_idx hy).2] at this
    · intro i n hi hn
      have := smp_getD_lt (seedAt K ρ tr i) (168 * (3 + fuel)) n
      beta_reduce
      omega
    · intro i j n hi hj
      beta_reduce
      cases tr
      · rw [seedAt_false K ρ hj]
        have h2 := hl' (K * i + j) (mat_lt hi hj)
        rw [seedAt_false K ρ hj] at h2
        rw [if_neg (by simp), SampleNTT_val h2]
        push_cast; rfl
      · rw [seedAt_tr K ρ hi hj, seedAt_false K ρ hi]
        have h2 := hl' (K * j + i) (mat_lt hj hi)
        rw [seedAt_false K ρ hi] at h2
        rw [if_pos rfl, SampleNTT_val h2]
        push_cast; rfl

theorem canon_of {g : Nat → Nat → Int} {v : Nat → Spec.Poly} {K : Nat} (h : ∀ i, i < K → ∀ c, c < 256 → (g i c : Zq) = v i c) :
    ∀ i c, i < K → c < 256 → g i c % 3329 = canon v i c := fun i c hi hc => by
  unfold canon; rw [← h i hi c hc, val_eq_emod]

theorem sum_MultiplyNTTs_congr {K : Nat} {a a' b b' : Nat → Spec.Poly} (ha : ∀ j, j < K → ∀ n, n < 256 → a j n = a' j n) (hb : ∀ j, j < K → ∀ n, n < 256 → b j n = b' j n) {n : Nat} (hn : n < 256) :
    ∑ j ∈ range K, MultiplyNTTs (a j) (b j) n = ∑ j ∈ range K, MultiplyNTTs (a' j) (b' j) n :=
  sum_congr rfl fun j hj => MultiplyNTTs_congr (ha j (mem_range.1 hj)) (hb j (mem_range.1 hj)) hn

theorem indcpa_keypair_spec {K fuel : Nat} (hK : K = 2 ∨ K = 3 ∨ K = 4) {pk sk coins : Buf UInt8} {d : List UInt8} (hd : d.length = 32) (hc : SegL coins 0 d)
    (hpk : K * 384 + 32 ≤ pk.size) (hsk : K * 384 ≤ sk.size) :
    PostF (kpkeKeyGen K (168 * (3 + fuel)) d = none) (indcpa_keypair_derand K fuel pk sk coins) (fun x => ∃ ek dk, kpkeKeyGen K (168 * (3 + fuel)) d = some (ek, dk) ∧
      ek.length = K * 384 + 32 ∧ dk.length = K * 384 ∧ WrittenL pk x.1 0 ek ∧ WrittenL sk x.2 0 dk) := by
  generalize hN : 168 * (3 + fuel) = N
  unfold indcpa_keypair_derand
  simp only [wp_bind, wp_wr]
  refine Post.use (memcpyL_spec hd (by simp) hc) fun c1 h1 => ⟨by rw [h1.1]; simp, ?_⟩
  have hcds : SegL (c1.setIfInBounds 32 (some (toU8 K))) 0 (d ++ [UInt8.ofNat K]) := by
    refine SegL.ofN (n := 33) (extKey_seg hd ?_) (by simp [hd])
    have := h1; unfold WrittenL at this; rwa [hd] at this
  refine Post.use (hash_g_spec (by simp [hd]) hcds (by omega) (by simp)) fun buf hb => ?_
  obtain ⟨hρ, hσ⟩ := G_seg hb.segL
  have lρ := G1_length (d ++ [UInt8.ofNat K])
  have lσ := G2_length (d ++ [UInt8.ofNat K])
  unfold kpkeKeyGen
  dsimp only
  generalize (G (d ++ [UInt8.ofNat K])).1 = ρ at *
  generalize (G (d ++ [UInt8.ofNat K])).2 = σ at *
  refine PostF.mono (PostF.monoF (gen_matrix_sampleA (fuel := fuel) hK false lρ hρ) ?_) ?_
  · rw [hN]; intro h; simp only [h]; rfl
  rw [hN]
  rintro a ⟨A, hA, fa, ha, hfa, hfaA⟩
  simp only [hA, Option.map_some]
  refine Post.use (keypairNoise_spec hK lσ (hσ.toN lσ) (VAll.new K) (VAll.new K) (VAll.new K)) fun x ⟨hx1, hx2, hx3⟩ => ?_
  have nb : ∀ o i c, -3329 < noiseV (η₁ K) σ o i c ∧ noiseV (η₁ K) σ o i c < 3329 := fun o i c => by
    have := noiseI_bound (η₁ K) σ (UInt8.ofNat (o + i)) c
    have e := η₁_cases K
    unfold noiseV; omega
  refine Post.use (polyvec_ntt_spec hx1 fun i c _ _ => nb _ _ _) fun s ⟨gs, hs, hgs⟩ => ?_
  refine Post.use (polyvec_ntt_spec hx2 fun i c _ _ => nb _ _ _) fun e ⟨ge, he, hge⟩ => ?_
  refine Post.use (polyvec_mulcache_spec (VAll.newCache K) hs fun i c hi hc => by have := (hgs i hi c hc).1; omega) fun sc hsc => ?_
  refine Post.use (matvec_mul_spec (by omega) hx3 ha hs hsc hfa fun i c hi hc => by have := (hgs i hi c hc).1; omega) fun p ⟨gp, hp, hgp⟩ => ?_
  refine Post.use (polyvec_tomont_spec hp fun i c hi hc => by have := (hgp i hi c hc).1; omega) fun p1 hp1 => ?_
  have tb : ∀ i c, i < K → c < 256 → -2100 ≤ montR (gp i c * 1353) ∧ montR (gp i c * 1353) ≤ 2100 := fun i c hi hc => by
    have h1 := (hgp i hi c hc).1
    have := montR_bound (x := gp i c * 1353) (B := 19968 * 1353) (by omega)
    omega
  refine Post.use (polyvec_add_spec hp1 he fun i c hi hc => by have := tb i c hi hc; have := (hge i hi c hc).1; omega) fun p2 hp2 => ?_
  refine Post.use (polyvec_reduce_spec hp2 fun i c hi hc => by have := tb i c hi hc; have := (hge i hi c hc).1; omega) fun p3 hp3 => ?_
  refine Post.use (polyvec_reduce_spec hs fun i c hi hc => by have := (hgs i hi c hc).1; omega) fun s3 hs3 => ?_
  have hsv : ∀ i, i < K → ∀ c, c < 256 → (gs i c : Zq) = NTT (SamplePolyCBD (η₁ K) (PRF (η₁ K) σ i)) c := fun i hi c hc => by
    rw [(hgs i hi c hc).2]
    refine NTT_congr (fun n _ => ?_) c
    rw [noiseV_zq, Nat.zero_add]
  have htv : ∀ i, i < K → ∀ c, c < 256 → ((montR (gp i c * 1353) + ge i c : Int) : Zq) =
      (∑ j ∈ range K, MultiplyNTTs (A i j) (NTT (SamplePolyCBD (η₁ K) (PRF (η₁ K) σ j))) c) + NTT (SamplePolyCBD (η₁ K) (PRF (η₁ K) σ (K + i))) c := fun i hi c hc => by
    rw [Int.cast_add, montR_zq, Int.cast_mul, (hgp i hi c hc).2, (hge i hi c hc).2]
    refine add_eq ?_ ?_
    · rw [sum_MultiplyNTTs_congr (a' := A i) (b' := fun j => NTT (SamplePolyCBD (η₁ K) (PRF (η₁ K) σ j))) (fun j hj n hn => by rw [hfaA i j n hi hj]; simp) hsv hc]
      exact mont_cancel _
    · exact NTT_congr (fun n _ => noiseV_zq _ _ _ _ _) c
  refine Post.use (pack_sk_spec (hs3.congr (canon_of hsv)) (fun _ _ _ _ => rfl) hsk) fun sk' hsk' => ?_
  refine Post.use (pack_pk_spec (hp3.congr (canon_of htv)) (fun _ _ _ _ => rfl) lρ hρ hpk) fun pk' hpk' => ?_
  simp only [wp_pure]
  exact ⟨_, _, rfl, by rw [List.length_append, encode12_length, lρ], encode12_length _ _, hpk', hsk'⟩

/-! ## Encryption -/

theorem pack_ct_spec {K : Nat} {b : PolyVec} {v : Model.Poly} {u : Nat → Spec.Poly} {w : Spec.Poly} {r : Buf UInt8} (hb : VHolds b K 256 (canon u)) (hv : Holds v 256 (fun c => ((w c).val : Int)))
    (hr : MLKEM_CIPHERTEXTBYTES K ≤ r.size) :
    Post (pack_ciphertext K r b v) (fun r' => WrittenL r r' 0 (((List.range K).flatMap fun i => ByteEncode (d_u K) fun c => Compress (d_u K) (u i c)) ++ ByteEncode (d_v K) fun c => Compress (d_v K) (w c))) := by
  have hlen : MLKEM_CIPHERTEXTBYTES K = K * (32 * d_u K) + 32 * d_v K := by
    unfold MLKEM_CIPHERTEXTBYTES MLKEM_INDCPA_BYTES MLKEM_POLYVECCOMPRESSEDBYTES_DU; rw [du_bytes, dv_bytes]
  have hdu : 0 < d_u K := by rcases d_u_cases K with h | h <;> omega
  unfold pack_ciphertext
  simp only [wp_bind]
  refine Post.use (polyvec_compress_du_spec (f := fun i c => (u i c).val) hb (fun i c _ _ => ZMod.val_lt _) (by omega)) fun r1 h1 => ?_
  have h1' := written_blocks (F := fun i c => Compress (d_u K) (u i c)) (f := fun i c => compNat (d_u K) (u i c).val) hdu h1 fun i c _ _ => (Compress_eq _ _).symm
  have hl1 := flatMap_length (k := K) fun i => ByteEncode_length (d_u K) (fun c => Compress (d_u K) (u i c))
  refine Post.use (poly_compress_dv_spec (f := fun c => (w c).val) hv (fun c _ => ZMod.val_lt _) (by
    rw [h1.1]; unfold MLKEM_POLYVECCOMPRESSEDBYTES_DU; rw [du_bytes]; omega)) fun r2 h2 => ?_
  refine h1'.append (WrittenL.ofN (n := 32 * d_v K) (h2.congr fun j hj => ?_) (ByteEncode_length _ _)) ?_
  · rw [ByteEncode_getD' _ _ hj]
    exact encByte_congr (fun c _ => (Compress_eq _ _).symm) hj
  · rw [hl1]; unfold MLKEM_POLYVECCOMPRESSEDBYTES_DU; rw [du_bytes]; omega

theorem frommsg_zq (m : List UInt8) {c : Nat} (hc : c < 256) : ((decompNat 1 (decNum 1 (fun j => m.getD j 0) c) : Nat) : Zq) = Decompress 1 (ByteDecode 1 m c) := by
  rw [Decompress_eq, ByteDecode_decNum, Nat.mod_eq_of_lt (by have := decNum_lt 1 (fun j => m.getD j 0) c; simpa [decodeMod] using this)]

theorem indcpa_enc_spec {K fuel : Nat} (hK : K = 2 ∨ K = 3 ∨ K = 4) {c m pk coins : Buf UInt8} {mo po co : Nat} {ek ms r : List UInt8}
    (hm : ms.length = 32) (hms : SegL m mo ms) (hek : ek.length = K * 384 + 32) (hpk : SegL pk po ek) (hr : r.length = 32) (hco : SegL coins co r)
    (hc : MLKEM_CIPHERTEXTBYTES K ≤ c.size) :
    PostF (kpkeEncrypt K (168 * (3 + fuel)) ek ms r = none) (indcpa_enc K fuel c m mo pk po coins co) (fun c' => ∃ ct, kpkeEncrypt K (168 * (3 + fuel)) ek ms r = some ct ∧
      ct.length = MLKEM_CIPHERTEXTBYTES K ∧ WrittenL c c' 0 ct) := by
  generalize hN : 168 * (3 + fuel) = N
  unfold indcpa_enc
  simp only [wp_bind]
  refine Post.use (unpack_pk_spec hek hpk (VAll.new K) (by simp)) fun x ⟨hx1, hx2⟩ => ?_
  refine Post.use (poly_frommsg_spec (hms.toN hm) (by simp [newPoly])) fun k hk => ?_
  have lρ : ((ek.drop (384 * K)).take 32).length = 32 := by rw [List.length_take, List.length_drop]; omega
  unfold kpkeEncrypt
  dsimp only
  generalize (ek.drop (384 * K)).take 32 = ρ at *
  refine PostF.mono (PostF.monoF (gen_matrix_sampleA (fuel := fuel) hK true lρ hx2) ?_) ?_
  · rw [hN]; intro h; simp only [h]; rfl
  rw [hN]
  rintro a ⟨A, hA, fa, ha, hfa, hfaA⟩
  simp only [hA, Option.map_some]
  refine Post.use (encNoise_spec hK hr (hco.toN hr) (VAll.new K) (VAll.new K) (by simp [newPoly]) (VAll.new K)) fun y ⟨hy1, hy2, hy3, hy4⟩ => ?_
  have nb : ∀ η, η = 3 ∨ η = 2 → ∀ o i c, -4 < noiseV η r o i c ∧ noiseV η r o i c < 4 := fun η e o i c => by
    have := noiseI_bound η r (UInt8.ofNat (o + i)) c
    unfold noiseV; omega
  refine Post.use (polyvec_ntt_spec hy1 fun i c _ _ => by have := nb _ (η₁_cases K) 0 i c; omega) fun s ⟨gs, hs, hgs⟩ => ?_
  refine Post.use (polyvec_mulcache_spec (VAll.newCache K) hs fun i c hi hc => by have := (hgs i hi c hc).1; omega) fun sc hsc => ?_
  have sb : ∀ i c, i < K → c < 256 → -26632 < gs i c ∧ gs i c < 26632 := fun i c hi hc => by have := (hgs i hi c hc).1; omega
  refine Post.use (matvec_mul_spec (by omega) hy4 ha hs hsc hfa sb) fun b ⟨gb, hb, hgb⟩ => ?_
  refine Post.use (polyvec_basemul_acc_spec (by omega) hx1 hs hsc (fun i n _ _ => by
    have := ZMod.val_lt (decode12 ek i n); unfold canon; omega) sb (by simp [newPoly])) fun v ⟨gv, hv, hgv⟩ => ?_
  refine Post.use (polyvec_invntt_spec hb fun i c hi hc => by have := (hgb i hi c hc).1; omega) fun b1 ⟨gb1, hb1, hgb1⟩ => ?_
  refine Post.use (poly_invntt_tomont_spec hv fun c hc => by have := (hgv c hc).1; omega) fun v1 ⟨gv1, hv1, hgv1, hgv1'⟩ => ?_
  refine Post.use (polyvec_add_spec hb1 hy2 fun i c hi hc => by have := (hgb1 i hi c hc).1; have := nb 2 (.inr rfl) K i c; omega) fun b2 hb2 => ?_
  have e2 : ∀ c, -4 < noiseI 2 r (UInt8.ofNat (2 * K)) c ∧ noiseI 2 r (UInt8.ofNat (2 * K)) c < 4 := fun c => by
    have := noiseI_bound 2 r (UInt8.ofNat (2 * K)) c; omega
  refine Post.use (poly_add_spec hv1 hy3 fun c hc => by have := hgv1 c hc; have := e2 c; omega) fun v2 hv2 => ?_
  have mb : ∀ c, decompNat 1 (decNum 1 (fun j => ms.getD j 0) c) < 3329 := fun c => decompNat_lt _ _ (by omega) (by omega) (decNum_lt _ _ _)
  refine Post.use (poly_add_spec hv2 hk fun c hc => by have := hgv1 c hc; have := e2 c; have := mb c; omega) fun v3 hv3 => ?_
  refine Post.use (polyvec_reduce_spec hb2 fun i c hi hc => by have := (hgb1 i hi c hc).1; have := nb 2 (.inr rfl) K i c; omega) fun b3 hb3 => ?_
  refine Post.use (poly_reduce_spec hv3 fun c hc => by have := hgv1 c hc; have := e2 c; have := mb c; omega) fun v4 hv4 => ?_
  have hsv : ∀ i, i < K → ∀ c, c < 256 → (gs i c : Zq) = NTT (SamplePolyCBD (η₁ K) (PRF (η₁ K) r i)) c := fun i hi c hc => by
    rw [(hgs i hi c hc).2]
    refine NTT_congr (fun n _ => ?_) c
    rw [noiseV_zq, Nat.zero_add]
  have huv : ∀ i, i < K → ∀ c, c < 256 → ((gb1 i c + noiseV 2 r K i c : Int) : Zq) =
      NTTInv (fun c => ∑ j ∈ range K, MultiplyNTTs (A j i) (NTT (SamplePolyCBD (η₁ K) (PRF (η₁ K) r j))) c) c + SamplePolyCBD η₂ (PRF η₂ r (K + i)) c := fun i hi c hc => by
    rw [Int.cast_add, (hgb1 i hi c hc).2, noiseV_zq]
    refine add_eq (invScale_congr ?_ c) rfl
    intro n hn
    rw [(hgb i hi n hn).2]
    refine mul_eq ?_
    exact sum_MultiplyNTTs_congr (fun j hj n hn => by rw [hfaA i j n hi hj]; simp) hsv hn
  have hvv : ∀ c, c < 256 → ((gv1 c + noiseI 2 r (UInt8.ofNat (2 * K)) c + (decompNat 1 (decNum 1 (fun j => ms.getD j 0) c) : Nat) : Int) : Zq) =
      NTTInv (fun c => ∑ j ∈ range K, MultiplyNTTs (decode12 ek j) (NTT (SamplePolyCBD (η₁ K) (PRF (η₁ K) r j))) c) c + SamplePolyCBD η₂ (PRF η₂ r (2 * K)) c + Decompress 1 (ByteDecode 1 ms c) := fun c hc => by
    rw [Int.cast_add, Int.cast_add, hgv1' c hc, noiseI_zq, Int.cast_natCast, frommsg_zq ms hc]
    refine add_eq (add_eq (invScale_congr ?_ c) rfl) rfl
    intro n hn
    rw [(hgv n hn).2]
    refine mul_eq ?_
    exact sum_MultiplyNTTs_congr (fun j hj n hn => by unfold canon; rw [Int.cast_natCast, ZMod.natCast_zmod_val]) hsv hn
  refine Post.use (pack_ct_spec (hb3.congr (canon_of huv)) (hv4.congr fun c hc => by rw [← val_eq_emod, hvv c hc]) hc) fun c' hc' => ?_
  refine ⟨_, rfl, ?_, hc'⟩
  rw [List.length_append, flatMap_length (fun i => ByteEncode_length _ _), ByteEncode_length]
  unfold MLKEM_CIPHERTEXTBYTES MLKEM_INDCPA_BYTES MLKEM_POLYVECCOMPRESSEDBYTES_DU; rw [du_bytes, dv_bytes]

/-! ## Decryption -/

theorem ctbytes_eq (K : Nat) : MLKEM_CIPHERTEXTBYTES K = K * (32 * d_u K) + 32 * d_v K := by
  unfold MLKEM_CIPHERTEXTBYTES MLKEM_INDCPA_BYTES MLKEM_POLYVECCOMPRESSEDBYTES_DU; rw [du_bytes, dv_bytes]

theorem indcpa_dec_spec {K : Nat} (hK : K = 2 ∨ K = 3 ∨ K = 4) {m c sk : Buf UInt8} {ct dk : List UInt8} (hm : 32 ≤ m.size) (hct : ct.length = MLKEM_CIPHERTEXTBYTES K) (hc : SegL c 0 ct)
    (hdk : K * 384 ≤ dk.length) (hsk : SegL sk 0 dk) : Post (indcpa_dec K m c sk) (fun m' => WrittenL m m' 0 (kpkeDecrypt K dk ct)) := by
  rw [ctbytes_eq] at hct
  unfold indcpa_dec unpack_ciphertext
  simp only [wp_bind, wp_pure]
  refine Post.use (polyvec_decompress_du_spec (fun j hj => hc j (by omega)) (VAll.new K)) fun b hb => ?_
  have hco : MLKEM_POLYVECCOMPRESSEDBYTES_DU K = 0 + K * (32 * d_u K) := by unfold MLKEM_POLYVECCOMPRESSEDBYTES_DU; rw [du_bytes]; omega
  rw [hco]
  refine Post.use (poly_decompress_dv_spec (Seg.sub hc (K * (32 * d_u K)) (32 * d_v K) (by omega)) (by simp [newPoly])) fun v hv => ?_
  refine Post.use (unpack_sk_spec hdk hsk (VAll.new K)) fun s hs => ?_
  have ub : ∀ i c, decompNat (d_u K) (decNum (d_u K) (fun k => ct.getD (i * (32 * d_u K) + k) 0) c) < 3329 := fun i c => decompNat_du_lt K (decNum_lt _ _ _)
  have vb : ∀ c, decompNat (d_v K) (decNum (d_v K) (fun k => ct.getD (K * (32 * d_u K) + k) 0) c) < 3329 := fun c =>
    decompNat_lt _ _ (by rcases d_v_cases K with h | h <;> omega) (by rcases d_v_cases K with h | h <;> omega) (decNum_lt _ _ _)
  refine Post.use (polyvec_ntt_spec hb fun i c _ _ => by have := ub i c; beta_reduce; omega) fun b1 ⟨gb, hb1, hgb⟩ => ?_
  unfold polyvec_basemul_acc_montgomery
  simp only [wp_bind]
  have sb : ∀ i c, i < K → c < 256 → -26632 < gb i c ∧ gb i c < 26632 := fun i c hi hc => by have := (hgb i hi c hc).1; omega
  refine Post.use (polyvec_mulcache_spec (VAll.newCache K) hb1 fun i c hi hc => by have := sb i c hi hc; omega) fun bc hbc => ?_
  refine Post.use (polyvec_basemul_acc_spec (by omega) hs hb1 hbc (fun i n _ _ => by
    have := ZMod.val_lt (decode12 dk i n); unfold canon; omega) sb (by simp [newPoly])) fun t ⟨gt, ht, hgt⟩ => ?_
  refine Post.use (poly_invntt_tomont_spec ht fun c hc => by have := (hgt c hc).1; omega) fun t1 ⟨gt1, ht1, hgt1, hgt1'⟩ => ?_
  refine Post.use (poly_sub_spec hv ht1 fun c hc => by have := hgt1 c hc; have := vb c; beta_reduce; omega) fun w hw => ?_
  refine Post.use (poly_reduce_spec hw fun c hc => by have := hgt1 c hc; have := vb c; beta_reduce; omega) fun w1 hw1 => ?_
  have hww : ∀ c, c < 256 → (((decompNat (d_v K) (decNum (d_v K) (fun k => ct.getD (K * (32 * d_u K) + k) 0) c) : Nat) - gt1 c : Int) : Zq) = decryptW K dk ct c := fun c hc => by
    unfold decryptW
    rw [Int.cast_sub, Int.cast_natCast, ctV_eq ct hc, hgt1' c hc]
    refine sub_eq (invScale_congr ?_ c)
    intro n hn
    rw [(hgt n hn).2]
    refine mul_eq ?_
    refine sum_MultiplyNTTs_congr (fun j hj n hn => by unfold canon; rw [Int.cast_natCast, ZMod.natCast_zmod_val]) (fun j hj n hn => ?_) hn
    rw [(hgb j hj n hn).2]
    exact NTT_congr (fun k hk => by rw [ctU_eq ct j hk, Int.cast_natCast]) n
  refine Post.use (poly_tomsg_spec (f := fun c => (decryptW K dk ct c).val) (hw1.congr fun c hc => by rw [← hww c hc, val_eq_emod]) (fun c _ => ZMod.val_lt _) (by omega)) fun m' hm' => ?_
  refine WrittenL.ofN (n := 32) (hm'.congr fun j hj => ?_) (ByteEncode_length _ _)
  unfold kpkeDecrypt
  rw [ByteEncode_getD' _ _ (by omega)]
  exact encByte_congr (fun c _ => (Compress_eq _ _).symm) (by omega)

end Verif

import Verif.Props.Arith
import Verif.Proof.NttLin
import Verif.Proof.Indcpa
/-! # Properties of vectors of polynomials and ciphertexts (C19, C22) -/
namespace Verif.Props
open Verif Verif.Model Verif.Spec Finset

theorem vec_holds (K : Nat) (f : Nat → Nat → Int) : VHolds (vec K f) K 256 f := by
  refine ⟨by simp [vec], fun i hi => ⟨poly (f i), by simp [vec, hi], poly_holds _⟩⟩

theorem eq_vec {v : PolyVec} {K : Nat} {f : Nat → Nat → Int} (h : VHolds v K 256 f) : v = vec K f := by
  apply Array.ext_getElem?
  intro i
  by_cases hi : i < K
  · obtain ⟨p, hp, hh⟩ := h.2 i hi
    obtain ⟨p', hp', hh'⟩ := (vec_holds K f).2 i hi
    rw [hp, hp', hh.unique hh']
  · rw [Array.getElem?_eq_none (by rw [h.1]; omega), Array.getElem?_eq_none (by simp [vec]; omega)]

/-- A vector of `K` (possibly uninitialised) polynomials. -/
def IsVec (K : Nat) (v : PolyVec) : Prop := v.size = K ∧ ∀ i, i < K → ∃ p, v[i]? = some p ∧ p.size = 256

theorem Compress_ctU {K : Nat} (B : List UInt8) (i : Nat) {c : Nat} (hc : c < 256) :
    Compress (d_u K) (ctU K B i c) = decNum (d_u K) (fun j => B.getD (i * (32 * d_u K) + j) 0) c := by
  have hd : 0 < d_u K ∧ d_u K ≤ 11 := by rcases d_u_cases K with h | h <;> omega
  have hlt := decNum_lt (d_u K) (fun j => B.getD (i * (32 * d_u K) + j) 0) c
  rw [ctU_eq B i hc, Compress_eq, val_cast (decompNat_lt _ _ hd.1 hd.2 hlt), compNat_decompNat hd.1 hd.2 hlt]

theorem Compress_ctV {K : Nat} (B : List UInt8) {c : Nat} (hc : c < 256) :
    Compress (d_v K) (ctV K B c) = decNum (d_v K) (fun j => B.getD (K * (32 * d_u K) + j) 0) c := by
  have hd : 0 < d_v K ∧ d_v K ≤ 11 := by rcases d_v_cases K with h | h <;> omega
  have hlt := decNum_lt (d_v K) (fun j => B.getD (K * (32 * d_u K) + j) 0) c
  rw [ctV_eq B hc, Compress_eq, val_cast (decompNat_lt _ _ hd.1 hd.2 hlt), compNat_decompNat hd.1 hd.2 hlt]

/-- Compressing and encoding the decoded polynomials of a ciphertext gives the ciphertext. -/
theorem ct_reencode {K : Nat} (c : List UInt8) (hc : c.length = MLKEM_CIPHERTEXTBYTES K) :
    ((List.range K).flatMap fun i => ByteEncode (d_u K) fun n => Compress (d_u K) (ctU K c i n)) ++ ByteEncode (d_v K) (fun n => Compress (d_v K) (ctV K c n)) = c := by
  have hdu : 0 < d_u K := by rcases d_u_cases K with h | h <;> omega
  have hdv : 0 < d_v K := by rcases d_v_cases K with h | h <;> omega
  rw [ctbytes_eq] at hc
  have hl := flatMap_length (k := K) fun i => ByteEncode_length (d_u K) (fun n => Compress (d_u K) (ctU K c i n))
  refine ext_getD' (by rw [List.length_append, hl, ByteEncode_length, hc]) fun j hj => ?_
  rw [List.length_append, hl, ByteEncode_length] at hj
  rw [getD_append, hl]
  split
  · rename_i h
    have hm : j % (32 * d_u K) < 32 * d_u K := Nat.mod_lt _ (by omega)
    rw [flatMap_getD (fun i => ByteEncode_length _ _) h, ByteEncode_getD' _ _ hm, encByte_congr (fun n hn => Compress_ctU c (j / (32 * d_u K)) hn) hm, encByte_decNum _ hdu,
      Nat.mul_comm, Nat.div_add_mod]
  · rename_i h
    have hm : j - K * (32 * d_u K) < 32 * d_v K := by omega
    rw [ByteEncode_getD' _ _ hm, encByte_congr (fun n hn => Compress_ctV c hn) hm, encByte_decNum _ hdv]
    congr 1; omega

theorem unpack_ct_spec {K : Nat} {b : PolyVec} {v : Model.Poly} {ct : List UInt8} (hb : IsVec K b) (hv : v.size = 256) (hct : ct.length = MLKEM_CIPHERTEXTBYTES K) :
    Post (unpack_ciphertext K b v (Buf.ofList ct)) (fun x => x = (vec K (canon (ctU K ct)), poly fun n => ((ctV K ct n).val : Int))) := by
  rw [ctbytes_eq] at hct
  have hc := SegL_ofList ct
  unfold unpack_ciphertext
  simp only [wp_bind, wp_pure]
  refine Post.use (polyvec_decompress_du_spec (fun j hj => hc j (by omega)) hb) fun b' hb' => ?_
  have hco : MLKEM_POLYVECCOMPRESSEDBYTES_DU K = 0 + K * (32 * d_u K) := by unfold MLKEM_POLYVECCOMPRESSEDBYTES_DU; rw [du_bytes]; omega
  rw [hco]
  refine Post.use (poly_decompress_dv_spec (Seg.sub hc (K * (32 * d_u K)) (32 * d_v K) (by omega)) hv) fun v' hv' => ?_
  have e1 : b' = vec K (canon (ctU K ct)) := eq_vec (hb'.congr fun i c _ hc => by
    unfold canon; rw [ctU_eq ct i hc, val_cast (decompNat_du_lt K (decNum_lt _ _ _))])
  have e2 : v' = poly fun n => ((ctV K ct n).val : Int) := eq_poly (hv'.congr fun c hc => by
    rw [ctV_eq ct hc, val_cast (decompNat_lt _ _ (by rcases d_v_cases K with h | h <;> omega) (by rcases d_v_cases K with h | h <;> omega) (decNum_lt _ _ _))])
  rw [e1, e2]

/-- **C19** for a whole ciphertext: unpacking it and packing the result reproduces it byte for byte. -/
theorem C19_ciphertext (K : Nat) (c : List UInt8) (hc : c.length = ctLen K) (b : PolyVec) (hb : IsVec K b) (v : Buf Int) (hv : v.size = 256) (r : Buf UInt8) (hr : r.size = ctLen K) :
    ∃ u w, Returns (unpack_ciphertext K b v (Buf.ofList c)) (vec K u, poly w) ∧ Returns (pack_ciphertext K r (vec K u) (poly w)) (Buf.ofList c) := by
  have hl : ctLen K = MLKEM_CIPHERTEXTBYTES K := by rw [ctbytes_eq]; unfold ctLen; ring
  rw [hl] at hc hr
  refine ⟨_, _, ret_eq (unpack_ct_spec hb hv hc) fun _ h => h, ret_eq (pack_ct_spec (u := ctU K c) (w := ctV K c) (vec_holds _ _) (poly_holds _) (by omega)) fun r' h => ?_⟩
  rw [ct_reencode c hc] at h
  exact h.whole (by omega)

/-- **C19**: no two ciphertexts decode alike. -/
theorem C19_injective (K : Nat) (c c' : List UInt8) (hc : c.length = ctLen K) (hc' : c'.length = ctLen K) (b b' : PolyVec) (hb : IsVec K b) (hb' : IsVec K b') (v v' : Buf Int) (hv : v.size = 256)
    (hv' : v'.size = 256) (x : PolyVec × Buf Int) (h : Returns (unpack_ciphertext K b v (Buf.ofList c)) x) (h' : Returns (unpack_ciphertext K b' v' (Buf.ofList c')) x) : c = c' := by
  have hl : ctLen K = MLKEM_CIPHERTEXTBYTES K := by rw [ctbytes_eq]; unfold ctLen; ring
  obtain ⟨u, w, h1, h2⟩ := C19_ciphertext K c hc b hb v hv (Buf.uninit UInt8 (ctLen K)) (by simp)
  obtain ⟨u', w', h1', h2'⟩ := C19_ciphertext K c' hc' b' hb' v' hv' (Buf.uninit UInt8 (ctLen K)) (by simp)
  have e1 := h.unique h1
  have e2 := h'.unique h1'
  have e3 : vec K u = vec K u' ∧ poly w = poly w' := by rw [e1] at e2; exact Prod.mk.inj e2
  rw [e3.1, e3.2] at h2
  have := h2.unique h2'
  unfold Buf.ofList at this
  have := congrArg Array.toList this
  simp only at this
  exact List.map_injective_iff.2 (Option.some_injective _) this

example : ∃ (c : List UInt8) (b : PolyVec) (v : Buf Int), c.length = ctLen 3 ∧ IsVec 3 b ∧ v.size = 256 :=
  ⟨List.replicate 1088 7, newVec 3, newPoly, by rw [List.length_replicate]; decide, VAll.new 3, by simp [newPoly]⟩

/-- **C22** for vectors: the inner product of the transformed vectors, transformed back, is the inner product over `Z_q[X]/(X^256+1)`. -/
theorem C22_inner_product {K : Nat} (hK : IsParam K) (f g : Nat → Nat → Int) (hf : ∀ i n, i < K → n < 256 → -3329 < f i n ∧ f i n < 3329)
    (hg : ∀ i n, i < K → n < 256 → -3329 < g i n ∧ g i n < 3329) (r : Buf Int) (hr : r.size = 256) :
    ∃ p, Returns (do
        let a ← polyvec_ntt K (vec K f)
        let a ← polyvec_reduce K a
        let b ← polyvec_ntt K (vec K g)
        let s ← polyvec_basemul_acc_montgomery K r a b
        poly_invntt_tomont s) (poly p) ∧ ∀ n, n < 256 → modq p n = ∑ j ∈ range K, mulRq (modq (f j)) (modq (g j)) n := by
  have hK' : K = 2 ∨ K = 3 ∨ K = 4 := hK
  have key : Post (do
        let a ← polyvec_ntt K (vec K f)
        let a ← polyvec_reduce K a
        let b ← polyvec_ntt K (vec K g)
        let s ← polyvec_basemul_acc_montgomery K r a b
        poly_invntt_tomont s) (fun x => ∃ p, x = poly p ∧ ∀ n, n < 256 → modq p n = ∑ j ∈ range K, mulRq (modq (f j)) (modq (g j)) n) := by
    change PostF False _ _
    unfold polyvec_basemul_acc_montgomery
    simp only [wp_bind]
    refine Post.use (polyvec_ntt_spec (vec_holds K f) hf) fun a ⟨fa, ha, za⟩ => ?_
    refine Post.use (polyvec_reduce_spec ha fun i n hi hn => by have := (za i hi n hn).1; omega) fun a' ha' => ?_
    refine Post.use (polyvec_ntt_spec (vec_holds K g) hg) fun b ⟨fb, hb, zb⟩ => ?_
    have sb : ∀ i c, i < K → c < 256 → -26632 < fb i c ∧ fb i c < 26632 := fun i c hi hc => by have := (zb i hi c hc).1; omega
    refine Post.use (polyvec_mulcache_spec (VAll.newCache K) hb fun i c hi hc => by have := sb i c hi hc; omega) fun bc hbc => ?_
    refine Post.use (polyvec_basemul_acc_spec (by omega) ha' hb hbc (fun i n _ _ => by omega) sb hr) fun s ⟨gs, hs, zs⟩ => ?_
    refine Post.use (poly_invntt_tomont_spec hs fun n hn => by have := (zs n hn).1; omega) fun x ⟨p, hx, bp, zp⟩ => ?_
    refine ⟨p, eq_poly hx, fun n hn => ?_⟩
    have e2 : modq p n = 65536 * NTTInv (fun i => ((gs i : Int) : Zq)) n := zp n hn
    rw [e2, invScale_congr (fun m hm => (zs m hm).2) n, NTTInv_sum K (fun j => MultiplyNTTs (fun n => ((fa j n % 3329 : Int) : Zq)) (fun n => (fb j n : Zq)))]
    refine sum_congr rfl fun j hj => ?_
    have hj := mem_range.1 hj
    rw [← NTTInv_MultiplyNTTs _ _ hn]
    refine NTTInv_congr (fun m hm => ?_) n
    exact MultiplyNTTs_congr (fun k hk => (zq_int_eq (by omega) : ((fa j k % 3329 : Int) : Zq) = fa j k).trans (za j hj k hk).2) (fun k hk => (zb j hj k hk).2) hm
  obtain ⟨x, hx, p, rfl, hp⟩ := ret_of_post key
  exact ⟨p, hx, hp⟩

end Verif.Props

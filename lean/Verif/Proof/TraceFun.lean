import Verif.Proof.Trace
import Verif.Model.Kem
/-! # Every function other than the rejection sampler has a trace that depends only on lengths, offsets and the parameter set -/
namespace Verif
open Model

set_option maxRecDepth 4000

theorem si_SCALAR_BOUND {x y : Int} {n m : Nat} : SI (SCALAR_BOUND x n) (SCALAR_BOUND y m) := by
  unfold SCALAR_BOUND; si
macro_rules | `(tactic| si_leaf) => `(tactic| with_reducible exact si_SCALAR_BOUND)

theorem si_POLY_BOUND {x y : Poly} {n m : Nat} : SI (POLY_BOUND x n) (POLY_BOUND y m) := by
  unfold POLY_BOUND; si
macro_rules | `(tactic| si_leaf) => `(tactic| with_reducible exact si_POLY_BOUND)

theorem si_MULCACHE_BOUND {x y : Poly} {n m : Nat} : SI (MULCACHE_BOUND x n) (MULCACHE_BOUND y m) := by
  unfold MULCACHE_BOUND; si
macro_rules | `(tactic| si_leaf) => `(tactic| with_reducible exact si_MULCACHE_BOUND)

theorem si_POLY_UBOUND {x y : Poly} {n m : Nat} : SI (POLY_UBOUND x n) (POLY_UBOUND y m) := by
  unfold POLY_UBOUND; si
macro_rules | `(tactic| si_leaf) => `(tactic| with_reducible exact si_POLY_UBOUND)

theorem si_POLYVEC_BOUND {K : Nat} {x y : PolyVec} {n m : Nat} : SI (POLYVEC_BOUND K x n) (POLYVEC_BOUND K y m) := by
  unfold POLYVEC_BOUND; si
macro_rules | `(tactic| si_leaf) => `(tactic| with_reducible exact si_POLYVEC_BOUND)

theorem si_MULCACHEVEC_BOUND {K : Nat} {x y : PolyVec} {n m : Nat} : SI (MULCACHEVEC_BOUND K x n) (MULCACHEVEC_BOUND K y m) := by
  unfold MULCACHEVEC_BOUND; si
macro_rules | `(tactic| si_leaf) => `(tactic| with_reducible exact si_MULCACHEVEC_BOUND)

theorem si_POLYVEC_UBOUND {K : Nat} {x y : PolyVec} {n m : Nat} : SI (POLYVEC_UBOUND K x n) (POLYVEC_UBOUND K y m) := by
  unfold POLYVEC_UBOUND; si
macro_rules | `(tactic| si_leaf) => `(tactic| with_reducible exact si_POLYVEC_UBOUND)

theorem si_montgomery_reduce_generic {x y : Int} : SI (montgomery_reduce_generic x) (montgomery_reduce_generic y) := by
  unfold montgomery_reduce_generic; si
macro_rules | `(tactic| si_leaf) => `(tactic| with_reducible exact si_montgomery_reduce_generic)

theorem si_montgomery_reduce {x y : Int} : SI (montgomery_reduce x) (montgomery_reduce y) := by
  unfold montgomery_reduce; si
macro_rules | `(tactic| si_leaf) => `(tactic| with_reducible exact si_montgomery_reduce)

theorem si_fqmul {x y x' y' : Int} : SI (fqmul x y) (fqmul x' y') := by
  unfold fqmul; si
macro_rules | `(tactic| si_leaf) => `(tactic| with_reducible exact si_fqmul)

theorem si_barrett_reduce {x y : Int} : SI (barrett_reduce x) (barrett_reduce y) := by
  unfold barrett_reduce; si
macro_rules | `(tactic| si_leaf) => `(tactic| with_reducible exact si_barrett_reduce)

theorem si_ct_memcmp {a b a' b' : Buf UInt8} {ao bo n : Nat} : SI (ct_memcmp a ao b bo n) (ct_memcmp a' ao b' bo n) := by
  unfold ct_memcmp; si
macro_rules | `(tactic| si_leaf) => `(tactic| with_reducible exact si_ct_memcmp)

theorem si_ct_cmov_zero {r r' x x' : Buf UInt8} {ro xo n : Nat} {b b' : UInt8} : SI (ct_cmov_zero r ro x xo n b) (ct_cmov_zero r' ro x' xo n b') := by
  unfold ct_cmov_zero; si
macro_rules | `(tactic| si_leaf) => `(tactic| with_reducible exact si_ct_cmov_zero)

theorem si_ntt_butterfly_block {r r' : Poly} {z z' : Int} {s l : Nat} : SI (ntt_butterfly_block r z s l) (ntt_butterfly_block r' z' s l) := by
  unfold ntt_butterfly_block; si
macro_rules | `(tactic| si_leaf) => `(tactic| with_reducible exact si_ntt_butterfly_block)

theorem si_ntt_layer {r r' : Poly} {l : Nat} : SI (ntt_layer r l) (ntt_layer r' l) := by
  unfold ntt_layer
  refine SIR.bind SIR.divM fun k _ e => ?_
  subst e
  refine SIR.bind (SIR.forFrom (I := fun s s' => s.2 = s'.2) (fun i s s' h => ?_) _ _ _ _ rfl) fun _ _ _ => SI.pure
  obtain ⟨r, k⟩ := s; obtain ⟨r', k'⟩ := s'; obtain rfl : k = k' := h
  exact SIR.bind SI.rd fun _ _ _ => SIR.bind si_ntt_butterfly_block fun _ _ _ => SIR.pure rfl
macro_rules | `(tactic| si_leaf) => `(tactic| with_reducible exact si_ntt_layer)

theorem si_poly_ntt {r r' : Poly} : SI (poly_ntt r) (poly_ntt r') := by
  unfold poly_ntt; si
macro_rules | `(tactic| si_leaf) => `(tactic| with_reducible exact si_poly_ntt)

theorem si_invntt_layer {r r' : Poly} {l : Nat} : SI (invntt_layer r l) (invntt_layer r' l) := by
  unfold invntt_layer
  refine SIR.bind SIR.divM fun k _ e => ?_
  subst e
  refine SIR.bind (SIR.forFrom (I := fun s s' => s.2 = s'.2) (fun i s s' h => ?_) _ _ _ _ rfl) fun _ _ _ => SI.pure
  obtain ⟨r, k⟩ := s; obtain ⟨r', k'⟩ := s'; obtain rfl : k = k' := h
  dsimp only
  split
  · refine SIR.bind SI.rd fun _ _ _ => ?_
    refine SIR.bind (R := Any _ _) ?_ fun _ _ _ => SIR.pure rfl
    si
  · exact SIR.bind (R := fun _ _ => False) SI.fail fun _ _ h => h.elim
macro_rules | `(tactic| si_leaf) => `(tactic| with_reducible exact si_invntt_layer)

theorem si_poly_invntt_tomont {r r' : Poly} : SI (poly_invntt_tomont r) (poly_invntt_tomont r') := by
  unfold poly_invntt_tomont; si
macro_rules | `(tactic| si_leaf) => `(tactic| with_reducible exact si_poly_invntt_tomont)

theorem si_basemul_cached {r r' a a' b b' : Poly} {ro ao bo : Nat} {c c' : Int} : SI (basemul_cached r ro a ao b bo c) (basemul_cached r' ro a' ao b' bo c') := by
  unfold basemul_cached; si
macro_rules | `(tactic| si_leaf) => `(tactic| with_reducible exact si_basemul_cached)

theorem si_scalar_signed_to_unsigned_q {c c' : Int} : SI (scalar_signed_to_unsigned_q c) (scalar_signed_to_unsigned_q c') := by
  unfold scalar_signed_to_unsigned_q; si
macro_rules | `(tactic| si_leaf) => `(tactic| with_reducible exact si_scalar_signed_to_unsigned_q)

theorem si_compressLoop {f g : Nat → Nat} {a a' : Poly} {x n : Nat} : SI (compressLoop f a x n) (compressLoop g a' x n) := by
  unfold compressLoop; si
macro_rules | `(tactic| si_leaf) => `(tactic| with_reducible exact si_compressLoop)

theorem si_poly_compress_du {K : Nat} {r r' : Buf UInt8} {ro : Nat} {a a' : Poly} : SI (poly_compress_du K r ro a) (poly_compress_du K r' ro a') := by
  unfold poly_compress_du; si
macro_rules | `(tactic| si_leaf) => `(tactic| with_reducible exact si_poly_compress_du)

theorem si_fillLocal {v w : List Nat} (h : v.length = w.length) : SI (fillLocal v) (fillLocal w) := by
  unfold fillLocal
  rw [h]
  refine SI.forFrom fun i s s' => ?_
  cases hv : v[i]? <;> cases hw : w[i]? <;> dsimp only
  · exact SI.fail
  · exact SI.fail
  · intro a t b t' _ e; exact nomatch e
  · exact SI.wr
macro_rules | `(tactic| si_leaf) => `(tactic| with_reducible exact si_fillLocal rfl)

theorem si_decompressLoop {f g : Nat → Nat} {r r' : Poly} {x n : Nat} {t t' : Buf Nat} : SI (decompressLoop f r x n t) (decompressLoop g r' x n t') := by
  unfold decompressLoop; si
macro_rules | `(tactic| si_leaf) => `(tactic| with_reducible exact si_decompressLoop)

theorem si_poly_decompress_du {K : Nat} {r r' : Poly} {a a' : Buf UInt8} {ao : Nat} : SI (poly_decompress_du K r a ao) (poly_decompress_du K r' a' ao) := by
  unfold poly_decompress_du; si
macro_rules | `(tactic| si_leaf) => `(tactic| with_reducible exact si_poly_decompress_du)

theorem si_poly_compress_dv {K : Nat} {r r' : Buf UInt8} {ro : Nat} {a a' : Poly} : SI (poly_compress_dv K r ro a) (poly_compress_dv K r' ro a') := by
  unfold poly_compress_dv; si
macro_rules | `(tactic| si_leaf) => `(tactic| with_reducible exact si_poly_compress_dv)

theorem si_poly_decompress_dv {K : Nat} {r r' : Poly} {a a' : Buf UInt8} {ao : Nat} : SI (poly_decompress_dv K r a ao) (poly_decompress_dv K r' a' ao) := by
  unfold poly_decompress_dv; si
macro_rules | `(tactic| si_leaf) => `(tactic| with_reducible exact si_poly_decompress_dv)

theorem si_poly_tobytes {r r' : Buf UInt8} {ro : Nat} {a a' : Poly} : SI (poly_tobytes r ro a) (poly_tobytes r' ro a') := by
  unfold poly_tobytes; si
macro_rules | `(tactic| si_leaf) => `(tactic| with_reducible exact si_poly_tobytes)

theorem si_poly_frombytes {r r' : Poly} {a a' : Buf UInt8} {ao : Nat} : SI (poly_frombytes r a ao) (poly_frombytes r' a' ao) := by
  unfold poly_frombytes; si
macro_rules | `(tactic| si_leaf) => `(tactic| with_reducible exact si_poly_frombytes)

theorem si_poly_frommsg {r r' : Poly} {a a' : Buf UInt8} {ao : Nat} : SI (poly_frommsg r a ao) (poly_frommsg r' a' ao) := by
  unfold poly_frommsg; si
macro_rules | `(tactic| si_leaf) => `(tactic| with_reducible exact si_poly_frommsg)

theorem si_poly_tomsg {r r' : Buf UInt8} {ro : Nat} {a a' : Poly} : SI (poly_tomsg r ro a) (poly_tomsg r' ro a') := by
  unfold poly_tomsg; si
macro_rules | `(tactic| si_leaf) => `(tactic| with_reducible exact si_poly_tomsg)

theorem si_poly_basemul_montgomery_cached {r r' a a' b b' c c' : Poly} : SI (poly_basemul_montgomery_cached r a b c) (poly_basemul_montgomery_cached r' a' b' c') := by
  unfold poly_basemul_montgomery_cached; si
macro_rules | `(tactic| si_leaf) => `(tactic| with_reducible exact si_poly_basemul_montgomery_cached)

theorem si_poly_tomont {r r' : Poly} : SI (poly_tomont r) (poly_tomont r') := by
  unfold poly_tomont; si
macro_rules | `(tactic| si_leaf) => `(tactic| with_reducible exact si_poly_tomont)

theorem si_poly_reduce {r r' : Poly} : SI (poly_reduce r) (poly_reduce r') := by
  unfold poly_reduce; si
macro_rules | `(tactic| si_leaf) => `(tactic| with_reducible exact si_poly_reduce)

theorem si_poly_add {r r' b b' : Poly} : SI (poly_add r b) (poly_add r' b') := by
  unfold poly_add; si
macro_rules | `(tactic| si_leaf) => `(tactic| with_reducible exact si_poly_add)

theorem si_poly_sub {r r' b b' : Poly} : SI (poly_sub r b) (poly_sub r' b') := by
  unfold poly_sub; si
macro_rules | `(tactic| si_leaf) => `(tactic| with_reducible exact si_poly_sub)

theorem si_poly_mulcache_compute {r r' b b' : Poly} : SI (poly_mulcache_compute r b) (poly_mulcache_compute r' b') := by
  unfold poly_mulcache_compute; si
macro_rules | `(tactic| si_leaf) => `(tactic| with_reducible exact si_poly_mulcache_compute)

theorem si_polyvec_compress_du {K : Nat} {r r' : Buf UInt8} {ro : Nat} {a a' : PolyVec} : SI (polyvec_compress_du K r ro a) (polyvec_compress_du K r' ro a') := by
  unfold polyvec_compress_du; si
macro_rules | `(tactic| si_leaf) => `(tactic| with_reducible exact si_polyvec_compress_du)

theorem si_polyvec_decompress_du {K : Nat} {r r' : PolyVec} {a a' : Buf UInt8} {ao : Nat} : SI (polyvec_decompress_du K r a ao) (polyvec_decompress_du K r' a' ao) := by
  unfold polyvec_decompress_du; si
macro_rules | `(tactic| si_leaf) => `(tactic| with_reducible exact si_polyvec_decompress_du)

theorem si_polyvec_tobytes {K : Nat} {r r' : Buf UInt8} {ro : Nat} {a a' : PolyVec} : SI (polyvec_tobytes K r ro a) (polyvec_tobytes K r' ro a') := by
  unfold polyvec_tobytes; si
macro_rules | `(tactic| si_leaf) => `(tactic| with_reducible exact si_polyvec_tobytes)

theorem si_polyvec_frombytes {K : Nat} {r r' : PolyVec} {a a' : Buf UInt8} {ao : Nat} : SI (polyvec_frombytes K r a ao) (polyvec_frombytes K r' a' ao) := by
  unfold polyvec_frombytes; si
macro_rules | `(tactic| si_leaf) => `(tactic| with_reducible exact si_polyvec_frombytes)

theorem si_polyvec_ntt {K : Nat} {r r' : PolyVec} : SI (polyvec_ntt K r) (polyvec_ntt K r') := by
  unfold polyvec_ntt; si
macro_rules | `(tactic| si_leaf) => `(tactic| with_reducible exact si_polyvec_ntt)

theorem si_polyvec_invntt_tomont {K : Nat} {r r' : PolyVec} : SI (polyvec_invntt_tomont K r) (polyvec_invntt_tomont K r') := by
  unfold polyvec_invntt_tomont; si
macro_rules | `(tactic| si_leaf) => `(tactic| with_reducible exact si_polyvec_invntt_tomont)

theorem si_polyvec_reduce {K : Nat} {r r' : PolyVec} : SI (polyvec_reduce K r) (polyvec_reduce K r') := by
  unfold polyvec_reduce; si
macro_rules | `(tactic| si_leaf) => `(tactic| with_reducible exact si_polyvec_reduce)

theorem si_polyvec_tomont {K : Nat} {r r' : PolyVec} : SI (polyvec_tomont K r) (polyvec_tomont K r') := by
  unfold polyvec_tomont; si
macro_rules | `(tactic| si_leaf) => `(tactic| with_reducible exact si_polyvec_tomont)

theorem si_polyvec_basemul_acc_montgomery_cached {K : Nat} {r r' : Poly} {a a' b b' c c' : PolyVec} : SI (polyvec_basemul_acc_montgomery_cached K r a b c) (polyvec_basemul_acc_montgomery_cached K r' a' b' c') := by
  unfold polyvec_basemul_acc_montgomery_cached; si
macro_rules | `(tactic| si_leaf) => `(tactic| with_reducible exact si_polyvec_basemul_acc_montgomery_cached)

theorem si_polyvec_mulcache_compute {K : Nat} {r r' b b' : PolyVec} : SI (polyvec_mulcache_compute K r b) (polyvec_mulcache_compute K r' b') := by
  unfold polyvec_mulcache_compute; si
macro_rules | `(tactic| si_leaf) => `(tactic| with_reducible exact si_polyvec_mulcache_compute)

theorem si_polyvec_add {K : Nat} {r r' b b' : PolyVec} : SI (polyvec_add K r b) (polyvec_add K r' b') := by
  unfold polyvec_add; si
macro_rules | `(tactic| si_leaf) => `(tactic| with_reducible exact si_polyvec_add)

theorem si_polyvec_basemul_acc_montgomery {K : Nat} {r r' : Poly} {a a' b b' : PolyVec} : SI (polyvec_basemul_acc_montgomery K r a b) (polyvec_basemul_acc_montgomery K r' a' b') := by
  unfold polyvec_basemul_acc_montgomery; si
macro_rules | `(tactic| si_leaf) => `(tactic| with_reducible exact si_polyvec_basemul_acc_montgomery)

theorem si_load32_littleendian {x x' : Buf UInt8} {o : Nat} : SI (load32_littleendian x o) (load32_littleendian x' o) := by
  unfold load32_littleendian; si
macro_rules | `(tactic| si_leaf) => `(tactic| with_reducible exact si_load32_littleendian)

theorem si_load24_littleendian {x x' : Buf UInt8} {o : Nat} : SI (load24_littleendian x o) (load24_littleendian x' o) := by
  unfold load24_littleendian; si
macro_rules | `(tactic| si_leaf) => `(tactic| with_reducible exact si_load24_littleendian)

theorem si_cbd2 {r r' : Poly} {x x' : Buf UInt8} : SI (cbd2 r x) (cbd2 r' x') := by
  unfold cbd2; si
macro_rules | `(tactic| si_leaf) => `(tactic| with_reducible exact si_cbd2)

theorem si_cbd3 {r r' : Poly} {x x' : Buf UInt8} : SI (cbd3 r x) (cbd3 r' x') := by
  unfold cbd3; si
macro_rules | `(tactic| si_leaf) => `(tactic| with_reducible exact si_cbd3)

theorem si_poly_cbd_eta2 {r r' : Poly} {x x' : Buf UInt8} : SI (poly_cbd_eta2 r x) (poly_cbd_eta2 r' x') := by
  unfold poly_cbd_eta2; si
macro_rules | `(tactic| si_leaf) => `(tactic| with_reducible exact si_poly_cbd_eta2)

theorem si_poly_cbd_eta1 {K : Nat} {r r' : Poly} {x x' : Buf UInt8} : SI (poly_cbd_eta1 K r x) (poly_cbd_eta1 K r' x') := by
  unfold poly_cbd_eta1; si
macro_rules | `(tactic| si_leaf) => `(tactic| with_reducible exact si_poly_cbd_eta1)

theorem si_copyFromState {s s' : Buf W} {so : Nat} : SI (copyFromState s so) (copyFromState s' so) := by
  unfold copyFromState; si
macro_rules | `(tactic| si_leaf) => `(tactic| with_reducible exact si_copyFromState)

theorem si_copyToState {s s' : Buf W} {so : Nat} {A A' : Lanes} : SI (copyToState s so A) (copyToState s' so A') := by
  unfold copyToState; si
macro_rules | `(tactic| si_leaf) => `(tactic| with_reducible exact si_copyToState)

theorem si_permute {s s' : Buf W} {so : Nat} : SI (KeccakF1600_StatePermute s so) (KeccakF1600_StatePermute s' so) := by
  unfold KeccakF1600_StatePermute; si
macro_rules | `(tactic| si_leaf) => `(tactic| with_reducible exact si_permute)

theorem si_extract {s s' : Buf W} {d d' : Buf UInt8} {so dof o l : Nat} : SI (KeccakF1600_StateExtractBytes s so d dof o l) (KeccakF1600_StateExtractBytes s' so d' dof o l) := by
  unfold KeccakF1600_StateExtractBytes; si
macro_rules | `(tactic| si_leaf) => `(tactic| with_reducible exact si_extract)

theorem si_xor {s s' : Buf W} {d d' : Buf UInt8} {so dof o l : Nat} : SI (KeccakF1600_StateXORBytes s so d dof o l) (KeccakF1600_StateXORBytes s' so d' dof o l) := by
  unfold KeccakF1600_StateXORBytes; si
macro_rules | `(tactic| si_leaf) => `(tactic| with_reducible exact si_xor)

theorem si_extract4 {s s' : Buf W} {d d' : Four (Buf UInt8)} {dof o l : Nat} : SI (KeccakF1600x4_StateExtractBytes s d dof o l) (KeccakF1600x4_StateExtractBytes s' d' dof o l) := by
  unfold KeccakF1600x4_StateExtractBytes; si
macro_rules | `(tactic| si_leaf) => `(tactic| with_reducible exact si_extract4)

theorem si_xor4 {s s' : Buf W} {d d' : Four (Buf UInt8)} {dof o l : Nat} : SI (KeccakF1600x4_StateXORBytes s d dof o l) (KeccakF1600x4_StateXORBytes s' d' dof o l) := by
  unfold KeccakF1600x4_StateXORBytes; si
macro_rules | `(tactic| si_leaf) => `(tactic| with_reducible exact si_xor4)

theorem si_permute4 {s s' : Buf W} : SI (KeccakF1600x4_StatePermute s) (KeccakF1600x4_StatePermute s') := by
  unfold KeccakF1600x4_StatePermute; si
macro_rules | `(tactic| si_leaf) => `(tactic| with_reducible exact si_permute4)

end Verif

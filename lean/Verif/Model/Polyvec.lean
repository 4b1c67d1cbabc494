import Verif.Model.Poly
/-! # Vectors of polynomials (`/repo/mlkem/polyvec.c`) -/
namespace Verif.Model

/-- `polyvec_compress_du`, polyvec.c 14-24, writing to `r + ro`. -/
def polyvec_compress_du (K : Nat) (r : Buf UInt8) (ro : Nat) (a : PolyVec) : M (Buf UInt8) := do
  POLYVEC_UBOUND K a 3329
  forN K r fun i r => do
    poly_compress_du K r (ro + i * MLKEM_POLYCOMPRESSEDBYTES_DU K) (← vget a i)

/-- `polyvec_decompress_du`, polyvec.c 26-36, reading from `a + ao`. -/
def polyvec_decompress_du (K : Nat) (r : PolyVec) (a : Buf UInt8) (ao : Nat) : M PolyVec := do
  let r ← forN K r fun i r =>
    vmod r i fun p => poly_decompress_du K p a (ao + i * MLKEM_POLYCOMPRESSEDBYTES_DU K)
  POLYVEC_UBOUND K r 3329
  pure r

/-- `polyvec_tobytes`, polyvec.c 38-45, writing to `r + ro`. -/
def polyvec_tobytes (K : Nat) (r : Buf UInt8) (ro : Nat) (a : PolyVec) : M (Buf UInt8) :=
  forN K r fun i r => do
    poly_tobytes r (ro + i * MLKEM_POLYBYTES) (← vget a i)

/-- `polyvec_frombytes`, polyvec.c 47-54, reading from `a + ao`. -/
def polyvec_frombytes (K : Nat) (r : PolyVec) (a : Buf UInt8) (ao : Nat) : M PolyVec :=
  forN K r fun i r =>
    vmod r i fun p => poly_frombytes p a (ao + i * MLKEM_POLYBYTES)

/-- `polyvec_ntt`, polyvec.c 56-63. -/
def polyvec_ntt (K : Nat) (r : PolyVec) : M PolyVec :=
  forN K r fun i r => vmod r i poly_ntt

/-- `polyvec_invntt_tomont`, polyvec.c 65-72. -/
def polyvec_invntt_tomont (K : Nat) (r : PolyVec) : M PolyVec :=
  forN K r fun i r => vmod r i poly_invntt_tomont

/-- `polyvec_basemul_acc_montgomery_cached`, polyvec.c 93-123 (including the `cassert`). -/
def polyvec_basemul_acc_montgomery_cached (K : Nat) (r : Poly) (a b b_cache : PolyVec) : M Poly := do
  POLYVEC_BOUND K a 3329
  POLYVEC_BOUND K b NTT_BOUND
  MULCACHEVEC_BOUND K b_cache 3329
  let r ← poly_basemul_montgomery_cached r (← vget a 0) (← vget b 0) (← vget b_cache 0)
  let (r, _) ← forFrom 1 (K - 1) (r, newPoly) fun i (r, t) => do
    let t ← poly_basemul_montgomery_cached t (← vget a i) (← vget b i) (← vget b_cache i)
    let r ← poly_add r t
    pure (r, t)
  POLY_BOUND r (K * (3 * HALF_Q - 1) + 1)
  POLY_BOUND r (K * 3 * HALF_Q)
  pure r

/-- `polyvec_mulcache_compute`, polyvec.c 165-172. -/
def polyvec_mulcache_compute (K : Nat) (x a : PolyVec) : M PolyVec :=
  forN K x fun i x => do
    let p ← vget a i
    vmod x i fun c => poly_mulcache_compute c p

/-- `polyvec_basemul_acc_montgomery`, polyvec.c 148-153. -/
def polyvec_basemul_acc_montgomery (K : Nat) (r : Poly) (a b : PolyVec) : M Poly := do
  let b_cache ← polyvec_mulcache_compute K (newCacheVec K) b
  polyvec_basemul_acc_montgomery_cached K r a b b_cache

/-- `polyvec_reduce`, polyvec.c 184-191. -/
def polyvec_reduce (K : Nat) (r : PolyVec) : M PolyVec :=
  forN K r fun i r => vmod r i poly_reduce

/-- `polyvec_add`, polyvec.c 193-200. -/
def polyvec_add (K : Nat) (r b : PolyVec) : M PolyVec :=
  forN K r fun i r => do
    let q ← vget b i
    vmod r i fun p => poly_add p q

/-- `polyvec_tomont`, polyvec.c 202-209. -/
def polyvec_tomont (K : Nat) (r : PolyVec) : M PolyVec :=
  forN K r fun i r => vmod r i poly_tomont

end Verif.Model

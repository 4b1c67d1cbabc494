import Verif.Model.Polyvec
import Verif.Model.Noise
import Verif.Model.RejUniform
/-! # The IND-CPA public-key encryption scheme (`/repo/mlkem/indcpa.c`)

The matrix `polyvec a[K]` is a flat array of `K*K` polynomials; row `i` is at positions `K*i .. K*i+K-1`, as `&a[0].vec[0] + i` in the code
requires.  The two rejection-sampling loops are open-ended in C; they carry a budget `fuel` here, and exhausting it is the error `fuel`. -/
namespace Verif.Model

/-- `pack_pk`, indcpa.c 37-43 (`r` at offset 0, `seed` at `seed + so`). -/
def pack_pk (K : Nat) (r : Buf UInt8) (pk : PolyVec) (seed : Buf UInt8) (so : Nat) : M (Buf UInt8) := do
  POLYVEC_BOUND K pk 3329
  let r ← polyvec_tobytes K r 0 pk
  memcpy r (MLKEM_POLYVECBYTES K) seed so 32

/-- `unpack_pk`, indcpa.c 57-71 (input at `packedpk + po`). -/
def unpack_pk (K : Nat) (pk : PolyVec) (seed : Buf UInt8) (packedpk : Buf UInt8) (po : Nat) : M (PolyVec × Buf UInt8) := do
  let pk ← polyvec_frombytes K pk packedpk po
  let seed ← memcpy seed 0 packedpk (po + MLKEM_POLYVECBYTES K) 32
  let pk ← polyvec_reduce K pk
  pure (pk, seed)

/-- `pack_sk`, indcpa.c 82-86. -/
def pack_sk (K : Nat) (r : Buf UInt8) (sk : PolyVec) : M (Buf UInt8) := do
  POLYVEC_BOUND K sk 3329
  polyvec_tobytes K r 0 sk

/-- `unpack_sk`, indcpa.c 98-103. -/
def unpack_sk (K : Nat) (sk : PolyVec) (packedsk : Buf UInt8) : M PolyVec := do
  let sk ← polyvec_frombytes K sk packedsk 0
  polyvec_reduce K sk

/-- `pack_ciphertext`, indcpa.c 116-120. -/
def pack_ciphertext (K : Nat) (r : Buf UInt8) (b : PolyVec) (v : Poly) : M (Buf UInt8) := do
  let r ← polyvec_compress_du K r 0 b
  poly_compress_dv K r (MLKEM_POLYVECCOMPRESSEDBYTES_DU K) v

/-- `unpack_ciphertext`, indcpa.c 132-137. -/
def unpack_ciphertext (K : Nat) (b : PolyVec) (v : Poly) (c : Buf UInt8) : M (PolyVec × Poly) := do
  let b ← polyvec_decompress_du K b c 0
  let v ← poly_decompress_dv K v c (MLKEM_POLYVECCOMPRESSEDBYTES_DU K)
  pure (b, v)

/-- `MLKEM_GEN_MATRIX_NBLOCKS`, indcpa.c 139-142. -/
def MLKEM_GEN_MATRIX_NBLOCKS : Nat := (12 * 256 / 8 * (1 <<< 12) / 3329 + SHAKE128_RATE) / SHAKE128_RATE

/-- `gen_matrix_entry_x4`, indcpa.c 149-215. `ctr` values are `unsigned int`. -/
def gen_matrix_entry_x4 (fuel : Nat) (vec : Four Poly) (seed : Four (Buf UInt8)) : M (Four Poly) := do
  let buf := Four.rep (Buf.uninit UInt8 (MLKEM_GEN_MATRIX_NBLOCKS * SHAKE128_RATE))
  let statex ← shake128x4_absorb (Buf.uninit W 100) seed 0 (32 + 2)
  let (buf, statex) ← shake128x4_squeezeblocks buf 0 MLKEM_GEN_MATRIX_NBLOCKS statex
  let buflen := MLKEM_GEN_MATRIX_NBLOCKS * SHAKE128_RATE
  let (v0, c0) ← rej_uniform vec.x0 256 0 buf.x0 buflen
  let (v1, c1) ← rej_uniform vec.x1 256 0 buf.x1 buflen
  let (v2, c2) ← rej_uniform vec.x2 256 0 buf.x2 buflen
  let (v3, c3) ← rej_uniform vec.x3 256 0 buf.x3 buflen
  let buflen := SHAKE128_RATE
  let (vec, _, _, _) ← whileM fuel
    (fun ((_, ctr, _, _) : Four Poly × Four Nat × Four (Buf UInt8) × Buf W) => do
      branch (decide (ctr.x0 < 256)) (pure true)
        (branch (decide (ctr.x1 < 256)) (pure true)
          (branch (decide (ctr.x2 < 256)) (pure true)
            (pure (decide (ctr.x3 < 256))))))
    (fun (vec, ctr, buf, statex) => do
      let (buf, statex) ← shake128x4_squeezeblocks buf 0 1 statex
      let (v0, c0) ← rej_uniform vec.x0 256 ctr.x0 buf.x0 buflen
      let (v1, c1) ← rej_uniform vec.x1 256 ctr.x1 buf.x1 buflen
      let (v2, c2) ← rej_uniform vec.x2 256 ctr.x2 buf.x2 buflen
      let (v3, c3) ← rej_uniform vec.x3 256 ctr.x3 buf.x3 buflen
      pure (⟨v0, v1, v2, v3⟩, ⟨c0, c1, c2, c3⟩, buf, statex))
    ((⟨v0, v1, v2, v3⟩ : Four Poly), (⟨c0, c1, c2, c3⟩ : Four Nat), buf, statex)
  pure vec

/-- `gen_matrix_entry`, indcpa.c 222-256. -/
def gen_matrix_entry (fuel : Nat) (entry : Poly) (seed : Buf UInt8) : M Poly := do
  let buf := Buf.uninit UInt8 (MLKEM_GEN_MATRIX_NBLOCKS * SHAKE128_RATE)
  let state ← shake128_absorb (Buf.uninit W 25) seed 0 (32 + 2)
  let (buf, state) ← shake128_squeezeblocks buf 0 MLKEM_GEN_MATRIX_NBLOCKS state
  let buflen := MLKEM_GEN_MATRIX_NBLOCKS * SHAKE128_RATE
  let (entry, ctr) ← rej_uniform entry 256 0 buf buflen
  let (entry, _, _, _) ← whileM fuel
    (fun (_, ctr, _, _) => pure (decide (ctr < 256)))
    (fun (entry, ctr, buf, state) => do
      let (buf, state) ← shake128_squeezeblocks buf 0 1 state
      let (entry, ctr) ← rej_uniform entry 256 ctr buf SHAKE128_RATE
      pure (entry, ctr, buf, state))
    (entry, ctr, buf, state)
  pure entry

/-- `x = i / MLKEM_K; y = i % MLKEM_K; seedxy[32 + 0] = x; seedxy[32 + 1] = y` (or swapped), indcpa.c 302-316 and 328-340. -/
def setSeed (K : Nat) (seed : Buf UInt8) (i : Nat) (transposed : Bool) : M (Buf UInt8) := do
  let x ← divM i K
  let y ← modM i K
  branch transposed
    (do let s ← wr seed (32 + 0) (toU8 x); wr s (32 + 1) (toU8 y))
    (do let s ← wr seed (32 + 0) (toU8 y); wr s (32 + 1) (toU8 x))

/-- `gen_matrix`, indcpa.c 271-362 (C backend: no `MLKEM_USE_NATIVE_NTT_CUSTOM_ORDER`); `seed` at `seed + so`.
The loops over `j < KECCAK_WAY` are unrolled; the loop `for (i = 0; i < (K*K/4)*4; i += 4)` runs `K*K/4` times with `i = 4*t`. -/
def gen_matrix (K fuel : Nat) (a : PolyVec) (seed : Buf UInt8) (so : Nat) (transposed : Bool) : M PolyVec := do
  let s0 ← memcpy (Buf.uninit UInt8 (32 + 2)) 0 seed so 32
  let s1 ← memcpy (Buf.uninit UInt8 (32 + 2)) 0 seed so 32
  let s2 ← memcpy (Buf.uninit UInt8 (32 + 2)) 0 seed so 32
  let s3 ← memcpy (Buf.uninit UInt8 (32 + 2)) 0 seed so 32
  let (a, s) ← forN (K * K / 4) (a, (⟨s0, s1, s2, s3⟩ : Four (Buf UInt8))) fun t (a, s) => do
    let i := 4 * t
    let s0 ← setSeed K s.x0 (i + 0) transposed
    let s1 ← setSeed K s.x1 (i + 1) transposed
    let s2 ← setSeed K s.x2 (i + 2) transposed
    let s3 ← setSeed K s.x3 (i + 3) transposed
    let vec ← gen_matrix_entry_x4 fuel ⟨← vget a (i + 0), ← vget a (i + 1), ← vget a (i + 2), ← vget a (i + 3)⟩ ⟨s0, s1, s2, s3⟩
    let a ← vset a (i + 0) vec.x0
    let a ← vset a (i + 1) vec.x1
    let a ← vset a (i + 2) vec.x2
    let a ← vset a (i + 3) vec.x3
    pure (a, ⟨s0, s1, s2, s3⟩)
  let i := 4 * (K * K / 4)
  let (a, i) ← branch (decide (i < K * K))
    (do
      let s0 ← setSeed K s.x0 i transposed
      let e ← gen_matrix_entry fuel (← vget a i) s0
      let a ← vset a i e
      pure (a, i + 1))
    (pure (a, i))
  assertM (decide (i = K * K))
  pure a

/-- `&a[i]`: row `i` of a flattened `K x K` matrix.  No line of /repo of its own: `a[i]` for the type `polyvec` in indcpa.c 378. -/
def matRow (K : Nat) (a : PolyVec) (i : Nat) : M PolyVec :=
  if K * i + K ≤ a.size then M.ret (a.extract (K * i) (K * i + K)) else M.fail .oob

/-- `matvec_mul`, indcpa.c 378-398. -/
def matvec_mul (K : Nat) (out : PolyVec) (a : PolyVec) (v vc : PolyVec) : M PolyVec :=
  forN K out fun i out => do
    let row ← matRow K a i
    vmod out i fun o => polyvec_basemul_acc_montgomery_cached K o row v vc

/-- The noise-sampling part of `indcpa_keypair_derand`, indcpa.c 434-456: `(skpv, e, pkpv)`, noise seed at `seed + so`. -/
def keypairNoise (K : Nat) (skpv e pkpv : PolyVec) (seed : Buf UInt8) (so : Nat) : M (PolyVec × PolyVec × PolyVec) :=
  if K = 2 then do
    let r ← poly_getnoise_eta1_4x K ⟨← vget skpv 0, ← vget skpv 1, ← vget e 0, ← vget e 1⟩ seed so ⟨0, 1, 2, 3⟩
    let skpv ← vset skpv 0 r.x0
    let skpv ← vset skpv 1 r.x1
    let e ← vset e 0 r.x2
    let e ← vset e 1 r.x3
    pure (skpv, e, pkpv)
  else if K = 3 then do
    let r ← poly_getnoise_eta1_4x K ⟨← vget skpv 0, ← vget skpv 1, ← vget skpv 2, ← vget pkpv 0⟩ seed so ⟨0, 1, 2, 0xFF⟩
    let skpv ← vset skpv 0 r.x0
    let skpv ← vset skpv 1 r.x1
    let skpv ← vset skpv 2 r.x2
    let pkpv ← vset pkpv 0 r.x3
    let r ← poly_getnoise_eta1_4x K ⟨← vget e 0, ← vget e 1, ← vget e 2, ← vget pkpv 0⟩ seed so ⟨3, 4, 5, 0xFF⟩
    let e ← vset e 0 r.x0
    let e ← vset e 1 r.x1
    let e ← vset e 2 r.x2
    let pkpv ← vset pkpv 0 r.x3
    pure (skpv, e, pkpv)
  else do
    let r ← poly_getnoise_eta1_4x K ⟨← vget skpv 0, ← vget skpv 1, ← vget skpv 2, ← vget skpv 3⟩ seed so ⟨0, 1, 2, 3⟩
    let skpv ← vset skpv 0 r.x0
    let skpv ← vset skpv 1 r.x1
    let skpv ← vset skpv 2 r.x2
    let skpv ← vset skpv 3 r.x3
    let r ← poly_getnoise_eta1_4x K ⟨← vget e 0, ← vget e 1, ← vget e 2, ← vget e 3⟩ seed so ⟨4, 5, 6, 7⟩
    let e ← vset e 0 r.x0
    let e ← vset e 1 r.x1
    let e ← vset e 2 r.x2
    let e ← vset e 3 r.x3
    pure (skpv, e, pkpv)

/-- `indcpa_keypair_derand`, indcpa.c 416-471; returns `(pk, sk)`. -/
def indcpa_keypair_derand (K fuel : Nat) (pk sk coins : Buf UInt8) : M (Buf UInt8 × Buf UInt8) := do
  let cds ← memcpy (Buf.uninit UInt8 (32 + 1)) 0 coins 0 32
  let cds ← wr cds 32 (toU8 K)
  let buf ← hash_g (Buf.uninit UInt8 (2 * 32)) 0 cds 0 (32 + 1)
  let a ← gen_matrix K fuel (newVec (K * K)) buf 0 false
  let (skpv, e, pkpv) ← keypairNoise K (newVec K) (newVec K) (newVec K) buf 32
  let skpv ← polyvec_ntt K skpv
  let e ← polyvec_ntt K e
  let skpv_cache ← polyvec_mulcache_compute K (newCacheVec K) skpv
  let pkpv ← matvec_mul K pkpv a skpv skpv_cache
  let pkpv ← polyvec_tomont K pkpv
  let pkpv ← polyvec_add K pkpv e
  let pkpv ← polyvec_reduce K pkpv
  let skpv ← polyvec_reduce K skpv
  let sk ← pack_sk K sk skpv
  let pk ← pack_pk K pk pkpv buf 0
  pure (pk, sk)

/-- The noise-sampling part of `indcpa_enc`, indcpa.c 508-530: `(sp, ep, epp, b)`, coins at `coins + co`. -/
def encNoise (K : Nat) (sp ep : PolyVec) (epp : Poly) (b : PolyVec) (coins : Buf UInt8) (co : Nat) :
    M (PolyVec × PolyVec × Poly × PolyVec) :=
  if K = 2 then do
    let r ← poly_getnoise_eta1122_4x K ⟨← vget sp 0, ← vget sp 1, ← vget ep 0, ← vget ep 1⟩ coins co ⟨0, 1, 2, 3⟩
    let sp ← vset sp 0 r.x0
    let sp ← vset sp 1 r.x1
    let ep ← vset ep 0 r.x2
    let ep ← vset ep 1 r.x3
    let epp ← poly_getnoise_eta2 K epp coins co 4
    pure (sp, ep, epp, b)
  else if K = 3 then do
    let r ← poly_getnoise_eta1_4x K ⟨← vget sp 0, ← vget sp 1, ← vget sp 2, ← vget b 0⟩ coins co ⟨0, 1, 2, 0xFF⟩
    let sp ← vset sp 0 r.x0
    let sp ← vset sp 1 r.x1
    let sp ← vset sp 2 r.x2
    let b ← vset b 0 r.x3
    let r ← poly_getnoise_eta2_4x K ⟨← vget ep 0, ← vget ep 1, ← vget ep 2, epp⟩ coins co ⟨3, 4, 5, 6⟩
    let ep ← vset ep 0 r.x0
    let ep ← vset ep 1 r.x1
    let ep ← vset ep 2 r.x2
    pure (sp, ep, r.x3, b)
  else do
    let r ← poly_getnoise_eta1_4x K ⟨← vget sp 0, ← vget sp 1, ← vget sp 2, ← vget sp 3⟩ coins co ⟨0, 1, 2, 3⟩
    let sp ← vset sp 0 r.x0
    let sp ← vset sp 1 r.x1
    let sp ← vset sp 2 r.x2
    let sp ← vset sp 3 r.x3
    let r ← poly_getnoise_eta2_4x K ⟨← vget ep 0, ← vget ep 1, ← vget ep 2, ← vget ep 3⟩ coins co ⟨4, 5, 6, 7⟩
    let ep ← vset ep 0 r.x0
    let ep ← vset ep 1 r.x1
    let ep ← vset ep 2 r.x2
    let ep ← vset ep 3 r.x3
    let epp ← poly_getnoise_eta2 K epp coins co 8
    pure (sp, ep, epp, b)

/-- `indcpa_enc`, indcpa.c 494-548; message at `m + mo`, public key at `pk + po`, coins at `coins + co`. -/
def indcpa_enc (K fuel : Nat) (c : Buf UInt8) (m : Buf UInt8) (mo : Nat) (pk : Buf UInt8) (po : Nat)
    (coins : Buf UInt8) (co : Nat) : M (Buf UInt8) := do
  let (pkpv, seed) ← unpack_pk K (newVec K) (Buf.uninit UInt8 32) pk po
  let k ← poly_frommsg newPoly m mo
  let at' ← gen_matrix K fuel (newVec (K * K)) seed 0 true
  let (sp, ep, epp, b) ← encNoise K (newVec K) (newVec K) newPoly (newVec K) coins co
  let sp ← polyvec_ntt K sp
  let sp_cache ← polyvec_mulcache_compute K (newCacheVec K) sp
  let b ← matvec_mul K b at' sp sp_cache
  let v ← polyvec_basemul_acc_montgomery_cached K newPoly pkpv sp sp_cache
  let b ← polyvec_invntt_tomont K b
  let v ← poly_invntt_tomont v
  let b ← polyvec_add K b ep
  let v ← poly_add v epp
  let v ← poly_add v k
  let b ← polyvec_reduce K b
  let v ← poly_reduce v
  pack_ciphertext K c b v

/-- `indcpa_dec`, indcpa.c 553-572 (message written to `m`). -/
def indcpa_dec (K : Nat) (m : Buf UInt8) (c : Buf UInt8) (sk : Buf UInt8) : M (Buf UInt8) := do
  let (b, v) ← unpack_ciphertext K (newVec K) newPoly c
  let skpv ← unpack_sk K (newVec K) sk
  let b ← polyvec_ntt K b
  let sb ← polyvec_basemul_acc_montgomery K newPoly skpv b
  let sb ← poly_invntt_tomont sb
  let v ← poly_sub v sb
  let v ← poly_reduce v
  poly_tomsg m 0 v

end Verif.Model

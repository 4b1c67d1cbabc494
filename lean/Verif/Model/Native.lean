import Verif.Model.Kem
import Verif.Model.X86Poly
import Verif.Model.X86Keccak
/-! # The library on top of an arbitrary backend

`/repo` selects, by preprocessor macros (`MLKEM_USE_NATIVE_*` in `/repo/mlkem/native/arith_native.h`, `MLKEM_USE_FIPS202_X{1,2,4}_NATIVE` in `/repo/fips202`), either the portable C code or a native replacement for a
fixed set of functions.  `Backend` is that set of functions; everything above them (`/repo/fips202/fips202{,x4}.c`, `/repo/mlkem/{symmetric-shake,poly,polyvec,indcpa,kem}.c`) is modelled here as in
`Verif.Model.{Fips202,Fips202x4,Symmetric,Noise,Polyvec,Indcpa,Kem}`, with the calls going to the backend.  `portable` and `x86_64` are defined here, `aarch64` in `Verif.Model.NativeA64`; with `portable` the functions here are, by
definition, those of `Verif.Model` (`Verif.Proof.Native`).

Functions that call none of the replaceable functions are used from `Verif.Model` directly. -/
namespace Verif.Native
open Verif.Model

/-- The functions a native backend may replace, each as seen by its callers (with the debug checks around the native call).  The names and declarations: mlkem/native/arith_native.h 45-250 and fips202/native/fips202_native.h. -/
structure Backend where
  /-- `KeccakF1600_StatePermute`, keccakf1600.c 120-391, on `state + so`. -/
  KeccakF1600_StatePermute : Buf W → Nat → M (Buf W)
  /-- `KeccakF1600x4_StatePermute`, keccakf1600.c 90-103. -/
  KeccakF1600x4_StatePermute : Buf W → M (Buf W)
  /-- `rej_uniform`, rej_uniform.c 71-89. -/
  rej_uniform : Poly → Nat → Nat → Buf UInt8 → Nat → M (Poly × Nat)
  /-- `poly_permute_bitrev_to_custom`, arith_native.h 82-97, if `MLKEM_USE_NATIVE_NTT_CUSTOM_ORDER` is defined. -/
  poly_permute_bitrev_to_custom : Option (Poly → M Poly)
  /-- `poly_ntt`, ntt.c 128-156. -/
  poly_ntt : Poly → M Poly
  /-- `poly_invntt_tomont`, ntt.c 203-242. -/
  poly_invntt_tomont : Poly → M Poly
  /-- `poly_reduce`, poly.c 497-520. -/
  poly_reduce : Poly → M Poly
  /-- `poly_tomont`, poly.c 474-495. -/
  poly_tomont : Poly → M Poly
  /-- `poly_tobytes`, poly.c 266-304, writing to `r + ro`. -/
  poly_tobytes : Buf UInt8 → Nat → Poly → M (Buf UInt8)
  /-- `poly_frombytes`, poly.c 308-332, reading from `a + ao`. -/
  poly_frombytes : Poly → Buf UInt8 → Nat → M Poly
  /-- `poly_mulcache_compute`, poly.c 549-568. -/
  poly_mulcache_compute : Poly → Poly → M Poly
  /-- `polyvec_basemul_acc_montgomery_cached`, polyvec.c 93-135. -/
  polyvec_basemul_acc_montgomery_cached : Nat → Poly → PolyVec → PolyVec → PolyVec → M Poly

/-- The portable C code: no native function (`MLKEM_USE_NATIVE_BACKEND_ARITH` and `MLKEM_USE_NATIVE_BACKEND_FIPS202` undefined).  The functions are cited where the portable model defines them. -/
def portable : Backend where
  KeccakF1600_StatePermute := Model.KeccakF1600_StatePermute
  KeccakF1600x4_StatePermute := Model.KeccakF1600x4_StatePermute
  rej_uniform := Model.rej_uniform
  poly_permute_bitrev_to_custom := none
  poly_ntt := Model.poly_ntt
  poly_invntt_tomont := Model.poly_invntt_tomont
  poly_reduce := Model.poly_reduce
  poly_tomont := Model.poly_tomont
  poly_tobytes := Model.poly_tobytes
  poly_frombytes := Model.poly_frombytes
  poly_mulcache_compute := Model.poly_mulcache_compute
  polyvec_basemul_acc_montgomery_cached := Model.polyvec_basemul_acc_montgomery_cached

/-- The contents of the vector registers when the assembly functions are entered.  Simplification: they may depend on the function and on the polynomial it is called with,
not on anything else.  No line of /repo of its own. -/
structure Regs where
  permute : Poly → Nat → X86.Ymm
  ntt : Poly → Nat → X86.Ymm
  intt : Poly → Nat → X86.Ymm
  reduce : Poly → Nat → X86.Ymm
  tomont : Poly → Nat → X86.Ymm
  tobytes : Poly → Nat → X86.Ymm
  frombytes : Poly → Nat → X86.Ymm
  basemul : Poly → Nat → Nat → X86.Ymm

/-- The AVX2 backend: `/repo/mlkem/native/x86_64/profiles/default.h` and `/repo/fips202/native/x86_64/profiles/xkcp.h`.  mlkem/native/x86_64/profiles/default.h 21-98 and fips202/native/x86_64/profiles/xkcp.h 18-21. -/
def x86_64 (g : Regs) : Backend where
  KeccakF1600_StatePermute := Model.KeccakF1600_StatePermute
  KeccakF1600x4_StatePermute := keccak_f1600_x4_native
  rej_uniform := rej_uniform_x86
  poly_permute_bitrev_to_custom := some fun p => X86.poly_permute_bitrev_to_custom (g.permute p) p
  poly_ntt := fun p => X86.poly_ntt (g.ntt p) p
  poly_invntt_tomont := fun p => X86.poly_invntt_tomont (g.intt p) p
  poly_reduce := fun p => X86.poly_reduce (g.reduce p) p
  poly_tomont := fun p => X86.poly_tomont (g.tomont p) p
  poly_tobytes := fun r ro a => X86.poly_tobytes (g.tobytes a) r ro a
  poly_frombytes := fun r a ao => X86.poly_frombytes (g.frombytes r) r a ao
  poly_mulcache_compute := X86.poly_mulcache_compute_native
  polyvec_basemul_acc_montgomery_cached := fun K r a b c => X86.polyvec_basemul_acc_montgomery_cached K (g.basemul r) r a b c

/-- The AVX2 backend with `BMI` defined in `/repo/mlkem/native/x86_64/rej_uniform_avx2.c` (line 23, a comment by default).  rej_uniform_avx2.c 23. -/
def x86_64_bmi (g : Regs) : Backend := { x86_64 g with rej_uniform := rej_uniform_x86_bmi }

/-! ## SHA3, SHAKE (as in `Verif.Model.Fips202`) -/

/-- `keccak_absorb`, fips202.c 37-64, on input `m + mo`.  As in the code, the state is not zeroed here. -/
def keccak_absorb (bk : Backend) (s : Buf W) (r : Nat) (m : Buf UInt8) (mo mlen : Nat) (p : UInt8) : M (Buf W) := do
  let (s, mo, mlen) ← whileM mlen
    (fun (_, _, mlen) => pure (decide (mlen ≥ r)))
    (fun (s, mo, mlen) => do
      let s ← KeccakF1600_StateXORBytes s 0 m mo 0 r
      let s ← bk.KeccakF1600_StatePermute s 0
      pure (s, mo + r, mlen - r))
    (s, mo, mlen)
  let s ← branch (decide (mlen > 0))
    (KeccakF1600_StateXORBytes s 0 m mo 0 (u32 mlen))
    (pure s)
  branch (decide (mlen = sub32 r 1))
    (KeccakF1600_StateXORBytes s 0 (Buf.ofList [p ||| 128]) 0 (u32 mlen) 1)
    (do
      let s ← KeccakF1600_StateXORBytes s 0 (Buf.ofList [p]) 0 (u32 mlen) 1
      KeccakF1600_StateXORBytes s 0 (Buf.ofList [128]) 0 (sub32 r 1) 1)

/-- `keccak_squeezeblocks`, fips202.c 78-88, writing to `h + ho`. -/
def keccak_squeezeblocks (bk : Backend) (h : Buf UInt8) (ho nblocks : Nat) (s : Buf W) (r : Nat) : M (Buf UInt8 × Buf W) := do
  let (h, s, _, _) ← whileM nblocks
    (fun (_, _, _, nblocks) => pure (decide (nblocks > 0)))
    (fun (h, s, ho, nblocks) => do
      let s ← bk.KeccakF1600_StatePermute s 0
      let h ← KeccakF1600_StateExtractBytes s 0 h ho 0 r
      pure (h, s, ho + r, nblocks - 1))
    (h, s, ho, nblocks)
  pure (h, s)

/-- `keccak_inc_absorb`, fips202.c 124-140, on input `m + mo`. -/
def keccak_inc_absorb (bk : Backend) (s_inc : Buf W) (r : Nat) (m : Buf UInt8) (mo mlen : Nat) : M (Buf W) := do
  let (s, mo, mlen) ← whileM (mlen + 1)
    (fun (s, _, mlen) => do pure (decide (u64 (mlen + (← rd s 25).toNat) ≥ r)))
    (fun (s, mo, mlen) => do
      let c := (← rd s 25).toNat
      let s ← KeccakF1600_StateXORBytes s 0 m mo (u32 c) (u32 (sub64 r c))
      let mlen := sub64 mlen (sub64 r c)
      let mo := mo + sub64 r c
      let s ← wr s 25 0#64
      let s ← bk.KeccakF1600_StatePermute s 0
      pure (s, mo, mlen))
    (s_inc, mo, mlen)
  let s ← KeccakF1600_StateXORBytes s 0 m mo (u32 (← rd s 25).toNat) (u32 mlen)
  wr s 25 ((← rd s 25) + BitVec.ofNat 64 mlen)

/-- `keccak_inc_squeeze`, fips202.c 186-222, writing to `h + ho`. -/
def keccak_inc_squeeze (bk : Backend) (h : Buf UInt8) (ho outlen : Nat) (s_inc : Buf W) (r : Nat) : M (Buf UInt8 × Buf W) := do
  let c := (← rd s_inc 25).toNat
  let len ← branch (decide (outlen < c)) (pure outlen) (pure c)
  let h ← KeccakF1600_StateExtractBytes s_inc 0 h ho (u32 (sub64 r c)) (u32 len)
  let s ← wr s_inc 25 (BitVec.ofNat 64 (sub64 c len))
  let (h, s, _, _) ← whileM outlen
    (fun (_, _, _, outlen) => pure (decide (outlen > 0)))
    (fun (h, s, ho, outlen) => do
      let s ← bk.KeccakF1600_StatePermute s 0
      let len ← branch (decide (outlen < r)) (pure outlen) (pure r)
      let h ← KeccakF1600_StateExtractBytes s 0 h ho 0 (u32 len)
      let s ← wr s 25 (BitVec.ofNat 64 (sub64 r len))
      pure (h, s, ho + len, sub64 outlen len))
    (h, s, ho + len, sub64 outlen len)
  pure (h, s)

/-- `shake256_inc_absorb`, fips202.c 226-230. -/
def shake256_inc_absorb (bk : Backend) (st : Buf W) (input : Buf UInt8) (io inlen : Nat) : M (Buf W) :=
  keccak_inc_absorb bk st SHAKE256_RATE input io inlen

/-- `shake256_inc_squeeze`, fips202.c 237-240. -/
def shake256_inc_squeeze (bk : Backend) (output : Buf UInt8) (oo outlen : Nat) (st : Buf W) : M (Buf UInt8 × Buf W) :=
  keccak_inc_squeeze bk output oo outlen st SHAKE256_RATE

/-- `shake128_absorb`, fips202.c 256-265. -/
def shake128_absorb (bk : Backend) (st : Buf W) (input : Buf UInt8) (io inlen : Nat) : M (Buf W) := do
  let s ← forN 25 st fun i s => wr s i 0#64
  keccak_absorb bk s SHAKE128_RATE input io inlen 0x1F

/-- `shake128_squeezeblocks`, fips202.c 279-282. -/
def shake128_squeezeblocks (bk : Backend) (output : Buf UInt8) (oo nblocks : Nat) (st : Buf W) : M (Buf UInt8 × Buf W) :=
  keccak_squeezeblocks bk output oo nblocks st SHAKE128_RATE

/-- `shake256`, fips202.c 297-310: output to `output + oo`, input from `input + io`. -/
def shake256 (bk : Backend) (output : Buf UInt8) (oo outlen : Nat) (input : Buf UInt8) (io inlen : Nat) : M (Buf UInt8) := do
  let s ← keccak_inc_init (Buf.uninit W 26)
  let s ← keccak_inc_absorb bk s SHAKE256_RATE input io inlen
  let s ← keccak_inc_finalize s SHAKE256_RATE 0x1F
  let (output, _) ← keccak_inc_squeeze bk output oo outlen s SHAKE256_RATE
  pure output

/-- `sha3_256`, fips202.c 321-332. -/
def sha3_256 (bk : Backend) (output : Buf UInt8) (oo : Nat) (input : Buf UInt8) (io inlen : Nat) : M (Buf UInt8) := do
  let s ← keccak_inc_init (Buf.uninit W 26)
  let s ← keccak_inc_absorb bk s SHA3_256_RATE input io inlen
  let s ← keccak_inc_finalize s SHA3_256_RATE 0x06
  let (output, _) ← keccak_inc_squeeze bk output oo 32 s SHA3_256_RATE
  pure output

/-- `sha3_512`, fips202.c 343-354. -/
def sha3_512 (bk : Backend) (output : Buf UInt8) (oo : Nat) (input : Buf UInt8) (io inlen : Nat) : M (Buf UInt8) := do
  let s ← keccak_inc_init (Buf.uninit W 26)
  let s ← keccak_inc_absorb bk s SHA3_512_RATE input io inlen
  let s ← keccak_inc_finalize s SHA3_512_RATE 0x06
  let (output, _) ← keccak_inc_squeeze bk output oo 64 s SHA3_512_RATE
  pure output

/-! ## Four-way SHAKE (as in `Verif.Model.Fips202x4`) -/

/-- `keccak_absorb_x4`, fips202x4.c 10-45. -/
def keccak_absorb_x4 (bk : Backend) (s : Buf W) (r : Nat) (inp : Four (Buf UInt8)) (io inlen : Nat) (p : UInt8) : M (Buf W) := do
  let (s, io, inlen) ← whileM inlen
    (fun (_, _, inlen) => pure (decide (inlen ≥ r)))
    (fun (s, io, inlen) => do
      let s ← KeccakF1600x4_StateXORBytes s inp io 0 r
      let s ← bk.KeccakF1600x4_StatePermute s
      pure (s, io + r, inlen - r))
    (s, io, inlen)
  let s ← branch (decide (inlen > 0))
    (KeccakF1600x4_StateXORBytes s inp io 0 (u32 inlen))
    (pure s)
  branch (decide (inlen = sub32 r 1))
    (KeccakF1600x4_StateXORBytes s (Four.rep (Buf.ofList [p ||| 128])) 0 (u32 inlen) 1)
    (do
      let s ← KeccakF1600x4_StateXORBytes s (Four.rep (Buf.ofList [p])) 0 (u32 inlen) 1
      KeccakF1600x4_StateXORBytes s (Four.rep (Buf.ofList [128])) 0 (sub32 r 1) 1)

/-- `keccak_squeezeblocks_x4`, fips202x4.c 47-64. -/
def keccak_squeezeblocks_x4 (bk : Backend) (out : Four (Buf UInt8)) (oo nblocks : Nat) (s : Buf W) (r : Nat) : M (Four (Buf UInt8) × Buf W) := do
  let (out, s, _, _) ← whileM nblocks
    (fun (_, _, _, nblocks) => pure (decide (nblocks > 0)))
    (fun (out, s, oo, nblocks) => do
      let s ← bk.KeccakF1600x4_StatePermute s
      let out ← KeccakF1600x4_StateExtractBytes s out oo 0 r
      pure (out, s, oo + r, nblocks - 1))
    (out, s, oo, nblocks)
  pure (out, s)

/-- `shake128x4_absorb`, fips202x4.c 66-72. -/
def shake128x4_absorb (bk : Backend) (st : Buf W) (inp : Four (Buf UInt8)) (io inlen : Nat) : M (Buf W) := do
  let s ← zeroState_x4 st
  keccak_absorb_x4 bk s SHAKE128_RATE inp io inlen 0x1F

/-- `shake256x4_absorb`, fips202x4.c 74-80. -/
def shake256x4_absorb (bk : Backend) (st : Buf W) (inp : Four (Buf UInt8)) (io inlen : Nat) : M (Buf W) := do
  let s ← zeroState_x4 st
  keccak_absorb_x4 bk s SHAKE256_RATE inp io inlen 0x1F

/-- `shake128x4_squeezeblocks`, fips202x4.c 83-89. -/
def shake128x4_squeezeblocks (bk : Backend) (out : Four (Buf UInt8)) (oo nblocks : Nat) (st : Buf W) : M (Four (Buf UInt8) × Buf W) :=
  keccak_squeezeblocks_x4 bk out oo nblocks st SHAKE128_RATE

/-- `shake256x4_squeezeblocks`, fips202x4.c 91-97. -/
def shake256x4_squeezeblocks (bk : Backend) (out : Four (Buf UInt8)) (oo nblocks : Nat) (st : Buf W) : M (Four (Buf UInt8) × Buf W) :=
  keccak_squeezeblocks_x4 bk out oo nblocks st SHAKE256_RATE

/-- `shake256x4`, fips202x4.c 103-129; outputs at offset 0. -/
def shake256x4 (bk : Backend) (out : Four (Buf UInt8)) (outlen : Nat) (inp : Four (Buf UInt8)) (io inlen : Nat) : M (Four (Buf UInt8)) := do
  let nblocks := outlen / SHAKE256_RATE
  let statex ← shake256x4_absorb bk (Buf.uninit W 100) inp io inlen
  let (out, statex) ← shake256x4_squeezeblocks bk out 0 nblocks statex
  let oo := nblocks * SHAKE256_RATE
  let outlen := outlen - nblocks * SHAKE256_RATE
  branch (decide (outlen ≠ 0))
    (do
      let (tmp, _) ← shake256x4_squeezeblocks bk (Four.rep (Buf.uninit UInt8 SHAKE256_RATE)) 0 1 statex
      let o0 ← memcpy out.x0 oo tmp.x0 0 outlen
      let o1 ← memcpy out.x1 oo tmp.x1 0 outlen
      let o2 ← memcpy out.x2 oo tmp.x2 0 outlen
      let o3 ← memcpy out.x3 oo tmp.x3 0 outlen
      pure ⟨o0, o1, o2, o3⟩)
    (pure out)

/-! ## Hash functions of ML-KEM (as in `Verif.Model.Symmetric`) -/

/-- `hash_h`, symmetric.h 72. -/
def hash_h (bk : Backend) := sha3_256 bk

/-- `hash_g`, symmetric.h 75. -/
def hash_g (bk : Backend) := sha3_512 bk

/-- `mlkem_shake256_prf`, symmetric-shake.c 12-21, with key at `key + ko`. -/
def prf (bk : Backend) (out : Buf UInt8) (outlen : Nat) (key : Buf UInt8) (ko : Nat) (nonce : UInt8) : M (Buf UInt8) := do
  let extkey ← memcpy (Buf.uninit UInt8 (32 + 1)) 0 key ko 32
  let extkey ← wr extkey 32 nonce
  shake256 bk out 0 outlen extkey 0 (32 + 1)

/-- `mlkem_shake256_rkprf`, symmetric-shake.c 23-35, with key at `key + ko` and output at `out`. -/
def rkprf (bk : Backend) (K : Nat) (out : Buf UInt8) (key : Buf UInt8) (ko : Nat) (input : Buf UInt8) : M (Buf UInt8) := do
  let s ← shake256_inc_init (Buf.uninit W 26)
  let s ← shake256_inc_absorb bk s key ko 32
  let s ← shake256_inc_absorb bk s input 0 (MLKEM_CIPHERTEXTBYTES K)
  let s ← shake256_inc_finalize s
  let (out, _) ← shake256_inc_squeeze bk out 0 32 s
  pure out

/-! ## Noise sampling (as in `Verif.Model.Noise`) -/

/-- `poly_getnoise_eta1_4x`, poly.c 380-405, with seed at `seed + so`. -/
def poly_getnoise_eta1_4x (bk : Backend) (K : Nat) (r : Four Poly) (seed : Buf UInt8) (so : Nat) (nonce : Four UInt8) : M (Four Poly) := do
  let e0 ← extKey seed so
  let e1 ← extKey seed so
  let e2 ← extKey seed so
  let e3 ← extKey seed so
  let e0 ← wr e0 32 nonce.x0
  let e1 ← wr e1 32 nonce.x1
  let e2 ← wr e2 32 nonce.x2
  let e3 ← wr e3 32 nonce.x3
  let buf ← shake256x4 bk (Four.rep (Buf.uninit UInt8 (MLKEM_ETA1 K * 256 / 4))) (MLKEM_ETA1 K * 256 / 4) ⟨e0, e1, e2, e3⟩ 0 (32 + 1)
  let r0 ← poly_cbd_eta1 K r.x0 buf.x0
  let r1 ← poly_cbd_eta1 K r.x1 buf.x1
  let r2 ← poly_cbd_eta1 K r.x2 buf.x2
  let r3 ← poly_cbd_eta1 K r.x3 buf.x3
  POLY_BOUND r0 (MLKEM_ETA1 K + 1)
  POLY_BOUND r1 (MLKEM_ETA1 K + 1)
  POLY_BOUND r2 (MLKEM_ETA1 K + 1)
  POLY_BOUND r3 (MLKEM_ETA1 K + 1)
  pure ⟨r0, r1, r2, r3⟩

/-- `poly_getnoise_eta2_4x`: poly.h defines it as an alias of `poly_getnoise_eta1_4x` when `MLKEM_ETA1 == MLKEM_ETA2`
(K = 3, 4); it does not exist otherwise.  poly.h 554-558. -/
def poly_getnoise_eta2_4x (bk : Backend) := poly_getnoise_eta1_4x bk

/-- `poly_getnoise_eta2`, poly.c 407-415, with seed at `seed + so`. -/
def poly_getnoise_eta2 (bk : Backend) (K : Nat) (r : Poly) (seed : Buf UInt8) (so : Nat) (nonce : UInt8) : M Poly := do
  let buf ← prf bk (Buf.uninit UInt8 (MLKEM_ETA2 * 256 / 4)) (MLKEM_ETA2 * 256 / 4) seed so nonce
  let r ← poly_cbd_eta2 r buf
  POLY_BOUND r (MLKEM_ETA1 K + 1)
  pure r

/-- `poly_getnoise_eta1122_4x`, poly.c 417-453, with seed at `seed + so`. -/
def poly_getnoise_eta1122_4x (bk : Backend) (K : Nat) (r : Four Poly) (seed : Buf UInt8) (so : Nat) (nonce : Four UInt8) : M (Four Poly) := do
  let e0 ← extKey seed so
  let e1 ← extKey seed so
  let e2 ← extKey seed so
  let e3 ← extKey seed so
  let e0 ← wr e0 32 nonce.x0
  let e1 ← wr e1 32 nonce.x1
  let e2 ← wr e2 32 nonce.x2
  let e3 ← wr e3 32 nonce.x3
  let n1 := MLKEM_ETA1 K * 256 / 4
  let n2 := MLKEM_ETA2 * 256 / 4
  let buf ←
    if MLKEM_ETA1 K = MLKEM_ETA2 then
      shake256x4 bk ⟨Buf.uninit UInt8 n1, Buf.uninit UInt8 n1, Buf.uninit UInt8 n2, Buf.uninit UInt8 n2⟩ n1 ⟨e0, e1, e2, e3⟩ 0 (32 + 1)
    else do
      let b0 ← shake256 bk (Buf.uninit UInt8 n1) 0 n1 e0 0 (32 + 1)
      let b1 ← shake256 bk (Buf.uninit UInt8 n1) 0 n1 e1 0 (32 + 1)
      let b2 ← shake256 bk (Buf.uninit UInt8 n2) 0 n2 e2 0 (32 + 1)
      let b3 ← shake256 bk (Buf.uninit UInt8 n2) 0 n2 e3 0 (32 + 1)
      pure ⟨b0, b1, b2, b3⟩
  let r0 ← poly_cbd_eta1 K r.x0 buf.x0
  let r1 ← poly_cbd_eta1 K r.x1 buf.x1
  let r2 ← poly_cbd_eta2 r.x2 buf.x2
  let r3 ← poly_cbd_eta2 r.x3 buf.x3
  POLY_BOUND r0 (MLKEM_ETA1 K + 1)
  POLY_BOUND r1 (MLKEM_ETA1 K + 1)
  POLY_BOUND r2 (MLKEM_ETA2 + 1)
  POLY_BOUND r3 (MLKEM_ETA2 + 1)
  pure ⟨r0, r1, r2, r3⟩

/-! ## Vectors of polynomials (as in `Verif.Model.Polyvec`) -/

/-- `polyvec_tobytes`, polyvec.c 38-45, writing to `r + ro`. -/
def polyvec_tobytes (bk : Backend) (K : Nat) (r : Buf UInt8) (ro : Nat) (a : PolyVec) : M (Buf UInt8) :=
  forN K r fun i r => do
    bk.poly_tobytes r (ro + i * MLKEM_POLYBYTES) (← vget a i)

/-- `polyvec_frombytes`, polyvec.c 47-54, reading from `a + ao`. -/
def polyvec_frombytes (bk : Backend) (K : Nat) (r : PolyVec) (a : Buf UInt8) (ao : Nat) : M PolyVec :=
  forN K r fun i r =>
    vmod r i fun p => bk.poly_frombytes p a (ao + i * MLKEM_POLYBYTES)

/-- `polyvec_ntt`, polyvec.c 56-63. -/
def polyvec_ntt (bk : Backend) (K : Nat) (r : PolyVec) : M PolyVec :=
  forN K r fun i r => vmod r i bk.poly_ntt

/-- `polyvec_invntt_tomont`, polyvec.c 65-72. -/
def polyvec_invntt_tomont (bk : Backend) (K : Nat) (r : PolyVec) : M PolyVec :=
  forN K r fun i r => vmod r i bk.poly_invntt_tomont

/-- `polyvec_mulcache_compute`, polyvec.c 165-172. -/
def polyvec_mulcache_compute (bk : Backend) (K : Nat) (x a : PolyVec) : M PolyVec :=
  forN K x fun i x => do
    let p ← vget a i
    vmod x i fun c => bk.poly_mulcache_compute c p

/-- `polyvec_basemul_acc_montgomery`, polyvec.c 148-153. -/
def polyvec_basemul_acc_montgomery (bk : Backend) (K : Nat) (r : Poly) (a b : PolyVec) : M Poly := do
  let b_cache ← polyvec_mulcache_compute bk K (newCacheVec K) b
  bk.polyvec_basemul_acc_montgomery_cached K r a b b_cache

/-- `polyvec_reduce`, polyvec.c 184-191. -/
def polyvec_reduce (bk : Backend) (K : Nat) (r : PolyVec) : M PolyVec :=
  forN K r fun i r => vmod r i bk.poly_reduce

/-- `polyvec_tomont`, polyvec.c 202-209. -/
def polyvec_tomont (bk : Backend) (K : Nat) (r : PolyVec) : M PolyVec :=
  forN K r fun i r => vmod r i bk.poly_tomont

/-! ## The public-key encryption scheme (as in `Verif.Model.Indcpa`) -/

/-- `pack_pk`, indcpa.c 37-43 (`r` at offset 0, `seed` at `seed + so`). -/
def pack_pk (bk : Backend) (K : Nat) (r : Buf UInt8) (pk : PolyVec) (seed : Buf UInt8) (so : Nat) : M (Buf UInt8) := do
  POLYVEC_BOUND K pk 3329
  let r ← polyvec_tobytes bk K r 0 pk
  memcpy r (MLKEM_POLYVECBYTES K) seed so 32

/-- `unpack_pk`, indcpa.c 57-71 (input at `packedpk + po`). -/
def unpack_pk (bk : Backend) (K : Nat) (pk : PolyVec) (seed : Buf UInt8) (packedpk : Buf UInt8) (po : Nat) : M (PolyVec × Buf UInt8) := do
  let pk ← polyvec_frombytes bk K pk packedpk po
  let seed ← memcpy seed 0 packedpk (po + MLKEM_POLYVECBYTES K) 32
  let pk ← polyvec_reduce bk K pk
  pure (pk, seed)

/-- `pack_sk`, indcpa.c 82-86. -/
def pack_sk (bk : Backend) (K : Nat) (r : Buf UInt8) (sk : PolyVec) : M (Buf UInt8) := do
  POLYVEC_BOUND K sk 3329
  polyvec_tobytes bk K r 0 sk

/-- `unpack_sk`, indcpa.c 98-103. -/
def unpack_sk (bk : Backend) (K : Nat) (sk : PolyVec) (packedsk : Buf UInt8) : M PolyVec := do
  let sk ← polyvec_frombytes bk K sk packedsk 0
  polyvec_reduce bk K sk

/-- `gen_matrix_entry_x4`, indcpa.c 149-215. `ctr` values are `unsigned int`. -/
def gen_matrix_entry_x4 (bk : Backend) (fuel : Nat) (vec : Four Poly) (seed : Four (Buf UInt8)) : M (Four Poly) := do
  let buf := Four.rep (Buf.uninit UInt8 (MLKEM_GEN_MATRIX_NBLOCKS * SHAKE128_RATE))
  let statex ← shake128x4_absorb bk (Buf.uninit W 100) seed 0 (32 + 2)
  let (buf, statex) ← shake128x4_squeezeblocks bk buf 0 MLKEM_GEN_MATRIX_NBLOCKS statex
  let buflen := MLKEM_GEN_MATRIX_NBLOCKS * SHAKE128_RATE
  let (v0, c0) ← bk.rej_uniform vec.x0 256 0 buf.x0 buflen
  let (v1, c1) ← bk.rej_uniform vec.x1 256 0 buf.x1 buflen
  let (v2, c2) ← bk.rej_uniform vec.x2 256 0 buf.x2 buflen
  let (v3, c3) ← bk.rej_uniform vec.x3 256 0 buf.x3 buflen
  let buflen := SHAKE128_RATE
  let (vec, _, _, _) ← whileM fuel
    (fun ((_, ctr, _, _) : Four Poly × Four Nat × Four (Buf UInt8) × Buf W) => do
      branch (decide (ctr.x0 < 256)) (pure true)
        (branch (decide (ctr.x1 < 256)) (pure true)
          (branch (decide (ctr.x2 < 256)) (pure true)
            (pure (decide (ctr.x3 < 256))))))
    (fun (vec, ctr, buf, statex) => do
      let (buf, statex) ← shake128x4_squeezeblocks bk buf 0 1 statex
      let (v0, c0) ← bk.rej_uniform vec.x0 256 ctr.x0 buf.x0 buflen
      let (v1, c1) ← bk.rej_uniform vec.x1 256 ctr.x1 buf.x1 buflen
      let (v2, c2) ← bk.rej_uniform vec.x2 256 ctr.x2 buf.x2 buflen
      let (v3, c3) ← bk.rej_uniform vec.x3 256 ctr.x3 buf.x3 buflen
      pure (⟨v0, v1, v2, v3⟩, ⟨c0, c1, c2, c3⟩, buf, statex))
    ((⟨v0, v1, v2, v3⟩ : Four Poly), (⟨c0, c1, c2, c3⟩ : Four Nat), buf, statex)
  pure vec

/-- `gen_matrix_entry`, indcpa.c 222-256. -/
def gen_matrix_entry (bk : Backend) (fuel : Nat) (entry : Poly) (seed : Buf UInt8) : M Poly := do
  let buf := Buf.uninit UInt8 (MLKEM_GEN_MATRIX_NBLOCKS * SHAKE128_RATE)
  let state ← shake128_absorb bk (Buf.uninit W 25) seed 0 (32 + 2)
  let (buf, state) ← shake128_squeezeblocks bk buf 0 MLKEM_GEN_MATRIX_NBLOCKS state
  let buflen := MLKEM_GEN_MATRIX_NBLOCKS * SHAKE128_RATE
  let (entry, ctr) ← bk.rej_uniform entry 256 0 buf buflen
  let (entry, _, _, _) ← whileM fuel
    (fun (_, ctr, _, _) => pure (decide (ctr < 256)))
    (fun (entry, ctr, buf, state) => do
      let (buf, state) ← shake128_squeezeblocks bk buf 0 1 state
      let (entry, ctr) ← bk.rej_uniform entry 256 ctr buf SHAKE128_RATE
      pure (entry, ctr, buf, state))
    (entry, ctr, buf, state)
  pure entry

/-- `gen_matrix`, indcpa.c 271-362, with the permutation of the entries for `MLKEM_USE_NATIVE_NTT_CUSTOM_ORDER`; `seed` at `seed + so`.
The loops over `j < KECCAK_WAY` are unrolled; the loop `for (i = 0; i < (K*K/4)*4; i += 4)` runs `K*K/4` times with `i = 4*t`. -/
def gen_matrix (bk : Backend) (K fuel : Nat) (a : PolyVec) (seed : Buf UInt8) (so : Nat) (transposed : Bool) : M PolyVec := do
  let s0 ← memcpy (Buf.uninit UInt8 (32 + 2)) 0 seed so 32
  let s1 ← memcpy (Buf.uninit UInt8 (32 + 2)) 0 seed so 32
  let s2 ← memcpy (Buf.uninit UInt8 (32 + 2)) 0 seed so 32
  let s3 ← memcpy (Buf.uninit UInt8 (32 + 2)) 0 seed so 32
  let (a, s) ← forN (K * K / 4) (a, (⟨s0, s1, s2, s3⟩ : Four (Buf UInt8))) fun t (a, s) => do
    let i := 4 * t
    let s0 ← setSeed K s.x0 (i + 0) transposed
    let s1 ← setSeed K s.x1 (i + 1) transposed
    let s2 ← setSeed K s.x2 (i + 2) transposed
    let s3 ← setSeed K s.x3 (i + 3) transposed
    let vec ← gen_matrix_entry_x4 bk fuel ⟨← vget a (i + 0), ← vget a (i + 1), ← vget a (i + 2), ← vget a (i + 3)⟩ ⟨s0, s1, s2, s3⟩
    let a ← vset a (i + 0) vec.x0
    let a ← vset a (i + 1) vec.x1
    let a ← vset a (i + 2) vec.x2
    let a ← vset a (i + 3) vec.x3
    pure (a, ⟨s0, s1, s2, s3⟩)
  let i := 4 * (K * K / 4)
  let (a, i) ← branch (decide (i < K * K))
    (do
      let s0 ← setSeed K s.x0 i transposed
      let e ← gen_matrix_entry bk fuel (← vget a i) s0
      let a ← vset a i e
      pure (a, i + 1))
    (pure (a, i))
  assertM (decide (i = K * K))
  match bk.poly_permute_bitrev_to_custom with
  | none => pure a
  | some permute => forN K a fun i a => forN K a fun j a => vmod a (K * i + j) permute

/-- `matvec_mul`, indcpa.c 378-398. -/
def matvec_mul (bk : Backend) (K : Nat) (out : PolyVec) (a : PolyVec) (v vc : PolyVec) : M PolyVec :=
  forN K out fun i out => do
    let row ← matRow K a i
    vmod out i fun o => bk.polyvec_basemul_acc_montgomery_cached K o row v vc

/-- The noise-sampling part of `indcpa_keypair_derand`, indcpa.c 434-456: `(skpv, e, pkpv)`, noise seed at `seed + so`. -/
def keypairNoise (bk : Backend) (K : Nat) (skpv e pkpv : PolyVec) (seed : Buf UInt8) (so : Nat) : M (PolyVec × PolyVec × PolyVec) :=
  if K = 2 then do
    let r ← poly_getnoise_eta1_4x bk K ⟨← vget skpv 0, ← vget skpv 1, ← vget e 0, ← vget e 1⟩ seed so ⟨0, 1, 2, 3⟩
    let skpv ← vset skpv 0 r.x0
    let skpv ← vset skpv 1 r.x1
    let e ← vset e 0 r.x2
    let e ← vset e 1 r.x3
    pure (skpv, e, pkpv)
  else if K = 3 then do
    let r ← poly_getnoise_eta1_4x bk K ⟨← vget skpv 0, ← vget skpv 1, ← vget skpv 2, ← vget pkpv 0⟩ seed so ⟨0, 1, 2, 0xFF⟩
    let skpv ← vset skpv 0 r.x0
    let skpv ← vset skpv 1 r.x1
    let skpv ← vset skpv 2 r.x2
    let pkpv ← vset pkpv 0 r.x3
    let r ← poly_getnoise_eta1_4x bk K ⟨← vget e 0, ← vget e 1, ← vget e 2, ← vget pkpv 0⟩ seed so ⟨3, 4, 5, 0xFF⟩
    let e ← vset e 0 r.x0
    let e ← vset e 1 r.x1
    let e ← vset e 2 r.x2
    let pkpv ← vset pkpv 0 r.x3
    pure (skpv, e, pkpv)
  else do
    let r ← poly_getnoise_eta1_4x bk K ⟨← vget skpv 0, ← vget skpv 1, ← vget skpv 2, ← vget skpv 3⟩ seed so ⟨0, 1, 2, 3⟩
    let skpv ← vset skpv 0 r.x0
    let skpv ← vset skpv 1 r.x1
    let skpv ← vset skpv 2 r.x2
    let skpv ← vset skpv 3 r.x3
    let r ← poly_getnoise_eta1_4x bk K ⟨← vget e 0, ← vget e 1, ← vget e 2, ← vget e 3⟩ seed so ⟨4, 5, 6, 7⟩
    let e ← vset e 0 r.x0
    let e ← vset e 1 r.x1
    let e ← vset e 2 r.x2
    let e ← vset e 3 r.x3
    pure (skpv, e, pkpv)

/-- `indcpa_keypair_derand`, indcpa.c 416-471; returns `(pk, sk)`. -/
def indcpa_keypair_derand (bk : Backend) (K fuel : Nat) (pk sk coins : Buf UInt8) : M (Buf UInt8 × Buf UInt8) := do
  let cds ← memcpy (Buf.uninit UInt8 (32 + 1)) 0 coins 0 32
  let cds ← wr cds 32 (toU8 K)
  let buf ← hash_g bk (Buf.uninit UInt8 (2 * 32)) 0 cds 0 (32 + 1)
  let a ← gen_matrix bk K fuel (newVec (K * K)) buf 0 false
  let (skpv, e, pkpv) ← keypairNoise bk K (newVec K) (newVec K) (newVec K) buf 32
  let skpv ← polyvec_ntt bk K skpv
  let e ← polyvec_ntt bk K e
  let skpv_cache ← polyvec_mulcache_compute bk K (newCacheVec K) skpv
  let pkpv ← matvec_mul bk K pkpv a skpv skpv_cache
  let pkpv ← polyvec_tomont bk K pkpv
  let pkpv ← polyvec_add K pkpv e
  let pkpv ← polyvec_reduce bk K pkpv
  let skpv ← polyvec_reduce bk K skpv
  let sk ← pack_sk bk K sk skpv
  let pk ← pack_pk bk K pk pkpv buf 0
  pure (pk, sk)

/-- The noise-sampling part of `indcpa_enc`, indcpa.c 508-530: `(sp, ep, epp, b)`, coins at `coins + co`. -/
def encNoise (bk : Backend) (K : Nat) (sp ep : PolyVec) (epp : Poly) (b : PolyVec) (coins : Buf UInt8) (co : Nat) :
    M (PolyVec × PolyVec × Poly × PolyVec) :=
  if K = 2 then do
    let r ← poly_getnoise_eta1122_4x bk K ⟨← vget sp 0, ← vget sp 1, ← vget ep 0, ← vget ep 1⟩ coins co ⟨0, 1, 2, 3⟩
    let sp ← vset sp 0 r.x0
    let sp ← vset sp 1 r.x1
    let ep ← vset ep 0 r.x2
    let ep ← vset ep 1 r.x3
    let epp ← poly_getnoise_eta2 bk K epp coins co 4
    pure (sp, ep, epp, b)
  else if K = 3 then do
    let r ← poly_getnoise_eta1_4x bk K ⟨← vget sp 0, ← vget sp 1, ← vget sp 2, ← vget b 0⟩ coins co ⟨0, 1, 2, 0xFF⟩
    let sp ← vset sp 0 r.x0
    let sp ← vset sp 1 r.x1
    let sp ← vset sp 2 r.x2
    let b ← vset b 0 r.x3
    let r ← poly_getnoise_eta2_4x bk K ⟨← vget ep 0, ← vget ep 1, ← vget ep 2, epp⟩ coins co ⟨3, 4, 5, 6⟩
    let ep ← vset ep 0 r.x0
    let ep ← vset ep 1 r.x1
    let ep ← vset ep 2 r.x2
    pure (sp, ep, r.x3, b)
  else do
    let r ← poly_getnoise_eta1_4x bk K ⟨← vget sp 0, ← vget sp 1, ← vget sp 2, ← vget sp 3⟩ coins co ⟨0, 1, 2, 3⟩
    let sp ← vset sp 0 r.x0
    let sp ← vset sp 1 r.x1
    let sp ← vset sp 2 r.x2
    let sp ← vset sp 3 r.x3
    let r ← poly_getnoise_eta2_4x bk K ⟨← vget ep 0, ← vget ep 1, ← vget ep 2, ← vget ep 3⟩ coins co ⟨4, 5, 6, 7⟩
    let ep ← vset ep 0 r.x0
    let ep ← vset ep 1 r.x1
    let ep ← vset ep 2 r.x2
    let ep ← vset ep 3 r.x3
    let epp ← poly_getnoise_eta2 bk K epp coins co 8
    pure (sp, ep, epp, b)

/-- `indcpa_enc`, indcpa.c 494-548; message at `m + mo`, public key at `pk + po`, coins at `coins + co`. -/
def indcpa_enc (bk : Backend) (K fuel : Nat) (c : Buf UInt8) (m : Buf UInt8) (mo : Nat) (pk : Buf UInt8) (po : Nat)
    (coins : Buf UInt8) (co : Nat) : M (Buf UInt8) := do
  let (pkpv, seed) ← unpack_pk bk K (newVec K) (Buf.uninit UInt8 32) pk po
  let k ← poly_frommsg newPoly m mo
  let at' ← gen_matrix bk K fuel (newVec (K * K)) seed 0 true
  let (sp, ep, epp, b) ← encNoise bk K (newVec K) (newVec K) newPoly (newVec K) coins co
  let sp ← polyvec_ntt bk K sp
  let sp_cache ← polyvec_mulcache_compute bk K (newCacheVec K) sp
  let b ← matvec_mul bk K b at' sp sp_cache
  let v ← bk.polyvec_basemul_acc_montgomery_cached K newPoly pkpv sp sp_cache
  let b ← polyvec_invntt_tomont bk K b
  let v ← bk.poly_invntt_tomont v
  let b ← polyvec_add K b ep
  let v ← poly_add v epp
  let v ← poly_add v k
  let b ← polyvec_reduce bk K b
  let v ← bk.poly_reduce v
  pack_ciphertext K c b v

/-- `indcpa_dec`, indcpa.c 553-572 (message written to `m`). -/
def indcpa_dec (bk : Backend) (K : Nat) (m : Buf UInt8) (c : Buf UInt8) (sk : Buf UInt8) : M (Buf UInt8) := do
  let (b, v) ← unpack_ciphertext K (newVec K) newPoly c
  let skpv ← unpack_sk bk K (newVec K) sk
  let b ← polyvec_ntt bk K b
  let sb ← polyvec_basemul_acc_montgomery bk K newPoly skpv b
  let sb ← bk.poly_invntt_tomont sb
  let v ← poly_sub v sb
  let v ← bk.poly_reduce v
  poly_tomsg m 0 v

/-! ## The key encapsulation mechanism (as in `Verif.Model.Kem`) -/

/-- `check_pk`, kem.c 36-49. -/
def check_pk (bk : Backend) (K : Nat) (pk : Buf UInt8) : M Int := do
  let p ← polyvec_frombytes bk K (newVec K) pk 0
  let p ← polyvec_reduce bk K p
  let p_reencoded ← polyvec_tobytes bk K (Buf.uninit UInt8 (MLKEM_POLYVECBYTES K)) 0 p
  let d ← memcmp pk 0 p_reencoded 0 (MLKEM_POLYVECBYTES K)
  branch (decide (d ≠ 0)) (pure (-1)) (pure 0)

/-- `check_sk`, kem.c 64-79. -/
def check_sk (bk : Backend) (K : Nat) (sk : Buf UInt8) : M Int := do
  let test ← hash_h bk (Buf.uninit UInt8 32) 0 sk (MLKEM_INDCPA_SECRETKEYBYTES K) (MLKEM_PUBLICKEYBYTES K)
  let d ← memcmp sk (MLKEM_SECRETKEYBYTES K - 2 * 32) test 0 32
  branch (decide (d ≠ 0)) (pure (-1)) (pure 0)

/-- `crypto_kem_keypair_derand`, kem.c 97-107; returns `(code, pk, sk)`. -/
def crypto_kem_keypair_derand (bk : Backend) (K fuel : Nat) (pk sk coins : Buf UInt8) : M (Int × Buf UInt8 × Buf UInt8) := do
  let (pk, sk) ← indcpa_keypair_derand bk K fuel pk sk coins
  let sk ← memcpy sk (MLKEM_INDCPA_SECRETKEYBYTES K) pk 0 (MLKEM_PUBLICKEYBYTES K)
  let sk ← hash_h bk sk (MLKEM_SECRETKEYBYTES K - 2 * 32) pk 0 (MLKEM_PUBLICKEYBYTES K)
  let sk ← memcpy sk (MLKEM_SECRETKEYBYTES K - 32) coins 32 32
  pure (0, pk, sk)

/-- `crypto_kem_keypair`, kem.c 109-115; returns `(code, pk, sk, state)`. The code returned by the derandomised function is dropped,
as in C. -/
def crypto_kem_keypair (bk : Backend) {σ : Type} (K fuel : Nat) (rb : RandomBytes σ) (st : σ) (pk sk : Buf UInt8) :
    M (Int × Buf UInt8 × Buf UInt8 × σ) := do
  let (coins, st) := randombytes rb st (2 * 32)
  let (_, pk, sk) ← crypto_kem_keypair_derand bk K fuel pk sk coins
  pure (0, pk, sk, st)

/-- `crypto_kem_enc_derand`, kem.c 117-140; returns `(code, ct, ss)`. -/
def crypto_kem_enc_derand (bk : Backend) (K fuel : Nat) (ct ss pk coins : Buf UInt8) : M (Int × Buf UInt8 × Buf UInt8) := do
  let chk ← check_pk bk K pk
  branch (decide (chk ≠ 0)) (pure (-1, ct, ss)) (do
    let buf ← memcpy (Buf.uninit UInt8 (2 * 32)) 0 coins 0 32
    let buf ← hash_h bk buf 32 pk 0 (MLKEM_PUBLICKEYBYTES K)
    let kr ← hash_g bk (Buf.uninit UInt8 (2 * 32)) 0 buf 0 (2 * 32)
    let ct ← indcpa_enc bk K fuel ct buf 0 pk 0 kr 32
    let ss ← memcpy ss 0 kr 0 32
    pure (0, ct, ss))

/-- `crypto_kem_enc`, kem.c 142-147; returns `(code, ct, ss, state)`. -/
def crypto_kem_enc (bk : Backend) {σ : Type} (K fuel : Nat) (rb : RandomBytes σ) (st : σ) (ct ss pk : Buf UInt8) :
    M (Int × Buf UInt8 × Buf UInt8 × σ) := do
  let (coins, st) := randombytes rb st 32
  let (code, ct, ss) ← crypto_kem_enc_derand bk K fuel ct ss pk coins
  pure (code, ct, ss, st)

/-- `crypto_kem_dec`, kem.c 149-182; returns `(code, ss)`. -/
def crypto_kem_dec (bk : Backend) (K fuel : Nat) (ss ct sk : Buf UInt8) : M (Int × Buf UInt8) := do
  let chk ← check_sk bk K sk
  branch (decide (chk ≠ 0)) (pure (-1, ss)) (do
    let buf ← indcpa_dec bk K (Buf.uninit UInt8 (2 * 32)) ct sk
    let buf ← memcpy buf 32 sk (MLKEM_SECRETKEYBYTES K - 2 * 32) 32
    let kr ← hash_g bk (Buf.uninit UInt8 (2 * 32)) 0 buf 0 (2 * 32)
    let cmp ← indcpa_enc bk K fuel (Buf.uninit UInt8 (MLKEM_CIPHERTEXTBYTES K + 32)) buf 0 sk (MLKEM_INDCPA_SECRETKEYBYTES K) kr 32
    let fail ← ct_memcmp ct 0 cmp 0 (MLKEM_CIPHERTEXTBYTES K)
    let ss ← rkprf bk K ss sk (MLKEM_SECRETKEYBYTES K - 32) ct
    let ss ← ct_cmov_zero ss 0 kr 0 32 fail
    pure (0, ss))

end Verif.Native

import Verif.Model.Ntt
/-! # Polynomials: compression, serialisation, arithmetic (`/repo/mlkem/poly.h`, `/repo/mlkem/poly.c`)

Noise sampling from poly.c is in `Verif.Model.Noise`. -/
namespace Verif.Model

/-- `scalar_compress_d1`, poly.h 62-73 (`uint32_t` arithmetic, wrapping). -/
def scalar_compress_d1 (u : Nat) : Nat :=
  let d0 := u32 (u <<< 1)
  let d0 := u32 (d0 * 645083)
  let d0 := u32 (d0 + (1 <<< 30))
  d0 >>> 31

/-- `scalar_compress_d4`, poly.h 97-105 (`uint32_t` arithmetic, wrapping). -/
def scalar_compress_d4 (u : Nat) : Nat :=
  let d0 := u32 (u * 1290160)
  u32 (d0 + (1 <<< 27)) >>> 28

/-- `scalar_decompress_d4`, poly.h 121-125. -/
def scalar_decompress_d4 (u : Nat) : Nat := (u32 (u32 (u * 3329) + 8) / 16) % 65536

/-- `scalar_compress_d5`, poly.h 146-154 (`uint32_t` arithmetic, wrapping). -/
def scalar_compress_d5 (u : Nat) : Nat :=
  let d0 := u32 (u * 1290176)
  u32 (d0 + (1 <<< 26)) >>> 27

/-- `scalar_decompress_d5`, poly.h 170-174. -/
def scalar_decompress_d5 (u : Nat) : Nat := (u32 (u32 (u * 3329) + 16) / 32) % 65536

/-- `scalar_compress_d10`, poly.h 195-204 (`uint64_t` arithmetic). -/
def scalar_compress_d10 (u : Nat) : Nat :=
  let d0 := u64 (u * 2642263040)
  let d0 := u64 (d0 + (1 <<< 32)) >>> 33
  d0 &&& 0x3FF

/-- `scalar_decompress_d10`, poly.h 220-224. -/
def scalar_decompress_d10 (u : Nat) : Nat := (u32 (u32 (u * 3329) + 512) / 1024) % 65536

/-- `scalar_compress_d11`, poly.h 245-254 (`uint64_t` arithmetic). -/
def scalar_compress_d11 (u : Nat) : Nat :=
  let d0 := u64 (u * 5284526080)
  let d0 := u64 (d0 + (1 <<< 32)) >>> 33
  d0 &&& 0x7FF

/-- `scalar_decompress_d11`, poly.h 270-274. -/
def scalar_decompress_d11 (u : Nat) : Nat := (u32 (u32 (u * 3329) + 1024) / 2048) % 65536

/-- `scalar_signed_to_unsigned_q`, poly.h 294-308, with its two assertions.  The result is returned as `uint16_t`. -/
def scalar_signed_to_unsigned_q (c : Int) : M Nat := do
  let cq ← i16 (c + 3329)
  let c := ct_sel_int16 cq c (ct_cmask_neg_i16 c)
  assertM (decide (0 ≤ c))
  assertM (decide (c < 3329))
  pure (u16 c)

/-- One `t[k] = scalar_compress(a->coeffs[base + k])` loop, `k < n`, filling a local array `t[n]`
(poly.c 29-35, 62-68, 158-165, 182-189).  `int16_t` argument converted to `uint16_t`. -/
def compressLoop (sc : Nat → Nat) (a : Poly) (base n : Nat) : M (Buf Nat) :=
  forN n (Buf.uninit Nat n) fun k t => do
    let c ← rd a (base + k)
    wr t k (sc (u16 c))

/-- `poly_compress_du`, poly.c 20-85, writing to `r + ro`. -/
def poly_compress_du (K : Nat) (r : Buf UInt8) (ro : Nat) (a : Poly) : M (Buf UInt8) :=
  if MLKEM_POLYCOMPRESSEDBYTES_DU K = 352 then
    forN (256 / 8) r fun j r => do
      let t ← compressLoop scalar_compress_d11 a (8 * j) 8
      let r ← wr r (ro + (11 * j + 0)) (toU8 (((← rd t 0) >>> 0) &&& 0xFF))
      let r ← wr r (ro + (11 * j + 1)) (toU8 (((← rd t 0) >>> 8) ||| (((← rd t 1) <<< 3) &&& 0xFF)))
      let r ← wr r (ro + (11 * j + 2)) (toU8 (((← rd t 1) >>> 5) ||| (((← rd t 2) <<< 6) &&& 0xFF)))
      let r ← wr r (ro + (11 * j + 3)) (toU8 (((← rd t 2) >>> 2) &&& 0xFF))
      let r ← wr r (ro + (11 * j + 4)) (toU8 (((← rd t 2) >>> 10) ||| (((← rd t 3) <<< 1) &&& 0xFF)))
      let r ← wr r (ro + (11 * j + 5)) (toU8 (((← rd t 3) >>> 7) ||| (((← rd t 4) <<< 4) &&& 0xFF)))
      let r ← wr r (ro + (11 * j + 6)) (toU8 (((← rd t 4) >>> 4) ||| (((← rd t 5) <<< 7) &&& 0xFF)))
      let r ← wr r (ro + (11 * j + 7)) (toU8 (((← rd t 5) >>> 1) &&& 0xFF))
      let r ← wr r (ro + (11 * j + 8)) (toU8 (((← rd t 5) >>> 9) ||| (((← rd t 6) <<< 2) &&& 0xFF)))
      let r ← wr r (ro + (11 * j + 9)) (toU8 (((← rd t 6) >>> 6) ||| (((← rd t 7) <<< 5) &&& 0xFF)))
      wr r (ro + (11 * j + 10)) (toU8 ((← rd t 7) >>> 3))
  else
    forN (256 / 4) r fun j r => do
      let t ← compressLoop scalar_compress_d10 a (4 * j) 4
      let r ← wr r (ro + (5 * j + 0)) (toU8 (((← rd t 0) >>> 0) &&& 0xFF))
      let r ← wr r (ro + (5 * j + 1)) (toU8 (((← rd t 0) >>> 8) ||| (((← rd t 1) <<< 2) &&& 0xFF)))
      let r ← wr r (ro + (5 * j + 2)) (toU8 (((← rd t 1) >>> 6) ||| (((← rd t 2) <<< 4) &&& 0xFF)))
      let r ← wr r (ro + (5 * j + 3)) (toU8 (((← rd t 2) >>> 4) ||| (((← rd t 3) <<< 6) &&& 0xFF)))
      wr r (ro + (5 * j + 4)) (toU8 ((← rd t 3) >>> 2))

/-- The local array `t[n]` initialised by `n` assignments of the given values (`uint16_t`/`uint8_t` stores are exact because each
value is masked).  No line of /repo of its own: see the loops over `t` in poly.c. -/
def fillLocal (vals : List Nat) : M (Buf Nat) :=
  forN vals.length (Buf.uninit Nat vals.length) fun k t =>
    match vals[k]? with
    | some v => wr t k v
    | none => M.fail .oob

/-- One `r->coeffs[base + k] = scalar_decompress(t[k])` loop, `k < n` (poly.c 111-117, 134-140, 249-256);
the `uint16_t` result is converted to `int16_t`. -/
def decompressLoop (sd : Nat → Nat) (r : Poly) (base n : Nat) (t : Buf Nat) : M Poly :=
  forN n r fun k r => do
    let v ← rd t k
    wr r (base + k) (← i16 (sd v))

/-- `poly_decompress_du`, poly.c 88-145, reading from `a + ao`.
`(uint16_t)base[i] << s` is evaluated in `int`; every such value is below 2^18. -/
def poly_decompress_du (K : Nat) (r : Poly) (a : Buf UInt8) (ao : Nat) : M Poly :=
  if MLKEM_POLYCOMPRESSEDBYTES_DU K = 352 then
    forN (256 / 8) r fun j r => do
      let base (i : Nat) : M Nat := do pure (← rd a (ao + 11 * j + i)).toNat
      let t0 := 0x7FF &&& (((← base 0) >>> 0) ||| ((← base 1) <<< 8))
      let t1 := 0x7FF &&& (((← base 1) >>> 3) ||| ((← base 2) <<< 5))
      let t2 := 0x7FF &&& (((← base 2) >>> 6) ||| ((← base 3) <<< 2) ||| ((← base 4) <<< 10))
      let t3 := 0x7FF &&& (((← base 4) >>> 1) ||| ((← base 5) <<< 7))
      let t4 := 0x7FF &&& (((← base 5) >>> 4) ||| ((← base 6) <<< 4))
      let t5 := 0x7FF &&& (((← base 6) >>> 7) ||| ((← base 7) <<< 1) ||| ((← base 8) <<< 9))
      let t6 := 0x7FF &&& (((← base 8) >>> 2) ||| ((← base 9) <<< 6))
      let t7 := 0x7FF &&& (((← base 9) >>> 5) ||| ((← base 10) <<< 3))
      let t ← fillLocal [t0, t1, t2, t3, t4, t5, t6, t7]
      decompressLoop scalar_decompress_d11 r (8 * j) 8 t
  else
    forN (256 / 4) r fun j r => do
      let base (i : Nat) : M Nat := do pure (← rd a (ao + 5 * j + i)).toNat
      let t0 := 0x3FF &&& (((← base 0) >>> 0) ||| ((← base 1) <<< 8))
      let t1 := 0x3FF &&& (((← base 1) >>> 2) ||| ((← base 2) <<< 6))
      let t2 := 0x3FF &&& (((← base 2) >>> 4) ||| ((← base 3) <<< 4))
      let t3 := 0x3FF &&& (((← base 3) >>> 6) ||| ((← base 4) <<< 2))
      let t ← fillLocal [t0, t1, t2, t3]
      decompressLoop scalar_decompress_d10 r (4 * j) 4 t

/-- `poly_compress_dv`, poly.c 147-205, writing to `r + ro`.  The array `t` is declared with initialiser `{0}`; every element is
overwritten before use, so the model starts it uninitialised (which is stricter). The `uint8_t` store of `scalar_compress` is
exact for results below 2^8. -/
def poly_compress_dv (K : Nat) (r : Buf UInt8) (ro : Nat) (a : Poly) : M (Buf UInt8) := do
  POLY_UBOUND a 3329
  if MLKEM_POLYCOMPRESSEDBYTES_DV K = 128 then
    forN (256 / 8) r fun i r => do
      let t ← compressLoop (fun u => scalar_compress_d4 u % 256) a (8 * i) 8
      let r ← wr r (ro + i * 4) (toU8 ((← rd t 0) ||| ((← rd t 1) <<< 4)))
      let r ← wr r (ro + (i * 4 + 1)) (toU8 ((← rd t 2) ||| ((← rd t 3) <<< 4)))
      let r ← wr r (ro + (i * 4 + 2)) (toU8 ((← rd t 4) ||| ((← rd t 5) <<< 4)))
      wr r (ro + (i * 4 + 3)) (toU8 ((← rd t 6) ||| ((← rd t 7) <<< 4)))
  else
    forN (256 / 8) r fun i r => do
      let t ← compressLoop (fun u => scalar_compress_d5 u % 256) a (8 * i) 8
      let r ← wr r (ro + i * 5) (toU8 (0xFF &&& (((← rd t 0) >>> 0) ||| ((← rd t 1) <<< 5))))
      let r ← wr r (ro + (i * 5 + 1)) (toU8 (0xFF &&& (((← rd t 1) >>> 3) ||| ((← rd t 2) <<< 2) ||| ((← rd t 3) <<< 7))))
      let r ← wr r (ro + (i * 5 + 2)) (toU8 (0xFF &&& (((← rd t 3) >>> 1) ||| ((← rd t 4) <<< 4))))
      let r ← wr r (ro + (i * 5 + 3)) (toU8 (0xFF &&& (((← rd t 4) >>> 4) ||| ((← rd t 5) <<< 1) ||| ((← rd t 6) <<< 6))))
      wr r (ro + (i * 5 + 4)) (toU8 (0xFF &&& (((← rd t 6) >>> 2) ||| ((← rd t 7) <<< 3))))

/-- `poly_decompress_dv`, poly.c 207-263, reading from `a + ao`. -/
def poly_decompress_dv (K : Nat) (r : Poly) (a : Buf UInt8) (ao : Nat) : M Poly := do
  let r ←
    if MLKEM_POLYCOMPRESSEDBYTES_DV K = 128 then
      forN (256 / 2) r fun i r => do
        let x ← rd a (ao + i)
        let r ← wr r (2 * i + 0) (← i16 (scalar_decompress_d4 ((x.toNat >>> 0) &&& 0xF)))
        let x ← rd a (ao + i)
        wr r (2 * i + 1) (← i16 (scalar_decompress_d4 ((x.toNat >>> 4) &&& 0xF)))
    else
      forN (256 / 8) r fun i r => do
        let at' (k : Nat) : M Nat := do pure (← rd a (ao + (i * 5 + k))).toNat
        let t0 := 0x1F &&& ((← at' 0) >>> 0)
        let t1 := 0x1F &&& (((← at' 0) >>> 5) ||| ((← at' 1) <<< 3))
        let t2 := 0x1F &&& ((← at' 1) >>> 2)
        let t3 := 0x1F &&& (((← at' 1) >>> 7) ||| ((← at' 2) <<< 1))
        let t4 := 0x1F &&& (((← at' 2) >>> 4) ||| ((← at' 3) <<< 4))
        let t5 := 0x1F &&& ((← at' 3) >>> 1)
        let t6 := 0x1F &&& (((← at' 3) >>> 6) ||| ((← at' 4) <<< 2))
        let t7 := 0x1F &&& ((← at' 4) >>> 3)
        let t ← fillLocal [t0, t1, t2, t3, t4, t5, t6, t7]
        decompressLoop scalar_decompress_d5 r (8 * i) 8 t
  POLY_UBOUND r 3329
  pure r

/-- `poly_tobytes`, poly.c 266-298, writing to `r + ro`. -/
def poly_tobytes (r : Buf UInt8) (ro : Nat) (a : Poly) : M (Buf UInt8) := do
  POLY_UBOUND a 3329
  forN (256 / 2) r fun i r => do
    let t0 := u16 (← rd a (2 * i))
    let t1 := u16 (← rd a (2 * i + 1))
    let r ← wr r (ro + (3 * i + 0)) (toU8 (t0 &&& 0xFF))
    let r ← wr r (ro + (3 * i + 1)) (toU8 ((t0 >>> 8) ||| ((t1 <<< 4) &&& 0xF0)))
    wr r (ro + (3 * i + 2)) (toU8 (t1 >>> 4))

/-- `poly_frombytes`, poly.c 308-326, reading from `a + ao`. -/
def poly_frombytes (r : Poly) (a : Buf UInt8) (ao : Nat) : M Poly := do
  let r ← forN (256 / 2) r fun i r => do
    let t0 := (← rd a (ao + (3 * i + 0))).toNat
    let t1 := (← rd a (ao + (3 * i + 1))).toNat
    let t2 := (← rd a (ao + (3 * i + 2))).toNat
    let r ← wr r (2 * i + 0) (← i16 ((t0 ||| ((t1 <<< 8) &&& 0xFFF) : Nat) : Int))
    wr r (2 * i + 1) (← i16 (((t1 >>> 4) ||| (t2 <<< 4) : Nat) : Int))
  POLY_UBOUND r 4096
  pure r

/-- `poly_frommsg`, poly.c 334-358, reading from `msg + mo`. -/
def poly_frommsg (r : Poly) (msg : Buf UInt8) (mo : Nat) : M Poly := do
  let r ← forN (256 / 8) r fun i r =>
    forN 8 r fun j r => do
      let mask : UInt8 := value_barrier (toU8 (1 <<< j))
      let m ← rd msg (mo + i)
      wr r (8 * i + j) (ct_sel_int16 HALF_Q 0 (m.toNat &&& mask.toNat))
  POLY_BOUND r 3329
  pure r

/-- `poly_tomsg`, poly.c 360-378, writing to `msg + mo`. -/
def poly_tomsg (msg : Buf UInt8) (mo : Nat) (a : Poly) : M (Buf UInt8) := do
  POLY_UBOUND a 3329
  forN (256 / 8) msg fun i msg => do
    let msg ← wr msg (mo + i) 0
    forN 8 msg fun j msg => do
      let t := scalar_compress_d1 (u16 (← rd a (8 * i + j)))
      let m ← rd msg (mo + i)
      wr msg (mo + i) (toU8 (m.toNat ||| u32 (t <<< j)))

/-- `poly_basemul_montgomery_cached`, poly.c 455-472. -/
def poly_basemul_montgomery_cached (r a b b_cache : Poly) : M Poly := do
  MULCACHE_BOUND b_cache 3329
  forN (256 / 4) r fun i r => do
    let r ← basemul_cached r (4 * i) a (4 * i) b (4 * i) (← rd b_cache (2 * i))
    basemul_cached r (4 * i + 2) a (4 * i + 2) b (4 * i + 2) (← rd b_cache (2 * i + 1))

/-- `poly_tomont`, poly.c 475-488. -/
def poly_tomont (r : Poly) : M Poly := do
  let f : Int := 2 ^ 32 % 3329
  let r ← forN 256 r fun i r => do
    wr r i (← fqmul (← rd r i) f)
  POLY_BOUND r 3329
  pure r

/-- `poly_reduce`, poly.c 498-513. -/
def poly_reduce (r : Poly) : M Poly := do
  let r ← forN 256 r fun i r => do
    let t ← barrett_reduce (← rd r i)
    let u ← scalar_signed_to_unsigned_q t
    wr r i (← i16 (u : Int))
  POLY_UBOUND r 3329
  pure r

/-- `poly_add`, poly.c 522-533. -/
def poly_add (r b : Poly) : M Poly :=
  forN 256 r fun i r => do
    wr r i (← i16 ((← rd r i) + (← rd b i)))

/-- `poly_sub`, poly.c 535-546. -/
def poly_sub (r b : Poly) : M Poly :=
  forN 256 r fun i r => do
    wr r i (← i16 ((← rd r i) - (← rd b i)))

/-- `poly_mulcache_compute`, poly.c 549-559. -/
def poly_mulcache_compute (x a : Poly) : M Poly := do
  let x ← forN (256 / 4) x fun i x => do
    let x ← wr x (2 * i + 0) (← fqmul (← rd a (4 * i + 1)) (← rd zetas (64 + i)))
    wr x (2 * i + 1) (← fqmul (← rd a (4 * i + 3)) (← i16 (-(← rd zetas (64 + i)))))
  MULCACHE_BOUND x 3329
  pure x

end Verif.Model

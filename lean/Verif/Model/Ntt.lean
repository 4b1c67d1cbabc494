import Verif.Model.Verify
/-! # NTT, inverse NTT and base multiplication (`/repo/mlkem/ntt.c`, `/repo/mlkem/zetas.c`) -/
namespace Verif.Model

/-- zetas.c 17-30 -/
def zetasList : List Int := [
    -1044, -758,  -359,  -1517, 1493,  1422,  287,   202,  -171,  622,   1577,
    182,   962,   -1202, -1474, 1468,  573,   -1325, 264,  383,   -829,  1458,
    -1602, -130,  -681,  1017,  732,   608,   -1542, 411,  -205,  -1571, 1223,
    652,   -552,  1015,  -1293, 1491,  -282,  -1544, 516,  -8,    -320,  -666,
    -1618, -1162, 126,   1469,  -853,  -90,   -271,  830,  107,   -1421, -247,
    -951,  -398,  961,   -1508, -725,  448,   -1065, 677,  -1275, -1103, 430,
    555,   843,   -1251, 871,   1550,  105,   422,   587,  177,   -235,  -291,
    -460,  1574,  1653,  -246,  778,   1159,  -147,  -777, 1483,  -602,  1119,
    -1590, 644,   -872,  349,   418,   329,   -156,  -75,  817,   1097,  603,
    610,   1322,  -1285, -1465, 384,   -1215, -136,  1218, -1335, -874,  220,
    -1187, -1659, -1185, -1530, -1278, 794,   -1510, -854, -870,  478,   -108,
    -308,  996,   991,   958,   -1460, 1522,  1628]

/-- The constant array `zetas[128]`.  zetas.c 17. -/
def zetas : Buf Int := Buf.ofList zetasList

/-- `ntt_butterfly_block`, ntt.c 42-76 (the ghost argument `bound` is dropped). -/
def ntt_butterfly_block (r : Poly) (zeta : Int) (start len : Nat) : M Poly :=
  forFrom start len r fun j r => do
    let t ← fqmul (← rd r (j + len)) zeta
    let r ← wr r (j + len) (← i16 ((← rd r j) - t))
    wr r j (← i16 ((← rd r j) + t))

/-- `ntt_layer`, ntt.c 91-114 (the ghost argument `layer` is dropped).  The loop `for (start = 0; start < 256; start += 2*len)`
runs `256/(2*len)` times for the values of `len` used, with `start = 2*len*b` in iteration `b`. -/
def ntt_layer (r : Poly) (len : Nat) : M Poly := do
  let k ← divM 256 (2 * len)
  let (r, _) ← forN (256 / (2 * len)) (r, k) fun b (r, k) => do
    let zeta ← rd zetas k
    let r ← ntt_butterfly_block r zeta (2 * len * b) len
    pure (r, k + 1)
  pure r

/-- `poly_ntt`, ntt.c 128-145.  The loop `for (len = 128; len >= 2; len >>= 1)` runs 7 times, with `len = 128 >> l` in
iteration `l`. -/
def poly_ntt (p : Poly) : M Poly := do
  POLY_BOUND p 3329
  let r ← forN 7 p fun l r => ntt_layer r (128 >>> l)
  POLY_BOUND r NTT_BOUND
  pure r

/-- `invntt_layer`, ntt.c 167-201 (the ghost argument `layer` is dropped). Loop as in `ntt_layer`; `k` counts down. -/
def invntt_layer (r : Poly) (len : Nat) : M Poly := do
  let k ← divM 256 len
  let (r, _) ← forN (256 / (2 * len)) (r, (k : Int) - 1) fun b (r, k) => do
    let zeta ← if 0 ≤ k then rd zetas k.toNat else M.fail .oob
    let r ← forFrom (2 * len * b) len r fun j r => do
      let t ← rd r j
      let s ← i16 (t + (← rd r (j + len)))
      let r ← wr r j (← barrett_reduce s)
      let d ← i16 ((← rd r (j + len)) - t)
      let r ← wr r (j + len) d
      let m ← fqmul (← rd r (j + len)) zeta
      wr r (j + len) m
    pure (r, k - 1)
  pure r

/-- `poly_invntt_tomont`, ntt.c 203-232.  The loop `for (len = 2; len <= 128; len <<= 1)` runs 7 times with `len = 2 << l`. -/
def poly_invntt_tomont (p : Poly) : M Poly := do
  let f : Int := 1441
  let r ← forN 256 p fun j r => do
    wr r j (← fqmul (← rd r j) f)
  let r ← forN 7 r fun l r => invntt_layer r (2 <<< l)
  POLY_BOUND r (3 * 3329 / 4)
  pure r

/-- `basemul_cached`, ntt.c 260-278, on `r + ro`, `a + ao`, `b + bo`. -/
def basemul_cached (r : Poly) (ro : Nat) (a : Poly) (ao : Nat) (b : Poly) (bo : Nat) (b_cached : Int) : M Poly := do
  assertM (boundChk a ao 2 (-3329) 3329)
  let t0 ← i32 ((← rd a (ao + 1)) * b_cached)
  let u ← i32 ((← rd a ao) * (← rd b bo))
  let t0 ← i32 (t0 + u)
  let t1 ← i32 ((← rd a ao) * (← rd b (bo + 1)))
  let u ← i32 ((← rd a (ao + 1)) * (← rd b bo))
  let t1 ← i32 (t1 + u)
  let r ← wr r ro (← montgomery_reduce t0)
  let r ← wr r (ro + 1) (← montgomery_reduce t1)
  assertM (boundChk r ro 2 (-((3 * 3329 / 2 : Nat) : Int)) ((3 * 3329 / 2 : Nat) : Int))
  pure r

end Verif.Model

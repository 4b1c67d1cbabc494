import Verif.Model.Cbd
import Verif.Model.Symmetric
/-! # Noise sampling (`/repo/mlkem/poly.c` 380-453) -/
namespace Verif.Model

/-- `memcpy(extkey[k], seed, 32); extkey[k][32] = nonce_k` for one `k` (poly.c 386-393, 423-430), seed at `seed + so`. -/
def extKey (seed : Buf UInt8) (so : Nat) : M (Buf UInt8) := memcpy (Buf.uninit UInt8 (32 + 1)) 0 seed so 32

/-- `poly_getnoise_eta1_4x`, poly.c 380-405, with seed at `seed + so`. -/
def poly_getnoise_eta1_4x (K : Nat) (r : Four Poly) (seed : Buf UInt8) (so : Nat) (nonce : Four UInt8) : M (Four Poly) := do
  let e0 ← extKey seed so
  let e1 ← extKey seed so
  let e2 ← extKey seed so
  let e3 ← extKey seed so
  let e0 ← wr e0 32 nonce.x0
  let e1 ← wr e1 32 nonce.x1
  let e2 ← wr e2 32 nonce.x2
  let e3 ← wr e3 32 nonce.x3
  let buf ← shake256x4 (Four.rep (Buf.uninit UInt8 (MLKEM_ETA1 K * 256 / 4))) (MLKEM_ETA1 K * 256 / 4) ⟨e0, e1, e2, e3⟩ 0 (32 + 1)
  let r0 ← poly_cbd_eta1 K r.x0 buf.x0
  let r1 ← poly_cbd_eta1 K r.x1 buf.x1
  let r2 ← poly_cbd_eta1 K r.x2 buf.x2
  let r3 ← poly_cbd_eta1 K r.x3 buf.x3
  POLY_BOUND r0 (MLKEM_ETA1 K + 1)
  POLY_BOUND r1 (MLKEM_ETA1 K + 1)
  POLY_BOUND r2 (MLKEM_ETA1 K + 1)
  POLY_BOUND r3 (MLKEM_ETA1 K + 1)
  pure ⟨r0, r1, r2, r3⟩

/-- `poly_getnoise_eta2_4x`: poly.h defines it as an alias of `poly_getnoise_eta1_4x` when `MLKEM_ETA1 == MLKEM_ETA2`
(K = 3, 4); it does not exist otherwise.  poly.h 554-558. -/
def poly_getnoise_eta2_4x := poly_getnoise_eta1_4x

/-- `poly_getnoise_eta2`, poly.c 407-415, with seed at `seed + so`. -/
def poly_getnoise_eta2 (K : Nat) (r : Poly) (seed : Buf UInt8) (so : Nat) (nonce : UInt8) : M Poly := do
  let buf ← prf (Buf.uninit UInt8 (MLKEM_ETA2 * 256 / 4)) (MLKEM_ETA2 * 256 / 4) seed so nonce
  let r ← poly_cbd_eta2 r buf
  POLY_BOUND r (MLKEM_ETA1 K + 1)
  pure r

/-- `poly_getnoise_eta1122_4x`, poly.c 417-453, with seed at `seed + so`. -/
def poly_getnoise_eta1122_4x (K : Nat) (r : Four Poly) (seed : Buf UInt8) (so : Nat) (nonce : Four UInt8) : M (Four Poly) := do
  let e0 ← extKey seed so
  let e1 ← extKey seed so
  let e2 ← extKey seed so
  let e3 ← extKey seed so
  let e0 ← wr e0 32 nonce.x0
  let e1 ← wr e1 32 nonce.x1
  let e2 ← wr e2 32 nonce.x2
  let e3 ← wr e3 32 nonce.x3
  let n1 := MLKEM_ETA1 K * 256 / 4
  let n2 := MLKEM_ETA2 * 256 / 4
  let buf ←
    if MLKEM_ETA1 K = MLKEM_ETA2 then
      shake256x4 ⟨Buf.uninit UInt8 n1, Buf.uninit UInt8 n1, Buf.uninit UInt8 n2, Buf.uninit UInt8 n2⟩ n1 ⟨e0, e1, e2, e3⟩ 0 (32 + 1)
    else do
      let b0 ← shake256 (Buf.uninit UInt8 n1) 0 n1 e0 0 (32 + 1)
      let b1 ← shake256 (Buf.uninit UInt8 n1) 0 n1 e1 0 (32 + 1)
      let b2 ← shake256 (Buf.uninit UInt8 n2) 0 n2 e2 0 (32 + 1)
      let b3 ← shake256 (Buf.uninit UInt8 n2) 0 n2 e3 0 (32 + 1)
      pure ⟨b0, b1, b2, b3⟩
  let r0 ← poly_cbd_eta1 K r.x0 buf.x0
  let r1 ← poly_cbd_eta1 K r.x1 buf.x1
  let r2 ← poly_cbd_eta2 r.x2 buf.x2
  let r3 ← poly_cbd_eta2 r.x3 buf.x3
  POLY_BOUND r0 (MLKEM_ETA1 K + 1)
  POLY_BOUND r1 (MLKEM_ETA1 K + 1)
  POLY_BOUND r2 (MLKEM_ETA2 + 1)
  POLY_BOUND r3 (MLKEM_ETA2 + 1)
  pure ⟨r0, r1, r2, r3⟩

end Verif.Model

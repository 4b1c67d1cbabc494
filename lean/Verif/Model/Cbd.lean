import Verif.Model.Poly
/-! # Centered binomial sampling (`/repo/mlkem/cbd.c`) -/
namespace Verif.Model

/-- `load32_littleendian`, cbd.c 19-27, on `x + xo`. -/
def load32_littleendian (x : Buf UInt8) (xo : Nat) : M Nat := do
  let r := (← rd x (xo + 0)).toNat
  let r := r ||| u32 ((← rd x (xo + 1)).toNat <<< 8)
  let r := r ||| u32 ((← rd x (xo + 2)).toNat <<< 16)
  let r := r ||| u32 ((← rd x (xo + 3)).toNat <<< 24)
  pure r

/-- `load24_littleendian`, cbd.c 41-48, on `x + xo`. -/
def load24_littleendian (x : Buf UInt8) (xo : Nat) : M Nat := do
  let r := (← rd x (xo + 0)).toNat
  let r := r ||| u32 ((← rd x (xo + 1)).toNat <<< 8)
  let r := r ||| u32 ((← rd x (xo + 2)).toNat <<< 16)
  pure r

/-- `cbd2`, cbd.c 61-84. -/
def cbd2 (r : Poly) (buf : Buf UInt8) : M Poly :=
  forN (256 / 8) r fun i r => do
    let t ← load32_littleendian buf (4 * i)
    let d := t &&& 0x55555555
    let d := u32 (d + ((t >>> 1) &&& 0x55555555))
    forN 8 r fun j r => do
      let a : Int := ((d >>> (4 * j + 0)) &&& 0x3 : Nat)
      let b : Int := ((d >>> (4 * j + 2)) &&& 0x3 : Nat)
      wr r (8 * i + j) (← i16 (a - b))

/-- `cbd3`, cbd.c 98-122. -/
def cbd3 (r : Poly) (buf : Buf UInt8) : M Poly :=
  forN (256 / 4) r fun i r => do
    let t ← load24_littleendian buf (3 * i)
    let d := t &&& 0x00249249
    let d := u32 (d + ((t >>> 1) &&& 0x00249249))
    let d := u32 (d + ((t >>> 2) &&& 0x00249249))
    forN 4 r fun j r => do
      let a : Int := ((d >>> (6 * j + 0)) &&& 0x7 : Nat)
      let b : Int := ((d >>> (6 * j + 3)) &&& 0x7 : Nat)
      wr r (4 * i + j) (← i16 (a - b))

/-- `poly_cbd_eta1`, cbd.c 125-134. -/
def poly_cbd_eta1 (K : Nat) (r : Poly) (buf : Buf UInt8) : M Poly :=
  if MLKEM_ETA1 K = 2 then cbd2 r buf else cbd3 r buf

/-- `poly_cbd_eta2`, cbd.c 136-143. -/
def poly_cbd_eta2 (r : Poly) (buf : Buf UInt8) : M Poly := cbd2 r buf

end Verif.Model

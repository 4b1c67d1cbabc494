import Verif.Spec.Fips203
import Mathlib.Logic.Function.Basic
/-! # The algorithms of FIPS 203 as printed

This file does not mention the code.  It repeats the algorithms of FIPS 203 line by line, with loops and assignments, where `Spec/Fips203.lean` has formulas.  An array is a function from
indices, `A[i] ← x` is `A := Function.update A i x`; the comments give the lines of the standard.  Loops that count run over a list of the values of their counter. -/
open Finset
namespace Verif.Spec.Printed
open Function (update)

/-- Algorithm 3, BitsToBytes, for `8ℓ` bits. -/
def BitsToBytes (ℓ : Nat) (b : Nat → Nat) : Nat → Nat := Id.run do
  let mut B : Nat → Nat := fun _ => 0                                  -- 1: B ← (0, …, 0)
  for i in List.range (8 * ℓ) do                                       -- 2
    B := update B (i / 8) (B (i / 8) + b i * 2 ^ (i % 8))              -- 3
  return B

/-- Algorithm 4, BytesToBits, for `ℓ` bytes. -/
def BytesToBits (ℓ : Nat) (B : Nat → Nat) : Nat → Nat := Id.run do
  let mut C := B                                                       -- 1
  let mut b : Nat → Nat := fun _ => 0
  for i in List.range ℓ do                                             -- 2
    for j in List.range 8 do                                           -- 3
      b := update b (8 * i + j) (C i % 2)                              -- 4
      C := update C i (C i / 2)                                        -- 5
  return b

/-- Algorithm 5, ByteEncode_d. -/
def ByteEncode (d : Nat) (F : Nat → Nat) : Nat → Nat := Id.run do
  let mut b : Nat → Nat := fun _ => 0
  for i in List.range 256 do                                           -- 1
    let mut a := F i                                                   -- 2
    for j in List.range d do                                           -- 3
      b := update b (i * d + j) (a % 2)                                -- 4
      a := (a - b (i * d + j)) / 2                                     -- 5
  return BitsToBytes (32 * d) b                                        -- 8

/-- Algorithm 6, ByteDecode_d. -/
def ByteDecode (d : Nat) (B : Nat → Nat) : Nat → Nat := Id.run do
  let b := BytesToBits (32 * d) B                                      -- 1
  let m := if d < 12 then 2 ^ d else 3329
  let mut F : Nat → Nat := fun _ => 0
  for i in List.range 256 do                                           -- 2
    F := update F i ((∑ j ∈ range d, b (i * d + j) * 2 ^ j) % m)       -- 3
  return F

/-- Algorithm 7, SampleNTT, with at most `n` turns of the `while` loop; `none` if these do not suffice.  `XOF.Squeeze(ctx, 3)`, called for the `t`-th time, delivers bytes
`3t`, `3t + 1` and `3t + 2` of the output of SHAKE128. -/
def SampleNTT (n : Nat) (B : List UInt8) : Option (Nat → Zq) := Id.run do
  let mut a : Nat → Zq := fun _ => 0
  let mut j := 0                                                       -- 3
  for t in List.range n do                                             -- 4: while j < 256
    if j < 256 then
      let C := fun x => ((SHAKE128 B (3 * (t + 1))).getD (3 * t + x) 0).toNat -- 5
      let d1 := C 0 + 256 * (C 1 % 16)                                 -- 6
      let d2 := C 1 / 16 + 16 * C 2                                    -- 7
      if d1 < 3329 then                                                -- 8
        a := update a j d1                                             -- 9
        j := j + 1                                                     -- 10
      if d2 < 3329 ∧ j < 256 then                                      -- 12
        a := update a j d2                                             -- 13
        j := j + 1                                                     -- 14
  return if j < 256 then none else some a

/-- Algorithm 8, SamplePolyCBD_η. -/
def SamplePolyCBD (η : Nat) (B : Nat → Nat) : Nat → Zq := Id.run do
  let b := BytesToBits (64 * η) B                                      -- 1
  let mut f : Nat → Zq := fun _ => 0
  for i in List.range 256 do                                           -- 2
    let x := ∑ j ∈ range η, b (2 * i * η + j)                          -- 3
    let y := ∑ j ∈ range η, b (2 * i * η + η + j)                      -- 4
    f := update f i ((x : Zq) - (y : Zq))                              -- 5
  return f

/-- Algorithm 9, NTT.  The block that starts at `2 len s` is the `s`-th. -/
def NTT (f : Nat → Zq) : Nat → Zq := Id.run do
  let mut g := f                                                       -- 1
  let mut i := 1                                                       -- 2
  for len in [128, 64, 32, 16, 8, 4, 2] do                             -- 3
    for s in List.range (128 / len) do                                 -- 4
      let start := 2 * len * s
      let zeta := ζ ^ bitRev7 i                                        -- 5
      i := i + 1                                                       -- 6
      for o in List.range len do                                       -- 7
        let j := start + o
        let t := zeta * g (j + len)                                    -- 8
        g := update g (j + len) (g j - t)                              -- 9
        g := update g j (g j + t)                                      -- 10
  return g

/-- Algorithm 10, NTT⁻¹. -/
def NTTInv (f : Nat → Zq) : Nat → Zq := Id.run do
  let mut g := f                                                       -- 1
  let mut i := 127                                                     -- 2
  for len in [2, 4, 8, 16, 32, 64, 128] do                             -- 3
    for s in List.range (128 / len) do                                 -- 4
      let start := 2 * len * s
      let zeta := ζ ^ bitRev7 i                                        -- 5
      i := i - 1                                                       -- 6
      for o in List.range len do                                       -- 7
        let j := start + o
        let t := g j                                                   -- 8
        g := update g j (t + g (j + len))                              -- 9
        g := update g (j + len) (zeta * (g (j + len) - t))             -- 10
  return fun n => g n * 3303                                           -- 14

/-- Algorithm 12, BaseCaseMultiply. -/
def BaseCaseMultiply (a0 a1 b0 b1 γ : Zq) : Zq × Zq :=
  (a0 * b0 + a1 * b1 * γ,                                              -- 1
   a0 * b1 + a1 * b0)                                                  -- 2

/-- Algorithm 11, MultiplyNTTs. -/
def MultiplyNTTs (f g : Nat → Zq) : Nat → Zq := Id.run do
  let mut h : Nat → Zq := fun _ => 0
  for i in List.range 128 do                                           -- 1
    let c := BaseCaseMultiply (f (2 * i)) (f (2 * i + 1)) (g (2 * i)) (g (2 * i + 1)) (ζ ^ (2 * bitRev7 i + 1)) -- 2
    h := update h (2 * i) c.1
    h := update h (2 * i + 1) c.2
  return h

/-! ## K-PKE and ML-KEM.  Byte strings are lists here; `bytes` and `string` convert. -/

/-- The bytes of a string, as numbers. -/
def bytes (B : List UInt8) : Nat → Nat := fun i => (B.getD i 0).toNat
/-- The string of the first `n` bytes. -/
def string (n : Nat) (B : Nat → Nat) : List UInt8 := (List.range n).map fun i => UInt8.ofNat (B i)
/-- `B[a : b]` (Section 2.4.1). -/
def slice (B : List UInt8) (a b : Nat) : List UInt8 := (B.drop a).take (b - a)
/-- `ByteEncode_d` of the `k` entries of a vector, concatenated (Section 2.4.8). -/
def encodeVec (k d : Nat) (v : Nat → Nat → Nat) : List UInt8 := (List.range k).flatMap fun i => string (32 * d) (ByteEncode d (v i))
/-- `ByteDecode_d` of the `i`-th of the strings of `32d` bytes of which `B` consists. -/
def decodeVec (d : Nat) (B : List UInt8) : Nat → Nat → Nat := fun i => ByteDecode d (bytes (slice B (32 * d * i) (32 * d * (i + 1))))

/-- Algorithm 13, K-PKE.KeyGen; each `SampleNTT` takes at most `n` turns. -/
def kpkeKeyGen (k n : Nat) (d : List UInt8) : Option (List UInt8 × List UInt8) := do
  let (ρ, σ) := G (d ++ [UInt8.ofNat k])                               -- 1
  let mut N := 0                                                       -- 2
  let mut A : Nat → Nat → Nat → Zq := fun _ _ _ => 0
  for i in List.range k do                                             -- 3
    for j in List.range k do                                           -- 4
      let a ← SampleNTT n (ρ ++ [UInt8.ofNat j, UInt8.ofNat i])        -- 5
      A := update A i (update (A i) j a)
  let mut s : Nat → Nat → Zq := fun _ _ => 0
  for i in List.range k do                                             -- 8
    s := update s i (SamplePolyCBD (η₁ k) (bytes (PRF (η₁ k) σ N)))    -- 9
    N := N + 1                                                         -- 10
  let mut e : Nat → Nat → Zq := fun _ _ => 0
  for i in List.range k do                                             -- 12
    e := update e i (SamplePolyCBD (η₁ k) (bytes (PRF (η₁ k) σ N)))    -- 13
    N := N + 1                                                         -- 14
  let s' := fun i => NTT (s i)                                         -- 16
  let e' := fun i => NTT (e i)                                         -- 17
  let t' := fun i c => (∑ j ∈ range k, MultiplyNTTs (A i j) (s' j) c) + e' i c -- 18
  let ek := encodeVec k 12 (fun i c => (t' i c).val) ++ ρ              -- 19
  let dk := encodeVec k 12 fun i c => (s' i c).val                     -- 20
  return (ek, dk)                                                      -- 21

/-- Algorithm 14, K-PKE.Encrypt. -/
def kpkeEncrypt (k n : Nat) (ek m r : List UInt8) : Option (List UInt8) := do
  let mut N := 0                                                       -- 1
  let t' := fun i c => (decodeVec 12 (slice ek 0 (384 * k)) i c : Zq)  -- 2
  let ρ := slice ek (384 * k) (384 * k + 32)                           -- 3
  let mut A : Nat → Nat → Nat → Zq := fun _ _ _ => 0
  for i in List.range k do                                             -- 4
    for j in List.range k do                                           -- 5
      let a ← SampleNTT n (ρ ++ [UInt8.ofNat j, UInt8.ofNat i])        -- 6
      A := update A i (update (A i) j a)
  let mut y : Nat → Nat → Zq := fun _ _ => 0
  for i in List.range k do                                             -- 9
    y := update y i (SamplePolyCBD (η₁ k) (bytes (PRF (η₁ k) r N)))    -- 10
    N := N + 1                                                         -- 11
  let mut e1 : Nat → Nat → Zq := fun _ _ => 0
  for i in List.range k do                                             -- 13
    e1 := update e1 i (SamplePolyCBD η₂ (bytes (PRF η₂ r N)))          -- 14
    N := N + 1                                                         -- 15
  let e2 := SamplePolyCBD η₂ (bytes (PRF η₂ r N))                      -- 17
  let y' := fun i => NTT (y i)                                         -- 18
  let u := fun i c => NTTInv (fun c => ∑ j ∈ range k, MultiplyNTTs (A j i) (y' j) c) c + e1 i c -- 19
  let μ := fun c => Decompress 1 (ByteDecode 1 (bytes m) c)            -- 20
  let v := fun c => NTTInv (fun c => ∑ j ∈ range k, MultiplyNTTs (t' j) (y' j) c) c + e2 c + μ c -- 21
  let c1 := encodeVec k (d_u k) fun i c => Compress (d_u k) (u i c)    -- 22
  let c2 := string (32 * d_v k) (ByteEncode (d_v k) fun c => Compress (d_v k) (v c)) -- 23
  return c1 ++ c2                                                      -- 24

/-- Algorithm 15, K-PKE.Decrypt. -/
def kpkeDecrypt (k : Nat) (dk c : List UInt8) : List UInt8 := Id.run do
  let c1 := slice c 0 (32 * d_u k * k)                                 -- 1
  let c2 := slice c (32 * d_u k * k) (32 * (d_u k * k + d_v k))        -- 2
  let u := fun i n => Decompress (d_u k) (decodeVec (d_u k) c1 i n)    -- 3
  let v := fun n => Decompress (d_v k) (ByteDecode (d_v k) (bytes c2) n) -- 4
  let s' := fun i n => (decodeVec 12 dk i n : Zq)                      -- 5
  let w := fun n => v n - NTTInv (fun n => ∑ j ∈ range k, MultiplyNTTs (s' j) (NTT (u j)) n) n -- 6
  return string 32 (ByteEncode 1 fun n => Compress 1 (w n))            -- 7

/-- Algorithm 16, ML-KEM.KeyGen_internal. -/
def KeyGen_internal (k n : Nat) (d z : List UInt8) : Option (List UInt8 × List UInt8) := do
  let (ekPKE, dkPKE) ← kpkeKeyGen k n d                                -- 1
  let ek := ekPKE                                                      -- 2
  let dk := dkPKE ++ ek ++ H ek ++ z                                   -- 3
  return (ek, dk)                                                      -- 4

/-- Algorithm 17, ML-KEM.Encaps_internal. -/
def Encaps_internal (k n : Nat) (ek m : List UInt8) : Option (List UInt8 × List UInt8) := do
  let (K, r) := G (m ++ H ek)                                          -- 1
  let c ← kpkeEncrypt k n ek m r                                       -- 2
  return (K, c)                                                        -- 3

/-- Algorithm 18, ML-KEM.Decaps_internal. -/
def Decaps_internal (k n : Nat) (dk c : List UInt8) : Option (List UInt8) := do
  let dkPKE := slice dk 0 (384 * k)                                    -- 1
  let ekPKE := slice dk (384 * k) (768 * k + 32)                       -- 2
  let h := slice dk (768 * k + 32) (768 * k + 64)                      -- 3
  let z := slice dk (768 * k + 64) (768 * k + 96)                      -- 4
  let m' := kpkeDecrypt k dkPKE c                                      -- 5
  let (K', r') := G (m' ++ h)                                          -- 6
  let Kbar := J (z ++ c)                                               -- 7
  let c' ← kpkeEncrypt k n ekPKE m' r'                                 -- 8
  return if c ≠ c' then Kbar else K'                                   -- 9-12

/-- The modulus check of Section 7.2: `test ← ByteEncode_12(ByteDecode_12(ek[0 : 384k]))` is compared with `ek[0 : 384k]`. -/
def modulusCheck (k : Nat) (ek : List UInt8) : Prop := encodeVec k 12 (decodeVec 12 (slice ek 0 (384 * k))) = slice ek 0 (384 * k)

/-- The hash check of Section 7.3: `test ← H(dk[384k : 768k + 32])` is compared with `dk[768k + 32 : 768k + 64]`. -/
def hashCheck (k : Nat) (dk : List UInt8) : Prop := H (slice dk (384 * k) (768 * k + 32)) = slice dk (768 * k + 32) (768 * k + 64)

end Verif.Spec.Printed

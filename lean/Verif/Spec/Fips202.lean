/-! # Specification of SHA-3 and SHAKE at bit level (FIPS 202)

This file does not mention the code.  Section and algorithm numbers are those of FIPS 202. -/
namespace Verif.Spec

/-- The state array `A[x, y, z]` (Section 3.1), `w = 64`.  Arithmetic on `Fin 5` and `Fin 64` is modulo 5 and 64. -/
abbrev KState := Fin 5 → Fin 5 → Fin 64 → Bool

/-- Column parity `C[x, z]` (Algorithm 1, step 1). -/
def parity (A : KState) (x : Fin 5) (z : Fin 64) : Bool :=
  A x 0 z ^^ A x 1 z ^^ A x 2 z ^^ A x 3 z ^^ A x 4 z

/-- Algorithm 1, θ. -/
def theta (A : KState) : KState := fun x y z => A x y z ^^ (parity A (x - 1) z ^^ parity A (x + 1) (z - 1))

/-- The pair `(x, y)` visited at time `t` by Algorithm 2 (steps 2 and 3b). -/
def rhoWalk : Nat → Fin 5 × Fin 5
  | 0 => (1, 0)
  | t + 1 => ((rhoWalk t).2, 2 * (rhoWalk t).1 + 3 * (rhoWalk t).2)

/-- The offset by which Algorithm 2 rotates lane `(x, y)`: `(t+1)(t+2)/2` at the time `t < 24` of the visit, and 0 for lane `(0, 0)`, which is not
visited. -/
def rhoOffset (x y : Fin 5) : Nat :=
  match (List.range 24).find? (fun t => rhoWalk t == (x, y)) with
  | some t => (t + 1) * (t + 2) / 2
  | none => 0

/-- Algorithm 2, ρ. -/
def rho (A : KState) : KState := fun x y z => A x y (z - Fin.ofNat 64 (rhoOffset x y))

/-- Algorithm 3, π. -/
def piStep (A : KState) : KState := fun x y z => A (x + 3 * y) x z

/-- Algorithm 4, χ. -/
def chi (A : KState) : KState := fun x y z => A x y z ^^ (!(A (x + 1) y z) && A (x + 2) y z)

/-- One step of the shift register of Algorithm 5 (steps 3a - 3f), on the bits `R[0..7]`. -/
def lfsrStep (R : List Bool) : List Bool :=
  match R with
  | [r0, r1, r2, r3, r4, r5, r6, r7] =>
    -- R = 0 || R, so that R[8] is the old R[7]
    [false ^^ r7, r0, r1, r2, r3 ^^ r7, r4 ^^ r7, r5 ^^ r7, r6]
  | _ => []

/-- Algorithm 5, `rc(t)`. -/
def rcBit (t : Nat) : Bool :=
  if t % 255 = 0 then true
  else ((List.range (t % 255)).foldl (fun R _ => lfsrStep R) [true, false, false, false, false, false, false, false]).getD 0 false

/-- The round constant bit `RC[z]` of Algorithm 6: `RC[2^j - 1] = rc(j + 7 ir)` for `0 ≤ j ≤ 6`, all others zero. -/
def RCbit (ir : Nat) (z : Nat) : Bool :=
  (List.range 7).any fun j => z == 2 ^ j - 1 && rcBit (j + 7 * ir)

/-- Algorithm 6, ι. -/
def iota (ir : Nat) (A : KState) : KState := fun x y z =>
  if x = 0 ∧ y = 0 then A x y z ^^ RCbit ir z.val else A x y z

/-- `Rnd` (Section 3.3). -/
def rnd (ir : Nat) (A : KState) : KState := iota ir (chi (piStep (rho (theta A))))

/-- KECCAK-p[1600, 24] (Algorithm 7), which is KECCAK-f[1600]; the round index runs from 0 to 23. -/
def keccakF (A : KState) : KState := (List.range 24).foldl (fun A ir => rnd ir A) A

/-- Position of `A[x, y, z]` in the state string (Section 3.1.2). -/
def kpos (x y : Fin 5) (z : Fin 64) : Nat := 64 * (5 * y.val + x.val) + z.val

/-- Bit `k` of the state string of `A` (Section 3.1.3). -/
def stateBit (A : KState) (k : Nat) : Bool :=
  A (Fin.ofNat 5 (k / 64)) (Fin.ofNat 5 (k / 320)) (Fin.ofNat 64 k)

/-- Algorithm 9, `pad10*1(r, m)`. -/
def pad101 (r m : Nat) : List Bool := true :: List.replicate ((r - (m + 2) % r) % r) false ++ [true]

/-- XOR of the `i`-th `r`-bit block of the padded string, extended by zeros, into the state (Algorithm 8, step 6). -/
def xorBlock (r : Nat) (P : List Bool) (i : Nat) (A : KState) : KState := fun x y z =>
  A x y z ^^ (decide (kpos x y z < r) && P.getD (i * r + kpos x y z) false)

/-- Absorbing phase of Algorithm 8 (steps 1 - 6). -/
def absorb (r : Nat) (N : List Bool) : KState :=
  let P := N ++ pad101 r N.length
  (List.range (P.length / r)).foldl (fun S i => keccakF (xorBlock r P i S)) (fun _ _ _ => false)

/-- `n`-fold application. -/
def iter {α : Type} (f : α → α) : Nat → α → α
  | 0, a => a
  | n + 1, a => iter f n (f a)

/-- Bit `j` of the output of the squeezing phase (Algorithm 8, steps 7 - 10): `Trunc_r(S) || Trunc_r(f(S)) || Trunc_r(f(f(S))) ...`. -/
def squeezeBit (r : Nat) (S : KState) (j : Nat) : Bool := stateBit (iter keccakF (j / r) S) (j % r)

/-- Bit `k` of a byte string, least significant bit of each byte first (Appendix B.1). -/
def bitAt (B : List UInt8) (k : Nat) : Bool := (B.getD (k / 8) 0).toNat.testBit (k % 8)

/-- The bits of a byte string. -/
def bitsOf (B : List UInt8) : List Bool := (List.range (8 * B.length)).map (bitAt B)

/-- The byte with the given bits, least significant first. -/
def byteOf (b : Nat → Bool) : UInt8 :=
  UInt8.ofNat (((List.range 8).map fun t => if b t then 2 ^ t else 0).sum)

/-- The first `n` bytes of KECCAK[c](M || suffix), with `r = 1600 - c` (Section 5.2). -/
def keccakBytes (c : Nat) (M : List UInt8) (suffix : List Bool) (n : Nat) : List UInt8 :=
  let S := absorb (1600 - c) (bitsOf M ++ suffix)
  (List.range n).map fun i => byteOf fun t => squeezeBit (1600 - c) S (8 * i + t)

/-- Section 6.1. -/
def SHA3_256 (M : List UInt8) : List UInt8 := keccakBytes 512 M [false, true] 32
/-- Section 6.1. -/
def SHA3_512 (M : List UInt8) : List UInt8 := keccakBytes 1024 M [false, true] 64
/-- Section 6.2; output length in bytes. -/
def SHAKE128 (M : List UInt8) (n : Nat) : List UInt8 := keccakBytes 256 M [true, true, true, true] n
/-- Section 6.2; output length in bytes. -/
def SHAKE256 (M : List UInt8) (n : Nat) : List UInt8 := keccakBytes 512 M [true, true, true, true] n

end Verif.Spec

import Verif.Model.RejUniform
import Verif.Model.Keccak
/-! # Rejection sampling with AVX2 (`/repo/mlkem/native/x86_64/rej_uniform_avx2.c`)

The table `idx` is transcribed from the source by `/verif/tools/gen_rej.py`.  A `__m128i` or `__m256i` is a function from byte positions
(0 the least significant) to bytes; positions beyond 15 or 31 carry no meaning.  The intrinsics are modelled by their documented meaning. -/
namespace Verif.Model

/-- The bytes of a vector.  Model of vectors: no line of /repo of its own. -/
abbrev VB := Nat → UInt8

/-- 16-bit element `k`, as an unsigned number.  Model of vectors: no line of /repo of its own. -/
def lane16 (a : VB) (k : Nat) : Nat := (a (2 * k)).toNat + 256 * (a (2 * k + 1)).toNat
/-- The vector with the given 16-bit elements.  Model of vectors: no line of /repo of its own. -/
def of16 (f : Nat → Nat) : VB := fun j => UInt8.ofNat (f (j / 2) / 256 ^ (j % 2))
/-- An unsigned 16-bit number read as a signed one.  Model of vectors: no line of /repo of its own. -/
def sgn16 (x : Nat) : Int := if x < 32768 then (x : Int) else (x : Int) - 65536
/-- The number with the bits `f 0`, …, `f (n - 1)`.  Model of vectors: no line of /repo of its own. -/
def bitsNat (f : Nat → Bool) : Nat → Nat
  | 0 => 0
  | n + 1 => bitsNat f n + if f n then 2 ^ n else 0

/-- Unaligned load of `n` bytes (`_mm256_loadu_si256`: 32, `_mm_loadu_si128`: 16).  Used in rej_uniform_avx2.c 180 and elsewhere. -/
def loadu (b : Buf UInt8) (pos : Nat) : Nat → M VB
  | 0 => pure fun _ => 0
  | n + 1 => do
    let v ← loadu b pos n
    let x ← rd b (pos + n)
    pure fun j => if j = n then x else v j
/-- `_mm_storeu_si128` of a vector into `int16_t` elements `r[o .. o+7]`; first `n` of them.  Used in rej_uniform_avx2.c 238 and elsewhere. -/
def storeu128 (r : Poly) (o : Nat) (v : VB) : Nat → M Poly
  | 0 => pure r
  | n + 1 => do
    let r ← storeu128 r o v n
    wr r (o + n) (sgn16 (lane16 v n))
/-- `_mm256_permute4x64_epi64(a, imm)`.  Used in rej_uniform_avx2.c 183 and elsewhere. -/
def mm256_permute4x64 (a : VB) (imm : Nat) : VB := fun j => a (8 * (imm / 4 ^ (j / 8) % 4) + j % 8)
/-- `_mm256_shuffle_epi8` (and `_mm_shuffle_epi8`, its lower half).  Used in rej_uniform_avx2.c 185 and elsewhere. -/
def mm256_shuffle8 (a b : VB) : VB := fun j => if 128 ≤ (b j).toNat then 0 else a (16 * (j / 16) + (b j).toNat % 16)
/-- `_mm256_srli_epi16`, `_mm_srli_epi16`.  Used in rej_uniform_avx2.c 187 and elsewhere. -/
def mm256_srli16 (a : VB) (n : Nat) : VB := of16 fun k => lane16 a k / 2 ^ n
/-- `_mm256_blend_epi16`, `_mm_blend_epi16`: bit `k % 8` of `imm` selects element `k` of `b`.  Used in rej_uniform_avx2.c 189 and elsewhere. -/
def mm256_blend16 (a b : VB) (imm : Nat) : VB := fun j => if imm.testBit (j / 2 % 8) then b j else a j
/-- `_mm256_and_si256`, `_mm_and_si128`.  Used in rej_uniform_avx2.c 191 and elsewhere. -/
def mm256_and8 (a b : VB) : VB := fun j => a j &&& b j
/-- `_mm256_cmpgt_epi16`, `_mm_cmpgt_epi16` (signed).  Used in rej_uniform_avx2.c 195 and elsewhere. -/
def mm256_cmpgt16 (a b : VB) : VB := of16 fun k => if sgn16 (lane16 a k) > sgn16 (lane16 b k) then 65535 else 0
/-- Signed saturation of a 16-bit element to 8 bits.  Model of vectors: no line of /repo of its own. -/
def sat8 (x : Int) : UInt8 := UInt8.ofNat ((max (-128) (min 127 x) + 256).toNat)
/-- `_mm256_packs_epi16`: within each 128-bit half, the eight elements of `a` and then the eight of `b`.  Used in rej_uniform_avx2.c 198 and elsewhere. -/
def mm256_packs16 (a b : VB) : VB := fun j =>
  if j % 16 < 8 then sat8 (sgn16 (lane16 a (8 * (j / 16) + j % 8))) else sat8 (sgn16 (lane16 b (8 * (j / 16) + j % 8)))
/-- `_mm256_movemask_epi8` (`n = 32`), `_mm_movemask_epi8` (`n = 16`).  Used in rej_uniform_avx2.c 199 and elsewhere. -/
def movemask (a : VB) (n : Nat) : Nat := bitsNat (fun j => decide (128 ≤ (a j).toNat)) n
/-- `_mm256_inserti128_si256(_mm256_castsi128_si256(a), b, 1)`.  Used in rej_uniform_avx2.c 217 and elsewhere. -/
def mm256_halves (a b : VB) : VB := fun j => if j < 16 then a j else b (j - 16)
/-- `_mm256_add_epi8`, `_mm_add_epi8`.  Used in rej_uniform_avx2.c 230 and elsewhere. -/
def mm256_add8 (a b : VB) : VB := fun j => a j + b j
/-- `_mm256_unpacklo_epi8`, `_mm_unpacklo_epi8`: within each 128-bit half, the low eight bytes of `a` and `b` interleaved.  Used in rej_uniform_avx2.c 232 and elsewhere. -/
def mm256_unpacklo8 (a b : VB) : VB := fun j => if j % 2 = 0 then a (16 * (j / 16) + j % 16 / 2) else b (16 * (j / 16) + j % 16 / 2)
/-- `_mm256_extracti128_si256(a, 1)`.  Used in rej_uniform_avx2.c 240 and elsewhere. -/
def mm256_hi (a : VB) : VB := fun j => a (16 + j)
/-- `_mm_popcnt_u32`.  Used in rej_uniform_avx2.c 239 and elsewhere. -/
def popcnt (x : Nat) : Nat := ((List.range 32).filter fun i => x.testBit i).length
/-- `_pext_u32`: the bits of `src` at the set positions of `mask`, gathered.  Used in rej_uniform_avx2.c 267 and elsewhere. -/
def pext_u32 (src mask : Nat) : Nat :=
  let ps := (List.range 32).filter fun i => mask.testBit i
  bitsNat (fun k => src.testBit (ps.getD k 0)) ps.length
/-- `_pext_u64`.  Used in rej_uniform_avx2.c 207 and elsewhere. -/
def pext_u64 (src mask : Nat) : Nat :=
  let ps := (List.range 64).filter fun i => mask.testBit i
  bitsNat (fun k => src.testBit (ps.getD k 0)) ps.length
/-- `_pdep_u64`: the low bits of `src`, deposited at the set positions of `mask`.  Used in rej_uniform_avx2.c 202 and elsewhere. -/
def pdep_u64 (src mask : Nat) : Nat :=
  bitsNat (fun i => mask.testBit i && src.testBit ((List.range i).filter fun j => mask.testBit j).length) 64
/-- `_mm_cvtsi64_si128`: the low eight bytes are those of `x`, the others zero.  Used in rej_uniform_avx2.c 215 and elsewhere. -/
def cvtsi64 (x : Nat) : VB := fun j => if j < 8 then UInt8.ofNat (x / 256 ^ j) else 0

/-- The table `idx`, rej_uniform_avx2.c 26-154 (`-1` is 255 in `uint8_t`). -/
def idxList : List (List UInt8) := [
  [255, 255, 255, 255, 255, 255, 255, 255], [0, 255, 255, 255, 255, 255, 255, 255], [2, 255, 255, 255, 255, 255, 255, 255], [0, 2, 255, 255, 255, 255, 255, 255],
  [4, 255, 255, 255, 255, 255, 255, 255], [0, 4, 255, 255, 255, 255, 255, 255], [2, 4, 255, 255, 255, 255, 255, 255], [0, 2, 4, 255, 255, 255, 255, 255],
  [6, 255, 255, 255, 255, 255, 255, 255], [0, 6, 255, 255, 255, 255, 255, 255], [2, 6, 255, 255, 255, 255, 255, 255], [0, 2, 6, 255, 255, 255, 255, 255],
  [4, 6, 255, 255, 255, 255, 255, 255], [0, 4, 6, 255, 255, 255, 255, 255], [2, 4, 6, 255, 255, 255, 255, 255], [0, 2, 4, 6, 255, 255, 255, 255],
  [8, 255, 255, 255, 255, 255, 255, 255], [0, 8, 255, 255, 255, 255, 255, 255], [2, 8, 255, 255, 255, 255, 255, 255], [0, 2, 8, 255, 255, 255, 255, 255],
  [4, 8, 255, 255, 255, 255, 255, 255], [0, 4, 8, 255, 255, 255, 255, 255], [2, 4, 8, 255, 255, 255, 255, 255], [0, 2, 4, 8, 255, 255, 255, 255],
  [6, 8, 255, 255, 255, 255, 255, 255], [0, 6, 8, 255, 255, 255, 255, 255], [2, 6, 8, 255, 255, 255, 255, 255], [0, 2, 6, 8, 255, 255, 255, 255],
  [4, 6, 8, 255, 255, 255, 255, 255], [0, 4, 6, 8, 255, 255, 255, 255], [2, 4, 6, 8, 255, 255, 255, 255], [0, 2, 4, 6, 8, 255, 255, 255],
  [10, 255, 255, 255, 255, 255, 255, 255], [0, 10, 255, 255, 255, 255, 255, 255], [2, 10, 255, 255, 255, 255, 255, 255], [0, 2, 10, 255, 255, 255, 255, 255],
  [4, 10, 255, 255, 255, 255, 255, 255], [0, 4, 10, 255, 255, 255, 255, 255], [2, 4, 10, 255, 255, 255, 255, 255], [0, 2, 4, 10, 255, 255, 255, 255],
  [6, 10, 255, 255, 255, 255, 255, 255], [0, 6, 10, 255, 255, 255, 255, 255], [2, 6, 10, 255, 255, 255, 255, 255], [0, 2, 6, 10, 255, 255, 255, 255],
  [4, 6, 10, 255, 255, 255, 255, 255], [0, 4, 6, 10, 255, 255, 255, 255], [2, 4, 6, 10, 255, 255, 255, 255], [0, 2, 4, 6, 10, 255, 255, 255],
  [8, 10, 255, 255, 255, 255, 255, 255], [0, 8, 10, 255, 255, 255, 255, 255], [2, 8, 10, 255, 255, 255, 255, 255], [0, 2, 8, 10, 255, 255, 255, 255],
  [4, 8, 10, 255, 255, 255, 255, 255], [0, 4, 8, 10, 255, 255, 255, 255], [2, 4, 8, 10, 255, 255, 255, 255], [0, 2, 4, 8, 10, 255, 255, 255],
  [6, 8, 10, 255, 255, 255, 255, 255], [0, 6, 8, 10, 255, 255, 255, 255], [2, 6, 8, 10, 255, 255, 255, 255], [0, 2, 6, 8, 10, 255, 255, 255],
  [4, 6, 8, 10, 255, 255, 255, 255], [0, 4, 6, 8, 10, 255, 255, 255], [2, 4, 6, 8, 10, 255, 255, 255], [0, 2, 4, 6, 8, 10, 255, 255],
  [12, 255, 255, 255, 255, 255, 255, 255], [0, 12, 255, 255, 255, 255, 255, 255], [2, 12, 255, 255, 255, 255, 255, 255], [0, 2, 12, 255, 255, 255, 255, 255],
  [4, 12, 255, 255, 255, 255, 255, 255], [0, 4, 12, 255, 255, 255, 255, 255], [2, 4, 12, 255, 255, 255, 255, 255], [0, 2, 4, 12, 255, 255, 255, 255],
  [6, 12, 255, 255, 255, 255, 255, 255], [0, 6, 12, 255, 255, 255, 255, 255], [2, 6, 12, 255, 255, 255, 255, 255], [0, 2, 6, 12, 255, 255, 255, 255],
  [4, 6, 12, 255, 255, 255, 255, 255], [0, 4, 6, 12, 255, 255, 255, 255], [2, 4, 6, 12, 255, 255, 255, 255], [0, 2, 4, 6, 12, 255, 255, 255],
  [8, 12, 255, 255, 255, 255, 255, 255], [0, 8, 12, 255, 255, 255, 255, 255], [2, 8, 12, 255, 255, 255, 255, 255], [0, 2, 8, 12, 255, 255, 255, 255],
  [4, 8, 12, 255, 255, 255, 255, 255], [0, 4, 8, 12, 255, 255, 255, 255], [2, 4, 8, 12, 255, 255, 255, 255], [0, 2, 4, 8, 12, 255, 255, 255],
  [6, 8, 12, 255, 255, 255, 255, 255], [0, 6, 8, 12, 255, 255, 255, 255], [2, 6, 8, 12, 255, 255, 255, 255], [0, 2, 6, 8, 12, 255, 255, 255],
  [4, 6, 8, 12, 255, 255, 255, 255], [0, 4, 6, 8, 12, 255, 255, 255], [2, 4, 6, 8, 12, 255, 255, 255], [0, 2, 4, 6, 8, 12, 255, 255],
  [10, 12, 255, 255, 255, 255, 255, 255], [0, 10, 12, 255, 255, 255, 255, 255], [2, 10, 12, 255, 255, 255, 255, 255], [0, 2, 10, 12, 255, 255, 255, 255],
  [4, 10, 12, 255, 255, 255, 255, 255], [0, 4, 10, 12, 255, 255, 255, 255], [2, 4, 10, 12, 255, 255, 255, 255], [0, 2, 4, 10, 12, 255, 255, 255],
  [6, 10, 12, 255, 255, 255, 255, 255], [0, 6, 10, 12, 255, 255, 255, 255], [2, 6, 10, 12, 255, 255, 255, 255], [0, 2, 6, 10, 12, 255, 255, 255],
  [4, 6, 10, 12, 255, 255, 255, 255], [0, 4, 6, 10, 12, 255, 255, 255], [2, 4, 6, 10, 12, 255, 255, 255], [0, 2, 4, 6, 10, 12, 255, 255],
  [8, 10, 12, 255, 255, 255, 255, 255], [0, 8, 10, 12, 255, 255, 255, 255], [2, 8, 10, 12, 255, 255, 255, 255], [0, 2, 8, 10, 12, 255, 255, 255],
  [4, 8, 10, 12, 255, 255, 255, 255], [0, 4, 8, 10, 12, 255, 255, 255], [2, 4, 8, 10, 12, 255, 255, 255], [0, 2, 4, 8, 10, 12, 255, 255],
  [6, 8, 10, 12, 255, 255, 255, 255], [0, 6, 8, 10, 12, 255, 255, 255], [2, 6, 8, 10, 12, 255, 255, 255], [0, 2, 6, 8, 10, 12, 255, 255],
  [4, 6, 8, 10, 12, 255, 255, 255], [0, 4, 6, 8, 10, 12, 255, 255], [2, 4, 6, 8, 10, 12, 255, 255], [0, 2, 4, 6, 8, 10, 12, 255],
  [14, 255, 255, 255, 255, 255, 255, 255], [0, 14, 255, 255, 255, 255, 255, 255], [2, 14, 255, 255, 255, 255, 255, 255], [0, 2, 14, 255, 255, 255, 255, 255],
  [4, 14, 255, 255, 255, 255, 255, 255], [0, 4, 14, 255, 255, 255, 255, 255], [2, 4, 14, 255, 255, 255, 255, 255], [0, 2, 4, 14, 255, 255, 255, 255],
  [6, 14, 255, 255, 255, 255, 255, 255], [0, 6, 14, 255, 255, 255, 255, 255], [2, 6, 14, 255, 255, 255, 255, 255], [0, 2, 6, 14, 255, 255, 255, 255],
  [4, 6, 14, 255, 255, 255, 255, 255], [0, 4, 6, 14, 255, 255, 255, 255], [2, 4, 6, 14, 255, 255, 255, 255], [0, 2, 4, 6, 14, 255, 255, 255],
  [8, 14, 255, 255, 255, 255, 255, 255], [0, 8, 14, 255, 255, 255, 255, 255], [2, 8, 14, 255, 255, 255, 255, 255], [0, 2, 8, 14, 255, 255, 255, 255],
  [4, 8, 14, 255, 255, 255, 255, 255], [0, 4, 8, 14, 255, 255, 255, 255], [2, 4, 8, 14, 255, 255, 255, 255], [0, 2, 4, 8, 14, 255, 255, 255],
  [6, 8, 14, 255, 255, 255, 255, 255], [0, 6, 8, 14, 255, 255, 255, 255], [2, 6, 8, 14, 255, 255, 255, 255], [0, 2, 6, 8, 14, 255, 255, 255],
  [4, 6, 8, 14, 255, 255, 255, 255], [0, 4, 6, 8, 14, 255, 255, 255], [2, 4, 6, 8, 14, 255, 255, 255], [0, 2, 4, 6, 8, 14, 255, 255],
  [10, 14, 255, 255, 255, 255, 255, 255], [0, 10, 14, 255, 255, 255, 255, 255], [2, 10, 14, 255, 255, 255, 255, 255], [0, 2, 10, 14, 255, 255, 255, 255],
  [4, 10, 14, 255, 255, 255, 255, 255], [0, 4, 10, 14, 255, 255, 255, 255], [2, 4, 10, 14, 255, 255, 255, 255], [0, 2, 4, 10, 14, 255, 255, 255],
  [6, 10, 14, 255, 255, 255, 255, 255], [0, 6, 10, 14, 255, 255, 255, 255], [2, 6, 10, 14, 255, 255, 255, 255], [0, 2, 6, 10, 14, 255, 255, 255],
  [4, 6, 10, 14, 255, 255, 255, 255], [0, 4, 6, 10, 14, 255, 255, 255], [2, 4, 6, 10, 14, 255, 255, 255], [0, 2, 4, 6, 10, 14, 255, 255],
  [8, 10, 14, 255, 255, 255, 255, 255], [0, 8, 10, 14, 255, 255, 255, 255], [2, 8, 10, 14, 255, 255, 255, 255], [0, 2, 8, 10, 14, 255, 255, 255],
  [4, 8, 10, 14, 255, 255, 255, 255], [0, 4, 8, 10, 14, 255, 255, 255], [2, 4, 8, 10, 14, 255, 255, 255], [0, 2, 4, 8, 10, 14, 255, 255],
  [6, 8, 10, 14, 255, 255, 255, 255], [0, 6, 8, 10, 14, 255, 255, 255], [2, 6, 8, 10, 14, 255, 255, 255], [0, 2, 6, 8, 10, 14, 255, 255],
  [4, 6, 8, 10, 14, 255, 255, 255], [0, 4, 6, 8, 10, 14, 255, 255], [2, 4, 6, 8, 10, 14, 255, 255], [0, 2, 4, 6, 8, 10, 14, 255],
  [12, 14, 255, 255, 255, 255, 255, 255], [0, 12, 14, 255, 255, 255, 255, 255], [2, 12, 14, 255, 255, 255, 255, 255], [0, 2, 12, 14, 255, 255, 255, 255],
  [4, 12, 14, 255, 255, 255, 255, 255], [0, 4, 12, 14, 255, 255, 255, 255], [2, 4, 12, 14, 255, 255, 255, 255], [0, 2, 4, 12, 14, 255, 255, 255],
  [6, 12, 14, 255, 255, 255, 255, 255], [0, 6, 12, 14, 255, 255, 255, 255], [2, 6, 12, 14, 255, 255, 255, 255], [0, 2, 6, 12, 14, 255, 255, 255],
  [4, 6, 12, 14, 255, 255, 255, 255], [0, 4, 6, 12, 14, 255, 255, 255], [2, 4, 6, 12, 14, 255, 255, 255], [0, 2, 4, 6, 12, 14, 255, 255],
  [8, 12, 14, 255, 255, 255, 255, 255], [0, 8, 12, 14, 255, 255, 255, 255], [2, 8, 12, 14, 255, 255, 255, 255], [0, 2, 8, 12, 14, 255, 255, 255],
  [4, 8, 12, 14, 255, 255, 255, 255], [0, 4, 8, 12, 14, 255, 255, 255], [2, 4, 8, 12, 14, 255, 255, 255], [0, 2, 4, 8, 12, 14, 255, 255],
  [6, 8, 12, 14, 255, 255, 255, 255], [0, 6, 8, 12, 14, 255, 255, 255], [2, 6, 8, 12, 14, 255, 255, 255], [0, 2, 6, 8, 12, 14, 255, 255],
  [4, 6, 8, 12, 14, 255, 255, 255], [0, 4, 6, 8, 12, 14, 255, 255], [2, 4, 6, 8, 12, 14, 255, 255], [0, 2, 4, 6, 8, 12, 14, 255],
  [10, 12, 14, 255, 255, 255, 255, 255], [0, 10, 12, 14, 255, 255, 255, 255], [2, 10, 12, 14, 255, 255, 255, 255], [0, 2, 10, 12, 14, 255, 255, 255],
  [4, 10, 12, 14, 255, 255, 255, 255], [0, 4, 10, 12, 14, 255, 255, 255], [2, 4, 10, 12, 14, 255, 255, 255], [0, 2, 4, 10, 12, 14, 255, 255],
  [6, 10, 12, 14, 255, 255, 255, 255], [0, 6, 10, 12, 14, 255, 255, 255], [2, 6, 10, 12, 14, 255, 255, 255], [0, 2, 6, 10, 12, 14, 255, 255],
  [4, 6, 10, 12, 14, 255, 255, 255], [0, 4, 6, 10, 12, 14, 255, 255], [2, 4, 6, 10, 12, 14, 255, 255], [0, 2, 4, 6, 10, 12, 14, 255],
  [8, 10, 12, 14, 255, 255, 255, 255], [0, 8, 10, 12, 14, 255, 255, 255], [2, 8, 10, 12, 14, 255, 255, 255], [0, 2, 8, 10, 12, 14, 255, 255],
  [4, 8, 10, 12, 14, 255, 255, 255], [0, 4, 8, 10, 12, 14, 255, 255], [2, 4, 8, 10, 12, 14, 255, 255], [0, 2, 4, 8, 10, 12, 14, 255],
  [6, 8, 10, 12, 14, 255, 255, 255], [0, 6, 8, 10, 12, 14, 255, 255], [2, 6, 8, 10, 12, 14, 255, 255], [0, 2, 6, 8, 10, 12, 14, 255],
  [4, 6, 8, 10, 12, 14, 255, 255], [0, 4, 6, 8, 10, 12, 14, 255], [2, 4, 6, 8, 10, 12, 14, 255], [0, 2, 4, 6, 8, 10, 12, 14]]
/-- `static const uint8_t idx[256][8]`: a table of rows.  rej_uniform_avx2.c 26-154. -/
def idxTab : Buf (List UInt8) := Buf.ofList idxList
/-- `_mm_loadl_epi64((__m128i *)&idx[m])`: the low eight bytes are the row, the others zero.  Used in rej_uniform_avx2.c 221 and elsewhere. -/
def loadIdx (m : Nat) : M VB := do
  let row ← rd idxTab m
  pure fun j => row.getD j 0

/-- Where the shuffle indices come from: the table, or, with the macro `BMI` (line 23, not defined by default), bit scatter and gather instructions.  rej_uniform_avx2.c 201-228 and 260-269. -/
structure RejIdx where
  /-- The indices for byte `s / 8` of `good`, in the first loop. -/
  idx32 (good s : Nat) : M VB
  /-- The indices for `good` in the second loop, and the value of `good` afterwards. -/
  idx8 (good : Nat) : M (VB × Nat)

/-- The branches without `BMI`, rej_uniform_avx2.c 220-227 and 267-268. -/
def tableIdx : RejIdx where
  idx32 good s := loadIdx ((good >>> s) &&& 0xFF)
  idx8 good := do
    let good := pext_u32 good 0x5555
    let pilo ← loadIdx good
    pure (pilo, good)

/-- The branches with `BMI`, rej_uniform_avx2.c 202-218 and 261-265. -/
def bmiIdx : RejIdx where
  idx32 good s :=
    let idx := pdep_u64 (good >>> s) 0x0101010101010101
    let idx := sub64 (u64 (idx <<< 8)) idx
    let idx := pext_u64 0x0E0C0A0806040200 idx
    pure (cvtsi64 idx)
  idx8 good :=
    let good := good &&& 0x5555
    let idx := pdep_u64 good 0x1111111111111111
    let idx := sub64 (u64 (idx <<< 8)) idx
    let idx := pext_u64 0x0E0C0A0806040200 idx
    pure (cvtsi64 idx, good)

/-- `bound`, line 168: `qdata.vec[_16XQ / 16]`, sixteen times `q` (consts.c 18-20). -/
def rejBound : VB := of16 fun _ => 3329
/-- `ones`, line 169.  File: rej_uniform_avx2.c. -/
def rejOnes : VB := fun _ => 1
/-- `mask`, line 170.  File: rej_uniform_avx2.c. -/
def rejMask : VB := of16 fun _ => 0xFFF
/-- `idx8`, lines 171-173 (`_mm256_set_epi8` lists the most significant byte first).  File: rej_uniform_avx2.c. -/
def rejIdx8 : VB := fun j => [0, 1, 1, 2, 3, 4, 4, 5, 6, 7, 7, 8, 9, 10, 10, 11, 4, 5, 5, 6, 7, 8, 8, 9, 10, 11, 11, 12, 13, 14, 14, 15].getD j 0

/-- Lines 183-190: the sixteen candidates in a 256-bit register after `permute4x64` with `imm`.  File: rej_uniform_avx2.c. -/
def rejUnpack (f : VB) (imm : Nat) : VB :=
  let f := mm256_permute4x64 f imm
  let f := mm256_shuffle8 f rejIdx8
  let g := mm256_srli16 f 4
  let f := mm256_blend16 f g 0xAA
  mm256_and8 f rejMask

/-- `REJ_UNIFORM_AVX_BUFLEN`, arith_native_x86_64.h 19-21. -/
def REJ_UNIFORM_AVX_BUFLEN : Nat := (12 * 256 / 8 * (1 <<< 12) / 3329 + 168) / 168 * 168

/-- The body of the first loop, rej_uniform_avx2.c 178-246; the state is `(r, ctr, pos)` and the C pointer `r` is `r + ro`. -/
def rejBody32 (ix : RejIdx) (ro : Nat) (buf : Buf UInt8) (r : Poly) (ctr pos : Nat) : M (Poly × Nat × Nat) := do
  let f0 ← loadu buf pos 32
  let f1 ← loadu buf (pos + 16) 32
  let f0 := rejUnpack f0 0x94
  let f1 := rejUnpack f1 0xe9
  let pos := pos + 48
  let g0 := mm256_cmpgt16 rejBound f0
  let g1 := mm256_cmpgt16 rejBound f1
  let g0 := mm256_packs16 g0 g1
  let good := movemask g0 32
  let i0 ← ix.idx32 good 0
  let i1 ← ix.idx32 good 8
  let i2 ← ix.idx32 good 16
  let i3 ← ix.idx32 good 24
  let g0 := mm256_halves i0 i2
  let g1 := mm256_halves i1 i3
  let g2 := mm256_add8 g0 rejOnes
  let g3 := mm256_add8 g1 rejOnes
  let g0 := mm256_unpacklo8 g0 g2
  let g1 := mm256_unpacklo8 g1 g3
  let f0 := mm256_shuffle8 f0 g0
  let f1 := mm256_shuffle8 f1 g1
  let r ← storeu128 r (ro + ctr) f0 8
  let ctr := ctr + popcnt ((good >>> 0) &&& 0xFF)
  let r ← storeu128 r (ro + ctr) (mm256_hi f0) 8
  let ctr := ctr + popcnt ((good >>> 16) &&& 0xFF)
  let r ← storeu128 r (ro + ctr) f1 8
  let ctr := ctr + popcnt ((good >>> 8) &&& 0xFF)
  let r ← storeu128 r (ro + ctr) (mm256_hi f1) 8
  let ctr := ctr + popcnt ((good >>> 24) &&& 0xFF)
  pure (r, ctr, pos)

/-- The body of the second loop, rej_uniform_avx2.c 248-276. -/
def rejBody8 (ix : RejIdx) (ro : Nat) (buf : Buf UInt8) (r : Poly) (ctr pos : Nat) : M (Poly × Nat × Nat) := do
  let f ← loadu buf pos 16
  let f := mm256_shuffle8 f rejIdx8
  let t := mm256_srli16 f 4
  let f := mm256_blend16 f t 0xAA
  let f := mm256_and8 f rejMask
  let pos := pos + 12
  let t := mm256_cmpgt16 rejBound f
  let good := movemask t 16
  let (pilo, good) ← ix.idx8 good
  let pihi := mm256_add8 pilo rejOnes
  let pilo := mm256_unpacklo8 pilo pihi
  let f := mm256_shuffle8 f pilo
  let r ← storeu128 r (ro + ctr) f 8
  let ctr := ctr + popcnt good
  pure (r, ctr, pos)

/-- The body of the third loop, rej_uniform_avx2.c 278-288. -/
def rejBody2 (ro : Nat) (buf : Buf UInt8) (r : Poly) (ctr pos : Nat) : M (Poly × Nat × Nat) := do
  let val0 := ((((← rd buf (pos + 0)).toNat >>> 0) ||| ((← rd buf (pos + 1)).toNat <<< 8)) &&& 0xFFF)
  let val1 := (((← rd buf (pos + 1)).toNat >>> 4) ||| ((← rd buf (pos + 2)).toNat <<< 4))
  let pos := pos + 3
  let (r, ctr) ← branch (decide (val0 < 3329))
    (do let r ← wr r (ro + ctr) (val0 : Int); pure (r, ctr + 1))
    (pure (r, ctr))
  let c ← andM (decide (val1 < 3329)) (decide (ctr < 256))
  let (r, ctr) ← branch c
    (do let r ← wr r (ro + ctr) (val1 : Int); pure (r, ctr + 1))
    (pure (r, ctr))
  pure (r, ctr, pos)

/-- `rej_uniform_avx2`, rej_uniform_avx2.c 160-291, at `r + ro`.  Each loop advances `pos`, so `REJ_UNIFORM_AVX_BUFLEN` iterations suffice for each; that this
budget is never exhausted is a theorem. -/
def rej_uniform_avx2_with (ix : RejIdx) (r : Poly) (ro : Nat) (buf : Buf UInt8) : M (Poly × Nat) := do
  let s ← whileM REJ_UNIFORM_AVX_BUFLEN
    (fun (_, ctr, pos) => andM (decide (ctr ≤ 256 - 32)) (decide (pos ≤ REJ_UNIFORM_AVX_BUFLEN - 48)))
    (fun (r, ctr, pos) => rejBody32 ix ro buf r ctr pos)
    (r, 0, 0)
  let s ← whileM REJ_UNIFORM_AVX_BUFLEN
    (fun (_, ctr, pos) => andM (decide (ctr ≤ 256 - 8)) (decide (pos ≤ REJ_UNIFORM_AVX_BUFLEN - 24)))
    (fun (r, ctr, pos) => rejBody8 ix ro buf r ctr pos)
    s
  let s ← whileM REJ_UNIFORM_AVX_BUFLEN
    (fun (_, ctr, pos) => andM (decide (ctr < 256)) (decide (pos ≤ REJ_UNIFORM_AVX_BUFLEN - 3)))
    (fun (r, ctr, pos) => rejBody2 ro buf r ctr pos)
    s
  pure (s.1, s.2.1)

/-- `rej_uniform_avx2`, rej_uniform_avx2.c 160-291, without `BMI`. -/
def rej_uniform_avx2 (r : Poly) (ro : Nat) (buf : Buf UInt8) : M (Poly × Nat) := rej_uniform_avx2_with tableIdx r ro buf

/-- `rej_uniform_avx2`, rej_uniform_avx2.c 160-291, with `BMI`. -/
def rej_uniform_avx2_bmi (r : Poly) (ro : Nat) (buf : Buf UInt8) : M (Poly × Nat) := rej_uniform_avx2_with bmiIdx r ro buf

/-- `rej_uniform_native`, profiles/default.h 41-51, at `r + ro`, with the given `rej_uniform_avx2`: `none` is the return value `-1`. -/
def rej_uniform_native_with (avx2 : Poly → Nat → Buf UInt8 → M (Poly × Nat)) (r : Poly) (ro len : Nat) (buf : Buf UInt8) (buflen : Nat) : M (Poly × Option Nat) := do
  let c ← orM (decide (len ≠ 256)) (decide (buflen ≠ REJ_UNIFORM_AVX_BUFLEN))
  branch c (pure (r, none)) (do
    let (r, ctr) ← avx2 r ro buf
    pure (r, some ctr))

/-- `rej_uniform_native`, profiles/default.h 41-51, without `BMI`. -/
def rej_uniform_native : Poly → Nat → Nat → Buf UInt8 → Nat → M (Poly × Option Nat) := rej_uniform_native_with rej_uniform_avx2

/-- `rej_uniform`, rej_uniform.c 78-90 (`MLKEM_USE_NATIVE_REJ_UNIFORM`), with the given `rej_uniform_native`. -/
def rej_uniform_x86_with (native : Poly → Nat → Nat → Buf UInt8 → Nat → M (Poly × Option Nat)) (r : Poly) (target offset : Nat) (buf : Buf UInt8) (buflen : Nat) : M (Poly × Nat) := do
  let (r, ret) ← native r offset (sub32 target offset) buf buflen
  branch ret.isSome (pure (r, offset + ret.getD 0)) (rej_uniform_scalar r target offset buf buflen)

/-- `rej_uniform`, rej_uniform.c 78-90 (`MLKEM_USE_NATIVE_REJ_UNIFORM`), without `BMI`. -/
def rej_uniform_x86 : Poly → Nat → Nat → Buf UInt8 → Nat → M (Poly × Nat) := rej_uniform_x86_with rej_uniform_native

/-- `rej_uniform`, rej_uniform.c 78-90 (`MLKEM_USE_NATIVE_REJ_UNIFORM`), with `BMI`. -/
def rej_uniform_x86_bmi : Poly → Nat → Nat → Buf UInt8 → Nat → M (Poly × Nat) := rej_uniform_x86_with (rej_uniform_native_with rej_uniform_avx2_bmi)

end Verif.Model

import Verif.Model.Polyvec
import Verif.Model.X86Asm
import Verif.Model.X86Rej
/-! # The arithmetic backend for x86_64 with AVX2

The wrappers of `/repo/mlkem/native/x86_64/profiles/default.h`, the C code of `/repo/mlkem/native/x86_64/basemul.c`, and the branches of
`/repo/mlkem/{ntt,poly,polyvec,rej_uniform}.c` selected by the `MLKEM_USE_NATIVE_*` macros of that profile.

`g` stands for the contents of the vector registers at the call, which are arbitrary.  A pointer into a larger byte array is modelled by a window: the function
works on a separate object holding the window, so that an access outside the window is an error, and the result is put back. -/
namespace Verif.Model.X86
open Verif.Model

/-- The window `b[off .. off + n - 1]`.  Model of a call: no line of /repo of its own; the declarations are in arith_native_x86_64.h. -/
def window (b : Buf UInt8) (off n : Nat) : M (Buf UInt8) := if off + n ≤ b.size then pure (b.extract off (off + n)) else M.fail .oob
/-- Put a window back.  Model of a call: no line of /repo of its own; the declarations are in arith_native_x86_64.h. -/
def putBack (b : Buf UInt8) (off : Nat) (c : Buf UInt8) : Buf UInt8 := Array.ofFn fun i : Fin b.size => if off ≤ i ∧ i < off + c.size then c[i - off]?.getD none else b[i]

/-- The state at the call of a function with one polynomial argument and the table.  Model of a call: no line of /repo of its own; the declarations are in arith_native_x86_64.h. -/
def callP (g : Nat → Ymm) (p : Poly) : St :=
  { ymm := g
    w := fun r => match r with
      | .rdi => p
      | .rsi => qdata
      | _ => #[]
    b := fun _ => #[] }

/-- Call a function with one polynomial argument and the table.  Model of a call: no line of /repo of its own; the declarations are in arith_native_x86_64.h. -/
def runP (prog : List Ins) (g : Nat → Ymm) (p : Poly) : M Poly := do
  let s ← run prog (callP g p)
  pure (s.w .rdi)

/-- `poly_permute_bitrev_to_custom`, default.h 36-39. -/
def poly_permute_bitrev_to_custom (g : Nat → Ymm) (p : Poly) : M Poly := runP nttunpack_avx2 g p
/-- `ntt_native`, default.h 53-56. -/
def ntt_native (g : Nat → Ymm) (p : Poly) : M Poly := runP Ntt.ntt_avx2 g p
/-- `intt_native`, default.h 58-61. -/
def intt_native (g : Nat → Ymm) (p : Poly) : M Poly := runP Intt.invntt_avx2 g p
/-- `poly_reduce_native`, default.h 63-66. -/
def poly_reduce_native (g : Nat → Ymm) (p : Poly) : M Poly := runP reduce_avx2 g p
/-- `poly_tomont_native`, default.h 68-71. -/
def poly_tomont_native (g : Nat → Ymm) (p : Poly) : M Poly := runP tomont_avx2 g p

/-- `poly_mulcache_compute_native`, default.h 73-78: the cache is left as it is. -/
def poly_mulcache_compute_native (x _y : Poly) : M Poly := pure x

/-- The state at the call of `basemul_avx2(r, a, b, qdata)`; the stack slot is uninitialised.  Model of a call: no line of /repo of its own; the declarations are in arith_native_x86_64.h. -/
def callMul (g : Nat → Ymm) (r a b : Poly) : St :=
  { ymm := g
    w := fun p => match p with
      | .rdi => r
      | .rsi => a
      | .rdx => b
      | .rcx => qdata
      | .rsp => Array.replicate 16 none
    b := fun _ => #[] }

/-- `poly_basemul_montgomery_avx2`, basemul.c 15-19. -/
def poly_basemul_montgomery_avx2 (g : Nat → Ymm) (r a b : Poly) : M Poly := do
  let s ← run basemul_avx2 (callMul g r a b)
  pure (s.w .rdi)

/-- `poly_add_avx2(r, r, b)`, basemul.c 25-37 (`_mm256_add_epi16` wraps; the only call has `a = r`). -/
def poly_add_avx2 (r b : Poly) : M Poly :=
  forN (256 / 16) r fun i r => do
    let f0 ← lda r (16 * i)
    let f1 ← lda b (16 * i)
    sta r (16 * i) fun k => s16 (f0 k + f1 k)

/-- `polyvec_basemul_acc_montgomery_cached_avx2`, basemul.c 39-58; `g i` is the contents of the registers at call `i` of the assembly. -/
def polyvec_basemul_acc_montgomery_cached_avx2 (K : Nat) (g : Nat → Nat → Ymm) (r : Poly) (a b : PolyVec) : M Poly := do
  let r ← poly_basemul_montgomery_avx2 (g 0) r (← vget a 0) (← vget b 0)
  let (r, _) ← forFrom 1 (K - 1) (r, newPoly) fun i (r, t) => do
    let t ← poly_basemul_montgomery_avx2 (g i) t (← vget a i) (← vget b i)
    let r ← poly_add_avx2 r t
    pure (r, t)
  pure r

/-- `poly_tobytes_native`, default.h 87-91, writing to `r + ro`. -/
def poly_tobytes_native (g : Nat → Ymm) (r : Buf UInt8) (ro : Nat) (a : Poly) : M (Buf UInt8) := do
  let w ← window r ro 384
  let s ← run ntttobytes_avx2
    { ymm := g
      w := fun p => match p with
        | .rsi => a
        | .rdx => qdata
        | _ => #[]
      b := fun p => match p with
        | .rdi => w
        | _ => #[] }
  pure (putBack r ro (s.b .rdi))

/-- `poly_frombytes_native`, default.h 93-97, reading from `a + ao`. -/
def poly_frombytes_native (g : Nat → Ymm) (r : Poly) (a : Buf UInt8) (ao : Nat) : M Poly := do
  let w ← window a ao 384
  let s ← run nttfrombytes_avx2
    { ymm := g
      w := fun p => match p with
        | .rdi => r
        | .rdx => qdata
        | _ => #[]
      b := fun p => match p with
        | .rsi => w
        | _ => #[] }
  pure (s.w .rdi)

/-- `NTT_BOUND_NATIVE`, `INVNTT_BOUND_NATIVE`, default.h 33-34. -/
def NATIVE_BOUND : Nat := 8 * 3329

/-- `poly_ntt` with `MLKEM_USE_NATIVE_NTT`, ntt.c 151-156. -/
def poly_ntt (g : Nat → Ymm) (p : Poly) : M Poly := do
  POLY_BOUND p 3329
  let p ← ntt_native g p
  POLY_BOUND p NATIVE_BOUND
  pure p

/-- `poly_invntt_tomont` with `MLKEM_USE_NATIVE_INTT`, ntt.c 238-242. -/
def poly_invntt_tomont (g : Nat → Ymm) (p : Poly) : M Poly := do
  let p ← intt_native g p
  POLY_BOUND p NATIVE_BOUND
  pure p

/-- `poly_reduce` with `MLKEM_USE_NATIVE_POLY_REDUCE`, poly.c 515-519. -/
def poly_reduce (g : Nat → Ymm) (p : Poly) : M Poly := do
  let p ← poly_reduce_native g p
  POLY_UBOUND p 3329
  pure p

/-- `poly_tomont` with `MLKEM_USE_NATIVE_POLY_TOMONT`, poly.c 490-494. -/
def poly_tomont (g : Nat → Ymm) (p : Poly) : M Poly := do
  let p ← poly_tomont_native g p
  POLY_BOUND p 3329
  pure p

/-- `poly_tobytes` with `MLKEM_USE_NATIVE_POLY_TOBYTES`, poly.c 300-304. -/
def poly_tobytes (g : Nat → Ymm) (r : Buf UInt8) (ro : Nat) (a : Poly) : M (Buf UInt8) := do
  POLY_UBOUND a 3329
  poly_tobytes_native g r ro a

/-- `poly_frombytes` with `MLKEM_USE_NATIVE_POLY_FROMBYTES`, poly.c 328-331. -/
def poly_frombytes (g : Nat → Ymm) (r : Poly) (a : Buf UInt8) (ao : Nat) : M Poly := poly_frombytes_native g r a ao

/-- `polyvec_basemul_acc_montgomery_cached` with `MLKEM_USE_NATIVE_POLYVEC_BASEMUL_ACC_MONTGOMERY_CACHED`, polyvec.c 125-135; the cache is not read. -/
def polyvec_basemul_acc_montgomery_cached (K : Nat) (g : Nat → Nat → Ymm) (r : Poly) (a b _b_cache : PolyVec) : M Poly := do
  POLYVEC_BOUND K a 3329
  POLYVEC_BOUND K b NTT_BOUND
  polyvec_basemul_acc_montgomery_cached_avx2 K g r a b

end Verif.Model.X86

import Verif.Model.Polyvec
import Verif.Model.A64Asm
import Verif.Model.X86Poly
/-! # The arithmetic backend for AArch64 with Neon

The wrappers of `/repo/mlkem/native/aarch64/profiles/clean.h` and `/repo/mlkem/native/aarch64/profiles/opt.h`, which differ only in the assembly functions they call, and the branches of
`/repo/mlkem/{ntt,poly,polyvec}.c` selected by the `MLKEM_USE_NATIVE_*` macros of those profiles.

A pointer into a larger byte array is modelled by a window, as in `Verif.Model.X86Poly`. -/
namespace Verif.Model.A64
open Verif.Model
open Verif.Model.X86 (s16 window putBack)

/-- The registers when a function is entered, apart from its arguments and the stack pointer: arbitrary.  Model of a call: no line of /repo of its own; the declarations are in arith_native_aarch64.h. -/
structure Entry where
  x : Nat → Reg
  v : Nat → Nat → Int

/-- The state at the call of a function whose arguments are the registers `args`, with the objects `m` and `b`.  The stack pointer is at the end of 32 uninitialised 16-bit elements,
so that a function that uses more than 64 bytes of stack fails; whatever the vector registers hold, their elements are 16-bit values.  Model of a call: no line of /repo of its own; the declarations are in arith_native_aarch64.h. -/
def call (g : Entry) (args : List Reg) (m : Obj → Buf Int) (b : Obj → Buf UInt8) : St :=
  { x := fun r => if r = 31 then .ptr .stk 64 else (args[r]?).getD (g.x r)
    v := fun r k => s16 (g.v r k)
    m := fun o => match o with
      | .stk => Array.replicate 32 none
      | o => m o
    b := b }

/-- No bytes.  Model of a call: no line of /repo of its own; the declarations are in arith_native_aarch64.h. -/
def noBytes : Obj → Buf UInt8 := fun _ => #[]

/-- Call a function with one polynomial argument and the two tables `t` and `u`.  Model of a call: no line of /repo of its own; the declarations are in arith_native_aarch64.h. -/
def runT (prog : List Block) (g : Entry) (t u : Table) (p : Poly) : M Poly := do
  let s ← run prog (call g [.ptr .a0 0, .ptr (.tab t) 0, .ptr (.tab u) 0] (fun o => match o with | .a0 => p | _ => #[]) noBytes)
  pure (s.m .a0)
/-- Call a function with one polynomial argument.  Model of a call: no line of /repo of its own; the declarations are in arith_native_aarch64.h. -/
def runP (prog : List Block) (g : Entry) (p : Poly) : M Poly := do
  let s ← run prog (call g [.ptr .a0 0] (fun o => match o with | .a0 => p | _ => #[]) noBytes)
  pure (s.m .a0)

/-- The assembly functions of a profile.  Defined by profiles/clean.h and profiles/opt.h. -/
structure Profile where
  ntt : List Block
  intt : List Block
  reduce : List Block
  tomont : List Block
  mulcache : List Block
  /-- The function is assembled with the `MLKEM_K` of the build. -/
  basemul : Nat → List Block
  tobytes : List Block

/-- `profiles/clean.h`.  clean.h 26-76. -/
def clean : Profile where
  ntt := ntt_asm_clean
  intt := intt_asm_clean
  reduce := poly_reduce_asm_clean
  tomont := poly_tomont_asm_clean
  mulcache := poly_mulcache_compute_asm_clean
  basemul := fun K => match K with
    | 2 => polyvec_basemul_acc_montgomery_cached_asm_clean_k2
    | 3 => polyvec_basemul_acc_montgomery_cached_asm_clean_k3
    | 4 => polyvec_basemul_acc_montgomery_cached_asm_clean_k4
    | _ => []
  tobytes := poly_tobytes_asm_clean

/-- `profiles/opt.h`; `poly_tobytes_native` calls the function `poly_tobytes_asm_clean` here too (opt.h 63-67). -/
def opt : Profile where
  ntt := ntt_asm_opt
  intt := intt_asm_opt
  reduce := poly_reduce_asm_opt
  tomont := poly_tomont_asm_opt
  mulcache := poly_mulcache_compute_asm_opt
  basemul := fun K => match K with
    | 2 => polyvec_basemul_acc_montgomery_cached_asm_opt_k2
    | 3 => polyvec_basemul_acc_montgomery_cached_asm_opt_k3
    | 4 => polyvec_basemul_acc_montgomery_cached_asm_opt_k4
    | _ => []
  tobytes := poly_tobytes_asm_clean

/-- `ntt_native`, clean.h 26-30, opt.h 26-30. -/
def ntt_native (P : Profile) (g : Entry) (p : Poly) : M Poly := runT P.ntt g .aarch64_ntt_zetas_layer01234 .aarch64_ntt_zetas_layer56 p
/-- `intt_native`, clean.h 33-37, opt.h 33-37. -/
def intt_native (P : Profile) (g : Entry) (p : Poly) : M Poly := runT P.intt g .aarch64_invntt_zetas_layer01234 .aarch64_invntt_zetas_layer56 p
/-- `poly_reduce_native`, clean.h 39-42, opt.h 39-42. -/
def poly_reduce_native (P : Profile) (g : Entry) (p : Poly) : M Poly := runP P.reduce g p
/-- `poly_tomont_native`, clean.h 43-46, opt.h 43-46. -/
def poly_tomont_native (P : Profile) (g : Entry) (p : Poly) : M Poly := runP P.tomont g p

/-- `poly_mulcache_compute_native`, clean.h 48-53, opt.h 48-53. -/
def poly_mulcache_compute_native (P : Profile) (g : Entry) (x y : Poly) : M Poly := do
  let s ← run P.mulcache (call g [.ptr .a0 0, .ptr .a1 0, .ptr (.tab .aarch64_zetas_mulcache_native) 0, .ptr (.tab .aarch64_zetas_mulcache_twisted_native) 0]
    (fun o => match o with | .a0 => x | .a1 => y | _ => #[]) noBytes)
  pure (s.m .a0)

/-- The memory of a vector of `K` arrays of `N` elements (`polyvec`, `polyvec_mulcache`): one object, which the assembly addresses from its beginning.  Model of a call: no line of /repo of its own; the declarations are in arith_native_aarch64.h. -/
def flat (N K : Nat) (v : PolyVec) : Buf Int := Array.ofFn fun i : Fin (N * K) => ((v[i.1 / N]?.getD #[])[i.1 % N]?).getD none

/-- `polyvec_basemul_acc_montgomery_cached_native`, clean.h 54-60, opt.h 54-60. -/
def polyvec_basemul_acc_montgomery_cached_native (P : Profile) (g : Entry) (K : Nat) (r : Poly) (a b c : PolyVec) : M Poly := do
  let s ← run (P.basemul K) (call g [.ptr .a0 0, .ptr .a1 0, .ptr .a2 0, .ptr .a3 0]
    (fun o => match o with | .a0 => r | .a1 => flat 256 K a | .a2 => flat 256 K b | .a3 => flat 128 K c | _ => #[]) noBytes)
  pure (s.m .a0)

/-- `poly_tobytes_native`, clean.h 62-66, opt.h 62-66, writing to `r + ro`. -/
def poly_tobytes_native (P : Profile) (g : Entry) (r : Buf UInt8) (ro : Nat) (a : Poly) : M (Buf UInt8) := do
  let w ← window r ro 384
  let s ← run P.tobytes (call g [.ptr .a0 0, .ptr .a1 0] (fun o => match o with | .a1 => a | _ => #[]) (fun o => match o with | .a0 => w | _ => #[]))
  pure (putBack r ro (s.b .a0))

/-- `NTT_BOUND_NATIVE`, clean.h 25, opt.h 25. -/
def NTT_BOUND_NATIVE : Nat := 6 * 3329
/-- `INVNTT_BOUND_NATIVE`, clean.h 32, opt.h 32. -/
def INVNTT_BOUND_NATIVE : Nat := 8 * 3329

/-- `poly_ntt` with `MLKEM_USE_NATIVE_NTT`, ntt.c 151-156. -/
def poly_ntt (P : Profile) (g : Entry) (p : Poly) : M Poly := do
  POLY_BOUND p 3329
  let p ← ntt_native P g p
  POLY_BOUND p NTT_BOUND_NATIVE
  pure p

/-- `poly_invntt_tomont` with `MLKEM_USE_NATIVE_INTT`, ntt.c 238-242. -/
def poly_invntt_tomont (P : Profile) (g : Entry) (p : Poly) : M Poly := do
  let p ← intt_native P g p
  POLY_BOUND p INVNTT_BOUND_NATIVE
  pure p

/-- `poly_reduce` with `MLKEM_USE_NATIVE_POLY_REDUCE`, poly.c 515-519. -/
def poly_reduce (P : Profile) (g : Entry) (p : Poly) : M Poly := do
  let p ← poly_reduce_native P g p
  POLY_UBOUND p 3329
  pure p

/-- `poly_tomont` with `MLKEM_USE_NATIVE_POLY_TOMONT`, poly.c 490-494. -/
def poly_tomont (P : Profile) (g : Entry) (p : Poly) : M Poly := do
  let p ← poly_tomont_native P g p
  POLY_BOUND p 3329
  pure p

/-- `poly_tobytes` with `MLKEM_USE_NATIVE_POLY_TOBYTES`, poly.c 300-304. -/
def poly_tobytes (P : Profile) (g : Entry) (r : Buf UInt8) (ro : Nat) (a : Poly) : M (Buf UInt8) := do
  POLY_UBOUND a 3329
  poly_tobytes_native P g r ro a

/-- `poly_mulcache_compute` with `MLKEM_USE_NATIVE_POLY_MULCACHE_COMPUTE`, poly.c 561-567. -/
def poly_mulcache_compute (P : Profile) (g : Entry) (x a : Poly) : M Poly := poly_mulcache_compute_native P g x a

/-- `polyvec_basemul_acc_montgomery_cached` with `MLKEM_USE_NATIVE_POLYVEC_BASEMUL_ACC_MONTGOMERY_CACHED`, polyvec.c 125-135. -/
def polyvec_basemul_acc_montgomery_cached (P : Profile) (K : Nat) (g : Entry) (r : Poly) (a b b_cache : PolyVec) : M Poly := do
  POLYVEC_BOUND K a 3329
  POLYVEC_BOUND K b NTT_BOUND
  polyvec_basemul_acc_montgomery_cached_native P g K r a b b_cache

end Verif.Model.A64

import Verif.Model.Native
import Verif.Model.X86Gp
/-! # The AVX2 build with its assembly as instructions

`Native.x86_64` calls the vector instructions of the assembly of `/repo/mlkem/native/x86_64/` with addresses already resolved (`Verif.Model.X86Asm`).  Here the same build calls the
instructions with their general-purpose registers, inner calls and stack (`Verif.Model.X86Gp`); the C functions around the calls are those of `Verif.Model.X86Poly`. -/
namespace Verif.Model.X86Gp
open Verif.Model.X86 (Ymm)

/-- The machine at a call of a function of the assembly: vector registers `regs`, other general-purpose registers `g`, the stack `stk` that begins at address `lo`, the stack pointer at its element `j`, the address `ra` of the
instruction after the call.  Model of a call: no line of /repo of its own; the declarations are in arith_native_x86_64.h 27-58. -/
structure Site where
  regs : Nat → Ymm
  g : Nat → Val
  lo : Nat
  stk : Buf Int
  j : Nat
  ra : Nat

/-- Call a function of the assembly: the program goes on after the call only if the function returns there; what the caller then finds are the objects.  Model of a call: no line of /repo of its own; the declarations are in
arith_native_x86_64.h 27-58. -/
def Site.call (e : Site) (prog : List G) (v : X86.St) : M X86.St := do
  let (s, r) ← run prog (entry e.g v e.lo e.stk e.j)
  if r = e.ra then pure s.v else M.fail .oob

/-- Call a function with one polynomial argument and the table.  Model of a call: no line of /repo of its own; the declarations are in arith_native_x86_64.h 27-58. -/
def runP (prog : List G) (e : Site) (p : Poly) : M Poly := do
  let s ← e.call prog (X86.callP e.regs p)
  pure (s.w .rdi)

/-- `poly_ntt` with `MLKEM_USE_NATIVE_NTT`, ntt.c 151-156, default.h 53-56. -/
def poly_ntt (e : Site) (p : Poly) : M Poly := do
  POLY_BOUND p 3329
  let p ← runP ntt_avx2 e p
  POLY_BOUND p X86.NATIVE_BOUND
  pure p

/-- `poly_invntt_tomont` with `MLKEM_USE_NATIVE_INTT`, ntt.c 238-242, default.h 58-61. -/
def poly_invntt_tomont (e : Site) (p : Poly) : M Poly := do
  let p ← runP invntt_avx2 e p
  POLY_BOUND p X86.NATIVE_BOUND
  pure p

/-- `poly_reduce` with `MLKEM_USE_NATIVE_POLY_REDUCE`, poly.c 515-519, default.h 63-66. -/
def poly_reduce (e : Site) (p : Poly) : M Poly := do
  let p ← runP reduce_avx2 e p
  POLY_UBOUND p 3329
  pure p

/-- `poly_tomont` with `MLKEM_USE_NATIVE_POLY_TOMONT`, poly.c 490-494, default.h 68-71. -/
def poly_tomont (e : Site) (p : Poly) : M Poly := do
  let p ← runP tomont_avx2 e p
  POLY_BOUND p 3329
  pure p

/-- `poly_basemul_montgomery_avx2`, basemul.c 15-19. -/
def poly_basemul_montgomery_avx2 (e : Site) (r a b : Poly) : M Poly := do
  let s ← e.call basemul_avx2 (X86.callMul e.regs r a b)
  pure (s.w .rdi)

/-- `polyvec_basemul_acc_montgomery_cached_avx2`, basemul.c 39-58; `e i` is the machine at call `i` of the assembly. -/
def polyvec_basemul_acc_montgomery_cached_avx2 (K : Nat) (e : Nat → Site) (r : Poly) (a b : PolyVec) : M Poly := do
  let r ← poly_basemul_montgomery_avx2 (e 0) r (← vget a 0) (← vget b 0)
  let (r, _) ← forFrom 1 (K - 1) (r, newPoly) fun i (r, t) => do
    let t ← poly_basemul_montgomery_avx2 (e i) t (← vget a i) (← vget b i)
    let r ← X86.poly_add_avx2 r t
    pure (r, t)
  pure r

/-- `polyvec_basemul_acc_montgomery_cached` with `MLKEM_USE_NATIVE_POLYVEC_BASEMUL_ACC_MONTGOMERY_CACHED`, polyvec.c 125-135; the cache is not read. -/
def polyvec_basemul_acc_montgomery_cached (K : Nat) (e : Nat → Site) (r : Poly) (a b _b_cache : PolyVec) : M Poly := do
  POLYVEC_BOUND K a 3329
  POLYVEC_BOUND K b NTT_BOUND
  polyvec_basemul_acc_montgomery_cached_avx2 K e r a b

/-- The objects at the call of `ntttobytes_avx2(w, a, qdata)`.  default.h 87-91. -/
def callTo (regs : Nat → Ymm) (w : Buf UInt8) (a : Poly) : X86.St where
  ymm := regs
  w := fun p => match p with
    | .rsi => a
    | .rdx => X86.qdata
    | _ => #[]
  b := fun p => match p with
    | .rdi => w
    | _ => #[]

/-- The objects at the call of `nttfrombytes_avx2(r, w, qdata)`.  default.h 93-97. -/
def callFrom (regs : Nat → Ymm) (r : Poly) (w : Buf UInt8) : X86.St where
  ymm := regs
  w := fun p => match p with
    | .rdi => r
    | .rdx => X86.qdata
    | _ => #[]
  b := fun p => match p with
    | .rsi => w
    | _ => #[]

/-- `poly_tobytes` with `MLKEM_USE_NATIVE_POLY_TOBYTES`, poly.c 300-304, default.h 87-91, writing to `r + ro`. -/
def poly_tobytes (e : Site) (r : Buf UInt8) (ro : Nat) (a : Poly) : M (Buf UInt8) := do
  POLY_UBOUND a 3329
  let w ← X86.window r ro 384
  let s ← e.call ntttobytes_avx2 (callTo e.regs w a)
  pure (X86.putBack r ro (s.b .rdi))

/-- `poly_frombytes` with `MLKEM_USE_NATIVE_POLY_FROMBYTES`, poly.c 328-331, default.h 93-97, reading from `a + ao`. -/
def poly_frombytes (e : Site) (r : Poly) (a : Buf UInt8) (ao : Nat) : M Poly := do
  let w ← X86.window a ao 384
  let s ← e.call nttfrombytes_avx2 (callFrom e.regs r w)
  pure (s.w .rdi)

/-- The machine at the calls of the assembly.  Simplification: it may depend on the function and on the polynomial it is called with, not on anything else.  No line of /repo of its own. -/
structure Sites where
  permute : Poly → Site
  ntt : Poly → Site
  intt : Poly → Site
  reduce : Poly → Site
  tomont : Poly → Site
  tobytes : Poly → Site
  frombytes : Poly → Site
  basemul : Poly → Nat → Site

/-- The vector registers at the calls.  No line of /repo of its own. -/
def Sites.regs (e : Sites) : Native.Regs where
  permute := fun p => (e.permute p).regs
  ntt := fun p => (e.ntt p).regs
  intt := fun p => (e.intt p).regs
  reduce := fun p => (e.reduce p).regs
  tomont := fun p => (e.tomont p).regs
  tobytes := fun p => (e.tobytes p).regs
  frombytes := fun p => (e.frombytes p).regs
  basemul := fun p i => (e.basemul p i).regs

/-- The AVX2 backend with its assembly as instructions: mlkem/native/x86_64/profiles/default.h 21-98 and fips202/native/x86_64/profiles/xkcp.h 18-21.  The Keccak functions and the rejection sampler, which are C code, are those
of `Native.x86_64`. -/
def x86_64 (e : Sites) : Native.Backend :=
  { Native.x86_64 e.regs with
    poly_permute_bitrev_to_custom := some fun p => runP nttunpack_avx2 (e.permute p) p
    poly_ntt := fun p => poly_ntt (e.ntt p) p
    poly_invntt_tomont := fun p => poly_invntt_tomont (e.intt p) p
    poly_reduce := fun p => poly_reduce (e.reduce p) p
    poly_tomont := fun p => poly_tomont (e.tomont p) p
    poly_tobytes := fun r ro a => poly_tobytes (e.tobytes a) r ro a
    poly_frombytes := fun r a ao => poly_frombytes (e.frombytes r) r a ao
    polyvec_basemul_acc_montgomery_cached := fun K r a b c => polyvec_basemul_acc_montgomery_cached K (e.basemul r) r a b c }

end Verif.Model.X86Gp

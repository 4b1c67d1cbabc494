import Verif.Model.Native
import Verif.Model.A64Poly
import Verif.Model.A64Rej
import Verif.Model.A64Fips202
/-! # The library with the AArch64 backends

`/repo/mlkem/native/aarch64/profiles/{clean,opt}.h` for the arithmetic and `/repo/fips202/native/aarch64/profiles/{default,cortex_a55}.h`, or the portable code, for Keccak.  Neither
arithmetic profile defines
`MLKEM_USE_NATIVE_POLY_FROMBYTES` or `MLKEM_USE_NATIVE_NTT_CUSTOM_ORDER`, so `poly_frombytes` is the portable one and the order of coefficients in the NTT domain the standard one. -/
namespace Verif.Native
open Verif.Model

/-- The contents of the registers when the assembly functions are entered, and of the part of the stack that the sampler uses for its output.  Simplification: they may depend on the
function and on the polynomial or state it is called with, not on anything else.  No line of /repo of its own. -/
structure Regs64 where
  ntt : Poly → A64.Entry
  intt : Poly → A64.Entry
  reduce : Poly → A64.Entry
  tomont : Poly → A64.Entry
  tobytes : Poly → A64.Entry
  mulcache : Poly → A64.Entry
  basemul : Poly → A64.Entry
  stack : Poly → Nat → Int
  keccak : Buf W → Nat → A64K.Entry

/-- The stack buffer of the sampler: 288 elements of arbitrary contents.  rej_uniform_asm_clean.S 294 (`STACK_SIZE`). -/
def Regs64.stk (g : Regs64) (p : Poly) : Poly := Array.ofFn fun i : Fin 288 => some (X86.s16 (g.stack p i.1))

/-- The AArch64 backends with the assembly functions of `P` (`A64.clean`: profiles/clean.h, `A64.opt`: profiles/opt.h) and the Keccak functions of `Q` (`A64K.defaultProfile`:
profiles/default.h, `A64K.cortex_a55`: profiles/cortex_a55.h, `A64K.no_backend`: the portable code).  Profiles: clean.h 16-76, opt.h 16-76. -/
def aarch64 (P : A64.Profile) (Q : A64K.Profile) (g : Regs64) : Backend where
  KeccakF1600_StatePermute := A64K.KeccakF1600_StatePermute Q g.keccak
  KeccakF1600x4_StatePermute := A64K.KeccakF1600x4_StatePermute Q g.keccak
  rej_uniform := fun r target offset buf buflen => A64Rej.rej_uniform (g.stk r) r target offset buf buflen
  poly_permute_bitrev_to_custom := none
  poly_ntt := fun p => A64.poly_ntt P (g.ntt p) p
  poly_invntt_tomont := fun p => A64.poly_invntt_tomont P (g.intt p) p
  poly_reduce := fun p => A64.poly_reduce P (g.reduce p) p
  poly_tomont := fun p => A64.poly_tomont P (g.tomont p) p
  poly_tobytes := fun r ro a => A64.poly_tobytes P (g.tobytes a) r ro a
  poly_frombytes := Model.poly_frombytes
  poly_mulcache_compute := fun x a => A64.poly_mulcache_compute P (g.mulcache a) x a
  polyvec_basemul_acc_montgomery_cached := fun K r a b c => A64.polyvec_basemul_acc_montgomery_cached P K (g.basemul r) r a b c

end Verif.Native

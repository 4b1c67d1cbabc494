import Verif.Model.NativeA64
import Verif.Model.A64RejAsm
/-! # The AArch64 build with its rejection sampler as instructions

`Native.aarch64` runs the arithmetic and Keccak assembly instruction by instruction, but the rejection sampler as transcribed in `Verif.Model.A64Rej`.  Here the same build runs the instructions of the sampler
(`Verif.Model.A64RejAsm`), so that all its assembly is run as instructions. -/
namespace Verif.Model.A64RejAsm

/-- The registers at a call of the sampler.  No line of /repo of its own. -/
structure Site where
  gx : Nat → Reg
  gv : Nat → VB
  gf : Option Flags
  hi : Nat

/-- `rej_uniform_native`, profiles/clean.h 68-76 and profiles/opt.h 68-76, at `r + ro`: `none` is the return value `-1`; the count is returned in the 32-bit register `w0`. -/
def rej_uniform_native (e : Site) (r : Poly) (ro len : Nat) (stk : Poly) (buf : Buf UInt8) (buflen : Nat) : M (Poly × Option Nat) := do
  let c ← orM (decide (len ≠ 256)) (decide (buflen % 24 ≠ 0))
  branch c (pure (r, none)) (do
    let s ← call e.gx e.gv e.gf e.hi r ro stk buf buflen
    match (s.x 0).w with
    | some ctr => pure (s.out, some ctr)
    | none => M.fail .uninit)

/-- `rej_uniform`, rej_uniform.c 78-90 (`MLKEM_USE_NATIVE_REJ_UNIFORM`). -/
def rej_uniform (e : Site) (stk : Poly) (r : Poly) (target offset : Nat) (buf : Buf UInt8) (buflen : Nat) : M (Poly × Nat) := do
  let (r, ret) ← rej_uniform_native e r offset (sub32 target offset) stk buf buflen
  branch ret.isSome (pure (r, offset + ret.getD 0)) (rej_uniform_scalar r target offset buf buflen)

/-- The AArch64 backend with the sampler as instructions, called with the registers `e`, which may depend on the polynomial.  Profiles: clean.h 16-76, opt.h 16-76. -/
def aarch64 (P : A64.Profile) (Q : A64K.Profile) (g : Native.Regs64) (e : Poly → Site) : Native.Backend :=
  { Native.aarch64 P Q g with rej_uniform := fun r target offset buf buflen => rej_uniform (e r) (g.stk r) r target offset buf buflen }

end Verif.Model.A64RejAsm

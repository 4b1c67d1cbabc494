import Verif.Model.A64Keccak
/-! # The choice of a Keccak implementation on AArch64 (`/repo/fips202/native/aarch64/profiles/*.h`, `/repo/fips202/keccakf1600.c`) -/
namespace Verif.Model.A64K

/-- An assembly function: its code, the size in bytes of its stack frame, and how many Keccak states it permutes.  The declarations are in fips202_native_aarch64.h 14-40. -/
structure Fun where
  prog : List Block
  frame : Nat
  ways : Nat

/-- keccak_f1600_x1_scalar_asm_opt.S.  Declared in fips202_native_aarch64.h 14. -/
def fun_x1_scalar : Fun := ⟨keccak_f1600_x1_scalar_asm_opt, keccak_f1600_x1_scalar_asm_opt_frame, 1⟩
/-- keccak_f1600_x1_v84a_asm_clean.S.  Declared in fips202_native_aarch64.h 18. -/
def fun_x1_v84a : Fun := ⟨keccak_f1600_x1_v84a_asm_clean, keccak_f1600_x1_v84a_asm_clean_frame, 1⟩
/-- keccak_f1600_x2_v84a_asm_clean.S.  Declared in fips202_native_aarch64.h 22. -/
def fun_x2_v84a : Fun := ⟨keccak_f1600_x2_v84a_asm_clean, keccak_f1600_x2_v84a_asm_clean_frame, 2⟩
/-- keccak_f1600_x2_v8a_v84a_asm_hybrid.S (declared, not used by a profile).  Declared in fips202_native_aarch64.h 26. -/
def fun_x2_v8a_v84a : Fun := ⟨keccak_f1600_x2_v8a_v84a_asm_hybrid, keccak_f1600_x2_v8a_v84a_asm_hybrid_frame, 2⟩
/-- keccak_f1600_x4_scalar_v84a_asm_hybrid_opt.S (declared, not used by a profile).  Declared in fips202_native_aarch64.h 34. -/
def fun_x4_v84a : Fun := ⟨keccak_f1600_x4_scalar_v84a_asm_hybrid_opt, keccak_f1600_x4_scalar_v84a_asm_hybrid_opt_frame, 4⟩
/-- keccak_f1600_x4_v8a_scalar_hybrid_asm_opt.S.  Declared in fips202_native_aarch64.h 30. -/
def fun_x4_v8a : Fun := ⟨keccak_f1600_x4_scalar_v8a_asm_hybrid_opt, keccak_f1600_x4_scalar_v8a_asm_hybrid_opt_frame, 4⟩
/-- keccak_f1600_x4_v8a_v84a_scalar_hybrid_asm_opt.S.  Declared in fips202_native_aarch64.h 38. -/
def fun_x4_v8a_v84a : Fun := ⟨keccak_f1600_x4_scalar_v8a_v84a_hybrid_asm_opt, keccak_f1600_x4_scalar_v8a_v84a_hybrid_asm_opt_frame, 4⟩

/-- What a profile defines: the functions behind `keccak_f1600_x1_native`, `keccak_f1600_x2_native` and `keccak_f1600_x4_native`; `none` if the corresponding macro
`MLKEM_USE_FIPS202_X{1,2,4}_NATIVE` is not defined.  Profiles: fips202/native/aarch64/profiles/default.h and cortex_a55.h. -/
structure Profile where
  x1 : Option Fun
  x2 : Option Fun
  x4 : Option Fun

/-- profiles/default.h 22-88, by the macros `__ARM_FEATURE_SHA3`, `__APPLE__` and `SYS_AARCH64_SLOW_BARREL_SHIFTER`. -/
def defaultProfile (sha3 apple slow : Bool) : Profile where
  x1 := if sha3 && apple then some fun_x1_v84a else if !slow then some fun_x1_scalar else none
  x2 := if sha3 then if apple then some fun_x2_v84a else none else none
  x4 := if sha3 then if apple then none else some fun_x4_v8a_v84a else some fun_x4_v8a

/-- profiles/cortex_a55.h 16-25. -/
def cortex_a55 : Profile := ⟨some fun_x1_scalar, none, none⟩

/-- No FIPS 202 backend (`MLKEM_USE_NATIVE_BACKEND_FIPS202` undefined).  keccakf1600.c 97-101 and 105-385. -/
def no_backend : Profile := ⟨none, none, none⟩

/-- A call of an assembly function on `state + so`, entered with registers `g`.  The calls are in fips202/native/aarch64/profiles/default.h and cortex_a55.h. -/
def Fun.call (f : Fun) (g : Entry) (s : Buf W) (so : Nat) : M (Buf W) := A64K.call f.prog g f.frame s so

/-- `KeccakF1600_StatePermute`, keccakf1600.c 120-391, on `state + so`.  `g` is what the registers hold on entry of the assembly, which may depend on the state and the offset. -/
def KeccakF1600_StatePermute (P : Profile) (g : Buf W → Nat → Entry) (s : Buf W) (so : Nat) : M (Buf W) :=
  match P.x1 with
  | some f => f.call (g s so) s so
  | none => Model.KeccakF1600_StatePermute s so

/-- `KeccakF1600x4_StatePermute`, keccakf1600.c 90-103. -/
def KeccakF1600x4_StatePermute (P : Profile) (g : Buf W → Nat → Entry) (s : Buf W) : M (Buf W) :=
  match P.x4, P.x2 with
  | some f, _ => f.call (g s 0) s 0
  | none, some f => do
    let s ← f.call (g s (0 * KECCAK_LANES)) s (0 * KECCAK_LANES)
    f.call (g s (2 * KECCAK_LANES)) s (2 * KECCAK_LANES)
  | none, none => do
    let s ← KeccakF1600_StatePermute P g s (KECCAK_LANES * 0)
    let s ← KeccakF1600_StatePermute P g s (KECCAK_LANES * 1)
    let s ← KeccakF1600_StatePermute P g s (KECCAK_LANES * 2)
    KeccakF1600_StatePermute P g s (KECCAK_LANES * 3)

end Verif.Model.A64K

import Verif.Proof.A64KChk1
/-! # The symbolic execution of the AArch64 functions that permute four Keccak states, by the kernel -/
namespace Verif.A64K
open Model.A64K

theorem x4_v84a : correct keccak_f1600_x4_scalar_v84a_asm_hybrid_opt 4 keccak_f1600_x4_scalar_v84a_asm_hybrid_opt_frame = true := by decide +kernel
theorem x4_v8a : correct keccak_f1600_x4_scalar_v8a_asm_hybrid_opt 4 keccak_f1600_x4_scalar_v8a_asm_hybrid_opt_frame = true := by decide +kernel
theorem x4_v8a_v84a : correct keccak_f1600_x4_scalar_v8a_v84a_hybrid_asm_opt 4 keccak_f1600_x4_scalar_v8a_v84a_hybrid_asm_opt_frame = true := by decide +kernel

end Verif.A64K

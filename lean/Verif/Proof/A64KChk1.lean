import Verif.Proof.A64KTrace
/-! # The symbolic execution of the AArch64 functions that permute one or two Keccak states, by the kernel -/
namespace Verif.A64K
open Model.A64K

theorem x1_scalar : correct keccak_f1600_x1_scalar_asm_opt 1 keccak_f1600_x1_scalar_asm_opt_frame = true := by decide +kernel
theorem x1_v84a : correct keccak_f1600_x1_v84a_asm_clean 1 keccak_f1600_x1_v84a_asm_clean_frame = true := by decide +kernel
theorem x2_v84a : correct keccak_f1600_x2_v84a_asm_clean 2 keccak_f1600_x2_v84a_asm_clean_frame = true := by decide +kernel
theorem x2_hybrid : correct keccak_f1600_x2_v8a_v84a_asm_hybrid 2 keccak_f1600_x2_v8a_v84a_asm_hybrid_frame = true := by decide +kernel

end Verif.A64K

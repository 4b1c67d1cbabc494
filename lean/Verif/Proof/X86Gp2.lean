import Verif.Proof.X86Gp
namespace Verif.X86Gp
open Model
theorem ntt_chk : chk false X86Gp.ntt_avx2 X86.Ntt.ntt_avx2 = true := by decide +kernel
theorem invntt_chk : chk false X86Gp.invntt_avx2 X86.Intt.invntt_avx2 = true := by decide +kernel
theorem reduce_chk : chk false X86Gp.reduce_avx2 X86.reduce_avx2 = true := by decide +kernel
theorem tomont_chk : chk false X86Gp.tomont_avx2 X86.tomont_avx2 = true := by decide +kernel
theorem nttunpack_chk : chk false X86Gp.nttunpack_avx2 X86.nttunpack_avx2 = true := by decide +kernel
theorem ntttobytes_chk : chk false X86Gp.ntttobytes_avx2 X86.ntttobytes_avx2 = true := by decide +kernel
theorem nttfrombytes_chk : chk false X86Gp.nttfrombytes_avx2 X86.nttfrombytes_avx2 = true := by decide +kernel
theorem nttpack_chk : chk false X86Gp.nttpack_avx2 X86.nttpack_avx2 = true := by decide +kernel
theorem basemul_chk : chk true X86Gp.basemul_avx2 X86.basemul_avx2 = true := by decide +kernel
end Verif.X86Gp

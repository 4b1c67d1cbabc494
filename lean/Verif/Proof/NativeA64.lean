import Verif.Model.NativeA64
import Verif.Proof.NativeKem
import Verif.Proof.A64Mul
import Verif.Proof.A64Rej
import Verif.Proof.A64KProfile
/-! # The AArch64 backend provides what the library needs -/
namespace Verif.Native
open Model Spec Finset

attribute [local irreducible] keccakF partialK finK blocksK sqByte SHAKE256 SHA3_256 SHA3_512 SHAKE128

theorem stk_size (g : Regs64) (p : Model.Poly) : (g.stk p).size = 288 := by unfold Regs64.stk; simp

theorem stk_full (g : Regs64) (p : Model.Poly) : A64Rej.Full (g.stk p) := by
  intro j hj
  rw [stk_size] at hj
  unfold Regs64.stk
  exact ⟨_, by rw [Array.getElem?_ofFn]; simp [hj]; rfl⟩

theorem aarch64_meets {P : Model.A64.Profile} {Q : Model.A64K.Profile} (hP : A64.Good_ P) (hQ : Verif.A64K.OkP Q) (g : Regs64) : Meets (aarch64 P Q g) (fun n => n) A64.Cache where
  lt := fun h => h
  perm1 := fun h => Verif.A64K.permute_spec hQ _ h
  perm := fun _ h => Verif.A64K.permute4_spec hQ _ h
  rej := fun h h0 hL _ h1 h2 h3 => A64Rej.rej_uniform_spec' (stk_size g _) (stk_full g _) h (by omega) (by omega) h1 h2 h3
  permute := fun _ _ => rfl
  ntt := fun h hf => Post.use (A64.poly_ntt_spec hP _ h hf) fun p' ⟨v, h1, h2⟩ => ⟨v, h1, fun n hn => ⟨by have := (h2 n hn).1; omega, (h2 n hn).2⟩⟩
  intt := fun h hf => A64.poly_invntt_tomont_spec hP _ h hf
  reduce := fun h hf => A64.poly_reduce_spec hP _ h hf
  tomont := fun h hf => A64.poly_tomont_spec hP _ h hf
  tobytes := fun h hf _ _ hr => A64.poly_tobytes_spec hP _ h hf hr
  frombytes := fun h _ hr => poly_frombytes_spec h hr
  mulcache := fun hx ha hf => A64.poly_mulcache_compute_spec hP _ hx ha (fun n hn => by have := hf n hn; omega)
  basemul := fun hK _ _ _ _ _ _ ha hb hc hfa hfb hr => Post.use (A64.polyvec_basemul_spec hP _ hK ha hb hc hfa hfb hr) fun p' ⟨v, h1, h2⟩ => ⟨v, h1, fun n hn => ⟨by have := (h2 n hn).1; omega, (h2 n hn).2⟩⟩

end Verif.Native

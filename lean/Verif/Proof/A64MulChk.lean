import Verif.Proof.A64Poly
/-! # Multiplication in the AArch64 arithmetic backend: the expressions computed -/
namespace Verif.A64
open Verif Model Model.A64 Spec Finset
open Verif.X86 (Ext mth s16_id s16_exists s16_add window_wp putBack_written)
open Verif.Model.X86 (s16)

/-! ## Multiplication -/

/-- The accumulated product at position `p`, for `K` pairs of polynomials. -/
def accE (p : Nat) : Nat → E
  | 0 => .c 0
  | k + 1 =>
    let x := match k with
      | 0 => .mul (vv (256 * k + p / 2 * 2)) (vv (1024 + (256 * k + p)))
      | k' + 1 => .mla (accE p (k' + 1)) (vv (256 * k + p / 2 * 2)) (vv (1024 + (256 * k + p)))
    .mla x (vv (256 * k + (p / 2 * 2 + 1))) (if Nat.beq (p % 2) 0 then vv (2048 + (128 * k + p / 2)) else vv (1024 + (256 * k + (p - 1))))
/-- The product at position `p`. -/
def bmE (p K : Nat) : E := .hi (.mla (accE p K) (.mullo (.lo (accE p K)) (.c 3327)) (.c 3329))

/-- The arguments of `polyvec_basemul_acc_montgomery_cached_asm`. -/
def bmArgs : List Reg := [.ptr .a0 0, .ptr .a1 0, .ptr .a2 0, .ptr .a3 0]
/-- The check of `polyvec_basemul_acc_montgomery_cached`. -/
noncomputable def basemulChk (K : Nat) (prog : List Block) : Bool :=
  match start noTags prog bmArgs 2560 (memNone 32) (memOf vv 0 (32 * K)) (memOf (fun i => vv (1024 + i)) 0 (32 * K)) (memOf (fun i => vv (2048 + i)) 0 (16 * K)) [] with
  | none => false
  | some r => chkSaved 2560 r && chkM (fun p x => decide (x = bmE p K)) 8 32 0 (mth r.W 0)

theorem basemulChk_clean : basemulChk 2 polyvec_basemul_acc_montgomery_cached_asm_clean_k2 = true ∧ basemulChk 3 polyvec_basemul_acc_montgomery_cached_asm_clean_k3 = true ∧
    basemulChk 4 polyvec_basemul_acc_montgomery_cached_asm_clean_k4 = true := ⟨by decide +kernel, by decide +kernel, by decide +kernel⟩
theorem basemulChk_opt : basemulChk 2 polyvec_basemul_acc_montgomery_cached_asm_opt_k2 = true ∧ basemulChk 3 polyvec_basemul_acc_montgomery_cached_asm_opt_k3 = true ∧
    basemulChk 4 polyvec_basemul_acc_montgomery_cached_asm_opt_k4 = true := ⟨by decide +kernel, by decide +kernel, by decide +kernel⟩

end Verif.A64

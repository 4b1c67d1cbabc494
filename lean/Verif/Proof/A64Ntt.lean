import Verif.Proof.A64Mem
import Verif.Proof.X86Ntt
/-! # The AArch64 forward transform -/
namespace Verif.A64
open Verif Model Model.A64 Spec
open Verif.X86 (nttVal nttVal_lo nttVal_hi fwd_pair cgt cgt_eq Ext mth)
open Verif.Model.X86 (s16)

/-- Whether an integer represents `17 ^ BitRev7(k)`, of which `zetasList` holds the Montgomery form. -/
def isZeta (z : Int) (k : Nat) : Bool := decide ((z - cgt zetasList k * 169) % 3329 = 0)
theorem cast_eq_of {a b : Int} (h : (a - b) % 3329 = 0) : (a : Zq) = (b : Zq) := by
  obtain ⟨w, hw⟩ := Int.dvd_of_emod_eq_zero h
  have hq : (3329 : Zq) = 0 := by exact_mod_cast ZMod.natCast_self 3329
  have : a = b + 3329 * w := by omega
  rw [this]
  push_cast
  rw [hq, zero_mul, add_zero]
theorem isZeta_eq {z : Int} {k : Nat} (h : isZeta z k = true) : (z : Zq) = y k := by
  rw [cast_eq_of (of_decide_eq_true h), cgt_eq]
  push_cast
  rfl

/-- As `X86.nttTags`; the constants are the roots themselves, not their Montgomery form. -/
def nttTags : TagOps where
  add := X86.nttTags.add
  sub := X86.nttTags.sub
  mul t z := if Nat.ble (t / 256) 6 && Nat.beq (t % 256 / (128 / 2 ^ (t / 256)) % 2) 1 && isZeta z (2 ^ (t / 256) + t % 256 / (2 * (128 / 2 ^ (t / 256)))) then some (4096 + t) else none
  red t := if Nat.ble t 2047 then some t else none

theorem nttTags_sound (f : Nat → Zq) : nttTags.Sound (nttVal f) where
  add := (X86.nttTags_sound f).add
  sub := (X86.nttTags_sound f).sub
  mul t z u h := by
    simp only [nttTags] at h
    split at h <;> [skip; cases h]
    rename_i hc
    simp only [Bool.and_eq_true, Nat.ble_eq, Nat.beq_eq] at hc
    obtain ⟨⟨h0, -⟩, h2⟩ := hc
    cases Option.some.inj h
    obtain ⟨L, n, hn, rfl⟩ : ∃ L n, n < 256 ∧ t = 256 * L + n := ⟨t / 256, t % 256, by omega, by omega⟩
    have e1 : (256 * L + n) / 256 = L := by omega
    have e2 : (256 * L + n) % 256 = n := by omega
    rw [e1] at h0 h2
    rw [e2] at h2
    rw [nttVal_hi f L hn, nttVal_lo f L (by omega) hn, isZeta_eq h2]
  red t u h := by
    simp only [nttTags] at h
    split at h <;> [skip; cases h]
    cases Option.some.inj h; rfl

/-- The arguments of the transforms. -/
def tabArgs (t u : Table) : List Reg := [.ptr .a0 0, .ptr (.tab t) 0, .ptr (.tab u) 0]

/-- The check of a forward transform. -/
noncomputable def nttChk (prog : List Block) : Bool :=
  match start nttTags prog (tabArgs .aarch64_ntt_zetas_layer01234 .aarch64_ntt_zetas_layer56) 256 (memOf (fun i => .v i i 3328) 0 32) [] [] [] [] with
  | none => false
  | some r => chkSaved 256 r && chkM (fun p x => match x with
    | .v _ t b => Nat.beq t (1792 + p) && Nat.ble b 19973
    | _ => false) 8 32 0 (mth r.W 0)

theorem nttChk_clean : nttChk ntt_asm_clean = true := by decide +kernel
theorem nttChk_opt : nttChk ntt_asm_opt = true := by decide +kernel


/-- What the procedure call standard asks of a callee and the model can see: the stack pointer and the low halves of the vector registers 8 to 15 are as at the call. -/
def Saved (g : Entry) (s : St) : Prop := s.x 31 = .ptr .stk 64 ∧ ∀ i k, 8 ≤ i ∧ i < 16 → k < 4 → s.v i k = s16 (g.v i k)

/-- A run of a function on one polynomial, which is in `x0`. -/
theorem run1_spec {T : TagOps} {Val : Nat → Zq} (hT : T.Sound Val) {prog : List Block} {args : List Reg} {f0 : Nat → E} {chk : Nat → E → Bool}
    (hc : (match start T prog args 256 (memOf f0 0 32) [] [] [] [] with
      | none => false
      | some r => chkSaved 256 r && chkM chk 8 32 0 (mth r.W 0)) = true) (hargs : args.length ≤ 31)
    {p : Model.Poly} {f : Nat → Int} (h : Holds p 256 f) (hf : ∀ n, n < 256 → Good Val f 256 (f0 n) ∧ (f0 n).eval f = f n ∧ -32768 ≤ f n ∧ f n ≤ 32767) (g : Entry) {m : Obj → Buf Int}
    {b : Obj → Buf UInt8} (hm : m .a0 = p) :
    PostF F (run prog (call g args m b)) (fun s => Saved g s ∧ ∃ e' n' v, Ext 256 n' f e' ∧ Holds (s.m .a0) 256 v ∧ ∀ n, n < 256 → ∃ x, chk n x = true ∧ Good Val e' n' x ∧ x.eval e' = v n ∧
      -32768 ≤ v n ∧ v n ≤ 32767) := by
  split at hc <;> [cases hc; skip]
  rename_i r hr
  rw [Bool.and_eq_true] at hc
  subst hm
  refine PostF.mono (run_spec hT hr hargs (RelO.of h.1 fun i hi => ⟨(hf i hi).1, ?_, ?_⟩) RelO.nil RelO.nil RelO.nil (c := 0) rfl (Nat.zero_le _)) fun s ⟨e', h1, h2, h3⟩ => ⟨h3 hc.1, e', r.n, fun n => ((s.m .a0)[n]?.getD none).getD 0, h1, ⟨?_, fun n hn => ?_⟩, fun n hn => ?_⟩
  · rw [h.2 i hi, (hf i hi).2.1]
  · rw [(hf i hi).2.1]; exact (hf i hi).2.2
  · rw [h2.msz]; exact h.1
  · obtain ⟨x, -, -, g3, -⟩ := h2.out (c := 32) (o := .a0) hc.2 (i := n) hn
    simp only [g3, Option.getD_some]
  · obtain ⟨x, g1, g2, g3, g4⟩ := h2.out (c := 32) (o := .a0) hc.2 (i := n) hn
    exact ⟨x, g1, g2, by simp only [g3, Option.getD_some], by simpa only [g3, Option.getD_some] using g4⟩

theorem ntt_run {prog : List Block} (hc : nttChk prog = true) {p : Model.Poly} {f : Nat → Int} (h : Holds p 256 f) (hf : ∀ n, n < 256 → -3329 < f n ∧ f n < 3329) (g : Entry)
    {m : Obj → Buf Int} {b : Obj → Buf UInt8} (hm : m .a0 = p) :
    PostF F (run prog (call g (tabArgs .aarch64_ntt_zetas_layer01234 .aarch64_ntt_zetas_layer56) m b)) (fun s => Saved g s ∧ ∃ v, Holds (s.m .a0) 256 v ∧
      ∀ n, n < 256 → (-19974 < v n ∧ v n < 19974) ∧ (v n : Zq) = NTT (fun i => (f i : Zq)) n) := by
  refine PostF.mono (run1_spec (nttTags_sound fun i => (f i : Zq)) hc (by simp [tabArgs]) h (fun i hi => ?_) g hm) ?_
  · have := hf i hi
    refine ⟨⟨hi, by decide, by omega, by omega, by omega, ?_⟩, rfl, by omega, by omega⟩
    unfold nttVal
    rw [if_pos (by omega), show i / 256 = 0 by omega, show i % 256 = i by omega]; rfl
  · rintro s ⟨hs, e', n', v, -, hv, hx⟩
    refine ⟨hs, v, hv, fun i hi => ?_⟩
    obtain ⟨x, h1, h2, h3, -⟩ := hx i hi
    split at h1
    · simp only [Bool.and_eq_true, Nat.ble_eq, Nat.beq_eq] at h1
      obtain ⟨-, -, g1, g2, g3, g4⟩ := h2
      rw [← h3]; simp only [E.eval]
      refine ⟨by omega, ?_⟩
      rw [g4, h1.1]
      unfold nttVal
      rw [if_pos (by omega), show (1792 + i) / 256 = 7 by omega, show (1792 + i) % 256 = i by omega, fwd_NTT _ hi]
    · cases h1

end Verif.A64

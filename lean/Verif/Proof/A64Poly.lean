import Verif.Proof.A64Intt
import Verif.Proof.X86Pack
/-! # The other functions of the AArch64 arithmetic backend -/
namespace Verif.A64
open Verif Model Model.A64 Spec Finset
open Verif.X86 (cgt cgt_eq Ext mth s16_id s16_exists window_wp putBack_written)
open Verif.Model.X86 (s16)

/-- Variable `i`. -/
def vv (i : Nat) : E := .v i i 32768

/-! ## Reduction and conversion to Montgomery form -/

/-- Tag `t < 256` stands for coefficient `t`, tag `256 + t` for `2 ^ 16` times it. -/
def pwTags : TagOps where
  add _ _ := none
  sub _ _ := none
  mul t z := if Nat.ble t 255 && decide ((z - 65536) % 3329 = 0) then some (256 + t) else none
  red t := if Nat.ble t 255 then some t else none
/-- The values of the tags. -/
def pwVal (f : Nat → Zq) (t : Nat) : Zq := if t < 256 then f t else 65536 * f (t - 256)
theorem pwTags_sound (f : Nat → Zq) : pwTags.Sound (pwVal f) where
  add _ _ _ h := nomatch h
  sub _ _ _ h := nomatch h
  mul t z u h := by
    simp only [pwTags] at h
    split at h <;> [skip; cases h]
    rename_i hc
    rw [Bool.and_eq_true, Nat.ble_eq] at hc
    have hz := cast_eq_of (of_decide_eq_true hc.2)
    cases Option.some.inj h
    unfold pwVal
    rw [if_neg (by omega), if_pos (by omega), hz, Nat.add_sub_cancel_left]
    push_cast; ring
  red t u h := by
    simp only [pwTags] at h
    split at h <;> [skip; cases h]
    cases Option.some.inj h; rfl

/-- The check of `poly_reduce`. -/
noncomputable def reduceChk (prog : List Block) : Bool :=
  match start pwTags prog [.ptr .a0 0] 256 (memOf vv 0 32) [] [] [] [] with
  | none => false
  | some r => chkSaved 256 r && chkM (fun p x => match x with
    | .add (.v i t b) (.band (.c q) (.sra s (.v i' _ _))) => Nat.beq t p && Nat.ble b 1664 && Nat.beq i i' && decide (q = 3329) && Nat.beq s 15
    | _ => false) 8 32 0 (mth r.W 0)
/-- The check of `poly_tomont`. -/
noncomputable def tomontChk (prog : List Block) : Bool :=
  match start pwTags prog [.ptr .a0 0] 256 (memOf vv 0 32) [] [] [] [] with
  | none => false
  | some r => chkSaved 256 r && chkM (fun p x => match x with
    | .v _ t b => Nat.beq t (256 + p) && Nat.ble b 3328
    | _ => false) 8 32 0 (mth r.W 0)

theorem reduceChk_clean : reduceChk poly_reduce_asm_clean = true := by decide +kernel
theorem reduceChk_opt : reduceChk poly_reduce_asm_opt = true := by decide +kernel
theorem tomontChk_clean : tomontChk poly_tomont_asm_clean = true := by decide +kernel
theorem tomontChk_opt : tomontChk poly_tomont_asm_opt = true := by decide +kernel

theorem pw_good {f : Nat → Int} (hf : ∀ n, n < 256 → -32768 ≤ f n ∧ f n ≤ 32767) (n : Nat) (hn : n < 256) :
    Good (pwVal fun i => (f i : Zq)) f 256 (vv n) ∧ (vv n).eval f = f n ∧ -32768 ≤ f n ∧ f n ≤ 32767 := by
  have := hf n hn
  exact ⟨⟨hn, by decide, by push_cast; omega, by push_cast; omega, by omega, (if_pos hn).symm⟩, rfl, this⟩

theorem cond_add {v : Int} (h : -1664 ≤ v ∧ v ≤ 1664) : s16 (v + s16 ((u16 3329 &&& u16 (v / 2 ^ 15) : Nat) : Int)) = v % 3329 := by
  by_cases hv : v < 0
  · have e1 : v / 2 ^ 15 = -1 := by omega
    rw [e1]
    have e2 : s16 (((u16 3329 &&& u16 (-1) : Nat)) : Int) = 3329 := by decide
    rw [e2, s16_id (by omega) (by omega)]; omega
  · have e1 : v / 2 ^ 15 = 0 := by omega
    rw [e1]
    have e2 : s16 (((u16 3329 &&& u16 0 : Nat)) : Int) = 0 := by decide
    rw [e2, s16_id (by omega) (by omega)]; omega

theorem emod_of_zq {a b : Int} (h : (a : Zq) = (b : Zq)) : a % 3329 = b % 3329 := (ZMod.intCast_eq_intCast_iff' a b 3329).1 h

theorem reduce_run {prog : List Block} (hc : reduceChk prog = true) {p : Model.Poly} {f : Nat → Int} (h : Holds p 256 f) (hf : ∀ n, n < 256 → -32768 ≤ f n ∧ f n ≤ 32767) (g : Entry)
    {m : Obj → Buf Int} {b : Obj → Buf UInt8} (hm : m .a0 = p) :
    PostF F (run prog (call g [.ptr .a0 0] m b)) (fun s => Saved g s ∧ Holds (s.m .a0) 256 fun n => f n % 3329) := by
  refine PostF.mono (run1_spec (pwTags_sound fun i => (f i : Zq)) hc (by simp) h (pw_good hf) g hm) ?_
  rintro s ⟨hs, e', n', v, -, hv, hx⟩
  refine ⟨hs, hv.congr fun i hi => ?_⟩
  obtain ⟨x, h1, h2, h3, -⟩ := hx i hi
  split at h1 <;> [skip; cases h1]
  simp only [Bool.and_eq_true, Nat.ble_eq, Nat.beq_eq, decide_eq_true_eq] at h1
  obtain ⟨⟨⟨⟨rfl, h5⟩, rfl⟩, rfl⟩, rfl⟩ := h1
  obtain ⟨⟨-, -, g1, g2, g3, g4⟩, -⟩ := h2
  rw [← h3]
  simp only [E.eval]
  rw [cond_add ⟨by omega, by omega⟩]
  apply emod_of_zq
  rw [g4]; exact if_pos hi

theorem tomont_run {prog : List Block} (hc : tomontChk prog = true) {p : Model.Poly} {f : Nat → Int} (h : Holds p 256 f) (hf : ∀ n, n < 256 → -32768 ≤ f n ∧ f n ≤ 32767) (g : Entry)
    {m : Obj → Buf Int} {b : Obj → Buf UInt8} (hm : m .a0 = p) :
    PostF F (run prog (call g [.ptr .a0 0] m b)) (fun s => Saved g s ∧ ∃ v, Holds (s.m .a0) 256 v ∧ ∀ n, n < 256 → (-3329 < v n ∧ v n < 3329) ∧ (v n : Zq) = 65536 * (f n : Zq)) := by
  refine PostF.mono (run1_spec (pwTags_sound fun i => (f i : Zq)) hc (by simp) h (pw_good hf) g hm) ?_
  rintro s ⟨hs, e', n', v, -, hv, hx⟩
  refine ⟨hs, v, hv, fun i hi => ?_⟩
  obtain ⟨x, h1, h2, h3, -⟩ := hx i hi
  split at h1 <;> [skip; cases h1]
  simp only [Bool.and_eq_true, Nat.ble_eq, Nat.beq_eq] at h1
  obtain ⟨-, -, g1, g2, g3, g4⟩ := h2
  rw [← h3]
  simp only [E.eval]
  refine ⟨by omega, ?_⟩
  rw [g4, h1.1]; unfold pwVal
  rw [if_neg (by omega), Nat.add_sub_cancel_left]

/-! ## The multiplication cache -/

/-- The constant for the coefficient `t`, without its sign. -/
def sgn (t : Nat) (z : Int) : Int := if Nat.beq (t / 2 % 2) 0 then z else -z
/-- Tag `t < 256` stands for coefficient `t`, tag `256 + k` for entry `k` of the cache. -/
def mcTags : TagOps where
  add _ _ := none
  sub _ _ := none
  mul t z := if Nat.ble t 255 && Nat.beq (t % 2) 1 && isZeta (sgn t z) (64 + t / 4) then some (256 + t / 2) else none
  red _ := none
/-- The values of the tags. -/
def mcVal (f : Nat → Zq) (t : Nat) : Zq := if t < 256 then f t else f (2 * (t - 256) + 1) * γ (t - 256)
theorem mcTags_sound (f : Nat → Zq) : mcTags.Sound (mcVal f) where
  add _ _ _ h := nomatch h
  sub _ _ _ h := nomatch h
  red _ _ h := nomatch h
  mul t z u h := by
    simp only [mcTags] at h
    split at h <;> [skip; cases h]
    rename_i hc
    simp only [Bool.and_eq_true, Nat.ble_eq, Nat.beq_eq] at hc
    have hz := isZeta_eq hc.2
    cases Option.some.inj h
    unfold mcVal
    rw [if_neg (by omega), if_pos (by omega), Nat.add_sub_cancel_left, show 2 * (t / 2) + 1 = t by omega]
    congr 1
    unfold sgn at hz
    split at hz
    · rename_i h0
      rw [Nat.beq_eq] at h0
      rw [hz, show t / 2 = 2 * (t / 4) by omega, γ_even (by omega)]
    · rename_i h0
      rw [Nat.beq_eq] at h0
      push_cast at hz
      rw [show t / 2 = 2 * (t / 4) + 1 by omega, γ_odd (by omega), ← hz, neg_neg]

/-- The cache `c` belongs to the polynomial `f`. -/
def Cache (c : Model.Poly) (f : Nat → Int) : Prop := ∃ v : Nat → Int, Holds c 128 v ∧ ∀ k, k < 128 → (-3329 ≤ v k ∧ v k ≤ 3329) ∧ (v k : Zq) = (f (2 * k + 1) : Zq) * γ k

/-- The arguments of `poly_mulcache_compute_asm`. -/
def mcArgs : List Reg := [.ptr .a0 0, .ptr .a1 0, .ptr (.tab .aarch64_zetas_mulcache_native) 0, .ptr (.tab .aarch64_zetas_mulcache_twisted_native) 0]
/-- The check of `poly_mulcache_compute`. -/
noncomputable def mulcacheChk (prog : List Block) : Bool :=
  match start mcTags prog mcArgs 256 (memNone 16) (memOf vv 0 32) [] [] [] with
  | none => false
  | some r => chkSaved 256 r && chkM (fun p x => match x with
    | .v _ t b => Nat.beq t (256 + p) && Nat.ble b 3329
    | _ => false) 8 16 0 (mth r.W 0)
theorem mulcacheChk_clean : mulcacheChk poly_mulcache_compute_asm_clean = true := by decide +kernel
theorem mulcacheChk_opt : mulcacheChk poly_mulcache_compute_asm_opt = true := by decide +kernel

theorem mulcache_run {prog : List Block} (hc : mulcacheChk prog = true) {a : Model.Poly} {f : Nat → Int} (h : Holds a 256 f) (hf : ∀ n, n < 256 → -32768 ≤ f n ∧ f n ≤ 32767) (g : Entry)
    {m : Obj → Buf Int} {b : Obj → Buf UInt8} (hm : m .a1 = a) (hx : (m .a0).size = 128) :
    PostF F (run prog (call g mcArgs m b)) (fun s => Saved g s ∧ Cache (s.m .a0) f) := by
  unfold mulcacheChk at hc
  split at hc <;> [cases hc; skip]
  rename_i r hr
  rw [Bool.and_eq_true] at hc
  subst hm
  refine PostF.mono (run_spec (mcTags_sound fun i => (f i : Zq)) hr (by simp [mcArgs]) (RelO.none (by rw [hx])) (RelO.of (e := f) h.1 fun i hi => ?_) RelO.nil RelO.nil (c := 0) rfl (Nat.zero_le _))
    fun s ⟨e', h1, h2, h3⟩ => ⟨h3 hc.1, fun n => ((s.m .a0)[n]?.getD none).getD 0, ⟨?_, fun n hn => ?_⟩, fun n hn => ?_⟩
  · have := hf i hi
    exact ⟨⟨hi, by decide, by push_cast; omega, by push_cast; omega, by omega, (if_pos hi).symm⟩, h.2 i hi, this⟩
  · rw [h2.msz]; exact hx
  · obtain ⟨x, -, -, g3, -⟩ := h2.out (c := 16) (o := .a0) hc.2 (i := n) hn
    simp only [g3, Option.getD_some]
  · obtain ⟨x, g1, g2, g3, g4⟩ := h2.out (c := 16) (o := .a0) hc.2 (i := n) hn
    simp only [g3, Option.getD_some]
    split at g1 <;> [skip; cases g1]
    simp only [Bool.and_eq_true, Nat.ble_eq, Nat.beq_eq] at g1
    obtain ⟨-, -, k1, k2, k3, k4⟩ := g2
    simp only [E.eval]
    refine ⟨by omega, ?_⟩
    rw [k4, g1.1]; unfold mcVal
    rw [if_neg (by omega), Nat.add_sub_cancel_left]

end Verif.A64

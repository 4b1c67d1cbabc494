import Verif.Proof.A64RejAsm2
import Verif.Props.A64Arith
/-! # Properties of the instructions of the AArch64 rejection sampler (C52, C53)

`A64RejAsm.call gx gv gf hi r o stk buf n` runs the instructions of `rej_uniform_asm_clean` from a state with general-purpose registers `gx`, vector registers `gv` and flags `gf`, apart from
the arguments: the address `r + o`, the address `buf`, and a register whose lower half is `n` and whose upper half is `hi`.  `stk` is the 576 bytes below the stack pointer. -/
namespace Verif.Props
open Verif Verif.Model Verif.Spec

theorem stackMem_i16 {f : Nat → Int} (h : ∀ i, IsI16 (f i)) : A64RejAsm.I16 (stackMem f) := by
  intro i v hv
  by_cases hi : i < 288
  · have e : (stackMem f)[i]? = some (some (f i)) := by simp [stackMem, hi]
    rw [e] at hv
    cases hv
    exact h i
  · rw [Array.getElem?_eq_none (by simp [stackMem]; omega)] at hv
    cases hv

/-- **C52 (the instructions compute the transcription).**  Whatever result `rej_uniform_asm_clean`, as the theorems on AArch64 builds have it, returns, the instructions return: the same array, and the same
count in the result register. -/
theorem C52_transcription (gx : Nat → A64RejAsm.Reg) (gv : Nat → VB) (gf : Option A64RejAsm.Flags) (hi : Nat) (stack : Nat → Int) (hs : ∀ i, IsI16 (stack i)) (r : Model.Poly) (o : Nat)
    (L : List UInt8) (hlen : L.length < 2 ^ 32) (r' : Model.Poly) (n : Nat) (h : Returns (A64Rej.rej_uniform_asm_clean r o (stackMem stack) (Buf.ofList L) L.length) (r', n)) :
    ∃ s, Returns (A64RejAsm.call gx gv gf hi r o (stackMem stack) (Buf.ofList L) L.length) s ∧ s.out = r' ∧ s.x 0 = .num n := by
  obtain ⟨s, h1, h2⟩ := A64RejAsm.call_sim (gx := gx) (gv := gv) (gf := gf) (hi := hi) hlen (stackMem_ok stack).1 (stackMem_ok stack).2 (stackMem_i16 hs) (Holds.ofList L 0).seg h
  exact ⟨s, h1, h2.out, h2.x0⟩

theorem sampler_run (gx : Nat → A64RejAsm.Reg) (gv : Nat → VB) (gf : Option A64RejAsm.Flags) (hi : Nat) (stack : Nat → Int) (hs : ∀ i, IsI16 (stack i)) (r : Model.Poly) (o : Nat)
    (hr : o + 256 ≤ r.size) (L : List UInt8) (hL : L.length % 24 = 0) (hlen : L.length < 2 ^ 32) :
    ∃ s a', Returns (A64RejAsm.call gx gv gf hi r o (stackMem stack) (Buf.ofList L) L.length) s ∧ a' = (accepted L).take 256 ∧ A64RejAsm.Done gx gv (Buf.ofList L) s.out a'.length s ∧
      s.out.size = r.size ∧ (∀ i, i < a'.length → s.out[o + i]? = some (some (nth a' i))) ∧ ∀ i, (i < o ∨ o + 256 ≤ i) → s.out[i]? = r[i]? := by
  obtain ⟨⟨r', c⟩, h, h1, h2, h3, h4⟩ := ret_of_post (A64Rej.rej_uniform_asm_clean_spec (r := r) hr (stackMem_ok stack).1 (stackMem_ok stack).2 hL (Holds.ofList L 0).seg)
  simp only at h1 h2 h3 h4
  subst h3
  obtain ⟨s, g1, g2⟩ := A64RejAsm.call_sim (gx := gx) (gv := gv) (gf := gf) (hi := hi) hlen (stackMem_ok stack).1 (stackMem_ok stack).2 (stackMem_i16 hs) (Holds.ofList L 0).seg h
  have e := g2.out
  subst e
  exact ⟨s, _, g1, by simpa using sN_eq_accepted (T := 256) (L := L) (a := []) (by simp), g2, h1, h2, h4⟩

/-- **C52 (the instructions of the vectorised sampler).**  From any registers, flags and stack contents: on a number of bytes that is a multiple of 24, the instructions of `rej_uniform_asm_clean` put the
accepted candidates, in order and up to 256, at `r + o`, return their number, and change nothing before `r + o` or after `r + o + 255`. -/
theorem C52_instructions (gx : Nat → A64RejAsm.Reg) (gv : Nat → VB) (gf : Option A64RejAsm.Flags) (hi : Nat) (stack : Nat → Int) (hs : ∀ i, IsI16 (stack i)) (r : Model.Poly) (o : Nat)
    (hr : o + 256 ≤ r.size) (L : List UInt8) (hL : L.length % 24 = 0) (hlen : L.length < 2 ^ 32) :
    ∃ s a', Returns (A64RejAsm.call gx gv gf hi r o (stackMem stack) (Buf.ofList L) L.length) s ∧ a' = (accepted L).take 256 ∧ s.x 0 = .num a'.length ∧ s.out.size = r.size ∧
      (∀ i, i < a'.length → s.out[o + i]? = some (some (nth a' i))) ∧ ∀ i, (i < o ∨ o + 256 ≤ i) → s.out[i]? = r[i]? := by
  obtain ⟨s, a', h1, h2, h3, h4, h5, h6⟩ := sampler_run gx gv gf hi stack hs r o hr L hL hlen
  exact ⟨s, a', h1, h2, h3.x0, h4, h5, h6⟩

/-- **C53.** The rejection sampler: on return the stack pointer, the general-purpose registers 18 to 30 and the vector registers 8 to 15 are as they were, and it has changed nothing outside the 256
elements of its output (and its own stack frame, of 576 bytes). -/
theorem C53_rej_uniform (gx : Nat → A64RejAsm.Reg) (gv : Nat → VB) (gf : Option A64RejAsm.Flags) (hi : Nat) (stack : Nat → Int) (hs : ∀ i, IsI16 (stack i)) (r : Model.Poly) (o : Nat)
    (hr : o + 256 ≤ r.size) (L : List UInt8) (hL : L.length % 24 = 0) (hlen : L.length < 2 ^ 32) :
    ∃ s, Returns (A64RejAsm.call gx gv gf hi r o (stackMem stack) (Buf.ofList L) L.length) s ∧ s.x 31 = .ptr .stk 576 ∧ (∀ i, 18 ≤ i → i ≤ 30 → s.x i = gx i) ∧
      (∀ i, 8 ≤ i → i < 16 → s.v i = gv i) ∧ s.buf = Buf.ofList L ∧ s.out.size = r.size ∧ ∀ i, (i < o ∨ o + 256 ≤ i) → s.out[i]? = r[i]? := by
  obtain ⟨s, a', h1, h2, h3, h4, h5, h6⟩ := sampler_run gx gv gf hi stack hs r o hr L hL hlen
  exact ⟨s, h1, h3.sp, h3.kx, h3.kv, h3.buf, h4, h6⟩

/-- The state of the machine at the call has the stack pointer that C53 speaks of, and a case that its hypotheses admit: 504 bytes with one accepted candidate in each of 168 triples, into the middle of an
array of 300 elements, from stack memory that holds -1. -/
example : (A64RejAsm.entry (fun _ => .bad) (fun _ _ => 0) none 7 (Array.replicate 300 (some 5)) 20 (stackMem fun _ => -1) (Buf.ofList (List.replicate 168 [0xab, 0xd8, 0xfe]).flatten) 504).x 31 = .ptr .stk 576 ∧
    20 + 256 ≤ (Array.replicate 300 (some (5 : Int))).size ∧ ((List.replicate 168 [0xab, 0xd8, 0xfe]).flatten : List UInt8).length = 504 ∧ (∀ _ : Nat, IsI16 (-1)) ∧
    (accepted ((List.replicate 168 [0xab, 0xd8, 0xfe]).flatten)).take 256 = List.replicate 168 0x8ab := by
  refine ⟨rfl, by simp, by decide +kernel, fun _ => by constructor <;> decide, by decide +kernel⟩

end Verif.Props

import Verif.Proof.X86Keccak
import Verif.Proof.X86Rej
import Verif.Props.Hash
import Verif.Props.Sampling
/-! # Properties of the x86_64 (AVX2) backend (C37 - )  -/
namespace Verif.Props
open Verif Verif.Model Verif.Spec

attribute [local irreducible] keccakF

/-! ## C37: four-way Keccak -/

/-- The `uint64_t[100]` object of four Keccak states one after the other. -/
def fourStates (L : Fin 4 → List Model.W) : Buf Model.W := Buf.ofList (L 0 ++ L 1 ++ L 2 ++ L 3)

theorem segK_at {s : Buf Model.W} {o : Nat} {L : List Model.W} (h : L.length = 25) (hs : ∀ l, l < 25 → s[o + l]? = some (some (L.getD l 0))) : SegK s o (stateOf L) := by
  intro l hl
  obtain ⟨w, h1, h2⟩ := segK_stateOf L h l hl
  refine ⟨w, ?_, h2⟩
  have e := (Holds.ofList L 0).seg l (by omega)
  simp only [Nat.zero_add] at e h1
  rw [hs l hl, ← h1, e]

theorem fourStates_get (L : Fin 4 → List Model.W) (h : ∀ w, (L w).length = 25) (w : Fin 4) (l : Nat) (hl : l < 25) : (fourStates L)[25 * w.val + l]? = some (some ((L w).getD l 0)) := by
  have hlen : (L 0 ++ L 1 ++ L 2 ++ L 3).length = 100 := by simp [h]
  have e := (Holds.ofList (L 0 ++ L 1 ++ L 2 ++ L 3) 0).seg (25 * w.val + l) (by have := w.isLt; omega)
  simp only [Nat.zero_add] at e
  unfold fourStates
  rw [e]
  congr 2
  simp only [List.getD_eq_getElem?_getD]
  congr 1
  match w with
  | 0 => simp [List.getElem?_append, h, hl]
  | 1 => simp [List.getElem?_append, h, hl]
  | 2 =>
    simp only [List.getElem?_append, h, List.length_append]
    rw [if_pos (by simp; omega), if_neg (by simp)]
    congr 1; simp
  | 3 =>
    simp only [List.getElem?_append, h, List.length_append]
    rw [if_neg (by simp)]
    congr 1; simp

theorem state4_fourStates (L : Fin 4 → List Model.W) (h : ∀ w, (L w).length = 25) : State4 (fourStates L) (fun w => stateOf (L (Fin.ofNat 4 w))) :=
  ⟨segK_at (h 0) (fourStates_get L h 0), segK_at (h 1) (fourStates_get L h 1), segK_at (h 2) (fourStates_get L h 2), segK_at (h 3) (fourStates_get L h 3)⟩

theorem fourStates_of_state4 {s : Buf Model.W} {S : Nat → KState} (hs : s.size = 100) (h : State4 s S) :
    ∃ L : Fin 4 → List Model.W, (∀ w, (L w).length = 25) ∧ s = fourStates L ∧ ∀ w, stateOf (L w) = S w.val := by
  have key : ∀ o S, SegK s o S → ∃ L : List Model.W, L.length = 25 ∧ (∀ l, l < 25 → s[o + l]? = some (some (L.getD l 0))) ∧ stateOf L = S := by
    intro o S h
    obtain ⟨f, hf, hz⟩ := h.choose
    refine ⟨(List.range 25).map f, by simp, fun l hl => by rw [getD_map_range _ _ hl]; exact hf l hl, ?_⟩
    funext x y z
    have hx : 5 * y.val + x.val < 25 := by omega
    unfold stateOf
    rw [getD_map_range _ _ hx, hz _ hx _ z.2]
    exact stateBit_kpos S x y z
  obtain ⟨L0, a0, b0, c0⟩ := key _ _ h.s0
  obtain ⟨L1, a1, b1, c1⟩ := key _ _ h.s1
  obtain ⟨L2, a2, b2, c2⟩ := key _ _ h.s2
  obtain ⟨L3, a3, b3, c3⟩ := key _ _ h.s3
  let L : Fin 4 → List Model.W := fun w => match w with | 0 => L0 | 1 => L1 | 2 => L2 | 3 => L3
  have hl : ∀ w, (L w).length = 25 := fun w => match w with | 0 => a0 | 1 => a1 | 2 => a2 | 3 => a3
  have hg : ∀ w : Fin 4, ∀ l, l < 25 → s[25 * w.val + l]? = some (some ((L w).getD l 0)) := fun w => match w with | 0 => b0 | 1 => b1 | 2 => b2 | 3 => b3
  refine ⟨L, hl, ?_, fun w => match w with | 0 => c0 | 1 => c1 | 2 => c2 | 3 => c3⟩
  apply Array.ext_getElem?
  intro i
  by_cases hi : i < 100
  · have e1 := hg ⟨i / 25, by omega⟩ (i % 25) (by omega)
    have e2 := fourStates_get L hl ⟨i / 25, by omega⟩ (i % 25) (by omega)
    dsimp only at e1 e2
    rw [show 25 * (i / 25) + i % 25 = i by omega] at e1 e2
    rw [e1, e2]
  · rw [Array.getElem?_eq_none (by omega), Array.getElem?_eq_none (by unfold fourStates; simp [Buf.ofList, hl]; omega)]

/-- **C37.** On every four states, the AVX2 implementation of the four-way permutation computes the FIPS 202 permutation of each of them, exactly as the portable code does: same return, same memory afterwards. -/
theorem C37_keccak_x4_avx2 (L : Fin 4 → List Model.W) (h : ∀ w, (L w).length = 25) :
    ∃ L' : Fin 4 → List Model.W, (∀ w, (L' w).length = 25 ∧ stateOf (L' w) = keccakF (stateOf (L w))) ∧
      Returns (keccak_f1600_x4_native (fourStates L)) (fourStates L') ∧ Returns (KeccakF1600x4_StatePermute (fourStates L)) (fourStates L') := by
  have hsz : (fourStates L).size = 100 := by unfold fourStates; simp [Buf.ofList, h]
  obtain ⟨s, hs, h1, h2⟩ := ret_of_post (keccak_f1600_x4_native_spec (state4_fourStates L h))
  obtain ⟨t, ht, h3, h4⟩ := ret_of_post (KeccakF1600x4_StatePermute_spec (state4_fourStates L h))
  obtain ⟨A, a1, a2, a3⟩ := fourStates_of_state4 (h1.trans hsz) h2
  obtain ⟨B, b1, b2, b3⟩ := fourStates_of_state4 (h3.trans hsz) h4
  have e : A = B := funext fun w => C29_determined _ _ (a1 w) (b1 w) ((a3 w).trans (b3 w).symm)
  refine ⟨A, fun w => ⟨a1 w, ?_⟩, a2 ▸ hs, e ▸ b2 ▸ ht⟩
  rw [a3 w, show Fin.ofNat 4 w.val = w from Fin.ext (Nat.mod_eq_of_lt w.isLt)]

/-- A case of C37 with four different states. -/
example : ∀ w, ((fun w : Fin 4 => List.replicate 25 (BitVec.ofNat 64 (7 * w.val + 1))) w).length = 25 := fun _ => by simp

/-! ## C38: rejection sampling -/

/-- **C38 (the vectorised sampler).**  Asked for 256 coefficients from 504 bytes, it takes the accepted candidates in order, up to 256, puts them at `r + o`, and changes nothing
before `r + o` or after `r + o + 255`.  Cells of that range after the accepted ones may be overwritten. -/
theorem C38_native (r : Model.Poly) (o : Nat) (hr : o + 256 ≤ r.size) (L : List UInt8) (hL : L.length = 504) :
    ∃ r' a', Returns (rej_uniform_native r o 256 (Buf.ofList L) 504) (r', some a'.length) ∧ a' = (accepted L).take 256 ∧ r'.size = r.size ∧
      (∀ i, i < a'.length → r'[o + i]? = some (some (nth a' i))) ∧ ∀ i, (i < o ∨ o + 256 ≤ i) → r'[i]? = r[i]? := by
  have hp : Post (rej_uniform_native r o 256 (Buf.ofList L) 504) (fun x => x.2 = some (sN 256 L []).length ∧ x.1.size = r.size ∧ HasAt x.1 o (sN 256 L []) ∧
      ∀ j, (j < o ∨ o + 256 ≤ j) → x.1[j]? = r[j]?) := by
    unfold rej_uniform_native rej_uniform_native_with rej_uniform_avx2
    simp only [wp_bind, wp_orM, wp_branch, BUFLEN_eq, Bool.or_eq_true, Bool.or_eq_false_iff, decide_eq_true_eq, decide_eq_false_iff_not, wp_pure]
    refine ⟨fun h => by omega, fun _ => ?_⟩
    refine (rej_uniform_avx2_spec tableIdx_ok (T := 256) hr rfl hL (Holds.ofList L 0).seg).mono ?_
    rintro ⟨r', c⟩ ⟨h1, h2, h3, h4⟩
    exact ⟨congrArg some h3, h1, h2, h4⟩
  obtain ⟨⟨r', c⟩, h, h1, h2, h3, h4⟩ := ret_of_post hp
  simp only at h1
  subst h1
  exact ⟨r', _, h, by simpa using sN_eq_accepted (T := 256) (L := L) (a := []) (by simp), h2, h3, h4⟩

/-- **C38 (other requests).**  For any other number of coefficients or bytes it does nothing and says so. -/
theorem C38_native_declines (r : Model.Poly) (o len : Nat) (buf : Buf UInt8) (n : Nat) (h : len ≠ 256 ∨ n ≠ 504) : Returns (rej_uniform_native r o len buf n) (r, none) := by
  refine ret_eq (Q := fun x => x = (r, none)) ?_ fun _ h => h
  unfold rej_uniform_native rej_uniform_native_with
  simp only [wp_bind, wp_orM, wp_branch, BUFLEN_eq, Bool.or_eq_true, Bool.or_eq_false_iff, decide_eq_true_eq, decide_eq_false_iff_not, wp_pure]
  exact ⟨fun _ => trivial, fun h' => by omega⟩

/-- **C38 (the sampler of an x86_64 build).**  It meets the specification of the portable sampler (`C25_rej_uniform`) word for word. -/
theorem C38_rej_uniform (target : Nat) (r : Model.Poly) (ht : target ≤ r.size) (ht32 : target < 2 ^ 32) (a : List Nat) (ha : a.length ≤ target)
    (hra : ∀ i, i < a.length → r[i]? = some (some (nth a i))) (L : List UInt8) (hL : L.length + 3 < 2 ^ 32) :
    ∃ r' a', Returns (rej_uniform_x86 r target a.length (Buf.ofList L) L.length) (r', a'.length) ∧ a' = a ++ (accepted L).take (target - a.length) ∧
      r'.size = r.size ∧ (∀ i, i < a'.length → r'[i]? = some (some (nth a' i))) ∧ ∀ i, target ≤ i → r'[i]? = r[i]? := by
  obtain ⟨x, h, h1, h2, h3, h4⟩ := ret_of_post (rej_uniform_x86_spec (T := target) (L := L) ht ht32 hL ha hra (Holds.ofList L 0).seg)
  refine ⟨x.1, _, ?_, (sN_eq_accepted ha), h1, h2, h4⟩
  rw [← h3]; exact h

/-- **C38 (agreement).**  Both builds return the same count, and the polynomials agree on the entries counted and after `target`. -/
theorem C38_same_as_portable (target : Nat) (r : Model.Poly) (ht : target ≤ r.size) (ht32 : target < 2 ^ 32) (a : List Nat) (ha : a.length ≤ target)
    (hra : ∀ i, i < a.length → r[i]? = some (some (nth a i))) (L : List UInt8) (hL : L.length + 3 < 2 ^ 32) :
    ∃ r1 r2 n, Returns (rej_uniform_x86 r target a.length (Buf.ofList L) L.length) (r1, n) ∧ Returns (rej_uniform r target a.length (Buf.ofList L) L.length) (r2, n) ∧
      r1.size = r2.size ∧ ∀ i, (i < n ∨ target ≤ i) → r1[i]? = r2[i]? := by
  obtain ⟨r1, a1, h1, e1, s1, g1, f1⟩ := C38_rej_uniform target r ht ht32 a ha hra L hL
  obtain ⟨r2, a2, h2, e2, s2, g2, f2⟩ := C25_rej_uniform target r ht ht32 a ha hra L hL
  subst e1
  subst e2
  refine ⟨r1, r2, _, h1, h2, s1.trans s2.symm, fun i hi => ?_⟩
  rcases hi with hi | hi
  · rw [g1 i hi, g2 i hi]
  · rw [f1 i hi, f2 i hi]

/-- **C38 (bit scatter and gather).**  Compiled with `BMI`, where the shuffle indices are computed and not looked up, the sampler meets the same specification. -/
theorem C38_rej_uniform_bmi (target : Nat) (r : Model.Poly) (ht : target ≤ r.size) (ht32 : target < 2 ^ 32) (a : List Nat) (ha : a.length ≤ target)
    (hra : ∀ i, i < a.length → r[i]? = some (some (nth a i))) (L : List UInt8) (hL : L.length + 3 < 2 ^ 32) :
    ∃ r' a', Returns (rej_uniform_x86_bmi r target a.length (Buf.ofList L) L.length) (r', a'.length) ∧ a' = a ++ (accepted L).take (target - a.length) ∧
      r'.size = r.size ∧ (∀ i, i < a'.length → r'[i]? = some (some (nth a' i))) ∧ ∀ i, target ≤ i → r'[i]? = r[i]? := by
  obtain ⟨x, h, h1, h2, h3, h4⟩ := ret_of_post (rej_uniform_x86_bmi_spec (T := target) (L := L) ht ht32 hL ha hra (Holds.ofList L 0).seg)
  refine ⟨x.1, _, ?_, (sN_eq_accepted ha), h1, h2, h4⟩
  rw [← h3]; exact h

/-- A case of C38 that takes the vector path: 504 bytes, nothing sampled yet; 168 triples with one accepted candidate each (`0x8ab` and `0xfed`). -/
example : (accepted ((List.replicate 168 [0xab, 0xd8, 0xfe]).flatten)).take 256 = List.replicate 168 0x8ab := by decide +kernel

end Verif.Props

import Verif.Proof.A64KProfile
import Verif.Props.X86
/-! # Properties of the AArch64 Keccak assembly (C58 - C61)

`regs` is the contents of the general-purpose and vector registers, apart from the argument and the stack pointer, when the assembly is entered: the theorems hold for all contents. -/
namespace Verif.Props
open Verif Verif.Model Verif.Spec

attribute [local irreducible] keccakF

/-- The assembly functions in `/repo/fips202/native/aarch64`. -/
def keccakFuns : List A64K.Fun := [A64K.fun_x1_scalar, A64K.fun_x1_v84a, A64K.fun_x2_v84a, A64K.fun_x2_v8a_v84a, A64K.fun_x4_v84a, A64K.fun_x4_v8a, A64K.fun_x4_v8a_v84a]

/-- How many states they permute. -/
example : keccakFuns.map (·.ways) = [1, 1, 2, 2, 4, 4, 4] := rfl

theorem keccakFuns_ok {f : A64K.Fun} (hf : f ∈ keccakFuns) : Verif.A64K.Ok f f.ways := by
  simp only [keccakFuns, List.mem_cons, List.not_mem_nil, or_false] at hf
  rcases hf with rfl | rfl | rfl | rfl | rfl | rfl | rfl
  exacts [A64K.ok_x1_scalar, A64K.ok_x1_v84a, A64K.ok_x2_v84a, A64K.ok_x2_v8a_v84a, A64K.ok_x4_v84a, A64K.ok_x4_v8a, A64K.ok_x4_v8a_v84a]

/-- The configurations of the FIPS 202 code of an AArch64 build: no backend, profiles/cortex_a55.h, and profiles/default.h with the macros `__ARM_FEATURE_SHA3`, `__APPLE__` and
`SYS_AARCH64_SLOW_BARREL_SHIFTER` defined or not. -/
def IsKeccakProfile (P : A64K.Profile) : Prop := P = A64K.no_backend ∨ P = A64K.cortex_a55 ∨ ∃ sha3 apple slow, P = A64K.defaultProfile sha3 apple slow

theorem IsKeccakProfile.ok {P : A64K.Profile} (h : IsKeccakProfile P) : Verif.A64K.OkP P := by
  rcases h with rfl | rfl | ⟨a, b, c, rfl⟩
  exacts [A64K.ok_no_backend, A64K.ok_cortex_a55, A64K.ok_default a b c]

/-- The memory that holds the states `L` one after the other between `pre` and `post`. -/
def statesAt (pre : Buf Model.W) (L : List (List Model.W)) (post : Buf Model.W) : Buf Model.W := pre ++ Buf.ofList L.flatten ++ post

/-- `L'` is `L` with every state permuted as FIPS 202 says. -/
def Permuted (L L' : List (List Model.W)) : Prop := List.Forall₂ (fun l l' => l'.length = 25 ∧ stateOf l' = keccakF (stateOf l)) L L'

theorem flatten_len {L : List (List Model.W)} (h : ∀ l ∈ L, l.length = 25) : L.flatten.length = 25 * L.length := by
  induction L with
  | nil => rfl
  | cons a L ih =>
    rw [List.flatten_cons, List.length_append, ih fun l hl => h l (List.mem_cons_of_mem _ hl), h a List.mem_cons_self, List.length_cons]; omega

theorem flatten_get {L : List (List Model.W)} (h : ∀ l ∈ L, l.length = 25) : ∀ {i k : Nat}, i < L.length → k < 25 → L.flatten[25 * i + k]? = some ((L.getD i []).getD k 0) := by
  induction L with
  | nil => intro i k hi; simp at hi
  | cons a L ih =>
    intro i k hi hk
    have ha : a.length = 25 := h a List.mem_cons_self
    rw [List.flatten_cons]
    cases i with
    | zero =>
      rw [List.getElem?_append_left (by omega)]
      simp [List.getD, ha, hk]
    | succ i =>
      rw [List.getElem?_append_right (by omega), show 25 * (i + 1) + k - a.length = 25 * i + k by omega,
        ih (fun l hl => h l (List.mem_cons_of_mem _ hl)) (by simpa using hi) hk]
      rfl

theorem ofList_flatten_size {L : List (List Model.W)} (h : ∀ l ∈ L, l.length = 25) : (Buf.ofList L.flatten).size = 25 * L.length :=
  (Holds.ofList L.flatten 0).1.trans (flatten_len h)

theorem statesAt_size {pre post : Buf Model.W} {L : List (List Model.W)} (h : ∀ l ∈ L, l.length = 25) : (statesAt pre L post).size = pre.size + 25 * L.length + post.size := by
  rw [statesAt, Array.size_append, Array.size_append, ofList_flatten_size h]

theorem statesAt_get {pre post : Buf Model.W} {L : List (List Model.W)} (h : ∀ l ∈ L, l.length = 25) {i k : Nat} (hi : i < L.length) (hk : k < 25) :
    (statesAt pre L post)[pre.size + 25 * i + k]? = some (some ((L.getD i []).getD k 0)) := by
  have hl := flatten_len h
  unfold statesAt
  rw [Array.getElem?_append_left (by rw [Array.size_append, ofList_flatten_size h]; omega), Array.getElem?_append_right (by omega), show pre.size + 25 * i + k - pre.size = 25 * i + k by omega]
  have e := (Holds.ofList L.flatten 0).seg (25 * i + k) (by omega)
  rw [Nat.zero_add] at e
  rw [e, List.getD_eq_getElem?_getD, flatten_get h hi hk]
  rfl

theorem statesAt_left {pre post : Buf Model.W} {L : List (List Model.W)} {j : Nat} (hj : j < pre.size) : (statesAt pre L post)[j]? = pre[j]? := by
  unfold statesAt
  rw [Array.getElem?_append_left (by simp; omega), Array.getElem?_append_left hj]

theorem statesAt_right {pre post : Buf Model.W} {L : List (List Model.W)} (h : ∀ l ∈ L, l.length = 25) {j : Nat} (hj : pre.size + 25 * L.length ≤ j) :
    (statesAt pre L post)[j]? = post[j - (pre.size + 25 * L.length)]? := by
  unfold statesAt
  rw [Array.getElem?_append_right (by rw [Array.size_append, ofList_flatten_size h]; exact hj), Array.size_append, ofList_flatten_size h]

theorem segK_statesAt {pre post : Buf Model.W} {L : List (List Model.W)} (h : ∀ l ∈ L, l.length = 25) {i : Nat} (hi : i < L.length) :
    SegK (statesAt pre L post) (pre.size + 25 * i) (stateOf (L.getD i [])) := by
  refine segK_at ?_ fun l hl => statesAt_get h hi hl
  rw [List.getD_eq_getElem?_getD, List.getElem?_eq_getElem hi]
  exact h _ (List.getElem_mem hi)

theorem segK_list {s : Buf Model.W} {o : Nat} {S : KState} (h : SegK s o S) : ∃ L : List Model.W, L.length = 25 ∧ (∀ l, l < 25 → s[o + l]? = some (some (L.getD l 0))) ∧ stateOf L = S := by
  obtain ⟨f, hf, hz⟩ := h.choose
  refine ⟨(List.range 25).map f, by simp, fun l hl => by rw [getD_map_range _ _ hl]; exact hf l hl, ?_⟩
  funext x y z
  have hx : 5 * y.val + x.val < 25 := by omega
  unfold stateOf
  rw [getD_map_range _ _ hx, hz _ hx _ z.2]
  exact stateBit_kpos S x y z

theorem statesAt_of {pre post : Buf Model.W} {L : List (List Model.W)} (h : ∀ l ∈ L, l.length = 25) {s : Buf Model.W}
    (ho : ∀ j, (j < pre.size ∨ pre.size + 25 * L.length ≤ j) → s[j]? = (statesAt pre L post)[j]?)
    (hk : ∀ i, i < L.length → SegK s (pre.size + 25 * i) (keccakF (stateOf (L.getD i [])))) : ∃ L', Permuted L L' ∧ s = statesAt pre L' post := by
  choose! f h1 h2 h3 using fun i hi => segK_list (hk i hi)
  have e : ((List.range L.length).map f).length = L.length := by simp
  have hl : ∀ l ∈ (List.range L.length).map f, l.length = 25 := by
    intro l hl
    obtain ⟨i, hi, rfl⟩ := List.mem_map.1 hl
    exact h1 i (List.mem_range.1 hi)
  refine ⟨(List.range L.length).map f, ?_, ?_⟩
  · refine List.forall₂_iff_get.2 ⟨e.symm, fun i hi hi' => ?_⟩
    simp only [List.get_eq_getElem, List.getElem_map, List.getElem_range]
    refine ⟨h1 i hi, (h3 i hi).trans ?_⟩
    rw [List.getD_eq_getElem?_getD, List.getElem?_eq_getElem hi]; rfl
  · apply Array.ext_getElem?
    intro j
    by_cases hj : j < pre.size
    · rw [ho j (Or.inl hj), statesAt_left hj, statesAt_left hj]
    by_cases hj' : pre.size + 25 * L.length ≤ j
    · rw [ho j (Or.inr hj'), statesAt_right h hj', statesAt_right hl (by rw [e]; exact hj'), e]
    · have hi : (j - pre.size) / 25 < L.length := by omega
      have h4 := h2 _ hi ((j - pre.size) % 25) (Nat.mod_lt _ (by omega))
      have h5 := statesAt_get (pre := pre) (post := post) hl (i := (j - pre.size) / 25) (k := (j - pre.size) % 25) (by rw [e]; exact hi) (Nat.mod_lt _ (by omega))
      have hd := Nat.div_add_mod (j - pre.size) 25
      rw [show pre.size + 25 * ((j - pre.size) / 25) + (j - pre.size) % 25 = j by omega] at h4 h5
      rw [h4, h5, getD_map_range _ _ hi]

/-! ## C58: the assembly functions -/

/-- **C58.** Every assembly function, called on a pointer to as many states as it permutes, replaces each of them by its FIPS 202 permutation and returns; it changes nothing before or
after the states. -/
theorem C58_assembly {f : A64K.Fun} (hf : f ∈ keccakFuns) (regs : A64K.Entry) (pre post : Buf Model.W) (L : List (List Model.W)) (hn : L.length = f.ways) (hL : ∀ l ∈ L, l.length = 25) :
    ∃ L', Permuted L L' ∧ Returns (f.call regs (statesAt pre L post) pre.size) (statesAt pre L' post) := by
  obtain ⟨s, hs, -, h2, h3⟩ := ret_of_post ((keccakFuns_ok hf).spec (g := regs) (s := statesAt pre L post) (so := pre.size) (Ss := fun i => stateOf (L.getD i []))
    fun i hi => segK_statesAt hL (by omega))
  obtain ⟨L', h4, h5⟩ := statesAt_of hL (fun j hj => h2 j (hn ▸ hj)) (fun i hi => h3 i (hn ▸ hi))
  exact ⟨L', h4, h5 ▸ hs⟩

/-- A case of C58: four different states between memory that has not been initialised. -/
example : ∃ L', Permuted ((List.range 4).map fun i => List.replicate 25 (BitVec.ofNat 64 (7 * i + 1))) L' ∧
    Returns (A64K.fun_x4_v8a.call ⟨fun _ => .num 5, fun _ _ => 9⟩
      (statesAt (Buf.uninit _ 3) ((List.range 4).map fun i => List.replicate 25 (BitVec.ofNat 64 (7 * i + 1))) (Buf.uninit _ 8)) 3) (statesAt (Buf.uninit _ 3) L' (Buf.uninit _ 8)) :=
  C58_assembly (f := A64K.fun_x4_v8a) (by simp [keccakFuns]) _ (Buf.uninit _ 3) _ _ (by simp; rfl) (by simp)

/-! ## C59: the permutations of an AArch64 build -/

/-- **C59 (one state).** In every configuration, on every state, `KeccakF1600_StatePermute` is the FIPS 202 permutation, and leaves memory as the portable code does. -/
theorem C59_permutation {P : A64K.Profile} (hP : IsKeccakProfile P) (regs : Buf Model.W → Nat → A64K.Entry) (L : List Model.W) (h : L.length = 25) :
    ∃ L' : List Model.W, L'.length = 25 ∧ stateOf L' = keccakF (stateOf L) ∧ Returns (A64K.KeccakF1600_StatePermute P regs (Buf.ofList L) 0) (Buf.ofList L') ∧
      Returns (KeccakF1600_StatePermute (Buf.ofList L) 0) (Buf.ofList L') := by
  obtain ⟨s, hs, hf, hk⟩ := ret_of_post (Verif.A64K.permute_spec hP.ok regs (segK_stateOf L h))
  obtain ⟨L', h1, h2, h3⟩ := lanes_of_segK (by rw [hf.1]; simp [Buf.ofList, h]) hk
  obtain ⟨M, m1, m2, m3⟩ := C29_permutation L h
  have e : M = L' := C29_determined _ _ m1 h1 (m3.trans h3.symm)
  exact ⟨L', h1, h3, h2 ▸ hs, e ▸ m2⟩

/-- **C59 (four states).** In every configuration, on every four states, `KeccakF1600x4_StatePermute` permutes each of them as FIPS 202 says, and leaves memory as the portable code does. -/
theorem C59_permutation_x4 {P : A64K.Profile} (hP : IsKeccakProfile P) (regs : Buf Model.W → Nat → A64K.Entry) (L : Fin 4 → List Model.W) (h : ∀ w, (L w).length = 25) :
    ∃ L' : Fin 4 → List Model.W, (∀ w, (L' w).length = 25 ∧ stateOf (L' w) = keccakF (stateOf (L w))) ∧
      Returns (A64K.KeccakF1600x4_StatePermute P regs (fourStates L)) (fourStates L') ∧ Returns (KeccakF1600x4_StatePermute (fourStates L)) (fourStates L') := by
  have hsz : (fourStates L).size = 100 := by unfold fourStates; simp [Buf.ofList, h]
  obtain ⟨s, hs, h1, h2⟩ := ret_of_post (Verif.A64K.permute4_spec hP.ok regs (state4_fourStates L h))
  obtain ⟨t, ht, h3, h4⟩ := ret_of_post (KeccakF1600x4_StatePermute_spec (state4_fourStates L h))
  obtain ⟨A, a1, a2, a3⟩ := fourStates_of_state4 (h1.trans hsz) h2
  obtain ⟨B, b1, b2, b3⟩ := fourStates_of_state4 (h3.trans hsz) h4
  have e : A = B := funext fun w => C29_determined _ _ (a1 w) (b1 w) ((a3 w).trans (b3 w).symm)
  refine ⟨A, fun w => ⟨a1 w, ?_⟩, a2 ▸ hs, e ▸ b2 ▸ ht⟩
  rw [a3 w, show Fin.ofNat 4 w.val = w from Fin.ext (Nat.mod_eq_of_lt w.isLt)]

/-- The configurations are not all the same: on an Apple processor two states are permuted at a time, on others four, on Cortex-A55 one. -/
example : (A64K.defaultProfile true true false).x4.isNone ∧ (A64K.defaultProfile true true false).x2.isSome ∧ (A64K.defaultProfile true false false).x4.isSome ∧
    A64K.cortex_a55.x4.isNone ∧ A64K.cortex_a55.x2.isNone := by decide

/-! ## C60: the calling convention -/

/-- **C60.** Every assembly function, called with the registers `regs` on a pointer to as many states as it permutes, returns with the stack pointer, the general-purpose registers 18
to 30 and the low halves of the vector registers 8 to 15 as they were. -/
theorem C60_keeps_caller {f : A64K.Fun} (hf : f ∈ keccakFuns) (regs : A64K.Entry) (pre post : Buf Model.W) (L : List (List Model.W)) (hn : L.length = f.ways) (hL : ∀ l ∈ L, l.length = 25) :
    ∃ s, Returns (A64K.run f.prog regs f.frame (statesAt pre L post) pre.size) s ∧ s.x 31 = .ptr .stk f.frame ∧ (∀ r, 18 ≤ r → r ≤ 30 → s.x r = regs.x r) ∧
      ∀ r, 8 ≤ r → r ≤ 15 → s.v r 0 = regs.v r 0 := by
  have ho := keccakFuns_ok hf
  obtain ⟨tr, htr⟩ := Verif.A64K.run_spec ho.pos ho.run pre.size
  obtain ⟨s, h1, h2⟩ := htr (g := regs) (s := statesAt pre L post) (Ss := fun i => stateOf (L.getD i [])) fun i hi => segK_statesAt hL (by omega)
  exact ⟨s, ⟨tr, h1⟩, h2.sp, h2.x, h2.d⟩

/-- A case of C60: a state of 25 lanes, and registers whose contents are all different. -/
example : ∃ s, Returns (A64K.run A64K.fun_x1_scalar.prog ⟨fun r => .num (BitVec.ofNat 64 r), fun r k => BitVec.ofNat 64 (2 * r + k)⟩ A64K.fun_x1_scalar.frame
      (statesAt (Buf.uninit _ 0) [(List.range 25).map (BitVec.ofNat 64)] (Buf.uninit _ 0)) 0) s ∧ s.x 29 = .num 29 := by
  obtain ⟨s, h1, -, h2, -⟩ := C60_keeps_caller (f := A64K.fun_x1_scalar) (by simp [keccakFuns]) ⟨fun r => .num (BitVec.ofNat 64 r), fun r k => BitVec.ofNat 64 (2 * r + k)⟩
    (Buf.uninit _ 0) (Buf.uninit _ 0) [(List.range 25).map (BitVec.ofNat 64)] rfl (by simp)
  exact ⟨s, h1, h2 29 (by omega) (by omega)⟩

/-! ## C61: constant time -/

/-- **C61 (assembly).** Every assembly function, called on states at the same address, takes the same branches and touches the same addresses whatever the states, the memory around
them, and the registers contain. -/
theorem C61_assembly {f : A64K.Fun} (hf : f ∈ keccakFuns) (regs regs' : A64K.Entry) (pre pre' post post' : Buf Model.W) (hpre : pre.size = pre'.size) (L L' : List (List Model.W))
    (hn : L.length = f.ways) (hL : ∀ l ∈ L, l.length = 25) (hn' : L'.length = f.ways) (hL' : ∀ l ∈ L', l.length = 25) :
    ∃ s s' t, ReturnsTr (f.call regs (statesAt pre L post) pre.size) s t ∧ ReturnsTr (f.call regs' (statesAt pre' L' post') pre'.size) s' t := by
  obtain ⟨_, -, t, h⟩ := C58_assembly hf regs pre post L hn hL
  obtain ⟨_, -, t', h'⟩ := C58_assembly hf regs' pre' post' L' hn' hL'
  have := ((keccakFuns_ok hf).si (g := regs) (g' := regs') (s := statesAt pre L post) (s' := statesAt pre' L' post') (so := pre.size) _ _ _ _ h (hpre ▸ h')).1
  exact ⟨_, _, t, h, this ▸ h'⟩

/-- **C61 (builds).** In every configuration the two permutations take the same branches and touch the same addresses on all states. -/
theorem C61_permutations {P : A64K.Profile} (hP : IsKeccakProfile P) (regs regs' : Buf Model.W → Nat → A64K.Entry) (L L' : List Model.W) (h : L.length = 25) (h' : L'.length = 25)
    (F F' : Fin 4 → List Model.W) (hF : ∀ w, (F w).length = 25) (hF' : ∀ w, (F' w).length = 25) :
    (∃ s s' t, ReturnsTr (A64K.KeccakF1600_StatePermute P regs (Buf.ofList L) 0) s t ∧ ReturnsTr (A64K.KeccakF1600_StatePermute P regs' (Buf.ofList L') 0) s' t) ∧
    ∃ s s' t, ReturnsTr (A64K.KeccakF1600x4_StatePermute P regs (fourStates F)) s t ∧ ReturnsTr (A64K.KeccakF1600x4_StatePermute P regs' (fourStates F')) s' t := by
  constructor
  · obtain ⟨_, -, -, ⟨t, e⟩, -⟩ := C59_permutation hP regs L h
    obtain ⟨_, -, -, ⟨t', e'⟩, -⟩ := C59_permutation hP regs' L' h'
    have := (Verif.A64K.permute_si hP.ok _ _ _ _ e e').1
    exact ⟨_, _, t, e, this ▸ e'⟩
  · obtain ⟨_, -, ⟨t, e⟩, -⟩ := C59_permutation_x4 hP regs F hF
    obtain ⟨_, -, ⟨t', e'⟩, -⟩ := C59_permutation_x4 hP regs' F' hF'
    have := (Verif.A64K.permute4_si hP.ok _ _ _ _ e e').1
    exact ⟨_, _, t, e, this ▸ e'⟩

/-- A case of C61: the zero state and the state of all ones. -/
example : (List.replicate 25 (0#64)).length = 25 ∧ (List.replicate 25 (BitVec.allOnes 64)).length = 25 ∧ List.replicate 25 (0#64) ≠ List.replicate 25 (BitVec.allOnes 64) := by decide

end Verif.Props

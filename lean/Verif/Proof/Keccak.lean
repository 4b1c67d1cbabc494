import Verif.Proof.KeccakRound
import Verif.Proof.Pack
/-! # The Keccak state: permutation and byte access -/
namespace Verif
open Model Spec

variable {F : Prop}

/-- The 25 lanes from `so` hold the state `S`. -/
def SegK (s : Buf W) (so : Nat) (S : KState) : Prop :=
  ∀ l, l < 25 → ∃ w, s[so + l]? = some (some w) ∧ ∀ z, z < 64 → w.getLsbD z = stateBit S (64 * l + z)

/-- Only the 25 lanes from `so` may differ. -/
def FrameK (s s' : Buf W) (so : Nat) : Prop := s'.size = s.size ∧ ∀ j, (j < so ∨ so + 25 ≤ j) → s'[j]? = s[j]?

theorem FrameK.refl (s : Buf W) (so : Nat) : FrameK s s so := ⟨rfl, fun _ _ => rfl⟩
theorem FrameK.trans {s s' s'' : Buf W} {so : Nat} (h : FrameK s s' so) (h' : FrameK s' s'' so) : FrameK s s'' so :=
  ⟨h'.1.trans h.1, fun j hj => (h'.2 j hj).trans (h.2 j hj)⟩

theorem FrameK.segK {s s' : Buf W} {so so' : Nat} {S : KState} (h : FrameK s s' so) (hs : SegK s so' S) (hd : so' + 25 ≤ so ∨ so + 25 ≤ so') : SegK s' so' S := by
  intro l hl
  obtain ⟨w, hw, hz⟩ := hs l hl
  exact ⟨w, by rw [h.2 _ (by omega), hw], hz⟩

theorem SegK.congr {s : Buf W} {so : Nat} {S S' : KState} (h : SegK s so S) (e : S = S') : SegK s so S' := e ▸ h

theorem stateBit_kpos (S : KState) (x y : Fin 5) (z : Fin 64) : stateBit S (64 * (5 * y.val + x.val) + z.val) = S x y z := by
  unfold stateBit
  have hx := x.isLt; have hy := y.isLt; have hz := z.isLt
  have e1 : Fin.ofNat 5 ((64 * (5 * y.val + x.val) + z.val) / 64) = x := by apply Fin.ext; simp only [Fin.ofNat]; omega
  have e2 : Fin.ofNat 5 ((64 * (5 * y.val + x.val) + z.val) / 320) = y := by apply Fin.ext; simp only [Fin.ofNat]; omega
  have e3 : Fin.ofNat 64 (64 * (5 * y.val + x.val) + z.val) = z := by apply Fin.ext; simp only [Fin.ofNat]; omega
  rw [e1, e2, e3]

theorem kstate_ext {S S' : KState} (h : ∀ k, k < 1600 → stateBit S k = stateBit S' k) : S = S' := by
  funext x y z
  rw [← stateBit_kpos S, ← stateBit_kpos S']
  exact h _ (by have := x.isLt; have := y.isLt; have := z.isLt; omega)

theorem SegK.choose {s : Buf W} {so : Nat} {S : KState} (h : SegK s so S) :
    ∃ L : Nat → W, Seg s so 25 L ∧ ∀ l, l < 25 → ∀ z, z < 64 → (L l).getLsbD z = stateBit S (64 * l + z) := by
  have : ∀ l, ∃ w : W, l < 25 → s[so + l]? = some (some w) ∧ ∀ z, z < 64 → w.getLsbD z = stateBit S (64 * l + z) := by
    intro l
    by_cases hl : l < 25
    · obtain ⟨w, hw⟩ := h l hl; exact ⟨w, fun _ => hw⟩
    · exact ⟨0, fun h => absurd h hl⟩
  choose L hL using this
  exact ⟨L, fun l hl => (hL l hl).1, fun l hl => (hL l hl).2⟩

/-- The local variables loaded from lanes `L`. -/
def lanesOf (L : Nat → W) : Lanes := ⟨L 0, L 1, L 2, L 3, L 4, L 5, L 6, L 7, L 8, L 9, L 10, L 11, L 12, L 13, L 14, L 15, L 16, L 17, L 18, L 19, L 20, L 21, L 22, L 23, L 24⟩

theorem laneAt_lanesOf (L : Nat → W) (x y : Fin 5) : laneAt (lanesOf L) x y = L (5 * y.val + x.val) := by
  fin_cases y <;> fin_cases x <;> rfl

theorem copyFromState_spec {s : Buf W} {so : Nat} {L : Nat → W} (h : Seg s so 25 L) : Post (copyFromState s so) (fun A => A = lanesOf L) := by
  unfold copyFromState
  simp only [wp_bind, wp_rd, wp_pure]
  refine ⟨_, h.get (by omega), _, h.get (by omega), _, h.get (by omega), _, h.get (by omega), _, h.get (by omega), _, h.get (by omega), _, h.get (by omega), _, h.get (by omega), _, h.get (by omega), _, h.get (by omega), _, h.get (by omega), _, h.get (by omega), _, h.get (by omega), _, h.get (by omega), _, h.get (by omega), _, h.get (by omega), _, h.get (by omega), _, h.get (by omega), _, h.get (by omega), _, h.get (by omega), _, h.get (by omega), _, h.get (by omega), _, h.get (by omega), _, h.get (by omega), _, h.get (by omega), rfl⟩

/-- Lane number `l`. -/
def laneNo (A : Lanes) (l : Nat) : W := laneAt A (Fin.ofNat 5 l) (Fin.ofNat 5 (l / 5))

theorem wr_step {α β : Type} {s0 s : Buf α} {so n : Nat} {g : Nat → α} {v : α} {k : Buf α → M β} {Q : β → Prop} (hW : Written s0 s so n g) (hn : so + n < s0.size) (hv : v = g n)
    (hQ : ∀ s', Written s0 s' so (n + 1) g → PostF F (k s') Q) : PostF F (wr s (so + n) v >>= k) Q := by
  simp only [wp_bind, wp_wr]
  exact ⟨by rw [hW.1]; exact hn, hQ _ (hW.push hn rfl hv)⟩

theorem copyToState_spec {s : Buf W} {so : Nat} {A : Lanes} (h : so + 25 ≤ s.size) : Post (copyToState s so A) (fun s' => Written s s' so 25 (laneNo A)) := by
  unfold copyToState
  have hW := Written.refl s so (laneNo A)
  refine wr_step hW (by omega) rfl (fun s hW => ?_); 
  refine wr_step hW (by omega) rfl (fun s hW => ?_); 
  refine wr_step hW (by omega) rfl (fun s hW => ?_); 
  refine wr_step hW (by omega) rfl (fun s hW => ?_); 
  refine wr_step hW (by omega) rfl (fun s hW => ?_); 
  refine wr_step hW (by omega) rfl (fun s hW => ?_); 
  refine wr_step hW (by omega) rfl (fun s hW => ?_); 
  refine wr_step hW (by omega) rfl (fun s hW => ?_); 
  refine wr_step hW (by omega) rfl (fun s hW => ?_); 
  refine wr_step hW (by omega) rfl (fun s hW => ?_); 
  refine wr_step hW (by omega) rfl (fun s hW => ?_); 
  refine wr_step hW (by omega) rfl (fun s hW => ?_); 
  refine wr_step hW (by omega) rfl (fun s hW => ?_); 
  refine wr_step hW (by omega) rfl (fun s hW => ?_); 
  refine wr_step hW (by omega) rfl (fun s hW => ?_); 
  refine wr_step hW (by omega) rfl (fun s hW => ?_); 
  refine wr_step hW (by omega) rfl (fun s hW => ?_); 
  refine wr_step hW (by omega) rfl (fun s hW => ?_); 
  refine wr_step hW (by omega) rfl (fun s hW => ?_); 
  refine wr_step hW (by omega) rfl (fun s hW => ?_); 
  refine wr_step hW (by omega) rfl (fun s hW => ?_); 
  refine wr_step hW (by omega) rfl (fun s hW => ?_); 
  refine wr_step hW (by omega) rfl (fun s hW => ?_); 
  refine wr_step hW (by omega) rfl (fun s hW => ?_); 
  simp only [wp_wr]
  exact ⟨by rw [hW.1]; omega, hW.push (by omega) rfl rfl⟩

theorem KeccakF1600_StatePermute_spec {s : Buf W} {so : Nat} {S : KState} (h : SegK s so S) :
    Post (KeccakF1600_StatePermute s so) (fun s' => FrameK s s' so ∧ SegK s' so (keccakF S)) := by
  obtain ⟨L, hL, hbits⟩ := h.choose
  have hsz := hL.le_size (by omega)
  unfold KeccakF1600_StatePermute
  simp only [wp_bind]
  refine Post.use (copyFromState_spec hL) fun A hA => ?_
  subst hA
  have h0 : lanesK (lanesOf L) = S := by
    funext x y z
    unfold lanesK lb
    rw [laneAt_lanesOf, hbits _ (by have := x.isLt; have := y.isLt; omega) _ z.isLt, stateBit_kpos]
  refine wp_forN (fun t A => lanesK A = rounds (2 * t) S) h0 ?_ ?_
  · intro t A ht hI
    simp only [wp_bind, wp_rd, wp_pure]
    have hrc : ∀ i, i < 24 → KeccakF_RoundConstants[i]? = some (some (KeccakF_RoundConstantsList.getD i 0)) := fun i hi => (Holds.ofList KeccakF_RoundConstantsList 0).get hi
    refine ⟨_, hrc (2 * t) (by omega), _, hrc (2 * t + 1) (by omega), ?_⟩
    rw [keccakTwoRounds_eq, oneRound_eq (2 * t + 1) _ (rc_bits ⟨2 * t + 1, by omega⟩), oneRound_eq (2 * t) _ (rc_bits ⟨2 * t, by omega⟩), hI,
      show 2 * (t + 1) = 2 * t + 1 + 1 by omega, rounds_succ, rounds_succ]
  · intro A hA
    refine Post.use (copyToState_spec (by omega)) fun s' hs' => ⟨⟨hs'.1, hs'.2.2⟩, fun l hl => ⟨_, hs'.2.1 l hl, fun z hz => ?_⟩⟩
    have : keccakF S = lanesK A := hA.symm
    rw [this]
    have e := stateBit_kpos (lanesK A) (Fin.ofNat 5 l) (Fin.ofNat 5 (l / 5)) ⟨z, hz⟩
    rw [show 64 * l + z = 64 * (5 * (Fin.ofNat 5 (l / 5)).val + (Fin.ofNat 5 l).val) + (⟨z, hz⟩ : Fin 64).val by simp [Fin.ofNat]; omega, e]
    rfl

/-- XOR of `len` bytes `B` at byte offset `off`. -/
def xorK (S : KState) (off len : Nat) (B : Nat → UInt8) : KState := fun x y z =>
  S x y z ^^ (decide (8 * off ≤ kpos x y z ∧ kpos x y z < 8 * (off + len)) && fbit B (kpos x y z - 8 * off))

theorem kpos_ofNat {k : Nat} (hk : k < 1600) : kpos (Fin.ofNat 5 (k / 64)) (Fin.ofNat 5 (k / 320)) (Fin.ofNat 64 k) = k := by
  unfold kpos; simp [Fin.ofNat]; omega

theorem stateBit_xorK (S : KState) (off len : Nat) (B : Nat → UInt8) {k : Nat} (hk : k < 1600) :
    stateBit (xorK S off len B) k = (stateBit S k ^^ (decide (8 * off ≤ k ∧ k < 8 * (off + len)) && fbit B (k - 8 * off))) := by
  unfold stateBit xorK
  rw [kpos_ofNat hk]

theorem xorK_zero (S : KState) (off : Nat) (B : Nat → UInt8) : xorK S off 0 B = S := by
  apply kstate_ext
  intro k hk
  rw [stateBit_xorK _ _ _ _ hk]
  have : ¬(8 * off ≤ k ∧ k < 8 * (off + 0)) := by omega
  rw [decide_eq_false this, Bool.false_and, Bool.xor_false]

theorem u32_small {x : Nat} (h : x < 4294967296) : u32 x = x := Nat.mod_eq_of_lt h

theorem KeccakF1600_StateXORBytes_spec {s : Buf W} {so : Nat} {S : KState} {data : Buf UInt8} {dof off len : Nat} {B : Nat → UInt8} (h : SegK s so S)
    (hd : Seg data dof len B) (hl : off + len ≤ 200) :
    Post (KeccakF1600_StateXORBytes s so data dof off len) (fun s' => FrameK s s' so ∧ SegK s' so (xorK S off len B)) := by
  unfold KeccakF1600_StateXORBytes
  refine wp_forN (fun i s' => FrameK s s' so ∧ SegK s' so (xorK S off i B)) ⟨FrameK.refl _ _, by rw [xorK_zero]; exact h⟩ ?_ (fun _ h => h)
  intro i s' hi ⟨hf, hI⟩
  simp only [wp_bind, wp_rd, wp_wr]
  rw [u32_small (by omega), Nat.shiftRight_eq_div_pow, show 2 ^ 3 = 8 from rfl, show (off + i) &&& 7 = (off + i) % 8 from Nat.and_two_pow_sub_one_eq_mod _ 3]
  obtain ⟨w, hw, hwz⟩ := hI ((off + i) / 8) (by omega)
  have hsz : so + (off + i) / 8 < s'.size := by
    by_contra hc
    rw [Array.getElem?_eq_none (by omega)] at hw
    cases hw
  refine ⟨_, hd.get hi, w, hw, hsz, ⟨by simp [hf.1], fun j hj => ?_⟩, fun l hl => ?_⟩
  · rw [Array.getElem?_setIfInBounds_ne (by omega)]; exact hf.2 j hj
  · by_cases e : l = (off + i) / 8
    · subst e
      refine ⟨_, by rw [Array.getElem?_setIfInBounds_self, if_pos hsz], fun z hz => ?_⟩
      rw [BitVec.getLsbD_xor, hwz z hz, BitVec.getLsbD_shiftLeft, BitVec.getLsbD_ofNat, stateBit_xorK _ _ _ _ (by omega), stateBit_xorK _ _ _ _ (by omega), Bool.xor_assoc]
      congr 1
      by_cases h1 : z < 8 * ((off + i) % 8)
      · simp only [hz, decide_true, h1, Bool.not_true, Bool.and_false, Bool.false_and, Bool.xor_false]
        congr 1
        apply decide_eq_decide.2; omega
      · by_cases h2 : z < 8 * ((off + i) % 8) + 8
        · have e1 : ¬(8 * off ≤ 64 * ((off + i) / 8) + z ∧ 64 * ((off + i) / 8) + z < 8 * (off + i)) := by omega
          have e2 : (8 * off ≤ 64 * ((off + i) / 8) + z ∧ 64 * ((off + i) / 8) + z < 8 * (off + (i + 1))) := by omega
          rw [decide_eq_false e1, decide_eq_true e2]
          simp only [hz, h1, decide_true, decide_false, Bool.false_and, Bool.true_and, Bool.false_xor, Bool.not_false, and_self, show z - 8 * ((off + i) % 8) < 64 by omega]
          unfold fbit
          rw [show (64 * ((off + i) / 8) + z - 8 * off) / 8 = i by omega, show (64 * ((off + i) / 8) + z - 8 * off) % 8 = z - 8 * ((off + i) % 8) by omega]
        · rw [uint8_testBit_ge _ (by omega)]
          simp only [Bool.and_false, Bool.xor_false]
          congr 1
          apply decide_eq_decide.2; omega
    · obtain ⟨w', hw', hwz'⟩ := hI l hl
      refine ⟨w', by rw [Array.getElem?_setIfInBounds_ne (by omega)]; exact hw', fun z hz => ?_⟩
      rw [hwz' z hz, stateBit_xorK _ _ _ _ (by omega), stateBit_xorK _ _ _ _ (by omega)]
      congr 2
      apply decide_eq_decide.2; omega

/-- Byte `p` of the state. -/
def kbyte (S : KState) (p : Nat) : UInt8 := byteOf fun t => stateBit S (8 * p + t)

theorem KeccakF1600_StateExtractBytes_spec {s : Buf W} {so : Nat} {S : KState} {data : Buf UInt8} {dof off len : Nat} (h : SegK s so S)
    (hd : dof + len ≤ data.size) (hl : off + len ≤ 200) :
    Post (KeccakF1600_StateExtractBytes s so data dof off len) (fun d' => Written data d' dof len (fun i => kbyte S (off + i))) := by
  unfold KeccakF1600_StateExtractBytes
  refine wp_forN (fun i d' => Written data d' dof i _) (Written.refl _ _ _) ?_ (fun _ h => h)
  intro i d' hi hI
  simp only [wp_bind, wp_rd, wp_wr]
  rw [u32_small (by omega), Nat.shiftRight_eq_div_pow, show 2 ^ 3 = 8 from rfl, show (off + i) &&& 7 = (off + i) % 8 from Nat.and_two_pow_sub_one_eq_mod _ 3]
  obtain ⟨w, hw, hwz⟩ := h ((off + i) / 8) (by omega)
  refine ⟨w, hw, by rw [hI.1]; omega, hI.push (by omega) rfl ?_⟩
  unfold kbyte
  apply toU8_eq_byteOf
  intro t ht
  rw [BitVec.testBit_toNat, BitVec.getLsbD_ushiftRight, hwz _ (by omega)]
  congr 1
  omega

end Verif

import Verif.Proof.RejUniform
import Verif.Model.X86Rej
import Mathlib.Tactic.IntervalCases
/-! # AVX2 rejection sampling -/
namespace Verif
open Model Spec

variable {F : Prop}

/-! ## The sampling loop by groups of eight candidates -/

/-- The candidates in a list of bytes. -/
def cands : List UInt8 → List Nat
  | c0 :: c1 :: c2 :: rest => (cand c0 c1 c2).1 :: (cand c0 c1 c2).2 :: cands rest
  | _ => []

theorem sN_cands {T : Nat} (n : Nat) : ∀ (L : List UInt8) (b : List Nat), L.length = 3 * n → b.length + 2 * n ≤ T → sN T L b = b ++ (cands L).filter (fun x => decide (x < 3329)) := by
  induction n with
  | zero => intro L b h _; obtain rfl : L = [] := List.length_eq_zero_iff.1 (by omega); simp [sN, cands]
  | succ n ih =>
    intro L b h hb
    match L, h with
    | c0 :: c1 :: c2 :: rest, h =>
      simp only [List.length_cons] at h
      rw [sN, if_pos (by omega)]
      have e : sStep T c0 c1 c2 b = b ++ ([(cand c0 c1 c2).1, (cand c0 c1 c2).2].filter fun x => decide (x < 3329)) := by
        unfold sStep
        by_cases h1 : (cand c0 c1 c2).1 < 3329 <;> by_cases h2 : (cand c0 c1 c2).2 < 3329 <;> simp [h1, h2] <;> omega
      have hl : ([(cand c0 c1 c2).1, (cand c0 c1 c2).2].filter fun x => decide (x < 3329)).length ≤ 2 := List.length_filter_le _ _
      rw [e, ih rest _ (by omega) (by rw [List.length_append]; omega), cands, List.append_assoc, ← List.filter_append]
      rfl

/-- Candidate number `k` in the bytes `g`. -/
def cd (g : Nat → UInt8) (k : Nat) : Nat :=
  if k % 2 = 0 then (g (3 * (k / 2))).toNat + 256 * ((g (3 * (k / 2) + 1)).toNat % 16) else (g (3 * (k / 2) + 1)).toNat / 16 + 16 * (g (3 * (k / 2) + 2)).toNat

theorem cd_lt (g : Nat → UInt8) (k : Nat) : cd g k < 4096 := by
  unfold cd
  have := (g (3 * (k / 2))).toNat_lt; have := (g (3 * (k / 2) + 1)).toNat_lt; have := (g (3 * (k / 2) + 2)).toNat_lt
  split <;> omega

/-- The accepted ones among eight candidates. -/
def acc8 (d : Nat → Nat) : List Nat := ((List.range 8).map d).filter fun x => decide (x < 3329)

theorem cands12 (g : Nat → UInt8) : cands ((List.range 12).map g) = (List.range 8).map (cd g) := rfl

theorem drop_chunk {α : Type} (d : α) (L : List α) (n pos : Nat) (h : pos + n ≤ L.length) : L.drop pos = (List.range n).map (fun j => L.getD (pos + j) d) ++ L.drop (pos + n) := by
  induction n with
  | zero => simp
  | succ n ih =>
    rw [ih (by omega), List.range_succ, List.map_append, List.append_assoc]
    rw [List.drop_eq_getElem_cons (show pos + n < L.length by omega)]
    simp [List.getD, List.getElem?_eq_getElem (show pos + n < L.length by omega), Nat.add_assoc]

theorem sN_chunk {T : Nat} {L : List UInt8} {pos : Nat} {b : List Nat} (h : pos + 12 ≤ L.length) (hb : b.length + 8 ≤ T) :
    sN T (L.drop pos) b = sN T (L.drop (pos + 12)) (b ++ acc8 (cd fun j => L.getD (pos + j) 0)) := by
  rw [drop_chunk 0 L 12 pos h, sN_append (by simp), sN_cands 4 ((List.range 12).map _) _ (by simp) (by omega), cands12]
  rfl

theorem acc8_length (d : Nat → Nat) : (acc8 d).length ≤ 8 := by
  unfold acc8
  exact (List.length_filter_le _ _).trans (by simp)

/-! ## Bits and elements -/

theorem testBit_bitsNat (f : Nat → Bool) (n i : Nat) : (bitsNat f n).testBit i = (decide (i < n) && f i) ∧ bitsNat f n < 2 ^ n := by
  induction n with
  | zero => simp [bitsNat]
  | succ n ih =>
    have hlt := ih.2
    by_cases hf : f n
    · simp only [bitsNat, hf, if_true]
      refine ⟨?_, by rw [Nat.pow_succ]; omega⟩
      rw [Nat.add_comm]
      by_cases e : i = n
      · subst e
        rw [Nat.testBit_two_pow_add_eq, Nat.testBit_lt_two_pow hlt]; simp [hf]
      · by_cases hi : i < n
        · rw [Nat.testBit_two_pow_add_gt hi, ih.1]; simp [hi, Nat.lt_succ_of_lt hi]
        · rw [Nat.testBit_lt_two_pow]
          · have : ¬ i < n + 1 := by omega
            simp [this]
          · calc 2 ^ n + bitsNat f n < 2 ^ n + 2 ^ n := by omega
              _ = 2 ^ (n + 1) := by rw [Nat.pow_succ]; omega
              _ ≤ 2 ^ i := Nat.pow_le_pow_right (by omega) (by omega)
    · simp only [bitsNat, hf]
      refine ⟨?_, by rw [Nat.pow_succ]; simp; omega⟩
      simp only [Bool.false_eq_true, if_false, Nat.add_zero]
      rw [ih.1]
      by_cases e : i = n
      · subst e; simp [hf]
      · by_cases hi : i < n
        · simp [hi, Nat.lt_succ_of_lt hi]
        · have : ¬ i < n + 1 := by omega
          simp [hi, this]

theorem testBit_byte (x s k : Nat) : ((x >>> s) &&& 0xFF).testBit k = (decide (k < 8) && x.testBit (s + k)) := by
  rw [Nat.testBit_and, Nat.testBit_shiftRight, show 0xFF = 2 ^ 8 - 1 from rfl, Nat.testBit_two_pow_sub_one, Bool.and_comm]

theorem byte_lt (x s : Nat) : (x >>> s) &&& 0xFF < 256 := by
  rw [show 0xFF = 2 ^ 8 - 1 from rfl, Nat.and_two_pow_sub_one_eq_mod]; omega

theorem lane16_of16 (f : Nat → Nat) (k : Nat) (h : f k < 65536) : lane16 (of16 f) k = f k := by
  unfold lane16 of16
  have e1 : (2 * k) / 2 = k := by omega
  have e2 : (2 * k) % 2 = 0 := by omega
  have e3 : (2 * k + 1) / 2 = k := by omega
  have e4 : (2 * k + 1) % 2 = 1 := by omega
  simp only [e1, e2, e3, e4, pow_zero, pow_one, Nat.div_one, UInt8.toNat_ofNat']
  omega

theorem lane16_lt (a : VB) (k : Nat) : lane16 a k < 65536 := by
  unfold lane16
  have := (a (2 * k)).toNat_lt; have := (a (2 * k + 1)).toNat_lt
  omega

/-- The part of the unpacking after the byte shuffle. -/
theorem lane16_unpack (w : VB) (k : Nat) :
    lane16 (mm256_and8 (mm256_blend16 w (mm256_srli16 w 4) 0xAA) rejMask) k = if k % 2 = 0 then lane16 w k % 4096 else lane16 w k / 16 % 4096 := by
  have hb : ∀ a : VB, lane16 (mm256_and8 a rejMask) k = lane16 a k % 4096 := by
    intro a
    have m0 : rejMask (2 * k) = 255 := by
      simp only [rejMask, of16]; rw [show (2 * k) % 2 = 0 by omega]; decide
    have m1 : rejMask (2 * k + 1) = 15 := by
      simp only [rejMask, of16]; rw [show (2 * k + 1) % 2 = 1 by omega]; decide
    unfold lane16 mm256_and8
    rw [m0, m1, UInt8.toNat_and, UInt8.toNat_and, show (255 : UInt8).toNat = 2 ^ 8 - 1 from rfl, show (15 : UInt8).toNat = 2 ^ 4 - 1 from rfl, Nat.and_two_pow_sub_one_eq_mod, Nat.and_two_pow_sub_one_eq_mod]
    have := (a (2 * k)).toNat_lt; have := (a (2 * k + 1)).toNat_lt
    omega
  have e1 : 2 * k / 2 = k := by omega
  have e3 : (2 * k + 1) / 2 = k := by omega
  have ht : (0xAA : Nat).testBit (k % 8) = decide (k % 2 = 1) := by
    have : ∀ j, j < 8 → (0xAA : Nat).testBit j = decide (j % 2 = 1) := by decide
    rw [this _ (Nat.mod_lt _ (by omega))]; congr 1; rw [Nat.mod_mod_of_dvd _ (by decide : 2 ∣ 8)]
  have hs : lane16 (mm256_srli16 w 4) k = lane16 w k / 16 := by
    unfold mm256_srli16
    rw [lane16_of16 _ _ (by have := lane16_lt w k; omega)]
  rw [hb]
  have hbl : lane16 (mm256_blend16 w (mm256_srli16 w 4) 0xAA) k = if k % 2 = 0 then lane16 w k else lane16 (mm256_srli16 w 4) k := by
    conv => lhs; unfold lane16 mm256_blend16
    rw [e1, e3, ht]
    by_cases h : k % 2 = 0
    · simp [h, show ¬ (k % 2 = 1) by omega]; rfl
    · simp [h, show k % 2 = 1 by omega]; rfl
  rw [hbl]
  split
  · rfl
  · rw [hs]

theorem lane16_cd {w : VB} {g : Nat → UInt8} {k : Nat} (h0 : w (2 * k) = g (3 * (k / 2) + k % 2)) (h1 : w (2 * k + 1) = g (3 * (k / 2) + k % 2 + 1)) :
    lane16 (mm256_and8 (mm256_blend16 w (mm256_srli16 w 4) 0xAA) rejMask) k = cd g k := by
  rw [lane16_unpack]
  unfold lane16 cd
  rw [h0, h1]
  have q0 := (g (3 * (k / 2) + k % 2)).toNat_lt
  have q1 := (g (3 * (k / 2) + k % 2 + 1)).toNat_lt
  by_cases e : k % 2 = 0
  · rw [if_pos e, if_pos e]; simp only [e, Nat.add_zero] at *; omega
  · have e' : k % 2 = 1 := by omega
    rw [if_neg e, if_neg e]; simp only [e', Nat.add_assoc, Nat.reduceAdd] at *; omega

theorem unpack_lo (v : VB) (k : Nat) (hk : k < 16) : lane16 (rejUnpack v 0x94) k = cd v k := by
  unfold rejUnpack
  apply lane16_cd <;> interval_cases k <;> rfl

theorem unpack_hi (v : VB) (k : Nat) (hk : k < 16) : lane16 (rejUnpack v 0xe9) k = cd (fun j => v (8 + j)) k := by
  unfold rejUnpack
  apply lane16_cd <;> interval_cases k <;> rfl

theorem unpack_128 (v : VB) (k : Nat) (hk : k < 8) :
    lane16 (mm256_and8 (mm256_blend16 (mm256_shuffle8 v rejIdx8) (mm256_srli16 (mm256_shuffle8 v rejIdx8) 4) 0xAA) rejMask) k = cd v k := by
  apply lane16_cd <;> interval_cases k <;> rfl

/-! ## Comparison masks -/

theorem sgn16_small {x : Nat} (h : x < 32768) : sgn16 x = (x : Int) := by unfold sgn16; rw [if_pos h]

theorem cmp_lane (f : VB) (k : Nat) (h : lane16 f k < 4096) : lane16 (mm256_cmpgt16 rejBound f) k = if lane16 f k < 3329 then 65535 else 0 := by
  have e : lane16 rejBound k = 3329 := by unfold rejBound; rw [lane16_of16 _ _ (by omega)]
  unfold mm256_cmpgt16
  rw [lane16_of16]
  · rw [e, sgn16_small (show 3329 < 32768 by omega), sgn16_small (show lane16 f k < 32768 by omega)]
    congr 1
    exact propext (by omega)
  · split <;> omega

theorem sat8_bit (p : Prop) [Decidable p] : decide (128 ≤ (sat8 (sgn16 (if p then 65535 else 0))).toNat) = decide p := by
  by_cases h : p
  · simp only [h, if_true]; decide
  · simp only [h, if_false]; decide

/-- Bit `j` of the mask of the first loop. -/
theorem good32_bit {f0 f1 : VB} {d0 d1 : Nat → Nat} (h0 : ∀ k, k < 16 → lane16 f0 k = d0 k) (h1 : ∀ k, k < 16 → lane16 f1 k = d1 k) (l0 : ∀ k, d0 k < 4096) (l1 : ∀ k, d1 k < 4096)
    (j : Nat) (hj : j < 32) :
    (movemask (mm256_packs16 (mm256_cmpgt16 rejBound f0) (mm256_cmpgt16 rejBound f1)) 32).testBit j =
      decide (if j % 16 < 8 then d0 (8 * (j / 16) + j % 8) < 3329 else d1 (8 * (j / 16) + j % 8) < 3329) := by
  unfold movemask
  rw [(testBit_bitsNat _ _ _).1]
  simp only [hj, decide_true, Bool.true_and]
  unfold mm256_packs16
  have hk : 8 * (j / 16) + j % 8 < 16 := by omega
  by_cases e : j % 16 < 8
  · simp only [e, if_true]
    rw [cmp_lane _ _ (by rw [h0 _ hk]; exact l0 _), sat8_bit, h0 _ hk]
  · simp only [e, if_false]
    rw [cmp_lane _ _ (by rw [h1 _ hk]; exact l1 _), sat8_bit, h1 _ hk]

/-- Bit `k` of the mask of the second loop. -/
theorem good8_bit {f : VB} {d : Nat → Nat} (h : ∀ k, k < 8 → lane16 f k = d k) (l : ∀ k, d k < 4096) (k : Nat) (hk : k < 8) :
    (pext_u32 (movemask (mm256_cmpgt16 rejBound f) 16) 0x5555).testBit k = decide (d k < 3329) := by
  unfold pext_u32
  rw [show ((List.range 32).filter fun i => (0x5555 : Nat).testBit i) = [0, 2, 4, 6, 8, 10, 12, 14] by decide]
  simp only
  rw [(testBit_bitsNat _ _ _).1]
  simp only [List.length_cons, List.length_nil, Nat.zero_add, Nat.reduceAdd, hk, decide_true, Bool.true_and]
  have e : [0, 2, 4, 6, 8, 10, 12, 14].getD k 0 = 2 * k := by interval_cases k <;> rfl
  rw [e]
  unfold movemask
  rw [(testBit_bitsNat _ _ _).1]
  simp only [show 2 * k < 16 by omega, decide_true, Bool.true_and]
  have hl := cmp_lane f k (by rw [h k hk]; exact l k)
  rw [h k hk] at hl
  unfold lane16 at hl
  have q0 := (mm256_cmpgt16 rejBound f (2 * k)).toNat_lt
  have q1 := (mm256_cmpgt16 rejBound f (2 * k + 1)).toNat_lt
  congr 1
  apply propext
  by_cases hd : d k < 3329
  · simp only [hd, if_true] at hl; constructor <;> intro <;> omega
  · simp only [hd, if_false] at hl; constructor <;> intro <;> omega

theorem good8_lt (x : Nat) : pext_u32 x 0x5555 < 256 := by
  unfold pext_u32
  exact (testBit_bitsNat _ _ 0).2

/-! ## The table -/

/-- The positions of the set bits of a byte. -/
def sel (m : Nat) : List Nat := (List.range 8).filter fun i => m.testBit i

theorem sel_lt {m i : Nat} (h : i < (sel m).length) : (sel m).getD i 0 < 8 := by
  have := List.getElem_mem h
  rw [List.getD_eq_getElem?_getD, List.getElem?_eq_getElem h]
  simpa using (List.mem_filter.1 this).1

theorem sel_length (m : Nat) : (sel m).length ≤ 8 := (List.length_filter_le _ _).trans (by simp)

theorem idx_row : ∀ m, m < 256 → ∀ i, i < (sel m).length → (idxList.getD m []).getD i 0 = UInt8.ofNat (2 * (sel m).getD i 0) := by decide +kernel

theorem idx_popcnt : ∀ m, m < 256 → popcnt m = (sel m).length := by decide +kernel

theorem idx_length : idxList.length = 256 := by decide +kernel

theorem loadIdx_spec {m : Nat} (h : m < 256) : Post (loadIdx m) (fun v => ∀ i, i < (sel m).length → v i = UInt8.ofNat (2 * (sel m).getD i 0)) := by
  unfold loadIdx
  simp only [wp_bind, wp_rd, wp_pure]
  refine ⟨idxList.getD m [], (Holds.ofList idxList []).get (by rw [idx_length]; exact h), fun i hi => idx_row m h i hi⟩

/-- The indices are right: they are those of the selected elements, and the number of set bits of `good` is right. -/
structure IdxOK (ix : RejIdx) : Prop where
  h32 : ∀ good s, Post (ix.idx32 good s) (fun v => ∀ i, i < (sel ((good >>> s) &&& 0xFF)).length → v i = UInt8.ofNat (2 * (sel ((good >>> s) &&& 0xFF)).getD i 0))
  h8 : ∀ good, Post (ix.idx8 good) (fun x => popcnt x.2 = popcnt (pext_u32 good 0x5555) ∧
    ∀ i, i < (sel (pext_u32 good 0x5555)).length → x.1 i = UInt8.ofNat (2 * (sel (pext_u32 good 0x5555)).getD i 0))

theorem tableIdx_ok : IdxOK tableIdx where
  h32 good s := loadIdx_spec (byte_lt good s)
  h8 good := by
    unfold tableIdx
    simp only [wp_bind, wp_pure]
    exact (loadIdx_spec (good8_lt good)).mono fun v h => ⟨trivial, h⟩

/-! ### Bit scatter and gather -/

/-- The positions of the set bits of the mask, and how many there are below each position. -/
theorem pdep_bit (src mask i : Nat) : (pdep_u64 src mask).testBit i = (decide (i < 64) && (mask.testBit i && src.testBit ((List.range i).filter fun j => mask.testBit j).length)) :=
  (testBit_bitsNat _ 64 i).1

theorem mask8_bit : ∀ i, i < 64 → (Nat.testBit 0x0101010101010101 i = decide (i % 8 = 0)) ∧ (i % 8 = 0 → ((List.range i).filter fun j => Nat.testBit 0x0101010101010101 j).length = i / 8) := by
  decide +kernel

theorem mask4_bit : ∀ i, i < 64 → (Nat.testBit 0x1111111111111111 i = decide (i % 4 = 0)) ∧ (i % 4 = 0 → ((List.range i).filter fun j => Nat.testBit 0x1111111111111111 j).length = i / 4) := by
  decide +kernel

theorem mask2_bit : ∀ i, i < 16 → Nat.testBit 0x5555 i = decide (i % 2 = 0) := by decide +kernel

theorem pdep8_bit (src i : Nat) : (pdep_u64 src 0x0101010101010101).testBit i = (decide (i < 64) && (decide (i % 8 = 0) && src.testBit (i / 8))) := by
  rw [pdep_bit]
  by_cases h : i < 64
  · obtain ⟨h1, h2⟩ := mask8_bit i h
    rw [h1]
    by_cases h3 : i % 8 = 0
    · rw [h2 h3]
    · simp [h3]
  · simp [h]

theorem pdep4_bit (src i : Nat) : (pdep_u64 src 0x1111111111111111).testBit i = (decide (i < 64) && (decide (i % 4 = 0) && src.testBit (i / 4))) := by
  rw [pdep_bit]
  by_cases h : i < 64
  · obtain ⟨h1, h2⟩ := mask4_bit i h
    rw [h1]
    by_cases h3 : i % 4 = 0
    · rw [h2 h3]
    · simp [h3]
  · simp [h]

theorem pext55_bit (good k : Nat) (hk : k < 8) : (pext_u32 good 0x5555).testBit k = good.testBit (2 * k) := by
  unfold pext_u32
  have e : (List.range 32).filter (fun i => Nat.testBit 0x5555 i) = [0, 2, 4, 6, 8, 10, 12, 14] := by decide +kernel
  simp only [e]
  rw [(testBit_bitsNat _ _ _).1]
  interval_cases k <;> rfl

/-- In the first loop only the lowest byte matters. -/
theorem pdep8_byte (x : Nat) : pdep_u64 x 0x0101010101010101 = pdep_u64 (x &&& 0xFF) 0x0101010101010101 := by
  refine Nat.eq_of_testBit_eq fun i => ?_
  rw [pdep8_bit, pdep8_bit]
  by_cases h : i < 64
  · congr 2
    have := testBit_byte x 0 (i / 8)
    rw [Nat.shiftRight_zero, Nat.zero_add, decide_eq_true (show i / 8 < 8 by omega), Bool.true_and] at this
    exact this.symm
  · simp [h]

/-- In the second loop the eight even bits are scattered in the same way. -/
theorem pdep4_even (good : Nat) : pdep_u64 (good &&& 0x5555) 0x1111111111111111 = pdep_u64 (pext_u32 good 0x5555) 0x0101010101010101 := by
  refine Nat.eq_of_testBit_eq fun i => ?_
  rw [pdep8_bit, pdep4_bit]
  by_cases h : i < 64
  · rw [Nat.testBit_and, mask2_bit (i / 4) (by omega)]
    by_cases h8 : i % 8 = 0
    · rw [pext55_bit good (i / 8) (by omega), decide_eq_true (show i % 4 = 0 by omega), decide_eq_true (show i / 4 % 2 = 0 by omega), decide_eq_true h8, Bool.and_true,
        show i / 4 = 2 * (i / 8) by omega]
    · rw [decide_eq_false h8]
      by_cases h4 : i % 4 = 0
      · rw [decide_eq_false (show ¬ i / 4 % 2 = 0 by omega)]; simp
      · rw [decide_eq_false h4]; simp
  · simp [h]

/-- The gathered indices, for all 256 bytes. -/
theorem bmi_row : ∀ m, m < 256 → ∀ i, i < (sel m).length →
    cvtsi64 (pext_u64 0x0E0C0A0806040200 (sub64 (u64 (pdep_u64 m 0x0101010101010101 <<< 8)) (pdep_u64 m 0x0101010101010101))) i = UInt8.ofNat (2 * (sel m).getD i 0) := by
  decide +kernel

theorem popcnt_even (good : Nat) : popcnt (good &&& 0x5555) = popcnt (pext_u32 good 0x5555) := by
  have h1 : ∀ i, i < 32 → (good &&& 0x5555).testBit i = (decide (i % 2 = 0 ∧ i < 16) && good.testBit i) := fun i hi => by
    rw [Nat.testBit_and, Bool.and_comm]
    congr 1
    revert hi; revert i; decide +kernel
  have h2 : ∀ i, i < 32 → (pext_u32 good 0x5555).testBit i = (decide (i < 8) && good.testBit (2 * i)) := fun i hi => by
    by_cases h : i < 8
    · rw [pext55_bit good i h]; simp [h]
    · rw [Nat.testBit_lt_two_pow (lt_of_lt_of_le (good8_lt good) (Nat.pow_le_pow_right (n := 2) (i := 8) (by decide) (by omega)))]; simp [h]
  unfold popcnt
  rw [List.filter_congr (fun i hi => h1 i (List.mem_range.1 hi)), List.filter_congr (fun i hi => h2 i (List.mem_range.1 hi))]
  generalize hb : (fun i => good.testBit i) = b
  have hb' : ∀ i, good.testBit i = b i := fun i => congrFun hb i
  simp only [hb', List.range, List.range.loop, List.filter, decide_true, decide_false, Bool.true_and, Bool.false_and, Nat.reduceMod, Nat.reduceLT, Nat.reduceMul, and_true, and_false, true_and, false_and,
    Nat.one_ne_zero]
  cases b 0 <;> cases b 2 <;> cases b 4 <;> cases b 6 <;> cases b 8 <;> cases b 10 <;> cases b 12 <;> cases b 14 <;> rfl

theorem bmiIdx_ok : IdxOK bmiIdx where
  h32 good s := by
    unfold bmiIdx
    simp only [wp_pure]
    rw [pdep8_byte]
    exact bmi_row _ (byte_lt good s)
  h8 good := by
    unfold bmiIdx
    simp only [wp_pure]
    rw [pdep4_even]
    exact ⟨popcnt_even good, bmi_row _ (good8_lt good)⟩

/-- The shuffle by a table row moves the selected elements to the front. -/
theorem shuffle_sel {f g : VB} {m o : Nat} {i : Nat} (hi : i < (sel m).length) (ho : o = 0 ∨ o = 8) (h0 : g (2 * o + 2 * i) = UInt8.ofNat (2 * (sel m).getD i 0))
    (h1 : g (2 * o + 2 * i + 1) = UInt8.ofNat (2 * (sel m).getD i 0) + 1) : lane16 (mm256_shuffle8 f g) (o + i) = lane16 f (o + (sel m).getD i 0) := by
  have hs := sel_lt hi
  have hi8 := sel_length m
  generalize (sel m).getD i 0 = s at *
  unfold lane16 mm256_shuffle8
  rw [show 2 * (o + i) = 2 * o + 2 * i by omega, h0, h1]
  have e0 : (UInt8.ofNat (2 * s)).toNat = 2 * s := by rw [UInt8.toNat_ofNat']; omega
  have e1 : (UInt8.ofNat (2 * s) + 1).toNat = 2 * s + 1 := by rw [UInt8.toNat_add, e0]; show (2 * s + 1) % 256 = _; omega
  rw [e0, e1, if_neg (by omega), if_neg (by omega)]
  have a0 : 16 * ((2 * o + 2 * i) / 16) + 2 * s % 16 = 2 * (o + s) := by rcases ho with rfl | rfl <;> omega
  have a1 : 16 * ((2 * o + 2 * i + 1) / 16) + (2 * s + 1) % 16 = 2 * (o + s) + 1 := by rcases ho with rfl | rfl <;> omega
  rw [a0, a1]

/-! ## Loads and stores -/

theorem loadu_spec {b : Buf UInt8} {pos : Nat} {g : Nat → UInt8} (n : Nat) (h : ∀ j, j < n → b[pos + j]? = some (some (g j))) : Post (loadu b pos n) (fun v => ∀ j, j < n → v j = g j) := by
  induction n with
  | zero => simp only [loadu, wp_pure]; intro j hj; omega
  | succ n ih =>
    simp only [loadu, wp_bind]
    refine (ih fun j hj => h j (by omega)).mono ?_
    intro v hv
    simp only [wp_rd, wp_pure]
    refine ⟨g n, h n (by omega), fun j hj => ?_⟩
    by_cases e : j = n
    · simp [e]
    · simp only [e, if_false]; exact hv j (by omega)

theorem storeu128_spec {r : Model.Poly} {o : Nat} {v : VB} (n : Nat) (h : o + n ≤ r.size) : Post (storeu128 r o v n) (fun r' => Written r r' o n (fun k => sgn16 (lane16 v k))) := by
  induction n with
  | zero => simp only [storeu128, wp_pure]; exact Written.refl _ _ _
  | succ n ih =>
    simp only [storeu128, wp_bind]
    refine (ih (by omega)).mono ?_
    intro r' hr
    simp only [wp_wr]
    exact ⟨by rw [hr.1]; omega, hr.push (by omega) rfl rfl⟩

/-- The polynomial buffer holds the list, from cell `o`. -/
def HasAt (r : Model.Poly) (o : Nat) (a : List Nat) : Prop := ∀ i, i < a.length → r[o + i]? = some (some ((a.getD i 0 : Nat) : Int))

theorem HasAt.push {r : Model.Poly} {o : Nat} {a : List Nat} {v : Nat} (h : HasAt r o a) (hs : o + a.length < r.size) :
    HasAt (r.setIfInBounds (o + a.length) (some (v : Int))) o (a ++ [v]) := by
  intro i hi
  simp at hi
  by_cases e : i = a.length
  · subst e
    rw [Array.getElem?_setIfInBounds_self, if_pos hs]; simp [List.getD]
  · rw [Array.getElem?_setIfInBounds_ne (by omega), h i (by omega)]
    simp [List.getD, List.getElem?_append_left (show i < a.length by omega)]

/-- Storing eight elements whose first ones are the accepted candidates appends these to the list. -/
theorem store_acc {r : Model.Poly} {b : List Nat} {v : VB} {d : Nat → Nat} {m o : Nat} (hr : HasAt r o b) (hs : o + b.length + 8 ≤ r.size)
    (hm : ∀ k, k < 8 → m.testBit k = decide (d k < 3329)) (hv : ∀ i, i < (sel m).length → lane16 v i = d ((sel m).getD i 0)) (hd : ∀ k, d k < 4096) :
    Post (storeu128 r (o + b.length) v 8) (fun r' => r'.size = r.size ∧ HasAt r' o (b ++ acc8 d) ∧ ∀ j, (j < o ∨ o + b.length + 8 ≤ j) → r'[j]? = r[j]?) := by
  refine (storeu128_spec 8 (by omega)).mono ?_
  intro r' hw
  refine ⟨hw.1, ?_, fun j hj => hw.2.2 j (by omega)⟩
  have ha : acc8 d = (sel m).map d := by
    unfold acc8 sel
    rw [List.filter_map]
    congr 1
    apply List.filter_congr
    intro k hk
    rw [List.mem_range] at hk
    rw [hm k hk]; rfl
  rw [ha]
  have h8 := sel_length m
  intro i hi
  simp only [List.length_append, List.length_map] at hi
  by_cases h : i < b.length
  · rw [hw.2.2 (o + i) (by omega), hr i h]
    simp [List.getD, List.getElem?_append_left h]
  · obtain ⟨t, rfl⟩ : ∃ t, i = b.length + t := ⟨i - b.length, by omega⟩
    rw [← Nat.add_assoc, hw.2.1 t (by omega)]
    simp only
    rw [hv t (by omega), sgn16_small (by have := hd ((sel m).getD t 0); omega)]
    have ht : t < (sel m).length := by omega
    simp [List.getD, List.getElem?_append_right, ht]

theorem acc8_popcnt {d : Nat → Nat} {m : Nat} (hm : ∀ k, k < 8 → m.testBit k = decide (d k < 3329)) (h : m < 256) : popcnt m = (acc8 d).length := by
  rw [idx_popcnt m h]
  unfold acc8 sel
  rw [List.filter_map, List.length_map]
  congr 1
  apply List.filter_congr
  intro k hk
  rw [List.mem_range] at hk
  rw [hm k hk]; rfl

theorem cd_congr {g g' : Nat → UInt8} {k : Nat} (h : ∀ j, j < 3 * (k / 2) + 3 → g j = g' j) : cd g k = cd g' k := by
  unfold cd
  rw [h _ (by omega), h _ (by omega), h _ (by omega)]

theorem cd_shift (g : Nat → UInt8) (i k : Nat) : cd (fun j => g (12 * i + j)) k = cd g (8 * i + k) := by
  unfold cd
  rw [show 3 * ((8 * i + k) / 2) = 12 * i + 3 * (k / 2) by omega, show (8 * i + k) % 2 = k % 2 by omega]
  simp only [Nat.add_assoc]

/-- Eight consecutive candidates. -/
theorem acc8_shift (L : List UInt8) (pos i : Nat) : (cd fun j => L.getD (pos + 12 * i + j) 0) = fun k => cd (fun j => L.getD (pos + j) 0) (8 * i + k) := by
  funext k
  rw [← cd_shift]
  simp only [Nat.add_assoc]

theorem rejBody32_spec {ix : RejIdx} (hix : IdxOK ix) {r : Model.Poly} {T ro ctr pos : Nat} {b : List Nat} {buf : Buf UInt8} {L : List UInt8} (hT : ro + T ≤ r.size) (hr : HasAt r ro b) (hc : ctr = b.length)
    (hb : b.length + 32 ≤ T) (hp : pos + 48 ≤ L.length) (hbuf : Seg buf 0 L.length (fun i => L.getD i 0)) :
    Post (rejBody32 ix ro buf r ctr pos) (fun x => ∃ b', x.1.size = r.size ∧ HasAt x.1 ro b' ∧ x.2.1 = b'.length ∧ x.2.2 = pos + 48 ∧ b'.length ≤ b.length + 32 ∧
      sN T (L.drop (pos + 48)) b' = sN T (L.drop pos) b ∧ ∀ j, (j < ro ∨ ro + T ≤ j) → x.1[j]? = r[j]?) := by
  have hget : ∀ j, pos + j < L.length → buf[pos + j]? = some (some (L.getD (pos + j) 0)) := fun j hj => by
    have := hbuf.get (i := pos + j) hj; rwa [Nat.zero_add] at this
  unfold rejBody32
  try simp only [wp_bind]
  refine (loadu_spec 32 (g := fun j => L.getD (pos + j) 0) fun j hj => hget j (by omega)).mono ?_
  intro v0 hv0
  try simp only [wp_bind]
  refine (loadu_spec 32 (g := fun j => L.getD (pos + (16 + j)) 0) fun j hj => by rw [Nat.add_assoc]; exact hget _ (by omega)).mono ?_
  intro v1 hv1
  try simp only [wp_bind]
  generalize hD : cd (fun j => L.getD (pos + j) 0) = D
  have hDl : ∀ k, D k < 4096 := fun k => by rw [← hD]; exact cd_lt _ _
  have h0 : ∀ k, k < 16 → lane16 (rejUnpack v0 0x94) k = D k := fun k hk => by
    rw [unpack_lo _ _ hk, ← hD]; exact cd_congr fun j hj => hv0 j (by omega)
  have h1 : ∀ k, k < 16 → lane16 (rejUnpack v1 0xe9) k = D (16 + k) := fun k hk => by
    rw [unpack_hi _ _ hk, ← hD, show 16 + k = 8 * 2 + k by omega, ← cd_shift]
    apply cd_congr
    intro j hj
    rw [hv1 _ (by omega)]
    congr 1; omega
  have hg := good32_bit h0 h1 hDl (fun k => hDl (16 + k))
  generalize rejUnpack v0 0x94 = f0 at *
  generalize rejUnpack v1 0xe9 = f1 at *
  generalize movemask (mm256_packs16 (mm256_cmpgt16 rejBound f0) (mm256_cmpgt16 rejBound f1)) 32 = good at *
  have m0 : ∀ k, k < 8 → ((good >>> 0) &&& 0xFF).testBit k = decide (D (8 * 0 + k) < 3329) := fun k hk => by
    rw [testBit_byte, hg _ (by omega)]; simp only [hk, decide_true, Bool.true_and]
    congr 1; rw [if_pos (by omega)]; congr 2; omega
  have m1 : ∀ k, k < 8 → ((good >>> 16) &&& 0xFF).testBit k = decide (D (8 * 1 + k) < 3329) := fun k hk => by
    rw [testBit_byte, hg _ (by omega)]; simp only [hk, decide_true, Bool.true_and]
    congr 1; rw [if_pos (by omega)]; congr 2; omega
  have m2 : ∀ k, k < 8 → ((good >>> 8) &&& 0xFF).testBit k = decide (D (8 * 2 + k) < 3329) := fun k hk => by
    rw [testBit_byte, hg _ (by omega)]; simp only [hk, decide_true, Bool.true_and]
    congr 1; rw [if_neg (by omega)]; congr 2; omega
  have m3 : ∀ k, k < 8 → ((good >>> 24) &&& 0xFF).testBit k = decide (D (8 * 3 + k) < 3329) := fun k hk => by
    rw [testBit_byte, hg _ (by omega)]; simp only [hk, decide_true, Bool.true_and]
    congr 1; rw [if_neg (by omega)]; congr 2; omega
  have q0 := byte_lt good 0
  have q1 := byte_lt good 16
  have q2 := byte_lt good 8
  have q3 := byte_lt good 24
  have p0 := hix.h32 good 0
  have p1 := hix.h32 good 16
  have p2 := hix.h32 good 8
  have p3 := hix.h32 good 24
  generalize (good >>> 0) &&& 0xFF = n0 at *
  generalize (good >>> 16) &&& 0xFF = n1 at *
  generalize (good >>> 8) &&& 0xFF = n2 at *
  generalize (good >>> 24) &&& 0xFF = n3 at *
  refine p0.mono ?_
  intro i0 hi0
  try simp only [wp_bind]
  refine p2.mono ?_
  intro i1 hi1
  try simp only [wp_bind]
  refine p1.mono ?_
  intro i2 hi2
  try simp only [wp_bind]
  refine p3.mono ?_
  intro i3 hi3
  try simp only [wp_bind]
  have s0 := sel_length n0
  have s1 := sel_length n1
  have s2 := sel_length n2
  have s3 := sel_length n3
  -- the byte indices after the unpacking
  have lo : ∀ (a c : VB) (i : Nat), i < 8 → mm256_unpacklo8 (mm256_halves a c) (mm256_add8 (mm256_halves a c) rejOnes) (2 * 0 + 2 * i) = a i ∧
      mm256_unpacklo8 (mm256_halves a c) (mm256_add8 (mm256_halves a c) rejOnes) (2 * 0 + 2 * i + 1) = a i + 1 := by
    intro a c i hi
    unfold mm256_unpacklo8 mm256_halves mm256_add8 rejOnes
    interval_cases i <;> exact ⟨rfl, rfl⟩
  have hi : ∀ (a c : VB) (i : Nat), i < 8 → mm256_unpacklo8 (mm256_halves a c) (mm256_add8 (mm256_halves a c) rejOnes) (2 * 8 + 2 * i) = c i ∧
      mm256_unpacklo8 (mm256_halves a c) (mm256_add8 (mm256_halves a c) rejOnes) (2 * 8 + 2 * i + 1) = c i + 1 := by
    intro a c i hi
    unfold mm256_unpacklo8 mm256_halves mm256_add8 rejOnes
    interval_cases i <;> exact ⟨rfl, rfl⟩
  have hhi : ∀ (a : VB) (i : Nat), lane16 (mm256_hi a) i = lane16 a (8 + i) := by
    intro a i
    unfold lane16 mm256_hi
    rw [show 16 + 2 * i = 2 * (8 + i) by omega, show 16 + (2 * i + 1) = 2 * (8 + i) + 1 by omega]
  -- first store
  rw [hc]
  refine (store_acc hr (by omega) m0 (fun i h => ?_) (fun k => hDl _)).mono ?_
  · have := shuffle_sel (f := f0) (o := 0) h (Or.inl rfl) ((lo i0 i2 i (by omega)).1.trans (hi0 i h)) ((lo i0 i2 i (by omega)).2.trans (congrArg (· + 1) (hi0 i h)))
    rw [Nat.zero_add] at this
    rw [this, h0 _ (by have := sel_lt h; omega)]
  rintro r1 ⟨z1, hr1, fr1⟩
  have e1 := acc8_popcnt m0 q0
  have a1 := acc8_length (fun k => D (8 * 0 + k))
  try simp only [wp_bind]
  rw [show b.length + popcnt n0 = (b ++ acc8 (fun k => D (8 * 0 + k))).length by rw [List.length_append, e1]]
  refine (store_acc hr1 (by rw [List.length_append]; omega) m1 (fun i h => ?_) (fun k => hDl _)).mono ?_
  · have := shuffle_sel (f := f0) (o := 8) h (Or.inr rfl) ((hi i0 i2 i (by omega)).1.trans (hi2 i h)) ((hi i0 i2 i (by omega)).2.trans (congrArg (· + 1) (hi2 i h)))
    rw [hhi, this, h0 _ (by have := sel_lt h; omega)]
  rintro r2 ⟨z2, hr2, fr2⟩
  have e2 := acc8_popcnt m1 q1
  have a2 := acc8_length (fun k => D (8 * 1 + k))
  try simp only [wp_bind]
  rw [show (b ++ acc8 (fun k => D (8 * 0 + k))).length + popcnt n1 = (b ++ acc8 (fun k => D (8 * 0 + k)) ++ acc8 (fun k => D (8 * 1 + k))).length by rw [List.length_append (bs := acc8 (fun k => D (8 * 1 + k))), e2]]
  refine (store_acc hr2 (by rw [List.length_append, List.length_append]; omega) m2 (fun i h => ?_) (fun k => hDl _)).mono ?_
  · have := shuffle_sel (f := f1) (o := 0) h (Or.inl rfl) ((lo i1 i3 i (by omega)).1.trans (hi1 i h)) ((lo i1 i3 i (by omega)).2.trans (congrArg (· + 1) (hi1 i h)))
    rw [Nat.zero_add, Nat.zero_add] at this
    rw [this, h1 _ (by have := sel_lt h; omega)]
  rintro r3 ⟨z3, hr3, fr3⟩
  have e3 := acc8_popcnt m2 q2
  have a3 := acc8_length (fun k => D (8 * 2 + k))
  try simp only [wp_bind]
  rw [show (b ++ acc8 (fun k => D (8 * 0 + k)) ++ acc8 (fun k => D (8 * 1 + k))).length + popcnt n2 = (b ++ acc8 (fun k => D (8 * 0 + k)) ++ acc8 (fun k => D (8 * 1 + k)) ++ acc8 (fun k => D (8 * 2 + k))).length by rw [List.length_append (bs := acc8 (fun k => D (8 * 2 + k))), e3]]
  refine (store_acc hr3 (by simp only [List.length_append]; omega) m3 (fun i h => ?_) (fun k => hDl _)).mono ?_
  · have := shuffle_sel (f := f1) (o := 8) h (Or.inr rfl) ((hi i1 i3 i (by omega)).1.trans (hi3 i h)) ((hi i1 i3 i (by omega)).2.trans (congrArg (· + 1) (hi3 i h)))
    rw [hhi, this, h1 _ (by have := sel_lt h; omega)]
    congr 1; omega
  rintro r4 ⟨z4, hr4, fr4⟩
  have e4 := acc8_popcnt m3 q3
  have a4 := acc8_length (fun k => D (8 * 3 + k))
  simp only [wp_pure]
  simp only [List.length_append] at fr2 fr3 fr4
  refine ⟨_, by omega, hr4, ?_, trivial, ?_, ?_, fun j hj => ?_⟩
  · simp only [List.length_append, ← e1, ← e2, ← e3, ← e4]
  · simp only [List.length_append]; omega
  · have t0 := acc8_shift L pos 0
    have t1 := acc8_shift L pos 1
    have t2 := acc8_shift L pos 2
    have t3 := acc8_shift L pos 3
    rw [hD] at t0 t1 t2 t3
    simp only [Nat.mul_zero, Nat.mul_one, Nat.reduceMul, Nat.add_zero] at t0 t1 t2 t3 ⊢
    have c0 := sN_chunk (T := T) (L := L) (pos := pos) (b := b) (by omega) (by omega)
    rw [t0] at c0
    simp only [Nat.mul_zero, Nat.mul_one, Nat.reduceMul, Nat.zero_add] at a1 a2 a3 a4 c0 ⊢
    rw [c0, sN_chunk (pos := pos + 12) (by omega) (by rw [List.length_append]; omega), t1, sN_chunk (pos := pos + 12 + 12) (by omega) (by simp only [List.length_append]; omega),
      show pos + 12 + 12 = pos + 24 by omega, t2, sN_chunk (pos := pos + 24 + 12) (by omega) (by simp only [List.length_append]; omega), show pos + 24 + 12 = pos + 36 by omega, t3]
  · rw [fr4 j (by omega), fr3 j (by omega), fr2 j (by omega), fr1 j (by omega)]

theorem rejBody8_spec {ix : RejIdx} (hix : IdxOK ix) {r : Model.Poly} {T ro ctr pos : Nat} {b : List Nat} {buf : Buf UInt8} {L : List UInt8} (hT : ro + T ≤ r.size) (hr : HasAt r ro b) (hc : ctr = b.length)
    (hb : b.length + 8 ≤ T) (hp : pos + 16 ≤ L.length) (hbuf : Seg buf 0 L.length (fun i => L.getD i 0)) :
    Post (rejBody8 ix ro buf r ctr pos) (fun x => ∃ b', x.1.size = r.size ∧ HasAt x.1 ro b' ∧ x.2.1 = b'.length ∧ x.2.2 = pos + 12 ∧ b'.length ≤ b.length + 8 ∧
      sN T (L.drop (pos + 12)) b' = sN T (L.drop pos) b ∧ ∀ j, (j < ro ∨ ro + T ≤ j) → x.1[j]? = r[j]?) := by
  have hget : ∀ j, pos + j < L.length → buf[pos + j]? = some (some (L.getD (pos + j) 0)) := fun j hj => by
    have := hbuf.get (i := pos + j) hj; rwa [Nat.zero_add] at this
  unfold rejBody8
  simp only [wp_bind]
  refine (loadu_spec 16 (g := fun j => L.getD (pos + j) 0) fun j hj => hget j (by omega)).mono ?_
  intro v hv
  try simp only [wp_bind]
  generalize hD : cd (fun j => L.getD (pos + j) 0) = D
  have hDl : ∀ k, D k < 4096 := fun k => by rw [← hD]; exact cd_lt _ _
  have h0 : ∀ k, k < 8 → lane16 (mm256_and8 (mm256_blend16 (mm256_shuffle8 v rejIdx8) (mm256_srli16 (mm256_shuffle8 v rejIdx8) 4) 0xAA) rejMask) k = D k := fun k hk => by
    rw [unpack_128 _ _ hk, ← hD]; exact cd_congr fun j hj => hv j (by omega)
  have hg := good8_bit h0 hDl
  generalize mm256_and8 (mm256_blend16 (mm256_shuffle8 v rejIdx8) (mm256_srli16 (mm256_shuffle8 v rejIdx8) 4) 0xAA) rejMask = f at *
  have q := good8_lt (movemask (mm256_cmpgt16 rejBound f) 16)
  have p := hix.h8 (movemask (mm256_cmpgt16 rejBound f) 16)
  generalize pext_u32 (movemask (mm256_cmpgt16 rejBound f) 16) 0x5555 = good at *
  refine p.mono ?_
  rintro ⟨i0, good'⟩ ⟨hpop, hi0⟩
  simp only at hpop hi0
  try simp only [wp_bind]
  have s0 := sel_length good
  have lo : ∀ (a : VB) (i : Nat), i < 8 → mm256_unpacklo8 a (mm256_add8 a rejOnes) (2 * 0 + 2 * i) = a i ∧ mm256_unpacklo8 a (mm256_add8 a rejOnes) (2 * 0 + 2 * i + 1) = a i + 1 := by
    intro a i hi
    unfold mm256_unpacklo8 mm256_add8 rejOnes
    interval_cases i <;> exact ⟨rfl, rfl⟩
  rw [hc]
  refine (store_acc hr (by omega) hg (fun i h => ?_) hDl).mono ?_
  · have := shuffle_sel (f := f) (o := 0) h (Or.inl rfl) ((lo i0 i (by omega)).1.trans (hi0 i h)) ((lo i0 i (by omega)).2.trans (congrArg (· + 1) (hi0 i h)))
    rw [Nat.zero_add, Nat.zero_add] at this
    rw [this, h0 _ (by have := sel_lt h; omega)]
  rintro r1 ⟨z1, hr1, fr1⟩
  have e1 := acc8_popcnt hg q
  have a1 := acc8_length D
  simp only [wp_pure]
  refine ⟨_, z1, hr1, ?_, trivial, ?_, ?_, fun j hj => fr1 j (by omega)⟩
  · rw [List.length_append, ← e1, hpop]
  · rw [List.length_append]; omega
  · rw [sN_chunk (pos := pos) (by omega) (by omega), hD]

theorem rejBody2_spec {r : Model.Poly} {T ro ctr pos : Nat} {b : List Nat} {buf : Buf UInt8} {L : List UInt8} (hT : ro + T ≤ r.size) (hr : HasAt r ro b) (hc : ctr = b.length)
    (hTe : T = 256) (hb : b.length < T) (hp : pos + 3 ≤ L.length) (hbuf : Seg buf 0 L.length (fun i => L.getD i 0)) :
    Post (rejBody2 ro buf r ctr pos) (fun x => ∃ b', x.1.size = r.size ∧ HasAt x.1 ro b' ∧ x.2.1 = b'.length ∧ x.2.2 = pos + 3 ∧ b'.length ≤ T ∧
      sN T (L.drop (pos + 3)) b' = sN T (L.drop pos) b ∧ ∀ j, (j < ro ∨ ro + T ≤ j) → x.1[j]? = r[j]?) := by
  have g : ∀ k, k < 3 → buf[pos + k]? = some (some (L.getD (pos + k) 0)) := fun k hk => by
    have := hbuf.get (i := pos + k) (by omega); rwa [Nat.zero_add] at this
  have v1 : ∀ c1 c2 : UInt8, (c1.toNat >>> 4) ||| (c2.toNat <<< 4) = c1.toNat / 16 + 16 * c2.toNat := by
    intro c1 c2
    have h0 := c1.toNat_lt
    have : c1.toNat >>> 4 = c1.toNat / 16 := Nat.shiftRight_eq_div_pow _ _
    rw [this, Nat.or_comm, ← Nat.shiftLeft_add_eq_or_of_lt (show c1.toNat / 16 < 2 ^ 4 by omega), Nat.shiftLeft_eq]
    omega
  unfold rejBody2
  simp only [wp_bind, wp_rd]
  refine ⟨_, g 0 (by omega), _, g 1 (by omega), _, g 1 (by omega), _, g 2 (by omega), ?_⟩
  rw [val0_eq, v1]
  have hd := drop_chunk 0 L 3 pos hp
  have hd' : L.drop pos = L.getD (pos + 0) 0 :: L.getD (pos + 1) 0 :: L.getD (pos + 2) 0 :: L.drop (pos + 3) := hd
  rw [hd', sN, if_pos hb]
  generalize L.getD (pos + 0) 0 = c0 at *
  generalize L.getD (pos + 1) 0 = c1 at *
  generalize L.getD (pos + 2) 0 = c2 at *
  have hsz : ro + b.length < r.size := by omega
  simp only [wp_branch, wp_bind, wp_wr, wp_pure, wp_andM, decide_eq_true_eq, decide_eq_false_iff_not, Bool.and_eq_true, Bool.and_eq_false_iff]
  unfold sStep
  simp only [cand]
  rw [hc]
  refine ⟨fun h1 => ⟨hsz, ?_⟩, fun h1 => ?_⟩
  · simp only [h1, if_true]
    have hp1 := hr.push (v := c0.toNat + 256 * (c1.toNat % 16)) hsz
    have hl1 : (b ++ [c0.toNat + 256 * (c1.toNat % 16)]).length = b.length + 1 := by simp
    rw [hl1]
    refine ⟨fun h2 => ?_, fun h2 => ?_⟩
    · rw [if_pos ⟨h2.1, by omega⟩]
      refine ⟨by simp; omega, _, ?_, ?_, ?_, trivial, ?_, rfl, ?_⟩
      · simp
      · rw [show b.length + 1 = (b ++ [c0.toNat + 256 * (c1.toNat % 16)]).length by rw [hl1]]
        exact hp1.push (by first | omega | (simp; omega))
      · simp
      · simp; omega
      · intro j hj
        rw [Array.getElem?_setIfInBounds_ne (by omega), Array.getElem?_setIfInBounds_ne (by omega)]
    · rw [if_neg (by omega)]
      refine ⟨_, by simp, hp1, by rw [hl1], trivial, by rw [hl1]; omega, rfl, fun j hj => ?_⟩
      rw [Array.getElem?_setIfInBounds_ne (by omega)]
  · simp only [h1, if_false]
    refine ⟨fun h2 => ?_, fun h2 => ?_⟩
    · rw [if_pos ⟨h2.1, by omega⟩]
      refine ⟨by omega, _, by simp, hr.push hsz, by simp, trivial, by simp; omega, rfl, fun j hj => ?_⟩
      rw [Array.getElem?_setIfInBounds_ne (by omega)]
    · rw [if_neg (by omega)]
      exact ⟨b, trivial, hr, rfl, trivial, by omega, rfl, fun _ _ => trivial⟩

theorem BUFLEN_eq : REJ_UNIFORM_AVX_BUFLEN = 504 := by decide

/-- `rej_uniform_avx2` runs the sampling loop on the bytes of the buffer. -/
theorem rej_uniform_avx2_spec {ix : RejIdx} (hix : IdxOK ix) {r : Model.Poly} {T ro : Nat} {buf : Buf UInt8} {L : List UInt8} (hT : ro + T ≤ r.size) (hTa : T = 256)
    (hL : L.length = 504) (hb : Seg buf 0 L.length (fun i => L.getD i 0)) :
    Post (rej_uniform_avx2_with ix r ro buf) (fun x => x.1.size = r.size ∧ HasAt x.1 ro (sN T L []) ∧ x.2 = (sN T L []).length ∧
      ∀ j, (j < ro ∨ ro + T ≤ j) → x.1[j]? = r[j]?) := by
  unfold rej_uniform_avx2_with
  simp only [wp_bind]
  rw [BUFLEN_eq]
  let I : Model.Poly × Nat × Nat → Prop := fun s => ∃ b : List Nat, s.2.1 = b.length ∧ b.length ≤ T ∧ s.2.2 ≤ 504 ∧ s.2.2 % 3 = 0 ∧ s.1.size = r.size ∧ HasAt s.1 ro b ∧
      sN T (L.drop s.2.2) b = sN T L [] ∧ ∀ j, (j < ro ∨ ro + T ≤ j) → s.1[j]? = r[j]?
  have hI0 : I (r, 0, 0) := ⟨[], rfl, by simp, by simp, rfl, rfl, fun i hi => by simp at hi, by simp, fun _ _ => rfl⟩
  have fuel : ∀ s : Model.Poly × Nat × Nat, I s → 504 - s.2.2 ≤ 504 := fun s _ => by omega
  refine wp_while I (fun s => 504 - s.2.2) (fun s => decide (s.2.1 ≤ 256 - 32) && decide (s.2.2 ≤ 504 - 48)) hI0 (by simp) ?_ ?_ ?_
  · rintro ⟨r', ctr, pos⟩ _
    simp only [wp_andM]
  · rintro ⟨r', ctr, pos⟩ ⟨b, e, hbl, hp, h3, hs, hl, hsn, hfr⟩ hC
    simp only [Bool.and_eq_true, decide_eq_true_eq] at hC e hp h3 hs hl hsn hfr
    refine ⟨by simp only; omega, ?_⟩
    refine (rejBody32_spec hix (T := T) (L := L) (pos := pos) (by omega) hl e (by omega) (by omega) hb).mono ?_
    rintro ⟨r1, c1, p1⟩ ⟨b', z1, z2, z3, z4, z5, z6, z7⟩
    simp only at z1 z2 z3 z4 z5 z6 z7
    subst z4
    exact ⟨⟨b', z3, by omega, by simp only; omega, by simp only; omega, by simp only; omega, z2, z6.trans hsn, fun j hj => (z7 j hj).trans (hfr j hj)⟩, by simp only; omega⟩
  · intro s hI _
    try simp only [wp_bind]
    refine wp_while I (fun s => 504 - s.2.2) (fun s => decide (s.2.1 ≤ 256 - 8) && decide (s.2.2 ≤ 504 - 24)) hI (fuel s hI) ?_ ?_ ?_
    · rintro ⟨r', ctr, pos⟩ _
      simp only [wp_andM]
    · rintro ⟨r', ctr, pos⟩ ⟨b, e, hbl, hp, h3, hs, hl, hsn, hfr⟩ hC
      simp only [Bool.and_eq_true, decide_eq_true_eq] at hC e hp h3 hs hl hsn hfr
      refine ⟨by simp only; omega, ?_⟩
      refine (rejBody8_spec hix (T := T) (L := L) (pos := pos) (by omega) hl e (by omega) (by omega) hb).mono ?_
      rintro ⟨r1, c1, p1⟩ ⟨b', z1, z2, z3, z4, z5, z6, z7⟩
      simp only at z1 z2 z3 z4 z5 z6 z7
      subst z4
      exact ⟨⟨b', z3, by omega, by simp only; omega, by simp only; omega, by simp only; omega, z2, z6.trans hsn, fun j hj => (z7 j hj).trans (hfr j hj)⟩, by simp only; omega⟩
    · intro s hI _
      try simp only [wp_bind]
      refine wp_while I (fun s => 504 - s.2.2) (fun s => decide (s.2.1 < 256) && decide (s.2.2 ≤ 504 - 3)) hI (fuel s hI) ?_ ?_ ?_
      · rintro ⟨r', ctr, pos⟩ _
        simp only [wp_andM]
      · rintro ⟨r', ctr, pos⟩ ⟨b, e, hbl, hp, h3, hs, hl, hsn, hfr⟩ hC
        simp only [Bool.and_eq_true, decide_eq_true_eq] at hC e hp h3 hs hl hsn hfr
        refine ⟨by simp only; omega, ?_⟩
        refine (rejBody2_spec (T := T) (L := L) (pos := pos) (by omega) hl e hTa (by omega) (by omega) hb).mono ?_
        rintro ⟨r1, c1, p1⟩ ⟨b', z1, z2, z3, z4, z5, z6, z7⟩
        simp only at z1 z2 z3 z4 z5 z6 z7
        subst z4
        exact ⟨⟨b', z3, by omega, by simp only; omega, by simp only; omega, by simp only; omega, z2, z6.trans hsn, fun j hj => (z7 j hj).trans (hfr j hj)⟩, by simp only; omega⟩
      · rintro ⟨r', ctr, pos⟩ ⟨b, e, hbl, hp, h3, hs, hl, hsn, hfr⟩ hC
        simp only [Bool.and_eq_false_iff, decide_eq_false_iff_not] at hC e hp h3 hs hl hsn hfr
        simp only [wp_pure]
        have : sN T (L.drop pos) b = b := by
          rcases hC with h | h
          · exact sN_full (by omega)
          · exact sN_short (by simp; omega)
        rw [this] at hsn
        subst hsn
        exact ⟨hs, hl, e, hfr⟩

theorem wp_orM {a b : Bool} {Q : Bool → Prop} : PostF F (orM a b) Q ↔ Q (a || b) := by
  unfold orM; cases a <;> simp

theorem sN_prepend {T : Nat} {L : List UInt8} (a b : List Nat) : sN (a.length + T) L (a ++ b) = a ++ sN T L b := by
  induction L, b using sN.induct (T := T) with
  | case1 c0 c1 c2 rest b hl ih =>
    rw [sN, if_pos (by rw [List.length_append]; omega), sN, if_pos hl, ← ih]
    congr 1
    unfold sStep
    by_cases h1 : (cand c0 c1 c2).1 < 3329 <;> simp only [h1, if_true, if_false]
    · by_cases h2 : (cand c0 c1 c2).2 < 3329 ∧ b.length + 1 < T
      · rw [if_pos (by simpa [Nat.add_assoc] using h2), if_pos (by simpa using h2)]; simp
      · rw [if_neg (by simpa [Nat.add_assoc] using h2), if_neg (by simpa using h2)]; simp
    · by_cases h2 : (cand c0 c1 c2).2 < 3329 ∧ b.length < T
      · rw [if_pos (by simpa using h2), if_pos (by simpa using h2)]; simp
      · rw [if_neg (by simpa using h2), if_neg (by simpa using h2)]
  | case2 c0 c1 c2 rest b hl => rw [sN_full (by rw [List.length_append]; omega), sN_full (by omega)]
  | case3 L b hl =>
    match L, hl with
    | [], _ => rfl
    | [_], _ => rfl
    | [_, _], _ => rfl
    | _ :: _ :: _ :: _, hl => exact (hl _ _ _ _ rfl).elim

/-- The x86_64 sampler meets the specification of the portable one. -/
theorem rej_uniform_x86_with_spec {ix : RejIdx} (hix : IdxOK ix) {r : Model.Poly} {T : Nat} {a : List Nat} {buf : Buf UInt8} {L : List UInt8} (hT : T ≤ r.size) (hT32 : T < 2 ^ 32) (hL : L.length + 3 < 2 ^ 32) (ha : a.length ≤ T) (hr : HasList r a)
    (hb : Seg buf 0 L.length (fun i => L.getD i 0)) :
    Post (rej_uniform_x86_with (rej_uniform_native_with (rej_uniform_avx2_with ix)) r T a.length buf L.length) (fun x => x.1.size = r.size ∧ HasList x.1 (sN T L a) ∧ x.2 = (sN T L a).length ∧
      ∀ j, T ≤ j → x.1[j]? = r[j]?) := by
  unfold rej_uniform_x86_with rej_uniform_native_with
  simp only [wp_bind, wp_orM, wp_branch, BUFLEN_eq, Bool.or_eq_true, Bool.or_eq_false_iff, decide_eq_true_eq, decide_eq_false_iff_not, wp_pure]
  have e : sub32 T a.length = T - a.length := by unfold sub32 u32; omega
  rw [e]
  refine ⟨fun _ => ⟨fun h => by simp at h, fun _ => rej_uniform_spec hT hT32 hL ha hr hb⟩, fun h => ?_⟩
  have hTa : T = a.length + 256 := by omega
  refine (rej_uniform_avx2_spec hix (T := 256) (by omega) rfl (by omega) hb).mono ?_
  rintro ⟨r', c⟩ ⟨h1, h2, h3, h4⟩
  simp only at h1 h2 h3 h4
  have ep : sN T L a = a ++ sN 256 L [] := by rw [hTa]; simpa using sN_prepend (L := L) (T := 256) a []
  have g : HasList r' (sN T L a) := by
    rw [ep]
    intro i hi
    simp only [List.length_append] at hi
    by_cases h : i < a.length
    · rw [h4 i (by omega), hr i h]; simp [List.getD, List.getElem?_append_left h]
    · obtain ⟨t, rfl⟩ : ∃ t, i = a.length + t := ⟨i - a.length, by omega⟩
      rw [h2 t (by omega)]; simp [List.getD, List.getElem?_append_right]
  exact ⟨fun _ => ⟨h1, g, by rw [ep, h3]; simp, fun j hj => h4 j (by omega)⟩, fun h => by simp at h⟩

theorem rej_uniform_x86_spec {r : Model.Poly} {T : Nat} {a : List Nat} {buf : Buf UInt8} {L : List UInt8} (hT : T ≤ r.size) (hT32 : T < 2 ^ 32) (hL : L.length + 3 < 2 ^ 32) (ha : a.length ≤ T) (hr : HasList r a)
    (hb : Seg buf 0 L.length (fun i => L.getD i 0)) :
    Post (rej_uniform_x86 r T a.length buf L.length) (fun x => x.1.size = r.size ∧ HasList x.1 (sN T L a) ∧ x.2 = (sN T L a).length ∧
      ∀ j, T ≤ j → x.1[j]? = r[j]?) := rej_uniform_x86_with_spec tableIdx_ok hT hT32 hL ha hr hb

theorem rej_uniform_x86_bmi_spec {r : Model.Poly} {T : Nat} {a : List Nat} {buf : Buf UInt8} {L : List UInt8} (hT : T ≤ r.size) (hT32 : T < 2 ^ 32) (hL : L.length + 3 < 2 ^ 32) (ha : a.length ≤ T) (hr : HasList r a)
    (hb : Seg buf 0 L.length (fun i => L.getD i 0)) :
    Post (rej_uniform_x86_bmi r T a.length buf L.length) (fun x => x.1.size = r.size ∧ HasList x.1 (sN T L a) ∧ x.2 = (sN T L a).length ∧
      ∀ j, T ≤ j → x.1[j]? = r[j]?) := rej_uniform_x86_with_spec bmiIdx_ok hT hT32 hL ha hr hb

end Verif

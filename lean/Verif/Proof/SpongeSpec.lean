import Verif.Proof.Keccak
/-! # The sponge construction at byte level, against FIPS 202 -/
namespace Verif
open Model Spec

attribute [local irreducible] keccakF

/-- The all-zero state. -/
def zeroK : KState := fun _ _ _ => false

theorem stateBit_zeroK (k : Nat) : stateBit zeroK k = false := rfl

/-- The state after absorbing `q` whole blocks of `rb` bytes of `B`. -/
def blocksK (rb : Nat) (B : Nat → UInt8) (q : Nat) : KState :=
  (List.range q).foldl (fun S i => keccakF (xorK S 0 rb (fun j => B (i * rb + j)))) zeroK

theorem blocksK_succ (rb : Nat) (B : Nat → UInt8) (q : Nat) :
    blocksK rb B (q + 1) = keccakF (xorK (blocksK rb B q) 0 rb (fun j => B (q * rb + j))) := by
  unfold blocksK; rw [List.range_succ, List.foldl_append]; rfl

theorem xorK_congr {S : KState} {off len : Nat} {B B' : Nat → UInt8} (h : ∀ j, j < len → B j = B' j) : xorK S off len B = xorK S off len B' := by
  apply kstate_ext
  intro k hk
  rw [stateBit_xorK _ _ _ _ hk, stateBit_xorK _ _ _ _ hk]
  by_cases hc : 8 * off ≤ k ∧ k < 8 * (off + len)
  · unfold fbit; rw [h ((k - 8 * off) / 8) (by omega)]
  · rw [decide_eq_false hc]; simp

theorem foldG_congr (F : KState → KState) {rb : Nat} {B B' : Nat → UInt8} {q : Nat} (h : ∀ j, j < q * rb → B j = B' j) :
    (List.range q).foldl (fun S i => F (xorK S 0 rb (fun j => B (i * rb + j)))) zeroK =
      (List.range q).foldl (fun S i => F (xorK S 0 rb (fun j => B' (i * rb + j)))) zeroK := by
  induction q with
  | zero => rfl
  | succ q ih =>
    rw [Nat.succ_mul] at h
    rw [List.range_succ, List.foldl_append, List.foldl_append, ih fun j hj => h j (by omega)]
    exact congrArg F (xorK_congr fun j hj => h _ (by omega))

theorem blocksK_congr {rb : Nat} {B B' : Nat → UInt8} {q : Nat} (h : ∀ j, j < q * rb → B j = B' j) : blocksK rb B q = blocksK rb B' q :=
  foldG_congr keccakF h

/-- The state after absorbing the first `n` bytes of `B`, the last incomplete block without permutation. -/
def partialK (rb : Nat) (B : Nat → UInt8) (n : Nat) : KState :=
  xorK (blocksK rb B (n / rb)) 0 (n % rb) (fun j => B (n / rb * rb + j))

theorem partialK_congr {rb : Nat} {B B' : Nat → UInt8} {n : Nat} (h : ∀ j, j < n → B j = B' j) : partialK rb B n = partialK rb B' n := by
  unfold partialK
  have hd := Nat.div_add_mod n rb
  rw [Nat.mul_comm] at hd
  rw [blocksK_congr fun j hj => h j (by omega)]
  exact xorK_congr fun j hj => h _ (by omega)

theorem fbit_add {B : Nat → UInt8} {k n : Nat} : fbit (fun j => B (k + j)) n = fbit B (8 * k + n) := by
  unfold fbit
  rw [Nat.mul_add_div (by omega), Nat.mul_add_mod]

theorem xorK_append (S : KState) (a b : Nat) (C : Nat → UInt8) : xorK (xorK S 0 a C) a b (fun j => C (a + j)) = xorK S 0 (a + b) C := by
  apply kstate_ext
  intro k hk
  rw [stateBit_xorK _ _ _ _ hk, stateBit_xorK _ _ _ _ hk, stateBit_xorK _ _ _ _ hk, Bool.xor_assoc]
  congr 1
  by_cases h1 : k < 8 * a
  · rw [decide_eq_true (show 8 * 0 ≤ k ∧ k < 8 * (0 + a) by omega), decide_eq_false (show ¬(8 * a ≤ k ∧ k < 8 * (a + b)) by omega),
      decide_eq_true (show 8 * 0 ≤ k ∧ k < 8 * (0 + (a + b)) by omega)]
    simp
  · rw [decide_eq_false (show ¬(8 * 0 ≤ k ∧ k < 8 * (0 + a)) by omega)]
    by_cases h2 : k < 8 * (a + b)
    · rw [decide_eq_true (show 8 * a ≤ k ∧ k < 8 * (a + b) by omega), decide_eq_true (show 8 * 0 ≤ k ∧ k < 8 * (0 + (a + b)) by omega), fbit_add]
      simp
      congr 1; omega
    · rw [decide_eq_false (show ¬(8 * a ≤ k ∧ k < 8 * (a + b)) by omega), decide_eq_false (show ¬(8 * 0 ≤ k ∧ k < 8 * (0 + (a + b))) by omega)]
      simp

theorem partialK_add {rb : Nat} (B : Nat → UInt8) {n len : Nat} (h : n % rb + len < rb) :
    xorK (partialK rb B n) (n % rb) len (fun j => B (n + j)) = partialK rb B (n + len) := by
  have hd := Nat.div_add_mod n rb
  have hq : (n + len) / rb = n / rb := by
    have : n + len = rb * (n / rb) + (n % rb + len) := by omega
    rw [this, Nat.mul_add_div (by omega), Nat.div_eq_of_lt h, Nat.add_zero]
  have hm : (n + len) % rb = n % rb + len := by
    conv_lhs => rw [← hd]
    rw [Nat.add_assoc, Nat.mul_add_mod, Nat.mod_eq_of_lt h]
  unfold partialK
  rw [hq, hm, ← xorK_append]
  congr 1
  funext j
  congr 1
  rw [← Nat.add_assoc, Nat.mul_comm, hd]

theorem partialK_block {rb : Nat} (hrb : 0 < rb) (B : Nat → UInt8) (n : Nat) :
    keccakF (xorK (partialK rb B n) (n % rb) (rb - n % rb) (fun j => B (n + j))) = partialK rb B (n + (rb - n % rb)) := by
  have hd := Nat.div_add_mod n rb
  have hlt := Nat.mod_lt n hrb
  have he : n + (rb - n % rb) = (n / rb + 1) * rb := by rw [Nat.succ_mul, Nat.mul_comm]; omega
  unfold partialK
  rw [he, Nat.mul_div_cancel _ hrb, Nat.mul_mod_left, xorK_zero, blocksK_succ]
  congr 1
  have := xorK_append (blocksK rb B (n / rb)) (n % rb) (rb - n % rb) (fun j => B (n / rb * rb + j))
  rw [show n % rb + (rb - n % rb) = rb by omega] at this
  rw [← this]
  congr 1
  funext j
  congr 1
  rw [← Nat.add_assoc, Nat.mul_comm, hd]

/-- The state after padding with domain separation byte `p`, before the last permutation. -/
def finK (rb : Nat) (B : Nat → UInt8) (n : Nat) (p : UInt8) : KState :=
  xorK (xorK (partialK rb B n) (n % rb) 1 (fun _ => p)) (rb - 1) 1 (fun _ => 128)

theorem xorK_or (S : KState) (o : Nat) (p : UInt8) (hp : p.toNat < 128) : xorK S o 1 (fun _ => p ||| 128) = xorK (xorK S o 1 (fun _ => p)) o 1 (fun _ => 128) := by
  apply kstate_ext
  intro k hk
  rw [stateBit_xorK _ _ _ _ hk, stateBit_xorK _ _ _ _ hk, stateBit_xorK _ _ _ _ hk, Bool.xor_assoc]
  congr 1
  by_cases hc : 8 * o ≤ k ∧ k < 8 * (o + 1)
  · rw [decide_eq_true hc]
    unfold fbit
    simp only [Bool.true_and, UInt8.toNat_or, Nat.testBit_or]
    generalize (k - 8 * o) % 8 = t
    rw [show UInt8.toNat 128 = 2 ^ 7 from rfl, Nat.testBit_two_pow]
    by_cases ht : 7 = t
    · rw [testBit_of_lt (n := 7) hp (by omega)]; simp
    · simp [ht]
  · rw [decide_eq_false hc]; simp

/-- A suffix and the domain separation byte carrying it and the first padding bit. -/
structure SepOK (suffix : List Bool) (p : UInt8) : Prop where
  len : suffix.length ≤ 6
  lt : p.toNat < 128
  bits : ∀ t, t < 8 → p.toNat.testBit t = (suffix ++ [true]).getD t false

theorem sepOK_shake : SepOK [true, true, true, true] 0x1F := ⟨by decide, by decide, by decide⟩
theorem sepOK_sha3 : SepOK [false, true] 0x06 := ⟨by decide, by decide, by decide⟩

theorem bitsOf_getD (M : List UInt8) (k : Nat) : (bitsOf M).getD k false = (decide (k < 8 * M.length) && bitAt M k) := by
  unfold bitsOf
  by_cases h : k < 8 * M.length
  · simp [List.getD, h]
  · simp [List.getD, h]

theorem length_bitsOf (M : List UInt8) : (bitsOf M).length = 8 * M.length := by simp [bitsOf]

theorem getD_append {α : Type} (l l' : List α) (d : α) (k : Nat) : (l ++ l').getD k d = if k < l.length then l.getD k d else l'.getD (k - l.length) d := by
  simp only [List.getD_eq_getElem?_getD]
  split <;> rename_i h
  · rw [List.getElem?_append_left h]
  · rw [List.getElem?_append_right (by omega)]

theorem getD_replicate_false (n k : Nat) : (List.replicate n false).getD k false = false := by
  rw [List.getD_eq_getElem?_getD, List.getElem?_replicate]
  split <;> rfl

theorem getD_of_ge {l : List Bool} {k : Nat} (h : l.length ≤ k) : l.getD k false = false := by
  rw [List.getD_eq_getElem?_getD, List.getElem?_eq_none h]; rfl

section
variable {rb : Nat} (hrb : 0 < rb) (M : List UInt8) {suffix : List Bool} {p : UInt8}

include hrb in
theorem pad_amount (hs : suffix.length ≤ 6) :
    (8 * rb - (8 * M.length + suffix.length + 2) % (8 * rb)) % (8 * rb) = 8 * rb - (8 * (M.length % rb) + suffix.length + 2) := by
  have hd := Nat.div_add_mod M.length rb
  have hlt := Nat.mod_lt M.length hrb
  have hm : (8 * M.length + suffix.length + 2) % (8 * rb) = 8 * (M.length % rb) + suffix.length + 2 ∨ (8 * (M.length % rb) + suffix.length + 2 = 8 * rb ∧ (8 * M.length + suffix.length + 2) % (8 * rb) = 0) := by
    have e : 8 * M.length + suffix.length + 2 = 8 * rb * (M.length / rb) + (8 * (M.length % rb) + suffix.length + 2) := by
      conv_lhs => rw [← hd]
      rw [Nat.mul_add, Nat.mul_assoc]; omega
    rw [e, Nat.mul_add_mod]
    by_cases h : 8 * (M.length % rb) + suffix.length + 2 = 8 * rb
    · right; exact ⟨h, by rw [h, Nat.mod_self]⟩
    · left; exact Nat.mod_eq_of_lt (by omega)
  rcases hm with h | ⟨h1, h2⟩
  · rw [h, Nat.mod_eq_of_lt (by omega)]
  · rw [h2, h1]; simp

include hrb in
theorem padded_length (hs : suffix.length ≤ 6) :
    (bitsOf M ++ suffix ++ pad101 (8 * rb) (bitsOf M ++ suffix).length).length = (M.length / rb + 1) * (8 * rb) := by
  have hd := Nat.div_add_mod M.length rb
  have hlt := Nat.mod_lt M.length hrb
  unfold pad101
  simp only [List.length_append, List.length_cons, List.length_replicate, length_bitsOf, List.length_nil]
  have hE : (M.length / rb + 1) * (8 * rb) = 8 * (rb * (M.length / rb)) + 8 * rb := by
    rw [Nat.add_mul, show M.length / rb * (8 * rb) = 8 * (rb * (M.length / rb)) by rw [Nat.mul_left_comm, Nat.mul_comm (M.length / rb)]]; omega
  rw [pad_amount hrb M hs, hE]
  omega

include hrb in
/-- The bits of the padded message. -/
theorem padded_bit (hsep : SepOK suffix p) {k : Nat} (hk : k < (M.length / rb + 1) * (8 * rb)) :
    (bitsOf M ++ suffix ++ pad101 (8 * rb) (bitsOf M ++ suffix).length).getD k false =
      ((decide (k < 8 * M.length) && bitAt M k) ^^ ((decide (8 * M.length ≤ k ∧ k < 8 * M.length + 8) && p.toNat.testBit (k - 8 * M.length)) ^^
        decide (k + 1 = (M.length / rb + 1) * (8 * rb)))) := by
  have hd := Nat.div_add_mod M.length rb
  have hlt := Nat.mod_lt M.length hrb
  have hE : (M.length / rb + 1) * (8 * rb) = 8 * (rb * (M.length / rb)) + 8 * rb := by
    rw [Nat.succ_mul, show M.length / rb * (8 * rb) = 8 * (rb * (M.length / rb)) by rw [Nat.mul_left_comm, Nat.mul_comm (M.length / rb)]]
  rw [hE] at hk ⊢
  have hlen : (bitsOf M ++ suffix).length = 8 * M.length + suffix.length := by rw [List.length_append, length_bitsOf]
  have hs := hsep.len
  unfold pad101
  rw [hlen, pad_amount hrb M hs, getD_append, hlen]
  have hb := hsep.bits
  by_cases h1 : k < 8 * M.length
  · rw [if_pos (by omega), getD_append, length_bitsOf, if_pos h1, bitsOf_getD]
    rw [decide_eq_false (show ¬(8 * M.length ≤ k ∧ k < 8 * M.length + 8) by omega), decide_eq_false (show ¬(k + 1 = 8 * (rb * (M.length / rb)) + 8 * rb) by omega)]
    simp
  · rw [decide_eq_false h1]
    by_cases h2 : k < 8 * M.length + suffix.length
    · rw [if_pos h2, getD_append, length_bitsOf, if_neg h1, decide_eq_true (show 8 * M.length ≤ k ∧ k < 8 * M.length + 8 by omega), decide_eq_false (show ¬(k + 1 = 8 * (rb * (M.length / rb)) + 8 * rb) by omega),
        hb _ (by omega), getD_append, if_pos (by omega)]
      simp
    · rw [if_neg h2]
      have hp : (decide (8 * M.length ≤ k ∧ k < 8 * M.length + 8) && p.toNat.testBit (k - 8 * M.length)) = decide (k = 8 * M.length + suffix.length) := by
        by_cases h3 : k < 8 * M.length + 8
        · rw [decide_eq_true (show 8 * M.length ≤ k ∧ k < 8 * M.length + 8 by omega), hb _ (by omega), getD_append, if_neg (by omega)]
          by_cases h4 : k = 8 * M.length + suffix.length
          · rw [decide_eq_true h4, show k - 8 * M.length - suffix.length = 0 by omega]; rfl
          · rw [decide_eq_false h4, getD_of_ge (by simp; omega)]; rfl
        · rw [decide_eq_false (show ¬(8 * M.length ≤ k ∧ k < 8 * M.length + 8) by omega), decide_eq_false (show ¬(k = 8 * M.length + suffix.length) by omega)]; rfl
      rw [hp]
      by_cases h4 : k = 8 * M.length + suffix.length
      · rw [show k - (8 * M.length + suffix.length) = 0 by omega, decide_eq_true h4, decide_eq_false (show ¬(k + 1 = 8 * (rb * (M.length / rb)) + 8 * rb) by omega)]
        rfl
      · rw [decide_eq_false h4]
        obtain ⟨e, he⟩ : ∃ e, k - (8 * M.length + suffix.length) = e + 1 := ⟨k - (8 * M.length + suffix.length) - 1, by omega⟩
        rw [he, List.cons_append, List.getD_cons_succ, getD_append, List.length_replicate]
        by_cases h5 : k + 1 = 8 * (rb * (M.length / rb)) + 8 * rb
        · rw [if_neg (by omega), decide_eq_true h5, show e - (8 * rb - (8 * (M.length % rb) + suffix.length + 2)) = 0 by omega]; rfl
        · rw [if_pos (by omega), decide_eq_false h5, getD_replicate_false]; rfl

include hrb in
theorem block_eq (hr200 : rb ≤ 200) (hsep : SepOK suffix p) {i : Nat} (hi : i < M.length / rb) (S : KState) :
    xorBlock (8 * rb) (bitsOf M ++ suffix ++ pad101 (8 * rb) (bitsOf M ++ suffix).length) i S = xorK S 0 rb (fun j => M.getD (i * rb + j) 0) := by
  funext x y z
  unfold xorBlock xorK
  congr 1
  by_cases hk : kpos x y z < 8 * rb
  · rw [decide_eq_true hk, decide_eq_true (show 8 * 0 ≤ kpos x y z ∧ kpos x y z < 8 * (0 + rb) by omega)]
    have hle : (i + 1) * rb ≤ M.length := le_trans (Nat.mul_le_mul_right _ hi) (Nat.div_mul_le_self _ _)
    have hEq : (M.length / rb + 1) * (8 * rb) = 8 * ((M.length / rb) * rb) + 8 * rb := by rw [Nat.succ_mul, Nat.mul_left_comm]
    have hle2 : (i + 1) * rb ≤ (M.length / rb) * rb := Nat.mul_le_mul_right _ hi
    rw [Nat.succ_mul] at hle hle2
    have e1 : i * (8 * rb) = 8 * (i * rb) := Nat.mul_left_comm _ _ _
    have hd := Nat.div_mul_le_self M.length rb
    rw [padded_bit hrb M hsep (by rw [hEq]; omega), hEq, decide_eq_true (show i * (8 * rb) + kpos x y z < 8 * M.length by omega),
      decide_eq_false (show ¬(8 * M.length ≤ i * (8 * rb) + kpos x y z ∧ i * (8 * rb) + kpos x y z < 8 * M.length + 8) by omega),
      decide_eq_false (show ¬(i * (8 * rb) + kpos x y z + 1 = 8 * (M.length / rb * rb) + 8 * rb) by omega)]
    simp only [Bool.true_and, Bool.false_and, Bool.xor_false]
    unfold bitAt fbit
    rw [e1, Nat.mul_add_div (by omega), Nat.mul_add_mod]
    simp
  · rw [decide_eq_false hk, decide_eq_false (show ¬(8 * 0 ≤ kpos x y z ∧ kpos x y z < 8 * (0 + rb)) by omega)]; simp

include hrb in
theorem last_eq (hr200 : rb ≤ 200) (hsep : SepOK suffix p) (S : KState) :
    xorBlock (8 * rb) (bitsOf M ++ suffix ++ pad101 (8 * rb) (bitsOf M ++ suffix).length) (M.length / rb) S =
      xorK (xorK (xorK S 0 (M.length % rb) (fun j => M.getD (M.length / rb * rb + j) 0)) (M.length % rb) 1 (fun _ => p)) (rb - 1) 1 (fun _ => 128) := by
  have hd := Nat.div_add_mod M.length rb
  have hlt := Nat.mod_lt M.length hrb
  rw [Nat.mul_comm] at hd
  funext x y z
  unfold xorBlock xorK
  have hE : (M.length / rb + 1) * (8 * rb) = 8 * ((M.length / rb) * rb) + 8 * rb := by rw [Nat.succ_mul, Nat.mul_left_comm]
  have e1 : M.length / rb * (8 * rb) = 8 * (M.length / rb * rb) := Nat.mul_left_comm _ _ _
  generalize kpos x y z = k
  rw [Bool.xor_assoc, Bool.xor_assoc]
  congr 1
  by_cases hk : k < 8 * rb
  · rw [decide_eq_true hk, padded_bit hrb M hsep (by rw [hE]; omega), hE, Bool.true_and, e1]
    congr 1
    · congr 1
      · apply decide_eq_decide.2; omega
      · unfold bitAt fbit
        rw [Nat.mul_add_div (by omega), Nat.mul_add_mod]
        simp
    · congr 1
      · rw [decide_eq_decide.2 (show (8 * M.length ≤ 8 * (M.length / rb * rb) + k ∧ 8 * (M.length / rb * rb) + k < 8 * M.length + 8) ↔ (8 * (M.length % rb) ≤ k ∧ k < 8 * (M.length % rb + 1)) by omega)]
        by_cases hc : 8 * (M.length % rb) ≤ k ∧ k < 8 * (M.length % rb + 1)
        · unfold fbit
          rw [show 8 * (M.length / rb * rb) + k - 8 * M.length = (k - 8 * (M.length % rb)) % 8 by omega]
        · rw [decide_eq_false hc]; simp
      · unfold fbit
        simp only []
        rw [show UInt8.toNat 128 = 2 ^ 7 from rfl, Nat.testBit_two_pow, ← Bool.decide_and]
        apply decide_eq_decide.2; omega
  · rw [decide_eq_false hk, decide_eq_false (show ¬(8 * 0 ≤ k ∧ k < 8 * (0 + M.length % rb)) by omega), decide_eq_false (show ¬(8 * (M.length % rb) ≤ k ∧ k < 8 * (M.length % rb + 1)) by omega),
      decide_eq_false (show ¬(8 * (rb - 1) ≤ k ∧ k < 8 * (rb - 1 + 1)) by omega)]
    simp

include hrb in
theorem absorb_gen (F : KState → KState) (hr200 : rb ≤ 200) (hsep : SepOK suffix p) :
    (List.range ((bitsOf M ++ suffix ++ pad101 (8 * rb) (bitsOf M ++ suffix).length).length / (8 * rb))).foldl
        (fun S i => F (xorBlock (8 * rb) (bitsOf M ++ suffix ++ pad101 (8 * rb) (bitsOf M ++ suffix).length) i S)) (fun _ _ _ => false) =
      F (xorK (xorK (xorK ((List.range (M.length / rb)).foldl (fun S i => F (xorK S 0 rb (fun j => M.getD (i * rb + j) 0))) zeroK) 0 (M.length % rb)
        (fun j => M.getD (M.length / rb * rb + j) 0)) (M.length % rb) 1 (fun _ => p)) (rb - 1) 1 (fun _ => 128)) := by
  rw [padded_length hrb M hsep.len, Nat.mul_div_cancel _ (by omega), List.range_succ, List.foldl_append]
  have : ∀ q, q ≤ M.length / rb → (List.range q).foldl (fun S i => F (xorBlock (8 * rb) (bitsOf M ++ suffix ++ pad101 (8 * rb) (bitsOf M ++ suffix).length) i S)) (fun _ _ _ => false)
      = (List.range q).foldl (fun S i => F (xorK S 0 rb (fun j => M.getD (i * rb + j) 0))) zeroK := by
    intro q
    induction q with
    | zero => intro _; rfl
    | succ q ih =>
      intro hq
      rw [List.range_succ, List.foldl_append, List.foldl_append, ih (by omega)]
      simp only [List.foldl_cons, List.foldl_nil]
      rw [block_eq hrb M hr200 hsep (by omega)]
  rw [this _ (Nat.le_refl _)]
  simp only [List.foldl_cons, List.foldl_nil]
  rw [last_eq hrb M hr200 hsep]

include hrb in
/-- Byte-wise absorption and padding agree with the bit-level specification. -/
theorem absorb_eq (hr200 : rb ≤ 200) (hsep : SepOK suffix p) : absorb (8 * rb) (bitsOf M ++ suffix) = keccakF (finK rb (fun j => M.getD j 0) M.length p) := by
  unfold absorb finK partialK blocksK
  exact absorb_gen hrb M keccakF hr200 hsep
end

theorem iter_succ {α : Type} (f : α → α) (n : Nat) (a : α) : iter f (n + 1) a = iter f n (f a) := rfl

/-- Byte `j` of the output squeezed from `T`, the state before the permutation that precedes the first output block. -/
def sqByte (rb : Nat) (T : KState) (j : Nat) : UInt8 := kbyte (iter keccakF (j / rb + 1) T) (j % rb)

theorem sqByte_eq {rb : Nat} (hrb : 0 < rb) (T : KState) (j : Nat) : sqByte rb T j = byteOf fun t => squeezeBit (8 * rb) (keccakF T) (8 * j + t) := by
  unfold sqByte kbyte squeezeBit
  apply byteOf_congr
  intro t ht
  have hd := Nat.div_add_mod j rb
  have hlt := Nat.mod_lt j hrb
  have e : 8 * j + t = 8 * rb * (j / rb) + (8 * (j % rb) + t) := by
    conv_lhs => rw [← hd]
    rw [Nat.mul_add, Nat.mul_assoc]; omega
  have h1 : (8 * j + t) / (8 * rb) = j / rb := by
    have e0 : (8 * (j % rb) + t) / (8 * rb) = 0 := Nat.div_eq_of_lt (by omega)
    rw [e, Nat.mul_add_div (by omega), e0, Nat.add_zero]
  have h2 : (8 * j + t) % (8 * rb) = 8 * (j % rb) + t := by
    have e0 : (8 * (j % rb) + t) % (8 * rb) = 8 * (j % rb) + t := Nat.mod_eq_of_lt (by omega)
    rw [e, Nat.mul_add_mod, e0]
  rw [h1, h2, iter_succ]

/-- The byte-level description of `KECCAK[c]`. -/
theorem keccakBytes_eq {rb : Nat} (hrb : 0 < rb) (hr200 : rb ≤ 200) (M : List UInt8) {suffix : List Bool} {p : UInt8} (hsep : SepOK suffix p) (n : Nat) :
    keccakBytes (1600 - 8 * rb) M suffix n = (List.range n).map (sqByte rb (finK rb (fun j => M.getD j 0) M.length p)) := by
  unfold keccakBytes
  simp only []
  rw [show 1600 - (1600 - 8 * rb) = 8 * rb by omega, absorb_eq hrb M hr200 hsep]
  apply List.map_congr_left
  intro i _
  rw [sqByte_eq hrb]

theorem SHA3_256_eq (M : List UInt8) : SHA3_256 M = (List.range 32).map (sqByte 136 (finK 136 (fun j => M.getD j 0) M.length 0x06)) :=
  keccakBytes_eq (rb := 136) (by omega) (by omega) M sepOK_sha3 32
theorem SHA3_512_eq (M : List UInt8) : SHA3_512 M = (List.range 64).map (sqByte 72 (finK 72 (fun j => M.getD j 0) M.length 0x06)) :=
  keccakBytes_eq (rb := 72) (by omega) (by omega) M sepOK_sha3 64
theorem SHAKE128_eq (M : List UInt8) (n : Nat) : SHAKE128 M n = (List.range n).map (sqByte 168 (finK 168 (fun j => M.getD j 0) M.length 0x1F)) :=
  keccakBytes_eq (rb := 168) (by omega) (by omega) M sepOK_shake n
theorem SHAKE256_eq (M : List UInt8) (n : Nat) : SHAKE256 M n = (List.range n).map (sqByte 136 (finK 136 (fun j => M.getD j 0) M.length 0x1F)) :=
  keccakBytes_eq (rb := 136) (by omega) (by omega) M sepOK_shake n

theorem iter_succ' {α : Type} (f : α → α) (n : Nat) (a : α) : iter f (n + 1) a = f (iter f n a) := by
  induction n generalizing a with
  | zero => rfl
  | succ n ih => rw [iter_succ, ih, iter_succ]

end Verif

import Verif.Proof.SpongeSpec
/-! # A Keccak that the kernel can run

The FIPS 202 functions of `Verif.Spec` are defined on bits.  Here they are expressed with natural-number arithmetic, which the kernel computes natively, so that concrete hash
values can be checked by `decide +kernel`.  Used only for the concrete cases beside the theorems. -/
namespace Verif.Eval
open Verif Model Spec

/-- Continue with the value of `n`; in the kernel, evaluates `n` first. -/
def force {β : Type} (n : Nat) (k : Nat → β) : β := Nat.rec (k 0) (fun m _ => k (Nat.succ m)) n

@[simp] theorem force_eq {β : Type} (n : Nat) (k : Nat → β) : force n k = k n := by cases n <;> rfl

/-- Lane `i` of a state written as one number. -/
def ln (n i : Nat) : Nat := Nat.mod (Nat.shiftRight n (Nat.mul 64 i)) 18446744073709551616
/-- Rotation of a lane. -/
def rol (a k : Nat) : Nat := Nat.xor (Nat.mod (Nat.shiftLeft a k) 18446744073709551616) (Nat.shiftRight a (Nat.sub 64 k))
/-- The function χ on three lanes. -/
def chiN (a b c : Nat) : Nat := Nat.xor a (Nat.land (Nat.sub 18446744073709551615 b) c)
/-- Put lane `a` below the lanes `b`. -/
def cat (a b : Nat) : Nat := Nat.add (Nat.mul 18446744073709551616 b) a

/-- One round. -/
def nround (rc n : Nat) : Nat :=
  force (Nat.xor (Nat.xor (Nat.xor (Nat.xor (ln n 0) (ln n 5)) (ln n 10)) (ln n 15)) (ln n 20)) fun c0 =>
  force (Nat.xor (Nat.xor (Nat.xor (Nat.xor (ln n 1) (ln n 6)) (ln n 11)) (ln n 16)) (ln n 21)) fun c1 =>
  force (Nat.xor (Nat.xor (Nat.xor (Nat.xor (ln n 2) (ln n 7)) (ln n 12)) (ln n 17)) (ln n 22)) fun c2 =>
  force (Nat.xor (Nat.xor (Nat.xor (Nat.xor (ln n 3) (ln n 8)) (ln n 13)) (ln n 18)) (ln n 23)) fun c3 =>
  force (Nat.xor (Nat.xor (Nat.xor (Nat.xor (ln n 4) (ln n 9)) (ln n 14)) (ln n 19)) (ln n 24)) fun c4 =>
  force (Nat.xor c4 (rol c1 1)) fun d0 =>
  force (Nat.xor c0 (rol c2 1)) fun d1 =>
  force (Nat.xor c1 (rol c3 1)) fun d2 =>
  force (Nat.xor c2 (rol c4 1)) fun d3 =>
  force (Nat.xor c3 (rol c0 1)) fun d4 =>
  force (Nat.xor (ln n 0) d0) fun b0 =>
  force (rol (Nat.xor (ln n 1) d1) 1) fun b10 =>
  force (rol (Nat.xor (ln n 2) d2) 62) fun b20 =>
  force (rol (Nat.xor (ln n 3) d3) 28) fun b5 =>
  force (rol (Nat.xor (ln n 4) d4) 27) fun b15 =>
  force (rol (Nat.xor (ln n 5) d0) 36) fun b16 =>
  force (rol (Nat.xor (ln n 6) d1) 44) fun b1 =>
  force (rol (Nat.xor (ln n 7) d2) 6) fun b11 =>
  force (rol (Nat.xor (ln n 8) d3) 55) fun b21 =>
  force (rol (Nat.xor (ln n 9) d4) 20) fun b6 =>
  force (rol (Nat.xor (ln n 10) d0) 3) fun b7 =>
  force (rol (Nat.xor (ln n 11) d1) 10) fun b17 =>
  force (rol (Nat.xor (ln n 12) d2) 43) fun b2 =>
  force (rol (Nat.xor (ln n 13) d3) 25) fun b12 =>
  force (rol (Nat.xor (ln n 14) d4) 39) fun b22 =>
  force (rol (Nat.xor (ln n 15) d0) 41) fun b23 =>
  force (rol (Nat.xor (ln n 16) d1) 45) fun b8 =>
  force (rol (Nat.xor (ln n 17) d2) 15) fun b18 =>
  force (rol (Nat.xor (ln n 18) d3) 21) fun b3 =>
  force (rol (Nat.xor (ln n 19) d4) 8) fun b13 =>
  force (rol (Nat.xor (ln n 20) d0) 18) fun b14 =>
  force (rol (Nat.xor (ln n 21) d1) 2) fun b24 =>
  force (rol (Nat.xor (ln n 22) d2) 61) fun b9 =>
  force (rol (Nat.xor (ln n 23) d3) 56) fun b19 =>
  force (rol (Nat.xor (ln n 24) d4) 14) fun b4 =>
  (cat (Nat.xor (chiN b0 b1 b2) rc) (cat (chiN b1 b2 b3) (cat (chiN b2 b3 b4) (cat (chiN b3 b4 b0) (cat (chiN b4 b0 b1) (cat (chiN b5 b6 b7) (cat (chiN b6 b7 b8) (cat (chiN b7 b8 b9) (cat (chiN b8 b9 b5) (cat (chiN b9 b5 b6) (cat (chiN b10 b11 b12) (cat (chiN b11 b12 b13) (cat (chiN b12 b13 b14) (cat (chiN b13 b14 b10) (cat (chiN b14 b10 b11) (cat (chiN b15 b16 b17) (cat (chiN b16 b17 b18) (cat (chiN b17 b18 b19) (cat (chiN b18 b19 b15) (cat (chiN b19 b15 b16) (cat (chiN b20 b21 b22) (cat (chiN b21 b22 b23) (cat (chiN b22 b23 b24) (cat (chiN b23 b24 b20) (chiN b24 b20 b21)))))))))))))))))))))))))

/-- The rounds with the given constants. -/
def nrounds : List Nat → Nat → Nat
  | [], n => n
  | rc :: l, n => force (nround rc n) (nrounds l)

/-- The round constants. -/
def rcs : List Nat := [0x0000000000000001, 0x0000000000008082, 0x800000000000808a, 0x8000000080008000, 0x000000000000808b, 0x0000000080000001, 0x8000000080008081, 0x8000000000008009, 0x000000000000008a, 0x0000000000000088, 0x0000000080008009, 0x000000008000000a, 0x000000008000808b, 0x800000000000008b, 0x8000000000008089, 0x8000000000008003, 0x8000000000008002, 0x8000000000000080, 0x000000000000800a, 0x800000008000000a, 0x8000000080008081, 0x8000000000008080, 0x0000000080000001, 0x8000000080008008]

/-- The permutation. -/
def nperm (n : Nat) : Nat := nrounds rcs n
/-! ## The round function -/

/-- The lanes of a state written as a number. -/
def lanesN (n : Nat) : Lanes := lanesOf fun i => BitVec.ofNat 64 (n >>> (64 * i))

/-- The number of a state given by lanes. -/
def pack25 (A : Lanes) : Nat :=
  cat A.Aba.toNat (cat A.Abe.toNat (cat A.Abi.toNat (cat A.Abo.toNat (cat A.Abu.toNat (cat A.Aga.toNat (cat A.Age.toNat (cat A.Agi.toNat (cat A.Ago.toNat (cat A.Agu.toNat
  (cat A.Aka.toNat (cat A.Ake.toNat (cat A.Aki.toNat (cat A.Ako.toNat (cat A.Aku.toNat (cat A.Ama.toNat (cat A.Ame.toNat (cat A.Ami.toNat (cat A.Amo.toNat (cat A.Amu.toNat
  (cat A.Asa.toNat (cat A.Ase.toNat (cat A.Asi.toNat (cat A.Aso.toNat A.Asu.toNat)))))))))))))))))))))))

theorem toNat_ROL (a : W) (k : Nat) : (ROL a k).toNat = rol a.toNat k := by
  unfold ROL rol
  rw [BitVec.toNat_xor, BitVec.toNat_shiftLeft, BitVec.toNat_ushiftRight]; rfl
theorem toNat_chi (b c : W) : (~~~b &&& c).toNat = Nat.land (Nat.sub 18446744073709551615 b.toNat) c.toNat := by
  rw [BitVec.toNat_and, BitVec.toNat_not]; rfl
theorem toNat_xr (a b : W) : (a ^^^ b).toNat = Nat.xor a.toNat b.toNat := BitVec.toNat_xor a b
theorem toNat_ln (n i : Nat) : (BitVec.ofNat 64 (n >>> (64 * i))).toNat = ln n i := by
  rw [BitVec.toNat_ofNat]; rfl

theorem nround_eq (rc : W) (n : Nat) : nround rc.toNat n = pack25 (oneRound rc (lanesN n)) := by
  unfold nround oneRound pack25 lanesN lanesOf
  simp only [force_eq, chiN, toNat_chi, toNat_ROL, toNat_xr, toNat_ln]

/-- The number with the given `d`-bit digits. -/
def packN (d : Nat) : List Nat → Nat
  | [] => 0
  | a :: l => Nat.add (Nat.mul (Nat.pow 2 d) (packN d l)) a

theorem testBit_packN {d : Nat} (hd : 0 < d) (l : List Nat) (h : ∀ x ∈ l, x < 2 ^ d) (k : Nat) : (packN d l).testBit k = (l.getD (k / d) 0).testBit (k % d) := by
  induction l generalizing k with
  | nil => simp [packN]
  | cons a l ih =>
    have e : packN d (a :: l) = 2 ^ d * packN d l + a := rfl
    rw [e, Nat.testBit_two_pow_mul_add _ (h a (by simp))]
    by_cases hk : k < d
    · rw [if_pos hk, Nat.div_eq_of_lt hk, Nat.mod_eq_of_lt hk]; rfl
    · rw [if_neg hk, ih (fun x hx => h x (by simp [hx]))]
      have e1 : k / d = (k - d) / d + 1 := by rw [Nat.div_eq_sub_div hd (by omega)]
      have e2 : k % d = (k - d) % d := Nat.mod_eq_sub_mod (by omega)
      rw [e1, e2]; rfl

theorem packN_lt (d : Nat) (l : List Nat) (h : ∀ x ∈ l, x < 2 ^ d) : packN d l < 2 ^ (d * l.length) := by
  induction l with
  | nil => simp [packN]
  | cons a l ih =>
    have e : packN d (a :: l) = 2 ^ d * packN d l + a := rfl
    have h1 := ih fun x hx => h x (by simp [hx])
    have h2 := h a (by simp)
    rw [e, List.length_cons, Nat.mul_succ, Nat.pow_add, Nat.mul_comm (2 ^ (d * l.length))]
    have : 2 ^ d * (packN d l + 1) ≤ 2 ^ d * 2 ^ (d * l.length) := Nat.mul_le_mul_left _ h1
    rw [Nat.mul_succ] at this
    omega

/-- The lanes as a list of numbers. -/
def listOf (A : Lanes) : List Nat :=
  [A.Aba.toNat, A.Abe.toNat, A.Abi.toNat, A.Abo.toNat, A.Abu.toNat, A.Aga.toNat, A.Age.toNat, A.Agi.toNat, A.Ago.toNat, A.Agu.toNat,
   A.Aka.toNat, A.Ake.toNat, A.Aki.toNat, A.Ako.toNat, A.Aku.toNat, A.Ama.toNat, A.Ame.toNat, A.Ami.toNat, A.Amo.toNat, A.Amu.toNat,
   A.Asa.toNat, A.Ase.toNat, A.Asi.toNat, A.Aso.toNat, A.Asu.toNat]

theorem pack25_eq (A : Lanes) : pack25 A = packN 64 (listOf A) := by
  have h0 : ∀ a, packN 64 [a] = a := fun a => by show 2 ^ 64 * 0 + a = a; omega
  have h1 : ∀ a b l, cat a (packN 64 (b :: l)) = packN 64 (a :: b :: l) := fun a b l => rfl
  unfold pack25 listOf
  rw [← h0 A.Asu.toNat]
  simp only [h1]
  rw [h0]

theorem listOf_lt (A : Lanes) : ∀ x ∈ listOf A, x < 2 ^ 64 := by
  have hb : ∀ w : W, w.toNat < 2 ^ 64 := fun w => w.isLt
  unfold listOf
  simp only [List.mem_cons, List.not_mem_nil, or_false]
  rintro x (rfl|rfl|rfl|rfl|rfl|rfl|rfl|rfl|rfl|rfl|rfl|rfl|rfl|rfl|rfl|rfl|rfl|rfl|rfl|rfl|rfl|rfl|rfl|rfl|rfl) <;> exact hb _

theorem listOf_getD (A : Lanes) (l : Nat) (hl : l < 25) : (listOf A).getD l 0 = (laneNo A l).toNat := by
  interval_cases l <;> rfl

/-- A state written as a number. -/
def Rel (n : Nat) (S : KState) : Prop := ∀ k, k < 1600 → n.testBit k = stateBit S k

theorem rel_lanesN {n : Nat} {S : KState} (h : Rel n S) : lanesK (lanesN n) = S := by
  funext x y z
  unfold lanesK lb lanesN
  have hx := x.isLt
  have hy := y.isLt
  have hz := z.isLt
  rw [laneAt_lanesOf, ← stateBit_kpos S x y z, ← h _ (by omega), BitVec.getLsbD_ofNat, Nat.testBit_shiftRight]
  simp

theorem rel_pack25 (A : Lanes) : Rel (pack25 A) (lanesK A) := by
  intro k hk
  have key : ∀ l, l < 25 → ∀ z, z < 64 → (pack25 A).testBit (64 * l + z) = (laneNo A l).getLsbD z := by
    intro l hl z hz
    rw [pack25_eq, testBit_packN (by omega) _ (listOf_lt A), show (64 * l + z) / 64 = l by omega, show (64 * l + z) % 64 = z by omega, listOf_getD A l hl, BitVec.testBit_toNat]
  have e : k = 64 * (k / 64) + k % 64 := by omega
  rw [e, key _ (by omega) _ (Nat.mod_lt _ (by omega))]
  have e2 := stateBit_kpos (lanesK A) (Fin.ofNat 5 (k / 64)) (Fin.ofNat 5 (k / 64 / 5)) ⟨k % 64, Nat.mod_lt _ (by omega)⟩
  rw [show 64 * (5 * (Fin.ofNat 5 (k / 64 / 5)).val + (Fin.ofNat 5 (k / 64)).val) + (⟨k % 64, Nat.mod_lt _ (by omega)⟩ : Fin 64).val = 64 * (k / 64) + k % 64 by simp [Fin.ofNat]; omega] at e2
  rw [e2]
  rfl

theorem rel_nround {n : Nat} {S : KState} (h : Rel n S) (i : Fin 24) : Rel (nround (KeccakF_RoundConstantsList.getD i.val 0).toNat n) (rnd i.val S) := by
  rw [nround_eq, ← rel_lanesN h, ← oneRound_eq i.val _ (rc_bits i)]
  exact rel_pack25 _

theorem nrounds_append (l l' : List Nat) (n : Nat) : nrounds (l ++ l') n = nrounds l' (nrounds l n) := by
  induction l generalizing n with
  | nil => rfl
  | cons a l ih => simp only [List.cons_append, nrounds, force_eq, ih]

theorem rcs_eq : rcs = (List.range 24).map fun i => (KeccakF_RoundConstantsList.getD i 0).toNat := by decide +kernel

theorem rel_nperm {n : Nat} {S : KState} (h : Rel n S) : Rel (nperm n) (keccakF S) := by
  have key : ∀ m, m ≤ 24 → Rel (nrounds ((List.range m).map fun i => (KeccakF_RoundConstantsList.getD i 0).toNat) n) (rounds m S) := by
    intro m hm
    induction m with
    | zero => exact h
    | succ m ih =>
      rw [List.range_succ, List.map_append, nrounds_append, rounds_succ]
      simp only [List.map_cons, List.map_nil, nrounds, force_eq]
      exact rel_nround (ih (by omega)) ⟨m, by omega⟩
  unfold nperm
  rw [rcs_eq]
  exact key 24 (by omega)

/-! ## The sponge -/

attribute [local irreducible] keccakF

/-- A byte string as a number, least significant byte first. -/
def leN (L : List UInt8) : Nat := packN 8 (L.map UInt8.toNat)

theorem getD_ge {α : Type} (l : List α) (d : α) {k : Nat} (h : l.length ≤ k) : l.getD k d = d := by
  rw [List.getD_eq_getElem?_getD, List.getElem?_eq_none h]; rfl

theorem leN_mem (L : List UInt8) : ∀ x ∈ L.map UInt8.toNat, x < 2 ^ 8 := by
  intro x hx
  obtain ⟨b, _, rfl⟩ := List.mem_map.1 hx
  exact b.toNat_lt

theorem testBit_leN (L : List UInt8) (k : Nat) : (leN L).testBit k = bitAt L k := by
  unfold leN bitAt
  rw [testBit_packN (by omega) _ (leN_mem L)]
  congr 1
  rw [List.getD_eq_getElem?_getD, List.getD_eq_getElem?_getD, List.getElem?_map]
  cases L[k / 8]? <;> rfl

theorem leN_lt (L : List UInt8) : leN L < 2 ^ (8 * L.length) := by
  have := packN_lt 8 _ (leN_mem L)
  rwa [List.length_map] at this

theorem leN_inj {L L' : List UInt8} (hl : L.length = L'.length) (h : leN L = leN L') : L = L' := by
  induction L generalizing L' with
  | nil => cases L' with
    | nil => rfl
    | cons => simp at hl
  | cons a L ih => cases L' with
    | nil => simp at hl
    | cons b L' =>
      have e : ∀ (a : UInt8) L, leN (a :: L) = 256 * leN L + a.toNat := fun _ _ => rfl
      rw [e, e] at h
      have h1 := a.toNat_lt
      have h2 := b.toNat_lt
      have h3 : a.toNat = b.toNat := by omega
      rw [UInt8.toNat_inj.1 h3, ih (by simpa using hl) (by omega)]

/-- The state after `q` blocks of the message `m`. -/
def nblocks (rb m : Nat) : Nat → Nat
  | 0 => 0
  | q + 1 => force (Nat.xor (nblocks rb m q) (Nat.mod (Nat.shiftRight m (Nat.mul (Nat.mul 8 rb) q)) (Nat.pow 2 (Nat.mul 8 rb)))) nperm

/-- The state before the last permutation of the absorbing phase. -/
def nfin (rb m len p : Nat) : Nat :=
  Nat.xor (Nat.xor (Nat.xor (nblocks rb m (Nat.div len rb)) (Nat.shiftRight m (Nat.mul (Nat.mul 8 rb) (Nat.div len rb)))) (Nat.shiftLeft p (Nat.mul 8 (Nat.mod len rb))))
    (Nat.shiftLeft 128 (Nat.mul 8 (Nat.sub rb 1)))

/-- `c` blocks of output. -/
def nsq (rb : Nat) : Nat → Nat → Nat
  | 0, _ => 0
  | c + 1, T => force (nperm T) fun S => Nat.add (Nat.mul (Nat.pow 2 (Nat.mul 8 rb)) (nsq rb c S)) (Nat.mod S (Nat.pow 2 (Nat.mul 8 rb)))

/-- The sponge: message `m` of `len` bytes, separation byte `p`, `c` output blocks. -/
def nhash (rb p m len c : Nat) : Nat := force (nfin rb m len p) (nsq rb c)

theorem rel_xorK {n x : Nat} {S : KState} {off len : Nat} {B : Nat → UInt8} (h : Rel n S)
    (hx : ∀ k, k < 1600 → x.testBit k = (decide (8 * off ≤ k ∧ k < 8 * (off + len)) && fbit B (k - 8 * off))) : Rel (Nat.xor n x) (xorK S off len B) := by
  intro k hk
  rw [stateBit_xorK _ _ _ _ hk, ← h k hk, ← hx k hk]
  exact Nat.testBit_xor n x k

theorem rel_nblocks {rb : Nat} (M : List UInt8) (q : Nat) : Rel (nblocks rb (leN M) q) (blocksK rb (fun j => M.getD j 0) q) := by
  induction q with
  | zero =>
    intro k _
    show (0 : Nat).testBit k = false
    simp
  | succ q ih =>
    rw [blocksK_succ]
    unfold nblocks
    rw [force_eq]
    refine rel_nperm (rel_xorK ih fun k _ => ?_)
    show ((leN M >>> (8 * rb * q)) % 2 ^ (8 * rb)).testBit k = _
    rw [Nat.testBit_mod_two_pow, Nat.testBit_shiftRight, testBit_leN]
    unfold fbit bitAt
    simp only [Nat.zero_add, Nat.mul_zero, Nat.zero_le, true_and, Nat.sub_zero]
    rw [show 8 * rb * q + k = 8 * (q * rb) + k by ring, Nat.mul_add_div (by omega), Nat.mul_add_mod]

theorem rel_nfin {rb : Nat} (M : List UInt8) (p : UInt8) : Rel (nfin rb (leN M) M.length p.toNat) (finK rb (fun j => M.getD j 0) M.length p) := by
  unfold nfin finK partialK
  have one : ∀ (b : UInt8) (off k : Nat), (b.toNat <<< (8 * off)).testBit k = (decide (8 * off ≤ k ∧ k < 8 * (off + 1)) && fbit (fun _ => b) (k - 8 * off)) := by
    intro b off k
    rw [Nat.testBit_shiftLeft]
    unfold fbit
    by_cases h1 : 8 * off ≤ k
    · by_cases h2 : k < 8 * (off + 1)
      · rw [Nat.mod_eq_of_lt (by omega)]; simp [h1, h2]
      · have : b.toNat.testBit (k - 8 * off) = false := Nat.testBit_lt_two_pow (lt_of_lt_of_le b.toNat_lt (Nat.pow_le_pow_right (n := 2) (by omega) (by omega : 8 ≤ k - 8 * off)))
        rw [this]; simp [h2]
    · simp [h1]
  refine rel_xorK (rel_xorK (rel_xorK (rel_nblocks M _) fun k _ => ?_) fun k _ => one p _ k) fun k _ => one 128 _ k
  show ((leN M >>> (8 * rb * (M.length / rb)))).testBit k = _
  rw [Nat.testBit_shiftRight, testBit_leN]
  unfold fbit bitAt
  simp only [Nat.zero_add, Nat.mul_zero, Nat.zero_le, true_and, Nat.sub_zero]
  rw [show 8 * rb * (M.length / rb) + k = 8 * (M.length / rb * rb) + k by ring, Nat.mul_add_div (by omega), Nat.mul_add_mod]
  have hd := Nat.div_add_mod M.length rb
  rw [Nat.mul_comm] at hd
  by_cases hk : k < 8 * (M.length % rb)
  · simp [hk]
  · rw [getD_ge _ _ (by omega)]; simp [hk]

theorem nsq_bit {rb : Nat} (hrb : 0 < rb) (hr : rb ≤ 200) (c : Nat) {T : Nat} {S : KState} (h : Rel T S) (j : Nat) (hj : j < c * rb) (t : Nat) (ht : t < 8) :
    (nsq rb c T).testBit (8 * j + t) = stateBit (iter keccakF (j / rb + 1) S) (8 * (j % rb) + t) := by
  induction c generalizing T S j with
  | zero => omega
  | succ c ih =>
    unfold nsq
    rw [force_eq]
    have h1 := rel_nperm h
    show (2 ^ (8 * rb) * nsq rb c (nperm T) + nperm T % 2 ^ (8 * rb)).testBit (8 * j + t) = _
    rw [Nat.testBit_two_pow_mul_add _ (Nat.mod_lt _ (Nat.two_pow_pos _))]
    by_cases hlt : j < rb
    · rw [if_pos (by omega), Nat.testBit_mod_two_pow, decide_eq_true (by omega), Bool.true_and, h1 _ (by omega), Nat.div_eq_of_lt hlt, Nat.mod_eq_of_lt hlt]; rfl
    · rw [if_neg (by omega), show 8 * j + t - 8 * rb = 8 * (j - rb) + t by omega, ih h1 (j - rb) (by rw [Nat.succ_mul] at hj; omega), ← Nat.mod_eq_sub_mod (by omega),
        Nat.div_eq_sub_div (a := j) hrb (by omega)]
      rfl

theorem nhash_bit {rb : Nat} (hrb : 0 < rb) (hr : rb ≤ 200) (c : Nat) (M : List UInt8) (p : UInt8) (j : Nat) (hj : j < c * rb) (t : Nat) (ht : t < 8) :
    (nhash rb p.toNat (leN M) M.length c).testBit (8 * j + t) = (sqByte rb (finK rb (fun j => M.getD j 0) M.length p) j).toNat.testBit t := by
  unfold nhash
  rw [force_eq, nsq_bit hrb hr c (rel_nfin M p) j hj t ht]
  unfold sqByte kbyte
  rw [testBit_byteOf _ ht]

theorem leN_map {rb : Nat} (hrb : 0 < rb) (hr : rb ≤ 200) (c : Nat) (M : List UInt8) (p : UInt8) (n : Nat) (hn : n ≤ c * rb) :
    leN ((List.range n).map (sqByte rb (finK rb (fun j => M.getD j 0) M.length p))) = nhash rb p.toNat (leN M) M.length c % 2 ^ (8 * n) := by
  apply Nat.eq_of_testBit_eq
  intro k
  rw [testBit_leN, Nat.testBit_mod_two_pow]
  unfold bitAt
  by_cases hk : k < 8 * n
  · rw [decide_eq_true hk, Bool.true_and, List.getD_eq_getElem?_getD, List.getElem?_map, List.getElem?_range (by omega), ← Nat.div_add_mod k 8,
      nhash_bit hrb hr c M p (k / 8) (by omega) _ (Nat.mod_lt _ (by omega)), Nat.div_add_mod]
    rfl
  · rw [getD_ge _ _ (by simp; omega)]; simp [hk]

theorem leN_SHA3_256 (M : List UInt8) : leN (SHA3_256 M) = nhash 136 6 (leN M) M.length 1 % 2 ^ 256 := by
  rw [SHA3_256_eq]; exact leN_map (by omega) (by omega) 1 M 6 32 (by omega)
theorem leN_SHA3_512 (M : List UInt8) : leN (SHA3_512 M) = nhash 72 6 (leN M) M.length 1 % 2 ^ 512 := by
  rw [SHA3_512_eq]; exact leN_map (by omega) (by omega) 1 M 6 64 (by omega)
theorem leN_SHAKE128 (M : List UInt8) (n c : Nat) (hn : n ≤ c * 168) : leN (SHAKE128 M n) = nhash 168 31 (leN M) M.length c % 2 ^ (8 * n) := by
  rw [SHAKE128_eq]; exact leN_map (by omega) (by omega) c M 31 n hn
theorem leN_SHAKE256 (M : List UInt8) (n c : Nat) (hn : n ≤ c * 136) : leN (SHAKE256 M n) = nhash 136 31 (leN M) M.length c % 2 ^ (8 * n) := by
  rw [SHAKE256_eq]; exact leN_map (by omega) (by omega) c M 31 n hn

end Verif.Eval

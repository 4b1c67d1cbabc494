import Verif.Proof.Aes
/-! # AES: rounds -/
namespace Verif.Aes
open Verif Verif.Model Verif.Model.Aes Verif.Spec

/-- The position of byte `k` of block `b`. -/
def pos (b k : Nat) : Nat := b + 4 * (k / 4) + 16 * (k % 4)

/-- The eight words hold four states. -/
def Rep (f : Nat → W) (S : Nat → AState) : Prop := ∀ b k, b < 4 → k < 16 → HoldsByte f (pos b k) (S b k)

theorem pos_lt {b k : Nat} (hb : b < 4) (hk : k < 16) : pos b k < 64 := by unfold pos; omega

theorem Rep.congr {f : Nat → W} {S S' : Nat → AState} (h : Rep f S) (hs : ∀ b k, b < 4 → k < 16 → S b k = S' b k) : Rep f S' := fun b k hb hk => hs b k hb hk ▸ h b k hb hk

theorem sub_spec {q : Buf W} {f : Nat → W} {S : Nat → AState} (h : Holds q 8 f) (hr : Rep f S) :
    Post (br_aes_ct64_bitslice_Sbox q) (fun q' => ∃ g, Holds q' 8 g ∧ Rep g fun b => SubBytes (S b)) :=
  PostF.mono (bitslice_spec h) fun _ ⟨g, hg, hb⟩ => ⟨g, hg, fun b k hb' hk => hb _ _ (pos_lt hb' hk) (hr b k hb' hk)⟩

/-- Where `shift_rows` takes a bit from. -/
def srcRow (p : Nat) : Nat := p % 4 + 4 * ((p / 4 % 4 + p / 16) % 4) + 16 * (p / 16)

theorem shiftWord_bit (x : W) : ∀ p, p < 64 → (shiftWord x).getLsbD p = x.getLsbD (srcRow p) := by
  intro p hp
  unfold shiftWord
  interval_cases p <;> simp [srcRow]

theorem srcRow_pos : ∀ b, b < 4 → ∀ k, k < 16 → srcRow (pos b k) = pos b (k % 4 + 4 * ((k / 4 + k % 4) % 4)) := by decide

theorem shift_spec {q : Buf W} {f : Nat → W} {S : Nat → AState} (h : Holds q 8 f) (hr : Rep f S) :
    Post (shift_rows q) (fun q' => ∃ g, Holds q' 8 g ∧ Rep g fun b => ShiftRows (S b)) := by
  unfold shift_rows
  refine wp_forN (fun i q => Holds q 8 fun t => if t < i then shiftWord (f t) else f t) (h.congr fun t _ => by simp) ?_ ?_
  · intro i q hi h
    simp only [wp_bind, wp_rd, wp_wr]
    refine ⟨_, h.2 i hi, by rw [h.1]; exact hi, (h.set hi _).congr fun t ht => ?_⟩
    by_cases h1 : t = i
    · subst h1; simp
    · rw [upd_ne h1]
      by_cases h2 : t < i
      · simp [h2, show t < i + 1 by omega]
      · simp [h2, show ¬ t < i + 1 by omega]
  · intro q' h'
    refine ⟨_, h', fun b k hb hk t ht => ?_⟩
    dsimp only
    rw [if_pos ht, shiftWord_bit _ _ (pos_lt hb hk)]
    have e : srcRow (pos b k) = pos b (k % 4 + 4 * ((k / 4 + k % 4) % 4)) := srcRow_pos b hb k hk
    rw [e]
    exact hr b _ hb (by omega) t ht

theorem rot16_bit (x : W) {p : Nat} (hp : p < 64) : (rot16 x).getLsbD p = x.getLsbD ((p + 16) % 64) := by
  unfold rot16
  simp only [BitVec.getLsbD_or, BitVec.getLsbD_ushiftRight, BitVec.getLsbD_shiftLeft, hp, decide_true, Bool.true_and]
  by_cases h : p < 48
  · simp [h, show (p + 16) % 64 = 16 + p by omega]
  · rw [BitVec.getLsbD_of_ge x (16 + p) (by omega), show (p + 16) % 64 = p - 48 by omega]
    simp [h]

theorem rotr32_bit (x : W) {p : Nat} (hp : p < 64) : (rotr32 x).getLsbD p = x.getLsbD ((p + 32) % 64) := by
  unfold rotr32
  simp only [BitVec.getLsbD_or, BitVec.getLsbD_ushiftRight, BitVec.getLsbD_shiftLeft, hp, decide_true, Bool.true_and]
  by_cases h : p < 32
  · simp [h, show (p + 32) % 64 = 32 + p by omega]
  · rw [BitVec.getLsbD_of_ge x (32 + p) (by omega), show (p + 32) % 64 = p - 32 by omega]
    simp [h]

/-- `MixColumns` on a column, bit by bit. -/
def mixBit (a b c d : Nat → Bool) : Nat → Bool
  | 0 => a 7 ^^ b 7 ^^ b 0 ^^ (c 0 ^^ d 0)
  | 1 => a 0 ^^ b 0 ^^ a 7 ^^ b 7 ^^ b 1 ^^ (c 1 ^^ d 1)
  | 2 => a 1 ^^ b 1 ^^ b 2 ^^ (c 2 ^^ d 2)
  | 3 => a 2 ^^ b 2 ^^ a 7 ^^ b 7 ^^ b 3 ^^ (c 3 ^^ d 3)
  | 4 => a 3 ^^ b 3 ^^ a 7 ^^ b 7 ^^ b 4 ^^ (c 4 ^^ d 4)
  | 5 => a 4 ^^ b 4 ^^ b 5 ^^ (c 5 ^^ d 5)
  | 6 => a 5 ^^ b 5 ^^ b 6 ^^ (c 6 ^^ d 6)
  | _ => a 6 ^^ b 6 ^^ b 7 ^^ (c 7 ^^ d 7)

/-- `2 a`, bit by bit. -/
def dblBit (a : Nat → Bool) : Nat → Bool
  | 0 => a 7
  | 1 => a 0 ^^ a 7
  | 2 => a 1
  | 3 => a 2 ^^ a 7
  | 4 => a 3 ^^ a 7
  | 5 => a 4
  | 6 => a 5
  | _ => a 6

theorem gmul23 : ∀ v, v < 256 → ∀ t, t < 8 → (gmul 2#8 (BitVec.ofNat 8 v)).getLsbD t = dblBit (BitVec.ofNat 8 v).getLsbD t ∧
    (gmul 3#8 (BitVec.ofNat 8 v)).getLsbD t = (dblBit (BitVec.ofNat 8 v).getLsbD t ^^ (BitVec.ofNat 8 v).getLsbD t) := by decide +kernel

theorem gmul2_bit (v : Byte) {t : Nat} (ht : t < 8) : (gmul 2#8 v).getLsbD t = dblBit v.getLsbD t := by
  have := (gmul23 v.toNat v.isLt t ht).1
  simpa using this

theorem gmul3_bit (v : Byte) {t : Nat} (ht : t < 8) : (gmul 3#8 v).getLsbD t = (dblBit v.getLsbD t ^^ v.getLsbD t) := by
  have := (gmul23 v.toNat v.isLt t ht).2
  simpa using this

theorem mix_bit (a b c d : Byte) {t : Nat} (ht : t < 8) : (gmul 2#8 a ^^^ gmul 3#8 b ^^^ c ^^^ d).getLsbD t = mixBit a.getLsbD b.getLsbD c.getLsbD d.getLsbD t := by
  simp only [BitVec.getLsbD_xor, gmul2_bit a ht, gmul3_bit b ht]
  have h5 : ∀ x y z u v : Bool, (x ^^ (y ^^ z) ^^ u ^^ v) = (x ^^ y ^^ z ^^ (u ^^ v)) := by decide
  have h7 : ∀ x x' y y' z u v : Bool, ((x ^^ x') ^^ ((y ^^ y') ^^ z) ^^ u ^^ v) = (x ^^ y ^^ x' ^^ y' ^^ z ^^ (u ^^ v)) := by decide
  interval_cases t <;> simp only [dblBit, mixBit] <;> first | rw [h7] | rw [h5]

/-- The words after `mix_columns`. -/
def mixed (f : Nat → W) : Nat → W
  | 0 => f 7 ^^^ rot16 (f 7) ^^^ rot16 (f 0) ^^^ rotr32 (f 0 ^^^ rot16 (f 0))
  | 1 => f 0 ^^^ rot16 (f 0) ^^^ f 7 ^^^ rot16 (f 7) ^^^ rot16 (f 1) ^^^ rotr32 (f 1 ^^^ rot16 (f 1))
  | 2 => f 1 ^^^ rot16 (f 1) ^^^ rot16 (f 2) ^^^ rotr32 (f 2 ^^^ rot16 (f 2))
  | 3 => f 2 ^^^ rot16 (f 2) ^^^ f 7 ^^^ rot16 (f 7) ^^^ rot16 (f 3) ^^^ rotr32 (f 3 ^^^ rot16 (f 3))
  | 4 => f 3 ^^^ rot16 (f 3) ^^^ f 7 ^^^ rot16 (f 7) ^^^ rot16 (f 4) ^^^ rotr32 (f 4 ^^^ rot16 (f 4))
  | 5 => f 4 ^^^ rot16 (f 4) ^^^ rot16 (f 5) ^^^ rotr32 (f 5 ^^^ rot16 (f 5))
  | 6 => f 5 ^^^ rot16 (f 5) ^^^ rot16 (f 6) ^^^ rotr32 (f 6 ^^^ rot16 (f 6))
  | _ => f 6 ^^^ rot16 (f 6) ^^^ rot16 (f 7) ^^^ rotr32 (f 7 ^^^ rot16 (f 7))

theorem mixed_bit (f : Nat → W) {p : Nat} (hp : p < 64) : ∀ t, t < 8 → (mixed f t).getLsbD p =
    mixBit (fun t => (f t).getLsbD p) (fun t => (f t).getLsbD ((p + 16) % 64)) (fun t => (f t).getLsbD ((p + 32) % 64)) (fun t => (f t).getLsbD ((p + 48) % 64)) t := by
  intro t ht
  have h32 : (p + 32) % 64 < 64 := by omega
  have e : ((p + 32) % 64 + 16) % 64 = (p + 48) % 64 := by omega
  interval_cases t <;> simp only [mixed, mixBit, BitVec.getLsbD_xor, rot16_bit _ hp, rotr32_bit _ hp, rot16_bit _ h32, e]

theorem rot_pos : ∀ j, j < 4 → ∀ b, b < 4 → ∀ k, k < 16 → (pos b k + 16 * j) % 64 = pos b ((k % 4 + j) % 4 + 4 * (k / 4)) := by decide

theorem mix_spec {q : Buf W} {f : Nat → W} {S : Nat → AState} (h : Holds q 8 f) (hr : Rep f S) :
    Post (mix_columns q) (fun q' => ∃ g, Holds q' 8 g ∧ Rep g fun b => MixColumns (S b)) := by
  unfold mix_columns
  simp only [wp_bind, wp_rd, wp_wr, Array.size_setIfInBounds, h.1]
  refine ⟨_, h.2 0 (by decide), _, h.2 1 (by decide), _, h.2 2 (by decide), _, h.2 3 (by decide), _, h.2 4 (by decide), _, h.2 5 (by decide), _, h.2 6 (by decide), _, h.2 7 (by decide), ?_⟩
  refine ⟨by decide, by decide, by decide, by decide, by decide, by decide, by decide, by decide, mixed f, ?_, ?_⟩
  · have := wr8 h (mixed f) (is := [0, 1, 2, 3, 4, 5, 6, 7]) (by decide +kernel)
    simpa only [List.foldl, mixed] using this
  · intro b k hb hk t ht
    rw [mixed_bit f (pos_lt hb hk) t ht]
    unfold MixColumns
    rw [mix_bit _ _ _ _ ht]
    have cong : ∀ a b c d a' b' c' d' : Nat → Bool, (∀ t, t < 8 → a t = a' t) → (∀ t, t < 8 → b t = b' t) → (∀ t, t < 8 → c t = c' t) → (∀ t, t < 8 → d t = d' t) →
        mixBit a b c d t = mixBit a' b' c' d' t := by
      intro a b c d a' b' c' d' ha hb hc hd
      interval_cases t <;> simp only [mixBit, ha, hb, hc, hd, Nat.reduceLT]
    have key' : ∀ j, j < 4 → ∀ t, t < 8 → (f t).getLsbD ((pos b k + 16 * j) % 64) = (S b ((k % 4 + j) % 4 + 4 * (k / 4))).getLsbD t := fun j hj t ht => by
      rw [rot_pos j hj b hb k hk]; exact hr b _ hb (by omega) t ht
    refine cong _ _ _ _ _ _ _ _ (fun t ht => ?_) (key' 1 (by decide)) (key' 2 (by decide)) (key' 3 (by decide))
    have := hr b k hb hk t ht
    rwa [show k % 4 + 4 * (k / 4) = k by omega]

/-- The words from `so` on hold a round key, four times. -/
def KeyRep (sk : Nat → W) (w : Nat → Word) (round : Nat) : Prop := ∀ t b k, t < 8 → b < 4 → k < 16 → (sk (8 * round + t)).getLsbD (pos b k) = ((w (4 * round + k / 4)).byte (k % 4)).getLsbD t

theorem addkey_spec {q sk : Buf W} {f g : Nat → W} {so : Nat} (h : Holds q 8 f) (hs : Seg sk so 8 g) : Post (add_round_key q sk so) (fun q' => Holds q' 8 fun t => f t ^^^ g t) := by
  have step : ∀ i q, i < 8 → (Holds q 8 fun t => if t < i then f t ^^^ g t else f t) → Post (xorKey sk so i q) (fun q' => Holds q' 8 fun t => if t < i + 1 then f t ^^^ g t else f t) := by
    intro i q hi h
    unfold xorKey
    simp only [wp_bind, wp_rd, wp_wr]
    refine ⟨_, h.2 i hi, _, hs i hi, by rw [h.1]; exact hi, (h.set hi _).congr fun t ht => ?_⟩
    by_cases h1 : t = i
    · subst h1; simp
    · rw [upd_ne h1]
      by_cases h2 : t < i
      · simp [h2, show t < i + 1 by omega]
      · simp [h2, show ¬ t < i + 1 by omega]
  unfold add_round_key
  simp only [wp_bind]
  refine PostF.mono (step 0 q (by decide) (h.congr fun t _ => by simp)) fun q h => ?_
  refine PostF.mono (step 1 q (by decide) h) fun q h => ?_
  refine PostF.mono (step 2 q (by decide) h) fun q h => ?_
  refine PostF.mono (step 3 q (by decide) h) fun q h => ?_
  refine PostF.mono (step 4 q (by decide) h) fun q h => ?_
  refine PostF.mono (step 5 q (by decide) h) fun q h => ?_
  refine PostF.mono (step 6 q (by decide) h) fun q h => ?_
  refine PostF.mono (step 7 q (by decide) h) fun q h => ?_
  exact h.congr fun t ht => by rw [if_pos ht]

theorem round_key_spec {q sk : Buf W} {f G : Nat → W} {w : List Word} {round n : Nat} {S : Nat → AState} (h : Holds q 8 f) (hr : Rep f S) (hs : Holds sk n G) (hn : 8 * round + 8 ≤ n)
    (hk : KeyRep G (fun i => w.getD i ⟨0, 0, 0, 0⟩) round) : Post (add_round_key q sk (8 * round)) (fun q' => ∃ g, Holds q' 8 g ∧ Rep g fun b => AddRoundKey w round (S b)) := by
  refine PostF.mono (addkey_spec h (g := fun t => G (8 * round + t)) fun i hi => hs.2 _ (by omega)) fun q' h' => ⟨_, h', fun b k hb hk' t ht => ?_⟩
  unfold AddRoundKey
  rw [BitVec.getLsbD_xor, BitVec.getLsbD_xor, hr b k hb hk' t ht, hk t b k ht hb hk']

end Verif.Aes

import Verif.Proof.AesRound
/-! # AES: words and bytes in and out, key schedule -/
namespace Verif.Aes
open Verif Verif.Model Verif.Model.Aes Verif.Spec

/-- A 32-bit word holds four bytes. -/
def WRep (x : W32) (v : Nat → Byte) : Prop := ∀ r t, r < 4 → t < 8 → x.getLsbD (8 * r + t) = (v r).getLsbD t

theorem spread_bit (w : W32) {p : Nat} (hp : p < 64) : (spread w).getLsbD p = (decide (p % 16 < 8) && w.getLsbD (8 * (p / 16) + p % 8)) := by
  unfold spread
  interval_cases p <;> simp

theorem gather_bit (q : W) {p : Nat} (hp : p < 32) : (gather q).getLsbD p = q.getLsbD (16 * (p / 8) + p % 8) := by
  unfold gather
  interval_cases p <;> simp

theorem inter_bit (x y : W32) {p : Nat} (hp : p < 64) : (spread x ||| (spread y <<< 8)).getLsbD p = if p / 8 % 2 = 0 then x.getLsbD (8 * (p / 16) + p % 8) else y.getLsbD (8 * (p / 16) + p % 8) := by
  rw [BitVec.getLsbD_or, BitVec.getLsbD_shiftLeft, spread_bit x hp, spread_bit y (by omega)]
  by_cases h : p / 8 % 2 = 0
  · rw [if_pos h, show decide (p % 16 < 8) = true from decide_eq_true (by omega)]
    by_cases h8 : p < 8
    · simp [h8]
    · rw [show decide ((p - 8) % 16 < 8) = false from decide_eq_false (by omega)]
      simp
  · rw [if_neg h, show decide (p % 16 < 8) = false from decide_eq_false (by omega), show decide ((p - 8) % 16 < 8) = true from decide_eq_true (by omega)]
    simp [hp, show ¬ p < 8 by omega, show (p - 8) / 16 = p / 16 by omega, show (p - 8) % 8 = p % 8 by omega]

/-- The eight words before `ortho`. -/
def packed (F : Nat → W32) (i : Nat) : W := spread (F (4 * (i % 4) + i / 4)) ||| (spread (F (4 * (i % 4) + i / 4 + 2)) <<< 8)

theorem packed_rep {F : Nat → W32} {S : Nat → AState} {g : Nat → W} (hF : ∀ b c, b < 4 → c < 4 → WRep (F (4 * b + c)) fun r => S b (4 * c + r)) (hT : Transposed (packed F) g) : Rep g S := by
  intro b k hb hk t ht
  rw [hT t _ ht (pos_lt hb hk)]
  have e1 : pos b k % 8 = b + 4 * (k / 4 % 2) := by unfold pos; omega
  have e2 : pos b k / 8 = k / 4 / 2 + 2 * (k % 4) := by unfold pos; omega
  unfold packed
  rw [inter_bit _ _ (by have := pos_lt hb hk; omega), e1, e2]
  have e3 : 8 * ((8 * (k / 4 / 2 + 2 * (k % 4)) + t) / 16) + (8 * (k / 4 / 2 + 2 * (k % 4)) + t) % 8 = 8 * (k % 4) + t := by omega
  have e4 : (8 * (k / 4 / 2 + 2 * (k % 4)) + t) / 8 % 2 = k / 4 / 2 := by omega
  have e5 : (b + 4 * (k / 4 % 2)) % 4 = b := by omega
  have e6 : (b + 4 * (k / 4 % 2)) / 4 = k / 4 % 2 := by omega
  rw [e3, e4, e5, e6]
  have hw := hF b (k / 4) hb (by omega) (k % 4) t (by omega) ht
  dsimp only at hw
  rw [show 4 * (k / 4) + k % 4 = k by omega] at hw
  split
  · rw [show 4 * b + k / 4 % 2 = 4 * b + k / 4 by omega]; exact hw
  · rw [show 4 * b + k / 4 % 2 + 2 = 4 * b + k / 4 by omega]; exact hw

/-- The words stored after the last `ortho`. -/
def unpacked (h : Nat → W) (m : Nat) : W32 := gather (h (m / 4 + 4 * (m % 2)) >>> (8 * (m % 4 / 2)))

theorem unpacked_rep {g h : Nat → W} {S : Nat → AState} (hr : Rep g S) (hT : Transposed g h) : ∀ b c, b < 4 → c < 4 → WRep (unpacked h (4 * b + c)) fun r => S b (4 * c + r) := by
  intro b c hb hc r t hr' ht
  unfold unpacked
  rw [gather_bit _ (by omega), BitVec.getLsbD_ushiftRight]
  rw [show (8 * r + t) / 8 = r by omega, show (8 * r + t) % 8 = t by omega, show (4 * b + c) % 4 = c by omega, show (4 * b + c) / 4 = b by omega, show (4 * b + c) % 2 = c % 2 by omega]
  rw [hT _ _ (by omega) (by omega), show (8 * (c / 2) + (16 * r + t)) % 8 = t by omega, show (8 * (c / 2) + (16 * r + t)) / 8 = c / 2 + 2 * r by omega]
  have e : 8 * (c / 2 + 2 * r) + (b + 4 * (c % 2)) = pos b (4 * c + r) := by unfold pos; omega
  rw [e]
  exact hr b _ hb (by omega) t ht

theorem b32_bit (a : UInt8) {p : Nat} (hp : p < 32) : (b32 a).getLsbD p = a.toBitVec.getLsbD p := by
  unfold b32
  rw [BitVec.getLsbD_ofNat]
  simp only [hp, decide_true, Bool.true_and]
  rfl

theorem shl_bit (a : UInt8) {s r t : Nat} (hs : s < 4) (hr : r < 4) (ht : t < 8) : (b32 a <<< (8 * s)).getLsbD (8 * r + t) = (decide (r = s) && a.toBitVec.getLsbD t) := by
  rw [BitVec.getLsbD_shiftLeft]
  by_cases h : r < s
  · simp [show 8 * r + t < 8 * s by omega, show ¬ r = s by omega]
  · rw [b32_bit a (by omega)]
    by_cases e : r = s
    · subst e
      simp [show 8 * r + t < 32 by omega]
    · rw [BitVec.getLsbD_of_ge a.toBitVec _ (by omega)]
      simp [e]

/-- The words decoded from bytes. -/
def decW (f : Nat → UInt8) : W32 := b32 (f 0) ||| (b32 (f 1) <<< 8) ||| (b32 (f 2) <<< 16) ||| (b32 (f 3) <<< 24)

theorem decW_rep (f : Nat → UInt8) : WRep (decW f) fun r => (f r).toBitVec := by
  intro r t hr ht
  have h0 := shl_bit (f 0) (s := 0) (by decide) hr ht
  have h1 := shl_bit (f 1) (s := 1) (by decide) hr ht
  have h2 := shl_bit (f 2) (s := 2) (by decide) hr ht
  have h3 := shl_bit (f 3) (s := 3) (by decide) hr ht
  rw [show b32 (f 0) <<< (8 * 0) = b32 (f 0) by simp] at h0
  simp only [Nat.reduceMul] at h1 h2 h3
  unfold decW
  simp only [BitVec.getLsbD_or, h0, h1, h2, h3]
  interval_cases r <;> simp

theorem dec32le_spec {src : Buf UInt8} {so : Nat} {f : Nat → UInt8} (h : Seg src so 4 f) : Post (br_dec32le src so) (fun x => x = decW f) := by
  unfold br_dec32le
  simp only [wp_bind, wp_rd, wp_pure]
  exact ⟨_, h 0 (by decide), _, h 1 (by decide), _, h 2 (by decide), _, h 3 (by decide), rfl⟩

theorem range_dec_spec {v : Buf W32} {vo num so : Nat} {src : Buf UInt8} {f : Nat → UInt8} (hs : Seg src so (4 * num) f) (hv : vo + num ≤ v.size) :
    Post (br_range_dec32le v vo num src so) (fun v' => Written v v' vo num fun i => decW fun r => f (4 * i + r)) := by
  unfold br_range_dec32le
  refine wp_forN (fun i v' => Written v v' vo i fun i => decW fun r => f (4 * i + r)) (Written.refl _ _ _) ?_ (fun _ h => h)
  intro i v' hi hw
  simp only [wp_bind]
  refine PostF.mono (dec32le_spec (hs.sub (4 * i) 4 (by omega))) fun x hx => ?_
  subst hx
  simp only [wp_wr]
  exact ⟨by rw [hw.1]; omega, hw.push (by omega) rfl rfl⟩

theorem lowByte_of {x : W32} {v : Byte} (h : ∀ t, t < 8 → x.getLsbD t = v.getLsbD t) : lowByte x = UInt8.ofBitVec v := by
  unfold lowByte
  have : BitVec.ofNat 8 x.toNat = v := by
    apply BitVec.eq_of_getLsbD_eq
    intro t ht
    rw [BitVec.getLsbD_ofNat, ← h t ht]
    simp only [ht, decide_true, Bool.true_and]
    rfl
  rw [← this]
  rfl

theorem enc32le_spec {dst : Buf UInt8} {d : Nat} {x : W32} {v : Nat → Byte} (hx : WRep x v) (hd : d + 4 ≤ dst.size) : Post (br_enc32le dst d x) (fun dst' => Written dst dst' d 4 fun r => UInt8.ofBitVec (v r)) := by
  have key : ∀ r, r < 4 → lowByte (x >>> (8 * r)) = UInt8.ofBitVec (v r) := fun r hr => lowByte_of fun t ht => by
    rw [BitVec.getLsbD_ushiftRight]; exact hx r t hr ht
  have k0 := key 0 (by decide)
  have k1 := key 1 (by decide)
  have k2 := key 2 (by decide)
  have k3 := key 3 (by decide)
  rw [show x >>> (8 * 0) = x by simp] at k0
  simp only [Nat.reduceMul] at k1 k2 k3
  unfold br_enc32le
  simp only [wp_bind, wp_wr, Array.size_setIfInBounds]
  exact ⟨by omega, by omega, by omega, by omega,
    ((((Written.refl dst d fun r => UInt8.ofBitVec (v r)).push (by omega) rfl k0).push (by omega) rfl k1).push (by omega) rfl k2).push (by omega) rfl k3⟩

theorem written_blocks {α : Type} {r r' r'' : Buf α} {ro n i : Nat} {g : Nat → Nat → α} (hn : 0 < n)
    (h : Written r r' ro (i * n) (fun k => g (k / n) (k % n))) (h' : Written r' r'' (ro + i * n) n (g i)) :
    Written r r'' ro ((i + 1) * n) (fun k => g (k / n) (k % n)) := by
  have := h.trans h'
  rw [Nat.succ_mul]
  refine this.congr fun k hk => ?_
  beta_reduce
  split
  · rfl
  · rename_i hlt
    obtain ⟨e, rfl⟩ : ∃ e, k = i * n + e := ⟨k - i * n, by omega⟩
    rw [Nat.add_sub_cancel_left, Nat.add_comm (i * n), Nat.add_mul_div_right _ _ hn, Nat.add_mul_mod_self_right,
      Nat.mod_eq_of_lt (by omega), Nat.div_eq_of_lt (by omega), Nat.zero_add]

theorem range_enc_spec {dst : Buf UInt8} {d num : Nat} {w : Buf W32} {F : Nat → W32} {v : Nat → Nat → Byte} (hw : Seg w 0 num F) (hF : ∀ i, i < num → WRep (F i) (v i)) (hd : d + 4 * num ≤ dst.size) :
    Post (br_range_enc32le dst d w num) (fun dst' => Written dst dst' d (4 * num) fun m => UInt8.ofBitVec (v (m / 4) (m % 4))) := by
  unfold br_range_enc32le
  refine wp_forN (fun i dst' => Written dst dst' d (i * 4) fun m => UInt8.ofBitVec (v (m / 4) (m % 4))) (by rw [Nat.zero_mul]; exact Written.refl _ _ _) ?_ (fun _ h => by rwa [Nat.mul_comm])
  intro i dst' hi h
  simp only [wp_bind, wp_rd]
  have hg := hw i hi
  rw [Nat.zero_add] at hg
  refine ⟨_, hg, PostF.mono (enc32le_spec (hF i hi) (by rw [h.1]; omega)) fun dst'' h'' => ?_⟩
  exact written_blocks (g := fun i r => UInt8.ofBitVec (v i r)) (by decide) h (by rwa [Nat.mul_comm i 4])

theorem xor_rep {x y : W32} {v w : Nat → Byte} (hx : WRep x v) (hy : WRep y w) : WRep (x ^^^ y) fun r => v r ^^^ w r := fun r t hr ht => by
  rw [BitVec.getLsbD_xor, BitVec.getLsbD_xor, hx r t hr ht, hy r t hr ht]

theorem WRep.congr {x : W32} {v w : Nat → Byte} (hx : WRep x v) (h : ∀ r, r < 4 → v r = w r) : WRep x w := fun r t hr ht => h r hr ▸ hx r t hr ht

theorem xor_byte (v w : Word) (r : Nat) : (v.xor w).byte r = v.byte r ^^^ w.byte r := by
  unfold Word.byte Word.xor
  split_ifs <;> rfl

theorem sub_byte (w : Word) (r : Nat) : (SubWord w).byte r = sbox (w.byte r) := by
  unfold Word.byte SubWord
  split_ifs <;> rfl

theorem rot_rep {x : W32} {w : Word} (h : WRep x w.byte) : WRep ((x <<< 24) ||| (x >>> 8)) (RotWord w).byte := by
  intro r t hr ht
  rw [BitVec.getLsbD_or, BitVec.getLsbD_shiftLeft, BitVec.getLsbD_ushiftRight]
  by_cases h3 : r = 3
  · subst h3
    rw [BitVec.getLsbD_of_ge x (8 + _) (by omega), show 8 * 3 + t - 24 = 8 * 0 + t by omega, h 0 t (by decide) ht]
    simp [show 8 * 3 + t < 32 by omega, Word.byte, RotWord]
  · rw [show 8 + (8 * r + t) = 8 * (r + 1) + t by omega, h (r + 1) t (by omega) ht]
    simp only [show (8 * r + t < 24) = True from eq_true (by omega), decide_true, Bool.not_true, Bool.and_false, Bool.false_and, Bool.false_or]
    interval_cases r
    · rfl
    · rfl
    · rfl
    · omega

theorem sub_word_spec {x : W32} {w : Word} (h : WRep x w.byte) : Post (sub_word x) (fun y => WRep y (SubWord w).byte) := by
  unfold sub_word
  simp only [wp_bind, wp_wr]
  have h0 : Holds (Buf.ofList (List.replicate 8 0#64)) 8 fun i => (List.replicate 8 0#64).getD i 0#64 := Holds.ofList (List.replicate 8 0#64) 0#64
  refine ⟨by rw [h0.1]; decide, ?_⟩
  refine PostF.mono (ortho_spec (h0.set (by decide) _)) fun q ⟨g, hg, hT⟩ => ?_
  refine PostF.mono (bitslice_spec hg) fun q ⟨g', hg', hS⟩ => ?_
  refine PostF.mono (ortho_spec hg') fun q ⟨g'', hg'', hT'⟩ => ?_
  simp only [wp_rd, wp_pure]
  refine ⟨_, hg''.2 0 (by decide), fun r t hr ht => ?_⟩
  rw [BitVec.getLsbD_setWidth, hT' 0 _ (by decide) (by omega)]
  rw [show (8 * r + t) % 8 = t by omega, show 8 * ((8 * r + t) / 8) + 0 = 8 * r by omega, sub_byte]
  simp only [show 8 * r + t < 32 by omega, decide_true, Bool.true_and]
  refine hS _ (w.byte r) (by omega) (fun t ht => ?_) t ht
  rw [hT t _ ht (by omega), show 8 * r % 8 = 0 by omega, show 8 * (8 * r / 8) = 8 * r by omega, upd_same, BitVec.getLsbD_setWidth, h r t hr ht]
  simp [show 8 * r + t < 64 by omega]

end Verif.Aes

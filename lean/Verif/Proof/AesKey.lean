import Verif.Proof.AesIo
import Mathlib.Data.List.GetD
/-! # AES: key schedule -/
namespace Verif.Aes
open Verif Verif.Model Verif.Model.Aes Verif.Spec

abbrev w0 : Word := ⟨0, 0, 0, 0⟩

theorem ke_length (Nk : Nat) (key : List UInt8) : ∀ n, (KeyExpansion Nk key n).length = Nk + n
  | 0 => by simp [KeyExpansion]
  | n + 1 => by simp [KeyExpansion, ke_length Nk key n]; omega

theorem ke_prefix (Nk : Nat) (key : List UInt8) {n m : Nat} (hm : m < Nk + n) : ∀ d, (KeyExpansion Nk key (n + d)).getD m w0 = (KeyExpansion Nk key n).getD m w0
  | 0 => rfl
  | d + 1 => by
    rw [← ke_prefix Nk key hm d]
    show (KeyExpansion Nk key (n + d + 1)).getD m w0 = _
    rw [KeyExpansion]
    exact List.getD_append _ _ _ _ (by rw [ke_length]; omega)

theorem ke_first (Nk : Nat) (key : List UInt8) {m N : Nat} (hm : m < Nk) : (KeyExpansion Nk key N).getD m w0 = keyWord key m := by
  have := ke_prefix Nk key (n := 0) (m := m) (by omega) N
  rw [Nat.zero_add] at this
  rw [this]
  simp [KeyExpansion, hm]

/-- The temporary word of the recurrence. -/
def tempWord (Nk i : Nat) (t : Word) : Word := if i % Nk = 0 then (SubWord (RotWord t)).xor (Rcon (i / Nk)) else if 6 < Nk ∧ i % Nk = 4 then SubWord t else t

theorem ke_step (Nk : Nat) (key : List UInt8) {N i : Nat} (hk : 0 < Nk) (h1 : Nk ≤ i) (h2 : i < Nk + N) :
    (KeyExpansion Nk key N).getD i w0 = ((KeyExpansion Nk key N).getD (i - Nk) w0).xor (tempWord Nk i ((KeyExpansion Nk key N).getD (i - 1) w0)) := by
  obtain ⟨n, rfl⟩ := Nat.exists_eq_add_of_le h1
  obtain ⟨d, rfl⟩ := Nat.exists_eq_add_of_le (show n + 1 ≤ N by omega)
  rw [ke_prefix Nk key (n := n + 1) (by omega) d, ke_prefix Nk key (n := n + 1) (m := Nk + n - Nk) (by omega) d, ke_prefix Nk key (n := n + 1) (m := Nk + n - 1) (by omega) d]
  have e1 : ∀ m, m < Nk + n → (KeyExpansion Nk key (n + 1)).getD m w0 = (KeyExpansion Nk key n).getD m w0 := fun m hm => ke_prefix Nk key hm 1
  rw [e1 (Nk + n - Nk) (by omega), e1 (Nk + n - 1) (by omega)]
  rw [KeyExpansion]
  rw [List.getD_append_right _ _ _ _ (by rw [ke_length]), ke_length, Nat.sub_self]
  rfl

theorem rcon_table : ∀ k, k < 10 → RconTable[k]? = some (some (UInt8.ofBitVec (xtimes k 1#8))) := by decide +kernel

theorem b32_rep (a : UInt8) : WRep (b32 a) (Word.byte ⟨a.toBitVec, 0#8, 0#8, 0#8⟩) := by
  intro r t hr ht
  rw [b32_bit _ (by omega)]
  by_cases h : r = 0
  · subst h; simp [Word.byte]
  · rw [BitVec.getLsbD_of_ge _ _ (by omega)]
    have : r = 1 ∨ r = 2 ∨ r = 3 := by omega
    rcases this with rfl | rfl | rfl <;> simp [Word.byte]

variable {Nk N : Nat} {key : List UInt8}

/-- The state of the first loop of the key schedule before word `i`. -/
def KeyInv (Nk N : Nat) (key : List UInt8) (i : Nat) (s : Buf W32 × W32 × Nat × Nat) : Prop :=
  s.1.size = 60 ∧ (∃ F, Seg s.1 0 i F ∧ ∀ m, m < i → WRep (F m) ((KeyExpansion Nk key N).getD m w0).byte) ∧ WRep s.2.1 ((KeyExpansion Nk key N).getD (i - 1) w0).byte ∧ s.2.2.1 = i % Nk ∧ s.2.2.2 + 1 = i / Nk

theorem keyStep_spec (hNk : Nk = 4 ∨ Nk = 6 ∨ Nk = 8) (hN : Nk + N = 4 * (Nk + 7)) {i : Nat} (h1 : Nk ≤ i) (h2 : i < Nk + N) {s : Buf W32 × W32 × Nat × Nat} (h : KeyInv Nk N key i s) :
    Post (keyStep Nk i s) (KeyInv Nk N key (i + 1)) := by
  obtain ⟨skey, tmp, j, k⟩ := s
  obtain ⟨hs, ⟨F, hF, hw⟩, ht, hj, hk⟩ := h
  dsimp only at hs hF hw ht hj hk
  have hpos : 0 < Nk := by omega
  unfold keyStep
  dsimp only
  have rest : ∀ tmp', WRep tmp' (tempWord Nk i ((KeyExpansion Nk key N).getD (i - 1) w0)).byte →
      Post (do
        let old ← rd skey (i - Nk)
        let tmp := tmp' ^^^ old
        let skey ← wr skey i tmp
        let j := j + 1
        branch (decide (j = Nk)) (pure (skey, tmp, 0, k + 1)) (pure (skey, tmp, j, k))) (KeyInv Nk N key (i + 1)) := by
    intro tmp' ht'
    have ho := hF (i - Nk) (by omega)
    rw [Nat.zero_add] at ho
    have hr : WRep (tmp' ^^^ F (i - Nk)) ((KeyExpansion Nk key N).getD i w0).byte := by
      rw [ke_step Nk key hpos h1 h2]
      refine (xor_rep ht' (hw _ (by omega))).congr fun r _ => ?_
      rw [xor_byte, BitVec.xor_comm]
    have hseg : Seg (skey.setIfInBounds i (some (tmp' ^^^ F (i - Nk)))) 0 (i + 1) (upd F i (tmp' ^^^ F (i - Nk))) := by
      intro m hm
      rw [Nat.zero_add]
      by_cases e : m = i
      · subst e
        rw [Array.getElem?_setIfInBounds_self_of_lt (by rw [hs]; omega), upd_same]
      · rw [Array.getElem?_setIfInBounds_ne (by omega), upd_ne e]
        have := hF m (by omega)
        rwa [Nat.zero_add] at this
    have hrep : ∀ m, m < i + 1 → WRep (upd F i (tmp' ^^^ F (i - Nk)) m) ((KeyExpansion Nk key N).getD m w0).byte := by
      intro m hm
      by_cases e : m = i
      · subst e; rw [upd_same]; exact hr
      · rw [upd_ne e]; exact hw m (by omega)
    simp only [wp_bind, wp_rd, wp_wr, wp_branch, wp_pure, decide_eq_true_eq, decide_eq_false_iff_not]
    refine ⟨_, ho, by rw [hs]; omega, fun e => ⟨by simp [hs], ⟨_, hseg, hrep⟩, by simpa using hr, ?_, ?_⟩, fun e => ⟨by simp [hs], ⟨_, hseg, hrep⟩, by simpa using hr, ?_, ?_⟩⟩
    · show 0 = (i + 1) % Nk
      rcases hNk with rfl | rfl | rfl <;> omega
    · show k + 1 + 1 = (i + 1) / Nk
      rcases hNk with rfl | rfl | rfl <;> omega
    · show j + 1 = (i + 1) % Nk
      rcases hNk with rfl | rfl | rfl <;> omega
    · show k + 1 = (i + 1) / Nk
      rcases hNk with rfl | rfl | rfl <;> omega
  refine wp_bind.mpr (wp_branch.mpr ?_)
  constructor
  · intro e
    have e : j = 0 := of_decide_eq_true e
    have e0 : i % Nk = 0 := by omega
    simp only [wp_bind]
    refine PostF.mono (sub_word_spec (rot_rep ht)) fun u hu => ?_
    simp only [wp_rd, wp_pure]
    refine ⟨_, rcon_table k (by rcases hNk with rfl | rfl | rfl <;> omega), ?_⟩
    have := rest (u ^^^ b32 (UInt8.ofBitVec (xtimes k 1#8))) ?_
    · simpa only [wp_bind, wp_rd] using this
    refine (xor_rep hu (b32_rep _)).congr fun r _ => ?_
    unfold tempWord
    rw [if_pos e0, xor_byte, ← hk]
    rfl
  · intro e
    have e : ¬ j = 0 := of_decide_eq_false e
    have e0 : ¬ i % Nk = 0 := by omega
    rw [wp_bind, wp_andM, wp_branch]
    constructor
    · intro e'
      have e' : 6 < Nk ∧ j = 4 := by simpa using e'
      refine PostF.mono (sub_word_spec ht) fun u hu => rest u ?_
      unfold tempWord
      rw [if_neg e0, if_pos ⟨e'.1, by omega⟩]
      exact hu
    · intro e'
      have e' : ¬ (6 < Nk ∧ j = 4) := by simpa using e'
      rw [wp_pure]
      refine rest tmp ?_
      unfold tempWord
      rw [if_neg e0, if_neg (by rw [← hj]; exact e')]
      exact ht

theorem mask1111 : ∀ p, p < 64 → (0x1111111111111111#64).getLsbD p = decide (p % 4 = 0) ∧ (0x2222222222222222#64).getLsbD p = decide (p % 4 = 1) ∧
    (0x4444444444444444#64).getLsbD p = decide (p % 4 = 2) ∧ (0x8888888888888888#64).getLsbD p = decide (p % 4 = 3) := by decide +kernel

theorem compress_bit (a b c d : W) {p : Nat} (hp : p < 64) :
    (compress a b c d).getLsbD p = if p % 4 = 0 then a.getLsbD p else if p % 4 = 1 then b.getLsbD p else if p % 4 = 2 then c.getLsbD p else d.getLsbD p := by
  obtain ⟨m1, m2, m3, m4⟩ := mask1111 p hp
  unfold compress
  simp only [BitVec.getLsbD_or, BitVec.getLsbD_and, m1, m2, m3, m4]
  have : p % 4 = 0 ∨ p % 4 = 1 ∨ p % 4 = 2 ∨ p % 4 = 3 := by omega
  rcases this with e | e | e | e <;> simp [e]

theorem fill_bit {x : W} (hx : ∀ p, p < 64 → p % 4 ≠ 0 → x.getLsbD p = false) {p : Nat} (hp : p < 64) : ((x <<< 4) - x).getLsbD p = x.getLsbD (4 * (p / 4)) := by
  have hx' : ∀ p, p % 4 ≠ 0 → x.getLsbD p = false := fun p h => by
    by_cases h64 : p < 64
    · exact hx p h64 h
    · exact BitVec.getLsbD_of_ge x p (by omega)
  have dis : ∀ a b : W, (∀ p, p < 64 → (a.getLsbD p && b.getLsbD p) = false) → a + b = a ||| b := fun a b h =>
    BitVec.add_eq_or_of_and_eq_zero _ _ (BitVec.eq_of_getLsbD_eq fun p hp => by rw [BitVec.getLsbD_and, h p hp]; simp)
  have e : (x <<< 4) - x = x + (x <<< 1) + (x <<< 2) + (x <<< 3) := by
    apply BitVec.eq_of_toNat_eq
    simp only [BitVec.toNat_sub, BitVec.toNat_add, BitVec.toNat_shiftLeft, Nat.shiftLeft_eq]
    omega
  have sh : ∀ s, s < 4 → ∀ p, p < 64 → (x <<< s).getLsbD p = (decide (p % 4 = s) && x.getLsbD (4 * (p / 4))) := by
    intro s hs p hp
    rw [BitVec.getLsbD_shiftLeft]
    by_cases e : p % 4 = s
    · rw [show p - s = 4 * (p / 4) by omega]
      simp [hp, e, show ¬ p < s by omega]
    · by_cases hps : p < s
      · simp [e, hps]
      · rw [hx' (p - s) (by omega)]; simp [e]
  have s0 := sh 0 (by decide)
  rw [show x <<< 0 = x by simp] at s0
  have s1 := sh 1 (by decide)
  have s2 := sh 2 (by decide)
  have s3 := sh 3 (by decide)
  rw [e, dis x (x <<< 1), dis _ (x <<< 2), dis _ (x <<< 3)]
  · rw [BitVec.getLsbD_or, BitVec.getLsbD_or, BitVec.getLsbD_or, s1 p hp, s2 p hp, s3 p hp, s0 p hp]
    have : p % 4 = 0 ∨ p % 4 = 1 ∨ p % 4 = 2 ∨ p % 4 = 3 := by omega
    rcases this with e | e | e | e <;> simp [e]
  · intro p hp
    rw [BitVec.getLsbD_or, BitVec.getLsbD_or, s1 p hp, s2 p hp, s3 p hp, s0 p hp]
    have : p % 4 = 0 ∨ p % 4 = 1 ∨ p % 4 = 2 ∨ p % 4 = 3 := by omega
    rcases this with e | e | e | e <;> simp [e]
  · intro p hp
    rw [BitVec.getLsbD_or, s1 p hp, s2 p hp, s0 p hp]
    have : p % 4 = 0 ∨ p % 4 = 1 ∨ p % 4 = 2 ∨ p % 4 = 3 := by omega
    rcases this with e | e | e | e <;> simp [e]
  · intro p hp
    rw [s1 p hp, s0 p hp]
    have : p % 4 = 0 ∨ p % 4 = 1 ∨ p % 4 = 2 ∨ p % 4 = 3 := by omega
    rcases this with e | e | e | e <;> simp [e]

theorem interleave_spec {q : Buf W} {i0 i1 : Nat} {w : Buf W32} {wo : Nat} {F : Nat → W32} (h : Seg w wo 4 F) (h0 : i0 < q.size) (h1 : i1 < q.size) :
    Post (br_aes_ct64_interleave_in q i0 i1 w wo) (fun q' => q' = (q.setIfInBounds i0 (some (spread (F 0) ||| (spread (F 2) <<< 8)))).setIfInBounds i1 (some (spread (F 1) ||| (spread (F 3) <<< 8)))) := by
  unfold br_aes_ct64_interleave_in
  simp only [wp_bind, wp_rd, wp_wr, Array.size_setIfInBounds]
  exact ⟨_, h 0 (by decide), _, h 1 (by decide), _, h 2 (by decide), _, h 3 (by decide), h0, h1, rfl⟩

/-- The two words of the packed key for round `u`. -/
def PackRep (w : Nat → Word) (u : Nat) (c0 c1 : W) : Prop := ∀ k t, k < 16 → t < 8 →
  (if t < 4 then c0 else c1).getLsbD (4 * (pos 0 k / 4) + t % 4) = ((w (4 * u + k / 4)).byte (k % 4)).getLsbD t

/-- Some of eight words are known. -/
def Known (q : Buf W) (D : Nat → Bool) (f : Nat → W) : Prop := q.size = 8 ∧ ∀ i, i < 8 → D i = true → q[i]? = some (some (f i))

theorem copy_word {q : Buf W} {D : Nat → Bool} {f : Nat → W} (h : Known q D f) {a b : Nat} (ha : a < 8) (hb : b < 8) (hD : D a = true) (hf : f a = f b) {Q : Buf W → Prop}
    (hQ : ∀ q', Known q' (fun i => D i || decide (i = b)) f → Q q') : PostF False (rd q a) (fun v => PostF False (wr q b v) Q) := by
  simp only [wp_rd, wp_wr]
  refine ⟨_, h.2 a ha hD, by rw [h.1]; exact hb, hQ _ ⟨by simp [h.1], fun i hi hd => ?_⟩⟩
  by_cases e : i = b
  · subst e
    rw [Array.getElem?_setIfInBounds_self_of_lt (by rw [h.1]; exact hb), hf]
  · rw [Array.getElem?_setIfInBounds_ne (by omega)]
    exact h.2 i hi (by simpa [e] using hd)

theorem keyPack_spec {skey : Buf W32} {u : Nat} {F : Nat → W32} {w : Nat → Word} {comp : Buf W} (hs : Seg skey (4 * u) 4 F) (hF : ∀ c, c < 4 → WRep (F c) (w (4 * u + c)).byte) (hc : 2 * u + 2 ≤ comp.size) :
    Post (keyPack skey u comp) (fun comp' => ∃ c0 c1, PackRep w u c0 c1 ∧ Written comp comp' (2 * u) 2 fun i => if i = 0 then c0 else c1) := by
  unfold keyPack
  rw [show Post _ _ = PostF False _ _ from rfl, wp_bind]
  refine PostF.mono (interleave_spec hs (by simp [Buf.uninit]) (by simp [Buf.uninit])) fun q hq => ?_
  have hsize : q.size = 8 := by subst hq; simp [Buf.uninit]
  have hq0 : q[0]? = some (some (packed (fun m => F (m % 4)) 0)) := by
    subst hq
    rw [Array.getElem?_setIfInBounds_ne (by decide), Array.getElem?_setIfInBounds_self_of_lt (by simp [Buf.uninit])]
    rfl
  have hq4 : q[4]? = some (some (packed (fun m => F (m % 4)) 4)) := by
    subst hq
    rw [Array.getElem?_setIfInBounds_self_of_lt (by simp [Buf.uninit])]
    rfl
  clear hq
  have hf : ∀ i, i < 8 → packed (fun m => F (m % 4)) i = packed (fun m => F (m % 4)) (4 * (i / 4)) := by
    intro i hi
    unfold packed
    dsimp only
    rw [show (4 * (i % 4) + i / 4) % 4 = (4 * (4 * (i / 4) % 4) + 4 * (i / 4) / 4) % 4 by omega, show (4 * (i % 4) + i / 4 + 2) % 4 = (4 * (4 * (i / 4) % 4) + 4 * (i / 4) / 4 + 2) % 4 by omega]
  have hK : Known q (fun i => decide (i = 0) || decide (i = 4)) (packed fun m => F (m % 4)) := by
    refine ⟨hsize, fun i hi hd => ?_⟩
    have : i = 0 ∨ i = 4 := by simpa using hd
    rcases this with rfl | rfl
    · exact hq0
    · exact hq4
  clear hsize hq0 hq4
  simp only [wp_bind]
  refine copy_word hK (by decide) (by decide) (by decide) (hf 1 (by decide)).symm fun q hK => ?_
  refine copy_word hK (by decide) (by decide) (by decide) (hf 2 (by decide)).symm fun q hK => ?_
  refine copy_word hK (by decide) (by decide) (by decide) (hf 3 (by decide)).symm fun q hK => ?_
  refine copy_word hK (by decide) (by decide) (by decide) (hf 5 (by decide)).symm fun q hK => ?_
  refine copy_word hK (by decide) (by decide) (by decide) (hf 6 (by decide)).symm fun q hK => ?_
  refine copy_word hK (by decide) (by decide) (by decide) (hf 7 (by decide)).symm fun q hK => ?_
  have hH : Holds q 8 (packed fun m => F (m % 4)) := ⟨hK.1, fun i hi => hK.2 i hi (by interval_cases i <;> decide)⟩
  refine PostF.mono (ortho_spec hH) fun q ⟨g, hg, hT⟩ => ?_
  have hr : Rep g fun _ k => (w (4 * u + k / 4)).byte (k % 4) := by
    refine packed_rep (fun b c hb hc => ?_) hT
    rw [show (4 * b + c) % 4 = c by omega]
    refine (hF c hc).congr fun r hr => ?_
    rw [show (4 * c + r) / 4 = c by omega, show (4 * c + r) % 4 = r by omega]
  simp only [wp_rd, wp_wr, Array.size_setIfInBounds]
  refine ⟨_, hg.2 0 (by decide), _, hg.2 1 (by decide), _, hg.2 2 (by decide), _, hg.2 3 (by decide), by omega, _, hg.2 4 (by decide), _, hg.2 5 (by decide), _, hg.2 6 (by decide), _, hg.2 7 (by decide), by omega, ?_⟩
  refine ⟨_, _, ?_, ((Written.refl comp (2 * u) fun i => if i = 0 then compress (g 0) (g 1) (g 2) (g 3) else compress (g 4) (g 5) (g 6) (g 7)).push (by omega) rfl rfl).push (by omega) rfl rfl⟩
  intro k t hk ht
  have hpt : 4 * (pos 0 k / 4) + t % 4 = pos (t % 4) k := by unfold pos; omega
  have hb : t % 4 < 4 := by omega
  have hp := pos_lt hb hk
  have hm : pos (t % 4) k % 4 = t % 4 := by unfold pos; omega
  rw [hpt]
  have := hr (t % 4) k hb hk t ht
  rw [← this]
  interval_cases t <;> simp only [Nat.reduceMod, Nat.reduceLT, if_true, if_false] at hp hm ⊢ <;> rw [compress_bit _ _ _ _ hp, hm] <;> rfl

/-- The word `4 u + j` of the expanded key, from word `u` of the packed key. -/
def expW (x : W) : Nat → W
  | 0 => ((x &&& 0x1111111111111111#64) <<< 4) - (x &&& 0x1111111111111111#64)
  | 1 => (((x &&& 0x2222222222222222#64) >>> 1) <<< 4) - ((x &&& 0x2222222222222222#64) >>> 1)
  | 2 => (((x &&& 0x4444444444444444#64) >>> 2) <<< 4) - ((x &&& 0x4444444444444444#64) >>> 2)
  | _ => (((x &&& 0x8888888888888888#64) >>> 3) <<< 4) - ((x &&& 0x8888888888888888#64) >>> 3)

theorem masked_fill {x m : W} {j : Nat} (hj : j < 4) (hm : ∀ p, p < 64 → m.getLsbD p = decide (p % 4 = j)) {p : Nat} (hp : p < 64) :
    ((((x &&& m) >>> j) <<< 4) - ((x &&& m) >>> j)).getLsbD p = x.getLsbD (4 * (p / 4) + j) := by
  have hb : ∀ p, p < 64 → ((x &&& m) >>> j).getLsbD p = (decide (p % 4 = 0) && x.getLsbD (p + j)) := by
    intro p hp
    rw [BitVec.getLsbD_ushiftRight, BitVec.getLsbD_and, Nat.add_comm j p]
    by_cases h : p + j < 64
    · rw [hm _ h, Bool.and_comm]
      congr 1
      exact decide_eq_decide.mpr (by omega)
    · rw [BitVec.getLsbD_of_ge x _ (by omega)]; simp
  rw [fill_bit (fun p hp h => by rw [hb p hp]; simp [h]) hp, hb _ (by omega)]
  simp

theorem expW_bit (x : W) {p j : Nat} (hj : j < 4) (hp : p < 64) : (expW x j).getLsbD p = x.getLsbD (4 * (p / 4) + j) := by
  interval_cases j
  · have := masked_fill (x := x) (m := 0x1111111111111111#64) (j := 0) (by decide) (fun p hp => (mask1111 p hp).1) hp
    rwa [show (x &&& 0x1111111111111111#64) >>> 0 = x &&& 0x1111111111111111#64 by simp] at this
  · exact masked_fill (j := 1) (by decide) (fun p hp => (mask1111 p hp).2.1) hp
  · exact masked_fill (j := 2) (by decide) (fun p hp => (mask1111 p hp).2.2.1) hp
  · exact masked_fill (j := 3) (by decide) (fun p hp => (mask1111 p hp).2.2.2) hp

theorem expandStep_spec {comp skey : Buf W} {u : Nat} {x : W} (hx : comp[u]? = some (some x)) (hs : 4 * u + 4 ≤ skey.size) : Post (expandStep comp u skey) (fun s => Written skey s (4 * u) 4 (expW x)) := by
  unfold expandStep
  simp only [wp_bind, wp_rd, wp_wr, Array.size_setIfInBounds]
  exact ⟨_, hx, by omega, by omega, by omega, by omega, ((((Written.refl skey (4 * u) (expW x)).push (by omega) rfl rfl).push (by omega) rfl rfl).push (by omega) rfl rfl).push (by omega) rfl rfl⟩

theorem skey_expand_spec {comp skey : Buf W} {Nr : Nat} {C : Nat → W} (hc : Holds comp (2 * (Nr + 1)) C) (hs : skey.size = 8 * (Nr + 1)) :
    Post (br_aes_ct64_skey_expand skey comp Nr) (fun s => Holds s (8 * (Nr + 1)) fun i => expW (C (i / 4)) (i % 4)) := by
  unfold br_aes_ct64_skey_expand
  have e : (Nr + 1) <<< 1 = 2 * (Nr + 1) := by rw [Nat.shiftLeft_eq]; omega
  rw [e]
  refine wp_forN (fun i s => Written skey s 0 (i * 4) fun i => expW (C (i / 4)) (i % 4)) (by rw [Nat.zero_mul]; exact Written.refl _ _ _) ?_ fun s h => ?_
  · intro i s hi h
    refine PostF.mono (expandStep_spec (hc.2 i hi) (by rw [h.1]; omega)) fun s' h' => ?_
    exact written_blocks (g := fun i j => expW (C i) j) (by decide) h (by rwa [Nat.zero_add, Nat.mul_comm i 4])
  · exact Written.holds (by rwa [show 2 * (Nr + 1) * 4 = 8 * (Nr + 1) by omega] at h) hs

theorem keyRep_of {C : Nat → W} {w : Nat → Word} {round : Nat} (h : PackRep w round (C (2 * round)) (C (2 * round + 1))) : KeyRep (fun i => expW (C (i / 4)) (i % 4)) w round := by
  intro t b k ht hb hk
  dsimp only
  rw [expW_bit _ (by omega) (pos_lt hb hk), show (8 * round + t) % 4 = t % 4 by omega, show pos b k / 4 = pos 0 k / 4 by unfold pos; omega]
  rw [← h k t hk ht]
  split
  · rw [show (8 * round + t) / 4 = 2 * round by omega]
  · rw [show (8 * round + t) / 4 = 2 * round + 1 by omega]

theorem keysched_spec (hNk : Nk = 4 ∨ Nk = 6 ∨ Nk = 8) {comp : Buf W} {kb : Buf UInt8} {ko : Nat} (hk : Seg kb ko (4 * Nk) fun i => key.getD i 0) (hc : comp.size = 2 * (numRounds Nk + 1)) :
    Post (br_aes_ct64_keysched comp kb ko (4 * Nk)) (fun c => ∃ C, Holds c (2 * (numRounds Nk + 1)) C ∧ ∀ u, u ≤ numRounds Nk → PackRep (fun i => (expandedKey Nk key).getD i w0) u (C (2 * u)) (C (2 * u + 1))) := by
  have e1 : (4 * Nk) >>> 2 = Nk := by rw [Nat.shiftRight_eq_div_pow]; omega
  have e2 : 10 + ((4 * Nk - 16) >>> 2) = numRounds Nk := by rw [Nat.shiftRight_eq_div_pow]; unfold numRounds; omega
  have e3 : (numRounds Nk + 1) <<< 2 = 4 * (numRounds Nk + 1) := by rw [Nat.shiftLeft_eq]; omega
  have hN : Nk + (4 * (numRounds Nk + 1) - Nk) = 4 * (Nk + 7) := by unfold numRounds; omega
  unfold br_aes_ct64_keysched
  simp only [e1, e2, e3]
  rw [show Post _ _ = PostF False _ _ from rfl, wp_bind]
  refine PostF.mono (range_dec_spec hk (by simp [Buf.uninit]; omega)) fun skey hs => ?_
  have hsz : skey.size = 60 := by rw [hs.1]; simp [Buf.uninit]
  simp only [wp_bind, wp_rd]
  have hlast := hs.2.1 (Nk - 1) (by omega)
  rw [Nat.zero_add] at hlast
  have hdec : ∀ m, m < Nk → WRep (decW fun r => key.getD (4 * m + r) 0) ((KeyExpansion Nk key (4 * (numRounds Nk + 1) - Nk)).getD m w0).byte := by
    intro m hm
    rw [ke_first Nk key hm]
    refine (decW_rep _).congr fun r hr => ?_
    have : r = 0 ∨ r = 1 ∨ r = 2 ∨ r = 3 := by omega
    rcases this with rfl | rfl | rfl | rfl <;> rfl
  refine ⟨_, hlast, wp_forFrom (KeyInv Nk (4 * (numRounds Nk + 1) - Nk) key) ⟨hsz, ⟨_, hs.seg, hdec⟩, hdec _ (by omega), ?_, ?_⟩ (fun i s h1 h2 h => keyStep_spec hNk hN h1 h2 h) fun s h => ?_⟩
  · simp
  · simp [Nat.div_self (show 0 < Nk by omega)]
  obtain ⟨sk, tmp, j, k⟩ := s
  obtain ⟨-, ⟨F, hF, hw⟩, -⟩ := h
  dsimp only at hF ⊢
  rw [show (4 * (numRounds Nk + 1) + 3) / 4 = numRounds Nk + 1 by omega]
  have hlen : Nk + (4 * (numRounds Nk + 1) - Nk) = 4 * (numRounds Nk + 1) := by unfold numRounds; omega
  rw [hlen] at hF hw
  refine wp_forN (fun u c => ∃ C, Written comp c 0 (2 * u) C ∧ ∀ v, v < u → PackRep (fun i => (expandedKey Nk key).getD i w0) v (C (2 * v)) (C (2 * v + 1))) ⟨fun _ => 0#64, Written.refl _ _ _, fun v hv => by omega⟩ ?_ ?_
  · intro u c hu ⟨C, hC, hP⟩
    refine PostF.mono (keyPack_spec (F := fun c => F (4 * u + c)) (w := fun i => (expandedKey Nk key).getD i w0) (fun i hi => ?_) (fun i hi => hw _ (by omega)) (by rw [hC.1]; omega)) fun c' ⟨c0, c1, hp, hwr⟩ => ?_
    · have := hF (4 * u + i) (by omega)
      rwa [Nat.zero_add] at this
    · rw [show 2 * u = 0 + 2 * u by omega] at hwr
      refine ⟨_, hC.trans hwr, fun v hv => ?_⟩
      by_cases e : v = u
      · subst e
        rw [if_neg (show ¬ 2 * v < 2 * v by omega), if_neg (show ¬ 2 * v + 1 < 2 * v by omega), if_pos (show 2 * v - 2 * v = 0 by omega), if_neg (show ¬ 2 * v + 1 - 2 * v = 0 by omega)]
        exact hp
      · rw [if_pos (by omega), if_pos (by omega)]
        exact hP v (by omega)
  · intro c ⟨C, hC, hP⟩
    exact ⟨C, hC.holds hc, fun u hu => hP u (by omega)⟩

/-- What the key expansion leaves. -/
def KeyOk (Nk : Nat) (key : List UInt8) (sk : Buf W) : Prop := ∃ G, Holds sk (8 * (numRounds Nk + 1)) G ∧ ∀ u, u ≤ numRounds Nk → KeyRep G (fun i => (expandedKey Nk key).getD i w0) u

theorem keyexp_spec (hNk : Nk = 4 ∨ Nk = 6 ∨ Nk = 8) {comp skey : Buf W} {kb : Buf UInt8} {ko : Nat} (hk : Seg kb ko (4 * Nk) fun i => key.getD i 0) (hc : comp.size = 2 * (numRounds Nk + 1)) (hs : skey.size = 8 * (numRounds Nk + 1)) :
    Post (do
      let c ← br_aes_ct64_keysched comp kb ko (4 * Nk)
      br_aes_ct64_skey_expand skey c (numRounds Nk)) (KeyOk Nk key) := by
  rw [show Post _ _ = PostF False _ _ from rfl, wp_bind]
  refine PostF.mono (keysched_spec hNk hk hc) fun c ⟨C, hC, hP⟩ => ?_
  exact PostF.mono (skey_expand_spec hC hs) fun s h => ⟨_, h, fun u hu => keyRep_of (hP u hu)⟩

theorem aes128_keyexp_spec {kb : Buf UInt8} {ko : Nat} (hk : Seg kb ko 16 fun i => key.getD i 0) : Post (aes128_ecb_keyexp kb ko) (KeyOk 4 key) :=
  keyexp_spec (Nk := 4) (by decide) hk (by simp [Buf.uninit, numRounds]) (by simp [Buf.uninit, numRounds])

theorem aes192_keyexp_spec {kb : Buf UInt8} {ko : Nat} (hk : Seg kb ko 24 fun i => key.getD i 0) : Post (aes192_ecb_keyexp kb ko) (KeyOk 6 key) :=
  keyexp_spec (Nk := 6) (by decide) hk (by simp [Buf.uninit, numRounds]) (by simp [Buf.uninit, numRounds])

theorem aes256_keyexp_spec {kb : Buf UInt8} {ko : Nat} (hk : Seg kb ko 32 fun i => key.getD i 0) : Post (aes256_ecb_keyexp kb ko) (KeyOk 8 key) :=
  keyexp_spec (Nk := 8) (by decide) hk (by simp [Buf.uninit, numRounds]) (by simp [Buf.uninit, numRounds])

end Verif.Aes

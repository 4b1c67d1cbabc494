import Verif.Proof.AesKey
/-! # AES: blocks -/
namespace Verif.Aes
open Verif Verif.Model Verif.Model.Aes Verif.Spec

theorem onState_getD (f : AState → AState) (s : List Byte) {k : Nat} (hk : k < 16) : (onState f s).getD k 0#8 = f (fun k => s.getD k 0#8) k := by
  unfold onState
  simp [hk]

theorem map_toBitVec_getD (l : List UInt8) (k : Nat) : (l.map UInt8.toBitVec).getD k 0#8 = (l.getD k 0).toBitVec := by
  rw [show (0#8 : Byte) = (0 : UInt8).toBitVec from rfl, List.getD_map]

theorem map_ofBitVec_getD (l : List Byte) (k : Nat) : (l.map UInt8.ofBitVec).getD k 0 = UInt8.ofBitVec (l.getD k 0#8) := by
  rw [show (0 : UInt8) = UInt8.ofBitVec 0#8 from rfl, List.getD_map]

theorem AES_length (Nk : Nat) (key block : List UInt8) : (AES Nk key block).length = 16 := by
  unfold AES Cipher onState; simp

variable {Nk : Nat} {key : List UInt8}

theorem out_spec {w : Buf W32} {q : Buf W} {h : Nat → W} (hq : Holds q 8 h) (hw : w.size = 16) :
    Post (forN 4 w fun i w => do br_aes_ct64_interleave_out w (i <<< 2) (← rd q i) (← rd q (i + 4))) (fun w' => Holds w' 16 (unpacked h)) := by
  refine wp_forN (fun i w' => Written w w' 0 (4 * i) (unpacked h)) (Written.refl _ _ _) ?_ (fun w' h' => h'.holds hw)
  intro i w' hi h'
  unfold br_aes_ct64_interleave_out
  have e : i <<< 2 = 4 * i := by rw [Nat.shiftLeft_eq]; omega
  have hs := h'.1
  simp only [e, wp_bind, wp_rd, wp_wr, Array.size_setIfInBounds]
  refine ⟨_, hq.2 i (by omega), _, hq.2 (i + 4) (by omega), by omega, by omega, by omega, by omega, ?_⟩
  have u0 : gather (h i) = unpacked h (4 * i) := by
    unfold unpacked
    rw [show 4 * i / 4 + 4 * (4 * i % 2) = i by omega, show 8 * (4 * i % 4 / 2) = 0 by omega]; simp
  have u1 : gather (h (i + 4)) = unpacked h (4 * i + 1) := by
    unfold unpacked
    rw [show (4 * i + 1) / 4 + 4 * ((4 * i + 1) % 2) = i + 4 by omega, show 8 * ((4 * i + 1) % 4 / 2) = 0 by omega]; simp
  have u2 : gather (h i >>> 8) = unpacked h (4 * i + 2) := by
    unfold unpacked
    rw [show (4 * i + 2) / 4 + 4 * ((4 * i + 2) % 2) = i by omega, show 8 * ((4 * i + 2) % 4 / 2) = 8 by omega]
  have u3 : gather (h (i + 4) >>> 8) = unpacked h (4 * i + 3) := by
    unfold unpacked
    rw [show (4 * i + 3) / 4 + 4 * ((4 * i + 3) % 2) = i + 4 by omega, show 8 * ((4 * i + 3) % 4 / 2) = 8 by omega]
  exact (((h'.push (by omega) (by omega) u0).push (by omega) (by omega) u1).push (by omega) (by omega) u2).push (by omega) (by omega) u3

theorem in_spec {w : Buf W32} {F : Nat → W32} (hw : Holds w 16 F) :
    Post (forN 4 (Buf.uninit W 8) fun i q => br_aes_ct64_interleave_in q i (i + 4) w (i <<< 2)) (fun q => Holds q 8 (packed F)) := by
  refine wp_forN (fun i q => Known q (fun j => decide (j % 4 < i)) (packed F)) ⟨by simp [Buf.uninit], fun i _ h => by simp at h⟩ ?_ ?_
  · intro i q hi h
    have e : i <<< 2 = 4 * i := by rw [Nat.shiftLeft_eq]; omega
    rw [e]
    refine PostF.mono (interleave_spec (F := fun c => F (4 * i + c)) (fun c hc => hw.2 _ (by omega)) (by rw [h.1]; omega) (by rw [h.1]; omega)) fun q' hq' => ?_
    subst hq'
    refine ⟨by simp [h.1], fun j hj hd => ?_⟩
    have hd : j % 4 < i + 1 := of_decide_eq_true hd
    by_cases h4 : j = i + 4
    · subst h4
      rw [Array.getElem?_setIfInBounds_self_of_lt (by simp [h.1]; omega)]
      unfold packed
      rw [show 4 * ((i + 4) % 4) + (i + 4) / 4 = 4 * i + 1 by omega]
    · rw [Array.getElem?_setIfInBounds_ne (by omega)]
      by_cases h0 : j = i
      · subst h0
        rw [Array.getElem?_setIfInBounds_self_of_lt (by rw [h.1]; omega)]
        unfold packed
        rw [show 4 * (j % 4) + j / 4 = 4 * j by omega]
        rfl
      · rw [Array.getElem?_setIfInBounds_ne (by omega)]
        exact h.2 j hj (decide_eq_true (by omega))
  · intro q h
    exact ⟨h.1, fun i hi => h.2 i hi (decide_eq_true (by omega))⟩

theorem round_spec {q sk : Buf W} {f G : Nat → W} {n i N : Nat} {w : List Word} {s : Nat → List Byte} (h : Holds q 8 f) (hr : Rep f fun b k => (rounded w (s b) i).getD k 0#8)
    (hs : Holds sk N G) (hN : 8 * (i + 1) + 8 ≤ N) (hk : KeyRep G (fun i => w.getD i w0) (i + 1)) (hn : n = i + 1) :
    Post (roundStep sk n q) (fun q' => ∃ g, Holds q' 8 g ∧ Rep g fun b k => (rounded w (s b) (i + 1)).getD k 0#8) := by
  subst hn
  unfold roundStep
  rw [show Post _ _ = PostF False _ _ from rfl, wp_bind]
  refine PostF.mono (sub_spec h hr) fun q ⟨f, h, hr⟩ => ?_
  rw [wp_bind]
  refine PostF.mono (shift_spec h hr) fun q ⟨f, h, hr⟩ => ?_
  rw [wp_bind]
  refine PostF.mono (mix_spec h hr) fun q ⟨f, h, hr⟩ => ?_
  have e : (i + 1) <<< 3 = 8 * (i + 1) := by rw [Nat.shiftLeft_eq]; omega
  rw [e]
  refine PostF.mono (round_key_spec h hr hs hN hk) fun q ⟨f, h, hr⟩ => ⟨f, h, hr.congr fun b k hb hk => ?_⟩
  rw [rounded, onState_getD _ _ hk]

theorem ecb4x_spec {out : Buf UInt8} {oo : Nat} {ivw : Buf W32} {sk : Buf W} {F : Nat → W32} {B : Nat → List UInt8} (hk : KeyOk Nk key sk) (hi : Seg ivw 0 16 F)
    (hF : ∀ b c, b < 4 → c < 4 → WRep (F (4 * b + c)) fun r => ((B b).getD (4 * c + r) 0).toBitVec) (ho : oo + 64 ≤ out.size) :
    Post (aes_ecb4x out oo ivw sk (numRounds Nk)) (fun out' => Written out out' oo 64 fun m => (AES Nk key (B (m / 16))).getD (m % 16) 0) := by
  obtain ⟨G, hG, hkr⟩ := hk
  have hR : 1 ≤ numRounds Nk := by unfold numRounds; omega
  unfold aes_ecb4x
  rw [show Post _ _ = PostF False _ _ from rfl, wp_bind]
  refine wp_forN (fun i w => Written (Buf.uninit W32 16) w 0 i F) (Written.refl _ _ _) ?_ fun w hw => ?_
  · intro i w hi' hw
    simp only [wp_bind, wp_rd, wp_wr]
    have := hi i hi'
    rw [Nat.zero_add] at this
    exact ⟨_, this, by rw [hw.1]; simp [Buf.uninit]; exact hi', hw.push (by simp [Buf.uninit]; exact hi') (by omega) rfl⟩
  have hw := hw.holds (by simp [Buf.uninit])
  rw [wp_bind]
  refine PostF.mono (in_spec hw) fun q hq => ?_
  rw [wp_bind]
  refine PostF.mono (ortho_spec hq) fun q ⟨f, hf, hT⟩ => ?_
  have hr : Rep f fun b k => ((B b).map UInt8.toBitVec).getD k 0#8 := packed_rep (fun b c hb hc => (hF b c hb hc).congr fun r _ => (map_toBitVec_getD _ _).symm) hT
  rw [wp_bind]
  refine PostF.mono (round_key_spec (round := 0) (w := expandedKey Nk key) hf hr hG (by omega) (hkr 0 (by omega))) fun q ⟨f, h, hr⟩ => ?_
  have hr : Rep f fun b k => (rounded (expandedKey Nk key) ((B b).map UInt8.toBitVec) 0).getD k 0#8 := hr.congr fun b k hb hk => by
    rw [rounded, onState_getD _ _ hk]
  rw [wp_bind]
  refine wp_forFrom (fun i q => ∃ f, Holds q 8 f ∧ Rep f fun b k => (rounded (expandedKey Nk key) ((B b).map UInt8.toBitVec) (i - 1)).getD k 0#8) ⟨f, h, hr⟩ ?_ ?_
  · intro i q h1 h2 ⟨f, h, hr⟩
    refine PostF.mono (round_spec (i := i - 1) h hr hG (by omega) (hkr _ (by omega)) (by omega)) fun q' ⟨g, hg, hgr⟩ => ⟨g, hg, ?_⟩
    rwa [show i + 1 - 1 = i - 1 + 1 by omega]
  intro q ⟨f, h, hr⟩
  rw [show 1 + (numRounds Nk - 1) - 1 = numRounds Nk - 1 by omega] at hr
  rw [wp_bind]
  refine PostF.mono (sub_spec h hr) fun q ⟨f, h, hr⟩ => ?_
  rw [wp_bind]
  refine PostF.mono (shift_spec h hr) fun q ⟨f, h, hr⟩ => ?_
  rw [wp_bind]
  refine PostF.mono (round_key_spec (w := expandedKey Nk key) h hr hG (by omega) (hkr _ (by omega))) fun q ⟨f, h, hr⟩ => ?_
  have hr : Rep f fun b k => (Cipher (expandedKey Nk key) (numRounds Nk) ((B b).map UInt8.toBitVec)).getD k 0#8 := hr.congr fun b k hb hk => by
    rw [Cipher, onState_getD _ _ hk]
  rw [wp_bind]
  refine PostF.mono (ortho_spec h) fun q ⟨g, hg, hT⟩ => ?_
  rw [wp_bind]
  refine PostF.mono (out_spec hg hw.1) fun w' hw' => ?_
  have hu := unpacked_rep hr hT
  refine PostF.mono (range_enc_spec (v := fun i r => (Cipher (expandedKey Nk key) (numRounds Nk) ((B (i / 4)).map UInt8.toBitVec)).getD (4 * (i % 4) + r) 0#8) hw'.seg (fun i hi => ?_) ho) fun out' ho' => ho'.congr fun m hm => ?_
  · have := hu (i / 4) (i % 4) (by omega) (by omega)
    rwa [show 4 * (i / 4) + i % 4 = i by omega] at this
  · unfold AES
    rw [map_ofBitVec_getD, show m / 4 / 4 = m / 16 by omega, show 4 * (m / 4 % 4) + m % 4 = m % 16 by omega]

/-- Block `j` of bytes. -/
def blockOf (f : Nat → UInt8) (j : Nat) : List UInt8 := (List.range 16).map fun k => f (16 * j + k)

theorem blockOf_getD (f : Nat → UInt8) (j : Nat) {k : Nat} (hk : k < 16) : (blockOf f j).getD k 0 = f (16 * j + k) := by
  unfold blockOf; simp [hk]

theorem decW_block (f : Nat → UInt8) (o : Nat) {b c : Nat} (hc : c < 4) : WRep (decW fun r => f (16 * o + (4 * (4 * b + c) + r))) fun r => ((blockOf f (o + b)).getD (4 * c + r) 0).toBitVec := by
  refine (decW_rep _).congr fun r hr => ?_
  rw [blockOf_getD f _ (by omega), show 16 * o + (4 * (4 * b + c) + r) = 16 * (o + b) + (4 * c + r) by omega]

/-- Byte `r` of a word. -/
def byteOf (x : W32) (r : Nat) : Byte := x.extractLsb' (8 * r) 8

theorem byteOf_rep (x : W32) : WRep x (byteOf x) := by
  intro r t hr ht
  unfold byteOf
  rw [BitVec.getLsbD_extractLsb']
  simp [ht]

theorem ecb_spec {stk : Buf W32} {F : Nat → W32} {out inp : Buf UInt8} {oo io n : Nat} {sk : Buf W} {f : Nat → UInt8} (hk : KeyOk Nk key sk) (hst : Holds stk 16 F) (hi : Seg inp io (16 * n) f) (ho : oo + 16 * n ≤ out.size) :
    Post (aes_ecb stk out oo inp io n sk (numRounds Nk)) (fun out' => Written out out' oo (16 * n) fun m => (AES Nk key (blockOf f (m / 16))).getD (m % 16) 0) := by
  unfold aes_ecb
  rw [show Post _ _ = PostF False _ _ from rfl, wp_bind]
  refine wp_while (fun (bl, out', oo', io', n') => ∃ d, n' + d = n ∧ oo' = oo + 16 * d ∧ io' = io + 16 * d ∧ (∃ F, Holds bl 16 F) ∧ Written out out' oo (16 * d) fun m => (AES Nk key (blockOf f (m / 16))).getD (m % 16) 0)
    (fun s => s.2.2.2.2) (fun s => decide (s.2.2.2.2 ≥ 4)) ⟨0, by omega, by omega, by omega, ⟨F, hst⟩, Written.refl _ _ _⟩ (le_refl _) ?_ ?_ ?_
  · rintro ⟨bl, out', oo', io', n'⟩ _
    rw [wp_pure]
  · rintro ⟨bl, out', oo', io', n'⟩ ⟨d, hd, rfl, rfl, ⟨F, hbl⟩, hwr⟩ hc
    have hc : n' ≥ 4 := of_decide_eq_true hc
    refine ⟨by dsimp only; omega, ?_⟩
    rw [wp_bind]
    refine PostF.mono (range_dec_spec (hi.sub (16 * d) 64 (by omega)) (by rw [hbl.1])) fun bl' hbl' => ?_
    rw [wp_bind]
    refine PostF.mono (ecb4x_spec (B := fun b => blockOf f (d + b)) hk hbl'.seg (fun b c hb hc => decW_block f d hc) (by rw [hwr.1]; omega)) fun out'' ho'' => ?_
    rw [wp_pure]
    refine ⟨⟨d + 4, by omega, by omega, by omega, ⟨_, hbl'.holds hbl.1⟩, ?_⟩, by dsimp only; omega⟩
    rw [show 16 * (d + 4) = 16 * d + 64 by omega]
    refine (hwr.trans ho'').congr fun m hm => ?_
    split
    · rfl
    · rw [show d + (m - 16 * d) / 16 = m / 16 by omega, show (m - 16 * d) % 16 = m % 16 by omega]
  · rintro ⟨bl, out', oo', io', n'⟩ ⟨d, hd, rfl, rfl, ⟨F, hbl⟩, hwr⟩ hc
    have hc : ¬ n' ≥ 4 := of_decide_eq_false hc
    dsimp only
    rw [wp_branch]
    refine ⟨fun _ => ?_, fun h0 => ?_⟩
    · rw [wp_bind]
      refine PostF.mono (range_dec_spec (vo := 0) (num := n' * 4) ((hi.sub (16 * d) (4 * (n' * 4)) (by omega))) (by rw [hbl.1]; omega)) fun bl' hbl' => ?_
      rw [wp_bind]
      have hseg : Seg bl' 0 16 fun i => if i < n' * 4 then decW fun r => f (16 * d + (4 * i + r)) else F i := by
        intro i hi
        beta_reduce
        by_cases h : i < n' * 4
        · rw [if_pos h]; exact hbl'.2.1 i h
        · rw [if_neg h, hbl'.2.2 _ (by omega), Nat.zero_add]; exact hbl.2 i hi
      refine PostF.mono (ecb4x_spec (out := Buf.uninit UInt8 64) (oo := 0) (B := fun b => if b < n' then blockOf f (d + b) else (List.range 16).map fun k => UInt8.ofBitVec (byteOf (F (4 * b + k / 4)) (k % 4))) hk hseg (fun b c hb hc => ?_) (by simp [Buf.uninit])) fun t ht => ?_
      · by_cases h : b < n'
        · rw [if_pos (show 4 * b + c < n' * 4 by omega), if_pos h]
          exact decW_block f d hc
        · rw [if_neg (show ¬ 4 * b + c < n' * 4 by omega), if_neg h]
          refine (byteOf_rep _).congr fun r hr => ?_
          simp only [List.getD_eq_getElem?_getD, List.getElem?_map, List.getElem?_range (show 4 * c + r < 16 by omega), Option.map_some, Option.getD_some]
          rw [show (4 * c + r) / 4 = c by omega, show (4 * c + r) % 4 = r by omega]
      · refine PostF.mono (memcpy_spec (n := n' * 16) (by rw [hwr.1]; omega) (ht.seg.sub 0 (n' * 16) (by omega))) fun o ho => ?_
        rw [show 16 * n = 16 * d + n' * 16 by omega]
        refine (hwr.trans ho).congr fun m hm => ?_
        split
        · rfl
        · rw [Nat.zero_add, if_pos (show (m - 16 * d) / 16 < n' by omega), show d + (m - 16 * d) / 16 = m / 16 by omega, show (m - 16 * d) % 16 = m % 16 by omega]
    · rw [wp_pure]
      have : n' = 0 := by simpa using h0
      rwa [show 16 * n = 16 * d by omega]

theorem swap32_bit (x : W32) {r t : Nat} (hr : r < 4) (ht : t < 8) : (br_swap32 x).getLsbD (8 * r + t) = x.getLsbD (8 * (3 - r) + t) := by
  unfold br_swap32
  interval_cases r <;> interval_cases t <;> simp

theorem swap32_swap32 (x : W32) : br_swap32 (br_swap32 x) = x := by
  apply BitVec.eq_of_getLsbD_eq
  intro p hp
  rw [show p = 8 * (p / 8) + p % 8 by omega, swap32_bit _ (by omega) (by omega), swap32_bit _ (by omega) (by omega), show 3 - (3 - p / 8) = p / 8 by omega]

theorem swap32_rep (n : Nat) : WRep (br_swap32 (BitVec.ofNat 32 n)) fun r => ((be32 n).getD r 0).toBitVec := by
  intro r t hr ht
  rw [swap32_bit _ hr ht, BitVec.getLsbD_ofNat]
  have e : (be32 n).getD r 0 = UInt8.ofNat (n / 2 ^ (8 * (3 - r))) := by
    unfold be32
    simp only [List.getD_eq_getElem?_getD, List.getElem?_map, List.getElem?_range hr, Option.map_some, Option.getD_some]
    rw [show (256 : Nat) = 2 ^ 8 from rfl, ← Nat.pow_mul]
  beta_reduce
  rw [e, show (UInt8.ofNat (n / 2 ^ (8 * (3 - r)))).toBitVec = BitVec.ofNat 8 (n / 2 ^ (8 * (3 - r))) from rfl, BitVec.getLsbD_ofNat, Nat.testBit_div_two_pow]
  simp [ht, Nat.add_comm, show t + 8 * (3 - r) < 32 by omega]

/-- The counter block. -/
def ctrBlock (iv : Nat → UInt8) (n : Nat) : List UInt8 := (List.range 12).map iv ++ be32 n

/-- The counter words. -/
def ctrW (iv : Nat → UInt8) (n : Nat) (i : Nat) : W32 := if i % 4 = 3 then br_swap32 (BitVec.ofNat 32 (n + i / 4)) else decW fun r => iv (4 * (i % 4) + r)

theorem ctrInit_spec {iv : Buf UInt8} {f : Nat → UInt8} (hi : Seg iv 0 12 f) : Post (ctrInit iv) (fun w => Holds w 16 (ctrW f 0)) := by
  have copy : ∀ (w : Buf W32) (o : Nat), 3 ≤ o → w.size = 16 → o + 3 ≤ 16 → Seg w 0 3 (ctrW f 0) → o % 4 = 0 → Post (forN 3 w fun i w => do wr w (o + i) (← rd w i)) (fun w' => Written w w' o 3 (ctrW f 0 ∘ (o + ·))) := by
    intro w o ho hs h16 hseg hm
    refine wp_forN (fun i w' => Written w w' o i (ctrW f 0 ∘ (o + ·))) (Written.refl _ _ _) ?_ (fun _ h => h)
    intro i w' hi h
    simp only [wp_bind, wp_rd, wp_wr]
    have hg := hseg i hi
    rw [Nat.zero_add, ← h.2.2 i (by omega)] at hg
    refine ⟨_, hg, by rw [h.1]; omega, h.push (by omega) rfl ?_⟩
    show ctrW f 0 i = ctrW f 0 (o + i)
    unfold ctrW
    rw [if_neg (by omega), if_neg (by omega), show (o + i) % 4 = i % 4 by omega]
  unfold ctrInit
  rw [show Post _ _ = PostF False _ _ from rfl, wp_bind]
  refine PostF.mono (range_dec_spec hi (by simp [Buf.uninit])) fun w hw => ?_
  have hs : w.size = 16 := by rw [hw.1]; simp [Buf.uninit]
  have hseg : Seg w 0 3 (ctrW f 0) := hw.seg.congr fun i hi => by
    unfold ctrW
    rw [if_neg (by omega), show i % 4 = i by omega]
  rw [wp_bind]
  refine PostF.mono (copy w 4 (by decide) hs (by decide) hseg (by decide)) fun w1 h1 => ?_
  have hs1 : w1.size = 16 := h1.1.trans hs
  have g1 := h1.frame_seg hseg (by omega)
  rw [wp_bind]
  refine PostF.mono (copy w1 8 (by decide) hs1 (by decide) g1 (by decide)) fun w2 h2 => ?_
  have hs2 : w2.size = 16 := h2.1.trans hs1
  have g2 := h2.frame_seg g1 (by omega)
  rw [wp_bind]
  refine PostF.mono (copy w2 12 (by decide) hs2 (by decide) g2 (by decide)) fun w3 h3 => ?_
  have hs3 : w3.size = 16 := h3.1.trans hs2
  have g3 := h3.frame_seg g2 (by omega)
  have known : ∀ i, i < 16 → i % 4 ≠ 3 → w3[i]? = some (some (ctrW f 0 i)) := by
    intro i hi hm
    have : i / 4 = 0 ∨ i / 4 = 1 ∨ i / 4 = 2 ∨ i / 4 = 3 := by omega
    rcases this with e | e | e | e
    · have := g3 i (by omega)
      rwa [Nat.zero_add] at this
    · have := h1.2.1 (i - 4) (by omega)
      rw [h3.2.2 i (by omega), h2.2.2 i (by omega)]
      simpa only [Function.comp, show 4 + (i - 4) = i by omega] using this
    · have := h2.2.1 (i - 8) (by omega)
      rw [h3.2.2 i (by omega)]
      simpa only [Function.comp, show 8 + (i - 8) = i by omega] using this
    · have := h3.2.1 (i - 12) (by omega)
      simpa only [Function.comp, show 12 + (i - 12) = i by omega] using this
  simp only [wp_bind, wp_wr, Array.size_setIfInBounds, hs3]
  refine ⟨by decide, by decide, by decide, by decide, by simp [hs3], fun i hi => ?_⟩
  by_cases hm : i % 4 = 3
  · have : i = 3 ∨ i = 7 ∨ i = 11 ∨ i = 15 := by omega
    rcases this with rfl | rfl | rfl | rfl <;> simp [hs3, ctrW]
  · rw [Array.getElem?_setIfInBounds_ne (by omega), Array.getElem?_setIfInBounds_ne (by omega), Array.getElem?_setIfInBounds_ne (by omega), Array.getElem?_setIfInBounds_ne (by omega)]
    exact known i hi hm

theorem inc4_spec {w : Buf W32} {h : Nat → W32} {i n : Nat} (hw : Holds w 16 h) (hi : i < 16) (hn : h i = br_swap32 (BitVec.ofNat 32 n)) : Post (inc4_be w i) (fun w' => Holds w' 16 (upd h i (br_swap32 (BitVec.ofNat 32 (n + 4))))) := by
  unfold inc4_be
  simp only [wp_bind, wp_rd, wp_wr]
  refine ⟨_, hw.2 i hi, by rw [hw.1]; exact hi, ?_⟩
  have := hw.set hi (br_swap32 (BitVec.ofNat 32 (n + 4)))
  rwa [hn, swap32_swap32, show BitVec.ofNat 32 n + 4#32 = BitVec.ofNat 32 (n + 4) by simp [BitVec.ofNat_add]]

theorem ctrW_rep (f : Nat → UInt8) (n : Nat) {b c : Nat} (hc : c < 4) : WRep (ctrW f n (4 * b + c)) fun r => ((ctrBlock f (n + b)).getD (4 * c + r) 0).toBitVec := by
  unfold ctrW ctrBlock
  by_cases h : c = 3
  · subst h
    rw [if_pos (by omega), show (4 * b + 3) / 4 = b by omega]
    refine (swap32_rep _).congr fun r hr => ?_
    rw [List.getD_append_right _ _ _ _ (by simp), List.length_map, List.length_range, show 4 * 3 + r - 12 = r by omega]
  · rw [if_neg (by omega), show (4 * b + c) % 4 = c by omega]
    refine (decW_rep _).congr fun r hr => ?_
    rw [List.getD_append _ _ _ _ (by simp; omega)]
    simp only [List.getD_eq_getElem?_getD, List.getElem?_map, List.getElem?_range (show 4 * c + r < 12 by omega), Option.map_some, Option.getD_some]

theorem ctr4x_spec {out : Buf UInt8} {oo n : Nat} {w : Buf W32} {sk : Buf W} {f : Nat → UInt8} (hk : KeyOk Nk key sk) (hw : Holds w 16 (ctrW f n)) (ho : oo + 64 ≤ out.size) :
    Post (aes_ctr4x out oo w sk (numRounds Nk)) (fun r => (Written out r.1 oo 64 fun m => (AES Nk key (ctrBlock f (n + m / 16))).getD (m % 16) 0) ∧ Holds r.2 16 (ctrW f (n + 4))) := by
  unfold aes_ctr4x
  rw [show Post _ _ = PostF False _ _ from rfl, wp_bind]
  refine PostF.mono (ecb4x_spec (B := fun b => ctrBlock f (n + b)) hk hw.seg (fun b c _ hc => ctrW_rep f n hc) ho) fun out' ho' => ?_
  rw [wp_bind]
  refine PostF.mono (inc4_spec (i := 3) (n := n) hw (by decide) (by simp [ctrW])) fun w h1 => ?_
  rw [wp_bind]
  refine PostF.mono (inc4_spec (i := 7) (n := n + 1) h1 (by decide) (by simp [ctrW, upd])) fun w h2 => ?_
  rw [wp_bind]
  refine PostF.mono (inc4_spec (i := 11) (n := n + 2) h2 (by decide) (by simp [ctrW, upd])) fun w h3 => ?_
  rw [wp_bind]
  refine PostF.mono (inc4_spec (i := 15) (n := n + 3) h3 (by decide) (by simp [ctrW, upd])) fun w h4 => ?_
  rw [wp_pure]
  refine ⟨ho', h4.congr fun i hi => ?_⟩
  by_cases hm : i % 4 = 3
  · have : i = 3 ∨ i = 7 ∨ i = 11 ∨ i = 15 := by omega
    rcases this with rfl | rfl | rfl | rfl <;> simp [ctrW, upd, Nat.add_right_comm]
  · rw [upd_ne (by omega), upd_ne (by omega), upd_ne (by omega), upd_ne (by omega)]
    unfold ctrW
    rw [if_neg hm, if_neg hm]

theorem ctr_spec {out iv : Buf UInt8} {n : Nat} {sk : Buf W} {f : Nat → UInt8} (hk : KeyOk Nk key sk) (hi : Seg iv 0 12 f) (ho : n ≤ out.size) :
    Post (aes_ctr out n iv sk (numRounds Nk)) (fun out' => Written out out' 0 n fun m => (AES Nk key (ctrBlock f (m / 16))).getD (m % 16) 0) := by
  unfold aes_ctr
  rw [show Post _ _ = PostF False _ _ from rfl, wp_bind]
  refine PostF.mono (ctrInit_spec hi) fun w hw => ?_
  rw [wp_bind]
  refine wp_while (fun (out', oo, n', w) => ∃ d, n' + 64 * d = n ∧ oo = 64 * d ∧ Holds w 16 (ctrW f (4 * d)) ∧ Written out out' 0 (64 * d) fun m => (AES Nk key (ctrBlock f (m / 16))).getD (m % 16) 0)
    (fun s => s.2.2.1) (fun s => decide (s.2.2.1 > 64)) ⟨0, by omega, by omega, hw, Written.refl _ _ _⟩ (le_refl _) ?_ ?_ ?_
  · rintro ⟨out', oo, n', w⟩ _
    rw [wp_pure]
  · rintro ⟨out', oo, n', w⟩ ⟨d, hd, rfl, hw, hwr⟩ hc
    have hc : n' > 64 := of_decide_eq_true hc
    refine ⟨by dsimp only; omega, ?_⟩
    rw [wp_bind]
    refine PostF.mono (ctr4x_spec hk hw (by rw [hwr.1]; omega)) fun ⟨o, w'⟩ ⟨h1, h2⟩ => ?_
    rw [wp_pure]
    refine ⟨⟨d + 1, by omega, by omega, h2, ?_⟩, by dsimp only; omega⟩
    rw [show 64 * (d + 1) = 64 * d + 64 by omega]
    rw [show 64 * d = 0 + 64 * d by omega] at h1
    refine (hwr.trans h1).congr fun m hm => ?_
    split
    · rfl
    · rw [show 4 * d + (m - 64 * d) / 16 = m / 16 by omega, show (m - 64 * d) % 16 = m % 16 by omega]
  · rintro ⟨out', oo, n', w⟩ ⟨d, hd, rfl, hw, hwr⟩ hc
    have hc : ¬ n' > 64 := of_decide_eq_false hc
    dsimp only
    rw [wp_branch]
    refine ⟨fun _ => ?_, fun h0 => ?_⟩
    · rw [wp_bind]
      refine PostF.mono (ctr4x_spec (out := Buf.uninit UInt8 64) (oo := 0) hk hw (by simp [Buf.uninit])) fun ⟨t, w'⟩ ⟨h1, _⟩ => ?_
      refine wp_forN (fun i o => Written out o 0 (64 * d + i) fun m => (AES Nk key (ctrBlock f (m / 16))).getD (m % 16) 0) hwr ?_ fun o h => by rwa [show n = 64 * d + n' by omega]
      intro i o hi' h
      simp only [wp_bind, wp_rd, wp_wr]
      have := h1.2.1 i (by omega)
      rw [Nat.zero_add] at this
      refine ⟨_, this, by rw [h.1]; omega, h.push (by omega) (by omega) ?_⟩
      dsimp only
      rw [show 4 * d + i / 16 = (64 * d + i) / 16 by omega, show i % 16 = (64 * d + i) % 16 by omega]
    · rw [wp_pure]
      have : n' = 0 := by simpa using h0
      rwa [show n = 64 * d by omega]

end Verif.Aes

import Verif.Spec.Drbg
import Verif.Proof.Eval
import Mathlib.Data.List.GetD
/-! # An AES that the kernel can run

As in `Proof/Eval.lean`, for FIPS 197 and CTR_DRBG.  Used only for the concrete cases beside the theorems. -/
namespace Verif.Eval.Aes
open Verif Spec Eval

/-- The byte of a number. -/
abbrev ob (n : Nat) : Byte := BitVec.ofNat 8 n

/-- The S-box as one number. -/
def sboxN : Nat := 0x16bb54b00f2d99416842e6bf0d89a18cdf2855cee9871e9b948ed9691198f8e19e1dc186b95735610ef6034866b53e708a8bbd4b1f74dde8c6b4a61c2e2578ba08ae7a65eaf4566ca94ed58d6d37c8e779e4959162acd3c25c2406490a3a32e0db0b5ede14b8ee4688902a22dc4f816073195d643d7ea7c41744975fec130ccdd2f3ff1021dab6bcf5389d928f40a351a89f3c507f02f94585334d43fbaaefd0cf584c4a39becb6a5bb1fc20ed00d153842fe329b3d63b52a05a6e1b1a2c830975b227ebe28012079a059618c323c7041531d871f1e5a534ccf73f362693fdb7c072a49cafa2d4adf04759fa7dc982ca76abd7fe2b670130c56f6bf27b777c63

/-- The S-box. -/
def nsb (b : Nat) : Nat := Nat.mod (Nat.shiftRight sboxN (Nat.mul 8 (Nat.mod b 256))) 256

/-- Multiplication by `x`. -/
def nxt (b : Nat) : Nat := Nat.xor (Nat.mod (Nat.mul 2 b) 256) (Nat.mul 27 (Nat.mod (Nat.shiftRight b 7) 2))

theorem sbox_tab : ∀ v : Fin 256, ob (nsb v.val) = sbox (ob v.val) := by decide +kernel

theorem ob_mod (n : Nat) : ob (n % 256) = ob n := by
  apply BitVec.eq_of_toNat_eq
  simp [BitVec.toNat_ofNat]

theorem ob_nsb (n : Nat) : ob (nsb n) = sbox (ob n) := by
  have h := sbox_tab ⟨n % 256, Nat.mod_lt _ (by decide)⟩
  simp only [ob_mod] at h
  rw [← h]
  unfold nsb
  show _ = ob (Nat.mod (Nat.shiftRight sboxN (Nat.mul 8 (n % 256 % 256))) 256)
  rw [Nat.mod_mod]
  rfl

theorem xtime_tab : ∀ v : Fin 256, ob (nxt v.val) = xtime (ob v.val) ∧ gmul 2#8 (ob v.val) = xtime (ob v.val) ∧ gmul 3#8 (ob v.val) = xtime (ob v.val) ^^^ ob v.val := by decide +kernel

theorem ob_nxt (n : Nat) : ob (nxt n) = xtime (ob n) := by
  have h := (xtime_tab ⟨n % 256, Nat.mod_lt _ (by decide)⟩).1
  simp only [ob_mod] at h
  rw [← h]
  unfold nxt
  show ob (Nat.xor (2 * n % 256) (27 * ((n >>> 7) % 2))) = ob (Nat.xor (2 * (n % 256) % 256) (27 * (((n % 256) >>> 7) % 2)))
  have e1 : 2 * (n % 256) % 256 = 2 * n % 256 := by omega
  have e2 : ((n % 256) >>> 7) % 2 = (n >>> 7) % 2 := by simp only [Nat.shiftRight_eq_div_pow]; omega
  rw [e1, e2]

theorem gmul2 (b : Byte) : gmul 2#8 b = xtime b := by
  have h := (xtime_tab ⟨b.toNat, b.isLt⟩).2.1
  simpa [ob] using h
theorem gmul3 (b : Byte) : gmul 3#8 b = xtime b ^^^ b := by
  have h := (xtime_tab ⟨b.toNat, b.isLt⟩).2.2
  simpa [ob] using h

theorem ob_xor (a b : Nat) : ob (Nat.xor a b) = ob a ^^^ ob b := by
  apply BitVec.eq_of_toNat_eq
  rw [BitVec.toNat_xor, BitVec.toNat_ofNat, BitVec.toNat_ofNat, BitVec.toNat_ofNat]
  exact Nat.xor_mod_two_pow

/-! ## Key expansion -/

/-- Four bytes. -/
structure NW where
  a0 : Nat
  a1 : Nat
  a2 : Nat
  a3 : Nat

/-- The word. -/
def NW.word (w : NW) : Word := ⟨ob w.a0, ob w.a1, ob w.a2, ob w.a3⟩
/-- The zero word. -/
def NW.zero : NW := ⟨0, 0, 0, 0⟩
/-- Byte `r`. -/
def NW.byte (w : NW) (r : Nat) : Nat := if r = 0 then w.a0 else if r = 1 then w.a1 else if r = 2 then w.a2 else w.a3

theorem NW.byte_eq (w : NW) (r : Nat) : ob (w.byte r) = w.word.byte r := by
  unfold NW.byte Word.byte NW.word
  split
  · rfl
  split
  · rfl
  split <;> rfl

/-- The powers of `x`. -/
def nrcon : Nat → Nat
  | 0 => 1
  | n + 1 => nxt (nrcon n)

theorem nrcon_eq (n : Nat) : ob (nrcon n) = xtimes n 1#8 := by
  induction n with
  | zero => rfl
  | succ n ih => rw [nrcon, ob_nxt, ih]; rfl

/-- The next word of AES-256, from the last one and the one eight before. -/
def nword (i : Nat) (t o : NW) : NW :=
  if i % 8 = 0 then force (Nat.xor o.a0 (Nat.xor (nsb t.a1) (nrcon (i / 8 - 1)))) fun x0 => force (Nat.xor o.a1 (nsb t.a2)) fun x1 => force (Nat.xor o.a2 (nsb t.a3)) fun x2 => force (Nat.xor o.a3 (nsb t.a0)) fun x3 => ⟨x0, x1, x2, x3⟩
  else if i % 8 = 4 then force (Nat.xor o.a0 (nsb t.a0)) fun x0 => force (Nat.xor o.a1 (nsb t.a1)) fun x1 => force (Nat.xor o.a2 (nsb t.a2)) fun x2 => force (Nat.xor o.a3 (nsb t.a3)) fun x3 => ⟨x0, x1, x2, x3⟩
  else force (Nat.xor o.a0 t.a0) fun x0 => force (Nat.xor o.a1 t.a1) fun x1 => force (Nat.xor o.a2 t.a2) fun x2 => force (Nat.xor o.a3 t.a3) fun x3 => ⟨x0, x1, x2, x3⟩

/-- Continue with a word. -/
def forceW {β : Type} (w : NW) (k : NW → β) : β := match w with | ⟨x0, x1, x2, x3⟩ => k ⟨x0, x1, x2, x3⟩

@[simp] theorem forceW_eq {β : Type} (w : NW) (k : NW → β) : forceW w k = k w := rfl

/-- The words from number `i` on, the last one first. -/
def nexp : Nat → Nat → List NW → List NW
  | 0, _, l => l
  | n + 1, i, l => forceW (nword i (l.getD 0 NW.zero) (l.getD 7 NW.zero)) fun w => nexp n (i + 1) (w :: l)

theorem nword_eq (i : Nat) (t o : NW) : (nword i t o).word =
    o.word.xor (if i % 8 = 0 then (SubWord (RotWord t.word)).xor (Rcon (i / 8)) else if 6 < 8 ∧ i % 8 = 4 then SubWord t.word else t.word) := by
  unfold nword
  by_cases h0 : i % 8 = 0
  · simp only [if_pos h0, force_eq]
    simp [NW.word, Word.xor, SubWord, RotWord, Rcon, ob_xor, ob_nsb, nrcon_eq]
  · by_cases h4 : i % 8 = 4
    · simp only [if_neg h0, if_pos h4, force_eq]
      simp [h4, NW.word, Word.xor, SubWord, ob_xor, ob_nsb]
    · simp only [if_neg h0, if_neg h4, force_eq]
      simp [h4, NW.word, Word.xor, ob_xor]

theorem getD_map (l : List NW) (i : Nat) : (l.map NW.word).getD i ⟨0, 0, 0, 0⟩ = (l.getD i NW.zero).word := by
  rw [show (⟨0, 0, 0, 0⟩ : Word) = NW.word NW.zero from rfl, List.getD_map]

theorem getD_rev (l : List NW) (j : Nat) (h : j < l.length) : l.reverse.getD (l.length - 1 - j) NW.zero = l.getD j NW.zero := by
  rw [List.getD_eq_getElem _ _ (by rw [List.length_reverse]; omega), List.getD_eq_getElem _ _ h, List.getElem_reverse]
  congr 1
  omega

theorem nexp_eq (key : List UInt8) : ∀ (n m : Nat) (l : List NW), l.length = 8 + m → KeyExpansion 8 key m = (l.reverse.map NW.word) → KeyExpansion 8 key (m + n) = (nexp n (8 + m) l).reverse.map NW.word
  | 0, m, l, _, h => h
  | n + 1, m, l, hl, h => by
    rw [nexp, forceW_eq]
    rw [show m + (n + 1) = (m + 1) + n by omega, show 8 + m + 1 = 8 + (m + 1) by omega]
    refine nexp_eq key n (m + 1) _ (by simp [hl]; omega) ?_
    rw [List.reverse_cons, List.map_append, List.map_singleton]
    rw [KeyExpansion]
    rw [h, getD_map, getD_map]
    congr 2
    have e1 : 8 + m - 1 = l.length - 1 - 0 := by omega
    have e2 : 8 + m - 8 = l.length - 1 - 7 := by omega
    rw [e1, getD_rev l 0 (by omega), e2, getD_rev l 7 (by omega), ← nword_eq]

/-! ## The cipher -/

/-- Continue with a list, its elements evaluated. -/
def forceB {β : Type} : List Nat → (List Nat → β) → β
  | [], k => k []
  | a :: l, k => force a fun a => forceB l fun l => k (a :: l)

@[simp] theorem forceB_eq {β : Type} (l : List Nat) (k : List Nat → β) : forceB l k = k l := by
  induction l generalizing k with
  | nil => rfl
  | cons a l ih => simp [forceB, ih]

/-- Continue with a list, its spine evaluated. -/
def spine {α β : Type} : List α → (List α → β) → β
  | [], k => k []
  | a :: l, k => spine l fun l => k (a :: l)

@[simp] theorem spine_eq {α β : Type} (l : List α) (k : List α → β) : spine l k = k l := by
  induction l generalizing k with
  | nil => rfl
  | cons a l ih => simp [spine, ih]

/-- Byte `k` of a state after `SubBytes` and `ShiftRows`. -/
def nsr (s : List Nat) (k : Nat) : Nat := nsb (s.getD (k % 4 + 4 * ((k / 4 + k % 4) % 4)) 0)

/-- Byte `k` of a round key. -/
def nkey (w : List NW) (r k : Nat) : Nat := (w.getD (4 * r + k / 4) NW.zero).byte (k % 4)

/-- One round; the first argument is what follows the round key addition. -/
def nrnd (w : List NW) (r : Nat) (s : List Nat) : List Nat := (List.range 16).map fun k =>
  Nat.xor (Nat.xor (Nat.xor (Nat.xor (nxt (nsr s (k % 4 + 4 * (k / 4)))) (force (nsr s ((k % 4 + 1) % 4 + 4 * (k / 4))) fun b => Nat.xor (nxt b) b)) (nsr s ((k % 4 + 2) % 4 + 4 * (k / 4)))) (nsr s ((k % 4 + 3) % 4 + 4 * (k / 4)))) (nkey w r k)

/-- `n` rounds from round `r` on, and the last one. -/
def nrnds (w : List NW) : Nat → Nat → List Nat → List Nat
  | 0, r, s => (List.range 16).map fun k => Nat.xor (nsr s k) (nkey w r k)
  | n + 1, r, s => forceB (nrnd w r s) fun s => nrnds w n (r + 1) s

theorem st_eq (s : List Nat) : (fun k => (s.map ob).getD k 0#8) = fun k => ob (s.getD k 0) := by
  funext k
  rw [show (0#8 : Byte) = ob 0 from rfl, List.getD_map]

theorem nkey_eq (w : List NW) (r k : Nat) : ob (nkey w r k) = ((w.map NW.word).getD (4 * r + k / 4) ⟨0, 0, 0, 0⟩).byte (k % 4) := by
  rw [getD_map, ← NW.byte_eq]; rfl

theorem nrnd_eq (w : List NW) (r : Nat) (s : List Nat) : (nrnd w r s).map ob = onState (fun s => AddRoundKey (w.map NW.word) r (MixColumns (ShiftRows (SubBytes s)))) (s.map ob) := by
  unfold nrnd onState
  rw [st_eq, List.map_map]
  refine List.map_congr_left fun k _ => ?_
  simp only [Function.comp, AddRoundKey, MixColumns, ShiftRows, SubBytes, gmul2, gmul3, ob_xor, ob_nxt, nsr, force_eq, ob_nsb, nkey_eq]

theorem nrnds_eq (w : List NW) (s₀ : List Byte) : ∀ (n r : Nat) (s : List Nat), s.map ob = rounded (w.map NW.word) s₀ r → (nrnds w n (r + 1) s).map ob = Cipher (w.map NW.word) (r + n + 1) s₀
  | 0, r, s, h => by
    unfold nrnds Cipher onState
    show _ = List.map (AddRoundKey (w.map NW.word) (r + 1) (ShiftRows (SubBytes fun k => (rounded (w.map NW.word) s₀ r).getD k 0#8))) (List.range 16)
    rw [← h, st_eq, List.map_map]
    refine List.map_congr_left fun k _ => ?_
    simp only [Function.comp, AddRoundKey, ShiftRows, SubBytes, ob_xor, nsr, ob_nsb, nkey_eq]
  | n + 1, r, s, h => by
    unfold nrnds
    rw [forceB_eq, show r + (n + 1) + 1 = (r + 1) + n + 1 by omega]
    refine nrnds_eq w s₀ n (r + 1) _ ?_
    rw [nrnd_eq, h]
    rfl

/-- Word `i` of a key. -/
def nkw (key : List Nat) (i : Nat) : NW := ⟨key.getD (4 * i) 0, key.getD (4 * i + 1) 0, key.getD (4 * i + 2) 0, key.getD (4 * i + 3) 0⟩

/-- The expanded key. -/
def nsched (key : List Nat) : List NW := (nexp 52 8 [nkw key 7, nkw key 6, nkw key 5, nkw key 4, nkw key 3, nkw key 2, nkw key 1, nkw key 0]).reverse

/-- AES-256 with an expanded key. -/
def nblock (w : List NW) (block : List Nat) : List Nat := forceB ((List.range 16).map fun k => Nat.xor (block.getD k 0) (nkey w 0 k)) fun s => nrnds w 13 1 s

theorem getD_bytes (l : List UInt8) (i : Nat) : (l.getD i 0).toBitVec = ob ((l.map UInt8.toNat).getD i 0) := by
  rw [show (0 : Nat) = UInt8.toNat 0 from rfl, List.getD_map]
  generalize l.getD i 0 = x
  exact BitVec.eq_of_toNat_eq (by rw [BitVec.toNat_ofNat]; exact (Nat.mod_eq_of_lt x.toBitVec.isLt).symm)

theorem nsched_eq (key : List UInt8) : expandedKey 8 key = (nsched (key.map UInt8.toNat)).map NW.word := by
  have h := nexp_eq key 52 0 [nkw (key.map UInt8.toNat) 7, nkw (key.map UInt8.toNat) 6, nkw (key.map UInt8.toNat) 5, nkw (key.map UInt8.toNat) 4, nkw (key.map UInt8.toNat) 3, nkw (key.map UInt8.toNat) 2, nkw (key.map UInt8.toNat) 1,
    nkw (key.map UInt8.toNat) 0] rfl (by
      have e : ∀ i, keyWord key i = (nkw (key.map UInt8.toNat) i).word := fun i => by simp only [keyWord, nkw, NW.word, getD_bytes]
      have e' : keyWord key = fun i => (nkw (key.map UInt8.toNat) i).word := funext e
      show (List.range 8).map (keyWord key) = _
      rw [e']
      rfl)
  exact h

theorem nblock_eq (key block : List UInt8) : (nblock (nsched (key.map UInt8.toNat)) (block.map UInt8.toNat)).map UInt8.ofNat = AES 8 key block := by
  unfold AES nblock
  rw [forceB_eq, nsched_eq]
  generalize nsched (key.map UInt8.toNat) = w
  have h := nrnds_eq w (block.map UInt8.toBitVec) 13 0 ((List.range 16).map fun k => Nat.xor ((block.map UInt8.toNat).getD k 0) (nkey w 0 k)) (by
    unfold rounded onState AddRoundKey
    rw [List.map_map]
    refine List.map_congr_left fun k _ => ?_
    simp only [Function.comp, ob_xor, nkey_eq]
    rw [← getD_bytes, show (0#8 : Byte) = UInt8.toBitVec 0 from rfl, List.getD_map])
  show _ = List.map UInt8.ofBitVec (Cipher (w.map NW.word) (0 + 13 + 1) (block.map UInt8.toBitVec))
  rw [← h, List.map_map]
  rfl

/-! ## CTR_DRBG -/

/-- The key stream of CTR_DRBG, given the key and the counter as numbers. -/
def nstream (key : List Nat) (v n : Nat) : List Nat := spine (nsched key) fun w => (List.range n).flatMap fun i => nblock w ((beBytes (v + (i + 1))).map UInt8.toNat)

theorem nstream_eq (s : DrbgState) (n : Nat) : keyStream s n = (nstream (s.key.map UInt8.toNat) (beNat s.v) n).map UInt8.ofNat := by
  unfold keyStream nstream
  rw [spine_eq, List.map_flatMap]
  congr 1
  funext i
  rw [nblock_eq]
  rfl

end Verif.Eval.Aes

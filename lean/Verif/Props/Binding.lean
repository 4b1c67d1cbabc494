import Verif.Props.RoundTrip
/-! # C74: a shared secret belongs to one public key and one ciphertext, up to hash collisions

Two runs that end with the same shared secret but not with the same public key and ciphertext give two strings, named in the conclusion, on which one of the hash functions collides. -/
namespace Verif.Props
open Verif Verif.Model Verif.Spec

attribute [local irreducible] keccakF partialK finK blocksK sqByte SHAKE256 SHA3_256 SHA3_512 SHAKE128

/-- **C74 (encapsulation).**  Two encapsulations with the same shared secret are the same encapsulation, or the key halves of SHA3-512 collide on the two strings `m ‖ SHA3-256(ek)`, or SHA3-256
collides on the two public keys. -/
theorem C74_encapsulation {K : Nat} (hK : IsParam K) (fuel₁ fuel₂ : Nat) (ek₁ ek₂ m₁ m₂ : List UInt8) (hek₁ : ek₁.length = pkLen K) (hek₂ : ek₂.length = pkLen K)
    (hm₁ : m₁.length = 32) (hm₂ : m₂.length = 32) (ct₁ ct₂ ss₁ ss₂ c₁ c₂ : Buf UInt8) (key : List UInt8)
    (hct₁ : ct₁.size = ctLen K) (hct₂ : ct₂.size = ctLen K) (hss₁ : ss₁.size = 32) (hss₂ : ss₂.size = 32)
    (h₁ : Returns (crypto_kem_enc_derand K fuel₁ ct₁ ss₁ (Buf.ofList ek₁) (Buf.ofList m₁)) (0, c₁, Buf.ofList key))
    (h₂ : Returns (crypto_kem_enc_derand K fuel₂ ct₂ ss₂ (Buf.ofList ek₂) (Buf.ofList m₂)) (0, c₂, Buf.ofList key)) :
    (ek₁ = ek₂ ∧ m₁ = m₂) ∨
    (m₁ ++ SHA3_256 ek₁ ≠ m₂ ++ SHA3_256 ek₂ ∧ (SHA3_512 (m₁ ++ SHA3_256 ek₁)).take 32 = (SHA3_512 (m₂ ++ SHA3_256 ek₂)).take 32) ∨
    (ek₁ ≠ ek₂ ∧ SHA3_256 ek₁ = SHA3_256 ek₂) := by
  have key_eq : ∀ (fuel : Nat) (ek m : List UInt8) (ct ss c : Buf UInt8), ek.length = pkLen K → m.length = 32 → ct.size = ctLen K → ss.size = 32 →
      Returns (crypto_kem_enc_derand K fuel ct ss (Buf.ofList ek) (Buf.ofList m)) (0, c, Buf.ofList key) → key = (SHA3_512 (m ++ SHA3_256 ek)).take 32 := by
    intro fuel ek m ct ss c hek hm hct hss h
    rcases enc_frame hK fuel ek m hek hm ct ss (le_of_eq hct.symm) (le_of_eq hss.symm) with ⟨_, k, c', a, b, e, l1, l2, h', _, _, w1, w2⟩ | ⟨_, _, h'⟩ | ⟨_, h'⟩
    · have e' := h.unique h'
      simp only [Prod.mk.injEq] at e'
      rw [w2 hss] at e'
      rw [ofList_inj e'.2.2]
      unfold Encaps_internal at e
      obtain ⟨c'', _, e⟩ := Option.map_eq_some_iff.1 e
      simp only [Prod.mk.injEq] at e
      exact e.1.symm
    · exact (h.notOut h').elim
    · exact absurd (congrArg Prod.fst (h.unique h')) (by simp)
  have e := (key_eq fuel₁ ek₁ m₁ ct₁ ss₁ c₁ hek₁ hm₁ hct₁ hss₁ h₁).symm.trans (key_eq fuel₂ ek₂ m₂ ct₂ ss₂ c₂ hek₂ hm₂ hct₂ hss₂ h₂)
  by_cases hx : m₁ ++ SHA3_256 ek₁ = m₂ ++ SHA3_256 ek₂
  · obtain ⟨hm, hh⟩ := List.append_inj hx (hm₁.trans hm₂.symm)
    by_cases hek : ek₁ = ek₂
    · exact Or.inl ⟨hek, hm⟩
    · exact Or.inr (Or.inr ⟨hek, hh⟩)
  · exact Or.inr (Or.inl ⟨hx, e⟩)

/-- The two ways in which decapsulation ends with 0. -/
theorem dec_zero_cases {K : Nat} (hK : IsParam K) (fuel : Nat) (s ek h z c : List UInt8) (hs : s.length = 384 * K) (hek : ek.length = pkLen K) (hh : h.length = 32) (hz : z.length = 32)
    (hc : c.length = ctLen K) (ss : Buf UInt8) (hss : ss.size = 32) (key : List UInt8)
    (hr : Returns (crypto_kem_dec K fuel ss (Buf.ofList c) (Buf.ofList (s ++ ek ++ h ++ z))) (0, Buf.ofList key)) :
    h = SHA3_256 ek ∧ ((kpkeEncrypt K (xofBytes fuel) ek (kpkeDecrypt K s c) ((SHA3_512 (kpkeDecrypt K s c ++ SHA3_256 ek)).drop 32) = some c ∧
      key = (SHA3_512 (kpkeDecrypt K s c ++ SHA3_256 ek)).take 32) ∨ key = SHAKE256 (z ++ c) 32) := by
  have e0 : (s ++ ek ++ h ++ z).take (384 * K) = s := by rw [List.append_assoc, List.append_assoc, List.take_left' hs]
  have e1 : ((s ++ ek ++ h ++ z).drop (384 * K)).take (384 * K + 32) = ek := by rw [List.append_assoc, List.append_assoc, List.drop_left' hs, List.take_left' (show ek.length = 384 * K + 32 from hek)]
  have e2 : ((s ++ ek ++ h ++ z).drop (768 * K + 32)).take 32 = h := by
    rw [List.append_assoc (s ++ ek), List.drop_left' (by simp only [List.length_append]; rw [hs, hek]; unfold pkLen; omega), List.take_left' hh]
  have e3 : ((s ++ ek ++ h ++ z).drop (768 * K + 64)).take 32 = z := by
    rw [List.drop_left' (by simp only [List.length_append]; rw [hs, hek, hh]; unfold pkLen; omega), List.take_of_length_le (by omega)]
  have hl : (s ++ ek ++ h ++ z).length = skLen K := by simp only [List.length_append]; rw [hs, hek, hh, hz]; unfold pkLen skLen; omega
  rcases dec_frame hK fuel _ c hl hc ss (le_of_eq hss.symm) with ⟨hx, k, ss', e, l, h', _, w⟩ | ⟨_, _, h'⟩ | ⟨_, h'⟩
  · unfold hashCheck at hx
    rw [e1, e2] at hx
    have hx : h = SHA3_256 ek := hx.symm
    refine ⟨hx, ?_⟩
    have e' := hr.unique h'
    simp only [Prod.mk.injEq] at e'
    rw [w hss] at e'
    rw [ofList_inj e'.2]
    unfold Decaps_internal at e
    rw [e0, e1, e2, e3] at e
    dsimp only at e
    obtain ⟨c', hc', e⟩ := Option.map_eq_some_iff.1 e
    rw [hx] at hc' e
    by_cases hcc : c = c'
    · rw [if_neg (not_not.2 hcc)] at e
      refine Or.inl ⟨?_, e.symm⟩
      conv_rhs => rw [hcc]
      exact hc'
    · rw [if_pos hcc] at e
      exact Or.inr e.symm
  · exact (hr.notOut h').elim
  · exact absurd (congrArg Prod.fst (hr.unique h')) (by simp)

/-- **C74 (decapsulation).**  Take any two secret keys, with parts `s ‖ ek ‖ h ‖ z`, and any two ciphertexts.  If both decapsulations return 0 and the same shared secret, then
* public keys and ciphertexts agree, or
* both secrets are the rejection value of the same `z` and the same ciphertext, or
* SHA3-256 collides on the two public keys, or
* the key halves of SHA3-512 collide on the two strings `m ‖ SHA3-256(ek)`, where `m` is the decrypted message, or
* SHAKE256 collides on the two strings `z ‖ c`, or
* the key half of SHA3-512 of `m ‖ SHA3-256(ek)` of the one is SHAKE256 of `z ‖ c` of the other. -/
theorem C74_decapsulation {K : Nat} (hK : IsParam K) (fuel : Nat) (s₁ ek₁ h₁ z₁ c₁ s₂ ek₂ h₂ z₂ c₂ : List UInt8)
    (hs₁ : s₁.length = 384 * K) (hek₁ : ek₁.length = pkLen K) (hh₁ : h₁.length = 32) (hz₁ : z₁.length = 32) (hc₁ : c₁.length = ctLen K)
    (hs₂ : s₂.length = 384 * K) (hek₂ : ek₂.length = pkLen K) (hh₂ : h₂.length = 32) (hz₂ : z₂.length = 32) (hc₂ : c₂.length = ctLen K)
    (ss₁ ss₂ : Buf UInt8) (hss₁ : ss₁.size = 32) (hss₂ : ss₂.size = 32) (key : List UInt8)
    (hr₁ : Returns (crypto_kem_dec K fuel ss₁ (Buf.ofList c₁) (Buf.ofList (s₁ ++ ek₁ ++ h₁ ++ z₁))) (0, Buf.ofList key))
    (hr₂ : Returns (crypto_kem_dec K fuel ss₂ (Buf.ofList c₂) (Buf.ofList (s₂ ++ ek₂ ++ h₂ ++ z₂))) (0, Buf.ofList key)) :
    (ek₁ = ek₂ ∧ c₁ = c₂) ∨
    (z₁ = z₂ ∧ c₁ = c₂ ∧ key = SHAKE256 (z₁ ++ c₁) 32) ∨
    (ek₁ ≠ ek₂ ∧ SHA3_256 ek₁ = SHA3_256 ek₂) ∨
    (kpkeDecrypt K s₁ c₁ ++ SHA3_256 ek₁ ≠ kpkeDecrypt K s₂ c₂ ++ SHA3_256 ek₂ ∧
      (SHA3_512 (kpkeDecrypt K s₁ c₁ ++ SHA3_256 ek₁)).take 32 = (SHA3_512 (kpkeDecrypt K s₂ c₂ ++ SHA3_256 ek₂)).take 32) ∨
    (z₁ ++ c₁ ≠ z₂ ++ c₂ ∧ SHAKE256 (z₁ ++ c₁) 32 = SHAKE256 (z₂ ++ c₂) 32) ∨
    (SHA3_512 (kpkeDecrypt K s₁ c₁ ++ SHA3_256 ek₁)).take 32 = SHAKE256 (z₂ ++ c₂) 32 ∨
    SHAKE256 (z₁ ++ c₁) 32 = (SHA3_512 (kpkeDecrypt K s₂ c₂ ++ SHA3_256 ek₂)).take 32 := by
  obtain ⟨_, a₁⟩ := dec_zero_cases hK fuel s₁ ek₁ h₁ z₁ c₁ hs₁ hek₁ hh₁ hz₁ hc₁ ss₁ hss₁ key hr₁
  obtain ⟨_, a₂⟩ := dec_zero_cases hK fuel s₂ ek₂ h₂ z₂ c₂ hs₂ hek₂ hh₂ hz₂ hc₂ ss₂ hss₂ key hr₂
  rcases a₁ with ⟨g₁, k₁⟩ | k₁ <;> rcases a₂ with ⟨g₂, k₂⟩ | k₂
  · by_cases hx : kpkeDecrypt K s₁ c₁ ++ SHA3_256 ek₁ = kpkeDecrypt K s₂ c₂ ++ SHA3_256 ek₂
    · have hl : (kpkeDecrypt K s₁ c₁).length = (kpkeDecrypt K s₂ c₂).length := by unfold kpkeDecrypt; rw [ByteEncode_length, ByteEncode_length]
      obtain ⟨hm, hh⟩ := List.append_inj hx hl
      by_cases hek : ek₁ = ek₂
      · refine Or.inl ⟨hek, ?_⟩
        rw [hm, hek] at g₁
        exact Option.some.inj (g₁.symm.trans g₂)
      · exact Or.inr (Or.inr (Or.inl ⟨hek, hh⟩))
    · exact Or.inr (Or.inr (Or.inr (Or.inl ⟨hx, k₁.symm.trans k₂⟩)))
  · exact Or.inr (Or.inr (Or.inr (Or.inr (Or.inr (Or.inl (k₁.symm.trans k₂))))))
  · exact Or.inr (Or.inr (Or.inr (Or.inr (Or.inr (Or.inr (k₁.symm.trans k₂))))))
  · by_cases hx : z₁ ++ c₁ = z₂ ++ c₂
    · obtain ⟨hz, hc⟩ := List.append_inj hx (hz₁.trans hz₂.symm)
      exact Or.inr (Or.inl ⟨hz, hc, k₁⟩)
    · exact Or.inr (Or.inr (Or.inr (Or.inr (Or.inl ⟨hx, k₁.symm.trans k₂⟩))))

/-- **C74 (one key pair).**  If two different ciphertexts have the same shared secret under one secret key, then SHA3-512 (key half) collides on two different strings `m ‖ h`, or SHAKE256
collides on the two strings `z ‖ c`, or a key half of SHA3-512 is the rejection value of the other ciphertext. -/
theorem C74_ciphertext {K : Nat} (hK : IsParam K) (fuel : Nat) (s ek h z c₁ c₂ : List UInt8)
    (hs : s.length = 384 * K) (hek : ek.length = pkLen K) (hh : h.length = 32) (hz : z.length = 32) (hc₁ : c₁.length = ctLen K) (hc₂ : c₂.length = ctLen K) (hne : c₁ ≠ c₂)
    (ss₁ ss₂ : Buf UInt8) (hss₁ : ss₁.size = 32) (hss₂ : ss₂.size = 32) (key : List UInt8)
    (hr₁ : Returns (crypto_kem_dec K fuel ss₁ (Buf.ofList c₁) (Buf.ofList (s ++ ek ++ h ++ z))) (0, Buf.ofList key))
    (hr₂ : Returns (crypto_kem_dec K fuel ss₂ (Buf.ofList c₂) (Buf.ofList (s ++ ek ++ h ++ z))) (0, Buf.ofList key)) :
    (kpkeDecrypt K s c₁ ≠ kpkeDecrypt K s c₂ ∧ (SHA3_512 (kpkeDecrypt K s c₁ ++ h)).take 32 = (SHA3_512 (kpkeDecrypt K s c₂ ++ h)).take 32) ∨
    SHAKE256 (z ++ c₁) 32 = SHAKE256 (z ++ c₂) 32 ∨
    (SHA3_512 (kpkeDecrypt K s c₁ ++ h)).take 32 = SHAKE256 (z ++ c₂) 32 ∨
    SHAKE256 (z ++ c₁) 32 = (SHA3_512 (kpkeDecrypt K s c₂ ++ h)).take 32 := by
  have hx := (dec_zero_cases hK fuel s ek h z c₁ hs hek hh hz hc₁ ss₁ hss₁ key hr₁).1
  rcases C74_decapsulation hK fuel s ek h z c₁ s ek h z c₂ hs hek hh hz hc₁ hs hek hh hz hc₂ ss₁ ss₂ hss₁ hss₂ key hr₁ hr₂ with
    ⟨_, e⟩ | ⟨_, e, _⟩ | ⟨e, _⟩ | ⟨e, e'⟩ | ⟨_, e⟩ | e | e
  · exact absurd e hne
  · exact absurd e hne
  · exact absurd rfl e
  · rw [hx]
    exact Or.inl ⟨fun e'' => e (by rw [e'']), e'⟩
  · exact Or.inr (Or.inl e)
  · rw [hx]; exact Or.inr (Or.inr (Or.inl e))
  · rw [hx]; exact Or.inr (Or.inr (Or.inr e))

end Verif.Props

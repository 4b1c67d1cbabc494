import Verif.Proof.KeyCheck
/-! # Properties of the API functions: FIPS 203 conformance, key checks, implicit rejection, absence of undefined behaviour

`K` is the parameter set, `fuel` the budget of the rejection-sampling loops; the specification is given the corresponding number `xofBytes fuel` of XOF bytes. Input
objects are fully initialised (`Buf.ofList`); output objects have arbitrary previous contents, including uninitialised cells.  `Verif.Props.Examples` shows, for each parameter set, concrete
accepted and rejected calls of the three functions that meet the hypotheses below. -/
namespace Verif.Props
open Verif Verif.Model Verif.Spec

attribute [local irreducible] keccakF partialK finK blocksK sqByte SHAKE256 SHA3_256 SHA3_512 SHAKE128

theorem outcome {α : Type} {F : Prop} {p : M α} {Q : α → Prop} (h : PostF F p Q) : (∃ a, Returns p a ∧ Q a) ∨ (OutOfBudget p ∧ F) := by
  unfold PostF at h
  split at h
  · exact Or.inl ⟨_, ⟨_, rfl⟩, h⟩
  · exact Or.inr ⟨rfl, h⟩
  · exact h.elim

theorem Returns.notOut {α : Type} {p : M α} {a : α} (h : Returns p a) (h' : OutOfBudget p) : False := by
  obtain ⟨t, e⟩ := h; unfold OutOfBudget at h'; rw [e] at h'; cases h'

theorem pkLen_eq (K : Nat) : pkLen K = K * 384 + 32 := by unfold pkLen; omega
theorem skLen_eq (K : Nat) : skLen K = K * 768 + 96 := by unfold skLen; omega
theorem ctLen_eq (K : Nat) : ctLen K = MLKEM_CIPHERTEXTBYTES K := by
  rw [ctbytes_eq, Nat.mul_left_comm, ← Nat.mul_add, Nat.mul_comm K]; rfl

theorem StartsWith.of {b b' : Buf UInt8} {L : List UInt8} (h : WrittenL b b' 0 L) : StartsWith b b' L := by
  refine ⟨h.1, fun i hi => ?_, fun i hi => h.2.2 i (Or.inr (by omega))⟩
  have := h.2.1 i hi
  rw [Nat.zero_add] at this
  rw [this]
  simp [hi]

/-! ## C01: key generation -/

/-- **C01.** Key generation computes ML-KEM.KeyGen_internal (FIPS 203, Algorithm 16) and returns 0. -/
theorem C01_keygen {K : Nat} (hK : IsParam K) (fuel : Nat) (d z : List UInt8) (hd : d.length = 32) (hz : z.length = 32)
    (pk sk : Buf UInt8) (hpk : pk.size = pkLen K) (hsk : sk.size = skLen K) :
    match KeyGen_internal K (xofBytes fuel) d z with
    | some (ek, dk) => Returns (crypto_kem_keypair_derand K fuel pk sk (Buf.ofList (d ++ z))) (0, Buf.ofList ek, Buf.ofList dk)
    | none => OutOfBudget (crypto_kem_keypair_derand K fuel pk sk (Buf.ofList (d ++ z))) := by
  rw [pkLen_eq] at hpk; rw [skLen_eq] at hsk
  rcases outcome (keypair_derand_spec (fuel := fuel) hK hd hz (SegL_ofList (d ++ z)) (le_of_eq hpk.symm) (le_of_eq hsk.symm)) with ⟨⟨r, a, b⟩, h, ek, dk, e, l1, l2, h0, w1, w2⟩ | ⟨h, e⟩
  · unfold xofBytes; rw [e]
    simp only at h0 w1 w2
    rw [h0, w1.whole (hpk.trans l1.symm), w2.whole (hsk.trans l2.symm)] at h
    exact h
  · unfold xofBytes; rw [e]; exact h

/-- Key generation into larger objects: the bytes after the keys are not touched. -/
theorem keygen_frame {K : Nat} (hK : IsParam K) (fuel : Nat) (d z : List UInt8) (hd : d.length = 32) (hz : z.length = 32)
    (pk sk : Buf UInt8) (hpk : pkLen K ≤ pk.size) (hsk : skLen K ≤ sk.size) :
    (∃ ek dk pk' sk', KeyGen_internal K (xofBytes fuel) d z = some (ek, dk) ∧ ek.length = pkLen K ∧ dk.length = skLen K ∧
      Returns (crypto_kem_keypair_derand K fuel pk sk (Buf.ofList (d ++ z))) (0, pk', sk') ∧ StartsWith pk pk' ek ∧ StartsWith sk sk' dk) ∨
    (KeyGen_internal K (xofBytes fuel) d z = none ∧ OutOfBudget (crypto_kem_keypair_derand K fuel pk sk (Buf.ofList (d ++ z)))) := by
  rw [pkLen_eq] at hpk; rw [skLen_eq] at hsk
  rcases outcome (keypair_derand_spec (fuel := fuel) hK hd hz (SegL_ofList (d ++ z)) hpk hsk) with ⟨⟨r, a, b⟩, h, ek, dk, e, l1, l2, h0, w1, w2⟩ | ⟨h, e⟩
  · simp only at h0 w1 w2; subst h0
    exact Or.inl ⟨ek, dk, a, b, e, by rw [pkLen_eq]; exact l1, by rw [skLen_eq]; exact l2, h, StartsWith.of w1, StartsWith.of w2⟩
  · exact Or.inr ⟨e, h⟩

/-! ## C02, C04: encapsulation -/

theorem enc_frame {K : Nat} (hK : IsParam K) (fuel : Nat) (ek m : List UInt8) (hek : ek.length = pkLen K) (hm : m.length = 32)
    (ct ss : Buf UInt8) (hct : ctLen K ≤ ct.size) (hss : 32 ≤ ss.size) :
    (modulusCheck K ek ∧ ∃ k c ct' ss', Encaps_internal K (xofBytes fuel) ek m = some (k, c) ∧ k.length = 32 ∧ c.length = ctLen K ∧
      Returns (crypto_kem_enc_derand K fuel ct ss (Buf.ofList ek) (Buf.ofList m)) (0, ct', ss') ∧ StartsWith ct ct' c ∧ StartsWith ss ss' k ∧
      (ct.size = ctLen K → ct' = Buf.ofList c) ∧ (ss.size = 32 → ss' = Buf.ofList k)) ∨
    (modulusCheck K ek ∧ Encaps_internal K (xofBytes fuel) ek m = none ∧ OutOfBudget (crypto_kem_enc_derand K fuel ct ss (Buf.ofList ek) (Buf.ofList m))) ∨
    (¬ modulusCheck K ek ∧ Returns (crypto_kem_enc_derand K fuel ct ss (Buf.ofList ek) (Buf.ofList m)) (-1, ct, ss)) := by
  rw [pkLen_eq] at hek; rw [ctLen_eq] at *
  rcases outcome (enc_derand_spec (fuel := fuel) hK hek (SegL_ofList ek) hm (SegL_ofList m) hct hss) with ⟨⟨r, a, b⟩, h, (⟨hmc, k, c, e, l1, l2, h0, w1, w2⟩ | ⟨hmc, e⟩)⟩ | ⟨h, hmc, e⟩
  · simp only at h0 w1 w2; subst h0
    exact Or.inl ⟨hmc, k, c, a, b, e, l1, l2, h, StartsWith.of w1, StartsWith.of w2, fun hs => w1.whole (hs.trans l2.symm), fun hs => w2.whole (hs.trans l1.symm)⟩
  · rw [e] at h; exact Or.inr (Or.inr ⟨hmc, h⟩)
  · exact Or.inr (Or.inl ⟨hmc, e, h⟩)

/-- **C02.** On every public key that passes the modulus check of FIPS 203, Section 7.2, encapsulation computes ML-KEM.Encaps_internal (Algorithm 17) and
returns 0. -/
theorem C02_encaps {K : Nat} (hK : IsParam K) (fuel : Nat) (ek m : List UInt8) (hek : ek.length = pkLen K) (hm : m.length = 32)
    (hcheck : modulusCheck K ek) (ct ss : Buf UInt8) (hct : ct.size = ctLen K) (hss : ss.size = 32) :
    match Encaps_internal K (xofBytes fuel) ek m with
    | some (k, c) => Returns (crypto_kem_enc_derand K fuel ct ss (Buf.ofList ek) (Buf.ofList m)) (0, Buf.ofList c, Buf.ofList k)
    | none => OutOfBudget (crypto_kem_enc_derand K fuel ct ss (Buf.ofList ek) (Buf.ofList m)) := by
  rcases enc_frame hK fuel ek m hek hm ct ss (le_of_eq hct.symm) (le_of_eq hss.symm) with ⟨_, k, c, a, b, e, l1, l2, h, _, _, w1, w2⟩ | ⟨_, e, h⟩ | ⟨hn, _⟩
  · rw [e]; rw [w1 hct, w2 hss] at h; exact h
  · rw [e]; exact h
  · exact absurd hcheck hn

/-- **C04.** Encapsulation fails with -1 exactly when some 12-bit coefficient of the public key is not reduced modulo 3329; otherwise it returns 0 (or the
sampling budget ends). -/
theorem C04_modulus_check {K : Nat} (hK : IsParam K) (fuel : Nat) (ek m : List UInt8) (hek : ek.length = pkLen K) (hm : m.length = 32)
    (ct ss : Buf UInt8) (hct : ct.size = ctLen K) (hss : ss.size = 32) :
    ((∃ n, n < 256 * K ∧ 3329 ≤ coeff12 ek n) ↔ ∃ ct' ss', Returns (crypto_kem_enc_derand K fuel ct ss (Buf.ofList ek) (Buf.ofList m)) (-1, ct', ss')) ∧
    ((∀ n, n < 256 * K → coeff12 ek n < 3329) ↔ (∃ ct' ss', Returns (crypto_kem_enc_derand K fuel ct ss (Buf.ofList ek) (Buf.ofList m)) (0, ct', ss')) ∨
      OutOfBudget (crypto_kem_enc_derand K fuel ct ss (Buf.ofList ek) (Buf.ofList m))) := by
  have hiff := modulusCheck_iff (K := K) (ek := ek) (by rw [hek, pkLen_eq])
  have hneg : (∃ n, n < 256 * K ∧ 3329 ≤ coeff12 ek n) ↔ ¬ modulusCheck K ek := by
    rw [hiff]; constructor
    · rintro ⟨n, h1, h2⟩ h; exact absurd (h n h1) (by omega)
    · intro h; by_contra hc; apply h; intro n hn; by_contra hh; exact hc ⟨n, hn, by omega⟩
  rw [hneg, ← hiff]
  rcases enc_frame hK fuel ek m hek hm ct ss (le_of_eq hct.symm) (le_of_eq hss.symm) with ⟨hc, k, c, a, b, e, l1, l2, h, _⟩ | ⟨hc, e, h⟩ | ⟨hn, h⟩
  · refine ⟨⟨fun h => absurd hc h, ?_⟩, ⟨fun _ => Or.inl ⟨_, _, h⟩, fun _ => hc⟩⟩
    rintro ⟨_, _, h'⟩; exact absurd (congrArg Prod.fst (h.unique h')) (by simp)
  · refine ⟨⟨fun h => absurd hc h, ?_⟩, ⟨fun _ => Or.inr h, fun _ => hc⟩⟩
    rintro ⟨_, _, h'⟩; exact (h'.notOut h).elim
  · refine ⟨⟨fun _ => ⟨_, _, h⟩, fun _ => hn⟩, ⟨fun hc => absurd hc hn, ?_⟩⟩
    rintro (⟨_, _, h'⟩ | h')
    · exact absurd (congrArg Prod.fst (h.unique h')) (by simp)
    · exact (h.notOut h').elim

/-- The coefficient condition of C04 is the modulus check as FIPS 203 words it: decoding and re-encoding gives the same bytes. -/
theorem C04_reencode {K : Nat} (ek : List UInt8) (hek : ek.length = pkLen K) :
    (∀ n, n < 256 * K → coeff12 ek n < 3329) ↔ encode12 K (decode12 ek) = ek.take (384 * K) :=
  (modulusCheck_iff (by rw [hek, pkLen_eq])).symm

/-! ## C03, C05: decapsulation -/

theorem dec_frame {K : Nat} (hK : IsParam K) (fuel : Nat) (dk c : List UInt8) (hdk : dk.length = skLen K) (hc : c.length = ctLen K)
    (ss : Buf UInt8) (hss : 32 ≤ ss.size) :
    (hashCheck K dk ∧ ∃ k ss', Decaps_internal K (xofBytes fuel) dk c = some k ∧ k.length = 32 ∧
      Returns (crypto_kem_dec K fuel ss (Buf.ofList c) (Buf.ofList dk)) (0, ss') ∧ StartsWith ss ss' k ∧ (ss.size = 32 → ss' = Buf.ofList k)) ∨
    (hashCheck K dk ∧ Decaps_internal K (xofBytes fuel) dk c = none ∧ OutOfBudget (crypto_kem_dec K fuel ss (Buf.ofList c) (Buf.ofList dk))) ∨
    (¬ hashCheck K dk ∧ Returns (crypto_kem_dec K fuel ss (Buf.ofList c) (Buf.ofList dk)) (-1, ss)) := by
  rw [skLen_eq] at hdk; rw [ctLen_eq] at hc
  rcases outcome (dec_spec (fuel := fuel) hK hc (SegL_ofList c) hdk (SegL_ofList dk) hss) with ⟨⟨r, a⟩, h, (⟨hh, k, e, l1, h0, w1⟩ | ⟨hh, e⟩)⟩ | ⟨h, hh, e⟩
  · simp only at h0 w1; subst h0
    exact Or.inl ⟨hh, k, a, e, l1, h, StartsWith.of w1, fun hs => w1.whole (hs.trans l1.symm)⟩
  · rw [e] at h; exact Or.inr (Or.inr ⟨hh, h⟩)
  · exact Or.inr (Or.inl ⟨hh, e, h⟩)

/-- **C03.** On every secret key that passes the hash check of FIPS 203, Section 7.3, and every ciphertext, decapsulation computes ML-KEM.Decaps_internal
(Algorithm 18) and returns 0. -/
theorem C03_decaps {K : Nat} (hK : IsParam K) (fuel : Nat) (dk c : List UInt8) (hdk : dk.length = skLen K) (hc : c.length = ctLen K)
    (hcheck : hashCheck K dk) (ss : Buf UInt8) (hss : ss.size = 32) :
    match Decaps_internal K (xofBytes fuel) dk c with
    | some k => Returns (crypto_kem_dec K fuel ss (Buf.ofList c) (Buf.ofList dk)) (0, Buf.ofList k)
    | none => OutOfBudget (crypto_kem_dec K fuel ss (Buf.ofList c) (Buf.ofList dk)) := by
  rcases dec_frame hK fuel dk c hdk hc ss (le_of_eq hss.symm) with ⟨_, k, a, e, l1, h, _, w⟩ | ⟨_, e, h⟩ | ⟨hn, _⟩
  · rw [e]; rw [w hss] at h; exact h
  · rw [e]; exact h
  · exact absurd hcheck hn

/-- **C05.** Decapsulation fails with -1 exactly when the 32 bytes at offset `768k + 32` of the secret key differ from SHA3-256 of the public key stored at
offset `384k`; otherwise it returns 0 (or the sampling budget ends). -/
theorem C05_hash_check {K : Nat} (hK : IsParam K) (fuel : Nat) (dk c : List UInt8) (hdk : dk.length = skLen K) (hc : c.length = ctLen K)
    (ss : Buf UInt8) (hss : ss.size = 32) :
    (SHA3_256 ((dk.drop (384 * K)).take (pkLen K)) ≠ (dk.drop (768 * K + 32)).take 32 ↔
      ∃ ss', Returns (crypto_kem_dec K fuel ss (Buf.ofList c) (Buf.ofList dk)) (-1, ss')) ∧
    (SHA3_256 ((dk.drop (384 * K)).take (pkLen K)) = (dk.drop (768 * K + 32)).take 32 ↔
      (∃ ss', Returns (crypto_kem_dec K fuel ss (Buf.ofList c) (Buf.ofList dk)) (0, ss')) ∨
      OutOfBudget (crypto_kem_dec K fuel ss (Buf.ofList c) (Buf.ofList dk))) := by
  change (¬ hashCheck K dk ↔ _) ∧ (hashCheck K dk ↔ _)
  rcases dec_frame hK fuel dk c hdk hc ss (le_of_eq hss.symm) with ⟨hh, k, a, e, l1, h, _⟩ | ⟨hh, e, h⟩ | ⟨hn, h⟩
  · refine ⟨⟨fun h => absurd hh h, ?_⟩, ⟨fun _ => Or.inl ⟨_, h⟩, fun _ => hh⟩⟩
    rintro ⟨_, h'⟩; exact absurd (congrArg Prod.fst (h.unique h')) (by simp)
  · refine ⟨⟨fun h => absurd hh h, ?_⟩, ⟨fun _ => Or.inr h, fun _ => hh⟩⟩
    rintro ⟨_, h'⟩; exact (h'.notOut h).elim
  · refine ⟨⟨fun _ => ⟨_, h⟩, fun _ => hn⟩, ⟨fun hc => absurd hc hn, ?_⟩⟩
    rintro (⟨_, h'⟩ | h')
    · exact absurd (congrArg Prod.fst (h.unique h')) (by simp)
    · exact (h.notOut h').elim

/-! ## C06: rejected calls write nothing -/

/-- **C06** for encapsulation. -/
theorem C06_enc {K : Nat} (hK : IsParam K) (fuel : Nat) (ek m : List UInt8) (hek : ek.length = pkLen K) (hm : m.length = 32)
    (ct ss : Buf UInt8) (hct : ctLen K ≤ ct.size) (hss : 32 ≤ ss.size) (ct' ss' : Buf UInt8)
    (h : Returns (crypto_kem_enc_derand K fuel ct ss (Buf.ofList ek) (Buf.ofList m)) (-1, ct', ss')) : ct' = ct ∧ ss' = ss := by
  rcases enc_frame hK fuel ek m hek hm ct ss hct hss with ⟨_, k, c, a, b, e, l1, l2, h', _⟩ | ⟨_, e, h'⟩ | ⟨hn, h'⟩
  · exact absurd (congrArg Prod.fst (h.unique h')) (by simp)
  · exact (h.notOut h').elim
  · have := h.unique h'; simp only [Prod.mk.injEq] at this; exact this.2

/-- **C06** for decapsulation. -/
theorem C06_dec {K : Nat} (hK : IsParam K) (fuel : Nat) (dk c : List UInt8) (hdk : dk.length = skLen K) (hc : c.length = ctLen K)
    (ss : Buf UInt8) (hss : 32 ≤ ss.size) (ss' : Buf UInt8)
    (h : Returns (crypto_kem_dec K fuel ss (Buf.ofList c) (Buf.ofList dk)) (-1, ss')) : ss' = ss := by
  rcases dec_frame hK fuel dk c hdk hc ss hss with ⟨_, k, a, e, l1, h', _⟩ | ⟨_, e, h'⟩ | ⟨hn, h'⟩
  · exact absurd (congrArg Prod.fst (h.unique h')) (by simp)
  · exact (h.notOut h').elim
  · have := h.unique h'; simp only [Prod.mk.injEq] at this; exact this.2

/-! ## C07: generated keys are accepted -/

/-- The layout of the specification's key pair. -/
theorem KeyGen_layout {K n : Nat} {d z ek dk : List UInt8} (h : KeyGen_internal K n d z = some (ek, dk)) :
    modulusCheck K ek ∧ ∃ s, s.length = 384 * K ∧ dk = s ++ ek ++ SHA3_256 ek ++ z ∧ ek.length = pkLen K ∧
      ∃ A, sampleA K n (G (d ++ [UInt8.ofNat K])).1 = some A ∧
        s = encode12 K fun i => NTT (SamplePolyCBD (η₁ K) (PRF (η₁ K) (G (d ++ [UInt8.ofNat K])).2 i)) := by
  unfold KeyGen_internal kpkeKeyGen at h
  dsimp only at h
  cases hA : sampleA K n (G (d ++ [UInt8.ofNat K])).1 with
  | none => rw [hA] at h; simp at h
  | some A =>
    rw [hA] at h
    simp only [Option.map_some, Option.some.injEq, Prod.mk.injEq] at h
    obtain ⟨rfl, rfl⟩ := h
    refine ⟨modulusCheck_encode _ _, _, ?_, rfl, ?_, A, rfl, rfl⟩
    · rw [encode12_length, Nat.mul_comm]
    · rw [List.length_append, encode12_length, G1_length, pkLen_eq]

theorem KeyGen_parts {K n : Nat} {d z ek dk : List UInt8} (hz : z.length = 32) (h : KeyGen_internal K n d z = some (ek, dk)) :
    dk.length = skLen K ∧ (dk.drop (384 * K)).take (pkLen K) = ek ∧ (dk.drop (768 * K + 32)).take 32 = SHA3_256 ek ∧ (dk.drop (768 * K + 64)).take 32 = z := by
  obtain ⟨_, s, hs, rfl, he, _⟩ := KeyGen_layout h
  have hH : (SHA3_256 ek).length = 32 := H_length ek
  unfold pkLen at *
  refine ⟨?_, ?_, ?_, ?_⟩
  · rw [skLen_eq]; simp only [List.length_append]; omega
  · rw [List.append_assoc, List.append_assoc, List.drop_left' hs, List.take_left' he]
  · rw [List.append_assoc (s ++ ek), List.drop_left' (by simp only [List.length_append]; omega), List.take_left' hH]
  · rw [List.drop_left' (by simp only [List.length_append]; omega), List.take_of_length_le (by omega)]

/-- **C07.** A generated secret key is the encoded secret vector, the public key, its SHA3-256 hash and `z`; the generated public key is accepted by encapsulation with all coins, and
the generated secret key by decapsulation with all ciphertexts ("accepted": never -1). -/
theorem C07_generated_keys_accepted {K : Nat} (hK : IsParam K) (fuel : Nat) (d z : List UInt8) (hd : d.length = 32) (hz : z.length = 32)
    (pk sk : Buf UInt8) (hpk : pk.size = pkLen K) (hsk : sk.size = skLen K) (r : Int) (pk' sk' : Buf UInt8)
    (h : Returns (crypto_kem_keypair_derand K fuel pk sk (Buf.ofList (d ++ z))) (r, pk', sk')) :
    r = 0 ∧ (∃ s ek, s.length = 384 * K ∧ ek.length = pkLen K ∧ pk' = Buf.ofList ek ∧ sk' = Buf.ofList (s ++ ek ++ SHA3_256 ek ++ z) ∧
      s = encode12 K fun i => NTT (SamplePolyCBD (η₁ K) (PRF (η₁ K) (G (d ++ [UInt8.ofNat K])).2 i))) ∧
    (∀ fuel' m, m.length = 32 → ∀ ct ss, ct.size = ctLen K → ss.size = 32 →
      (∃ ct' ss', Returns (crypto_kem_enc_derand K fuel' ct ss pk' (Buf.ofList m)) (0, ct', ss')) ∨ OutOfBudget (crypto_kem_enc_derand K fuel' ct ss pk' (Buf.ofList m))) ∧
    (∀ fuel' c, c.length = ctLen K → ∀ ss, ss.size = 32 →
      (∃ ss', Returns (crypto_kem_dec K fuel' ss (Buf.ofList c) sk') (0, ss')) ∨ OutOfBudget (crypto_kem_dec K fuel' ss (Buf.ofList c) sk')) := by
  have h1 := C01_keygen hK fuel d z hd hz pk sk hpk hsk
  cases hkg : KeyGen_internal K (xofBytes fuel) d z with
  | none => rw [hkg] at h1; exact (h.notOut h1).elim
  | some p =>
    obtain ⟨ek, dk⟩ := p
    rw [hkg] at h1
    have e := h.unique h1
    simp only [Prod.mk.injEq] at e
    obtain ⟨rfl, rfl, rfl⟩ := e
    obtain ⟨hmc, s, hs, hdk, hek, _, _, hse⟩ := KeyGen_layout hkg
    obtain ⟨ldk, p1, p2, p3⟩ := KeyGen_parts hz hkg
    refine ⟨rfl, ⟨s, ek, hs, hek, rfl, by rw [hdk], hse⟩, fun fuel' m hm ct ss hct hss => ?_, fun fuel' c hc ss hss => ?_⟩
    · exact (C04_modulus_check hK fuel' ek m hek hm ct ss hct hss).2.1 ((C04_reencode ek hek).2 hmc)
    · exact (C05_hash_check hK fuel' dk c ldk hc ss hss).2.1 (by rw [p1, p2])

/-! ## C09: implicit rejection -/

/-- **C09.** On every accepted secret key, with `m'` the decrypted message and `c'` its re-encryption under the embedded public key: if `c'` equals the given
ciphertext, decapsulation returns the key half of `G(m' ‖ h)`, otherwise exactly SHAKE256(z ‖ c, 32).  The return code is 0 in both cases. -/
theorem C09_implicit_rejection {K : Nat} (hK : IsParam K) (fuel : Nat) (s ek h z c : List UInt8) (hs : s.length = 384 * K) (hek : ek.length = pkLen K)
    (hh : h = SHA3_256 ek) (hz : z.length = 32) (hc : c.length = ctLen K) (ss : Buf UInt8) (hss : ss.size = 32) (c' : List UInt8)
    (hc' : kpkeEncrypt K (xofBytes fuel) ek (kpkeDecrypt K s c) ((SHA3_512 (kpkeDecrypt K s c ++ h)).drop 32) = some c') :
    (c' = c → Returns (crypto_kem_dec K fuel ss (Buf.ofList c) (Buf.ofList (s ++ ek ++ h ++ z))) (0, Buf.ofList ((SHA3_512 (kpkeDecrypt K s c ++ h)).take 32))) ∧
    (c' ≠ c → Returns (crypto_kem_dec K fuel ss (Buf.ofList c) (Buf.ofList (s ++ ek ++ h ++ z))) (0, Buf.ofList (SHAKE256 (z ++ c) 32))) := by
  have lh : h.length = 32 := by rw [hh]; exact H_length ek
  have e0 : (s ++ ek ++ h ++ z).take (384 * K) = s := by rw [List.append_assoc, List.append_assoc, List.take_left' hs]
  have e1 : ((s ++ ek ++ h ++ z).drop (384 * K)).take (pkLen K) = ek := by rw [List.append_assoc, List.append_assoc, List.drop_left' hs, List.take_left' hek]
  have e2 : ((s ++ ek ++ h ++ z).drop (768 * K + 32)).take 32 = h := by
    rw [List.append_assoc (s ++ ek), List.drop_left' (by simp only [List.length_append]; rw [hs, hek]; unfold pkLen; omega), List.take_left' lh]
  have e3 : ((s ++ ek ++ h ++ z).drop (768 * K + 64)).take 32 = z := by
    rw [List.drop_left' (by simp only [List.length_append]; rw [hs, hek, lh]; unfold pkLen; omega), List.take_of_length_le (by omega)]
  have hl : (s ++ ek ++ h ++ z).length = skLen K := by simp only [List.length_append]; rw [hs, hek, lh, hz]; unfold pkLen skLen; omega
  have hchk : hashCheck K (s ++ ek ++ h ++ z) := by
    unfold hashCheck; rw [show 384 * K + 32 = pkLen K from rfl, e1, e2]; exact hh.symm
  have h3 := C03_decaps hK fuel (s ++ ek ++ h ++ z) c hl hc hchk ss hss
  have hD : Decaps_internal K (xofBytes fuel) (s ++ ek ++ h ++ z) c = some (if c ≠ c' then SHAKE256 (z ++ c) 32 else (SHA3_512 (kpkeDecrypt K s c ++ h)).take 32) := by
    unfold Decaps_internal
    dsimp only
    rw [show 384 * K + 32 = pkLen K from rfl, e0, e1, e2, e3]
    change Option.map _ (kpkeEncrypt K (xofBytes fuel) ek (kpkeDecrypt K s c) ((SHA3_512 (kpkeDecrypt K s c ++ h)).drop 32)) = _
    rw [hc']; rfl
  rw [hD] at h3
  simp only at h3
  constructor
  · rintro rfl; rwa [if_neg (by simp)] at h3
  · intro hne; rwa [if_pos (Ne.symm hne)] at h3

/-! ## C34: accepted ciphertexts are honest encapsulations -/

/-- **C34.** If decapsulation under a generated key delivers anything other than the rejection value SHAKE256(z ‖ c, 32), then there are coins with which encapsulation under
the generated public key delivers exactly this ciphertext and this shared secret. -/
theorem C34_accepted_is_honest {K : Nat} (hK : IsParam K) (fuel : Nat) (d z : List UInt8) (hd : d.length = 32) (hz : z.length = 32)
    (pk sk : Buf UInt8) (hpk : pk.size = pkLen K) (hsk : sk.size = skLen K) (pk' sk' : Buf UInt8)
    (hkey : Returns (crypto_kem_keypair_derand K fuel pk sk (Buf.ofList (d ++ z))) (0, pk', sk'))
    (c : List UInt8) (hc : c.length = ctLen K) (ss : Buf UInt8) (hss : ss.size = 32) (fuel' : Nat) (r : Int) (key : List UInt8)
    (hdec : Returns (crypto_kem_dec K fuel' ss (Buf.ofList c) sk') (r, Buf.ofList key)) (hkey' : key ≠ SHAKE256 (z ++ c) 32) :
    ∃ m, m.length = 32 ∧ ∀ ct ss, ct.size = ctLen K → ss.size = 32 →
      Returns (crypto_kem_enc_derand K fuel' ct ss pk' (Buf.ofList m)) (0, Buf.ofList c, Buf.ofList key) := by
  have h1 := C01_keygen hK fuel d z hd hz pk sk hpk hsk
  cases hkg : KeyGen_internal K (xofBytes fuel) d z with
  | none => rw [hkg] at h1; exact (hkey.notOut h1).elim
  | some p =>
    obtain ⟨ek, dk⟩ := p
    rw [hkg] at h1
    have e := hkey.unique h1
    simp only [Prod.mk.injEq] at e
    obtain ⟨-, rfl, rfl⟩ := e
    obtain ⟨hmc, s, hs, hdk, hek, _, _, hse⟩ := KeyGen_layout hkg
    have ldk := (KeyGen_parts hz hkg).1
    -- the re-encryption succeeds, since the call returned
    cases hre : kpkeEncrypt K (xofBytes fuel') ek (kpkeDecrypt K s c) ((SHA3_512 (kpkeDecrypt K s c ++ SHA3_256 ek)).drop 32) with
    | none =>
      exfalso
      obtain ⟨_, p1, p2, p3⟩ := KeyGen_parts hz hkg
      have hchk : hashCheck K dk := by unfold hashCheck; rw [show 384 * K + 32 = pkLen K from rfl, p1, p2]; rfl
      have h3 := C03_decaps hK fuel' dk c ldk hc hchk ss hss
      have p0 : dk.take (384 * K) = s := by rw [hdk, List.append_assoc, List.append_assoc, List.take_left' hs]
      have hD : Decaps_internal K (xofBytes fuel') dk c = none := by
        unfold Decaps_internal
        dsimp only
        rw [show 384 * K + 32 = pkLen K from rfl, p0, p1, p2, p3]
        change Option.map _ (kpkeEncrypt K (xofBytes fuel') ek (kpkeDecrypt K s c) ((SHA3_512 (kpkeDecrypt K s c ++ SHA3_256 ek)).drop 32)) = _
        rw [hre]; rfl
      rw [hD] at h3
      exact hdec.notOut h3
    | some c' =>
      have h9 := C09_implicit_rejection hK fuel' s ek (SHA3_256 ek) z c hs hek rfl hz hc ss hss c' hre
      rw [← hdk] at h9
      have inj : ∀ {A B : List UInt8}, Buf.ofList A = Buf.ofList B → A = B := fun {A B} h => by
        unfold Buf.ofList at h
        exact List.map_injective_iff.2 (Option.some_injective _) (Array.mk.inj h)
      by_cases hcc : c' = c
      · have e := hdec.unique (h9.1 hcc)
        simp only [Prod.mk.injEq] at e
        have hke := inj e.2
        have hml : (kpkeDecrypt K s c).length = 32 := by unfold kpkeDecrypt; rw [ByteEncode_length]
        refine ⟨kpkeDecrypt K s c, hml, fun ct ss hct hss => ?_⟩
        have h2 := C02_encaps hK fuel' ek (kpkeDecrypt K s c) hek hml hmc ct ss hct hss
        have hE : Encaps_internal K (xofBytes fuel') ek (kpkeDecrypt K s c) = some (key, c) := by
          unfold Encaps_internal
          change Option.map _ (kpkeEncrypt K (xofBytes fuel') ek (kpkeDecrypt K s c) ((SHA3_512 (kpkeDecrypt K s c ++ SHA3_256 ek)).drop 32)) = _
          rw [hre, hke, ← hcc]; rfl
        rw [hE] at h2
        exact h2
      · have e := hdec.unique (h9.2 hcc)
        simp only [Prod.mk.injEq] at e
        exact absurd (inj e.2) hkey'

/-- With a generated public key the sampling of the matrix succeeds again in encryption. -/
theorem KeyGen_encrypts {K n : Nat} {d z ek dk : List UInt8} (h : KeyGen_internal K n d z = some (ek, dk)) (m r : List UInt8) : ∃ c, kpkeEncrypt K n ek m r = some c := by
  unfold KeyGen_internal kpkeKeyGen at h
  dsimp only at h
  cases hA : sampleA K n (G (d ++ [UInt8.ofNat K])).1 with
  | none => rw [hA] at h; simp at h
  | some A =>
    rw [hA] at h
    simp only [Option.map_some, Option.some.injEq, Prod.mk.injEq] at h
    obtain ⟨rfl, rfl⟩ := h
    unfold kpkeEncrypt
    dsimp only
    rw [List.drop_left' (by rw [encode12_length, Nat.mul_comm]), List.take_of_length_le (by rw [G1_length]), hA]
    exact ⟨_, rfl⟩

/-- **C34 (exactly).** Decapsulation under a generated key, described by encapsulation: whatever the ciphertext, it decrypts to a message `m`, encapsulation to the generated public key with the coins `m`
delivers some ciphertext and key, and decapsulation delivers this key if that ciphertext is the given one, and SHAKE256(z ‖ c, 32) if it is not. -/
theorem C34_exactly {K : Nat} (hK : IsParam K) (fuel : Nat) (d z : List UInt8) (hd : d.length = 32) (hz : z.length = 32)
    (pk sk : Buf UInt8) (hpk : pk.size = pkLen K) (hsk : sk.size = skLen K) (ek dk : List UInt8)
    (hkey : Returns (crypto_kem_keypair_derand K fuel pk sk (Buf.ofList (d ++ z))) (0, Buf.ofList ek, Buf.ofList dk))
    (c : List UInt8) (hc : c.length = ctLen K) (ct ss ss2 : Buf UInt8) (hct : ct.size = ctLen K) (hss : ss.size = 32) (hss2 : ss2.size = 32)
    (m : List UInt8) (hm : m = kpkeDecrypt K (dk.take (384 * K)) c) :
    ∃ c' key, Returns (crypto_kem_enc_derand K fuel ct ss (Buf.ofList ek) (Buf.ofList m)) (0, Buf.ofList c', Buf.ofList key) ∧
      Returns (crypto_kem_dec K fuel ss2 (Buf.ofList c) (Buf.ofList dk)) (0, Buf.ofList (if c' = c then key else SHAKE256 (z ++ c) 32)) := by
  have inj : ∀ {A B : List UInt8}, Buf.ofList A = Buf.ofList B → A = B := fun {A B} h => by
    unfold Buf.ofList at h
    exact List.map_injective_iff.2 (Option.some_injective _) (Array.mk.inj h)
  have h1 := C01_keygen hK fuel d z hd hz pk sk hpk hsk
  cases hkg : KeyGen_internal K (xofBytes fuel) d z with
  | none => rw [hkg] at h1; exact (hkey.notOut h1).elim
  | some p =>
    obtain ⟨ek', dk'⟩ := p
    rw [hkg] at h1
    have e := hkey.unique h1
    simp only [Prod.mk.injEq] at e
    obtain ⟨-, e1, e2⟩ := e
    obtain rfl := inj e1
    obtain rfl := inj e2
    obtain ⟨hmc, s, hs, hdk, hek, _, _, hse⟩ := KeyGen_layout hkg
    have p0 : dk.take (384 * K) = s := by rw [hdk, List.append_assoc, List.append_assoc, List.take_left' hs]
    rw [p0] at hm
    have hml : m.length = 32 := by rw [hm]; unfold kpkeDecrypt; rw [ByteEncode_length]
    have hsome : ∃ c', kpkeEncrypt K (xofBytes fuel) ek m ((SHA3_512 (m ++ SHA3_256 ek)).drop 32) = some c' := KeyGen_encrypts hkg _ _
    obtain ⟨c', hre⟩ := hsome
    have h9 := C09_implicit_rejection hK fuel s ek (SHA3_256 ek) z c hs hek rfl hz hc ss2 hss2 c' (by rw [← hm]; exact hre)
    rw [← hdk, ← hm] at h9
    refine ⟨c', (SHA3_512 (m ++ SHA3_256 ek)).take 32, ?_, ?_⟩
    · have h2 := C02_encaps hK fuel ek m hek hml hmc ct ss hct hss
      have hE : Encaps_internal K (xofBytes fuel) ek m = some ((SHA3_512 (m ++ SHA3_256 ek)).take 32, c') := by
        unfold Encaps_internal
        change Option.map _ (kpkeEncrypt K (xofBytes fuel) ek m ((SHA3_512 (m ++ SHA3_256 ek)).drop 32)) = _
        rw [hre]; rfl
      rw [hE] at h2
      exact h2
    · by_cases hcc : c' = c
      · rw [if_pos hcc]; exact h9.1 hcc
      · rw [if_neg hcc]; exact h9.2 hcc

/-- **C34 (modified ciphertexts).** Any ciphertext other than the one encapsulation delivered for `m` is either answered with its own rejection key, or is the ciphertext of a different message, and then the key
is the one encapsulation delivers for that message. -/
theorem C34_modified {K : Nat} (hK : IsParam K) (fuel : Nat) (d z m : List UInt8) (hd : d.length = 32) (hz : z.length = 32)
    (pk sk : Buf UInt8) (hpk : pk.size = pkLen K) (hsk : sk.size = skLen K) (ek dk : List UInt8)
    (hkey : Returns (crypto_kem_keypair_derand K fuel pk sk (Buf.ofList (d ++ z))) (0, Buf.ofList ek, Buf.ofList dk))
    (ct ss ss2 : Buf UInt8) (hct : ct.size = ctLen K) (hss : ss.size = 32) (hss2 : ss2.size = 32) (c key : List UInt8)
    (henc : Returns (crypto_kem_enc_derand K fuel ct ss (Buf.ofList ek) (Buf.ofList m)) (0, Buf.ofList c, Buf.ofList key))
    (c2 : List UInt8) (hc2 : c2.length = ctLen K) (hne : c2 ≠ c) :
    Returns (crypto_kem_dec K fuel ss2 (Buf.ofList c2) (Buf.ofList dk)) (0, Buf.ofList (SHAKE256 (z ++ c2) 32)) ∨
    ∃ m2 key2, m2.length = 32 ∧ m2 ≠ m ∧ Returns (crypto_kem_enc_derand K fuel ct ss (Buf.ofList ek) (Buf.ofList m2)) (0, Buf.ofList c2, Buf.ofList key2) ∧
      Returns (crypto_kem_dec K fuel ss2 (Buf.ofList c2) (Buf.ofList dk)) (0, Buf.ofList key2) := by
  obtain ⟨c', k', h1, h2⟩ := C34_exactly hK fuel d z hd hz pk sk hpk hsk ek dk hkey c2 hc2 ct ss ss2 hct hss hss2 _ rfl
  by_cases hcc : c' = c2
  · rw [if_pos hcc] at h2
    rw [hcc] at h1
    refine Or.inr ⟨_, k', by unfold kpkeDecrypt; rw [ByteEncode_length], fun e => hne ?_, h1, h2⟩
    rw [e] at h1
    have := h1.unique henc
    simp only [Prod.mk.injEq] at this
    have h := this.2.1
    unfold Buf.ofList at h
    exact List.map_injective_iff.2 (Option.some_injective _) (Array.mk.inj h)
  · rw [if_neg hcc] at h2; exact Or.inl h2

/-! ## C10, C11, C12: no undefined behaviour -/

/-- The failures excluded by C10 (access outside an object). -/
def NoOob {α : Type} (p : M α) : Prop := p ≠ .error .oob
/-- The failures excluded by C11 (read of uninitialised memory). -/
def NoUninit {α : Type} (p : M α) : Prop := p ≠ .error .uninit
/-- The failures excluded by C12: signed overflow, value-changing narrowing, division by zero, failing debug check. -/
def NoArith {α : Type} (p : M α) : Prop := p ≠ .error .overflow ∧ p ≠ .error .lossy ∧ p ≠ .error .div0 ∧ p ≠ .error .assert

theorem safe_of_outcome {α : Type} {p : M α} (h : (∃ a, Returns p a) ∨ OutOfBudget p) : NoOob p ∧ NoUninit p ∧ NoArith p := by
  rcases h with ⟨a, t, h⟩ | h
  · unfold NoOob NoUninit NoArith; rw [h]; exact ⟨nofun, nofun, nofun, nofun, nofun, nofun⟩
  · unfold OutOfBudget at h; unfold NoOob NoUninit NoArith; rw [h]; exact ⟨nofun, nofun, nofun, nofun, nofun, nofun⟩

/-- A fully initialised object of `n` bytes. -/
def Init (b : Buf UInt8) (n : Nat) : Prop := ∃ L : List UInt8, L.length = n ∧ b = Buf.ofList L

theorem split64 {L : List UInt8} (h : L.length = 64) : ∃ d z, L = d ++ z ∧ d.length = 32 ∧ z.length = 32 :=
  ⟨L.take 32, L.drop 32, (List.take_append_drop 32 L).symm, by rw [List.length_take]; omega, by rw [List.length_drop]; omega⟩

theorem keygen_outcome {K : Nat} (hK : IsParam K) (fuel : Nat) {coins pk sk : Buf UInt8} (hc : Init coins 64) (hpk : pkLen K ≤ pk.size) (hsk : skLen K ≤ sk.size) :
    (∃ a, Returns (crypto_kem_keypair_derand K fuel pk sk coins) a) ∨ OutOfBudget (crypto_kem_keypair_derand K fuel pk sk coins) := by
  obtain ⟨L, hL, rfl⟩ := hc
  obtain ⟨d, z, rfl, hd, hz⟩ := split64 hL
  rcases keygen_frame hK fuel d z hd hz pk sk hpk hsk with ⟨_, _, _, _, _, _, _, h, _⟩ | ⟨_, h⟩
  · exact Or.inl ⟨_, h⟩
  · exact Or.inr h

theorem enc_outcome {K : Nat} (hK : IsParam K) (fuel : Nat) {ct ss pk coins : Buf UInt8} (hpk : Init pk (pkLen K)) (hc : Init coins 32) (hct : ctLen K ≤ ct.size) (hss : 32 ≤ ss.size) :
    (∃ a, Returns (crypto_kem_enc_derand K fuel ct ss pk coins) a) ∨ OutOfBudget (crypto_kem_enc_derand K fuel ct ss pk coins) := by
  obtain ⟨ek, hek, rfl⟩ := hpk
  obtain ⟨m, hm, rfl⟩ := hc
  rcases enc_frame hK fuel ek m hek hm ct ss hct hss with ⟨_, _, _, _, _, _, _, _, h, _⟩ | ⟨_, _, h⟩ | ⟨_, h⟩
  · exact Or.inl ⟨_, h⟩
  · exact Or.inr h
  · exact Or.inl ⟨_, h⟩

theorem dec_outcome {K : Nat} (hK : IsParam K) (fuel : Nat) {ss ct sk : Buf UInt8} (hct : Init ct (ctLen K)) (hsk : Init sk (skLen K)) (hss : 32 ≤ ss.size) :
    (∃ a, Returns (crypto_kem_dec K fuel ss ct sk) a) ∨ OutOfBudget (crypto_kem_dec K fuel ss ct sk) := by
  obtain ⟨c, hc, rfl⟩ := hct
  obtain ⟨dk, hdk, rfl⟩ := hsk
  rcases dec_frame hK fuel dk c hdk hc ss hss with ⟨_, _, _, _, _, h, _⟩ | ⟨_, _, h⟩ | ⟨_, h⟩
  · exact Or.inl ⟨_, h⟩
  · exact Or.inr h
  · exact Or.inl ⟨_, h⟩

/-- **C10.** With objects of the announced sizes no entry point accesses memory outside an object. -/
theorem C10_memory_safe {K : Nat} (hK : IsParam K) (fuel : Nat) {coins64 coins32 pkOut skOut pkIn skIn ctOut ctIn ss : Buf UInt8}
    (h64 : Init coins64 64) (h32 : Init coins32 32) (hpk : Init pkIn (pkLen K)) (hsk : Init skIn (skLen K)) (hct : Init ctIn (ctLen K))
    (hpk' : pkLen K ≤ pkOut.size) (hsk' : skLen K ≤ skOut.size) (hct' : ctLen K ≤ ctOut.size) (hss : 32 ≤ ss.size) :
    NoOob (crypto_kem_keypair_derand K fuel pkOut skOut coins64) ∧ NoOob (crypto_kem_enc_derand K fuel ctOut ss pkIn coins32) ∧ NoOob (crypto_kem_dec K fuel ss ctIn skIn) :=
  ⟨(safe_of_outcome (keygen_outcome hK fuel h64 hpk' hsk')).1, (safe_of_outcome (enc_outcome hK fuel hpk h32 hct' hss)).1, (safe_of_outcome (dec_outcome hK fuel hct hsk hss)).1⟩

/-- Objects that meet the hypotheses of C10 to C12: initialised inputs, uninitialised outputs, one of them larger than needed. -/
example {K : Nat} : Init (Buf.ofList (List.replicate 64 3)) 64 ∧ Init (Buf.ofList (List.replicate (pkLen K) 7)) (pkLen K) ∧ Init (Buf.ofList (List.replicate (skLen K) 9)) (skLen K) ∧
    Init (Buf.ofList (List.replicate (ctLen K) 1)) (ctLen K) ∧ pkLen K ≤ (Buf.uninit UInt8 (pkLen K + 5)).size ∧ 32 ≤ (Buf.uninit UInt8 32).size :=
  ⟨⟨_, by simp, rfl⟩, ⟨_, by simp, rfl⟩, ⟨_, by simp, rfl⟩, ⟨_, by simp, rfl⟩, by simp, by simp⟩

/-- **C11**, first part: no entry point reads uninitialised memory. -/
theorem C11_no_uninit {K : Nat} (hK : IsParam K) (fuel : Nat) {coins64 coins32 pkOut skOut pkIn skIn ctOut ctIn ss : Buf UInt8}
    (h64 : Init coins64 64) (h32 : Init coins32 32) (hpk : Init pkIn (pkLen K)) (hsk : Init skIn (skLen K)) (hct : Init ctIn (ctLen K))
    (hpk' : pkLen K ≤ pkOut.size) (hsk' : skLen K ≤ skOut.size) (hct' : ctLen K ≤ ctOut.size) (hss : 32 ≤ ss.size) :
    NoUninit (crypto_kem_keypair_derand K fuel pkOut skOut coins64) ∧ NoUninit (crypto_kem_enc_derand K fuel ctOut ss pkIn coins32) ∧ NoUninit (crypto_kem_dec K fuel ss ctIn skIn) :=
  ⟨(safe_of_outcome (keygen_outcome hK fuel h64 hpk' hsk')).2.1, (safe_of_outcome (enc_outcome hK fuel hpk h32 hct' hss)).2.1, (safe_of_outcome (dec_outcome hK fuel hct hsk hss)).2.1⟩

/-- **C11**, second part: the previous contents of the output objects do not influence what key generation delivers. -/
theorem C11_keygen_independent {K : Nat} (hK : IsParam K) (fuel : Nat) {coins pk1 sk1 pk2 sk2 : Buf UInt8} (hc : Init coins 64)
    (h1 : pk1.size = pkLen K) (h2 : sk1.size = skLen K) (h3 : pk2.size = pkLen K) (h4 : sk2.size = skLen K) (a : Int × Buf UInt8 × Buf UInt8) :
    Returns (crypto_kem_keypair_derand K fuel pk1 sk1 coins) a ↔ Returns (crypto_kem_keypair_derand K fuel pk2 sk2 coins) a := by
  obtain ⟨L, hL, rfl⟩ := hc
  obtain ⟨d, z, rfl, hd, hz⟩ := split64 hL
  have a1 := C01_keygen hK fuel d z hd hz pk1 sk1 h1 h2
  have a2 := C01_keygen hK fuel d z hd hz pk2 sk2 h3 h4
  cases hkg : KeyGen_internal K (xofBytes fuel) d z with
  | none => rw [hkg] at a1 a2; exact ⟨fun h => (h.notOut a1).elim, fun h => (h.notOut a2).elim⟩
  | some p =>
    rw [hkg] at a1 a2
    exact ⟨fun h => by rw [h.unique a1]; exact a2, fun h => by rw [h.unique a2]; exact a1⟩

/-- **C11**, second part: the previous contents of the output objects do not influence what a successful encapsulation delivers. -/
theorem C11_enc_independent {K : Nat} (hK : IsParam K) (fuel : Nat) {pk coins ct1 ss1 ct2 ss2 : Buf UInt8} (hpk : Init pk (pkLen K)) (hc : Init coins 32)
    (h1 : ct1.size = ctLen K) (h2 : ss1.size = 32) (h3 : ct2.size = ctLen K) (h4 : ss2.size = 32) (c k : Buf UInt8) :
    Returns (crypto_kem_enc_derand K fuel ct1 ss1 pk coins) (0, c, k) ↔ Returns (crypto_kem_enc_derand K fuel ct2 ss2 pk coins) (0, c, k) := by
  obtain ⟨ek, hek, rfl⟩ := hpk
  obtain ⟨m, hm, rfl⟩ := hc
  have key : ∀ {ctA ssA ctB ssB : Buf UInt8}, ctA.size = ctLen K → ssA.size = 32 → ctB.size = ctLen K → ssB.size = 32 →
      Returns (crypto_kem_enc_derand K fuel ctA ssA (Buf.ofList ek) (Buf.ofList m)) (0, c, k) → Returns (crypto_kem_enc_derand K fuel ctB ssB (Buf.ofList ek) (Buf.ofList m)) (0, c, k) := by
    intro ctA ssA ctB ssB i1 i2 i3 i4 h
    have hchk : modulusCheck K ek := (C04_reencode ek hek).1 ((C04_modulus_check hK fuel ek m hek hm ctA ssA i1 i2).2.2 (Or.inl ⟨_, _, h⟩))
    have a1 := C02_encaps hK fuel ek m hek hm hchk ctA ssA i1 i2
    have a2 := C02_encaps hK fuel ek m hek hm hchk ctB ssB i3 i4
    cases he : Encaps_internal K (xofBytes fuel) ek m with
    | none => rw [he] at a1; exact (h.notOut a1).elim
    | some p => rw [he] at a1 a2; rw [h.unique a1]; exact a2
  exact ⟨key h1 h2 h3 h4, key h3 h4 h1 h2⟩

/-- **C11**, second part: the previous contents of the output object do not influence what a successful decapsulation delivers. -/
theorem C11_dec_independent {K : Nat} (hK : IsParam K) (fuel : Nat) {ct sk ss1 ss2 : Buf UInt8} (hct : Init ct (ctLen K)) (hsk : Init sk (skLen K))
    (h1 : ss1.size = 32) (h2 : ss2.size = 32) (k : Buf UInt8) :
    Returns (crypto_kem_dec K fuel ss1 ct sk) (0, k) ↔ Returns (crypto_kem_dec K fuel ss2 ct sk) (0, k) := by
  obtain ⟨c, hc, rfl⟩ := hct
  obtain ⟨dk, hdk, rfl⟩ := hsk
  have key : ∀ {ssA ssB : Buf UInt8}, ssA.size = 32 → ssB.size = 32 →
      Returns (crypto_kem_dec K fuel ssA (Buf.ofList c) (Buf.ofList dk)) (0, k) → Returns (crypto_kem_dec K fuel ssB (Buf.ofList c) (Buf.ofList dk)) (0, k) := by
    intro ssA ssB i1 i2 h
    have hchk : hashCheck K dk := (C05_hash_check hK fuel dk c hdk hc ssA i1).2.2 (Or.inl ⟨_, h⟩)
    have a1 := C03_decaps hK fuel dk c hdk hc hchk ssA i1
    have a2 := C03_decaps hK fuel dk c hdk hc hchk ssB i2
    cases he : Decaps_internal K (xofBytes fuel) dk c with
    | none => rw [he] at a1; exact (h.notOut a1).elim
    | some p => rw [he] at a1 a2; rw [h.unique a1]; exact a2
  exact ⟨key h1 h2, key h2 h1⟩

/-- **C12.** No entry point performs an overflowing or value-changing integer operation or division by zero, and no debug check fires. -/
theorem C12_arithmetic {K : Nat} (hK : IsParam K) (fuel : Nat) {coins64 coins32 pkOut skOut pkIn skIn ctOut ctIn ss : Buf UInt8}
    (h64 : Init coins64 64) (h32 : Init coins32 32) (hpk : Init pkIn (pkLen K)) (hsk : Init skIn (skLen K)) (hct : Init ctIn (ctLen K))
    (hpk' : pkLen K ≤ pkOut.size) (hsk' : skLen K ≤ skOut.size) (hct' : ctLen K ≤ ctOut.size) (hss : 32 ≤ ss.size) :
    NoArith (crypto_kem_keypair_derand K fuel pkOut skOut coins64) ∧ NoArith (crypto_kem_enc_derand K fuel ctOut ss pkIn coins32) ∧ NoArith (crypto_kem_dec K fuel ss ctIn skIn) :=
  ⟨(safe_of_outcome (keygen_outcome hK fuel h64 hpk' hsk')).2.2, (safe_of_outcome (enc_outcome hK fuel hpk h32 hct' hss)).2.2, (safe_of_outcome (dec_outcome hK fuel hct hsk hss)).2.2⟩

/-! ## C33: lengths and layout -/

/-- **C33.** On success exactly the first `384k+32` bytes of `pk` and `768k+96` bytes of `sk` are written, whatever else the objects contain. -/
theorem C33_keygen_layout {K : Nat} (hK : IsParam K) (fuel : Nat) {coins pk sk : Buf UInt8} (hc : Init coins 64) (hpk : pkLen K ≤ pk.size) (hsk : skLen K ≤ sk.size)
    {r : Int} {pk' sk' : Buf UInt8} (h : Returns (crypto_kem_keypair_derand K fuel pk sk coins) (r, pk', sk')) :
    ∃ ek dk, ek.length = 384 * K + 32 ∧ dk.length = 768 * K + 96 ∧ StartsWith pk pk' ek ∧ StartsWith sk sk' dk := by
  obtain ⟨L, hL, rfl⟩ := hc
  obtain ⟨d, z, rfl, hd, hz⟩ := split64 hL
  rcases keygen_frame hK fuel d z hd hz pk sk hpk hsk with ⟨ek, dk, a, b, _, l1, l2, h', w1, w2⟩ | ⟨_, h'⟩
  · have e := h.unique h'; simp only [Prod.mk.injEq] at e; obtain ⟨-, rfl, rfl⟩ := e
    exact ⟨ek, dk, l1, l2, w1, w2⟩
  · exact (h.notOut h').elim

/-- **C33.** On success exactly the first `32(du k + dv)` bytes of `ct` and 32 bytes of `ss` are written. -/
theorem C33_enc_layout {K : Nat} (hK : IsParam K) (fuel : Nat) {ct ss pk coins : Buf UInt8} (hpk : Init pk (pkLen K)) (hc : Init coins 32) (hct : ctLen K ≤ ct.size) (hss : 32 ≤ ss.size)
    {ct' ss' : Buf UInt8} (h : Returns (crypto_kem_enc_derand K fuel ct ss pk coins) (0, ct', ss')) :
    ∃ c k, c.length = 32 * (d_u K * K + d_v K) ∧ k.length = 32 ∧ StartsWith ct ct' c ∧ StartsWith ss ss' k := by
  obtain ⟨ek, hek, rfl⟩ := hpk
  obtain ⟨m, hm, rfl⟩ := hc
  rcases enc_frame hK fuel ek m hek hm ct ss hct hss with ⟨_, k, c, a, b, _, l1, l2, h', w1, w2, _⟩ | ⟨_, _, h'⟩ | ⟨_, h'⟩
  · have e := h.unique h'; simp only [Prod.mk.injEq] at e; obtain ⟨-, rfl, rfl⟩ := e
    exact ⟨c, k, l2, l1, w1, w2⟩
  · exact (h.notOut h').elim
  · exact absurd (congrArg Prod.fst (h.unique h')) (by simp)

/-- **C33.** On success exactly the first 32 bytes of `ss` are written. -/
theorem C33_dec_layout {K : Nat} (hK : IsParam K) (fuel : Nat) {ss ct sk : Buf UInt8} (hct : Init ct (ctLen K)) (hsk : Init sk (skLen K)) (hss : 32 ≤ ss.size)
    {ss' : Buf UInt8} (h : Returns (crypto_kem_dec K fuel ss ct sk) (0, ss')) : ∃ k, k.length = 32 ∧ StartsWith ss ss' k := by
  obtain ⟨c, hc, rfl⟩ := hct
  obtain ⟨dk, hdk, rfl⟩ := hsk
  rcases dec_frame hK fuel dk c hdk hc ss hss with ⟨_, k, a, _, l1, h', w1, _⟩ | ⟨_, _, h'⟩ | ⟨_, h'⟩
  · have e := h.unique h'; simp only [Prod.mk.injEq] at e; obtain ⟨-, rfl⟩ := e
    exact ⟨k, l1, w1⟩
  · exact (h.notOut h').elim
  · exact absurd (congrArg Prod.fst (h.unique h')) (by simp)

/-- The sizes are those of the parameter sets (FIPS 203 Table 3; the constants of api.h as the model computes them). -/
theorem C33_sizes : (pkLen 2, skLen 2, ctLen 2) = (800, 1632, 768) ∧ (pkLen 3, skLen 3, ctLen 3) = (1184, 2400, 1088) ∧ (pkLen 4, skLen 4, ctLen 4) = (1568, 3168, 1568) ∧
    ∀ K, (MLKEM_PUBLICKEYBYTES K, MLKEM_SECRETKEYBYTES K, MLKEM_CIPHERTEXTBYTES K) = (pkLen K, skLen K, ctLen K) :=
  ⟨by decide, by decide, by decide, fun K => by rw [ctLen_eq, skbytes_eq, skLen_eq, pkbytes_eq, pkLen_eq]⟩

/-! ## C16: the randomised API -/

theorem randombytes_eq {σ : Type} (rb : RandomBytes σ) (st : σ) (n : Nat) (h : (rb st n).1.length = n) : randombytes rb st n = (Buf.ofList (rb st n).1, (rb st n).2) := by
  unfold randombytes
  congr 1
  apply Array.ext
  · simp [Buf.ofList, h]
  · intro i h1 h2
    simp only [Array.size_ofFn] at h1
    simp [Buf.ofList, h, h1]

/-- Run `p` and post-process its result. -/
def mapM {α β : Type} (f : α → β) (p : M α) : M β := p >>= fun a => pure (f a)

/-- **C16.** `crypto_kem_keypair` asks `randombytes` once, for 64 bytes, and then does exactly what the derandomised function does on these bytes (same outcome, outputs, memory accesses);
it returns 0. -/
theorem C16_keypair {σ : Type} (rb : RandomBytes σ) (st : σ) (K fuel : Nat) (pk sk : Buf UInt8) (hrb : (rb st 64).1.length = 64) :
    crypto_kem_keypair K fuel rb st pk sk =
      mapM (fun x => (0, x.2.1, x.2.2, (rb st 64).2)) (crypto_kem_keypair_derand K fuel pk sk (Buf.ofList (rb st 64).1)) := by
  unfold crypto_kem_keypair
  rw [randombytes_eq rb st (2 * 32) hrb]
  rfl

/-- **C16.** `crypto_kem_enc` asks `randombytes` once, for 32 bytes, and then does exactly what the derandomised function does on these bytes, including the return code. -/
theorem C16_enc {σ : Type} (rb : RandomBytes σ) (st : σ) (K fuel : Nat) (ct ss pk : Buf UInt8) (hrb : (rb st 32).1.length = 32) :
    crypto_kem_enc K fuel rb st ct ss pk =
      mapM (fun x => (x.1, x.2.1, x.2.2, (rb st 32).2)) (crypto_kem_enc_derand K fuel ct ss pk (Buf.ofList (rb st 32).1)) := by
  unfold crypto_kem_enc
  rw [randombytes_eq rb st 32 hrb]
  rfl

/-- A source of randomness that meets the hypothesis of C16: it delivers as many bytes as it is asked for, and counts the calls. -/
example : ((fun (st n : Nat) => (List.replicate n (UInt8.ofNat st), st + 1) : RandomBytes Nat) 5 64) = (List.replicate 64 5, 6) := rfl

end Verif.Props

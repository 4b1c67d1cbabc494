import Verif.Proof.NativeKem
import Verif.Props.Examples
/-! # The API functions of an x86_64 (AVX2) build (C43 - C47)

`Native.x86_64 g` is the library with the AVX2 Keccak permutation, rejection sampler and arithmetic in place of the portable functions; `g` is what the vector registers contain when
the assembly functions are entered, and the theorems hold for all `g`. -/
namespace Verif.Props
open Verif Verif.Model Verif.Spec

attribute [local irreducible] keccakF partialK finK blocksK sqByte SHAKE256 SHA3_256 SHA3_512 SHAKE128

/-- `crypto_kem_keypair_derand` of an x86_64 build. -/
abbrev avx2Keypair (g : Native.Regs) := Native.crypto_kem_keypair_derand (Native.x86_64 g)
/-- `crypto_kem_enc_derand` of an x86_64 build. -/
abbrev avx2Enc (g : Native.Regs) := Native.crypto_kem_enc_derand (Native.x86_64 g)
/-- `crypto_kem_dec` of an x86_64 build. -/
abbrev avx2Dec (g : Native.Regs) := Native.crypto_kem_dec (Native.x86_64 g)

/-- Two calls have the same outcome: both return the same code and the same output objects, or both use up the sampling budget; neither ends in any other way. -/
def SameOutcome {α : Type} (p q : M α) : Prop := (∃ a, Returns p a ∧ Returns q a) ∨ (OutOfBudget p ∧ OutOfBudget q)

theorem SameOutcome.returns_iff {α : Type} {p q : M α} (h : SameOutcome p q) (a : α) : Returns p a ↔ Returns q a := by
  rcases h with ⟨b, h1, h2⟩ | ⟨h1, h2⟩
  · exact ⟨fun h => by rw [h.unique h1]; exact h2, fun h => by rw [h.unique h2]; exact h1⟩
  · exact ⟨fun h => (h.notOut h1).elim, fun h => (h.notOut h2).elim⟩

theorem SameOutcome.out_iff {α : Type} {p q : M α} (h : SameOutcome p q) : OutOfBudget p ↔ OutOfBudget q := by
  rcases h with ⟨b, h1, h2⟩ | ⟨h1, h2⟩
  · exact ⟨fun h => (h1.notOut h).elim, fun h => (h2.notOut h).elim⟩
  · exact ⟨fun _ => h2, fun _ => h1⟩

theorem writtenL_unique {b b1 b2 : Buf UInt8} {L : List UInt8} (h1 : WrittenL b b1 0 L) (h2 : WrittenL b b2 0 L) : b1 = b2 := by
  refine Array.ext_getElem? fun i => ?_
  by_cases hi : i < L.length
  · have a := h1.2.1 i hi; have b := h2.2.1 i hi
    rw [Nat.zero_add] at a b; rw [a, b]
  · rw [h1.2.2 i (Or.inr (by omega)), h2.2.2 i (Or.inr (by omega))]

/-! ## A build on a backend that meets the contract, and a portable build, do the same -/

variable {bk : Native.Backend} {π : Nat → Nat} {C : Model.Poly → (Nat → Int) → Prop}

theorem same_keypair (hb : Native.Meets bk π C) {K : Nat} (hK : IsParam K) (fuel : Nat) {coins pk sk : Buf UInt8} (hc : Init coins 64) (hpk : pkLen K ≤ pk.size) (hsk : skLen K ≤ sk.size) :
    SameOutcome (Native.crypto_kem_keypair_derand bk K fuel pk sk coins) (crypto_kem_keypair_derand K fuel pk sk coins) := by
  obtain ⟨L, hL, rfl⟩ := hc
  obtain ⟨d, z, rfl, hd, hz⟩ := split64 hL
  rw [pkLen_eq] at hpk; rw [skLen_eq] at hsk
  rcases outcome (Native.keypair_derand_spec hb (fuel := fuel) hK hd hz (SegL_ofList (d ++ z)) hpk hsk) with ⟨⟨r, a, b⟩, h, ek, dk, e, l1, l2, h0, w1, w2⟩ | ⟨h, e⟩ <;>
  rcases outcome (keypair_derand_spec (fuel := fuel) hK hd hz (SegL_ofList (d ++ z)) hpk hsk) with ⟨⟨r', a', b'⟩, h', ek', dk', e', l1', l2', h0', w1', w2'⟩ | ⟨h', e'⟩
  · rw [e] at e'; simp only [Option.some.injEq, Prod.mk.injEq] at e'; obtain ⟨rfl, rfl⟩ := e'
    simp only at h0 w1 w2 h0' w1' w2'
    rw [h0, writtenL_unique w1 w1', writtenL_unique w2 w2'] at h; rw [h0'] at h'
    exact Or.inl ⟨_, h, h'⟩
  · rw [e] at e'; cases e'
  · rw [e] at e'; cases e'
  · exact Or.inr ⟨h, h'⟩

theorem same_enc (hb : Native.Meets bk π C) {K : Nat} (hK : IsParam K) (fuel : Nat) {ct ss pk coins : Buf UInt8} (hpk : Init pk (pkLen K)) (hc : Init coins 32) (hct : ctLen K ≤ ct.size) (hss : 32 ≤ ss.size) :
    SameOutcome (Native.crypto_kem_enc_derand bk K fuel ct ss pk coins) (crypto_kem_enc_derand K fuel ct ss pk coins) := by
  obtain ⟨ek, hek, rfl⟩ := hpk
  obtain ⟨m, hm, rfl⟩ := hc
  rw [pkLen_eq] at hek; rw [ctLen_eq] at hct
  rcases outcome (Native.enc_derand_spec hb (fuel := fuel) hK hek (SegL_ofList ek) hm (SegL_ofList m) hct hss) with ⟨⟨r, a, b⟩, h, (⟨hmc, k, c, e, l1, l2, h0, w1, w2⟩ | ⟨hmc, e⟩)⟩ | ⟨h, hmc, e⟩ <;>
  rcases outcome (enc_derand_spec (fuel := fuel) hK hek (SegL_ofList ek) hm (SegL_ofList m) hct hss) with ⟨⟨r', a', b'⟩, h', (⟨hmc', k', c', e', l1', l2', h0', w1', w2'⟩ | ⟨hmc', e'⟩)⟩ | ⟨h', hmc', e'⟩ <;>
  first
    | exact absurd hmc hmc'
    | exact absurd hmc' hmc
    | skip
  · rw [e] at e'; simp only [Option.some.injEq, Prod.mk.injEq] at e'; obtain ⟨rfl, rfl⟩ := e'
    simp only at h0 w1 w2 h0' w1' w2'
    rw [h0, writtenL_unique w1 w1', writtenL_unique w2 w2'] at h; rw [h0'] at h'
    exact Or.inl ⟨_, h, h'⟩
  · rw [e] at e'; cases e'
  · rw [e] at h; rw [e'] at h'; exact Or.inl ⟨_, h, h'⟩
  · rw [e] at e'; cases e'
  · exact Or.inr ⟨h, h'⟩

theorem same_dec (hb : Native.Meets bk π C) {K : Nat} (hK : IsParam K) (fuel : Nat) {ss ct sk : Buf UInt8} (hct : Init ct (ctLen K)) (hsk : Init sk (skLen K)) (hss : 32 ≤ ss.size) :
    SameOutcome (Native.crypto_kem_dec bk K fuel ss ct sk) (crypto_kem_dec K fuel ss ct sk) := by
  obtain ⟨c, hc, rfl⟩ := hct
  obtain ⟨dk, hdk, rfl⟩ := hsk
  rw [skLen_eq] at hdk; rw [ctLen_eq] at hc
  rcases outcome (Native.dec_spec hb (fuel := fuel) hK hc (SegL_ofList c) hdk (SegL_ofList dk) hss) with ⟨⟨r, a⟩, h, (⟨hh, k, e, l1, h0, w1⟩ | ⟨hh, e⟩)⟩ | ⟨h, hh, e⟩ <;>
  rcases outcome (dec_spec (fuel := fuel) hK hc (SegL_ofList c) hdk (SegL_ofList dk) hss) with ⟨⟨r', a'⟩, h', (⟨hh', k', e', l1', h0', w1'⟩ | ⟨hh', e'⟩)⟩ | ⟨h', hh', e'⟩ <;>
  first
    | exact absurd hh hh'
    | exact absurd hh' hh
    | skip
  · rw [e] at e'; simp only [Option.some.injEq] at e'; subst e'
    simp only at h0 w1 h0' w1'
    rw [h0, writtenL_unique w1 w1'] at h; rw [h0'] at h'
    exact Or.inl ⟨_, h, h'⟩
  · rw [e] at e'; cases e'
  · rw [e] at h; rw [e'] at h'; exact Or.inl ⟨_, h, h'⟩
  · rw [e] at e'; cases e'
  · exact Or.inr ⟨h, h'⟩

/-! ## C46: an x86_64 build and a portable build do the same -/

/-- **C46.** Key generation: for all coins and all output objects (large enough, arbitrary contents), the two builds have the same outcome. -/
theorem C46_keypair (g : Native.Regs) {K : Nat} (hK : IsParam K) (fuel : Nat) {coins pk sk : Buf UInt8} (hc : Init coins 64) (hpk : pkLen K ≤ pk.size) (hsk : skLen K ≤ sk.size) :
    SameOutcome (avx2Keypair g K fuel pk sk coins) (crypto_kem_keypair_derand K fuel pk sk coins) :=
  same_keypair (Native.x86_64_meets g) hK fuel hc hpk hsk

/-- **C46.** Encapsulation: for all public keys (well-formed or not), coins and output objects, the two builds have the same outcome, including rejection. -/
theorem C46_enc (g : Native.Regs) {K : Nat} (hK : IsParam K) (fuel : Nat) {ct ss pk coins : Buf UInt8} (hpk : Init pk (pkLen K)) (hc : Init coins 32) (hct : ctLen K ≤ ct.size) (hss : 32 ≤ ss.size) :
    SameOutcome (avx2Enc g K fuel ct ss pk coins) (crypto_kem_enc_derand K fuel ct ss pk coins) :=
  same_enc (Native.x86_64_meets g) hK fuel hpk hc hct hss

/-- **C46.** Decapsulation: for all secret keys, ciphertexts (honest or not) and output objects, the two builds have the same outcome, including rejection. -/
theorem C46_dec (g : Native.Regs) {K : Nat} (hK : IsParam K) (fuel : Nat) {ss ct sk : Buf UInt8} (hct : Init ct (ctLen K)) (hsk : Init sk (skLen K)) (hss : 32 ≤ ss.size) :
    SameOutcome (avx2Dec g K fuel ss ct sk) (crypto_kem_dec K fuel ss ct sk) :=
  same_dec (Native.x86_64_meets g) hK fuel hct hsk hss

/-! ## C43: key generation of an x86_64 build -/

/-- **C43.** Key generation of an x86_64 build computes ML-KEM.KeyGen_internal (FIPS 203, Algorithm 16) and returns 0. -/
theorem C43_keygen (g : Native.Regs) {K : Nat} (hK : IsParam K) (fuel : Nat) (d z : List UInt8) (hd : d.length = 32) (hz : z.length = 32)
    (pk sk : Buf UInt8) (hpk : pk.size = pkLen K) (hsk : sk.size = skLen K) :
    match KeyGen_internal K (xofBytes fuel) d z with
    | some (ek, dk) => Returns (avx2Keypair g K fuel pk sk (Buf.ofList (d ++ z))) (0, Buf.ofList ek, Buf.ofList dk)
    | none => OutOfBudget (avx2Keypair g K fuel pk sk (Buf.ofList (d ++ z))) := by
  have h := C01_keygen hK fuel d z hd hz pk sk hpk hsk
  have s := C46_keypair g hK fuel (coins := Buf.ofList (d ++ z)) ⟨d ++ z, by simp [hd, hz], rfl⟩ (le_of_eq hpk.symm) (le_of_eq hsk.symm)
  split
  · next heq => rw [heq] at h; exact (s.returns_iff _).2 h
  · next heq => rw [heq] at h; exact s.out_iff.2 h

/-! ## C44: encapsulation of an x86_64 build -/

/-- **C44.** On every public key that passes the modulus check of FIPS 203, Section 7.2, encapsulation of an x86_64 build computes ML-KEM.Encaps_internal (Algorithm 17) and returns 0. -/
theorem C44_encaps (g : Native.Regs) {K : Nat} (hK : IsParam K) (fuel : Nat) (ek m : List UInt8) (hek : ek.length = pkLen K) (hm : m.length = 32)
    (hcheck : modulusCheck K ek) (ct ss : Buf UInt8) (hct : ct.size = ctLen K) (hss : ss.size = 32) :
    match Encaps_internal K (xofBytes fuel) ek m with
    | some (k, c) => Returns (avx2Enc g K fuel ct ss (Buf.ofList ek) (Buf.ofList m)) (0, Buf.ofList c, Buf.ofList k)
    | none => OutOfBudget (avx2Enc g K fuel ct ss (Buf.ofList ek) (Buf.ofList m)) := by
  have h := C02_encaps hK fuel ek m hek hm hcheck ct ss hct hss
  have s := C46_enc g hK fuel (pk := Buf.ofList ek) (coins := Buf.ofList m) ⟨ek, hek, rfl⟩ ⟨m, hm, rfl⟩ (le_of_eq hct.symm) (le_of_eq hss.symm)
  split
  · next heq => rw [heq] at h; exact (s.returns_iff _).2 h
  · next heq => rw [heq] at h; exact s.out_iff.2 h

/-- **C44.** On every other public key it returns -1 and leaves both output objects as they were. -/
theorem C44_rejects (g : Native.Regs) {K : Nat} (hK : IsParam K) (fuel : Nat) (ek m : List UInt8) (hek : ek.length = pkLen K) (hm : m.length = 32)
    (ct ss : Buf UInt8) (hct : ctLen K ≤ ct.size) (hss : 32 ≤ ss.size) :
    (∃ n, n < 256 * K ∧ 3329 ≤ coeff12 ek n) ↔ Returns (avx2Enc g K fuel ct ss (Buf.ofList ek) (Buf.ofList m)) (-1, ct, ss) := by
  rw [(C46_enc g hK fuel (pk := Buf.ofList ek) (coins := Buf.ofList m) ⟨ek, hek, rfl⟩ ⟨m, hm, rfl⟩ hct hss).returns_iff]
  have hiff := modulusCheck_iff (K := K) (ek := ek) (by rw [hek, pkLen_eq])
  have hneg : (∃ n, n < 256 * K ∧ 3329 ≤ coeff12 ek n) ↔ ¬ modulusCheck K ek := by
    rw [hiff]; constructor
    · rintro ⟨n, h1, h2⟩ h; exact absurd (h n h1) (by omega)
    · intro h; by_contra hc; apply h; intro n hn; by_contra hh; exact hc ⟨n, hn, by omega⟩
  rw [hneg]
  rcases enc_frame hK fuel ek m hek hm ct ss hct hss with ⟨hc, k, c, a, b, e, l1, l2, h, _⟩ | ⟨hc, e, h⟩ | ⟨hn, h⟩
  · exact ⟨fun h => absurd hc h, fun h' => absurd (congrArg Prod.fst (h.unique h')) (by simp)⟩
  · exact ⟨fun h => absurd hc h, fun h' => (h'.notOut h).elim⟩
  · exact ⟨fun _ => h, fun _ => hn⟩

/-! ## C45: decapsulation of an x86_64 build -/

/-- **C45.** On every secret key that passes the hash check of FIPS 203, Section 7.3, and every ciphertext, decapsulation of an x86_64 build computes ML-KEM.Decaps_internal
(Algorithm 18) and returns 0. -/
theorem C45_decaps (g : Native.Regs) {K : Nat} (hK : IsParam K) (fuel : Nat) (dk c : List UInt8) (hdk : dk.length = skLen K) (hc : c.length = ctLen K)
    (hcheck : hashCheck K dk) (ss : Buf UInt8) (hss : ss.size = 32) :
    match Decaps_internal K (xofBytes fuel) dk c with
    | some k => Returns (avx2Dec g K fuel ss (Buf.ofList c) (Buf.ofList dk)) (0, Buf.ofList k)
    | none => OutOfBudget (avx2Dec g K fuel ss (Buf.ofList c) (Buf.ofList dk)) := by
  have h := C03_decaps hK fuel dk c hdk hc hcheck ss hss
  have s := C46_dec g hK fuel (ct := Buf.ofList c) (sk := Buf.ofList dk) ⟨c, hc, rfl⟩ ⟨dk, hdk, rfl⟩ (le_of_eq hss.symm)
  split
  · next heq => rw [heq] at h; exact (s.returns_iff _).2 h
  · next heq => rw [heq] at h; exact s.out_iff.2 h

/-- **C45.** On every other secret key it returns -1 and leaves the output object as it was. -/
theorem C45_rejects (g : Native.Regs) {K : Nat} (hK : IsParam K) (fuel : Nat) (dk c : List UInt8) (hdk : dk.length = skLen K) (hc : c.length = ctLen K)
    (ss : Buf UInt8) (hss : 32 ≤ ss.size) :
    SHA3_256 ((dk.drop (384 * K)).take (pkLen K)) ≠ (dk.drop (768 * K + 32)).take 32 ↔ Returns (avx2Dec g K fuel ss (Buf.ofList c) (Buf.ofList dk)) (-1, ss) := by
  rw [(C46_dec g hK fuel (ct := Buf.ofList c) (sk := Buf.ofList dk) ⟨c, hc, rfl⟩ ⟨dk, hdk, rfl⟩ hss).returns_iff]
  change ¬ hashCheck K dk ↔ _
  rcases dec_frame hK fuel dk c hdk hc ss hss with ⟨hh, k, a, e, l1, h, _⟩ | ⟨hh, e, h⟩ | ⟨hn, h⟩
  · exact ⟨fun h => absurd hh h, fun h' => absurd (congrArg Prod.fst (h.unique h')) (by simp)⟩
  · exact ⟨fun h => absurd hh h, fun h' => (h'.notOut h).elim⟩
  · exact ⟨fun _ => h, fun _ => hn⟩

/-- **C46.** Round trips across builds: key generation on a portable build, encapsulation on an x86_64 build and decapsulation on either one give the same shared secret on both sides,
under the condition on the decryption noise of C08. -/
theorem C46_interoperate (g g' : Native.Regs) {K : Nat} (hK : IsParam K) (fuel : Nat) (d z m : List UInt8) (hd : d.length = 32) (hz : z.length = 32) (hm : m.length = 32)
    (pk sk ct ss ss2 : Buf UInt8) (hpk : pk.size = pkLen K) (hsk : sk.size = skLen K) (hct : ct.size = ctLen K) (hss : ss.size = 32) (hss2 : ss2.size = 32)
    (ek dk c key : List UInt8)
    (hkeygen : Returns (crypto_kem_keypair_derand K fuel pk sk (Buf.ofList (d ++ z))) (0, Buf.ofList ek, Buf.ofList dk))
    (henc : Returns (avx2Enc g K fuel ct ss (Buf.ofList ek) (Buf.ofList m)) (0, Buf.ofList c, Buf.ofList key))
    (hnoise : ∀ n, n < 256 → ∃ δ : Int, -832 ≤ δ ∧ δ ≤ 831 ∧ Honest.noise K (xofBytes fuel) d m ((SHA3_512 (m ++ SHA3_256 ek)).drop 32) n = δ) :
    Returns (crypto_kem_dec K fuel ss2 (Buf.ofList c) (Buf.ofList dk)) (0, Buf.ofList key) ∧ Returns (avx2Dec g' K fuel ss2 (Buf.ofList c) (Buf.ofList dk)) (0, Buf.ofList key) := by
  have hkg := C33_keygen_layout hK fuel ⟨d ++ z, by simp [hd, hz], rfl⟩ (le_of_eq hpk.symm) (le_of_eq hsk.symm) hkeygen
  obtain ⟨ek', dk', l1, l2, w1, w2⟩ := hkg
  have size_ofList : ∀ L : List UInt8, (Buf.ofList L).size = L.length := fun L => by simp [Buf.ofList]
  have lek : ek.length = pkLen K := by rw [← size_ofList, w1.1, hpk]
  have ldk : dk.length = skLen K := by rw [← size_ofList, w2.1, hsk]
  have henc' := ((C46_enc g hK fuel (pk := Buf.ofList ek) (coins := Buf.ofList m) ⟨ek, lek, rfl⟩ ⟨m, hm, rfl⟩ (le_of_eq hct.symm) (le_of_eq hss.symm)).returns_iff _).1 henc
  have hr := C08_round_trip hK fuel d z m hd hz hm pk sk ct ss ss2 hpk hsk hct hss hss2 ek dk c key hkeygen henc' hnoise
  obtain ⟨c', k', l3, l4, w3, w4⟩ := C33_enc_layout hK fuel ⟨ek, lek, rfl⟩ ⟨m, hm, rfl⟩ (le_of_eq hct.symm) (le_of_eq hss.symm) henc'
  have lc : c.length = ctLen K := by rw [← size_ofList, w3.1, hct]
  exact ⟨hr, ((C46_dec g' hK fuel (ct := Buf.ofList c) (sk := Buf.ofList dk) ⟨c, lc, rfl⟩ ⟨dk, ldk, rfl⟩ (le_of_eq hss2.symm)).returns_iff _).2 hr⟩

/-- The hypotheses are met by a concrete run of each parameter set, which returns 0 throughout; and a public key of bytes `ff` is rejected. -/
example (g : Native.Regs) {K : Nat} (hK : IsParam K) : (∃ ek dk c key, modulusCheck K ek ∧ hashCheck K dk ∧
    Returns (avx2Keypair g K 0 (blank (pkLen K)) (blank (skLen K)) (Buf.ofList (ones ++ ones))) (0, Buf.ofList ek, Buf.ofList dk) ∧
    Returns (avx2Enc g K 0 (blank (ctLen K)) (blank 32) (Buf.ofList ek) (Buf.ofList ffs)) (0, Buf.ofList c, Buf.ofList key) ∧
    (∀ n, n < 256 → ∃ δ : Int, -832 ≤ δ ∧ δ ≤ 831 ∧ Honest.noise K (xofBytes 0) ones ffs ((SHA3_512 (ffs ++ SHA3_256 ek)).drop 32) n = δ) ∧
    Returns (avx2Dec g K 0 (blank 32) (Buf.ofList c) (Buf.ofList dk)) (0, Buf.ofList key)) ∧
    Returns (avx2Enc g K 0 (blank (ctLen K)) (blank 32) (Buf.ofList (List.replicate (pkLen K) 255)) (Buf.ofList ones)) (-1, blank (ctLen K), blank 32) := by
  obtain ⟨ek, s, c, key, h1, h2, h3, h4, h5, h6, h7, h8, h9, _⟩ := demo hK
  have ldk : (s ++ ek ++ SHA3_256 ek ++ ones).length = skLen K := by
    simp only [List.length_append, ones_length, show (SHA3_256 ek).length = 32 from H_length ek, h1, h2]; unfold pkLen skLen; omega
  refine ⟨⟨ek, _, c, key, h5, ?_, ((C46_keypair g hK 0 (coins := Buf.ofList (ones ++ ones)) ⟨_, rfl, rfl⟩ (le_of_eq (blank_size _).symm) (le_of_eq (blank_size _).symm)).returns_iff _).2 h6,
    ((C46_enc g hK 0 ⟨ek, h1, rfl⟩ ⟨ffs, rfl, rfl⟩ (le_of_eq (blank_size _).symm) (le_of_eq (blank_size _).symm)).returns_iff _).2 h7, h8,
    ((C46_dec g hK 0 ⟨c, h3, rfl⟩ ⟨_, ldk, rfl⟩ (le_of_eq (blank_size _).symm)).returns_iff _).2 h9⟩, ?_⟩
  · exact (C05_hash_check hK 0 _ c ldk h3 (blank 32) (blank_size _)).2.2 (Or.inl ⟨_, h9⟩)
  · exact (C44_rejects g hK 0 _ ones (by simp) ones_length _ _ (le_of_eq (blank_size _).symm) (le_of_eq (blank_size _).symm)).1 ⟨0, by rcases hK with rfl | rfl | rfl <;> omega, coeff12_ff K hK⟩

/-! ## C47: no undefined behaviour in an x86_64 build -/

theorem SameOutcome.safe {α : Type} {p q : M α} (h : SameOutcome p q) : NoOob p ∧ NoUninit p ∧ NoArith p :=
  safe_of_outcome (h.elim (fun ⟨a, h, _⟩ => Or.inl ⟨a, h⟩) (fun h => Or.inr h.1))

/-- **C47.** With objects of the announced sizes no entry point of an x86_64 build accesses memory outside an object, reads uninitialised memory, overflows or narrows with a change
of value in C code, or violates a debug check. -/
theorem C47_safe (g : Native.Regs) {K : Nat} (hK : IsParam K) (fuel : Nat) {coins64 coins32 pkOut skOut pkIn skIn ctOut ctIn ss : Buf UInt8}
    (h64 : Init coins64 64) (h32 : Init coins32 32) (hpk : Init pkIn (pkLen K)) (hsk : Init skIn (skLen K)) (hct : Init ctIn (ctLen K))
    (hpk' : pkLen K ≤ pkOut.size) (hsk' : skLen K ≤ skOut.size) (hct' : ctLen K ≤ ctOut.size) (hss : 32 ≤ ss.size) :
    (NoOob (avx2Keypair g K fuel pkOut skOut coins64) ∧ NoUninit (avx2Keypair g K fuel pkOut skOut coins64) ∧ NoArith (avx2Keypair g K fuel pkOut skOut coins64)) ∧
    (NoOob (avx2Enc g K fuel ctOut ss pkIn coins32) ∧ NoUninit (avx2Enc g K fuel ctOut ss pkIn coins32) ∧ NoArith (avx2Enc g K fuel ctOut ss pkIn coins32)) ∧
    (NoOob (avx2Dec g K fuel ss ctIn skIn) ∧ NoUninit (avx2Dec g K fuel ss ctIn skIn) ∧ NoArith (avx2Dec g K fuel ss ctIn skIn)) :=
  ⟨(C46_keypair g hK fuel h64 hpk' hsk').safe, (C46_enc g hK fuel hpk h32 hct' hss).safe, (C46_dec g hK fuel hct hsk hss).safe⟩

end Verif.Props

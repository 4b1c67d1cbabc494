import Verif.Props.BackendHash
/-! # Parties on different builds (C66)

The keys are generated on one build, encapsulation runs on a second and decapsulation on a third; each is a build on a backend that keeps the contract of C62. -/
namespace Verif.Props
open Verif Verif.Model Verif.Spec Finset

attribute [local irreducible] SHAKE256 SHA3_256 SHA3_512 SHAKE128 KeyGen_internal kpkeEncrypt kpkeDecrypt NTT

/-- The backend keeps the contract of C62, in some order of the coefficients and with some content of the multiplication cache. -/
def KeepsContract (bk : Native.Backend) : Prop := ∃ order IsCache, Contract bk order IsCache

/-- Each backend of the library does. -/
theorem C66_backends : KeepsContract Native.portable ∧ (∀ g, KeepsContract (Native.x86_64 g) ∧ KeepsContract (Native.x86_64_bmi g)) ∧
    ∀ {P : A64.Profile} {Q : A64K.Profile}, IsProfile P → IsKeccakProfile Q → ∀ g, KeepsContract (Native.aarch64 P Q g) :=
  ⟨⟨_, C62_portable⟩, fun g => ⟨⟨_, C62_x86_64 g⟩, ⟨_, C62_x86_64_bmi g⟩⟩, fun hP hQ g => ⟨_, C62_aarch64 hP hQ g⟩⟩

variable {alice bob : Native.Backend} {K : Nat}

theorem size_list (L : List UInt8) : (Buf.ofList L).size = L.length := by simp [Buf.ofList]

/-- **C66.** The key pair is generated on one build, encapsulation runs on another, decapsulation on a third: under the condition on the decryption noise of C08 both sides have the same key. -/
theorem C66_round_trip {alice' : Native.Backend} (ha : KeepsContract alice) (hb : KeepsContract bob) (ha' : KeepsContract alice') (hK : IsParam K) (fuel : Nat)
    (d z m : List UInt8) (hd : d.length = 32) (hz : z.length = 32) (hm : m.length = 32)
    (pk sk ct ss ss2 : Buf UInt8) (hpk : pk.size = pkLen K) (hsk : sk.size = skLen K) (hct : ct.size = ctLen K) (hss : ss.size = 32) (hss2 : ss2.size = 32)
    (ek dk c key : List UInt8)
    (hkeygen : Returns (Native.crypto_kem_keypair_derand alice K fuel pk sk (Buf.ofList (d ++ z))) (0, Buf.ofList ek, Buf.ofList dk))
    (henc : Returns (Native.crypto_kem_enc_derand bob K fuel ct ss (Buf.ofList ek) (Buf.ofList m)) (0, Buf.ofList c, Buf.ofList key))
    (hnoise : ∀ n, n < 256 → ∃ δ : Int, -832 ≤ δ ∧ δ ≤ 831 ∧ Honest.noise K (xofBytes fuel) d m ((SHA3_512 (m ++ SHA3_256 ek)).drop 32) n = δ) :
    Returns (Native.crypto_kem_dec alice' K fuel ss2 (Buf.ofList c) (Buf.ofList dk)) (0, Buf.ofList key) := by
  obtain ⟨_, _, ha⟩ := ha
  obtain ⟨_, _, hb⟩ := hb
  obtain ⟨_, _, ha'⟩ := ha'
  have hkg := ((C62_keypair ha hK fuel (coins := Buf.ofList (d ++ z)) ⟨d ++ z, by simp [hd, hz], rfl⟩ (le_of_eq hpk.symm) (le_of_eq hsk.symm)).returns_iff _).1 hkeygen
  obtain ⟨ek', dk', l1, l2, w1, w2⟩ := C33_keygen_layout hK fuel ⟨d ++ z, by simp [hd, hz], rfl⟩ (le_of_eq hpk.symm) (le_of_eq hsk.symm) hkg
  have lek : ek.length = pkLen K := by rw [← size_list, w1.1, hpk]
  have ldk : dk.length = skLen K := by rw [← size_list, w2.1, hsk]
  have henc' := ((C62_enc hb hK fuel (pk := Buf.ofList ek) (coins := Buf.ofList m) ⟨ek, lek, rfl⟩ ⟨m, hm, rfl⟩ (le_of_eq hct.symm) (le_of_eq hss.symm)).returns_iff _).1 henc
  obtain ⟨c', k', l3, l4, w3, w4⟩ := C33_enc_layout hK fuel ⟨ek, lek, rfl⟩ ⟨m, hm, rfl⟩ (le_of_eq hct.symm) (le_of_eq hss.symm) henc'
  have lc : c.length = ctLen K := by rw [← size_list, w3.1, hct]
  exact ((C62_dec ha' hK fuel (ct := Buf.ofList c) (sk := Buf.ofList dk) ⟨c, lc, rfl⟩ ⟨dk, ldk, rfl⟩ (le_of_eq hss2.symm)).returns_iff _).2
    (C08_round_trip hK fuel d z m hd hz hm pk sk ct ss ss2 hpk hsk hct hss hss2 ek dk c key hkg henc' hnoise)

/-- **C66.** Keys generated on one build are accepted on every other: by encapsulation with all coins, and by decapsulation with all ciphertexts. -/
theorem C66_generated_keys_accepted (ha : KeepsContract alice) (hb : KeepsContract bob) (hK : IsParam K) (fuel : Nat) (d z : List UInt8) (hd : d.length = 32) (hz : z.length = 32)
    (pk sk : Buf UInt8) (hpk : pk.size = pkLen K) (hsk : sk.size = skLen K) (r : Int) (pk' sk' : Buf UInt8)
    (h : Returns (Native.crypto_kem_keypair_derand alice K fuel pk sk (Buf.ofList (d ++ z))) (r, pk', sk')) :
    r = 0 ∧
    (∀ fuel' m, m.length = 32 → ∀ ct ss, ct.size = ctLen K → ss.size = 32 →
      (∃ ct' ss', Returns (Native.crypto_kem_enc_derand bob K fuel' ct ss pk' (Buf.ofList m)) (0, ct', ss')) ∨ OutOfBudget (Native.crypto_kem_enc_derand bob K fuel' ct ss pk' (Buf.ofList m))) ∧
    (∀ fuel' c, c.length = ctLen K → ∀ ss, ss.size = 32 →
      (∃ ss', Returns (Native.crypto_kem_dec bob K fuel' ss (Buf.ofList c) sk') (0, ss')) ∨ OutOfBudget (Native.crypto_kem_dec bob K fuel' ss (Buf.ofList c) sk')) := by
  obtain ⟨_, _, ha⟩ := ha
  obtain ⟨_, _, hb⟩ := hb
  have hkg := ((C62_keypair ha hK fuel (coins := Buf.ofList (d ++ z)) ⟨d ++ z, by simp [hd, hz], rfl⟩ (le_of_eq hpk.symm) (le_of_eq hsk.symm)).returns_iff _).1 h
  obtain ⟨h0, ⟨s, ek, l1, l2, rfl, rfl, -⟩, h2, h3⟩ := C07_generated_keys_accepted hK fuel d z hd hz pk sk hpk hsk r pk' sk' hkg
  have ldk : (s ++ ek ++ SHA3_256 ek ++ z).length = skLen K := by
    simp only [List.length_append, hz, show (SHA3_256 ek).length = 32 from H_length ek, l1, l2]; unfold pkLen skLen; omega
  refine ⟨h0, fun fuel' m hm ct ss hct hss => ?_, fun fuel' c hc ss hss => ?_⟩
  · have e := C62_enc hb hK fuel' (pk := Buf.ofList ek) (coins := Buf.ofList m) ⟨ek, l2, rfl⟩ ⟨m, hm, rfl⟩ (le_of_eq hct.symm) (le_of_eq hss.symm)
    rcases h2 fuel' m hm ct ss hct hss with ⟨a, b, h'⟩ | h'
    · exact Or.inl ⟨a, b, (e.returns_iff _).2 h'⟩
    · exact Or.inr (e.out_iff.2 h')
  · have e := C62_dec hb hK fuel' (ct := Buf.ofList c) (sk := Buf.ofList (s ++ ek ++ SHA3_256 ek ++ z)) ⟨c, hc, rfl⟩ ⟨_, ldk, rfl⟩ (le_of_eq hss.symm)
    rcases h3 fuel' c hc ss hss with ⟨a, h'⟩ | h'
    · exact Or.inl ⟨a, (e.returns_iff _).2 h'⟩
    · exact Or.inr (e.out_iff.2 h')

/-- **C66.** If decapsulation on one build, under a key generated on another, delivers anything other than the rejection value SHAKE256(z ‖ c, 32), then there are coins with which
encapsulation on a third delivers exactly this ciphertext and this shared secret. -/
theorem C66_accepted_is_honest {alice' : Native.Backend} (ha : KeepsContract alice) (hb : KeepsContract bob) (ha' : KeepsContract alice') (hK : IsParam K) (fuel : Nat)
    (d z : List UInt8) (hd : d.length = 32) (hz : z.length = 32) (pk sk : Buf UInt8) (hpk : pk.size = pkLen K) (hsk : sk.size = skLen K) (pk' sk' : Buf UInt8)
    (hkey : Returns (Native.crypto_kem_keypair_derand alice K fuel pk sk (Buf.ofList (d ++ z))) (0, pk', sk'))
    (c : List UInt8) (hc : c.length = ctLen K) (ss : Buf UInt8) (hss : ss.size = 32) (fuel' : Nat) (r : Int) (key : List UInt8)
    (hdec : Returns (Native.crypto_kem_dec alice' K fuel' ss (Buf.ofList c) sk') (r, Buf.ofList key)) (hkey' : key ≠ SHAKE256 (z ++ c) 32) :
    ∃ m, m.length = 32 ∧ ∀ ct ss, ct.size = ctLen K → ss.size = 32 →
      Returns (Native.crypto_kem_enc_derand bob K fuel' ct ss pk' (Buf.ofList m)) (0, Buf.ofList c, Buf.ofList key) := by
  obtain ⟨_, _, ha⟩ := ha
  obtain ⟨_, _, hb⟩ := hb
  obtain ⟨_, _, ha'⟩ := ha'
  have hkg := ((C62_keypair ha hK fuel (coins := Buf.ofList (d ++ z)) ⟨d ++ z, by simp [hd, hz], rfl⟩ (le_of_eq hpk.symm) (le_of_eq hsk.symm)).returns_iff _).1 hkey
  obtain ⟨-, ⟨s, ek, l1, l2, rfl, rfl, -⟩, -⟩ := C07_generated_keys_accepted hK fuel d z hd hz pk sk hpk hsk 0 pk' sk' hkg
  have ldk : (s ++ ek ++ SHA3_256 ek ++ z).length = skLen K := by
    simp only [List.length_append, hz, show (SHA3_256 ek).length = 32 from H_length ek, l1, l2]; unfold pkLen skLen; omega
  have hdec' := ((C62_dec ha' hK fuel' (ct := Buf.ofList c) (sk := Buf.ofList (s ++ ek ++ SHA3_256 ek ++ z)) ⟨c, hc, rfl⟩ ⟨_, ldk, rfl⟩ (le_of_eq hss.symm)).returns_iff _).1 hdec
  obtain ⟨m, hm, h⟩ := C34_accepted_is_honest hK fuel d z hd hz pk sk hpk hsk _ _ hkg c hc ss hss fuel' r key hdec' hkey'
  exact ⟨m, hm, fun ct ss hct hss => ((C62_enc hb hK fuel' (pk := Buf.ofList ek) (coins := Buf.ofList m) ⟨ek, l2, rfl⟩ ⟨m, hm, rfl⟩ (le_of_eq hct.symm) (le_of_eq hss.symm)).returns_iff _).2
    (h ct ss hct hss)⟩

/-- **C66.** Two builds decapsulate every ciphertext under every secret key to the same result, including both kinds of rejection. -/
theorem C66_decaps_agree (ha : KeepsContract alice) (hb : KeepsContract bob) (hK : IsParam K) (fuel : Nat) (dk c : List UInt8) (hdk : dk.length = skLen K) (hc : c.length = ctLen K)
    (ss : Buf UInt8) (hss : 32 ≤ ss.size) (x : Int × Buf UInt8) :
    Returns (Native.crypto_kem_dec alice K fuel ss (Buf.ofList c) (Buf.ofList dk)) x ↔ Returns (Native.crypto_kem_dec bob K fuel ss (Buf.ofList c) (Buf.ofList dk)) x := by
  obtain ⟨_, _, ha⟩ := ha
  obtain ⟨_, _, hb⟩ := hb
  rw [(C62_dec ha hK fuel (ct := Buf.ofList c) (sk := Buf.ofList dk) ⟨c, hc, rfl⟩ ⟨dk, hdk, rfl⟩ hss).returns_iff,
    (C62_dec hb hK fuel (ct := Buf.ofList c) (sk := Buf.ofList dk) ⟨c, hc, rfl⟩ ⟨dk, hdk, rfl⟩ hss).returns_iff]

/-- **C66.** Two builds encapsulate to every public key with all coins to the same result, including rejection. -/
theorem C66_encaps_agree (ha : KeepsContract alice) (hb : KeepsContract bob) (hK : IsParam K) (fuel : Nat) (ek m : List UInt8) (hek : ek.length = pkLen K) (hm : m.length = 32)
    (ct ss : Buf UInt8) (hct : ctLen K ≤ ct.size) (hss : 32 ≤ ss.size) (x : Int × Buf UInt8 × Buf UInt8) :
    Returns (Native.crypto_kem_enc_derand alice K fuel ct ss (Buf.ofList ek) (Buf.ofList m)) x ↔ Returns (Native.crypto_kem_enc_derand bob K fuel ct ss (Buf.ofList ek) (Buf.ofList m)) x := by
  obtain ⟨_, _, ha⟩ := ha
  obtain ⟨_, _, hb⟩ := hb
  rw [(C62_enc ha hK fuel (pk := Buf.ofList ek) (coins := Buf.ofList m) ⟨ek, hek, rfl⟩ ⟨m, hm, rfl⟩ hct hss).returns_iff,
    (C62_enc hb hK fuel (pk := Buf.ofList ek) (coins := Buf.ofList m) ⟨ek, hek, rfl⟩ ⟨m, hm, rfl⟩ hct hss).returns_iff]

/-- **C66.** Two builds generate the same key pair from the same coins. -/
theorem C66_keygen_agree (ha : KeepsContract alice) (hb : KeepsContract bob) (hK : IsParam K) (fuel : Nat) (coins : List UInt8) (hc : coins.length = 64)
    (pk sk : Buf UInt8) (hpk : pkLen K ≤ pk.size) (hsk : skLen K ≤ sk.size) (x : Int × Buf UInt8 × Buf UInt8) :
    Returns (Native.crypto_kem_keypair_derand alice K fuel pk sk (Buf.ofList coins)) x ↔ Returns (Native.crypto_kem_keypair_derand bob K fuel pk sk (Buf.ofList coins)) x := by
  obtain ⟨_, _, ha⟩ := ha
  obtain ⟨_, _, hb⟩ := hb
  rw [(C62_keypair ha hK fuel (coins := Buf.ofList coins) ⟨coins, hc, rfl⟩ hpk hsk).returns_iff, (C62_keypair hb hK fuel (coins := Buf.ofList coins) ⟨coins, hc, rfl⟩ hpk hsk).returns_iff]

/-- The hypotheses are met: a run with key generation on AArch64, encapsulation on x86_64 and decapsulation by the portable code. -/
example {P : A64.Profile} {Q : A64K.Profile} (hP : IsProfile P) (hQ : IsKeccakProfile Q) (g : Native.Regs64) (r : Native.Regs) (hK : IsParam K) : ∃ ek dk c key,
    Returns (Native.crypto_kem_keypair_derand (Native.aarch64 P Q g) K 0 (blank (pkLen K)) (blank (skLen K)) (Buf.ofList (ones ++ ones))) (0, Buf.ofList ek, Buf.ofList dk) ∧
    Returns (Native.crypto_kem_enc_derand (Native.x86_64 r) K 0 (blank (ctLen K)) (blank 32) (Buf.ofList ek) (Buf.ofList ffs)) (0, Buf.ofList c, Buf.ofList key) ∧
    Returns (Native.crypto_kem_dec Native.portable K 0 (blank 32) (Buf.ofList c) (Buf.ofList dk)) (0, Buf.ofList key) := by
  obtain ⟨ek, s, c, key, h1, h2, h3, h4, h5, h6, h7, h8, h9, _⟩ := demo hK
  obtain ⟨_, ha⟩ := C62_aarch64 hP hQ g
  obtain ⟨_, hb⟩ := C62_x86_64 r
  have k1 := ((C62_keypair ha hK 0 (coins := Buf.ofList (ones ++ ones)) ⟨_, rfl, rfl⟩ (le_of_eq (blank_size _).symm) (le_of_eq (blank_size _).symm)).returns_iff _).2 h6
  have k2 := ((C62_enc hb hK 0 ⟨ek, h1, rfl⟩ ⟨ffs, rfl, rfl⟩ (le_of_eq (blank_size _).symm) (le_of_eq (blank_size _).symm)).returns_iff _).2 h7
  exact ⟨ek, _, c, key, k1, k2, C66_round_trip ⟨_, _, ha⟩ ⟨_, _, hb⟩ C66_backends.1 hK 0 ones ones ffs ones_length ones_length rfl _ _ _ _ (blank 32) (blank_size _) (blank_size _) (blank_size _)
    (blank_size _) (blank_size _) ek _ c key k1 k2 h8⟩

end Verif.Props

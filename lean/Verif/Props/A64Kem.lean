import Verif.Proof.A64Frame
import Verif.Props.X86ConstantTime
import Verif.Props.A64Arith
import Verif.Props.A64Hash
/-! # The API functions of an AArch64 (Neon) build (C54 - C57)

`Native.aarch64 P Q g` is the library with the AArch64 rejection sampler and arithmetic of profile `P` and the Keccak functions of profile `Q` in place of the portable functions; `g` is what the registers and the stack contain when
the assembly functions are entered, and the theorems hold for all `g`. -/
namespace Verif.Props
open Verif Verif.Model Verif.Spec

attribute [local irreducible] keccakF partialK finK blocksK sqByte SHAKE256 SHA3_256 SHA3_512 SHAKE128

/-- `crypto_kem_keypair_derand` of an AArch64 build. -/
abbrev neonKeypair (P : A64.Profile) (Q : A64K.Profile) (g : Native.Regs64) := Native.crypto_kem_keypair_derand (Native.aarch64 P Q g)
/-- `crypto_kem_enc_derand` of an AArch64 build. -/
abbrev neonEnc (P : A64.Profile) (Q : A64K.Profile) (g : Native.Regs64) := Native.crypto_kem_enc_derand (Native.aarch64 P Q g)
/-- `crypto_kem_dec` of an AArch64 build. -/
abbrev neonDec (P : A64.Profile) (Q : A64K.Profile) (g : Native.Regs64) := Native.crypto_kem_dec (Native.aarch64 P Q g)

/-! ## C55: an AArch64 build and a portable build do the same -/

/-- **C55.** Key generation: for all coins and all output objects (large enough, arbitrary contents), the two builds have the same outcome. -/
theorem C55_keypair {P : A64.Profile} {Q : A64K.Profile} (hP : IsProfile P) (hQ : IsKeccakProfile Q) (g : Native.Regs64) {K : Nat} (hK : IsParam K) (fuel : Nat) {coins pk sk : Buf UInt8} (hc : Init coins 64) (hpk : pkLen K ≤ pk.size) (hsk : skLen K ≤ sk.size) :
    SameOutcome (neonKeypair P Q g K fuel pk sk coins) (crypto_kem_keypair_derand K fuel pk sk coins) :=
  same_keypair (Native.aarch64_meets hP.good hQ.ok g) hK fuel hc hpk hsk

/-- **C55.** Encapsulation: for all public keys (well-formed or not), coins and output objects, the two builds have the same outcome, including rejection. -/
theorem C55_enc {P : A64.Profile} {Q : A64K.Profile} (hP : IsProfile P) (hQ : IsKeccakProfile Q) (g : Native.Regs64) {K : Nat} (hK : IsParam K) (fuel : Nat) {ct ss pk coins : Buf UInt8} (hpk : Init pk (pkLen K)) (hc : Init coins 32) (hct : ctLen K ≤ ct.size) (hss : 32 ≤ ss.size) :
    SameOutcome (neonEnc P Q g K fuel ct ss pk coins) (crypto_kem_enc_derand K fuel ct ss pk coins) :=
  same_enc (Native.aarch64_meets hP.good hQ.ok g) hK fuel hpk hc hct hss

/-- **C55.** Decapsulation: for all secret keys, ciphertexts (honest or not) and output objects, the two builds have the same outcome, including rejection. -/
theorem C55_dec {P : A64.Profile} {Q : A64K.Profile} (hP : IsProfile P) (hQ : IsKeccakProfile Q) (g : Native.Regs64) {K : Nat} (hK : IsParam K) (fuel : Nat) {ss ct sk : Buf UInt8} (hct : Init ct (ctLen K)) (hsk : Init sk (skLen K)) (hss : 32 ≤ ss.size) :
    SameOutcome (neonDec P Q g K fuel ss ct sk) (crypto_kem_dec K fuel ss ct sk) :=
  same_dec (Native.aarch64_meets hP.good hQ.ok g) hK fuel hct hsk hss

/-! ## C54: key generation of an AArch64 build -/

/-- **C54.** Key generation of an AArch64 build computes ML-KEM.KeyGen_internal (FIPS 203, Algorithm 16) and returns 0. -/
theorem C54_keygen {P : A64.Profile} {Q : A64K.Profile} (hP : IsProfile P) (hQ : IsKeccakProfile Q) (g : Native.Regs64) {K : Nat} (hK : IsParam K) (fuel : Nat) (d z : List UInt8) (hd : d.length = 32) (hz : z.length = 32)
    (pk sk : Buf UInt8) (hpk : pk.size = pkLen K) (hsk : sk.size = skLen K) :
    match KeyGen_internal K (xofBytes fuel) d z with
    | some (ek, dk) => Returns (neonKeypair P Q g K fuel pk sk (Buf.ofList (d ++ z))) (0, Buf.ofList ek, Buf.ofList dk)
    | none => OutOfBudget (neonKeypair P Q g K fuel pk sk (Buf.ofList (d ++ z))) := by
  have h := C01_keygen hK fuel d z hd hz pk sk hpk hsk
  have s := C55_keypair hP hQ g hK fuel (coins := Buf.ofList (d ++ z)) ⟨d ++ z, by simp [hd, hz], rfl⟩ (le_of_eq hpk.symm) (le_of_eq hsk.symm)
  split
  · next heq => rw [heq] at h; exact (s.returns_iff _).2 h
  · next heq => rw [heq] at h; exact s.out_iff.2 h

/-! ## C54: encapsulation of an AArch64 build -/

/-- **C54.** On every public key that passes the modulus check of FIPS 203, Section 7.2, encapsulation of an AArch64 build computes ML-KEM.Encaps_internal (Algorithm 17) and returns 0. -/
theorem C54_encaps {P : A64.Profile} {Q : A64K.Profile} (hP : IsProfile P) (hQ : IsKeccakProfile Q) (g : Native.Regs64) {K : Nat} (hK : IsParam K) (fuel : Nat) (ek m : List UInt8) (hek : ek.length = pkLen K) (hm : m.length = 32)
    (hcheck : modulusCheck K ek) (ct ss : Buf UInt8) (hct : ct.size = ctLen K) (hss : ss.size = 32) :
    match Encaps_internal K (xofBytes fuel) ek m with
    | some (k, c) => Returns (neonEnc P Q g K fuel ct ss (Buf.ofList ek) (Buf.ofList m)) (0, Buf.ofList c, Buf.ofList k)
    | none => OutOfBudget (neonEnc P Q g K fuel ct ss (Buf.ofList ek) (Buf.ofList m)) := by
  have h := C02_encaps hK fuel ek m hek hm hcheck ct ss hct hss
  have s := C55_enc hP hQ g hK fuel (pk := Buf.ofList ek) (coins := Buf.ofList m) ⟨ek, hek, rfl⟩ ⟨m, hm, rfl⟩ (le_of_eq hct.symm) (le_of_eq hss.symm)
  split
  · next heq => rw [heq] at h; exact (s.returns_iff _).2 h
  · next heq => rw [heq] at h; exact s.out_iff.2 h

/-- **C54.** On every other public key it returns -1 and leaves both output objects as they were. -/
theorem C54_encaps_rejects {P : A64.Profile} {Q : A64K.Profile} (hP : IsProfile P) (hQ : IsKeccakProfile Q) (g : Native.Regs64) {K : Nat} (hK : IsParam K) (fuel : Nat) (ek m : List UInt8) (hek : ek.length = pkLen K) (hm : m.length = 32)
    (ct ss : Buf UInt8) (hct : ctLen K ≤ ct.size) (hss : 32 ≤ ss.size) :
    (∃ n, n < 256 * K ∧ 3329 ≤ coeff12 ek n) ↔ Returns (neonEnc P Q g K fuel ct ss (Buf.ofList ek) (Buf.ofList m)) (-1, ct, ss) := by
  rw [(C55_enc hP hQ g hK fuel (pk := Buf.ofList ek) (coins := Buf.ofList m) ⟨ek, hek, rfl⟩ ⟨m, hm, rfl⟩ hct hss).returns_iff]
  have hiff := modulusCheck_iff (K := K) (ek := ek) (by rw [hek, pkLen_eq])
  have hneg : (∃ n, n < 256 * K ∧ 3329 ≤ coeff12 ek n) ↔ ¬ modulusCheck K ek := by
    rw [hiff]; constructor
    · rintro ⟨n, h1, h2⟩ h; exact absurd (h n h1) (by omega)
    · intro h; by_contra hc; apply h; intro n hn; by_contra hh; exact hc ⟨n, hn, by omega⟩
  rw [hneg]
  rcases enc_frame hK fuel ek m hek hm ct ss hct hss with ⟨hc, k, c, a, b, e, l1, l2, h, _⟩ | ⟨hc, e, h⟩ | ⟨hn, h⟩
  · exact ⟨fun h => absurd hc h, fun h' => absurd (congrArg Prod.fst (h.unique h')) (by simp)⟩
  · exact ⟨fun h => absurd hc h, fun h' => (h'.notOut h).elim⟩
  · exact ⟨fun _ => h, fun _ => hn⟩

/-! ## C54: decapsulation of an AArch64 build -/

/-- **C54.** On every secret key that passes the hash check of FIPS 203, Section 7.3, and every ciphertext, decapsulation of an AArch64 build computes ML-KEM.Decaps_internal
(Algorithm 18) and returns 0. -/
theorem C54_decaps {P : A64.Profile} {Q : A64K.Profile} (hP : IsProfile P) (hQ : IsKeccakProfile Q) (g : Native.Regs64) {K : Nat} (hK : IsParam K) (fuel : Nat) (dk c : List UInt8) (hdk : dk.length = skLen K) (hc : c.length = ctLen K)
    (hcheck : hashCheck K dk) (ss : Buf UInt8) (hss : ss.size = 32) :
    match Decaps_internal K (xofBytes fuel) dk c with
    | some k => Returns (neonDec P Q g K fuel ss (Buf.ofList c) (Buf.ofList dk)) (0, Buf.ofList k)
    | none => OutOfBudget (neonDec P Q g K fuel ss (Buf.ofList c) (Buf.ofList dk)) := by
  have h := C03_decaps hK fuel dk c hdk hc hcheck ss hss
  have s := C55_dec hP hQ g hK fuel (ct := Buf.ofList c) (sk := Buf.ofList dk) ⟨c, hc, rfl⟩ ⟨dk, hdk, rfl⟩ (le_of_eq hss.symm)
  split
  · next heq => rw [heq] at h; exact (s.returns_iff _).2 h
  · next heq => rw [heq] at h; exact s.out_iff.2 h

/-- **C54.** On every other secret key it returns -1 and leaves the output object as it was. -/
theorem C54_decaps_rejects {P : A64.Profile} {Q : A64K.Profile} (hP : IsProfile P) (hQ : IsKeccakProfile Q) (g : Native.Regs64) {K : Nat} (hK : IsParam K) (fuel : Nat) (dk c : List UInt8) (hdk : dk.length = skLen K) (hc : c.length = ctLen K)
    (ss : Buf UInt8) (hss : 32 ≤ ss.size) :
    SHA3_256 ((dk.drop (384 * K)).take (pkLen K)) ≠ (dk.drop (768 * K + 32)).take 32 ↔ Returns (neonDec P Q g K fuel ss (Buf.ofList c) (Buf.ofList dk)) (-1, ss) := by
  rw [(C55_dec hP hQ g hK fuel (ct := Buf.ofList c) (sk := Buf.ofList dk) ⟨c, hc, rfl⟩ ⟨dk, hdk, rfl⟩ hss).returns_iff]
  change ¬ hashCheck K dk ↔ _
  rcases dec_frame hK fuel dk c hdk hc ss hss with ⟨hh, k, a, e, l1, h, _⟩ | ⟨hh, e, h⟩ | ⟨hn, h⟩
  · exact ⟨fun h => absurd hh h, fun h' => absurd (congrArg Prod.fst (h.unique h')) (by simp)⟩
  · exact ⟨fun h => absurd hh h, fun h' => (h'.notOut h).elim⟩
  · exact ⟨fun _ => h, fun _ => hn⟩

/-- **C55.** Round trips across builds: key generation on an AArch64 build, encapsulation on an x86_64 build and decapsulation on a portable, x86_64 or AArch64 one give the same shared
secret on both sides, under the condition on the decryption noise of C08. -/
theorem C55_interoperate {P P' : A64.Profile} {Q Q' : A64K.Profile} (hP : IsProfile P) (hQ : IsKeccakProfile Q) (hP' : IsProfile P') (hQ' : IsKeccakProfile Q') (g g' : Native.Regs64) (r r' : Native.Regs) {K : Nat} (hK : IsParam K) (fuel : Nat)
    (d z m : List UInt8) (hd : d.length = 32) (hz : z.length = 32) (hm : m.length = 32)
    (pk sk ct ss ss2 : Buf UInt8) (hpk : pk.size = pkLen K) (hsk : sk.size = skLen K) (hct : ct.size = ctLen K) (hss : ss.size = 32) (hss2 : ss2.size = 32)
    (ek dk c key : List UInt8)
    (hkeygen : Returns (neonKeypair P Q g K fuel pk sk (Buf.ofList (d ++ z))) (0, Buf.ofList ek, Buf.ofList dk))
    (henc : Returns (avx2Enc r K fuel ct ss (Buf.ofList ek) (Buf.ofList m)) (0, Buf.ofList c, Buf.ofList key))
    (hnoise : ∀ n, n < 256 → ∃ δ : Int, -832 ≤ δ ∧ δ ≤ 831 ∧ Honest.noise K (xofBytes fuel) d m ((SHA3_512 (m ++ SHA3_256 ek)).drop 32) n = δ) :
    Returns (crypto_kem_dec K fuel ss2 (Buf.ofList c) (Buf.ofList dk)) (0, Buf.ofList key) ∧ Returns (avx2Dec r' K fuel ss2 (Buf.ofList c) (Buf.ofList dk)) (0, Buf.ofList key) ∧
      Returns (neonDec P' Q' g' K fuel ss2 (Buf.ofList c) (Buf.ofList dk)) (0, Buf.ofList key) := by
  have hkg' := ((C55_keypair hP hQ g hK fuel (coins := Buf.ofList (d ++ z)) ⟨d ++ z, by simp [hd, hz], rfl⟩ (le_of_eq hpk.symm) (le_of_eq hsk.symm)).returns_iff _).1 hkeygen
  obtain ⟨h1, h2⟩ := C46_interoperate r r' hK fuel d z m hd hz hm pk sk ct ss ss2 hpk hsk hct hss hss2 ek dk c key hkg' henc hnoise
  obtain ⟨ek', dk', l1, l2, w1, w2⟩ := C33_keygen_layout hK fuel ⟨d ++ z, by simp [hd, hz], rfl⟩ (le_of_eq hpk.symm) (le_of_eq hsk.symm) hkg'
  have size_ofList : ∀ L : List UInt8, (Buf.ofList L).size = L.length := fun L => by simp [Buf.ofList]
  have lek : ek.length = pkLen K := by rw [← size_ofList, w1.1, hpk]
  have ldk : dk.length = skLen K := by rw [← size_ofList, w2.1, hsk]
  have henc' := ((C46_enc r hK fuel (pk := Buf.ofList ek) (coins := Buf.ofList m) ⟨ek, lek, rfl⟩ ⟨m, hm, rfl⟩ (le_of_eq hct.symm) (le_of_eq hss.symm)).returns_iff _).1 henc
  obtain ⟨c', k', l3, l4, w3, w4⟩ := C33_enc_layout hK fuel ⟨ek, lek, rfl⟩ ⟨m, hm, rfl⟩ (le_of_eq hct.symm) (le_of_eq hss.symm) henc'
  have lc : c.length = ctLen K := by rw [← size_ofList, w3.1, hct]
  exact ⟨h1, h2, ((C55_dec hP' hQ' g' hK fuel (ct := Buf.ofList c) (sk := Buf.ofList dk) ⟨c, lc, rfl⟩ ⟨dk, ldk, rfl⟩ (le_of_eq hss2.symm)).returns_iff _).2 h1⟩

/-- The hypotheses are met by a concrete run of each parameter set, which returns 0 throughout; and a public key of bytes `ff` is rejected. -/
example {P : A64.Profile} {Q : A64K.Profile} (hP : IsProfile P) (hQ : IsKeccakProfile Q) (g : Native.Regs64) {K : Nat} (hK : IsParam K) : (∃ ek dk c key, modulusCheck K ek ∧ hashCheck K dk ∧
    Returns (neonKeypair P Q g K 0 (blank (pkLen K)) (blank (skLen K)) (Buf.ofList (ones ++ ones))) (0, Buf.ofList ek, Buf.ofList dk) ∧
    Returns (neonEnc P Q g K 0 (blank (ctLen K)) (blank 32) (Buf.ofList ek) (Buf.ofList ffs)) (0, Buf.ofList c, Buf.ofList key) ∧
    (∀ n, n < 256 → ∃ δ : Int, -832 ≤ δ ∧ δ ≤ 831 ∧ Honest.noise K (xofBytes 0) ones ffs ((SHA3_512 (ffs ++ SHA3_256 ek)).drop 32) n = δ) ∧
    Returns (neonDec P Q g K 0 (blank 32) (Buf.ofList c) (Buf.ofList dk)) (0, Buf.ofList key)) ∧
    Returns (neonEnc P Q g K 0 (blank (ctLen K)) (blank 32) (Buf.ofList (List.replicate (pkLen K) 255)) (Buf.ofList ones)) (-1, blank (ctLen K), blank 32) := by
  obtain ⟨ek, s, c, key, h1, h2, h3, h4, h5, h6, h7, h8, h9, _⟩ := demo hK
  have ldk : (s ++ ek ++ SHA3_256 ek ++ ones).length = skLen K := by
    simp only [List.length_append, ones_length, show (SHA3_256 ek).length = 32 from H_length ek, h1, h2]; unfold pkLen skLen; omega
  refine ⟨⟨ek, _, c, key, h5, ?_, ((C55_keypair hP hQ g hK 0 (coins := Buf.ofList (ones ++ ones)) ⟨_, rfl, rfl⟩ (le_of_eq (blank_size _).symm) (le_of_eq (blank_size _).symm)).returns_iff _).2 h6,
    ((C55_enc hP hQ g hK 0 ⟨ek, h1, rfl⟩ ⟨ffs, rfl, rfl⟩ (le_of_eq (blank_size _).symm) (le_of_eq (blank_size _).symm)).returns_iff _).2 h7, h8,
    ((C55_dec hP hQ g hK 0 ⟨c, h3, rfl⟩ ⟨_, ldk, rfl⟩ (le_of_eq (blank_size _).symm)).returns_iff _).2 h9⟩, ?_⟩
  · exact (C05_hash_check hK 0 _ c ldk h3 (blank 32) (blank_size _)).2.2 (Or.inl ⟨_, h9⟩)
  · exact (C54_encaps_rejects hP hQ g hK 0 _ ones (by simp) ones_length _ _ (le_of_eq (blank_size _).symm) (le_of_eq (blank_size _).symm)).1 ⟨0, by rcases hK with rfl | rfl | rfl <;> omega, coeff12_ff K hK⟩

/-! ## C56: no undefined behaviour in an AArch64 build -/

/-- **C56.** With objects of the announced sizes no entry point of an AArch64 build accesses memory outside an object, reads uninitialised memory, overflows or narrows with a change
of value in C code, or violates a debug check. -/
theorem C56_safe {P : A64.Profile} {Q : A64K.Profile} (hP : IsProfile P) (hQ : IsKeccakProfile Q) (g : Native.Regs64) {K : Nat} (hK : IsParam K) (fuel : Nat) {coins64 coins32 pkOut skOut pkIn skIn ctOut ctIn ss : Buf UInt8}
    (h64 : Init coins64 64) (h32 : Init coins32 32) (hpk : Init pkIn (pkLen K)) (hsk : Init skIn (skLen K)) (hct : Init ctIn (ctLen K))
    (hpk' : pkLen K ≤ pkOut.size) (hsk' : skLen K ≤ skOut.size) (hct' : ctLen K ≤ ctOut.size) (hss : 32 ≤ ss.size) :
    (NoOob (neonKeypair P Q g K fuel pkOut skOut coins64) ∧ NoUninit (neonKeypair P Q g K fuel pkOut skOut coins64) ∧ NoArith (neonKeypair P Q g K fuel pkOut skOut coins64)) ∧
    (NoOob (neonEnc P Q g K fuel ctOut ss pkIn coins32) ∧ NoUninit (neonEnc P Q g K fuel ctOut ss pkIn coins32) ∧ NoArith (neonEnc P Q g K fuel ctOut ss pkIn coins32)) ∧
    (NoOob (neonDec P Q g K fuel ss ctIn skIn) ∧ NoUninit (neonDec P Q g K fuel ss ctIn skIn) ∧ NoArith (neonDec P Q g K fuel ss ctIn skIn)) :=
  ⟨(C55_keypair hP hQ g hK fuel h64 hpk' hsk').safe, (C55_enc hP hQ g hK fuel hpk h32 hct' hss).safe, (C55_dec hP hQ g hK fuel hct hsk hss).safe⟩

/-! ## C57: constant time

The two runs compared may start with different contents `g`, `g'` of the vector registers, the general-purpose registers and the stack. -/

/-- **C57.** Encapsulating to one public key with two values of the coins takes the same branches and touches the same addresses. -/
theorem C57_enc_derand {P : A64.Profile} {Q : A64K.Profile} (hP : IsProfile P) (hQ : IsKeccakProfile Q) (g g' : Native.Regs64) {K : Nat} (hK : IsParam K) (fuel : Nat) (ek m m' : List UInt8) (hek : ek.length = pkLen K) (hm : m.length = 32) (hm' : m'.length = 32)
    (ct ct' ss ss' : Buf UInt8) (hct : ctLen K ≤ ct.size) (hct' : ctLen K ≤ ct'.size) (hss : 32 ≤ ss.size) (hss' : 32 ≤ ss'.size) :
    LookAlike (neonEnc P Q g K fuel ct ss (Buf.ofList ek) (Buf.ofList m)) (neonEnc P Q g' K fuel ct' ss' (Buf.ofList ek) (Buf.ofList m')) :=
  (C13_enc_derand hK fuel ek m m' hek hm hm' ct ct' ss ss' hct hct' hss hss').transfer (C55_enc hP hQ g hK fuel ⟨ek, hek, rfl⟩ ⟨m, hm, rfl⟩ hct hss)
    (C55_enc hP hQ g' hK fuel ⟨ek, hek, rfl⟩ ⟨m', hm', rfl⟩ hct' hss') (have := Native.quiet2_aarch64 hP.quiet hQ.ok g g'; have := Native.quietM_aarch64 hP.quiet hQ.ok hP.good g g'; Native.si_enc_derand (Native.aarch64_meets hP.good hQ.ok g) (Native.aarch64_meets hP.good hQ.ok g') hK (by rw [hek, Nat.mul_comm]; rfl) (SegL_ofList ek))

/-- **C57.** Decapsulating two ciphertexts with two secret keys that agree in the embedded public key `ek` and the stored hash `h` takes the same branches and touches the same
addresses: nothing depends on the secret vectors, on the rejection secrets `z`, on the ciphertexts or on their validity. -/
theorem C57_dec {P : A64.Profile} {Q : A64K.Profile} (hP : IsProfile P) (hQ : IsKeccakProfile Q) (g g' : Native.Regs64) {K : Nat} (hK : IsParam K) (fuel : Nat) (s s' ek h z z' c c' : List UInt8) (hs : s.length = 384 * K) (hs' : s'.length = 384 * K) (hek : ek.length = pkLen K)
    (hh : h.length = 32) (hz : z.length = 32) (hz' : z'.length = 32) (hc : c.length = ctLen K) (hc' : c'.length = ctLen K)
    (ss ss' : Buf UInt8) (hss : 32 ≤ ss.size) (hss' : 32 ≤ ss'.size) :
    LookAlike (neonDec P Q g K fuel ss (Buf.ofList c) (Buf.ofList (s ++ ek ++ h ++ z))) (neonDec P Q g' K fuel ss' (Buf.ofList c') (Buf.ofList (s' ++ ek ++ h ++ z'))) := by
  have hpk : pkLen K = 384 * K + 32 := rfl
  have hl : ∀ s z : List UInt8, s.length = 384 * K → z.length = 32 → (s ++ ek ++ h ++ z).length = skLen K := by
    intro s z hs hz
    unfold skLen; simp only [List.length_append]; omega
  have g1 : ∀ s z : List UInt8, s.length = 384 * K → z.length = 32 → SegL (Buf.ofList (s ++ ek ++ h ++ z)) (MLKEM_INDCPA_SECRETKEYBYTES K) ek := by
    intro s z hs hz
    have := (SegL_ofList (s ++ ek ++ h ++ z)).sub (384 * K) (384 * K + 32) (by rw [hl s z hs hz]; unfold skLen; omega)
    rw [show ((s ++ ek ++ h ++ z).drop (384 * K)).take (384 * K + 32) = ek by
      rw [List.append_assoc, List.append_assoc, List.drop_left' hs, show 384 * K + 32 = pkLen K from rfl, List.take_left' hek]] at this
    have e : MLKEM_INDCPA_SECRETKEYBYTES K = 0 + 384 * K := by rcases hK with rfl | rfl | rfl <;> rfl
    rw [e]; exact this
  have g2 : ∀ s z : List UInt8, s.length = 384 * K → z.length = 32 → SegL (Buf.ofList (s ++ ek ++ h ++ z)) (MLKEM_SECRETKEYBYTES K - 2 * 32) h := by
    intro s z hs hz
    have := (SegL_ofList (s ++ ek ++ h ++ z)).sub (768 * K + 32) 32 (by rw [hl s z hs hz]; unfold skLen; omega)
    rw [show ((s ++ ek ++ h ++ z).drop (768 * K + 32)).take 32 = h by
      rw [List.append_assoc, List.drop_left' (by rw [List.length_append, hs, hek, hpk]; omega), List.take_left' hh]] at this
    have e : MLKEM_SECRETKEYBYTES K - 2 * 32 = 0 + (768 * K + 32) := by rcases hK with rfl | rfl | rfl <;> rfl
    rw [e]; exact this
  exact (C14_dec hK fuel s s' ek h z z' c c' hs hs' hek hh hz hz' hc hc' ss ss' hss hss').transfer (C55_dec hP hQ g hK fuel ⟨c, hc, rfl⟩ ⟨_, hl s z hs hz, rfl⟩ hss)
    (C55_dec hP hQ g' hK fuel ⟨c', hc', rfl⟩ ⟨_, hl s' z' hs' hz', rfl⟩ hss')
    (have := Native.quiet2_aarch64 hP.quiet hQ.ok g g'; have := Native.quietM_aarch64 hP.quiet hQ.ok hP.good g g'; Native.si_dec (Native.aarch64_meets hP.good hQ.ok g) (Native.aarch64_meets hP.good hQ.ok g') hK (by rw [hek, Nat.mul_comm]; rfl) hh (g1 s z hs hz) (g1 s' z' hs' hz') (g2 s z hs hz) (g2 s' z' hs' hz'))

/-- **C57.** Generating keys from two coin strings with the same public matrix seed takes the same branches and touches the same addresses. -/
theorem C57_keypair_derand {P : A64.Profile} {Q : A64K.Profile} (hP : IsProfile P) (hQ : IsKeccakProfile Q) (g g' : Native.Regs64) {K : Nat} (hK : IsParam K) (fuel : Nat) (d d' z z' : List UInt8) (hd : d.length = 32) (hd' : d'.length = 32) (hz : z.length = 32)
    (hz' : z'.length = 32) (hρ : (SHA3_512 (d ++ [UInt8.ofNat K])).take 32 = (SHA3_512 (d' ++ [UInt8.ofNat K])).take 32)
    (pk pk' sk sk' : Buf UInt8) (hpk : pkLen K ≤ pk.size) (hpk' : pkLen K ≤ pk'.size) (hsk : skLen K ≤ sk.size) (hsk' : skLen K ≤ sk'.size) :
    LookAlike (neonKeypair P Q g K fuel pk sk (Buf.ofList (d ++ z))) (neonKeypair P Q g' K fuel pk' sk' (Buf.ofList (d' ++ z'))) := by
  have hh : ∀ d z : List UInt8, d.length = 32 → SegL (Buf.ofList (d ++ z)) 0 d := by
    intro d z hd
    have := (SegL_ofList (d ++ z)).take 32 (by rw [List.length_append]; omega)
    rwa [List.take_left' hd] at this
  exact (C15_keypair_derand hK fuel d d' z z' hd hd' hz hz' hρ pk pk' sk sk' hpk hpk' hsk hsk').transfer
    (C55_keypair hP hQ g hK fuel ⟨d ++ z, by simp [hd, hz], rfl⟩ hpk hsk) (C55_keypair hP hQ g' hK fuel ⟨d' ++ z', by simp [hd', hz'], rfl⟩ hpk' hsk')
    (have := Native.quiet2_aarch64 hP.quiet hQ.ok g g'; have := Native.quietM_aarch64 hP.quiet hQ.ok hP.good g g'; Native.si_keypair_derand (Native.aarch64_meets hP.good hQ.ok g) (Native.aarch64_meets hP.good hQ.ok g') hK hd hd' (hh d z hd) (hh d' z' hd') hρ)

/-- The runs compared really return, for each parameter set: decapsulation of an honest ciphertext and of one that is rejected, with different rejection secrets. -/
example {P : A64.Profile} {Q : A64K.Profile} (hP : IsProfile P) (hQ : IsKeccakProfile Q) (g g' : Native.Regs64) {K : Nat} (hK : IsParam K) : ∃ ek s c c2 a b t, c2 ≠ c ∧ ReturnsTr (neonDec P Q g K 0 (blank 32) (Buf.ofList c) (Buf.ofList (s ++ ek ++ SHA3_256 ek ++ ones))) (0, a) t ∧
    ReturnsTr (neonDec P Q g' K 0 (blank 32) (Buf.ofList c2) (Buf.ofList (s ++ ek ++ SHA3_256 ek ++ ffs))) (0, b) t := by
  obtain ⟨ek, s, c, key, h1, h2, h3, _, _, _, _, _, h4, _, h⟩ := demo hK
  obtain ⟨c2, l2, hne⟩ := exists_rejected hK (xofBytes 0) s ek (SHA3_256 ek)
  have hd := ((C55_dec hP hQ g hK 0 ⟨c, h3, rfl⟩ ⟨s ++ ek ++ SHA3_256 ek ++ ones, by
    simp only [List.length_append, ones_length, show (SHA3_256 ek).length = 32 from H_length ek, h1, h2]; unfold pkLen skLen; omega, rfl⟩ (le_of_eq (blank_size _).symm)).returns_iff _).2 h4
  obtain ⟨t0, h4⟩ := hd
  refine ⟨ek, s, c, c2, ?_⟩
  rcases C57_dec hP hQ g g' hK 0 s s ek (SHA3_256 ek) ones ffs c c2 h2 h2 h1 (H_length ek) ones_length ffs_length h3 l2 (blank 32) (blank 32) (le_of_eq (blank_size _).symm) (le_of_eq (blank_size _).symm)
    with ⟨h', _⟩ | ⟨r, a, b, t, h', h''⟩
  · rw [OutOfBudget, h4] at h'; exact absurd h' (by simp)
  · have e := Except.ok.inj (h4.symm.trans h')
    obtain ⟨e1, _⟩ := Prod.mk.inj e
    obtain ⟨rfl, _⟩ := Prod.mk.inj e1
    exact ⟨a, b, t, fun e => hne (by rw [e]; exact h), h', h''⟩

end Verif.Props

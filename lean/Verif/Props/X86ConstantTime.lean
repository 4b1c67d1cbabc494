import Verif.Proof.NativeTrace
import Verif.Props.X86Kem
/-! # C48: an x86_64 (AVX2) build takes branches and touches addresses independently of secrets

As C13, C14, C15, for the library with the AVX2 backend: the vector loads and stores of the assembly are in the trace element by element.
The two runs compared may start with different contents `g`, `g'` of the vector registers. -/
namespace Verif.Props
open Verif Spec Model

attribute [local irreducible] SHAKE256 SHA3_256 SHA3_512 SHAKE128

theorem LookAlike.transfer {α : Type} {p p' q q' : M (Int × α)} (h : LookAlike q q') (s : SameOutcome p q) (s' : SameOutcome p' q') (hs : SI p p') : LookAlike p p' := by
  rcases h with ⟨h, h'⟩ | ⟨r, a, b, t, h, h'⟩
  · exact Or.inl ⟨s.out_iff.2 h, s'.out_iff.2 h'⟩
  · exact LookAlike.of ((s.returns_iff (r, a)).2 ⟨t, h⟩) ((s'.returns_iff (r, b)).2 ⟨t, h'⟩) hs

/-- **C48.** Encapsulating to one public key with two values of the coins takes the same branches and touches the same addresses. -/
theorem C48_enc_derand (g g' : Native.Regs) {K : Nat} (hK : IsParam K) (fuel : Nat) (ek m m' : List UInt8) (hek : ek.length = pkLen K) (hm : m.length = 32) (hm' : m'.length = 32)
    (ct ct' ss ss' : Buf UInt8) (hct : ctLen K ≤ ct.size) (hct' : ctLen K ≤ ct'.size) (hss : 32 ≤ ss.size) (hss' : 32 ≤ ss'.size) :
    LookAlike (avx2Enc g K fuel ct ss (Buf.ofList ek) (Buf.ofList m)) (avx2Enc g' K fuel ct' ss' (Buf.ofList ek) (Buf.ofList m')) :=
  (C13_enc_derand hK fuel ek m m' hek hm hm' ct ct' ss ss' hct hct' hss hss').transfer (C46_enc g hK fuel ⟨ek, hek, rfl⟩ ⟨m, hm, rfl⟩ hct hss)
    (C46_enc g' hK fuel ⟨ek, hek, rfl⟩ ⟨m', hm', rfl⟩ hct' hss') (Native.si_enc_derand (Native.x86_64_meets g) (Native.x86_64_meets g') hK (by rw [hek, Nat.mul_comm]; rfl) (SegL_ofList ek))

/-- **C48.** Decapsulating two ciphertexts with two secret keys that agree in the embedded public key `ek` and the stored hash `h` takes the same branches and touches the same
addresses: nothing depends on the secret vectors, on the rejection secrets `z`, on the ciphertexts or on their validity. -/
theorem C48_dec (g g' : Native.Regs) {K : Nat} (hK : IsParam K) (fuel : Nat) (s s' ek h z z' c c' : List UInt8) (hs : s.length = 384 * K) (hs' : s'.length = 384 * K) (hek : ek.length = pkLen K)
    (hh : h.length = 32) (hz : z.length = 32) (hz' : z'.length = 32) (hc : c.length = ctLen K) (hc' : c'.length = ctLen K)
    (ss ss' : Buf UInt8) (hss : 32 ≤ ss.size) (hss' : 32 ≤ ss'.size) :
    LookAlike (avx2Dec g K fuel ss (Buf.ofList c) (Buf.ofList (s ++ ek ++ h ++ z))) (avx2Dec g' K fuel ss' (Buf.ofList c') (Buf.ofList (s' ++ ek ++ h ++ z'))) := by
  have hpk : pkLen K = 384 * K + 32 := rfl
  have hl : ∀ s z : List UInt8, s.length = 384 * K → z.length = 32 → (s ++ ek ++ h ++ z).length = skLen K := by
    intro s z hs hz
    unfold skLen; simp only [List.length_append]; omega
  have g1 : ∀ s z : List UInt8, s.length = 384 * K → z.length = 32 → SegL (Buf.ofList (s ++ ek ++ h ++ z)) (MLKEM_INDCPA_SECRETKEYBYTES K) ek := by
    intro s z hs hz
    have := (SegL_ofList (s ++ ek ++ h ++ z)).sub (384 * K) (384 * K + 32) (by rw [hl s z hs hz]; unfold skLen; omega)
    rw [show ((s ++ ek ++ h ++ z).drop (384 * K)).take (384 * K + 32) = ek by
      rw [List.append_assoc, List.append_assoc, List.drop_left' hs, show 384 * K + 32 = pkLen K from rfl, List.take_left' hek]] at this
    have e : MLKEM_INDCPA_SECRETKEYBYTES K = 0 + 384 * K := by rcases hK with rfl | rfl | rfl <;> rfl
    rw [e]; exact this
  have g2 : ∀ s z : List UInt8, s.length = 384 * K → z.length = 32 → SegL (Buf.ofList (s ++ ek ++ h ++ z)) (MLKEM_SECRETKEYBYTES K - 2 * 32) h := by
    intro s z hs hz
    have := (SegL_ofList (s ++ ek ++ h ++ z)).sub (768 * K + 32) 32 (by rw [hl s z hs hz]; unfold skLen; omega)
    rw [show ((s ++ ek ++ h ++ z).drop (768 * K + 32)).take 32 = h by
      rw [List.append_assoc, List.drop_left' (by rw [List.length_append, hs, hek, hpk]; omega), List.take_left' hh]] at this
    have e : MLKEM_SECRETKEYBYTES K - 2 * 32 = 0 + (768 * K + 32) := by rcases hK with rfl | rfl | rfl <;> rfl
    rw [e]; exact this
  exact (C14_dec hK fuel s s' ek h z z' c c' hs hs' hek hh hz hz' hc hc' ss ss' hss hss').transfer (C46_dec g hK fuel ⟨c, hc, rfl⟩ ⟨_, hl s z hs hz, rfl⟩ hss)
    (C46_dec g' hK fuel ⟨c', hc', rfl⟩ ⟨_, hl s' z' hs' hz', rfl⟩ hss')
    (Native.si_dec (Native.x86_64_meets g) (Native.x86_64_meets g') hK (by rw [hek, Nat.mul_comm]; rfl) hh (g1 s z hs hz) (g1 s' z' hs' hz') (g2 s z hs hz) (g2 s' z' hs' hz'))

/-- **C48.** Generating keys from two coin strings with the same public matrix seed takes the same branches and touches the same addresses. -/
theorem C48_keypair_derand (g g' : Native.Regs) {K : Nat} (hK : IsParam K) (fuel : Nat) (d d' z z' : List UInt8) (hd : d.length = 32) (hd' : d'.length = 32) (hz : z.length = 32)
    (hz' : z'.length = 32) (hρ : (SHA3_512 (d ++ [UInt8.ofNat K])).take 32 = (SHA3_512 (d' ++ [UInt8.ofNat K])).take 32)
    (pk pk' sk sk' : Buf UInt8) (hpk : pkLen K ≤ pk.size) (hpk' : pkLen K ≤ pk'.size) (hsk : skLen K ≤ sk.size) (hsk' : skLen K ≤ sk'.size) :
    LookAlike (avx2Keypair g K fuel pk sk (Buf.ofList (d ++ z))) (avx2Keypair g' K fuel pk' sk' (Buf.ofList (d' ++ z'))) := by
  have hh : ∀ d z : List UInt8, d.length = 32 → SegL (Buf.ofList (d ++ z)) 0 d := by
    intro d z hd
    have := (SegL_ofList (d ++ z)).take 32 (by rw [List.length_append]; omega)
    rwa [List.take_left' hd] at this
  exact (C15_keypair_derand hK fuel d d' z z' hd hd' hz hz' hρ pk pk' sk sk' hpk hpk' hsk hsk').transfer
    (C46_keypair g hK fuel ⟨d ++ z, by simp [hd, hz], rfl⟩ hpk hsk) (C46_keypair g' hK fuel ⟨d' ++ z', by simp [hd', hz'], rfl⟩ hpk' hsk')
    (Native.si_keypair_derand (Native.x86_64_meets g) (Native.x86_64_meets g') hK hd hd' (hh d z hd) (hh d' z' hd') hρ)

/-- The runs compared really return, for each parameter set: decapsulation of an honest ciphertext and of one that is rejected, with different rejection secrets. -/
example (g g' : Native.Regs) {K : Nat} (hK : IsParam K) : ∃ ek s c c2 a b t, c2 ≠ c ∧ ReturnsTr (avx2Dec g K 0 (blank 32) (Buf.ofList c) (Buf.ofList (s ++ ek ++ SHA3_256 ek ++ ones))) (0, a) t ∧
    ReturnsTr (avx2Dec g' K 0 (blank 32) (Buf.ofList c2) (Buf.ofList (s ++ ek ++ SHA3_256 ek ++ ffs))) (0, b) t := by
  obtain ⟨ek, s, c, key, h1, h2, h3, _, _, _, _, _, h4, _, h⟩ := demo hK
  obtain ⟨c2, l2, hne⟩ := exists_rejected hK (xofBytes 0) s ek (SHA3_256 ek)
  have hd := ((C46_dec g hK 0 ⟨c, h3, rfl⟩ ⟨s ++ ek ++ SHA3_256 ek ++ ones, by
    simp only [List.length_append, ones_length, show (SHA3_256 ek).length = 32 from H_length ek, h1, h2]; unfold pkLen skLen; omega, rfl⟩ (le_of_eq (blank_size _).symm)).returns_iff _).2 h4
  obtain ⟨t0, h4⟩ := hd
  refine ⟨ek, s, c, c2, ?_⟩
  rcases C48_dec g g' hK 0 s s ek (SHA3_256 ek) ones ffs c c2 h2 h2 h1 (H_length ek) ones_length ffs_length h3 l2 (blank 32) (blank 32) (le_of_eq (blank_size _).symm) (le_of_eq (blank_size _).symm)
    with ⟨h', _⟩ | ⟨r, a, b, t, h', h''⟩
  · rw [OutOfBudget, h4] at h'; exact absurd h' (by simp)
  · have e := Except.ok.inj (h4.symm.trans h')
    obtain ⟨e1, _⟩ := Prod.mk.inj e
    obtain ⟨rfl, _⟩ := Prod.mk.inj e1
    exact ⟨a, b, t, fun e => hne (by rw [e]; exact h), h', h''⟩

end Verif.Props

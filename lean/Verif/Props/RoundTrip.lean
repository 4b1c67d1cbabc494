import Verif.Props.Kem
import Verif.Proof.Correct
/-! # C08: honest round trips

`Verif.Props.Examples` shows for each parameter set a concrete run that meets the hypotheses of both theorems, with noise that is not zero. -/
namespace Verif.Props
open Verif Verif.Model Verif.Spec

attribute [local irreducible] keccakF partialK finK blocksK sqByte SHAKE256 SHA3_256 SHA3_512 SHAKE128

theorem ByteDecode_one (m : List UInt8) (c : Nat) : ByteDecode 1 m c = if bitAt m c then 1 else 0 := by
  unfold ByteDecode decodeMod
  rw [if_neg (show ¬ (1 : Nat) = 12 by omega), Finset.sum_range_one, Nat.mul_one, Nat.add_zero]
  split <;> rfl

theorem ByteEncode_one_iff (f : Nat → Nat) (m : List UInt8) (hm : m.length = 32) (hf : ∀ c, c < 256 → f c < 2) :
    ByteEncode 1 f = m ↔ ∀ c, c < 256 → f c = ByteDecode 1 m c := by
  constructor
  · rintro rfl c hc
    rw [ByteDecode_ByteEncode 1 (by omega) f (fun i hi => by simpa using hf i hi) hc]
    unfold decodeMod
    rw [if_neg (by omega), Nat.mod_eq_of_lt (by simpa using hf c hc)]
  · intro h
    refine ext_getD' (by rw [ByteEncode_length, hm]) fun j hj => ?_
    rw [ByteEncode_length] at hj
    rw [ByteEncode_getD' _ _ hj, ← encByte_decNum 1 (by omega) (fun j => m.getD j 0) j]
    refine encByte_congr (fun c hc => ?_) hj
    rw [h c hc, ByteDecode_decNum]
    exact Nat.mod_eq_of_lt (decNum_lt 1 _ c)

/-- Decryption of an honest ciphertext gives the message back exactly if every noise coefficient is in the window of its message bit. -/
theorem kpkeDecrypt_honest {k n : Nat} {d m r ek dk ct : List UInt8} (hm : m.length = 32) (hkg : kpkeKeyGen k n d = some (ek, dk)) (henc : kpkeEncrypt k n ek m r = some ct) :
    kpkeDecrypt k dk ct = m ↔ ∀ c, c < 256 → ∃ δ : Int, -832 ≤ δ ∧ δ ≤ (if bitAt m c then 831 else 832) ∧ Honest.noise k n d m r c = δ := by
  have hlen : ((G (d ++ [UInt8.ofNat k])).1).length = 32 := by
    unfold G; rw [List.length_take, SHA3_512_length]; rfl
  unfold kpkeDecrypt
  rw [ByteEncode_one_iff _ _ hm (fun c _ => by rw [Compress_eq]; exact Nat.mod_lt _ (by norm_num))]
  refine forall_congr' fun c => forall_congr' fun hc => ?_
  rw [decrypt_honest hkg hlen henc hc]
  show Compress 1 (Decompress 1 (ByteDecode 1 m c) + _) = _ ↔ _
  rw [compress_noisy_bit _ (by rw [ByteDecode_one]; split <;> omega)]
  refine exists_congr fun δ => and_congr_right fun _ => and_congr_left fun _ => ?_
  rw [ByteDecode_one]
  split <;> simp

/-- **C08 (exact window).**  Run key generation, encapsulation with message `m`, and decapsulation.  Whenever the first two succeed and every coefficient of the decryption noise of this
run is, modulo `q`, in the window of its message bit, `[-832, 832]` for 0 and `[-832, 831]` for 1, decapsulation returns 0 and the encapsulated key. -/
theorem C08_round_trip_exact {K : Nat} (hK : IsParam K) (fuel : Nat) (d z m : List UInt8) (hd : d.length = 32) (hz : z.length = 32) (hm : m.length = 32)
    (pk sk ct ss ss2 : Buf UInt8) (hpk : pk.size = pkLen K) (hsk : sk.size = skLen K) (hct : ct.size = ctLen K) (hss : ss.size = 32) (hss2 : ss2.size = 32)
    (ek dk c key : List UInt8)
    (hkeygen : Returns (crypto_kem_keypair_derand K fuel pk sk (Buf.ofList (d ++ z))) (0, Buf.ofList ek, Buf.ofList dk))
    (henc : Returns (crypto_kem_enc_derand K fuel ct ss (Buf.ofList ek) (Buf.ofList m)) (0, Buf.ofList c, Buf.ofList key))
    (hnoise : ∀ n, n < 256 → ∃ δ : Int, -832 ≤ δ ∧ δ ≤ (if bitAt m n then 831 else 832) ∧ Honest.noise K (xofBytes fuel) d m ((SHA3_512 (m ++ SHA3_256 ek)).drop 32) n = δ) :
    Returns (crypto_kem_dec K fuel ss2 (Buf.ofList c) (Buf.ofList dk)) (0, Buf.ofList key) := by
  have inj : ∀ a b : List UInt8, Buf.ofList a = Buf.ofList b → a = b := fun a b h =>
    (List.map_injective_iff.2 (Option.some_injective _)) (by simpa [Buf.ofList] using congrArg Array.toList h)
  have h1 := C01_keygen hK fuel d z hd hz pk sk hpk hsk
  cases hkg : KeyGen_internal K (xofBytes fuel) d z with
  | none => rw [hkg] at h1; exact (hkeygen.notOut h1).elim
  | some p =>
    obtain ⟨ek', dk'⟩ := p
    rw [hkg] at h1
    have e := hkeygen.unique h1
    simp only [Prod.mk.injEq] at e
    obtain ⟨_, e1, e2⟩ := e
    have e1 := inj _ _ e1
    have e2 := inj _ _ e2
    subst e1 e2
    obtain ⟨hmc, s, hs, hdk, hek, _, _, _⟩ := KeyGen_layout hkg
    have h2 := C02_encaps hK fuel ek m hek hm hmc ct ss hct hss
    cases hen : Encaps_internal K (xofBytes fuel) ek m with
    | none => rw [hen] at h2; exact (henc.notOut h2).elim
    | some p =>
      obtain ⟨key', c'⟩ := p
      rw [hen] at h2
      have e := henc.unique h2
      simp only [Prod.mk.injEq] at e
      obtain ⟨_, e1, e2⟩ := e
      have e1 := inj _ _ e1
      have e2 := inj _ _ e2
      subst e1 e2
      -- the K-PKE operations behind them
      unfold KeyGen_internal at hkg
      obtain ⟨⟨ek', dkp⟩, hkp, e⟩ := Option.map_eq_some_iff.1 hkg
      simp only [Prod.mk.injEq] at e
      obtain ⟨rfl, hdk'⟩ := e
      have hsd : s = dkp := by
        rw [hdk, List.append_assoc, List.append_assoc, List.append_assoc, List.append_assoc] at hdk'
        have hl : dkp.length = 384 * K := by
          have := congrArg List.length hdk'
          simp only [List.length_append] at this
          have hH : (H ek').length = 32 := H_length ek'
          have hH' : (SHA3_256 ek').length = 32 := H_length ek'
          omega
        exact ((List.append_inj hdk' (by omega)).1).symm
      unfold Encaps_internal at hen
      obtain ⟨c', hce, e⟩ := Option.map_eq_some_iff.1 hen
      simp only [Prod.mk.injEq] at e
      obtain ⟨hkey, rfl⟩ := e
      have hr : (G (m ++ H ek')).2 = (SHA3_512 (m ++ SHA3_256 ek')).drop 32 := rfl
      rw [hr] at hce
      have hdec : kpkeDecrypt K s c' = m := by
        rw [hsd]
        exact (kpkeDecrypt_honest hm hkp hce).2 hnoise
      have hclen : c'.length = ctLen K := by
        have := henc
        obtain ⟨t, ht⟩ := henc
        rcases enc_frame hK fuel ek' m hek hm ct ss (le_of_eq hct.symm) (le_of_eq hss.symm) with ⟨_, k, c, a, b, e, l1, l2, h, _, _, w1, w2⟩ | ⟨_, e, h⟩ | ⟨hn, _⟩
        · have e' : Encaps_internal K (xofBytes fuel) ek' m = some (key, c') := by
            unfold Encaps_internal; rw [hr, hce]; simp [hkey]
          rw [e'] at e
          simp only [Option.some.injEq, Prod.mk.injEq] at e
          rw [e.2]; assumption
        · exact (this.notOut h).elim
        · exact absurd hmc hn
      have h9 := (C09_implicit_rejection hK fuel s ek' (SHA3_256 ek') z c' hs hek rfl hz hclen ss2 hss2 c' (by rw [hdec]; exact hce)).1 rfl
      rw [hdec] at h9
      rw [hdk, ← hkey]
      exact h9

/-- **C08.**  Run key generation, encapsulation with message `m`, and decapsulation.  Whenever the first two succeed and the decryption noise of this run has all coefficients
between -832 and 831 modulo `q`, decapsulation returns 0 and the encapsulated key. -/
theorem C08_round_trip {K : Nat} (hK : IsParam K) (fuel : Nat) (d z m : List UInt8) (hd : d.length = 32) (hz : z.length = 32) (hm : m.length = 32)
    (pk sk ct ss ss2 : Buf UInt8) (hpk : pk.size = pkLen K) (hsk : sk.size = skLen K) (hct : ct.size = ctLen K) (hss : ss.size = 32) (hss2 : ss2.size = 32)
    (ek dk c key : List UInt8)
    (hkeygen : Returns (crypto_kem_keypair_derand K fuel pk sk (Buf.ofList (d ++ z))) (0, Buf.ofList ek, Buf.ofList dk))
    (henc : Returns (crypto_kem_enc_derand K fuel ct ss (Buf.ofList ek) (Buf.ofList m)) (0, Buf.ofList c, Buf.ofList key))
    (hnoise : ∀ n, n < 256 → ∃ δ : Int, -832 ≤ δ ∧ δ ≤ 831 ∧ Honest.noise K (xofBytes fuel) d m ((SHA3_512 (m ++ SHA3_256 ek)).drop 32) n = δ) :
    Returns (crypto_kem_dec K fuel ss2 (Buf.ofList c) (Buf.ofList dk)) (0, Buf.ofList key) :=
  C08_round_trip_exact hK fuel d z m hd hz hm pk sk ct ss ss2 hpk hsk hct hss hss2 ek dk c key hkeygen henc fun n hn => by
    obtain ⟨δ, g1, g2, g3⟩ := hnoise n hn
    exact ⟨δ, g1, by split <;> omega, g3⟩

theorem ofList_inj {a b : List UInt8} (h : Buf.ofList a = Buf.ofList b) : a = b :=
  (List.map_injective_iff.2 (Option.some_injective _)) (by simpa [Buf.ofList] using congrArg Array.toList h)

/-- **C08 (the failure event is exact).**  For the underlying encryption scheme, with any randomness `r`: decryption of an honest ciphertext returns the message if and only if every
noise coefficient is in the window of its message bit, `[-832, 832]` for 0 and `[-832, 831]` for 1. -/
theorem C08_decrypt_iff {K : Nat} (hK : IsParam K) (fuel : Nat) (d m r : List UInt8) (hd : d.length = 32) (hm : m.length = 32) (hr : r.length = 32) (ek dk c : List UInt8)
    (pk sk ct out : Buf UInt8) (hpk : pk.size = pkLen K) (hsk : sk.size = 384 * K) (hct : ct.size = ctLen K) (ho : out.size = 32)
    (hkeygen : Returns (indcpa_keypair_derand K fuel pk sk (Buf.ofList d)) (Buf.ofList ek, Buf.ofList dk))
    (henc : Returns (indcpa_enc K fuel ct (Buf.ofList m) 0 (Buf.ofList ek) 0 (Buf.ofList r) 0) (Buf.ofList c)) :
    Returns (indcpa_dec K out (Buf.ofList c) (Buf.ofList dk)) (Buf.ofList m) ↔
      ∀ n, n < 256 → ∃ δ : Int, -832 ≤ δ ∧ δ ≤ (if bitAt m n then 831 else 832) ∧ Honest.noise K (xofBytes fuel) d m r n = δ := by
  rw [pkLen_eq] at hpk; rw [ctLen_eq] at hct
  rcases outcome (indcpa_keypair_spec (fuel := fuel) hK hd (SegL_ofList d) (le_of_eq hpk.symm) (by omega : K * 384 ≤ sk.size)) with ⟨x, h, ek', dk', hkg, l1, l2, w1, w2⟩ | ⟨h, _⟩
  swap; · exact (hkeygen.notOut h).elim
  obtain ⟨x1, x2⟩ := x
  have e := hkeygen.unique h
  simp only [Prod.mk.injEq] at e
  have e1 := ofList_inj (e.1.trans (w1.whole (hpk.trans l1.symm)))
  have e2 := ofList_inj (e.2.trans (w2.whole (by omega)))
  subst e1 e2
  rcases outcome (indcpa_enc_spec (fuel := fuel) hK hm (SegL_ofList m) l1 (SegL_ofList ek) hr (SegL_ofList r) (le_of_eq hct.symm)) with ⟨c', h', ct', hen, l3, w3⟩ | ⟨h', _⟩
  swap; · exact (henc.notOut h').elim
  have e3 := ofList_inj ((henc.unique h').trans (w3.whole (hct.trans l3.symm)))
  subst e3
  rcases outcome (indcpa_dec_spec hK (m := out) (le_of_eq ho.symm) l3 (SegL_ofList c) (by omega : K * 384 ≤ dk.length) (SegL_ofList dk)) with ⟨m', h'', w4⟩ | ⟨_, hF⟩
  swap; · exact hF.elim
  have hl : (kpkeDecrypt K dk c).length = 32 := by unfold kpkeDecrypt; rw [ByteEncode_length]
  rw [w4.whole (ho.trans hl.symm)] at h''
  rw [show xofBytes fuel = 168 * (3 + fuel) from rfl, ← kpkeDecrypt_honest hm hkg hen]
  constructor
  · intro hret
    exact (ofList_inj (hret.unique h'')).symm
  · intro heq
    rwa [heq] at h''

end Verif.Props

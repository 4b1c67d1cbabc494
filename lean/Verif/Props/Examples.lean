import Verif.Props.ConstantTime
import Verif.Props.Failure
import Verif.Props.Binding
import Verif.Proof.Run4
/-! # Concrete runs

For each of the three parameter sets the kernel has evaluated one complete run (`Verif.Proof.Run2` to `Run4`): seeds `d = z = 01…01`, message `ff…ff`.  The examples below show that the
hypotheses of the property theorems about the entry points are met by these concrete runs. -/
namespace Verif.Props
open Verif Verif.Model Verif.Spec Verif.Eval

attribute [local irreducible] keccakF partialK finK blocksK sqByte SHAKE256 SHA3_256 SHA3_512 SHAKE128

/-- 32 bytes `01`. -/
def ones : List UInt8 := List.replicate 32 1
/-- 32 bytes `ff`. -/
def ffs : List UInt8 := List.replicate 32 255
/-- An uninitialised object of `n` bytes. -/
def blank (n : Nat) : Buf UInt8 := Array.replicate n none

theorem blank_size (n : Nat) : (blank n).size = n := Array.size_replicate
theorem ones_length : ones.length = 32 := rfl
theorem ffs_length : ffs.length = 32 := rfl

theorem run_enough {K : Nat} (hK : IsParam K) : Enough K (xofBytes 0) ((SHA3_512 (ones ++ [UInt8.ofNat K])).take 32) := by
  have h : nenough K 3 (nrho (packN 8 (List.replicate 32 1)) K) = true := by
    rcases hK with rfl | rfl | rfl
    · exact enough2
    · exact enough3
    · exact enough4
  have hK' : K ≤ 4 := by rcases hK with rfl | rfl | rfl <;> omega
  refine (enough_iff (c := 3) (by omega) (by rw [List.length_take, SHA3_512_length]; rfl)).2 ?_
  rw [leN_rho (by omega) ones_length, show leN ones = packN 8 (List.replicate 32 1) from leN_replicate 32 1]
  exact h

theorem run_facts {K : Nat} (hK : IsParam K) : ∃ ek s c, kpkeKeyGen K (xofBytes 0) ones = some (ek, s) ∧ kpkeEncrypt K (xofBytes 0) ek ffs ((SHA3_512 (ffs ++ SHA3_256 ek)).drop 32) = some c ∧
    kpkeDecrypt K s c = ffs ∧ SHAKE256 (ones ++ c) 32 ≠ (SHA3_512 (ffs ++ SHA3_256 ek)).take 32 := by
  have hK' : K ≤ 4 := by rcases hK with rfl | rfl | rfl <;> omega
  refine run_sound (c := 3) hK' ones_length ffs_length ones_length (run_enough hK) ?_
  rw [show leN ones = packN 8 (List.replicate 32 1) from leN_replicate 32 1, show leN ffs = packN 8 (List.replicate 32 255) from leN_replicate 32 255]
  rcases hK with rfl | rfl | rfl
  · exact run2
  · exact run3
  · exact run4

/-- One complete honest run per parameter set, without any refill of the sampler: key generation, encapsulation and decapsulation return 0, both sides have the same key, the noise is in the window
of C08, and the key is not the rejection key. -/
theorem demo {K : Nat} (hK : IsParam K) : ∃ ek s c key, ek.length = pkLen K ∧ s.length = 384 * K ∧ c.length = ctLen K ∧ key.length = 32 ∧ modulusCheck K ek ∧
    Returns (crypto_kem_keypair_derand K 0 (blank (pkLen K)) (blank (skLen K)) (Buf.ofList (ones ++ ones))) (0, Buf.ofList ek, Buf.ofList (s ++ ek ++ SHA3_256 ek ++ ones)) ∧
    Returns (crypto_kem_enc_derand K 0 (blank (ctLen K)) (blank 32) (Buf.ofList ek) (Buf.ofList ffs)) (0, Buf.ofList c, Buf.ofList key) ∧
    (∀ n, n < 256 → ∃ δ : Int, -832 ≤ δ ∧ δ ≤ 831 ∧ Honest.noise K (xofBytes 0) ones ffs ((SHA3_512 (ffs ++ SHA3_256 ek)).drop 32) n = δ) ∧
    Returns (crypto_kem_dec K 0 (blank 32) (Buf.ofList c) (Buf.ofList (s ++ ek ++ SHA3_256 ek ++ ones))) (0, Buf.ofList key) ∧
    key ≠ SHAKE256 (ones ++ c) 32 ∧ kpkeEncrypt K (xofBytes 0) ek (kpkeDecrypt K s c) ((SHA3_512 (kpkeDecrypt K s c ++ SHA3_256 ek)).drop 32) = some c := by
  obtain ⟨ek, s, c, hkg, henc, hdec, hne⟩ := run_facts hK
  have hKG : KeyGen_internal K (xofBytes 0) ones ones = some (ek, s ++ ek ++ SHA3_256 ek ++ ones) := by
    unfold KeyGen_internal; rw [hkg]; rfl
  obtain ⟨hmc, s', hs', hdk, hek, _, _, _⟩ := KeyGen_layout hKG
  have hs : s.length = 384 * K := by
    have := congrArg List.length hdk
    simp only [List.length_append] at this
    omega
  have h1 := C01_keygen hK 0 ones ones ones_length ones_length (blank (pkLen K)) (blank (skLen K)) (blank_size _) (blank_size _)
  rw [hKG] at h1
  have hEN : Encaps_internal K (xofBytes 0) ek ffs = some ((SHA3_512 (ffs ++ SHA3_256 ek)).take 32, c) := by
    unfold Encaps_internal
    show Option.map _ (kpkeEncrypt K (xofBytes 0) ek ffs ((SHA3_512 (ffs ++ SHA3_256 ek)).drop 32)) = _
    rw [henc]; rfl
  have h2 := C02_encaps hK 0 ek ffs hek ffs_length hmc (blank (ctLen K)) (blank 32) (blank_size _) (blank_size _)
  rw [hEN] at h2
  have hn : ∀ n, n < 256 → ∃ δ : Int, -832 ≤ δ ∧ δ ≤ 831 ∧ Honest.noise K (xofBytes 0) ones ffs ((SHA3_512 (ffs ++ SHA3_256 ek)).drop 32) n = δ := by
    intro n hn
    obtain ⟨δ, a, b, e⟩ := (kpkeDecrypt_honest ffs_length hkg henc).1 hdec n hn
    have hb : bitAt ffs n = true := by
      unfold bitAt ffs
      rw [List.getD_eq_getElem?_getD, List.getElem?_replicate, if_pos (by omega)]
      show Nat.testBit 255 (n % 8) = true
      have : n % 8 < 8 := Nat.mod_lt _ (by omega)
      generalize n % 8 = k at *
      interval_cases k <;> rfl
    rw [hb] at b
    exact ⟨δ, a, b, e⟩
  have hcl : c.length = ctLen K := by
    rcases enc_frame hK 0 ek ffs hek ffs_length (blank (ctLen K)) (blank 32) (le_of_eq (blank_size _).symm) (le_of_eq (blank_size _).symm) with ⟨_, k, c', a, b, e, l1, l2, h, _⟩ | ⟨_, e, h⟩ | ⟨hn, _⟩
    · rw [hEN] at e; simp only [Option.some.injEq, Prod.mk.injEq] at e; rw [e.2]; exact l2
    · rw [hEN] at e; simp at e
    · exact absurd hmc hn
  refine ⟨ek, s, c, _, hek, hs, hcl, ?_, hmc, h1, h2, hn, ?_, hne.symm, ?_⟩
  · rw [List.length_take, SHA3_512_length]; rfl
  · exact C08_round_trip hK 0 ones ones ffs ones_length ones_length ffs_length (blank (pkLen K)) (blank (skLen K)) (blank (ctLen K)) (blank 32) (blank 32) (blank_size _) (blank_size _) (blank_size _) (blank_size _)
      (blank_size _) ek _ c _ h1 h2 hn
  · rw [hdec]; exact henc

/-! ## C04, C05, C06: rejected inputs exist -/

/-- A public key of bytes `ff` has the coefficient 4095. -/
theorem coeff12_ff (K : Nat) (hK : IsParam K) : 3329 ≤ coeff12 (List.replicate (pkLen K) 255) 0 := by
  rcases hK with rfl | rfl | rfl <;> decide +kernel

/-- It is rejected by encapsulation (C04), with the output objects untouched (C06). -/
example {K : Nat} (hK : IsParam K) : ∃ ct ss, Returns (crypto_kem_enc_derand K 0 (blank (ctLen K)) (blank 32) (Buf.ofList (List.replicate (pkLen K) 255)) (Buf.ofList ones)) (-1, ct, ss) :=
  (C04_modulus_check hK 0 (List.replicate (pkLen K) 255) ones (by simp) ones_length (blank (ctLen K)) (blank 32) (blank_size _) (blank_size _)).1.1
    ⟨0, by rcases hK with rfl | rfl | rfl <;> omega, coeff12_ff K hK⟩

/-- A secret key whose stored hash has been changed. -/
def badSk (s ek z : List UInt8) : List UInt8 := s ++ ek ++ (SHA3_256 ek).map (· + 1) ++ z

/-- It is rejected by decapsulation (C05), with the output object untouched (C06). -/
example {K : Nat} (hK : IsParam K) (s ek z c : List UInt8) (hs : s.length = 384 * K) (hek : ek.length = pkLen K) (hz : z.length = 32) (hc : c.length = ctLen K) :
    ∃ ss, Returns (crypto_kem_dec K 0 (blank 32) (Buf.ofList c) (Buf.ofList (badSk s ek z))) (-1, ss) := by
  have hh : (SHA3_256 ek).length = 32 := H_length ek
  have hp : pkLen K = 384 * K + 32 := rfl
  refine (C05_hash_check hK 0 (badSk s ek z) c ?_ hc (blank 32) (blank_size _)).1.1 ?_
  · unfold badSk skLen; simp only [List.length_append, List.length_map]; omega
  · unfold badSk
    have e1 : ((s ++ ek ++ (SHA3_256 ek).map (· + 1) ++ z).drop (384 * K)).take (pkLen K) = ek := by
      rw [List.append_assoc, List.append_assoc, List.drop_left' hs, List.take_left' hek]
    have e2 : ((s ++ ek ++ (SHA3_256 ek).map (· + 1) ++ z).drop (768 * K + 32)).take 32 = (SHA3_256 ek).map (· + 1) := by
      rw [List.append_assoc, List.drop_left' (by rw [List.length_append, hs, hek, hp]; omega), List.take_left' (by rw [List.length_map, hh])]
    rw [e1, e2]
    intro e
    have e0 := congrArg (fun L : List UInt8 => L[0]?) e
    simp only [List.getElem?_map] at e0
    rw [List.getElem?_eq_getElem (by omega)] at e0
    simp only [Option.map_some, Option.some.injEq] at e0
    have := congrArg UInt8.toNat e0
    rw [UInt8.toNat_add] at this
    have h1 : (1 : UInt8).toNat = 1 := rfl
    have h2 := (SHA3_256 ek)[0].toNat_lt
    omega

/-! ## C07, C08, C09, C33, C34: the runs above meet the hypotheses -/

/-- C07: key generation returns. -/
example {K : Nat} (hK : IsParam K) : ∃ r pk' sk', Returns (crypto_kem_keypair_derand K 0 (blank (pkLen K)) (blank (skLen K)) (Buf.ofList (ones ++ ones))) (r, pk', sk') := by
  obtain ⟨ek, s, c, key, _, _, _, _, _, h1, _⟩ := demo hK
  exact ⟨_, _, _, h1⟩

/-- C08: key generation and encapsulation return and the noise is in the window. -/
example {K : Nat} (hK : IsParam K) : ∃ ek dk c key,
    Returns (crypto_kem_keypair_derand K 0 (blank (pkLen K)) (blank (skLen K)) (Buf.ofList (ones ++ ones))) (0, Buf.ofList ek, Buf.ofList dk) ∧
    Returns (crypto_kem_enc_derand K 0 (blank (ctLen K)) (blank 32) (Buf.ofList ek) (Buf.ofList ffs)) (0, Buf.ofList c, Buf.ofList key) ∧
    ∀ n, n < 256 → ∃ δ : Int, -832 ≤ δ ∧ δ ≤ 831 ∧ Honest.noise K (xofBytes 0) ones ffs ((SHA3_512 (ffs ++ SHA3_256 ek)).drop 32) n = δ := by
  obtain ⟨ek, s, c, key, _, _, _, _, _, h1, h2, h3, _⟩ := demo hK
  exact ⟨ek, _, c, key, h1, h2, h3⟩

/-- C73: key generation and encapsulation return and the bytes of the run are none of those that make decryption go wrong. -/
example {K : Nat} (hK : IsParam K) : ∃ ek dk c key,
    Returns (crypto_kem_keypair_derand K 0 (blank (pkLen K)) (blank (skLen K)) (Buf.ofList (ones ++ ones))) (0, Buf.ofList ek, Buf.ofList dk) ∧
    Returns (crypto_kem_enc_derand K 0 (blank (ctLen K)) (blank 32) (Buf.ofList ek) (Buf.ofList ffs)) (0, Buf.ofList c, Buf.ofList key) ∧
    ¬ (NoiseBytes.ofSeeds K ones ((SHA3_512 (ffs ++ SHA3_256 ek)).drop 32)).polys.Wrong K (Honest.A K (xofBytes 0) ones) ffs := by
  obtain ⟨ek, s, c, key, _, _, _, _, _, h1, h2, h3, _⟩ := demo hK
  refine ⟨ek, _, c, key, h1, h2, (wrong_ofSeeds _ _ _ _ _).2 fun n hn => ?_⟩
  obtain ⟨δ, g1, g2, g3⟩ := h3 n hn
  exact ⟨δ, g1, by split <;> omega, g3⟩

/-- C74: two decapsulations that return the same secret, here two of the same ciphertext, and two such encapsulations. -/
example {K : Nat} (hK : IsParam K) : ∃ ek s c key, s.length = 384 * K ∧ ek.length = pkLen K ∧ (SHA3_256 ek).length = 32 ∧ ones.length = 32 ∧ c.length = ctLen K ∧
    Returns (crypto_kem_enc_derand K 0 (blank (ctLen K)) (blank 32) (Buf.ofList ek) (Buf.ofList ffs)) (0, Buf.ofList c, Buf.ofList key) ∧
    Returns (crypto_kem_dec K 0 (blank 32) (Buf.ofList c) (Buf.ofList (s ++ ek ++ SHA3_256 ek ++ ones))) (0, Buf.ofList key) := by
  obtain ⟨ek, s, c, key, h1, h2, h3, _, _, _, h5, _, h6, _⟩ := demo hK
  exact ⟨ek, s, c, key, h2, h1, H_length ek, ones_length, h3, h5, h6⟩

/-- C09, accepted case: re-encryption gives the ciphertext back. -/
example {K : Nat} (hK : IsParam K) : ∃ s ek c, s.length = 384 * K ∧ ek.length = pkLen K ∧ c.length = ctLen K ∧
    kpkeEncrypt K (xofBytes 0) ek (kpkeDecrypt K s c) ((SHA3_512 (kpkeDecrypt K s c ++ SHA3_256 ek)).drop 32) = some c := by
  obtain ⟨ek, s, c, key, h1, h2, h3, _, _, _, _, _, _, _, h⟩ := demo hK
  exact ⟨s, ek, c, h2, h1, h3, h⟩

/-- Whatever the keys, some ciphertext is not the re-encryption of its decryption: there are more ciphertexts than messages. -/
theorem exists_rejected {K : Nat} (hK : IsParam K) (n : Nat) (s ek h : List UInt8) : ∃ c : List UInt8, c.length = ctLen K ∧
    kpkeEncrypt K n ek (kpkeDecrypt K s c) ((SHA3_512 (kpkeDecrypt K s c ++ h)).drop 32) ≠ some c := by
  by_contra hno
  push Not at hno
  have hct : 33 ≤ ctLen K := by rcases hK with rfl | rfl | rfl <;> decide
  let f : Fin (2 ^ 264) → Fin (2 ^ 256) := fun x => ⟨leN (kpkeDecrypt K s (bytesOf (ctLen K) x)), by
    have := leN_lt (kpkeDecrypt K s (bytesOf (ctLen K) x))
    rwa [show (kpkeDecrypt K s (bytesOf (ctLen K) x)).length = 32 from ByteEncode_length _ _] at this⟩
  have hf : Function.Injective f := by
    intro x y hxy
    have e : kpkeDecrypt K s (bytesOf (ctLen K) x) = kpkeDecrypt K s (bytesOf (ctLen K) y) :=
      leN_inj ((ByteEncode_length _ _).trans (ByteEncode_length _ _).symm) (congrArg Fin.val hxy)
    have hx := hno (bytesOf (ctLen K) x) (length_bytesOf _ _)
    have hy := hno (bytesOf (ctLen K) y) (length_bytesOf _ _)
    rw [e, hy] at hx
    have e2 := congrArg leN (Option.some.inj hx)
    rw [leN_bytesOf, leN_bytesOf] at e2
    have hle : 2 ^ 264 ≤ 2 ^ (8 * ctLen K) := Nat.pow_le_pow_right (by omega) (by omega)
    rw [Nat.mod_eq_of_lt (lt_of_lt_of_le x.2 hle), Nat.mod_eq_of_lt (lt_of_lt_of_le y.2 hle)] at e2
    exact (Fin.ext e2).symm
  have := Fintype.card_le_of_injective f hf
  rw [Fintype.card_fin, Fintype.card_fin] at this
  exact absurd this (Nat.not_le.2 (Nat.pow_lt_pow_right (by omega) (by omega)))

/-- C09, rejected case: for the generated key pair there is a ciphertext whose re-encryption differs. -/
example {K : Nat} (hK : IsParam K) : ∃ s ek c c', s.length = 384 * K ∧ ek.length = pkLen K ∧ c.length = ctLen K ∧
    kpkeEncrypt K (xofBytes 0) ek (kpkeDecrypt K s c) ((SHA3_512 (kpkeDecrypt K s c ++ SHA3_256 ek)).drop 32) = some c' ∧ c' ≠ c := by
  obtain ⟨ek, s, c, key, h1, h2, h3, _, _, _, _, _, _, _, h⟩ := demo hK
  obtain ⟨c2, l2, hne⟩ := exists_rejected hK (xofBytes 0) s ek (SHA3_256 ek)
  have hen := (encrypt_some_iff K (xofBytes 0) ek _ _).1 (by rw [h]; rfl)
  obtain ⟨c', hc'⟩ := Option.isSome_iff_exists.1 ((encrypt_some_iff K (xofBytes 0) ek (kpkeDecrypt K s c2) ((SHA3_512 (kpkeDecrypt K s c2 ++ SHA3_256 ek)).drop 32)).2 hen)
  exact ⟨s, ek, c2, c', h2, h1, l2, hc', fun e => hne (by rw [hc', e])⟩

/-- C34: a decapsulation that does not deliver the rejection key. -/
example {K : Nat} (hK : IsParam K) : ∃ pk' sk' c key, c.length = ctLen K ∧
    Returns (crypto_kem_keypair_derand K 0 (blank (pkLen K)) (blank (skLen K)) (Buf.ofList (ones ++ ones))) (0, pk', sk') ∧
    Returns (crypto_kem_dec K 0 (blank 32) (Buf.ofList c) sk') (0, Buf.ofList key) ∧ key ≠ SHAKE256 (ones ++ c) 32 := by
  obtain ⟨ek, s, c, key, _, _, h3, _, _, h1, _, _, h4, h5, _⟩ := demo hK
  exact ⟨_, _, c, key, h3, h1, h4, h5⟩

/-- C34: an honest run and a ciphertext of the right length that differs from its ciphertext. -/
example {K : Nat} (hK : IsParam K) : ∃ ek dk c key c2, c2.length = ctLen K ∧ c2 ≠ c ∧
    Returns (crypto_kem_keypair_derand K 0 (blank (pkLen K)) (blank (skLen K)) (Buf.ofList (ones ++ ones))) (0, Buf.ofList ek, Buf.ofList dk) ∧
    Returns (crypto_kem_enc_derand K 0 (blank (ctLen K)) (blank 32) (Buf.ofList ek) (Buf.ofList ffs)) (0, Buf.ofList c, Buf.ofList key) := by
  obtain ⟨ek, s, c, key, _, _, h3, _, _, h1, h2, _⟩ := demo hK
  refine ⟨ek, _, c, key, c.map (· + 1), by rw [List.length_map, h3], fun e => ?_, h1, h2⟩
  have hpos : 0 < c.length := by rw [h3]; rcases hK with rfl | rfl | rfl <;> decide
  have h0 := congrArg (fun l => l[0]?) e
  simp only [List.getElem?_map, List.getElem?_eq_getElem hpos, Option.map_some, Option.some.injEq] at h0
  revert h0
  generalize c[0] = x
  revert x
  decide +kernel

/-! ## C10, C11, C12, C33: objects of the announced sizes -/

example {K : Nat} : Init (Buf.ofList (List.replicate (pkLen K) 7)) (pkLen K) ∧ pkLen K ≤ (blank (pkLen K + 5)).size := ⟨⟨_, by simp, rfl⟩, by rw [blank_size]; omega⟩

/-! ## C13, C14, C15: the runs compared really return -/

/-- C13: different coins, same trace, return code 0. -/
example {K : Nat} (hK : IsParam K) : ∃ ek a b t, ReturnsTr (crypto_kem_enc_derand K 0 (blank (ctLen K)) (blank 32) (Buf.ofList ek) (Buf.ofList ones)) (0, a) t ∧
    ReturnsTr (crypto_kem_enc_derand K 0 (blank (ctLen K)) (blank 32) (Buf.ofList ek) (Buf.ofList ffs)) (0, b) t := by
  obtain ⟨ek, s, c, key, h1, _, _, _, _, _, ⟨t0, h2⟩, _⟩ := demo hK
  refine ⟨ek, ?_⟩
  rcases C13_enc_derand hK 0 ek ones ffs h1 ones_length ffs_length (blank (ctLen K)) (blank (ctLen K)) (blank 32) (blank 32) (le_of_eq (blank_size _).symm) (le_of_eq (blank_size _).symm)
    (le_of_eq (blank_size _).symm) (le_of_eq (blank_size _).symm) with ⟨_, h⟩ | ⟨r, a, b, t, h, h'⟩
  · rw [OutOfBudget, h2] at h; exact absurd h (by simp)
  · have : r = 0 := by
      rw [ReturnsTr, h2] at h'
      exact (congrArg (fun x => x.1.1) (Except.ok.inj h')).symm
    subst this
    exact ⟨a, b, t, h, h'⟩

/-- C14: the honest ciphertext and a rejected one give the same trace, return code 0. -/
example {K : Nat} (hK : IsParam K) : ∃ ek s c c2 a b t, c2 ≠ c ∧ ReturnsTr (crypto_kem_dec K 0 (blank 32) (Buf.ofList c) (Buf.ofList (s ++ ek ++ SHA3_256 ek ++ ones))) (0, a) t ∧
    ReturnsTr (crypto_kem_dec K 0 (blank 32) (Buf.ofList c2) (Buf.ofList (s ++ ek ++ SHA3_256 ek ++ ffs))) (0, b) t := by
  obtain ⟨ek, s, c, key, h1, h2, h3, _, _, _, _, _, ⟨t0, h4⟩, _, h⟩ := demo hK
  obtain ⟨c2, l2, hne⟩ := exists_rejected hK (xofBytes 0) s ek (SHA3_256 ek)
  refine ⟨ek, s, c, c2, ?_⟩
  rcases C14_dec hK 0 s s ek (SHA3_256 ek) ones ffs c c2 h2 h2 h1 (H_length ek) ones_length ffs_length h3 l2 (blank 32) (blank 32) (le_of_eq (blank_size _).symm) (le_of_eq (blank_size _).symm)
    with ⟨h', _⟩ | ⟨r, a, b, t, h', h''⟩
  · rw [OutOfBudget, h4] at h'; exact absurd h' (by simp)
  · have : r = 0 := by
      rw [ReturnsTr, h4] at h'
      exact (congrArg (fun x => x.1.1) (Except.ok.inj h')).symm
    subst this
    exact ⟨a, b, t, fun e => hne (by rw [e]; exact h), h', h''⟩

/-- C15: different rejection secrets `z`, same trace, return code 0. -/
example {K : Nat} (hK : IsParam K) : ∃ a b t, ReturnsTr (crypto_kem_keypair_derand K 0 (blank (pkLen K)) (blank (skLen K)) (Buf.ofList (ones ++ ones))) (0, a) t ∧
    ReturnsTr (crypto_kem_keypair_derand K 0 (blank (pkLen K)) (blank (skLen K)) (Buf.ofList (ones ++ ffs))) (0, b) t := by
  obtain ⟨ek, s, c, key, _, _, _, _, _, ⟨t0, h1⟩, _⟩ := demo hK
  rcases C15_keypair_derand hK 0 ones ones ones ffs ones_length ones_length ones_length ffs_length rfl (blank (pkLen K)) (blank (pkLen K)) (blank (skLen K)) (blank (skLen K)) (le_of_eq (blank_size _).symm)
    (le_of_eq (blank_size _).symm) (le_of_eq (blank_size _).symm) (le_of_eq (blank_size _).symm) with ⟨h, _⟩ | ⟨r, a, b, t, h, h'⟩
  · rw [OutOfBudget, h1] at h; exact absurd h (by simp)
  · have : r = 0 := by
      rw [ReturnsTr, h1] at h
      exact (congrArg (fun x => x.1.1) (Except.ok.inj h)).symm
    subst this
    exact ⟨a, b, t, h, h'⟩

/-! ## C35: both sides of the budget -/

/-- 32 bytes `00`. -/
def zeros : List UInt8 := List.replicate 32 0

theorem zeros_enough (c : Nat) : Enough 4 (168 * c) ((SHA3_512 (zeros ++ [UInt8.ofNat 4])).take 32) ↔ nenough 4 c (nrho (packN 8 (List.replicate 32 0)) 4) = true := by
  rw [enough_iff (by omega) (by rw [List.length_take, SHA3_512_length]; rfl), leN_rho (by omega) rfl, show leN zeros = packN 8 (List.replicate 32 0) from leN_replicate 32 0]

/-- For the seed `00…00` of ML-KEM-1024 three blocks are not enough (an entry finds only 244 coefficients), so the refill loop is entered … -/
example : OutOfBudget (crypto_kem_keypair_derand 4 0 (blank (pkLen 4)) (blank (skLen 4)) (Buf.ofList (zeros ++ zeros))) :=
  (C35_keygen (Or.inr (Or.inr rfl)) 0 zeros zeros rfl rfl _ _ (blank_size _) (blank_size _)).2.1 fun h => absurd ((zeros_enough 3).1 h) (by decide +kernel)

/-- … and one more block is. -/
example : ∃ pk' sk', Returns (crypto_kem_keypair_derand 4 1 (blank (pkLen 4)) (blank (skLen 4)) (Buf.ofList (zeros ++ zeros))) (0, pk', sk') :=
  (C35_keygen (Or.inr (Or.inr rfl)) 1 zeros zeros rfl rfl _ _ (blank_size _) (blank_size _)).1.1 ((zeros_enough 4).2 (by decide +kernel))

end Verif.Props

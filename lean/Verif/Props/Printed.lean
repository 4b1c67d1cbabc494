import Verif.Proof.PrintedKem
import Verif.Props.Kem
import Verif.Props.Arith
/-! # C79: the specification's formulas are the algorithms printed in FIPS 203

`Spec/Printed.lean` repeats Algorithms 3 to 18 of FIPS 203 with their loops and assignments.  The theorems say that these compute what the formulas of `Spec/Fips203.lean` say, for all inputs, and
so that the code computes what the printed algorithms compute. -/
namespace Verif.Props
open Verif Verif.Model Verif.Spec

/-- **C79.** Algorithms 3 to 6: the bits of `ℓ` bytes are read least significant first, `BitsToBytes` puts them back, and `ByteEncode_d` and `ByteDecode_d` are the formulas, for `1 ≤ d ≤ 12`. -/
theorem C79_conversions :
    (∀ (B : List UInt8) (n : Nat), n < 8 * B.length → Printed.BytesToBits B.length (Printed.bytes B) n = if bitAt B n then 1 else 0) ∧
    (∀ B : List UInt8, Printed.string B.length (Printed.BitsToBytes B.length (Printed.BytesToBits B.length (Printed.bytes B))) = B) ∧
    (∀ (d : Nat) (F : Nat → Nat), 1 ≤ d → Printed.string (32 * d) (Printed.ByteEncode d F) = ByteEncode d F) ∧
    (∀ (d : Nat) (B : List UInt8) (i : Nat), d ≤ 12 → i < 256 → Printed.ByteDecode d (Printed.bytes B) i = ByteDecode d B i) := by
  refine ⟨fun B n hn => Printed.bitAt_bytes B _ hn, fun B => ?_, fun d F hd => Printed.string_ByteEncode hd F, fun d B i hd hi => Printed.ByteDecode_eq hd B hi⟩
  apply List.ext_getElem
  · simp [Printed.string]
  · intro i h1 h2
    simp only [Printed.string, List.getElem_map, List.getElem_range]
    rw [Printed.BitsToBytes_eq B.length (fun n => bitAt B n) (fun n hn => Printed.bitAt_bytes B _ hn) h2, UInt8.ofNat_toNat]
    refine (eq_byteOf fun t ht => ?_).symm
    unfold bitAt
    rw [show (8 * i + t) / 8 = i by omega, show (8 * i + t) % 8 = t by omega, List.getD_eq_getElem _ _ h2]

/-- **C79.** Algorithms 7 and 8: `n` turns of the loop of `SampleNTT` are the formula on `3n` bytes of XOF output, and `SamplePolyCBD_η` is the formula. -/
theorem C79_sampling :
    (∀ (n : Nat) (B : List UInt8), Printed.SampleNTT n B = SampleNTT (3 * n) B) ∧
    (∀ (η : Nat) (B : List UInt8) (i : Nat), i < 256 → Printed.SamplePolyCBD η (Printed.bytes B) i = SamplePolyCBD η B i) :=
  ⟨Printed.SampleNTT_eq, fun η B _ hi => Printed.SamplePolyCBD_eq η B hi⟩

/-- **C79.** Algorithms 9 to 12: the in-place loops of the transform and its inverse compute the residues modulo the quadratic factors and interpolate them; the products are the formula. -/
theorem C79_transforms (f g : Spec.Poly) (n : Nat) (hn : n < 256) :
    Printed.NTT f n = NTT f n ∧ Printed.NTTInv f n = NTTInv f n ∧ Printed.MultiplyNTTs f g n = MultiplyNTTs f g n :=
  ⟨Printed.NTT_eq f hn, Printed.NTTInv_eq f hn, Printed.MultiplyNTTs_eq f g hn⟩

/-- **C79.** Algorithms 13 to 18 and the input checks of Sections 7.2 and 7.3. -/
theorem C79_algorithms (k n : Nat) :
    (∀ d, Printed.kpkeKeyGen k n d = kpkeKeyGen k (3 * n) d) ∧ (∀ ek m r, Printed.kpkeEncrypt k n ek m r = kpkeEncrypt k (3 * n) ek m r) ∧
    (∀ dk c, Printed.kpkeDecrypt k dk c = kpkeDecrypt k dk c) ∧ (∀ d z, Printed.KeyGen_internal k n d z = KeyGen_internal k (3 * n) d z) ∧
    (∀ ek m, Printed.Encaps_internal k n ek m = Encaps_internal k (3 * n) ek m) ∧ (∀ dk c, Printed.Decaps_internal k n dk c = Decaps_internal k (3 * n) dk c) ∧
    (∀ ek, Printed.modulusCheck k ek ↔ modulusCheck k ek) ∧ (∀ dk, Printed.hashCheck k dk ↔ hashCheck k dk) :=
  ⟨Printed.kpkeKeyGen_eq k n, Printed.kpkeEncrypt_eq k n, Printed.kpkeDecrypt_eq k, Printed.KeyGen_internal_eq k n, Printed.Encaps_internal_eq k n, Printed.Decaps_internal_eq k n,
    Printed.modulusCheck_iff k, Printed.hashCheck_iff k⟩

/-- The number of turns of the loop of `SampleNTT` that a budget of the code's loops corresponds to: 56 turns for each block of 168 bytes. -/
def xofTurns (fuel : Nat) : Nat := 56 * (3 + fuel)

theorem xofTurns_eq (fuel : Nat) : 3 * xofTurns fuel = xofBytes fuel := by unfold xofTurns xofBytes; omega

/-- **C79.** Key generation leaves in its output objects what Algorithm 16 of FIPS 203, as printed, returns. -/
theorem C79_keygen {K : Nat} (hK : IsParam K) (fuel : Nat) (d z : List UInt8) (hd : d.length = 32) (hz : z.length = 32)
    (pk sk : Buf UInt8) (hpk : pk.size = pkLen K) (hsk : sk.size = skLen K) :
    match Printed.KeyGen_internal K (xofTurns fuel) d z with
    | some (ek, dk) => Returns (crypto_kem_keypair_derand K fuel pk sk (Buf.ofList (d ++ z))) (0, Buf.ofList ek, Buf.ofList dk)
    | none => OutOfBudget (crypto_kem_keypair_derand K fuel pk sk (Buf.ofList (d ++ z))) := by
  rw [Printed.KeyGen_internal_eq, xofTurns_eq]
  exact C01_keygen hK fuel d z hd hz pk sk hpk hsk

/-- **C79.** On every public key that passes the modulus check of Section 7.2, as printed, encapsulation leaves in its output objects what Algorithm 17, as printed, returns. -/
theorem C79_encaps {K : Nat} (hK : IsParam K) (fuel : Nat) (ek m : List UInt8) (hek : ek.length = pkLen K) (hm : m.length = 32)
    (hcheck : Printed.modulusCheck K ek) (ct ss : Buf UInt8) (hct : ct.size = ctLen K) (hss : ss.size = 32) :
    match Printed.Encaps_internal K (xofTurns fuel) ek m with
    | some (k, c) => Returns (crypto_kem_enc_derand K fuel ct ss (Buf.ofList ek) (Buf.ofList m)) (0, Buf.ofList c, Buf.ofList k)
    | none => OutOfBudget (crypto_kem_enc_derand K fuel ct ss (Buf.ofList ek) (Buf.ofList m)) := by
  rw [Printed.Encaps_internal_eq, xofTurns_eq]
  exact C02_encaps hK fuel ek m hek hm ((Printed.modulusCheck_iff K ek).1 hcheck) ct ss hct hss

/-- **C79.** On every secret key that passes the hash check of Section 7.3, as printed, and every ciphertext, decapsulation leaves in its output object what Algorithm 18, as printed, returns. -/
theorem C79_decaps {K : Nat} (hK : IsParam K) (fuel : Nat) (dk c : List UInt8) (hdk : dk.length = skLen K) (hc : c.length = ctLen K)
    (hcheck : Printed.hashCheck K dk) (ss : Buf UInt8) (hss : ss.size = 32) :
    match Printed.Decaps_internal K (xofTurns fuel) dk c with
    | some k => Returns (crypto_kem_dec K fuel ss (Buf.ofList c) (Buf.ofList dk)) (0, Buf.ofList k)
    | none => OutOfBudget (crypto_kem_dec K fuel ss (Buf.ofList c) (Buf.ofList dk)) := by
  rw [Printed.Decaps_internal_eq, xofTurns_eq]
  exact C03_decaps hK fuel dk c hdk hc ((Printed.hashCheck_iff K dk).1 hcheck) ss hss

/-- **C79.** `poly_ntt` computes, modulo `q`, what Algorithm 9, as printed, computes. -/
theorem C79_poly_ntt (f : Nat → Int) (hf : ∀ n, n < 256 → -3329 < f n ∧ f n < 3329) :
    ∃ g, Returns (poly_ntt (poly f)) (poly g) ∧ ∀ n, n < 256 → modq g n = Printed.NTT (modq f) n := by
  obtain ⟨g, h, e, _⟩ := C20_ntt f hf
  exact ⟨g, h, fun n hn => by rw [e n hn, Printed.NTT_eq _ hn]⟩

/-- **C79.** `poly_invntt_tomont` computes, modulo `q`, `2^16` times what Algorithm 10, as printed, computes. -/
theorem C79_poly_invntt (f : Nat → Int) (hf : ∀ n, n < 256 → IsI16 (f n)) :
    ∃ g, Returns (poly_invntt_tomont (poly f)) (poly g) ∧ ∀ n, n < 256 → modq g n = 2 ^ 16 * Printed.NTTInv (modq f) n := by
  obtain ⟨g, h, e, _⟩ := C21_invntt f hf
  exact ⟨g, h, fun n hn => by rw [e n hn, Printed.NTTInv_eq _ hn]⟩

/-- Concrete cases.  For the algorithms and the code: the ACVP vectors in `Props/Vectors2.lean`, `Vectors3.lean`, `Vectors4.lean`.  For the transforms: the polynomial `Σ n Xⁿ`. -/
example : ∃ g, Returns (poly_ntt (poly fun n => n)) (poly g) ∧ ∀ n, n < 256 → modq g n = Printed.NTT (fun n => (n : Zq)) n := by
  obtain ⟨g, h, e⟩ := C79_poly_ntt (fun n => n) (fun n hn => by constructor <;> omega)
  refine ⟨g, h, fun n hn => ?_⟩
  rw [e n hn]
  congr 1

end Verif.Props

import Verif.Proof.FailureRun
import Verif.Props.RoundTrip
/-! # C73: how often decryption of an honest ciphertext goes wrong

The noise of a run is made from bytes.  The theorems count for how many of these bytes decryption goes wrong, for any matrix and any message. -/
namespace Verif.Props
open Verif Verif.Model Verif.Spec

attribute [local irreducible] keccakF partialK finK blocksK sqByte SHAKE256 SHA3_256 SHA3_512 SHAKE128

/-- The exponent in the bound: 80 for ML-KEM-512, 90 for ML-KEM-768, 111 for ML-KEM-1024. -/
def failureBits (K : Nat) : Nat := if K = 2 then 80 else if K = 3 then 90 else 111

/-- **C73 (failures are rare).**  Fix any matrix `A` and any message `m`.  Among all byte strings from which the noise can be made, at most one in `2 ^ failureBits K` makes decryption of
the honest ciphertext differ from the message. -/
theorem C73_failures_rare {K : Nat} (hK : IsParam K) (A : Nat → Nat → Spec.Poly) (m : List UInt8) :
    2 ^ failureBits K * Nat.card {b : NoiseBytes K // b.polys.Wrong K A m} ≤ Nat.card (NoiseBytes K) := by
  rcases hK with rfl | rfl | rfl
  · exact Failure.count2 A m
  · exact Failure.count3 A m
  · exact Failure.count4 A m

/-- **C73 (failures exist).**  For any matrix and any message some bytes make decryption go wrong, so the round trip cannot hold without a condition on the noise. -/
theorem C73_failures_exist {K : Nat} (hK : IsParam K) (A : Nat → Nat → Spec.Poly) (m : List UInt8) : 0 < Nat.card {b : NoiseBytes K // b.polys.Wrong K A m} := by
  have hfin : Finite (NoiseBytes K) := Finite.of_equiv _ (Failure.toBits K).symm
  have : Nonempty {b : NoiseBytes K // b.polys.Wrong K A m} := by
    rw [nonempty_subtype]
    rcases hK with rfl | rfl | rfl
    · exact Failure.exists_wrong A m (by norm_num) (Or.inr rfl) Failure.checkV4 (le_refl _)
    · exact Failure.exists_wrong A m (by norm_num) (Or.inl rfl) Failure.checkV4 (le_refl _)
    · exact Failure.exists_wrong A m (by norm_num) (Or.inl rfl) Failure.checkV5 (by norm_num)
  exact Nat.card_pos

section
attribute [local irreducible] NTT NTTInv MultiplyNTTs Compress Decompress ByteDecode SamplePolyCBD PRF G

theorem polys_ofSeeds (k : Nat) (d r : List UInt8) :
    (∀ i, i < k → (NoiseBytes.ofSeeds k d r).polys.s i = Honest.s k d i) ∧ (∀ i, i < k → (NoiseBytes.ofSeeds k d r).polys.e i = Honest.e k d i) ∧
    (∀ i, i < k → (NoiseBytes.ofSeeds k d r).polys.y i = Honest.y k r i) ∧ (∀ i, i < k → (NoiseBytes.ofSeeds k d r).polys.e1 i = Honest.e1 k r i) ∧
    (NoiseBytes.ofSeeds k d r).polys.e2 = Honest.e2 k r := by
  have h : ∀ η s b, List.ofFn (fun j : Fin (64 * η) => (PRF η s b).getD j 0) = PRF η s b := by
    intro η s b
    have hl : (PRF η s b).length = 64 * η := by unfold PRF; exact SHAKE256_length _ _
    refine List.ext_getElem (by simp [hl]) fun i h1 h2 => ?_
    rw [List.getElem_ofFn, List.getD_eq_getElem _ _ h2]
  refine ⟨fun i hi => ?_, fun i hi => ?_, fun i hi => ?_, fun i hi => ?_, ?_⟩ <;> unfold NoiseBytes.polys NoiseBytes.ofSeeds <;> dsimp only
  · rw [dif_pos hi, h]; rfl
  · rw [dif_pos hi, h]; rfl
  · rw [dif_pos hi, h]; rfl
  · rw [dif_pos hi, h]; rfl
  · rw [h]; rfl

/-- With the bytes of FIPS 203, decryption goes wrong exactly if a noise coefficient leaves its window. -/
theorem wrong_ofSeeds (k n : Nat) (d m r : List UInt8) :
    ¬ (NoiseBytes.ofSeeds k d r).polys.Wrong k (Honest.A k n d) m ↔
      ∀ c, c < 256 → ∃ δ : Int, -832 ≤ δ ∧ δ ≤ (if bitAt m c then 831 else 832) ∧ Honest.noise k n d m r c = δ := by
  obtain ⟨hs, he, hy, h1, h2⟩ := polys_ofSeeds k d r
  generalize (NoiseBytes.ofSeeds k d r).polys = N at *
  have ht : ∀ i, i < k → N.t k (Honest.A k n d) i = Honest.t k n d i := by
    intro i hi
    funext c
    unfold Noise.t Honest.t
    rw [he i hi]
    exact congrArg (· + _) (Finset.sum_congr rfl fun j hj => by rw [hs j (Finset.mem_range.1 hj)])
  have hu : ∀ i, i < k → N.u k (Honest.A k n d) i = Honest.u k n d r i := by
    intro i hi
    funext c
    unfold Noise.u Honest.u
    rw [h1 i hi]
    refine congrArg (· + _) (NTTInv_congr (fun p _ => Finset.sum_congr rfl fun j hj => ?_) c)
    rw [hy j (Finset.mem_range.1 hj)]
  have hv : ∀ c, N.v k (Honest.A k n d) m c = Honest.v k n d m r c := by
    intro c
    unfold Noise.v Honest.v
    rw [h2]
    refine congrArg (· + _ + _) (NTTInv_congr (fun p _ => Finset.sum_congr rfl fun j hj => ?_) c)
    rw [hy j (Finset.mem_range.1 hj), ht j (Finset.mem_range.1 hj)]
  unfold Noise.Wrong
  push Not
  refine forall_congr' fun c => forall_congr' fun hc => ?_
  rw [Failure.decrypted_eq _ _ _ hc, ← ByteDecode_one, compress_noisy_bit _ (by rw [ByteDecode_one]; split <;> omega)]
  have hn : (N.v' k (Honest.A k n d) m c - (N.v k (Honest.A k n d) m c - N.e2 c))
      + ((∑ i ∈ Finset.range k, mulRq (N.e i) (N.y i) c) - ∑ j ∈ Finset.range k, mulRq (N.s j) (fun p => N.u' k (Honest.A k n d) j p - (N.u k (Honest.A k n d) j p - N.e1 j p)) c)
      = Honest.noise k n d m r c := by
    unfold Honest.noise Honest.cv
    have e1 : ∑ i ∈ Finset.range k, mulRq (N.e i) (N.y i) c = ∑ i ∈ Finset.range k, mulRq (Honest.e k d i) (Honest.y k r i) c :=
      Finset.sum_congr rfl fun i hi => by rw [he i (Finset.mem_range.1 hi), hy i (Finset.mem_range.1 hi)]
    have e2 : ∑ j ∈ Finset.range k, mulRq (N.s j) (fun p => N.u' k (Honest.A k n d) j p - (N.u k (Honest.A k n d) j p - N.e1 j p)) c
        = ∑ i ∈ Finset.range k, mulRq (Honest.s k d i) (fun c => Honest.e1 k r i c + Honest.cu k n d r i c) c := by
      refine Finset.sum_congr rfl fun i hi => ?_
      have hi' := Finset.mem_range.1 hi
      rw [hs i hi']
      congr 1
      funext p
      unfold Noise.u' Honest.cu
      rw [hu i hi', h1 i hi']
      ring
    unfold Noise.v'
    rw [e1, e2, hv, h2]
    ring
  rw [hn]
  refine exists_congr fun δ => and_congr_right fun _ => and_congr_left fun _ => ?_
  rw [ByteDecode_one]
  split <;> simp

end

/-- **C73 (the code's own noise).**  Run key generation and encryption with randomness `r`.  Decryption returns the message if and only if the bytes that PRF yields for this run are not among
those counted in `C73_failures_rare`. -/
theorem C73_decrypt_iff {K : Nat} (hK : IsParam K) (fuel : Nat) (d m r : List UInt8) (hd : d.length = 32) (hm : m.length = 32) (hr : r.length = 32) (ek dk c : List UInt8)
    (pk sk ct out : Buf UInt8) (hpk : pk.size = pkLen K) (hsk : sk.size = 384 * K) (hct : ct.size = ctLen K) (ho : out.size = 32)
    (hkeygen : Returns (indcpa_keypair_derand K fuel pk sk (Buf.ofList d)) (Buf.ofList ek, Buf.ofList dk))
    (henc : Returns (indcpa_enc K fuel ct (Buf.ofList m) 0 (Buf.ofList ek) 0 (Buf.ofList r) 0) (Buf.ofList c)) :
    Returns (indcpa_dec K out (Buf.ofList c) (Buf.ofList dk)) (Buf.ofList m) ↔ ¬ (NoiseBytes.ofSeeds K d r).polys.Wrong K (Honest.A K (xofBytes fuel) d) m := by
  rw [wrong_ofSeeds]
  exact C08_decrypt_iff hK fuel d m r hd hm hr ek dk c pk sk ct out hpk hsk hct ho hkeygen henc

/-- **C73 (key encapsulation).**  Run key generation, encapsulation with message `m`, and decapsulation.  If the first two succeed and the bytes that PRF yields for this run are not among those
counted in `C73_failures_rare`, decapsulation returns 0 and the encapsulated key. -/
theorem C73_round_trip {K : Nat} (hK : IsParam K) (fuel : Nat) (d z m : List UInt8) (hd : d.length = 32) (hz : z.length = 32) (hm : m.length = 32)
    (pk sk ct ss ss2 : Buf UInt8) (hpk : pk.size = pkLen K) (hsk : sk.size = skLen K) (hct : ct.size = ctLen K) (hss : ss.size = 32) (hss2 : ss2.size = 32)
    (ek dk c key : List UInt8)
    (hkeygen : Returns (crypto_kem_keypair_derand K fuel pk sk (Buf.ofList (d ++ z))) (0, Buf.ofList ek, Buf.ofList dk))
    (henc : Returns (crypto_kem_enc_derand K fuel ct ss (Buf.ofList ek) (Buf.ofList m)) (0, Buf.ofList c, Buf.ofList key))
    (hgood : ¬ (NoiseBytes.ofSeeds K d ((SHA3_512 (m ++ SHA3_256 ek)).drop 32)).polys.Wrong K (Honest.A K (xofBytes fuel) d) m) :
    Returns (crypto_kem_dec K fuel ss2 (Buf.ofList c) (Buf.ofList dk)) (0, Buf.ofList key) :=
  C08_round_trip_exact hK fuel d z m hd hz hm pk sk ct ss ss2 hpk hsk hct hss hss2 ek dk c key hkeygen henc ((wrong_ofSeeds _ _ _ _ _).1 hgood)

end Verif.Props

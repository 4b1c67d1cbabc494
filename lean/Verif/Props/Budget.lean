import Verif.Props.Kem
import Verif.Props.Sampling
import Verif.Proof.Fuel
/-! # C35: the rejection-sampling loops are the only open-ended part of the API

`Verif.Props.Examples` shows for each parameter set a seed for which no refill is needed, and a seed of ML-KEM-1024 for which budget 0 is too small and budget 1 is enough. -/
namespace Verif.Props
open Verif Spec Model

attribute [local irreducible] SHAKE256 SHA3_256 SHA3_512 SHAKE128

/-- The first `n` bytes of SHAKE128 output hold 256 accepted candidates, for each of the `K²` matrix entries of the seed `ρ`. -/
def Enough (K n : Nat) (ρ : List UInt8) : Prop :=
  ∀ i j, i < K → j < K → 256 ≤ (accepted (SHAKE128 (ρ ++ [UInt8.ofNat j, UInt8.ofNat i]) n)).length

theorem sampleA_some_iff (K n : Nat) (ρ : List UInt8) : (sampleA K n ρ).isSome ↔ Enough K n ρ := by
  unfold sampleA Enough
  simp only [C25_SampleNTT]
  constructor
  · intro h i j hi hj
    split at h
    · rename_i h'
      have := h' i hi j hj
      split at this
      · assumption
      · simp at this
    · simp at h
  · intro h
    rw [if_pos]
    · rfl
    · intro i hi j hj
      rw [if_pos (h i j hi hj)]; rfl

/-- **C35 (more budget changes nothing).**  A call that did not run out of budget gives with any larger budget the same outcome, with the same accesses and branches. -/
theorem C35_more_budget_keypair_derand {fuel fuel' : Nat} (h : fuel ≤ fuel') (K : Nat) (pk sk coins : Buf UInt8)
    (hb : ¬ OutOfBudget (crypto_kem_keypair_derand K fuel pk sk coins)) :
    crypto_kem_keypair_derand K fuel' pk sk coins = crypto_kem_keypair_derand K fuel pk sk coins :=
  ((le_keypair_derand h K pk sk coins).resolve_left hb).symm

theorem C35_more_budget_keypair {σ : Type} {fuel fuel' : Nat} (h : fuel ≤ fuel') (K : Nat) (rb : RandomBytes σ) (st : σ) (pk sk : Buf UInt8)
    (hb : ¬ OutOfBudget (crypto_kem_keypair K fuel rb st pk sk)) :
    crypto_kem_keypair K fuel' rb st pk sk = crypto_kem_keypair K fuel rb st pk sk :=
  ((le_keypair h K rb st pk sk).resolve_left hb).symm

theorem C35_more_budget_enc_derand {fuel fuel' : Nat} (h : fuel ≤ fuel') (K : Nat) (ct ss pk coins : Buf UInt8)
    (hb : ¬ OutOfBudget (crypto_kem_enc_derand K fuel ct ss pk coins)) :
    crypto_kem_enc_derand K fuel' ct ss pk coins = crypto_kem_enc_derand K fuel ct ss pk coins :=
  ((le_enc_derand h K ct ss pk coins).resolve_left hb).symm

theorem C35_more_budget_enc {σ : Type} {fuel fuel' : Nat} (h : fuel ≤ fuel') (K : Nat) (rb : RandomBytes σ) (st : σ) (ct ss pk : Buf UInt8)
    (hb : ¬ OutOfBudget (crypto_kem_enc K fuel rb st ct ss pk)) :
    crypto_kem_enc K fuel' rb st ct ss pk = crypto_kem_enc K fuel rb st ct ss pk :=
  ((le_enc h K rb st ct ss pk).resolve_left hb).symm

theorem C35_more_budget_dec {fuel fuel' : Nat} (h : fuel ≤ fuel') (K : Nat) (ss ct sk : Buf UInt8)
    (hb : ¬ OutOfBudget (crypto_kem_dec K fuel ss ct sk)) :
    crypto_kem_dec K fuel' ss ct sk = crypto_kem_dec K fuel ss ct sk :=
  ((le_dec h K ss ct sk).resolve_left hb).symm

theorem isSome_cases {α : Type} (o : Option α) : (∃ a, o = some a) ∨ o = none := by cases o <;> simp

/-- **C35 (exactly enough budget, key generation).**  Key generation succeeds if and only if the budget covers the SHAKE128 output needed for the matrix of the public seed; otherwise
it is still in the loop when the budget ends. -/
theorem C35_keygen {K : Nat} (hK : IsParam K) (fuel : Nat) (d z : List UInt8) (hd : d.length = 32) (hz : z.length = 32)
    (pk sk : Buf UInt8) (hpk : pk.size = pkLen K) (hsk : sk.size = skLen K) :
    (Enough K (xofBytes fuel) ((SHA3_512 (d ++ [UInt8.ofNat K])).take 32) ↔
      ∃ pk' sk', Returns (crypto_kem_keypair_derand K fuel pk sk (Buf.ofList (d ++ z))) (0, pk', sk')) ∧
    (¬ Enough K (xofBytes fuel) ((SHA3_512 (d ++ [UInt8.ofNat K])).take 32) ↔ OutOfBudget (crypto_kem_keypair_derand K fuel pk sk (Buf.ofList (d ++ z)))) := by
  have h := C01_keygen hK fuel d z hd hz pk sk hpk hsk
  have hs : (KeyGen_internal K (xofBytes fuel) d z).isSome ↔ Enough K (xofBytes fuel) ((SHA3_512 (d ++ [UInt8.ofNat K])).take 32) := by
    rw [← sampleA_some_iff]
    unfold KeyGen_internal kpkeKeyGen
    dsimp only
    rw [Option.isSome_map, Option.isSome_map]; rfl
  rw [← hs]
  cases hr : KeyGen_internal K (xofBytes fuel) d z with
  | none =>
    rw [hr] at h
    exact ⟨⟨nofun, fun ⟨_, _, h'⟩ => (h'.notOut h).elim⟩, ⟨fun _ => h, fun _ => nofun⟩⟩
  | some p =>
    obtain ⟨ek, dk⟩ := p
    rw [hr] at h
    exact ⟨⟨fun _ => ⟨_, _, h⟩, fun _ => rfl⟩, ⟨fun hn => (hn rfl).elim, fun h' => (h.notOut h').elim⟩⟩

theorem encrypt_some_iff (K n : Nat) (ek m r : List UInt8) : (kpkeEncrypt K n ek m r).isSome ↔ Enough K n ((ek.drop (384 * K)).take 32) := by
  rw [← sampleA_some_iff]
  unfold kpkeEncrypt
  dsimp only
  rw [Option.isSome_map]

/-- **C35 (exactly enough budget, encapsulation)** with a public key that passes the modulus check. -/
theorem C35_encaps {K : Nat} (hK : IsParam K) (fuel : Nat) (ek m : List UInt8) (hek : ek.length = pkLen K) (hm : m.length = 32)
    (hcheck : ∀ n, n < 256 * K → coeff12 ek n < 3329) (ct ss : Buf UInt8) (hct : ct.size = ctLen K) (hss : ss.size = 32) :
    (Enough K (xofBytes fuel) ((ek.drop (384 * K)).take 32) ↔
      ∃ ct' ss', Returns (crypto_kem_enc_derand K fuel ct ss (Buf.ofList ek) (Buf.ofList m)) (0, ct', ss')) ∧
    (¬ Enough K (xofBytes fuel) ((ek.drop (384 * K)).take 32) ↔ OutOfBudget (crypto_kem_enc_derand K fuel ct ss (Buf.ofList ek) (Buf.ofList m))) := by
  have h := C02_encaps hK fuel ek m hek hm ((C04_reencode ek hek).1 hcheck) ct ss hct hss
  have hs : (Encaps_internal K (xofBytes fuel) ek m).isSome ↔ Enough K (xofBytes fuel) ((ek.drop (384 * K)).take 32) := by
    rw [← encrypt_some_iff]
    unfold Encaps_internal
    rw [Option.isSome_map]
  rw [← hs]
  cases hr : Encaps_internal K (xofBytes fuel) ek m with
  | none =>
    rw [hr] at h
    exact ⟨⟨nofun, fun ⟨_, _, h'⟩ => (h'.notOut h).elim⟩, ⟨fun _ => h, fun _ => nofun⟩⟩
  | some p =>
    obtain ⟨ek, dk⟩ := p
    rw [hr] at h
    exact ⟨⟨fun _ => ⟨_, _, h⟩, fun _ => rfl⟩, ⟨fun hn => (hn rfl).elim, fun h' => (h.notOut h').elim⟩⟩

/-- **C35 (exactly enough budget, decapsulation)** with a secret key `s ‖ ek ‖ H(ek) ‖ z`. -/
theorem C35_decaps {K : Nat} (hK : IsParam K) (fuel : Nat) (s ek z c : List UInt8) (hs : s.length = 384 * K) (hek : ek.length = pkLen K) (hz : z.length = 32)
    (hc : c.length = ctLen K) (ss : Buf UInt8) (hss : ss.size = 32) :
    (Enough K (xofBytes fuel) ((ek.drop (384 * K)).take 32) ↔
      ∃ ss', Returns (crypto_kem_dec K fuel ss (Buf.ofList c) (Buf.ofList (s ++ ek ++ SHA3_256 ek ++ z))) (0, ss')) ∧
    (¬ Enough K (xofBytes fuel) ((ek.drop (384 * K)).take 32) ↔ OutOfBudget (crypto_kem_dec K fuel ss (Buf.ofList c) (Buf.ofList (s ++ ek ++ SHA3_256 ek ++ z)))) := by
  have lh : (SHA3_256 ek).length = 32 := H_length ek
  have e1 : ((s ++ ek ++ SHA3_256 ek ++ z).drop (384 * K)).take (384 * K + 32) = ek := by
    rw [List.append_assoc, List.append_assoc, List.drop_left' hs, show 384 * K + 32 = pkLen K from rfl, List.take_left' hek]
  have hl : (s ++ ek ++ SHA3_256 ek ++ z).length = skLen K := by
    unfold skLen; unfold pkLen at hek; simp only [List.length_append]; omega
  have e2 : ((s ++ ek ++ SHA3_256 ek ++ z).drop (768 * K + 32)).take 32 = SHA3_256 ek := by
    rw [List.append_assoc (s ++ ek), List.drop_left' (by unfold pkLen at hek; simp only [List.length_append]; omega), List.take_left' lh]
  have hcheck : hashCheck K (s ++ ek ++ SHA3_256 ek ++ z) := by
    unfold hashCheck; rw [e1, e2]; rfl
  have h := C03_decaps hK fuel _ c hl hc hcheck ss hss
  have hs : (Decaps_internal K (xofBytes fuel) (s ++ ek ++ SHA3_256 ek ++ z) c).isSome ↔ Enough K (xofBytes fuel) ((ek.drop (384 * K)).take 32) := by
    unfold Decaps_internal
    dsimp only
    rw [Option.isSome_map, encrypt_some_iff, e1]
  rw [← hs]
  cases hr : Decaps_internal K (xofBytes fuel) (s ++ ek ++ SHA3_256 ek ++ z) c with
  | none =>
    rw [hr] at h
    exact ⟨⟨nofun, fun ⟨_, h'⟩ => (h'.notOut h).elim⟩, ⟨fun _ => h, fun _ => nofun⟩⟩
  | some p =>
    rw [hr] at h
    exact ⟨⟨fun _ => ⟨_, h⟩, fun _ => rfl⟩, ⟨fun hn => (hn rfl).elim, fun h' => (h.notOut h').elim⟩⟩

end Verif.Props

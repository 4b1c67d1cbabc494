import Verif.Spec.Noise
import Verif.Proof.NttLin
import Verif.Proof.KeyCheck
import Verif.Proof.Indcpa
/-! # Correctness of K-PKE: decryption of an honest ciphertext is the message plus the noise -/
open Finset
namespace Verif
open Spec Spec.Honest

theorem flatMap_block {k L : Nat} {f : Nat → List UInt8} (hf : ∀ i, (f i).length = L) (tail : List UInt8) {i : Nat} (hi : i < k) :
    (((List.range k).flatMap f ++ tail).drop (L * i)).take L = f i := by
  induction i generalizing k f with
  | zero =>
    obtain ⟨k, rfl⟩ : ∃ k', k = k' + 1 := ⟨k - 1, by omega⟩
    rw [List.range_succ_eq_map, List.flatMap_cons, Nat.mul_zero, List.drop_zero, List.append_assoc, List.take_left' (hf 0)]
  | succ i ih =>
    obtain ⟨k, rfl⟩ : ∃ k', k = k' + 1 := ⟨k - 1, by omega⟩
    rw [List.range_succ_eq_map, List.flatMap_cons, List.append_assoc, Nat.mul_succ, Nat.add_comm, ← List.drop_drop, List.drop_left' (hf 0), List.flatMap_map]
    exact ih (fun i => hf (i + 1)) (by omega)

theorem ctU_encrypt {k : Nat} (U : Nat → Spec.Poly) (tail : List UInt8) {i c : Nat} (hi : i < k) (hc : c < 256) :
    ctU k (((List.range k).flatMap fun i => ByteEncode (d_u k) fun c => Compress (d_u k) (U i c)) ++ tail) i c = Decompress (d_u k) (Compress (d_u k) (U i c)) := by
  unfold ctU
  rw [flatMap_block (fun i => ByteEncode_length _ _) tail hi, ByteDecode_ByteEncode _ (by rcases d_u_cases k with h | h <;> omega) _ (fun i _ => ?_) hc]
  · rw [Nat.mod_eq_of_lt]
    unfold decodeMod
    rw [if_neg (by rcases d_u_cases k with h | h <;> omega), Compress_eq]
    exact Nat.mod_lt _ (by positivity)
  · rw [Compress_eq]; exact Nat.mod_lt _ (by positivity)

theorem ctV_encrypt {k : Nat} (U : Nat → Spec.Poly) (V : Spec.Poly) {c : Nat} (hc : c < 256) :
    ctV k (((List.range k).flatMap fun i => ByteEncode (d_u k) fun c => Compress (d_u k) (U i c)) ++ ByteEncode (d_v k) fun c => Compress (d_v k) (V c)) c
      = Decompress (d_v k) (Compress (d_v k) (V c)) := by
  unfold ctV
  rw [List.drop_left' (by rw [flatMap_length (k := k) fun i => ByteEncode_length (d_u k) (fun c => Compress (d_u k) (U i c))]; ring),
    List.take_of_length_le (by rw [ByteEncode_length]),
    ByteDecode_ByteEncode _ (by rcases d_v_cases k with h | h <;> omega) _ (fun i _ => ?_) hc]
  · rw [Nat.mod_eq_of_lt]
    unfold decodeMod
    rw [if_neg (by rcases d_v_cases k with h | h <;> omega), Compress_eq]
    exact Nat.mod_lt _ (by positivity)
  · rw [Compress_eq]; exact Nat.mod_lt _ (by positivity)

theorem MultiplyNTTs_congr' {f f' g g' : Spec.Poly} (h : ∀ n, n < 256 → f n = f' n) (h' : ∀ n, n < 256 → g n = g' n) {n : Nat} (hn : n < 256) :
    MultiplyNTTs f g n = MultiplyNTTs f' g' n := by
  unfold MultiplyNTTs
  split
  · rw [h n hn, h' n hn, h (n + 1) (by omega), h' (n + 1) (by omega)]
  · rw [h n hn, h' n hn, h (n - 1) (by omega), h' (n - 1) (by omega)]

theorem zadd {a a' b b' : Zq} (h : a = a') (h' : b = b') : a + b = a' + b' := by rw [h, h']
theorem zsub {a a' b b' : Zq} (h : a = a') (h' : b = b') : a - b = a' - b' := by rw [h, h']

section
attribute [local irreducible] NTT NTTInv MultiplyNTTs mulRq

/-- The heart of decryption, in the ring: `A`, `t` in the NTT domain, `U j` the first part of the ciphertext with all errors `f j`. -/
theorem decrypt_algebra (k : Nat) (s e y f t U : Nat → Spec.Poly) (A : Nat → Nat → Spec.Poly) (g : Zq)
    (ht : ∀ i c, t i c = (∑ j ∈ range k, MultiplyNTTs (A i j) (NTT (s j)) c) + NTT (e i) c)
    (hU : ∀ j q, U j q = NTTInv (fun c => ∑ i ∈ range k, MultiplyNTTs (A i j) (NTT (y i)) c) q + f j q) {c : Nat} (hc : c < 256) :
    (NTTInv (fun p => ∑ i ∈ range k, MultiplyNTTs (t i) (NTT (y i)) p) c + g) - NTTInv (fun p => ∑ j ∈ range k, MultiplyNTTs (NTT (s j)) (NTT (U j)) p) c
      = g + ((∑ i ∈ range k, mulRq (e i) (y i) c) - ∑ j ∈ range k, mulRq (s j) (f j) c) := by
  have hU' : ∀ j p, p < 256 → NTT (U j) p = (∑ i ∈ range k, MultiplyNTTs (A i j) (NTT (y i)) p) + NTT (f j) p := by
    intro j p hp
    rw [NTT_congr (fun q _ => hU j q), NTT_add, NTT_NTTInv _ hp]
  have h1 : NTTInv (fun p => ∑ j ∈ range k, MultiplyNTTs (NTT (s j)) (NTT (U j)) p) c
      = NTTInv (fun p => ∑ j ∈ range k, ∑ i ∈ range k, MultiplyNTTs (NTT (s j)) (MultiplyNTTs (A i j) (NTT (y i))) p) c
        + ∑ j ∈ range k, mulRq (s j) (f j) c := by
    have : ∀ p, p < 256 → (∑ j ∈ range k, MultiplyNTTs (NTT (s j)) (NTT (U j)) p)
        = (∑ j ∈ range k, ∑ i ∈ range k, MultiplyNTTs (NTT (s j)) (MultiplyNTTs (A i j) (NTT (y i))) p)
          + ∑ j ∈ range k, MultiplyNTTs (NTT (s j)) (NTT (f j)) p := by
      intro p hp
      rw [← sum_add_distrib]
      refine sum_congr rfl fun j _ => ?_
      rw [MultiplyNTTs_congr' (fun _ _ => rfl) (hU' j) hp, MultiplyNTTs_add_right, MultiplyNTTs_sum_right]
    rw [NTTInv_congr this, NTTInv_add]
    refine zadd rfl ?_
    rw [NTTInv_sum]
    exact sum_congr rfl fun j _ => NTTInv_MultiplyNTTs _ _ hc
  have h2 : NTTInv (fun p => ∑ i ∈ range k, MultiplyNTTs (t i) (NTT (y i)) p) c
      = NTTInv (fun p => ∑ j ∈ range k, ∑ i ∈ range k, MultiplyNTTs (NTT (s j)) (MultiplyNTTs (A i j) (NTT (y i))) p) c
        + ∑ i ∈ range k, mulRq (e i) (y i) c := by
    have : ∀ p, p < 256 → (∑ i ∈ range k, MultiplyNTTs (t i) (NTT (y i)) p)
        = (∑ j ∈ range k, ∑ i ∈ range k, MultiplyNTTs (NTT (s j)) (MultiplyNTTs (A i j) (NTT (y i))) p)
          + ∑ i ∈ range k, MultiplyNTTs (NTT (e i)) (NTT (y i)) p := by
      intro p hp
      rw [sum_comm, ← sum_add_distrib]
      refine sum_congr rfl fun i _ => ?_
      rw [MultiplyNTTs_congr' (fun q _ => ht i q) (fun _ _ => rfl) hp, MultiplyNTTs_add_left, MultiplyNTTs_sum_left]
      refine zadd (sum_congr rfl fun j _ => ?_) rfl
      rw [← MultiplyNTTs_assoc]
      exact MultiplyNTTs_congr' (fun q _ => MultiplyNTTs_comm _ _ q) (fun _ _ => rfl) hp
    rw [NTTInv_congr this, NTTInv_add]
    refine zadd rfl ?_
    rw [NTTInv_sum]
    exact sum_congr rfl fun j _ => NTTInv_MultiplyNTTs _ _ hc
  rw [h1, h2]
  ring

end

section
attribute [local irreducible] NTT NTTInv MultiplyNTTs mulRq SamplePolyCBD PRF G Compress Decompress ByteEncode ByteDecode

theorem decrypt_honest {k n : Nat} {d m r ek dk ct : List UInt8} (hkg : kpkeKeyGen k n d = some (ek, dk)) (hlen : ((G (d ++ [UInt8.ofNat k])).1).length = 32)
    (henc : kpkeEncrypt k n ek m r = some ct) {c : Nat} (hc : c < 256) : decryptW k dk ct c = μ m c + noise k n d m r c := by
  unfold kpkeKeyGen at hkg
  dsimp only at hkg
  cases hA : sampleA k n (G (d ++ [UInt8.ofNat k])).1 with
  | none => rw [hA] at hkg; simp at hkg
  | some A' =>
    rw [hA] at hkg
    simp only [Option.map_some, Option.some.injEq, Prod.mk.injEq] at hkg
    obtain ⟨h1, h2⟩ := hkg
    have hA' : A' = A k n d := by
      unfold sampleA at hA
      split at hA
      · exact (Option.some.inj hA).symm
      · cases hA
    have hek : ek = encode12 k (t k n d) ++ (G (d ++ [UInt8.ofNat k])).1 := by rw [← h1, hA']; rfl
    have hdk : dk = encode12 k fun i => NTT (s k d i) := by rw [← h2]; rfl
    have hρ : (ek.drop (384 * k)).take 32 = (G (d ++ [UInt8.ofNat k])).1 := by
      rw [hek, List.drop_left' (by unfold encode12; rw [flatMap_length (k := k) fun i => ByteEncode_length 12 _]; ring), List.take_of_length_le (by omega)]
    have ht : ∀ i, i < k → ∀ c, c < 256 → decode12 ek i c = t k n d i c := fun i hi c hc => by rw [hek]; exact decode12_encode12 _ _ hi hc
    unfold kpkeEncrypt at henc
    dsimp only at henc
    rw [hρ, hA] at henc
    simp only [Option.map_some, Option.some.injEq] at henc
    have hV : ∀ c, NTTInv (fun c => ∑ j ∈ range k, MultiplyNTTs (decode12 ek j) (NTT (Honest.y k r j)) c) c
        = NTTInv (fun c => ∑ j ∈ range k, MultiplyNTTs (t k n d j) (NTT (Honest.y k r j)) c) c := by
      intro c
      refine NTTInv_congr (fun p hp => sum_congr rfl fun j hj => ?_) c
      exact MultiplyNTTs_congr' (ht j (mem_range.1 hj)) (fun _ _ => rfl) hp
    have hct : ct = ((List.range k).flatMap fun i => ByteEncode (d_u k) fun c => Compress (d_u k) (u k n d r i c)) ++ ByteEncode (d_v k) fun c => Compress (d_v k) (v k n d m r c) := by
      rw [← henc, hA']
      congr 1
      refine congrArg (ByteEncode (d_v k)) (funext fun c => congrArg (Compress (d_v k)) ?_)
      exact zadd (zadd (hV c) rfl) rfl
    have hu' : ∀ j, j < k → ∀ q, q < 256 → ctU k ct j q = u k n d r j q + cu k n d r j q := by
      intro j hj q hq
      rw [hct, ctU_encrypt (fun i => u k n d r i) _ hj hq]; unfold cu; exact (add_sub_cancel _ _).symm
    have hv' : ctV k ct c = v k n d m r c + cv k n d m r c := by
      rw [hct, ctV_encrypt (fun i => u k n d r i) (v k n d m r) hc]; unfold cv; exact (add_sub_cancel _ _).symm
    have hw : decryptW k dk ct c = (v k n d m r c + cv k n d m r c) - NTTInv (fun p => ∑ j ∈ range k, MultiplyNTTs (NTT (s k d j)) (NTT (fun q => u k n d r j q + cu k n d r j q)) p) c := by
      unfold decryptW
      refine zsub hv' (NTTInv_congr (fun p hp => sum_congr rfl fun j hj => ?_) c)
      have hj' := mem_range.1 hj
      refine MultiplyNTTs_congr' (fun q hq => ?_) (fun q _ => NTT_congr (hu' j hj') q) hp
      have := decode12_encode12 (fun i => NTT (s k d i)) [] hj' hq
      rw [List.append_nil] at this
      rw [hdk, this]
    rw [hw]
    have halg := decrypt_algebra k (s k d) (e k d) (Honest.y k r) (fun j q => e1 k r j q + cu k n d r j q) (t k n d) (fun j q => u k n d r j q + cu k n d r j q) (A k n d)
      (e2 k r c + μ m c + cv k n d m r c) (fun i c => rfl) (fun j q => by unfold u; exact add_assoc _ _ _) hc
    rw [show v k n d m r c + cv k n d m r c = NTTInv (fun c => ∑ j ∈ range k, MultiplyNTTs (t k n d j) (NTT (Honest.y k r j)) c) c + (e2 k r c + μ m c + cv k n d m r c) by
      unfold v; ring, halg]
    unfold noise
    ring

end

/-- Rounding a noisy bit: it survives exactly if the noise is in the window. -/
theorem compress_noisy_bit (b : Nat) (hb : b < 2) (x : Zq) :
    Compress 1 (Decompress 1 b + x) = b ↔ ∃ δ : Int, -832 ≤ δ ∧ δ ≤ 832 - b ∧ x = δ := by
  rw [Compress_eq, Decompress_eq]
  have hd : decompNat 1 b = 1665 * b := by unfold decompNat; interval_cases b <;> rfl
  rw [hd]
  have hv : (((1665 * b : Nat) : Zq) + x).val = (1665 * b + x.val) % 3329 := by
    rw [ZMod.val_add, ZMod.val_natCast]; omega
  have hx := ZMod.val_lt x
  have hxe : ∀ δ : Int, x = δ ↔ (x.val : Int) % 3329 = δ % 3329 := by
    intro δ
    conv_lhs => rw [← ZMod.natCast_zmod_val x]
    rw [show ((x.val : Nat) : Zq) = ((x.val : Int) : Zq) by push_cast; rfl, ZMod.intCast_eq_intCast_iff]
    rfl
  rw [hv]
  unfold compNat
  constructor
  · intro h
    by_cases hs : x.val ≤ 832
    · refine ⟨x.val, by omega, by interval_cases b <;> omega, (hxe _).2 rfl⟩
    · refine ⟨(x.val : Int) - 3329, by interval_cases b <;> omega, by interval_cases b <;> omega, (hxe _).2 (by omega)⟩
  · rintro ⟨δ, h1, h2, h3⟩
    rw [hxe] at h3
    interval_cases b <;> omega

end Verif

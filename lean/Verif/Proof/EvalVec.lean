import Verif.Proof.EvalKem
/-! # Evaluating the specification on published test vectors

Used only to compare `Spec/Fips203.lean` with the test vectors that the repository ships. -/
open Finset
namespace Verif.Eval
open Spec Props

/-- The `n` bytes of a number, most significant first, as in the hexadecimal strings of the vectors. -/
def be (n x : Nat) : List UInt8 := (bytesOf n x).reverse

theorem be_length (n x : Nat) : (be n x).length = n := by simp [be, length_bytesOf]

/-! ## Decoding -/

theorem ofBits_shift (x o d : Nat) : ofBits d (fun j => x.testBit (o + j)) = (x >>> o) % 2 ^ d := by
  symm
  refine eq_ofBits (Nat.mod_lt _ (by positivity)) fun j hj => ?_
  rw [Nat.testBit_mod_two_pow, Nat.testBit_shiftRight]
  simp [hj]

theorem bitAt_slice (B : List UInt8) (o l : Nat) {p : Nat} (hp : p < 8 * l) : bitAt ((B.drop o).take l) p = (leN B).testBit (8 * o + p) := by
  rw [testBit_leN]
  unfold bitAt
  rw [show (8 * o + p) / 8 = o + p / 8 by omega, show (8 * o + p) % 8 = p % 8 by omega]
  congr 2
  rw [List.getD_eq_getElem?_getD, List.getD_eq_getElem?_getD, List.getElem?_take_of_lt (by omega), List.getElem?_drop]

theorem decode_slice (B : List UInt8) (o d : Nat) {i : Nat} (hi : i < 256) :
    ByteDecode d ((B.drop o).take (32 * d)) i = (leN B >>> (8 * o + d * i)) % 2 ^ d % decodeMod d := by
  rw [ByteDecode_eq, ← ofBits_shift]
  congr 1
  refine ofBits_congr fun j hj => ?_
  have : i * d + j < 256 * d := by
    calc i * d + j < i * d + d := by omega
      _ = (i + 1) * d := by rw [Nat.add_mul, Nat.one_mul]
      _ ≤ 256 * d := Nat.mul_le_mul_right _ (by omega)
  rw [bitAt_slice B o (32 * d) (by omega), Nat.mul_comm i d, Nat.add_assoc]

/-- 256 fields of `d` bits of `x` from bit `o` on, each transformed by `f`. -/
def nFields (f : Nat → Nat) (d o x : Nat) : P := force x fun x =>
  ((List.range 128).map fun j => f (Nat.mod (Nat.shiftRight x (Nat.add o (Nat.mul d (Nat.mul 2 j)))) (Nat.pow 2 d)),
   (List.range 128).map fun j => f (Nat.mod (Nat.shiftRight x (Nat.add o (Nat.mul d (Nat.add (Nat.mul 2 j) 1)))) (Nat.pow 2 d)))

theorem rp_fields {f : Nat → Nat} {d o x : Nat} (G : Nat → Nat) (hf : ∀ y, f y = G y % 3329) {p : Spec.Poly} (hp : ∀ i, i < 256 → p i = ((G ((x >>> (o + d * i)) % 2 ^ d) : Nat) : Zq)) : Rp (nFields f d o x) p := by
  unfold nFields
  rw [force_eq]
  exact ⟨hl_range _ (fun j => G ((x >>> (o + d * (2 * j))) % 2 ^ d)) (fun j => hf _) fun j hj => hp (2 * j) (by omega),
    hl_range _ (fun j => G ((x >>> (o + d * (2 * j + 1))) % 2 ^ d)) (fun j => hf _) fun j hj => hp (2 * j + 1) (by omega)⟩

/-- `ByteDecode_12` of `K` blocks. -/
def nDec12 (K x : Nat) : List P := (List.range K).map fun i => nFields (fun y => Nat.mod y 3329) 12 (Nat.mul 3072 i) x

theorem rv_dec12 (K : Nat) (B : List UInt8) : Rv K (nDec12 K (leN B)) (decode12 B) := by
  refine rv_map fun i hi => rp_fields (fun y => y) (fun y => rfl) fun c hc => ?_
  unfold decode12
  rw [show (384 : Nat) = 32 * 12 from rfl, decode_slice B _ 12 hc, show 8 * (32 * 12 * i) = 3072 * i by ring]
  show ((_ % 3329 : Nat) : Zq) = _
  rw [ZMod.natCast_mod]
  rfl

theorem rp_ctU (K : Nat) (c : List UInt8) (i : Nat) : Rp (nFields (decomp (d_u K)) (d_u K) (8 * (32 * d_u K * i)) (leN c)) (ctU K c i) := by
  refine rp_fields (fun y => decompNat (d_u K) y) (fun y => rfl) fun n hn => ?_
  unfold ctU
  rw [decode_slice c _ _ hn, Decompress_eq]
  have : d_u K ≠ 12 := by unfold d_u; split <;> omega
  unfold decodeMod
  rw [if_neg this, Nat.mod_mod]

theorem rp_ctV (K : Nat) (c : List UInt8) : Rp (nFields (decomp (d_v K)) (d_v K) (8 * (32 * d_u K * K)) (leN c)) (ctV K c) := by
  refine rp_fields (fun y => decompNat (d_v K) y) (fun y => rfl) fun n hn => ?_
  unfold ctV
  rw [decode_slice c _ _ hn, Decompress_eq]
  have : d_v K ≠ 12 := by unfold d_v; split <;> omega
  unfold decodeMod
  rw [if_neg this, Nat.mod_mod]

/-- The decrypted message. -/
def nDecr {β : Type} (K dk c : Nat) (k : Nat → β) : β :=
  forceV (nDec12 K dk) fun s => forceV ((List.range K).map fun i => nFields (decomp (d_u K)) (d_u K) (Nat.mul 8 (Nat.mul (Nat.mul 32 (d_u K)) i)) c) fun u => forceV (nttV u) fun u =>
  forceP (nFields (decomp (d_v K)) (d_v K) (Nat.mul 8 (Nat.mul (Nat.mul 32 (d_u K)) K)) c) fun v => forceP (nDot s u) fun x => forceP (nInv x) fun x =>
  force (nEnc 1 (nComp 1 (nSub v x))) k

theorem decr_sound {β : Type} (K : Nat) (dk c : List UInt8) (k : Nat → β) : nDecr K (leN dk) (leN c) k = k (leN (kpkeDecrypt K dk c)) := by
  have hu : Rv K ((List.range K).map fun i => nFields (decomp (d_u K)) (d_u K) (8 * (32 * d_u K * i)) (leN c)) (ctU K c) := rv_map fun i _ => rp_ctU K c i
  have h := Rp.encComp (d := 1) (f := decryptW K dk c) ((rp_ctV K c).sub (rp_dot (rv_dec12 K dk) hu.ntt).inv) (by omega)
  unfold nDecr
  simp only [forceV_eq, forceP_eq, force_eq]
  rw [show kpkeDecrypt K dk c = ByteEncode 1 fun n => Compress 1 (decryptW K dk c n) from rfl, h]
  rfl

/-! ## The checks -/

/-- Key generation gives the keys `ek` and `dk`. -/
def kgCheck (K c d z ek dk : Nat) : Bool :=
  nKG K c d fun ρ _ s t => Nat.beq (Nat.add (nEnc12 t) (Nat.mul (Nat.pow 2 (Nat.mul 3072 K)) ρ)) ek &&
    force (Nat.mod (nhash 136 6 ek (Nat.add (Nat.mul 384 K) 32) 1) (Nat.pow 2 256)) fun h =>
    Nat.beq (Nat.add (nEnc12 s) (Nat.mul (Nat.pow 2 (Nat.mul 3072 K)) (Nat.add ek (Nat.mul (Nat.pow 2 (Nat.add (Nat.mul 3072 K) 256)) (Nat.add h (Nat.mul (Nat.pow 2 256) z)))))) dk

theorem kgCheck_sound {K c : Nat} (hK : K ≤ 4) {d z ek dk : List UInt8} (hd : d.length = 32) (hz : z.length = 32) (hek : ek.length = 384 * K + 32) (hdk : dk.length = 768 * K + 96)
    (hen : nenough K c (nrho (leN d) K) = true) (h : kgCheck K c (leN d) (leN z) (leN ek) (leN dk) = true) : KeyGen_internal K (168 * c) d z = some (ek, dk) := by
  have lρ : ((SHA3_512 (d ++ [UInt8.ofNat K])).take 32).length = 32 := by rw [List.length_take, SHA3_512_eq]; simp
  have hen' : Enough K (168 * c) ((SHA3_512 (d ++ [UInt8.ofNat K])).take 32) := by
    refine (enough_iff (by omega) lρ).2 ?_
    rw [leN_rho (by omega) hd]; exact hen
  obtain ⟨A, s, t, A', s', t', e1, hA, hs, ht, hsa, hkg⟩ := kg_sound hK hd hen'
  unfold kgCheck at h
  rw [e1] at h
  generalize (SHA3_512 (d ++ [UInt8.ofNat K])).take 32 = ρ at *
  have hl : ∀ v, (encode12 K v).length = 384 * K := by
    intro v
    unfold encode12
    rw [flatMap_length (k := K) fun i => ByteEncode_length 12 _]; ring
  simp only [Bool.and_eq_true, force_eq] at h
  obtain ⟨h1, h2⟩ := h
  have e1 : encode12 K t' ++ ρ = ek := by
    refine leN_inj (by rw [List.length_append, hl, lρ, hek]) ?_
    rw [leN_append, ht.enc12, hl, show 8 * (384 * K) = 3072 * K by ring]
    exact Nat.eq_of_beq_eq_true h1
  have lh : (SHA3_256 ek).length = 32 := by rw [SHA3_256_eq]; simp
  have e2 : encode12 K s' ++ ek ++ H ek ++ z = dk := by
    refine leN_inj (by rw [List.length_append, List.length_append, List.length_append, hl, hek, hz, hdk, show (H ek).length = 32 from lh]; omega) ?_
    rw [List.append_assoc, List.append_assoc, leN_append, leN_append, leN_append, hs.enc12, hl, hek, show H ek = SHA3_256 ek from rfl, lh, leN_SHA3_256, hek, show 8 * (384 * K) = 3072 * K by ring,
      show 8 * (384 * K + 32) = 3072 * K + 256 by ring]
    exact Nat.eq_of_beq_eq_true h2
  unfold KeyGen_internal
  rw [hkg, Option.map_some, e1, e2]

theorem leN_take_drop (B : List UInt8) (o l : Nat) (_h : o + l ≤ B.length) : leN ((B.drop o).take l) = (leN B >>> (8 * o)) % 2 ^ (8 * l) := by
  refine Nat.eq_of_testBit_eq fun k => ?_
  rw [Nat.testBit_mod_two_pow, Nat.testBit_shiftRight]
  by_cases hk : k < 8 * l
  · rw [testBit_leN, bitAt_slice B o l hk]; simp [hk]
  · rw [testBit_leN]
    unfold bitAt
    rw [getD_ge _ _ (by rw [List.length_take, List.length_drop]; omega)]
    simp [hk]

/-- Encryption of `m` for the key `ek` with randomness `r`, if `ek` passes the modulus check. -/
def nEncrK {β : Type} (K c ek m r : Nat) (bad : β) (k : Nat → β) : β :=
  force (Nat.mod (Nat.shiftRight ek (Nat.mul 3072 K)) (Nat.pow 2 256)) fun ρ => forceV (nDec12 K ek) fun t =>
  cond (nenough K c ρ && Nat.beq (nEnc12 t) (Nat.mod ek (Nat.pow 2 (Nat.mul 3072 K))))
    (forceM (nMat K c ρ) fun A => nEncr K A t m r fun u v => force (nCt K u v) k) bad

theorem encrK_sound {K c : Nat} (hK : K ≤ 4) {ek m r : List UInt8} (hek : ek.length = 384 * K + 32) (hr : r.length = 32) (k : Nat → Bool) (h : nEncrK K c (leN ek) (leN m) (leN r) false k = true) :
    ∃ ct, ct.length = 32 * (d_u K * K + d_v K) ∧ kpkeEncrypt K (168 * c) ek m r = some ct ∧ k (leN ct) = true ∧ modulusCheck K ek := by
  unfold nEncrK at h
  simp only [forceV_eq, forceM_eq, force_eq] at h
  have hρ : leN ((ek.drop (384 * K)).take 32) = (leN ek >>> (3072 * K)) % 2 ^ 256 := by
    rw [leN_take_drop ek (384 * K) 32 (by omega), show 8 * (384 * K) = 3072 * K by ring]
  have lρ : ((ek.drop (384 * K)).take 32).length = 32 := by rw [List.length_take, List.length_drop]; omega
  rw [show Nat.mod (Nat.shiftRight (leN ek) (Nat.mul 3072 K)) (Nat.pow 2 256) = leN ((ek.drop (384 * K)).take 32) from hρ.symm] at h
  generalize hgρ : (ek.drop (384 * K)).take 32 = ρ at *
  rw [Bool.cond_eq_ite] at h
  split at h
  · rename_i hc
    rw [Bool.and_eq_true] at hc
    have hen : Enough K (168 * c) ρ := (enough_iff (by omega) lρ).2 hc.1
    have hA := rm_mat (by omega) lρ hen
    have ht := rv_dec12 K ek
    have hl : ∀ v, (encode12 K v).length = 384 * K := by
      intro v
      unfold encode12
      rw [flatMap_length (k := K) fun i => ByteEncode_length 12 _]; ring
    have h1 : encode12 K (decode12 ek) = ek.take (384 * K) := by
      refine leN_inj (by rw [hl, List.length_take]; omega) ?_
      have := leN_take_drop ek 0 (384 * K) (by omega)
      rw [List.drop_zero, Nat.mul_zero, Nat.shiftRight_zero, show 8 * (384 * K) = 3072 * K by ring] at this
      rw [ht.enc12, this]
      exact Nat.eq_of_beq_eq_true hc.2
    have he : encode12 K (decode12 ek) ++ ρ = ek := by
      rw [h1, ← hgρ, List.take_of_length_le (l := ek.drop (384 * K)) (by rw [List.length_drop]; omega), List.take_append_drop]
    have hsa : sampleA K (168 * c) ρ = some fun i j => (SampleNTT (168 * c) (ρ ++ [UInt8.ofNat j, UInt8.ofNat i])).getD 0 := by
      have h1 := (sampleA_some_iff K (168 * c) ρ).2 hen
      unfold sampleA at h1 ⊢
      split at h1
      · rename_i h'; rw [if_pos h']
      · simp at h1
    obtain ⟨u, v, u', v', e2, hu, hv, henc⟩ := encr_sound (m := m) hK lρ hr hA ht hsa
    rw [he] at henc
    refine ⟨_, ?_, henc, ?_, h1⟩
    · rw [List.length_append, flatMap_length (k := K) fun i => ByteEncode_length (d_u K) (fun c => Compress (d_u K) (u' i c)), ByteEncode_length]; ring
    · rw [leN_ct hu hv, ← h, e2]
  · simp at h

/-- Encapsulation gives `k` and `ct`. -/
def encCheck (K c ek m k ct : Nat) : Bool :=
  force (Nat.mod (nhash 136 6 ek (Nat.add (Nat.mul 384 K) 32) 1) (Nat.pow 2 256)) fun h => force (nhash 72 6 (Nat.add m (Nat.mul (Nat.pow 2 256) h)) 64 1) fun g =>
  force (Nat.mod (Nat.shiftRight g 256) (Nat.pow 2 256)) fun r => Nat.beq (Nat.mod g (Nat.pow 2 256)) k && nEncrK K c ek m r false fun x => Nat.beq x ct

theorem encCheck_sound {K c : Nat} (hK : K ≤ 4) {ek m k ct : List UInt8} (hek : ek.length = 384 * K + 32) (hm : m.length = 32) (hk : k.length = 32) (hct : ct.length = 32 * (d_u K * K + d_v K))
    (h : encCheck K c (leN ek) (leN m) (leN k) (leN ct) = true) : Encaps_internal K (168 * c) ek m = some (k, ct) ∧ modulusCheck K ek := by
  unfold encCheck at h
  simp only [force_eq, Bool.and_eq_true] at h
  have lh : (SHA3_256 ek).length = 32 := by rw [SHA3_256_eq]; simp
  have eh := leN_SHA3_256 ek
  rw [hek] at eh
  obtain ⟨gk, gr⟩ := leN_split (m ++ SHA3_256 ek)
  have lr : ((SHA3_512 (m ++ SHA3_256 ek)).drop 32).length = 32 := by rw [List.length_drop, SHA3_512_eq]; simp
  have lk : ((SHA3_512 (m ++ SHA3_256 ek)).take 32).length = 32 := by rw [List.length_take, SHA3_512_eq]; simp
  rw [leN_append, hm, eh, show (m ++ SHA3_256 ek).length = 64 by rw [List.length_append, hm, lh]] at gk gr
  obtain ⟨h1, h2⟩ := h
  have h2' : nEncrK K c (leN ek) (leN m) (leN ((SHA3_512 (m ++ SHA3_256 ek)).drop 32)) false (fun x => Nat.beq x (leN ct)) = true := by rw [gr]; exact h2
  obtain ⟨ct', l, he, hx, hmc⟩ := encrK_sound hK hek lr _ h2'
  refine ⟨?_, hmc⟩
  have e1 : ct' = ct := leN_inj (by rw [l, hct]) (Nat.eq_of_beq_eq_true hx)
  have e2 : (SHA3_512 (m ++ SHA3_256 ek)).take 32 = k := leN_inj (by rw [lk, hk]) (by rw [gk]; exact Nat.eq_of_beq_eq_true h1)
  unfold Encaps_internal
  show Option.map _ (kpkeEncrypt K (168 * c) ek m ((SHA3_512 (m ++ SHA3_256 ek)).drop 32)) = _
  rw [he, Option.map_some, e1]
  show some ((SHA3_512 (m ++ SHA3_256 ek)).take 32, ct) = _
  rw [e2]

/-- Decapsulation gives `k`. -/
def decCheck (K c dk ct k : Nat) : Bool :=
  force (Nat.mod (Nat.shiftRight dk (Nat.mul 3072 K)) (Nat.pow 2 (Nat.add (Nat.mul 3072 K) 256))) fun ek =>
  force (Nat.mod (Nat.shiftRight dk (Nat.add (Nat.mul 6144 K) 256)) (Nat.pow 2 256)) fun h =>
  force (Nat.mod (Nat.shiftRight dk (Nat.add (Nat.mul 6144 K) 512)) (Nat.pow 2 256)) fun z =>
  Nat.beq (Nat.mod (nhash 136 6 ek (Nat.add (Nat.mul 384 K) 32) 1) (Nat.pow 2 256)) h && nDecr K (Nat.mod dk (Nat.pow 2 (Nat.mul 3072 K))) ct fun m => force (nhash 72 6 (Nat.add m (Nat.mul (Nat.pow 2 256) h)) 64 1) fun g =>
  force (Nat.mod (Nat.shiftRight g 256) (Nat.pow 2 256)) fun r => nEncrK K c ek m r false fun x =>
  cond (Nat.beq x ct) (Nat.beq (Nat.mod g (Nat.pow 2 256)) k)
    (Nat.beq (Nat.mod (nhash 136 31 (Nat.add z (Nat.mul (Nat.pow 2 256) ct)) (Nat.add 32 (Nat.mul 32 (Nat.add (Nat.mul (d_u K) K) (d_v K)))) 1) (Nat.pow 2 256)) k)

theorem decCheck_sound {K c : Nat} (hK : K ≤ 4) {dk ct k : List UInt8} (hdk : dk.length = 768 * K + 96) (hk : k.length = 32) (hct : ct.length = 32 * (d_u K * K + d_v K))
    (h : decCheck K c (leN dk) (leN ct) (leN k) = true) : Decaps_internal K (168 * c) dk ct = some k ∧ hashCheck K dk := by
  unfold decCheck at h
  simp only [force_eq] at h
  have s1 : leN (dk.take (384 * K)) = leN dk % 2 ^ (3072 * K) := by
    have := leN_take_drop dk 0 (384 * K) (by omega)
    rw [List.drop_zero, Nat.mul_zero, Nat.shiftRight_zero, show 8 * (384 * K) = 3072 * K by ring] at this
    exact this
  have s2 : leN ((dk.drop (384 * K)).take (384 * K + 32)) = (leN dk >>> (3072 * K)) % 2 ^ (3072 * K + 256) := by
    rw [leN_take_drop dk _ _ (by omega), show 8 * (384 * K) = 3072 * K by ring, show 8 * (384 * K + 32) = 3072 * K + 256 by ring]
  have s3 : leN ((dk.drop (768 * K + 32)).take 32) = (leN dk >>> (6144 * K + 256)) % 2 ^ 256 := by
    rw [leN_take_drop dk _ _ (by omega), show 8 * (768 * K + 32) = 6144 * K + 256 by ring]
  have s4 : leN ((dk.drop (768 * K + 64)).take 32) = (leN dk >>> (6144 * K + 512)) % 2 ^ 256 := by
    rw [leN_take_drop dk _ _ (by omega), show 8 * (768 * K + 64) = 6144 * K + 512 by ring]
  rw [show Nat.mod (leN dk) (Nat.pow 2 (Nat.mul 3072 K)) = leN (dk.take (384 * K)) from s1.symm, show Nat.mod (Nat.shiftRight (leN dk) (Nat.mul 3072 K)) (Nat.pow 2 (Nat.add (Nat.mul 3072 K) 256)) = leN ((dk.drop (384 * K)).take (384 * K + 32)) from s2.symm,
    show Nat.mod (Nat.shiftRight (leN dk) (Nat.add (Nat.mul 6144 K) 256)) (Nat.pow 2 256) = leN ((dk.drop (768 * K + 32)).take 32) from s3.symm,
    show Nat.mod (Nat.shiftRight (leN dk) (Nat.add (Nat.mul 6144 K) 512)) (Nat.pow 2 256) = leN ((dk.drop (768 * K + 64)).take 32) from s4.symm, decr_sound] at h
  have l2 : ((dk.drop (384 * K)).take (384 * K + 32)).length = 384 * K + 32 := by rw [List.length_take, List.length_drop]; omega
  have l3 : ((dk.drop (768 * K + 32)).take 32).length = 32 := by rw [List.length_take, List.length_drop]; omega
  have l4 : ((dk.drop (768 * K + 64)).take 32).length = 32 := by rw [List.length_take, List.length_drop]; omega
  have lm : (kpkeDecrypt K (dk.take (384 * K)) ct).length = 32 := by unfold kpkeDecrypt; rw [ByteEncode_length]
  rw [Bool.and_eq_true] at h
  obtain ⟨hh0, h⟩ := h
  have hh1 : hashCheck K dk := by
    unfold hashCheck H
    refine leN_inj (by rw [SHA3_256_eq, l3]; simp) ?_
    rw [leN_SHA3_256, l2]
    exact Nat.eq_of_beq_eq_true hh0
  refine ⟨?_, hh1⟩
  clear hh0 hh1
  unfold Decaps_internal
  dsimp only
  generalize (dk.drop (384 * K)).take (384 * K + 32) = ek at *
  generalize (dk.drop (768 * K + 32)).take 32 = hh at *
  generalize (dk.drop (768 * K + 64)).take 32 = z at *
  generalize kpkeDecrypt K (dk.take (384 * K)) ct = m at *
  obtain ⟨gk, gr⟩ := leN_split (m ++ hh)
  have lr : ((SHA3_512 (m ++ hh)).drop 32).length = 32 := by rw [List.length_drop, SHA3_512_eq]; simp
  have lk : ((SHA3_512 (m ++ hh)).take 32).length = 32 := by rw [List.length_take, SHA3_512_eq]; simp
  rw [leN_append, lm, show (m ++ hh).length = 64 by rw [List.length_append, lm, l3]] at gk gr
  have h' : nEncrK K c (leN ek) (leN m) (leN ((SHA3_512 (m ++ hh)).drop 32)) false (fun x => cond (Nat.beq x (leN ct)) (Nat.beq (leN ((SHA3_512 (m ++ hh)).take 32)) (leN k))
      (Nat.beq (Nat.mod (nhash 136 31 (Nat.add (leN z) (Nat.mul (Nat.pow 2 256) (leN ct))) (Nat.add 32 (Nat.mul 32 (Nat.add (Nat.mul (d_u K) K) (d_v K)))) 1) (Nat.pow 2 256)) (leN k))) = true := by
    rw [gk, gr]; exact h
  obtain ⟨ct', l, he, hx, _⟩ := encrK_sound hK l2 lr _ h'
  rw [show (G (m ++ hh)).2 = (SHA3_512 (m ++ hh)).drop 32 from rfl, he, Option.map_some]
  congr 1
  rw [Bool.cond_eq_ite] at hx
  by_cases hc : ct' = ct
  · rw [if_neg (by rw [hc]; simp)]
    rw [hc, if_pos (Nat.beq_refl _)] at hx
    exact leN_inj (by rw [hk]; exact lk) (Nat.eq_of_beq_eq_true hx)
  · rw [if_pos fun e => hc e.symm]
    rw [if_neg fun e => hc (leN_inj (by rw [l, hct]) (Nat.eq_of_beq_eq_true e))] at hx
    have lJ : (J (z ++ ct)).length = 32 := by unfold J; rw [SHAKE256_eq]; simp
    refine leN_inj (by rw [lJ, hk]) ?_
    have := leN_SHAKE256 (z ++ ct) 32 1 (by omega)
    unfold J
    rw [this, leN_append, l4, List.length_append, l4, hct]
    exact Nat.eq_of_beq_eq_true hx

end Verif.Eval

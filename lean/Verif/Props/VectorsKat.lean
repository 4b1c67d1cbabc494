import Verif.Proof.EvalAes
import Verif.Props.Vectors
import Verif.Props.Driver
import Verif.Props.ConstantTime
/-! # AES, CTR_DRBG and the known-answer files on published values

A test of the trusted files `Spec/Fips197.lean`, `Spec/Drbg.lean` and `Spec/Kat.lean`: the example of FIPS 197, Appendix C.3, and the seed of case 0 of NIST's known-answer files.  Then the first case of the two known-answer files, to show that the hypotheses of C69
and of `C80_nistkat` and `C80_kat` can be met. -/
namespace Verif.Vectors.Kat
open Spec Eval Eval.Aes Props Model

/-- FIPS 197, Appendix C.3. -/
theorem fips197 : AES 8 (be 32 0x000102030405060708090a0b0c0d0e0f101112131415161718191a1b1c1d1e1f) (be 16 0x00112233445566778899aabbccddeeff) = be 16 0x8ea2b7ca516745bfeafc49904b496089 := by
  rw [← nblock_eq]; decide +kernel

/-- The state of the generator after its instantiation with the bytes 0 to 47. -/
def s0 : DrbgState := ⟨be 32 0x530e88f8c34030bea16abefac8c67d84deb6522e59757d791f57dfc8a6ee8307, be 16 0x524121e913830c53f98bdfa5592b1ba1⟩
/-- The seed of case 0 in NIST's files. -/
def seed0 : List UInt8 := be 48 0x061550234D158C5EC95595FE04EF7A25767F2E24CC2BC479D09D86DC9ABCFDE7056A8C266F9EF97ED08541DBD2E1FFA1
/-- The state after instantiation with the seed. -/
def s2 : DrbgState := ⟨be 32 0x551adad88a50bae76036210fc02409aeb8d86e19814baf17d7d3430f204f60ff, be 16 0x770a8fec5838d30a0127b455a7e7ca2f⟩
/-- `d` and `z` of case 0. -/
def dz : List UInt8 := be 64 0x7c9935a0b07694aa0c6d10e4db6b1add2fd81a25ccb148032dcd739936737f2db505d7cfad1b497499323c8686325e4792f267aafa3f87ca60d01cb54f29202a
/-- The state after that. -/
def s3 : DrbgState := ⟨be 32 0x3e784ccb7ebcdcfd45542b7f6af778742e0f4479175084aa488b3b74340678aa, be 16 0x38e22e9628b0a161fdeb0bd252173b9c⟩
/-- `m` of case 0. -/
def m : List UInt8 := be 32 0xeb4a7c66ef4eba2ddb38c88d8bc706b1d639002198172a7b1942eca8f6c001ba
/-- The coins of case 0 of the second file. -/
def coins : List UInt8 := be 96 0x33f176e9640f210e0be9004e56d9d16aed710c1f6ffba9b338c021543ba497d1661961564eb2b5f34321490a40ea6d61d169de111265a6e508b2d47453f69703a48e6091bf65bc8a08923dcbfe0fa9c7abe0ba0cbc4d3225084fc2f6c0bb536e

theorem inst0 : CTR_DRBG_Instantiate (bytesFrom 0 48) (List.replicate 48 0) = s0 := by
  have h : xorBytes (keyStream ⟨List.replicate 32 0, List.replicate 16 0⟩ 3) (xorBytes (bytesFrom 0 48) (List.replicate 48 0)) = s0.key ++ s0.v := by rw [nstream_eq]; decide +kernel
  unfold CTR_DRBG_Instantiate CTR_DRBG_Update
  simp only [h]
  rfl

/-- The seed of case 0, as NIST's files have it. -/
theorem seed : nistSeed 0 = seed0 := by
  unfold nistSeed nthOutput CTR_DRBG_Generate
  rw [inst0]
  show (keyStream s0 3).take 48 = seed0
  rw [nstream_eq]; decide +kernel

theorem inst2 : CTR_DRBG_Instantiate (nistSeed 0) (List.replicate 48 0) = s2 := by
  have h : xorBytes (keyStream ⟨List.replicate 32 0, List.replicate 16 0⟩ 3) (xorBytes seed0 (List.replicate 48 0)) = s2.key ++ s2.v := by rw [nstream_eq]; decide +kernel
  rw [seed]
  unfold CTR_DRBG_Instantiate CTR_DRBG_Update
  simp only [h]
  rfl

theorem gen2 : (CTR_DRBG_Generate s2 64).1 = dz := by
  show (keyStream s2 4).take 64 = dz
  rw [nstream_eq]; decide +kernel

theorem next2 : (CTR_DRBG_Generate s2 64).2 = s3 := by
  have h : xorBytes (keyStream ⟨s2.key, incV s2.v 4⟩ 3) (List.replicate 48 0) = s3.key ++ s3.v := by rw [nstream_eq]; decide +kernel
  unfold CTR_DRBG_Generate CTR_DRBG_Update
  simp only [show (64 + 15) / 16 = 4 from rfl, h]
  rfl

theorem gen3 : (CTR_DRBG_Generate s3 32).1 = m := by
  show (keyStream s3 2).take 32 = m
  rw [nstream_eq]; decide +kernel

/-- Case 0 of NIST's file is key generation, encapsulation and decapsulation with these values. -/
theorem nistCase0 (k n : Nat) : nistCase k n 0 = katCase k n (dz.take 32) (dz.drop 32) m := by
  unfold nistCase
  rw [inst2]
  simp only [gen2, next2, gen3]

theorem coins0 : shakeCoins 0 = coins := by
  unfold shakeCoins
  rw [Nat.mul_zero, List.drop_zero]
  refine eq_be (by rw [SHAKE256_eq]; simp) ?_
  rw [leN_SHAKE256 _ _ 1 (by omega)]; decide +kernel

/-- A case exists if the sampler ends for the matrix of the key. -/
theorem case_some {k n : Nat} {d z : List UInt8} (m : List UInt8) (hz : z.length = 32) (h : Enough k n ((SHA3_512 (d ++ [UInt8.ofNat k])).take 32)) : ∃ x, katCase k n d z m = some x := by
  obtain ⟨⟨ek, dk⟩, e1⟩ := Option.isSome_iff_exists.1 ((keygen_some_iff k n d z).2 h)
  obtain ⟨_, p1, _⟩ := KeyGen_parts hz e1
  have hr : (ek.drop (384 * k)).take 32 = (SHA3_512 (d ++ [UInt8.ofNat k])).take 32 := by
    have e2 := e1
    unfold KeyGen_internal kpkeKeyGen at e2
    dsimp only at e2
    cases hA : sampleA k n (G (d ++ [UInt8.ofNat k])).1 with
    | none => rw [hA] at e2; simp at e2
    | some A =>
      rw [hA, Option.map_some, Option.map_some] at e2
      simp only [Option.some.injEq, Prod.mk.injEq] at e2
      rw [← e2.1, List.drop_left' (by rw [encode12_length]; omega)]
      show ((SHA3_512 (d ++ [UInt8.ofNat k])).take 32).take 32 = _
      rw [List.take_take, Nat.min_self]
  rw [← hr] at h
  obtain ⟨⟨K, c⟩, e2⟩ := Option.isSome_iff_exists.1 ((encaps_some_iff k n ek m).2 h)
  obtain ⟨K', e3⟩ := Option.isSome_iff_exists.1 ((decaps_some_iff k n dk c).2 (by rw [show 384 * k + 32 = pkLen k from rfl, p1]; exact h))
  refine ⟨⟨ek, dk, c, K, K'⟩, ?_⟩
  unfold katCase
  rw [e1]
  show (Encaps_internal k n ek m).bind _ = _
  rw [e2]
  show (Decaps_internal k n dk c).bind _ = _
  rw [e3]
  rfl

/-- One more block than the first three is enough for the matrices of the two cases. -/
theorem enough_dz {k : Nat} (hk : IsParam k) : Enough k (xofBytes 1) ((SHA3_512 (dz.take 32 ++ [UInt8.ofNat k])).take 32) := by
  refine (enough_iff (c := 4) (by rcases hk with rfl | rfl | rfl <;> omega) (by rw [List.length_take, SHA3_512_length]; rfl)).2 ?_
  rw [leN_rho (by rcases hk with rfl | rfl | rfl <;> omega) (by rfl)]
  rcases hk with rfl | rfl | rfl <;> decide +kernel

theorem enough_coins {k : Nat} (hk : IsParam k) : Enough k (xofBytes 1) ((SHA3_512 (coins.take 32 ++ [UInt8.ofNat k])).take 32) := by
  refine (enough_iff (c := 4) (by rcases hk with rfl | rfl | rfl <;> omega) (by rw [List.length_take, SHA3_512_length]; rfl)).2 ?_
  rw [leN_rho (by rcases hk with rfl | rfl | rfl <;> omega) (by rfl)]
  rcases hk with rfl | rfl | rfl <;> decide +kernel

/-- The file with one case exists. -/
theorem nist_some {k : Nat} (hk : IsParam k) : nistFile k (xofBytes 1) 1 ≠ none := by
  obtain ⟨x, hx⟩ := case_some (z := dz.drop 32) m (by rfl) (enough_dz hk)
  rw [← nistCase0] at hx
  unfold nistFile
  rw [show List.range 1 = [0] from rfl, nistText, hx]
  by_cases h : x.ssE = x.ssD <;> simp [h, nistText]

theorem shake_some {k : Nat} (hk : IsParam k) : shakeText k (xofBytes 1) (List.range 1) ≠ none := by
  obtain ⟨x, hx⟩ := case_some (z := (coins.drop 32).take 32) (coins.drop 64) (by rfl) (enough_coins hk)
  rw [show List.range 1 = [0] from rfl, shakeText, shakeCase, coins0, hx]
  by_cases h : x.ssE = x.ssD <;> simp [h, shakeText]

/-- The world: every build succeeds, and the two programs are those of the portable code, with one case. -/
noncomputable def world : Driver.World := fun _ c =>
  match c with
  | .make _ _ => .done 0 ByteArray.empty ByteArray.empty
  | .run .nistkat s _ _ =>
    open Classical in
    if h : ∃ x : Int × String, Returns (Model.KatGen.nistkat_main Native.portable s.rank 1 (fun _ _ => Buf.ofList (List.replicate 16 0xdeadbeef#32)) ⟨Buf.uninit UInt8 32, Buf.uninit UInt8 16⟩ 1) x
      then .done (h.choose.1 % 256) h.choose.2.toUTF8 ByteArray.empty else .unstartable
  | .run .kat s _ _ =>
    open Classical in
    if h : ∃ x : Int × String, Returns (Model.KatGen.kat_main Native.portable s.rank 1 1) x then .done (h.choose.1 % 256) h.choose.2.toUTF8 ByteArray.empty else .unstartable
  | .run _ _ _ _ => .missing

/-- The hypotheses of `C80_nistkat` and `C80_kat` can be met. -/
example : KatWorld 1 1 world ∧ (∀ s ∈ Driver.schemes, nistFile s.rank (xofBytes 1) 1 ≠ none) ∧ ∀ s ∈ Driver.schemes, shakeText s.rank (xofBytes 1) (List.range 1) ≠ none := by
  refine ⟨⟨?_, fun _ _ _ => ⟨_, _, rfl⟩, ?_, ?_⟩, fun s _ => nist_some (Driver.rank_param s), fun s _ => shake_some (Driver.rank_param s)⟩
  · intro h c code out err e
    unfold world at e
    split at e
    · cases e; omega
    · split at e
      · cases e; omega
      · cases e
    · split at e
      · cases e; omega
      · cases e
    · cases e
  · intro h s pre
    refine ⟨Native.portable, _, ⟨Buf.uninit UInt8 32, Buf.uninit UInt8 16⟩, C66_backends.1, fun _ _ => ⟨List.replicate 16 0xdeadbeef#32, by simp, rfl⟩, by simp, by simp, fun code text hr => ⟨ByteArray.empty, ?_⟩⟩
    have hx : ∃ x : Int × String, Returns (Model.KatGen.nistkat_main Native.portable s.rank 1 (fun _ _ => Buf.ofList (List.replicate 16 0xdeadbeef#32)) ⟨Buf.uninit UInt8 32, Buf.uninit UInt8 16⟩ 1) x := ⟨_, hr⟩
    unfold world
    simp only [dif_pos hx]
    rw [Returns.unique hx.choose_spec hr]
  · intro h s pre
    refine ⟨Native.portable, C66_backends.1, fun code text hr => ⟨ByteArray.empty, ?_⟩⟩
    have hx : ∃ x : Int × String, Returns (Model.KatGen.kat_main Native.portable s.rank 1 1) x := ⟨_, hr⟩
    unfold world
    simp only [dif_pos hx]
    rw [Returns.unique hx.choose_spec hr]

end Verif.Vectors.Kat

import Verif.Proof.TraceHash
import Verif.Proof.Kem
/-! # Traces of the KEM functions -/
namespace Verif
open Model Spec

attribute [local irreducible] keccakF partialK finK blocksK sqByte SHAKE256 SHA3_256 SHA3_512 SHAKE128

theorem forFrom_congr {σ : Type} {body body' : Nat → σ → M σ} :
    ∀ (n lo : Nat) (_ : ∀ i s, lo ≤ i → i < lo + n → body i s = body' i s) (s : σ), forFrom lo n s body = forFrom lo n s body' := by
  intro n
  induction n with
  | zero => intro lo _ s; rfl
  | succ n ih =>
    intro lo h s
    simp only [forFrom]
    rw [h lo s (Nat.le_refl _) (by omega)]
    congr 1; funext _; congr 1; funext s
    exact ih _ (fun i s h1 h2 => h i s (by omega) (by omega)) s

theorem rd_congr {α : Type} {b b' : Buf α} {i j : Nat} (hij : i = j) (h : b[i]? = b'[i]?) : rd b i = rd b' j := by
  subst hij; unfold rd; rw [h]

theorem memcpy_congr {d s s' : Buf UInt8} {dof sof n : Nat} (h : ∀ i, i < n → s[sof + i]? = s'[sof + i]?) : memcpy d dof s sof n = memcpy d dof s' sof n := by
  unfold memcpy
  refine forFrom_congr _ _ (fun i d _ hi => ?_) _
  rw [rd_congr rfl (h i (by omega))]

theorem memcmpLoop_congr {a a' b b' : Buf UInt8} {ao bo : Nat} :
    ∀ (n i : Nat) (_ : ∀ j, i ≤ j → j < i + n → a[ao + j]? = a'[ao + j]? ∧ b[bo + j]? = b'[bo + j]?), memcmpLoop a ao b bo i n = memcmpLoop a' ao b' bo i n := by
  intro n
  induction n with
  | zero => intro i _; rfl
  | succ n ih =>
    intro i h
    simp only [memcmpLoop]
    rw [rd_congr rfl (h i (Nat.le_refl _) (by omega)).1, rd_congr rfl (h i (Nat.le_refl _) (by omega)).2, ih _ fun j h1 h2 => h j (by omega) (by omega)]

theorem memcmp_congr {a a' b b' : Buf UInt8} {ao bo n : Nat} (h : ∀ j, j < n → a[ao + j]? = a'[ao + j]? ∧ b[bo + j]? = b'[bo + j]?) : memcmp a ao b bo n = memcmp a' ao b' bo n :=
  memcmpLoop_congr n 0 fun j _ hj => h j (by omega)

theorem gen_matrix_congr {K fuel : Nat} {a : PolyVec} {s s' : Buf UInt8} {so : Nat} {tr : Bool} (h : ∀ i, i < 32 → s[so + i]? = s'[so + i]?) :
    gen_matrix K fuel a s so tr = gen_matrix K fuel a s' so tr := by
  unfold gen_matrix
  rw [memcpy_congr h]

theorem silent_matRow {K : Nat} {a : PolyVec} {i : Nat} : Silent (matRow K a i) := by
  unfold matRow; split
  · exact silent_ret _
  · exact silent_fail _
theorem si_matRow {K : Nat} {a a' : PolyVec} {i : Nat} : SI (matRow K a i) (matRow K a' i) := SI.silent silent_matRow silent_matRow
macro_rules | `(tactic| si_leaf) => `(tactic| with_reducible exact si_matRow)

theorem si_matvec_mul {K : Nat} {o o' a a' v v' c c' : PolyVec} : SI (matvec_mul K o a v c) (matvec_mul K o' a' v' c') := by unfold matvec_mul; si
macro_rules | `(tactic| si_leaf) => `(tactic| with_reducible exact si_matvec_mul)

theorem si_keypairNoise {K : Nat} {a a' b b' c c' : PolyVec} {s s' : Buf UInt8} {so : Nat} : SI (keypairNoise K a b c s so) (keypairNoise K a' b' c' s' so) := by
  unfold keypairNoise; si
macro_rules | `(tactic| si_leaf) => `(tactic| with_reducible exact si_keypairNoise)

theorem si_encNoise {K : Nat} {a a' b b' c c' : PolyVec} {p p' : Model.Poly} {s s' : Buf UInt8} {so : Nat} : SI (encNoise K a b p c s so) (encNoise K a' b' p' c' s' so) := by
  unfold encNoise; si
macro_rules | `(tactic| si_leaf) => `(tactic| with_reducible exact si_encNoise)

theorem si_pack_pk {K : Nat} {r r' : Buf UInt8} {v v' : PolyVec} {s s' : Buf UInt8} {so : Nat} : SI (pack_pk K r v s so) (pack_pk K r' v' s' so) := by unfold pack_pk; si
theorem si_pack_sk {K : Nat} {r r' : Buf UInt8} {v v' : PolyVec} : SI (pack_sk K r v) (pack_sk K r' v') := by unfold pack_sk; si
theorem si_unpack_sk {K : Nat} {r r' : PolyVec} {v v' : Buf UInt8} : SI (unpack_sk K r v) (unpack_sk K r' v') := by unfold unpack_sk; si
theorem si_pack_ciphertext {K : Nat} {r r' : Buf UInt8} {b b' : PolyVec} {v v' : Model.Poly} : SI (pack_ciphertext K r b v) (pack_ciphertext K r' b' v') := by unfold pack_ciphertext; si
theorem si_unpack_ciphertext {K : Nat} {c c' : Buf UInt8} {b b' : PolyVec} {v v' : Model.Poly} : SI (unpack_ciphertext K b v c) (unpack_ciphertext K b' v' c') := by unfold unpack_ciphertext; si
macro_rules | `(tactic| si_leaf) => `(tactic| with_reducible exact si_pack_pk)
macro_rules | `(tactic| si_leaf) => `(tactic| with_reducible exact si_pack_sk)
macro_rules | `(tactic| si_leaf) => `(tactic| with_reducible exact si_unpack_sk)
macro_rules | `(tactic| si_leaf) => `(tactic| with_reducible exact si_pack_ciphertext)
macro_rules | `(tactic| si_leaf) => `(tactic| with_reducible exact si_unpack_ciphertext)

theorem si_indcpa_dec {K : Nat} {m m' c c' sk sk' : Buf UInt8} : SI (indcpa_dec K m c sk) (indcpa_dec K m' c' sk') := by unfold indcpa_dec; si

/-- The trace of encryption depends on the public seed only. -/
theorem si_indcpa_enc {K fuel : Nat} {c c' m m' pk pk' r r' : Buf UInt8} {mo po ro : Nat}
    (h : ∀ i, i < 32 → pk[po + MLKEM_POLYVECBYTES K + i]? = pk'[po + MLKEM_POLYVECBYTES K + i]?) :
    SI (indcpa_enc K fuel c m mo pk po r ro) (indcpa_enc K fuel c' m' mo pk' po r' ro) := by
  unfold indcpa_enc
  refine SIR.bind2 (R := fun a b => a.2 = b.2) ?_ ?_
  · unfold unpack_pk
    refine SIR.bind si_polyvec_frombytes fun _ _ _ => SIR.bind (SIR.of_eq (memcpy_congr h)) fun s s' e => ?_
    exact SIR.bind si_polyvec_reduce fun _ _ _ => SIR.pure e
  · rintro p s p' s' e
    obtain rfl : s = s' := e
    dsimp only
    refine SIR.bind si_poly_frommsg fun _ _ _ => SIR.bind (SIR.refl _) fun a a' e => ?_
    subst e
    si

theorem G_seg_get {b : Buf UInt8} {x : List UInt8} (h : SegL b 0 (SHA3_512 x)) {i : Nat} (hi : i < 32) : b[i]? = some (some (((SHA3_512 x).take 32).getD i 0)) := by
  have hl := SHA3_512_length x
  have := h i (by omega)
  rw [Nat.zero_add] at this
  rw [this, getD_take _ _ hi]

/-- The trace of key generation depends on the public seed only. -/
theorem si_indcpa_keypair {K fuel : Nat} {pk pk' sk sk' coins coins' : Buf UInt8} {d d' : List UInt8} (hd : d.length = 32) (hd' : d'.length = 32)
    (hc : SegL coins 0 d) (hc' : SegL coins' 0 d') (hρ : (SHA3_512 (d ++ [UInt8.ofNat K])).take 32 = (SHA3_512 (d' ++ [UInt8.ofNat K])).take 32) :
    SI (indcpa_keypair_derand K fuel pk sk coins) (indcpa_keypair_derand K fuel pk' sk' coins') := by
  unfold indcpa_keypair_derand
  refine SIR.bind (si_memcpy.andPost (F := False) (memcpyL_spec hd (by simp) hc) (memcpyL_spec hd' (by simp) hc')) fun c1 c1' ⟨_, h1, h1'⟩ => ?_
  refine SIR.bind SIR.wr fun c2 c2' ⟨e, e', _, _⟩ => ?_
  have hs : ∀ {c1 : Buf UInt8} {d : List UInt8} (_ : d.length = 32) (_ : WrittenL (Buf.uninit UInt8 (32 + 1)) c1 0 d),
      SegL (c1.setIfInBounds 32 (some (toU8 K))) 0 (d ++ [UInt8.ofNat K]) := by
    intro c1 d hd h1
    refine SegL.ofN (n := 33) (extKey_seg hd ?_) (by simp [hd])
    unfold WrittenL at h1; rwa [hd] at h1
  subst e; subst e'
  refine SIR.bind ((si_sha3_512 (by decide)).andPost (F := False) (hash_g_spec (by simp [hd]) (hs hd h1) (by omega) (by simp))
    (hash_g_spec (by simp [hd']) (hs hd' h1') (by omega) (by simp))) fun b b' ⟨_, hb, hb'⟩ => ?_
  refine SIR.bind (SIR.of_eq (gen_matrix_congr fun i hi => ?_)) fun a a' e => ?_
  · rw [Nat.zero_add, G_seg_get hb.segL hi, G_seg_get hb'.segL hi, hρ]
  · subst e
    si

theorem si_keypair_derand {K fuel : Nat} {pk pk' sk sk' coins coins' : Buf UInt8} {d d' : List UInt8} (hK : MLKEM_PUBLICKEYBYTES K + 200 < 2 ^ 64) (hd : d.length = 32) (hd' : d'.length = 32)
    (hc : SegL coins 0 d) (hc' : SegL coins' 0 d') (hρ : (SHA3_512 (d ++ [UInt8.ofNat K])).take 32 = (SHA3_512 (d' ++ [UInt8.ofNat K])).take 32) :
    SI (crypto_kem_keypair_derand K fuel pk sk coins) (crypto_kem_keypair_derand K fuel pk' sk' coins') := by
  unfold crypto_kem_keypair_derand
  exact SIR.bind2 (si_indcpa_keypair hd hd' hc hc' hρ) fun _ _ _ _ _ => SIR.bind si_memcpy fun _ _ _ => SIR.bind (si_sha3_256 hK) fun _ _ _ =>
    SIR.bind si_memcpy fun _ _ _ => SI.pure

theorem si_enc_derand {K fuel : Nat} {ct ct' ss ss' pk coins coins' : Buf UInt8} (hK : MLKEM_PUBLICKEYBYTES K + 200 < 2 ^ 64) :
    SI (crypto_kem_enc_derand K fuel ct ss pk coins) (crypto_kem_enc_derand K fuel ct' ss' pk coins') := by
  unfold crypto_kem_enc_derand
  refine SIR.bind (SIR.refl _) fun c c' e => ?_
  subst e
  exact SIR.branch SI.pure (SIR.bind si_memcpy fun _ _ _ => SIR.bind (si_sha3_256 hK) fun _ _ _ => SIR.bind (si_sha3_512 (by decide)) fun _ _ _ =>
    SIR.bind (si_indcpa_enc fun _ _ => rfl) fun _ _ _ => SIR.bind si_memcpy fun _ _ _ => SI.pure)

theorem si_dec {K fuel : Nat} {ss ss' ct ct' sk sk' : Buf UInt8} {ek h : List UInt8} (hK : MLKEM_PUBLICKEYBYTES K + 200 < 2 ^ 64) (hK' : MLKEM_CIPHERTEXTBYTES K + 200 < 2 ^ 64)
    (hek : ek.length = MLKEM_PUBLICKEYBYTES K) (hh : h.length = 32)
    (h1 : SegL sk (MLKEM_INDCPA_SECRETKEYBYTES K) ek) (h1' : SegL sk' (MLKEM_INDCPA_SECRETKEYBYTES K) ek)
    (h2 : SegL sk (MLKEM_SECRETKEYBYTES K - 2 * 32) h) (h2' : SegL sk' (MLKEM_SECRETKEYBYTES K - 2 * 32) h) :
    SI (crypto_kem_dec K fuel ss ct sk) (crypto_kem_dec K fuel ss' ct' sk') := by
  unfold crypto_kem_dec
  refine SIR.bind (R := Eq) ?_ ?_
  · unfold check_sk
    refine SIR.bind ((si_sha3_256 hK).andPost (F := False) (hash_h_spec hek h1 hK (by simp)) (hash_h_spec hek h1' hK (by simp))) fun t t' ⟨_, ht, ht'⟩ => ?_
    have e : t = t' := by rw [ht.whole (by rw [H_length]; simp), ht'.whole (by rw [H_length]; simp)]
    subst e
    refine SIR.bind (SIR.of_eq (memcmp_congr fun j hj => ⟨?_, rfl⟩)) fun d d' e => ?_
    · rw [h2 j (by omega), h2' j (by omega)]
    · subst e; exact SIR.refl _
  · rintro c _ rfl
    refine SIR.branch SI.pure (SIR.bind si_indcpa_dec fun _ _ _ => SIR.bind si_memcpy fun _ _ _ => SIR.bind (si_sha3_512 (by decide)) fun _ _ _ =>
      SIR.bind (si_indcpa_enc fun i hi => ?_) fun _ _ _ => SIR.bind si_ct_memcmp fun _ _ _ => SIR.bind (si_rkprf hK') fun _ _ _ => SIR.bind si_ct_cmov_zero fun _ _ _ => SI.pure)
    rw [Nat.add_assoc, h1 _ (by rw [hek, pkbytes_eq]; unfold MLKEM_POLYVECBYTES MLKEM_POLYBYTES; omega), h1' _ (by rw [hek, pkbytes_eq]; unfold MLKEM_POLYVECBYTES MLKEM_POLYBYTES; omega)]

end Verif

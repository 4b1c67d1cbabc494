import Verif.Proof.TraceFun
/-! # The hash functions have traces that depend only on lengths and offsets

The incremental functions keep the position in the block in cell 25 of the state; it is the same in two runs on inputs of equal length. -/
namespace Verif
open Model

/-- Cell 25 of both states, if initialised, holds `c`. -/
def At25 (c : W) (s s' : Buf W) : Prop := (∀ w, s[25]? = some (some w) → w = c) ∧ ∀ w, s'[25]? = some (some w) → w = c

/-- Both states have the same position, below the rate. -/
def Pos (r : Nat) (s s' : Buf W) : Prop := ∃ c : W, At25 c s s' ∧ c.toNat < r

theorem sir_wrNe25 {c : W} {s s' : Buf W} {i : Nat} {v w : W} (h : At25 c s s') (hi : i ≠ 25) : SIR (wr s i v) (wr s' i w) (At25 c) :=
  SIR.wr.mono fun x y ⟨e, e', _⟩ => ⟨fun z hz => h.1 z (by rwa [e, Array.getElem?_setIfInBounds_ne hi] at hz), fun z hz => h.2 z (by rwa [e', Array.getElem?_setIfInBounds_ne hi] at hz)⟩

theorem sir_wr25 {s s' : Buf W} {v : W} : SIR (wr s 25 v) (wr s' 25 v) (At25 v) :=
  SIR.wr.mono fun x y ⟨e, e', h, h'⟩ => ⟨fun z hz => by rw [e] at hz; simp [h] at hz; exact hz.symm, fun z hz => by rw [e'] at hz; simp [h'] at hz; exact hz.symm⟩

theorem sir_rd25 {c : W} {s s' : Buf W} (h : At25 c s s') : SIR (rd s 25) (rd s' 25) (fun x y => x = c ∧ y = c) :=
  SIR.rd.mono fun x y ⟨e, e'⟩ => ⟨h.1 x e, h.2 y e'⟩

theorem sir_permute25 {c : W} {s s' : Buf W} (h : At25 c s s') :
    SIR (KeccakF1600_StatePermute s 0) (KeccakF1600_StatePermute s' 0) (At25 c) := by
  unfold KeccakF1600_StatePermute
  refine SIR.bind si_copyFromState fun _ _ _ => SIR.bind (R := Any _ _) ?_ fun A A' _ => ?_
  · si
  · unfold copyToState
    iterate 24 (
      refine SIR.bind (sir_wrNe25 (c := c) ?_ ?_) fun _ _ _ => ?_
      · assumption
      · decide)
    refine sir_wrNe25 (c := c) ?_ ?_
    · assumption
    · decide

theorem sir_xor25 {c : W} {s s' : Buf W} {d d' : Buf UInt8} {dof o l : Nat} (hl : o + l ≤ 200) (h : At25 c s s') :
    SIR (KeccakF1600_StateXORBytes s 0 d dof o l) (KeccakF1600_StateXORBytes s' 0 d' dof o l) (At25 c) := by
  unfold KeccakF1600_StateXORBytes
  refine SIR.forFromB _ _ (fun i s s' _ hi h => ?_) _ _ h
  refine SIR.bind SI.rd fun _ _ _ => SIR.bind SI.rd fun _ _ _ => sir_wrNe25 h ?_
  have : u32 (o + i) = o + i := Nat.mod_eq_of_lt (by omega)
  rw [this, Nat.shiftRight_eq_div_pow]
  omega

theorem toNat_sub64 {r c : Nat} (h : c ≤ r) (hr : r < 2 ^ 64) : sub64 r c = r - c := by
  unfold sub64 u64; omega

theorem sir_inc_init {s s' : Buf W} {r : Nat} (hr : 0 < r) : SIR (keccak_inc_init s) (keccak_inc_init s') (Pos r) := by
  unfold keccak_inc_init
  refine SIR.bind (R := Any _ _) ?_ fun _ _ _ => sir_wr25.mono fun _ _ h => ⟨_, h, hr⟩
  si

theorem sir_inc_absorb {s s' : Buf W} {r : Nat} {m m' : Buf UInt8} {mo mlen : Nat} (hr : r < 200) (hm : mlen + 200 < 2 ^ 64) (h : Pos r s s') :
    SIR (keccak_inc_absorb s r m mo mlen) (keccak_inc_absorb s' r m' mo mlen) (Pos r) := by
  unfold keccak_inc_absorb
  refine SIR.bind3 (R := fun a b => a.2 = b.2 ∧ ∃ c : W, At25 c a.1 b.1 ∧ c.toNat + a.2.2 < r)
    (SIR.whileC (I := fun a b => a.2 = b.2 ∧ a.2.2 + 200 < 2 ^ 64 ∧ Pos r a.1 b.1)
      (L := fun a b => a.2 = b.2 ∧ a.2.2 + 200 < 2 ^ 64 ∧ ∃ c : W, At25 c a.1 b.1 ∧ c.toNat < r ∧ r ≤ c.toNat + a.2.2)
      ?_ ?_ _ _ _ ⟨rfl, hm, h⟩) ?_
  · rintro ⟨s, o, n⟩ ⟨s', o', n'⟩ ⟨e, hn, c, h1, h3⟩
    obtain ⟨rfl, rfl⟩ : o = o' ∧ n = n' := by simpa using e
    dsimp only at *
    refine SIR.bind (sir_rd25 h1) fun x y ⟨hx, hy⟩ => SIR.pure ?_
    subst hx; subst hy
    have hu : u64 (n + y.toNat) = n + y.toNat := Nat.mod_eq_of_lt (by omega)
    rw [hu]
    refine ⟨rfl, fun hb => ⟨rfl, hn, y, h1, h3, ?_⟩, fun hb => ⟨rfl, y, h1, ?_⟩⟩
    · have := of_decide_eq_true hb; omega
    · have := of_decide_eq_false hb; omega
  · rintro ⟨s, o, n⟩ ⟨s', o', n'⟩ ⟨e, hn, c, h1, h3, h4⟩
    obtain ⟨rfl, rfl⟩ : o = o' ∧ n = n' := by simpa using e
    dsimp only at *
    refine SIR.bind (sir_rd25 h1) fun x y ⟨hx, hy⟩ => ?_
    subst hx; subst hy
    rw [toNat_sub64 (r := r) (Nat.le_of_lt h3) (by omega), toNat_sub64 (r := n) (c := r - y.toNat) (by omega) (by omega)]
    refine SIR.bind si_xor fun _ _ _ => SIR.bind (sir_wr25 (v := 0#64)) fun u v h => ?_
    exact SIR.bind (sir_permute25 h) fun a b h => SIR.pure ⟨rfl, by dsimp only; omega, 0#64, h, show 0 < r by omega⟩
  · rintro s o n s' o' n' ⟨e, c, h1, h3⟩
    obtain ⟨rfl, rfl⟩ : o = o' ∧ n = n' := by simpa using e
    dsimp only at *
    refine SIR.bind (sir_rd25 h1) fun x y ⟨hx, hy⟩ => ?_
    subst hx; subst hy
    have e1 : u32 y.toNat = y.toNat := Nat.mod_eq_of_lt (by omega)
    have e2 : u32 n = n := Nat.mod_eq_of_lt (by omega)
    rw [e1, e2]
    refine SIR.bind (sir_xor25 (by omega) h1) fun a b h => SIR.bind (sir_rd25 h) fun u v ⟨hu, hv⟩ => ?_
    subst hu; subst hv
    refine sir_wr25.mono fun _ _ h => ⟨_, h, ?_⟩
    rw [BitVec.toNat_add, BitVec.toNat_ofNat]
    omega

theorem sir_inc_finalize {s s' : Buf W} {r : Nat} {p : UInt8} (hr : r < 200) (h : Pos r s s') :
    SIR (keccak_inc_finalize s r p) (keccak_inc_finalize s' r p) (Pos r) := by
  unfold keccak_inc_finalize
  obtain ⟨c, h1, h3⟩ := h
  refine SIR.bind (sir_rd25 h1) fun x y ⟨hx, hy⟩ => ?_
  subst hx; subst hy
  refine SIR.bind (R := Any _ _) ?_ fun _ _ _ => sir_wr25.mono fun _ _ h => ⟨_, h, show 0 < r by omega⟩
  exact SIR.branch si_xor (SIR.bind si_xor fun _ _ _ => si_xor)

theorem sir_inc_squeeze {s s' : Buf W} {r : Nat} {h h' : Buf UInt8} {ho n : Nat} (hp : Pos r s s') :
    SI (keccak_inc_squeeze h ho n s r) (keccak_inc_squeeze h' ho n s' r) := by
  unfold keccak_inc_squeeze
  obtain ⟨c, h1, h3⟩ := hp
  refine SIR.bind (sir_rd25 h1) fun x y ⟨hx, hy⟩ => ?_
  subst hx; subst hy
  refine SIR.bind (R := Eq) (SIR.refl _) fun l l' e => ?_
  subst e
  refine SIR.bind si_extract fun _ _ _ => SIR.bind SI.wr fun u v h => ?_
  refine SIR.bind4 (R := Any _ _) (SIR.mono (SIR.whileM (I := fun a b => a.2.2 = b.2.2) ?_ ?_ _ _ _ rfl) fun _ _ _ => trivial) fun _ _ _ _ _ _ _ _ _ => SI.pure
  · rintro ⟨_, _, o, n⟩ ⟨_, _, o', n'⟩ e
    obtain ⟨rfl, rfl⟩ : o = o' ∧ n = n' := by simpa using e
    exact SIR.refl _
  · rintro ⟨_, _, o, n⟩ ⟨_, _, o', n'⟩ e
    obtain ⟨rfl, rfl⟩ : o = o' ∧ n = n' := by simpa using e
    dsimp only
    refine SIR.bind si_permute fun _ _ _ => SIR.bind (SIR.refl _) fun l l' e => ?_
    subst e
    exact SIR.bind si_extract fun _ _ _ => SIR.bind SI.wr fun _ _ _ => SIR.pure rfl

theorem si_shake256 {o o' i i' : Buf UInt8} {oo n io l : Nat} (hl : l + 200 < 2 ^ 64) : SI (shake256 o oo n i io l) (shake256 o' oo n i' io l) := by
  unfold shake256
  exact SIR.bind (sir_inc_init (r := SHAKE256_RATE) (by decide)) fun _ _ h => SIR.bind (sir_inc_absorb (by decide) hl h) fun _ _ h =>
    SIR.bind (sir_inc_finalize (by decide) h) fun _ _ h => SIR.bind (sir_inc_squeeze h) fun _ _ _ => SI.pure

theorem si_sha3_256 {o o' i i' : Buf UInt8} {oo io l : Nat} (hl : l + 200 < 2 ^ 64) : SI (sha3_256 o oo i io l) (sha3_256 o' oo i' io l) := by
  unfold sha3_256
  exact SIR.bind (sir_inc_init (r := SHA3_256_RATE) (by decide)) fun _ _ h => SIR.bind (sir_inc_absorb (by decide) hl h) fun _ _ h =>
    SIR.bind (sir_inc_finalize (by decide) h) fun _ _ h => SIR.bind (sir_inc_squeeze h) fun _ _ _ => SI.pure

theorem si_sha3_512 {o o' i i' : Buf UInt8} {oo io l : Nat} (hl : l + 200 < 2 ^ 64) : SI (sha3_512 o oo i io l) (sha3_512 o' oo i' io l) := by
  unfold sha3_512
  exact SIR.bind (sir_inc_init (r := SHA3_512_RATE) (by decide)) fun _ _ h => SIR.bind (sir_inc_absorb (by decide) hl h) fun _ _ h =>
    SIR.bind (sir_inc_finalize (by decide) h) fun _ _ h => SIR.bind (sir_inc_squeeze h) fun _ _ _ => SI.pure

theorem si_prf {o o' k k' : Buf UInt8} {n ko : Nat} {x y : UInt8} : SI (prf o n k ko x) (prf o' n k' ko y) := by
  unfold prf
  exact SIR.bind si_memcpy fun _ _ _ => SIR.bind SI.wr fun _ _ _ => si_shake256 (by decide)
macro_rules | `(tactic| si_leaf) => `(tactic| with_reducible exact si_prf)

theorem si_rkprf {K : Nat} {o o' k k' c c' : Buf UInt8} {ko : Nat} (hK : MLKEM_CIPHERTEXTBYTES K + 200 < 2 ^ 64) : SI (rkprf K o k ko c) (rkprf K o' k' ko c') := by
  unfold rkprf
  exact SIR.bind (sir_inc_init (r := SHAKE256_RATE) (by decide)) fun _ _ h => SIR.bind (sir_inc_absorb (by decide) (by decide) h) fun _ _ h =>
    SIR.bind (sir_inc_absorb (by decide) hK h) fun _ _ h =>
    SIR.bind (sir_inc_finalize (by decide) h) fun _ _ h => SIR.bind (sir_inc_squeeze h) fun _ _ _ => SI.pure

/-! ## One-shot absorption and block squeezing -/

theorem si_keccak_absorb {s s' : Buf W} {r : Nat} {m m' : Buf UInt8} {mo n : Nat} {p : UInt8} : SI (keccak_absorb s r m mo n p) (keccak_absorb s' r m' mo n p) := by
  unfold keccak_absorb
  refine SIR.bind3 (R := fun a b => a.2 = b.2) (SIR.whileM (I := fun (a b : Buf W × Nat × Nat) => a.2 = b.2) ?_ ?_ _ _ _ rfl) ?_
  · rintro ⟨_, o, n⟩ ⟨_, o', n'⟩ e
    obtain ⟨rfl, rfl⟩ : o = o' ∧ n = n' := by simpa using e
    exact SIR.refl _
  · rintro ⟨_, o, n⟩ ⟨_, o', n'⟩ e
    obtain ⟨rfl, rfl⟩ : o = o' ∧ n = n' := by simpa using e
    exact SIR.bind si_xor fun _ _ _ => SIR.bind si_permute fun _ _ _ => SIR.pure rfl
  · rintro _ o n _ o' n' e
    obtain ⟨rfl, rfl⟩ : o = o' ∧ n = n' := by simpa using e
    dsimp only
    si

theorem si_keccak_squeezeblocks {s s' : Buf W} {r : Nat} {h h' : Buf UInt8} {ho n : Nat} : SI (keccak_squeezeblocks h ho n s r) (keccak_squeezeblocks h' ho n s' r) := by
  unfold keccak_squeezeblocks
  refine SIR.bind4 (R := Any _ _) (SIR.mono (SIR.whileM (I := fun a b => a.2.2 = b.2.2) ?_ ?_ _ _ _ rfl) fun _ _ _ => trivial) fun _ _ _ _ _ _ _ _ _ => SI.pure
  · rintro ⟨_, _, o, n⟩ ⟨_, _, o', n'⟩ e
    obtain ⟨rfl, rfl⟩ : o = o' ∧ n = n' := by simpa using e
    exact SIR.refl _
  · rintro ⟨_, _, o, n⟩ ⟨_, _, o', n'⟩ e
    obtain ⟨rfl, rfl⟩ : o = o' ∧ n = n' := by simpa using e
    exact SIR.bind si_permute fun _ _ _ => SIR.bind si_extract fun _ _ _ => SIR.pure rfl

theorem si_keccak_absorb_x4 {s s' : Buf W} {r : Nat} {m m' : Four (Buf UInt8)} {mo n : Nat} {p : UInt8} :
    SI (keccak_absorb_x4 s r m mo n p) (keccak_absorb_x4 s' r m' mo n p) := by
  unfold keccak_absorb_x4
  refine SIR.bind3 (R := fun a b => a.2 = b.2) (SIR.whileM (I := fun (a b : Buf W × Nat × Nat) => a.2 = b.2) ?_ ?_ _ _ _ rfl) ?_
  · rintro ⟨_, o, n⟩ ⟨_, o', n'⟩ e
    obtain ⟨rfl, rfl⟩ : o = o' ∧ n = n' := by simpa using e
    exact SIR.refl _
  · rintro ⟨_, o, n⟩ ⟨_, o', n'⟩ e
    obtain ⟨rfl, rfl⟩ : o = o' ∧ n = n' := by simpa using e
    exact SIR.bind si_xor4 fun _ _ _ => SIR.bind si_permute4 fun _ _ _ => SIR.pure rfl
  · rintro _ o n _ o' n' e
    obtain ⟨rfl, rfl⟩ : o = o' ∧ n = n' := by simpa using e
    dsimp only
    si

theorem si_keccak_squeezeblocks_x4 {s s' : Buf W} {r : Nat} {h h' : Four (Buf UInt8)} {ho n : Nat} :
    SI (keccak_squeezeblocks_x4 h ho n s r) (keccak_squeezeblocks_x4 h' ho n s' r) := by
  unfold keccak_squeezeblocks_x4
  refine SIR.bind4 (R := Any _ _) (SIR.mono (SIR.whileM (I := fun a b => a.2.2 = b.2.2) ?_ ?_ _ _ _ rfl) fun _ _ _ => trivial) fun _ _ _ _ _ _ _ _ _ => SI.pure
  · rintro ⟨_, _, o, n⟩ ⟨_, _, o', n'⟩ e
    obtain ⟨rfl, rfl⟩ : o = o' ∧ n = n' := by simpa using e
    exact SIR.refl _
  · rintro ⟨_, _, o, n⟩ ⟨_, _, o', n'⟩ e
    obtain ⟨rfl, rfl⟩ : o = o' ∧ n = n' := by simpa using e
    exact SIR.bind si_permute4 fun _ _ _ => SIR.bind si_extract4 fun _ _ _ => SIR.pure rfl

macro_rules | `(tactic| si_leaf) => `(tactic| with_reducible exact si_keccak_absorb)
macro_rules | `(tactic| si_leaf) => `(tactic| with_reducible exact si_keccak_absorb_x4)
macro_rules | `(tactic| si_leaf) => `(tactic| with_reducible exact si_keccak_squeezeblocks)
macro_rules | `(tactic| si_leaf) => `(tactic| with_reducible exact si_keccak_squeezeblocks_x4)

theorem si_shake128_absorb {s s' : Buf W} {m m' : Buf UInt8} {mo n : Nat} : SI (shake128_absorb s m mo n) (shake128_absorb s' m' mo n) := by
  unfold shake128_absorb; si
theorem si_shake128_squeezeblocks {s s' : Buf W} {h h' : Buf UInt8} {ho n : Nat} : SI (shake128_squeezeblocks h ho n s) (shake128_squeezeblocks h' ho n s') := by
  unfold shake128_squeezeblocks; si
theorem si_shake128x4_absorb {s s' : Buf W} {m m' : Four (Buf UInt8)} {mo n : Nat} : SI (shake128x4_absorb s m mo n) (shake128x4_absorb s' m' mo n) := by
  unfold shake128x4_absorb zeroState_x4; si
theorem si_shake256x4_absorb {s s' : Buf W} {m m' : Four (Buf UInt8)} {mo n : Nat} : SI (shake256x4_absorb s m mo n) (shake256x4_absorb s' m' mo n) := by
  unfold shake256x4_absorb zeroState_x4; si
theorem si_shake128x4_squeezeblocks {s s' : Buf W} {h h' : Four (Buf UInt8)} {ho n : Nat} :
    SI (shake128x4_squeezeblocks h ho n s) (shake128x4_squeezeblocks h' ho n s') := by
  unfold shake128x4_squeezeblocks; si
theorem si_shake256x4_squeezeblocks {s s' : Buf W} {h h' : Four (Buf UInt8)} {ho n : Nat} :
    SI (shake256x4_squeezeblocks h ho n s) (shake256x4_squeezeblocks h' ho n s') := by
  unfold shake256x4_squeezeblocks; si
macro_rules | `(tactic| si_leaf) => `(tactic| with_reducible exact si_shake256x4_absorb)
macro_rules | `(tactic| si_leaf) => `(tactic| with_reducible exact si_shake256x4_squeezeblocks)

theorem si_shake256x4 {o o' i i' : Four (Buf UInt8)} {n io l : Nat} : SI (shake256x4 o n i io l) (shake256x4 o' n i' io l) := by
  unfold shake256x4; si
macro_rules | `(tactic| si_leaf) => `(tactic| with_reducible exact si_shake256x4)
macro_rules | `(tactic| si_leaf) => `(tactic| with_reducible exact si_shake256 (by decide))

/-! ## Noise -/

theorem si_extKey {s s' : Buf UInt8} {so : Nat} : SI (extKey s so) (extKey s' so) := by unfold extKey; si
macro_rules | `(tactic| si_leaf) => `(tactic| with_reducible exact si_extKey)

theorem si_getnoise_eta1_4x {K : Nat} {r r' : Four Poly} {s s' : Buf UInt8} {so : Nat} {n n' : Four UInt8} :
    SI (poly_getnoise_eta1_4x K r s so n) (poly_getnoise_eta1_4x K r' s' so n') := by
  unfold poly_getnoise_eta1_4x; si
macro_rules | `(tactic| si_leaf) => `(tactic| with_reducible exact si_getnoise_eta1_4x)

theorem si_getnoise_eta2_4x {K : Nat} {r r' : Four Poly} {s s' : Buf UInt8} {so : Nat} {n n' : Four UInt8} :
    SI (poly_getnoise_eta2_4x K r s so n) (poly_getnoise_eta2_4x K r' s' so n') := by
  unfold poly_getnoise_eta2_4x; si
macro_rules | `(tactic| si_leaf) => `(tactic| with_reducible exact si_getnoise_eta2_4x)

theorem si_getnoise_eta2 {K : Nat} {r r' : Poly} {s s' : Buf UInt8} {so : Nat} {n n' : UInt8} :
    SI (poly_getnoise_eta2 K r s so n) (poly_getnoise_eta2 K r' s' so n') := by
  unfold poly_getnoise_eta2; si
macro_rules | `(tactic| si_leaf) => `(tactic| with_reducible exact si_getnoise_eta2)

theorem si_getnoise_eta1122_4x {K : Nat} {r r' : Four Poly} {s s' : Buf UInt8} {so : Nat} {n n' : Four UInt8} :
    SI (poly_getnoise_eta1122_4x K r s so n) (poly_getnoise_eta1122_4x K r' s' so n') := by
  unfold poly_getnoise_eta1122_4x; si
macro_rules | `(tactic| si_leaf) => `(tactic| with_reducible exact si_getnoise_eta1122_4x)

end Verif

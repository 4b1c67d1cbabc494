import Verif.Props.Backend
/-! # The hash functions of a build on any backend that keeps the contract (C63)

As C26 - C28; with C62 they hold for the portable, the AVX2 and the AArch64 build. -/
namespace Verif.Props
open Verif Verif.Model Verif.Spec Finset

attribute [local irreducible] keccakF partialK finK blocksK sqByte SHAKE256 SHA3_256 SHA3_512 SHAKE128

variable {bk : Native.Backend} {order : Nat → Nat} {IsCache : Buf Int → (Nat → Int) → Prop}

/-! ## C63: one-shot functions -/

/-- **C63.** `sha3_256` is FIPS 202 SHA3-256 on every message. -/
theorem C63_sha3_256 (hb : Contract bk order IsCache) (m : List UInt8) (hm : m.length + 200 < 2 ^ 64) (out : Buf UInt8) (ho : out.size = 32) :
    Returns (Native.sha3_256 bk out 0 (Buf.ofList m) 0 m.length) (Buf.ofList (SHA3_256 m)) :=
  ret_eq (Native.sha3_256_spec hb.meets (SegL_ofList m) (by norm_num at hm; omega) (by omega)) fun _ h => whole_list h ho (by unfold SHA3_256 keccakBytes; simp)

/-- **C63.** `sha3_512` is FIPS 202 SHA3-512 on every message. -/
theorem C63_sha3_512 (hb : Contract bk order IsCache) (m : List UInt8) (hm : m.length + 200 < 2 ^ 64) (out : Buf UInt8) (ho : out.size = 64) :
    Returns (Native.sha3_512 bk out 0 (Buf.ofList m) 0 m.length) (Buf.ofList (SHA3_512 m)) :=
  ret_eq (Native.sha3_512_spec hb.meets (SegL_ofList m) (by norm_num at hm; omega) (by omega)) fun _ h => whole_list h ho (by unfold SHA3_512 keccakBytes; simp)

/-- **C63.** `shake256` is FIPS 202 SHAKE256 on every message and for every output length. -/
theorem C63_shake256 (hb : Contract bk order IsCache) (m : List UInt8) (hm : m.length + 200 < 2 ^ 64) (n : Nat) (hn : n < 2 ^ 64) (out : Buf UInt8) (ho : out.size = n) :
    Returns (Native.shake256 bk out 0 n (Buf.ofList m) 0 m.length) (Buf.ofList (SHAKE256 m n)) :=
  ret_eq (Native.shake256_spec hb.meets (SegL_ofList m) (by norm_num at hm; omega) (by omega) (by norm_num at hn; omega)) fun _ h => whole_list h ho (by unfold SHAKE256 keccakBytes; simp)

/-! ## C63: incremental SHAKE256 -/

/-- Absorb the chunks one after the other. -/
def nativeAbsorbAll (bk : Native.Backend) : List (List UInt8) → Buf Model.W → M (Buf Model.W)
  | [], s => pure s
  | c :: cs, s => do
    let s ← Native.shake256_inc_absorb bk s (Buf.ofList c) 0 c.length
    nativeAbsorbAll bk cs s

/-- Squeeze the given numbers of bytes one after the other, each into a fresh buffer. -/
def nativeSqueezeAll (bk : Native.Backend) : List Nat → Buf Model.W → M (List (Buf UInt8))
  | [], _ => pure []
  | n :: ns, s => do
    let (o, s) ← Native.shake256_inc_squeeze bk (Buf.uninit UInt8 n) 0 n s
    let os ← nativeSqueezeAll bk ns s
    pure (o :: os)

/-- A whole session with the incremental interface. -/
def nativeSession (bk : Native.Backend) (chunks : List (List UInt8)) (lens : List Nat) : M (List (Buf UInt8)) := do
  let s ← shake256_inc_init (Buf.uninit Model.W 26)
  let s ← nativeAbsorbAll bk chunks s
  let s ← shake256_inc_finalize s
  nativeSqueezeAll bk lens s

theorem nativeAbsorbAll_spec (hM : Native.Meets bk order IsCache) {B : Nat → UInt8} (chunks : List (List UInt8)) (hs : ∀ c ∈ chunks, c.length + 200 < 18446744073709551616) : ∀ {s : Buf Model.W} {n : Nat}, IncAbs s 136 B n →
    (∀ j, j < chunks.flatten.length → B (n + j) = chunks.flatten.getD j 0) → Post (nativeAbsorbAll bk chunks s) (fun s' => IncAbs s' 136 B (n + chunks.flatten.length)) := by
  induction chunks with
  | nil =>
    intro s n h _
    change PostF False _ _
    unfold nativeAbsorbAll
    rw [wp_pure]; simpa using h
  | cons c cs ih =>
    intro s n h hB
    change PostF False _ _
    unfold nativeAbsorbAll
    rw [wp_bind]
    have hfl : (c :: cs).flatten = c ++ cs.flatten := rfl
    rw [hfl] at hB ⊢
    rw [List.length_append] at hB ⊢
    refine Post.use (Native.keccak_inc_absorb_spec hM (rb := 136) (by decide) (by decide) h (mlen := c.length) (fun j hj => ?_) (hs c (by simp))) fun s' h' => ?_
    · have := SegL_ofList c j hj
      have e := hB j (by omega)
      rw [getD_append, if_pos hj] at e
      beta_reduce
      rw [e]; exact this
    · rw [← Nat.add_assoc]
      refine ih (fun c' hc' => hs c' (by simp [hc'])) h' fun j hj => ?_
      have e := hB (c.length + j) (by omega)
      rw [getD_append, if_neg (by omega), Nat.add_sub_cancel_left] at e
      rw [Nat.add_assoc]; exact e

theorem nativeSqueezeAll_spec (hM : Native.Meets bk order IsCache) {T : KState} (lens : List Nat) (hs : ∀ n ∈ lens, n < 18446744073709551616) : ∀ {s : Buf Model.W} {n : Nat}, IncSq s 136 T n →
    Post (nativeSqueezeAll bk lens s) (fun r => ∃ outs : List (List UInt8), r = outs.map Buf.ofList ∧ outs.map List.length = lens ∧ outs.flatten = (List.range lens.sum).map fun j => sqByte 136 T (n + j)) := by
  induction lens with
  | nil =>
    intro s n h
    change PostF False _ _
    unfold nativeSqueezeAll
    rw [wp_pure]; exact ⟨[], rfl, rfl, rfl⟩
  | cons k ks ih =>
    intro s n h
    change PostF False _ _
    unfold nativeSqueezeAll Native.shake256_inc_squeeze
    simp only [wp_bind, wp_pure]
    refine Post.use (Native.keccak_inc_squeeze_spec hM (rb := 136) (by decide) (by decide) h (by simp) (hs k (by simp))) fun x hx => ?_
    refine Post.use (ih (fun k' hk' => hs k' (by simp [hk'])) hx.2) fun r ⟨outs, h1, h2, h3⟩ => ?_
    refine ⟨((List.range k).map fun j => sqByte 136 T (n + j)) :: outs, ?_, ?_, ?_⟩
    · rw [List.map_cons, ← h1, (hx.1.holds (by simp)).eq_ofList]
    · simp [h2]
    · rw [List.flatten_cons, h3, List.sum_cons, List.range_add, List.map_append, List.map_map]
      congr 1
      exact List.map_congr_left fun j _ => by simp [Nat.add_assoc]

/-- **C63.** Whatever the chunks and the output lengths, the outputs have the requested lengths and their concatenation is the one-shot SHAKE256 output of the concatenated chunks. -/
theorem C63_incremental (hb : Contract bk order IsCache) (chunks : List (List UInt8)) (lens : List Nat) (hc : ∀ c ∈ chunks, c.length + 200 < 2 ^ 64) (hl : ∀ n ∈ lens, n < 2 ^ 64) :
    ∃ outs : List (List UInt8), Returns (nativeSession bk chunks lens) (outs.map Buf.ofList) ∧ outs.map List.length = lens ∧ outs.flatten = SHAKE256 chunks.flatten lens.sum := by
  have key : Post (nativeSession bk chunks lens) (fun r => ∃ outs : List (List UInt8), r = outs.map Buf.ofList ∧ outs.map List.length = lens ∧ outs.flatten = SHAKE256 chunks.flatten lens.sum) := by
    unfold nativeSession shake256_inc_init shake256_inc_finalize
    simp only [wp_bind]
    refine Post.use (keccak_inc_init_spec (by simp) 136 (fun j => chunks.flatten.getD j 0)) fun s1 h1 => ?_
    refine Post.use (nativeAbsorbAll_spec hb.meets chunks hc h1 fun j _ => by rw [Nat.zero_add]) fun s2 h2 => ?_
    refine Post.use (keccak_inc_finalize_spec (rb := 136) (by decide) (by decide) (by decide) h2) fun s3 h3 => ?_
    refine Post.use (nativeSqueezeAll_spec hb.meets lens hl h3) fun r ⟨outs, e1, e2, e3⟩ => ⟨outs, e1, e2, ?_⟩
    rw [e3, SHAKE256_eq]
    exact List.map_congr_left fun j _ => by rw [Nat.zero_add, Nat.zero_add]
  obtain ⟨r, hr, outs, rfl, h2, h3⟩ := ret_of_post key
  exact ⟨outs, hr, h2, h3⟩

/-! ## C63: four-way functions -/

/-- **C63.** `shake256x4` returns four times what `shake256` returns on the corresponding input, and both are FIPS 202 SHAKE256. -/
theorem C63_shake256x4 (hb : Contract bk order IsCache) (m : Fin 4 → List UInt8) (k : Nat) (hm : ∀ w, (m w).length = k) (hk : k + 200 < 2 ^ 64) (n : Nat) (hn : n < 2 ^ 64) (out : Fin 4 → Buf UInt8) (ho : ∀ w, (out w).size = n) :
    Returns (Native.shake256x4 bk (fourOf out) n (fourOf fun w => Buf.ofList (m w)) 0 k) (fourOf fun w => Buf.ofList (SHAKE256 (m w) n)) ∧
    ∀ w, Returns (Native.shake256 bk (out w) 0 n (Buf.ofList (m w)) 0 k) (Buf.ofList (SHAKE256 (m w) n)) := by
  have hl : ∀ w, (SHAKE256 (m w) n).length = n := fun w => by unfold SHAKE256 keccakBytes; simp
  refine ⟨?_, fun w => by rw [← hm w]; exact C63_shake256 hb (m w) (by rw [hm w]; exact hk) n hn (out w) (ho w)⟩
  refine ret_eq (Native.shake256x4_spec hb.meets (Ms := fun w => m (Fin.ofNat 4 w)) (fun w _ => hm _) ⟨(SegL_ofList (m 0)).toN (hm 0), (SegL_ofList (m 1)).toN (hm 1), (SegL_ofList (m 2)).toN (hm 2),
    (SegL_ofList (m 3)).toN (hm 3)⟩ ⟨(ho 0).ge, (ho 1).ge, (ho 2).ge, (ho 3).ge⟩) fun r h => ?_
  obtain ⟨r0, r1, r2, r3⟩ := r
  unfold fourOf
  rw [Four.mk.injEq]
  exact ⟨whole_list h.s0 (ho 0) (hl 0), whole_list h.s1 (ho 1) (hl 1), whole_list h.s2 (ho 2) (hl 2), whole_list h.s3 (ho 3) (hl 3)⟩

/-- Absorb and then squeeze `a` blocks into one buffer and `b` blocks into another, with the single-instance functions. -/
def nativeShake128_ab (bk : Native.Backend) (m : Buf UInt8) (len a b : Nat) : M (Buf UInt8 × Buf UInt8) := do
  let s ← Native.shake128_absorb bk (Buf.uninit Model.W 25) m 0 len
  let (x, s) ← Native.shake128_squeezeblocks bk (Buf.uninit UInt8 (168 * a)) 0 a s
  let (y, _) ← Native.shake128_squeezeblocks bk (Buf.uninit UInt8 (168 * b)) 0 b s
  pure (x, y)

/-- The same with the four-way functions. -/
def nativeShake128x4_ab (bk : Native.Backend) (m : Four (Buf UInt8)) (len a b : Nat) : M (Four (Buf UInt8) × Four (Buf UInt8)) := do
  let s ← Native.shake128x4_absorb bk (Buf.uninit Model.W 100) m 0 len
  let (x, s) ← Native.shake128x4_squeezeblocks bk (Four.rep (Buf.uninit UInt8 (168 * a))) 0 a s
  let (y, _) ← Native.shake128x4_squeezeblocks bk (Four.rep (Buf.uninit UInt8 (168 * b))) 0 b s
  pure (x, y)

theorem nativeShake128_ab_spec (hM : Native.Meets bk order IsCache) (m : List UInt8) (a b : Nat) : Post (nativeShake128_ab bk (Buf.ofList m) m.length a b)
    (fun r => r = (Buf.ofList (SHAKE128 m (168 * a)), Buf.ofList ((SHAKE128 m (168 * (a + b))).drop (168 * a)))) := by
  unfold nativeShake128_ab Native.shake128_squeezeblocks
  simp only [wp_bind, wp_pure]
  refine Post.use (Native.shake128_absorb_spec hM (by simp) (SegL_ofList m)) fun s1 h1 => ?_
  refine Post.use (Native.keccak_squeezeblocks_spec hM (k := 0) (rb := 168) (by decide) (by decide) h1.2 (by simp [Nat.mul_comm])) fun x hx => ?_
  refine Post.use (Native.keccak_squeezeblocks_spec hM (k := 0 + a) (rb := 168) (by decide) (by decide) hx.2.2 (by simp [Nat.mul_comm])) fun y hy => ?_
  have e1 := whole_blocks (a := 0) hx.1 (by simp)
  have e2 := whole_blocks (a := a) (by rw [Nat.zero_add] at hy; exact hy.1) (by simp)
  rw [e1, e2]; simp

/-- **C63.** `shake128x4_absorb` and `shake128x4_squeezeblocks` produce in each of the four outputs what `shake128_absorb` and `shake128_squeezeblocks` produce from the corresponding input,
namely the FIPS 202 SHAKE128 stream; a second squeeze continues the stream. -/
theorem C63_shake128x4 (hb : Contract bk order IsCache) (m : Fin 4 → List UInt8) (k : Nat) (hm : ∀ w, (m w).length = k) (a b : Nat) :
    Returns (nativeShake128x4_ab bk (fourOf fun w => Buf.ofList (m w)) k a b)
      (fourOf (fun w => Buf.ofList (SHAKE128 (m w) (168 * a))), fourOf fun w => Buf.ofList ((SHAKE128 (m w) (168 * (a + b))).drop (168 * a))) ∧
    ∀ w, Returns (nativeShake128_ab bk (Buf.ofList (m w)) k a b) (Buf.ofList (SHAKE128 (m w) (168 * a)), Buf.ofList ((SHAKE128 (m w) (168 * (a + b))).drop (168 * a))) := by
  refine ⟨?_, fun w => by rw [← hm w]; exact ret_eq (nativeShake128_ab_spec hb.meets (m w) a b) fun _ h => h⟩
  have key : Post (nativeShake128x4_ab bk (fourOf fun w => Buf.ofList (m w)) k a b) (fun r => r =
      (fourOf (fun w => Buf.ofList (SHAKE128 (m w) (168 * a))), fourOf fun w => Buf.ofList ((SHAKE128 (m w) (168 * (a + b))).drop (168 * a)))) := by
    unfold nativeShake128x4_ab Native.shake128x4_squeezeblocks
    simp only [wp_bind, wp_pure]
    refine Post.use (Native.shake128x4_absorb_spec hb.meets (B := fun w j => (m (Fin.ofNat 4 w)).getD j 0) (by simp) ⟨(SegL_ofList (m 0)).toN (hm 0), (SegL_ofList (m 1)).toN (hm 1),
      (SegL_ofList (m 2)).toN (hm 2), (SegL_ofList (m 3)).toN (hm 3)⟩) fun s1 h1 => ?_
    have sz : ∀ c, Size4 (Four.rep (Buf.uninit UInt8 (168 * c))) (0 + c * 168) := fun c => by
      constructor <;> simp [Four.rep, Nat.mul_comm]
    refine Post.use (Native.keccak_squeezeblocks_x4_spec hb.meets (k := 0) (rb := 168) (by decide) (by decide) h1.1 h1.2 (sz a)) fun x hx => ?_
    refine Post.use (Native.keccak_squeezeblocks_x4_spec hb.meets (k := 0 + a) (rb := 168) (by decide) (by decide) (hx.2.1.trans h1.1) hx.2.2 (sz b)) fun y hy => ?_
    obtain ⟨⟨x0, x1, x2, x3⟩, sx⟩ := x
    obtain ⟨⟨y0, y1, y2, y3⟩, sy⟩ := y
    have hk : ∀ w, k = (m w).length := fun w => (hm w).symm
    have hx := hx.1
    have hy := hy.1
    simp only [Nat.zero_add] at hy
    have p0 := whole_blocks (m := m 0) (a := 0) (by rw [← hk]; exact hx.s0) (by simp [Four.rep])
    have p1 := whole_blocks (m := m 1) (a := 0) (by rw [← hk]; exact hx.s1) (by simp [Four.rep])
    have p2 := whole_blocks (m := m 2) (a := 0) (by rw [← hk]; exact hx.s2) (by simp [Four.rep])
    have p3 := whole_blocks (m := m 3) (a := 0) (by rw [← hk]; exact hx.s3) (by simp [Four.rep])
    have q0 := whole_blocks (m := m 0) (a := a) (by rw [← hk]; exact hy.s0) (by simp [Four.rep])
    have q1 := whole_blocks (m := m 1) (a := a) (by rw [← hk]; exact hy.s1) (by simp [Four.rep])
    have q2 := whole_blocks (m := m 2) (a := a) (by rw [← hk]; exact hy.s2) (by simp [Four.rep])
    have q3 := whole_blocks (m := m 3) (a := a) (by rw [← hk]; exact hy.s3) (by simp [Four.rep])
    simp only [Nat.zero_add, Nat.mul_zero, List.drop_zero] at p0 p1 p2 p3 q0 q1 q2 q3
    dsimp only
    rw [p0, p1, p2, p3, q0, q1, q2, q3]; rfl
  exact ret_eq key fun _ h => h

/-- An instance on AArch64 and one on x86_64: the digest of a three-byte message. -/
example {P : A64.Profile} {Q : A64K.Profile} (hP : IsProfile P) (hQ : IsKeccakProfile Q) (g : Native.Regs64) (r : Native.Regs) :
    Returns (Native.sha3_256 (Native.aarch64 P Q g) (blank 32) 0 (Buf.ofList [1, 2, 3]) 0 3) (Buf.ofList (SHA3_256 [1, 2, 3])) ∧
    Returns (Native.sha3_256 (Native.x86_64 r) (blank 32) 0 (Buf.ofList [1, 2, 3]) 0 3) (Buf.ofList (SHA3_256 [1, 2, 3])) := by
  obtain ⟨C, h⟩ := C62_aarch64 hP hQ g
  obtain ⟨C', h'⟩ := C62_x86_64 r
  exact ⟨C63_sha3_256 h [1, 2, 3] (by decide) _ (blank_size _), C63_sha3_256 h' [1, 2, 3] (by decide) _ (blank_size _)⟩

end Verif.Props

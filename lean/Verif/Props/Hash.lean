import Verif.Props.Vec
import Verif.Proof.GenMatrix
/-! # Properties of the hash functions and samplers (C24 - C29) -/
namespace Verif.Props
open Verif Verif.Model Verif.Spec Finset

attribute [local irreducible] keccakF partialK finK blocksK sqByte SHAKE256 SHA3_256 SHA3_512 SHAKE128

theorem whole_list {b b' : Buf UInt8} {L : List UInt8} {n : Nat} (h : Written b b' 0 n (fun j => L.getD j 0)) (hn : b.size = n) (hL : L.length = n) : b' = Buf.ofList L := by
  subst hL; exact WrittenL.whole (b := b) h hn

theorem getD_nil (j : Nat) : ([] : List UInt8).getD j 0 = 0 := rfl

/-! ## C26: one-shot functions -/

/-- **C26.** `sha3_256` is FIPS 202 SHA3-256 on every message. -/
theorem C26_sha3_256 (m : List UInt8) (hm : m.length + 200 < 2 ^ 64) (out : Buf UInt8) (ho : out.size = 32) :
    Returns (sha3_256 out 0 (Buf.ofList m) 0 m.length) (Buf.ofList (SHA3_256 m)) :=
  ret_eq (sha3_256_spec (SegL_ofList m) (by norm_num at hm; omega) (by omega)) fun _ h => whole_list h ho (by unfold SHA3_256 keccakBytes; simp)

/-- **C26.** `sha3_512` is FIPS 202 SHA3-512 on every message. -/
theorem C26_sha3_512 (m : List UInt8) (hm : m.length + 200 < 2 ^ 64) (out : Buf UInt8) (ho : out.size = 64) :
    Returns (sha3_512 out 0 (Buf.ofList m) 0 m.length) (Buf.ofList (SHA3_512 m)) :=
  ret_eq (sha3_512_spec (SegL_ofList m) (by norm_num at hm; omega) (by omega)) fun _ h => whole_list h ho (by unfold SHA3_512 keccakBytes; simp)

/-- **C26.** `shake256` is FIPS 202 SHAKE256 on every message and for every output length. -/
theorem C26_shake256 (m : List UInt8) (hm : m.length + 200 < 2 ^ 64) (n : Nat) (hn : n < 2 ^ 64) (out : Buf UInt8) (ho : out.size = n) :
    Returns (shake256 out 0 n (Buf.ofList m) 0 m.length) (Buf.ofList (SHAKE256 m n)) :=
  ret_eq (shake256_spec (SegL_ofList m) (by norm_num at hm; omega) (by omega) (by norm_num at hn; omega)) fun _ h => whole_list h ho (by unfold SHAKE256 keccakBytes; simp)

example : ([1, 2, 3] : List UInt8).length + 200 < 2 ^ 64 := by decide

/-! ## C27: incremental SHAKE256 -/

/-- Absorb the chunks one after the other. -/
def absorbAll : List (List UInt8) → Buf Model.W → M (Buf Model.W)
  | [], s => pure s
  | c :: cs, s => do
    let s ← shake256_inc_absorb s (Buf.ofList c) 0 c.length
    absorbAll cs s

/-- Squeeze the given numbers of bytes one after the other, each into a fresh buffer. -/
def squeezeAll : List Nat → Buf Model.W → M (List (Buf UInt8))
  | [], _ => pure []
  | n :: ns, s => do
    let (o, s) ← shake256_inc_squeeze (Buf.uninit UInt8 n) 0 n s
    let os ← squeezeAll ns s
    pure (o :: os)

/-- A whole session with the incremental interface. -/
def session (chunks : List (List UInt8)) (lens : List Nat) : M (List (Buf UInt8)) := do
  let s ← shake256_inc_init (Buf.uninit Model.W 26)
  let s ← absorbAll chunks s
  let s ← shake256_inc_finalize s
  squeezeAll lens s

theorem absorbAll_spec {B : Nat → UInt8} (chunks : List (List UInt8)) (hs : ∀ c ∈ chunks, c.length + 200 < 18446744073709551616) : ∀ {s : Buf Model.W} {n : Nat}, IncAbs s 136 B n →
    (∀ j, j < chunks.flatten.length → B (n + j) = chunks.flatten.getD j 0) → Post (absorbAll chunks s) (fun s' => IncAbs s' 136 B (n + chunks.flatten.length)) := by
  induction chunks with
  | nil =>
    intro s n h _
    change PostF False _ _
    unfold absorbAll
    rw [wp_pure]; simpa using h
  | cons c cs ih =>
    intro s n h hB
    change PostF False _ _
    unfold absorbAll
    rw [wp_bind]
    have hfl : (c :: cs).flatten = c ++ cs.flatten := rfl
    rw [hfl] at hB ⊢
    rw [List.length_append] at hB ⊢
    refine Post.use (keccak_inc_absorb_spec (rb := 136) (by decide) (by decide) h (mlen := c.length) (fun j hj => ?_) (hs c (by simp))) fun s' h' => ?_
    · have := SegL_ofList c j hj
      have e := hB j (by omega)
      rw [getD_append, if_pos hj] at e
      beta_reduce
      rw [e]; exact this
    · rw [← Nat.add_assoc]
      refine ih (fun c' hc' => hs c' (by simp [hc'])) h' fun j hj => ?_
      have e := hB (c.length + j) (by omega)
      rw [getD_append, if_neg (by omega), Nat.add_sub_cancel_left] at e
      rw [Nat.add_assoc]; exact e

theorem squeezeAll_spec {T : KState} (lens : List Nat) (hs : ∀ n ∈ lens, n < 18446744073709551616) : ∀ {s : Buf Model.W} {n : Nat}, IncSq s 136 T n →
    Post (squeezeAll lens s) (fun r => ∃ outs : List (List UInt8), r = outs.map Buf.ofList ∧ outs.map List.length = lens ∧ outs.flatten = (List.range lens.sum).map fun j => sqByte 136 T (n + j)) := by
  induction lens with
  | nil =>
    intro s n h
    change PostF False _ _
    unfold squeezeAll
    rw [wp_pure]; exact ⟨[], rfl, rfl, rfl⟩
  | cons k ks ih =>
    intro s n h
    change PostF False _ _
    unfold squeezeAll shake256_inc_squeeze
    simp only [wp_bind, wp_pure]
    refine Post.use (keccak_inc_squeeze_spec (rb := 136) (by decide) (by decide) h (by simp) (hs k (by simp))) fun x hx => ?_
    refine Post.use (ih (fun k' hk' => hs k' (by simp [hk'])) hx.2) fun r ⟨outs, h1, h2, h3⟩ => ?_
    refine ⟨((List.range k).map fun j => sqByte 136 T (n + j)) :: outs, ?_, ?_, ?_⟩
    · rw [List.map_cons, ← h1, (hx.1.holds (by simp)).eq_ofList]
    · simp [h2]
    · rw [List.flatten_cons, h3, List.sum_cons, List.range_add, List.map_append, List.map_map]
      congr 1
      exact List.map_congr_left fun j _ => by simp [Nat.add_assoc]

/-- **C27.** Whatever the chunks and the output lengths, the outputs have the requested lengths and their concatenation is the one-shot SHAKE256 output of the concatenated chunks. -/
theorem C27_incremental (chunks : List (List UInt8)) (lens : List Nat) (hc : ∀ c ∈ chunks, c.length + 200 < 2 ^ 64) (hl : ∀ n ∈ lens, n < 2 ^ 64) :
    ∃ outs : List (List UInt8), Returns (session chunks lens) (outs.map Buf.ofList) ∧ outs.map List.length = lens ∧ outs.flatten = SHAKE256 chunks.flatten lens.sum := by
  have key : Post (session chunks lens) (fun r => ∃ outs : List (List UInt8), r = outs.map Buf.ofList ∧ outs.map List.length = lens ∧ outs.flatten = SHAKE256 chunks.flatten lens.sum) := by
    unfold session shake256_inc_init shake256_inc_finalize
    simp only [wp_bind]
    refine Post.use (keccak_inc_init_spec (by simp) 136 (fun j => chunks.flatten.getD j 0)) fun s1 h1 => ?_
    refine Post.use (absorbAll_spec chunks hc h1 fun j _ => by rw [Nat.zero_add]) fun s2 h2 => ?_
    refine Post.use (keccak_inc_finalize_spec (rb := 136) (by decide) (by decide) (by decide) h2) fun s3 h3 => ?_
    refine Post.use (squeezeAll_spec lens hl h3) fun r ⟨outs, e1, e2, e3⟩ => ⟨outs, e1, e2, ?_⟩
    rw [e3, SHAKE256_eq]
    exact List.map_congr_left fun j _ => by rw [Nat.zero_add, Nat.zero_add]
  obtain ⟨r, hr, outs, rfl, h2, h3⟩ := ret_of_post key
  exact ⟨outs, hr, h2, h3⟩

example : (∀ c ∈ ([[1, 2], [], [3]] : List (List UInt8)), c.length + 200 < 2 ^ 64) ∧ ∀ n ∈ [5, 0, 200], n < 2 ^ 64 := by decide

/-! ## C28: four-way functions -/

/-- The list of the four members. -/
def fourOf {α : Type} (f : Fin 4 → α) : Four α := ⟨f 0, f 1, f 2, f 3⟩

/-- **C28.** `shake256x4` returns four times what `shake256` returns on the corresponding input, and both are FIPS 202 SHAKE256. -/
theorem C28_shake256x4 (m : Fin 4 → List UInt8) (k : Nat) (hm : ∀ w, (m w).length = k) (hk : k + 200 < 2 ^ 64) (n : Nat) (hn : n < 2 ^ 64) (out : Fin 4 → Buf UInt8) (ho : ∀ w, (out w).size = n) :
    Returns (shake256x4 (fourOf out) n (fourOf fun w => Buf.ofList (m w)) 0 k) (fourOf fun w => Buf.ofList (SHAKE256 (m w) n)) ∧
    ∀ w, Returns (shake256 (out w) 0 n (Buf.ofList (m w)) 0 k) (Buf.ofList (SHAKE256 (m w) n)) := by
  have hl : ∀ w, (SHAKE256 (m w) n).length = n := fun w => by unfold SHAKE256 keccakBytes; simp
  refine ⟨?_, fun w => by rw [← hm w]; exact C26_shake256 (m w) (by rw [hm w]; exact hk) n hn (out w) (ho w)⟩
  refine ret_eq (shake256x4_spec (Ms := fun w => m (Fin.ofNat 4 w)) (fun w _ => hm _) ⟨(SegL_ofList (m 0)).toN (hm 0), (SegL_ofList (m 1)).toN (hm 1), (SegL_ofList (m 2)).toN (hm 2),
    (SegL_ofList (m 3)).toN (hm 3)⟩ ⟨(ho 0).ge, (ho 1).ge, (ho 2).ge, (ho 3).ge⟩) fun r h => ?_
  obtain ⟨r0, r1, r2, r3⟩ := r
  unfold fourOf
  rw [Four.mk.injEq]
  exact ⟨whole_list h.s0 (ho 0) (hl 0), whole_list h.s1 (ho 1) (hl 1), whole_list h.s2 (ho 2) (hl 2), whole_list h.s3 (ho 3) (hl 3)⟩

/-- Absorb and then squeeze `a` blocks into one buffer and `b` blocks into another, with the single-instance functions. -/
def shake128_ab (m : Buf UInt8) (len a b : Nat) : M (Buf UInt8 × Buf UInt8) := do
  let s ← shake128_absorb (Buf.uninit Model.W 25) m 0 len
  let (x, s) ← shake128_squeezeblocks (Buf.uninit UInt8 (168 * a)) 0 a s
  let (y, _) ← shake128_squeezeblocks (Buf.uninit UInt8 (168 * b)) 0 b s
  pure (x, y)

/-- The same with the four-way functions. -/
def shake128x4_ab (m : Four (Buf UInt8)) (len a b : Nat) : M (Four (Buf UInt8) × Four (Buf UInt8)) := do
  let s ← shake128x4_absorb (Buf.uninit Model.W 100) m 0 len
  let (x, s) ← shake128x4_squeezeblocks (Four.rep (Buf.uninit UInt8 (168 * a))) 0 a s
  let (y, _) ← shake128x4_squeezeblocks (Four.rep (Buf.uninit UInt8 (168 * b))) 0 b s
  pure (x, y)

theorem shake128_block (m : List UInt8) (a b : Nat) {j : Nat} (hj : j < b * 168) :
    sqByte 168 (finK 168 (fun j => m.getD j 0) m.length 0x1F) (a * 168 + j) = ((SHAKE128 m (168 * (a + b))).drop (168 * a)).getD j 0 := by
  rw [SHAKE128_eq, List.getD_eq_getElem?_getD, List.getElem?_drop, List.getElem?_map, List.getElem?_range (by omega)]
  simp [Nat.mul_comm]

theorem whole_blocks {b b' : Buf UInt8} {m : List UInt8} {a c : Nat} (h : Written b b' 0 (c * 168) (fun j => sqByte 168 (finK 168 (fun j => m.getD j 0) m.length 0x1F) (a * 168 + j)))
    (hb : b.size = 168 * c) : b' = Buf.ofList ((SHAKE128 m (168 * (a + c))).drop (168 * a)) :=
  whole_list (h.congr fun j hj => shake128_block m a c hj) (by rw [hb, Nat.mul_comm]) (by unfold SHAKE128 keccakBytes; simp; omega)

theorem shake128_ab_spec (m : List UInt8) (a b : Nat) : Post (shake128_ab (Buf.ofList m) m.length a b)
    (fun r => r = (Buf.ofList (SHAKE128 m (168 * a)), Buf.ofList ((SHAKE128 m (168 * (a + b))).drop (168 * a)))) := by
  unfold shake128_ab shake128_squeezeblocks
  simp only [wp_bind, wp_pure]
  refine Post.use (shake128_absorb_spec (by simp) (SegL_ofList m)) fun s1 h1 => ?_
  refine Post.use (keccak_squeezeblocks_spec (k := 0) (rb := 168) (by decide) (by decide) h1.2 (by simp [Nat.mul_comm])) fun x hx => ?_
  refine Post.use (keccak_squeezeblocks_spec (k := 0 + a) (rb := 168) (by decide) (by decide) hx.2.2 (by simp [Nat.mul_comm])) fun y hy => ?_
  have e1 := whole_blocks (a := 0) hx.1 (by simp)
  have e2 := whole_blocks (a := a) (by rw [Nat.zero_add] at hy; exact hy.1) (by simp)
  rw [e1, e2]; simp

/-- **C28.** `shake128x4_absorb` and `shake128x4_squeezeblocks` produce in each of the four outputs what `shake128_absorb` and `shake128_squeezeblocks` produce from the corresponding input,
namely the FIPS 202 SHAKE128 stream; a second squeeze continues the stream. -/
theorem C28_shake128x4 (m : Fin 4 → List UInt8) (k : Nat) (hm : ∀ w, (m w).length = k) (a b : Nat) :
    Returns (shake128x4_ab (fourOf fun w => Buf.ofList (m w)) k a b)
      (fourOf (fun w => Buf.ofList (SHAKE128 (m w) (168 * a))), fourOf fun w => Buf.ofList ((SHAKE128 (m w) (168 * (a + b))).drop (168 * a))) ∧
    ∀ w, Returns (shake128_ab (Buf.ofList (m w)) k a b) (Buf.ofList (SHAKE128 (m w) (168 * a)), Buf.ofList ((SHAKE128 (m w) (168 * (a + b))).drop (168 * a))) := by
  refine ⟨?_, fun w => by rw [← hm w]; exact ret_eq (shake128_ab_spec (m w) a b) fun _ h => h⟩
  have key : Post (shake128x4_ab (fourOf fun w => Buf.ofList (m w)) k a b) (fun r => r =
      (fourOf (fun w => Buf.ofList (SHAKE128 (m w) (168 * a))), fourOf fun w => Buf.ofList ((SHAKE128 (m w) (168 * (a + b))).drop (168 * a)))) := by
    unfold shake128x4_ab shake128x4_squeezeblocks
    simp only [wp_bind, wp_pure]
    refine Post.use (shake128x4_absorb_spec (B := fun w j => (m (Fin.ofNat 4 w)).getD j 0) (by simp) ⟨(SegL_ofList (m 0)).toN (hm 0), (SegL_ofList (m 1)).toN (hm 1),
      (SegL_ofList (m 2)).toN (hm 2), (SegL_ofList (m 3)).toN (hm 3)⟩) fun s1 h1 => ?_
    have sz : ∀ c, Size4 (Four.rep (Buf.uninit UInt8 (168 * c))) (0 + c * 168) := fun c => by
      constructor <;> simp [Four.rep, Nat.mul_comm]
    refine Post.use (keccak_squeezeblocks_x4_spec (k := 0) (rb := 168) (by decide) (by decide) h1.2 (sz a)) fun x hx => ?_
    refine Post.use (keccak_squeezeblocks_x4_spec (k := 0 + a) (rb := 168) (by decide) (by decide) hx.2.2 (sz b)) fun y hy => ?_
    obtain ⟨⟨x0, x1, x2, x3⟩, sx⟩ := x
    obtain ⟨⟨y0, y1, y2, y3⟩, sy⟩ := y
    have hk : ∀ w, k = (m w).length := fun w => (hm w).symm
    have hx := hx.1
    have hy := hy.1
    simp only [Nat.zero_add] at hy
    have p0 := whole_blocks (m := m 0) (a := 0) (by rw [← hk]; exact hx.s0) (by simp [Four.rep])
    have p1 := whole_blocks (m := m 1) (a := 0) (by rw [← hk]; exact hx.s1) (by simp [Four.rep])
    have p2 := whole_blocks (m := m 2) (a := 0) (by rw [← hk]; exact hx.s2) (by simp [Four.rep])
    have p3 := whole_blocks (m := m 3) (a := 0) (by rw [← hk]; exact hx.s3) (by simp [Four.rep])
    have q0 := whole_blocks (m := m 0) (a := a) (by rw [← hk]; exact hy.s0) (by simp [Four.rep])
    have q1 := whole_blocks (m := m 1) (a := a) (by rw [← hk]; exact hy.s1) (by simp [Four.rep])
    have q2 := whole_blocks (m := m 2) (a := a) (by rw [← hk]; exact hy.s2) (by simp [Four.rep])
    have q3 := whole_blocks (m := m 3) (a := a) (by rw [← hk]; exact hy.s3) (by simp [Four.rep])
    simp only [Nat.zero_add, Nat.mul_zero, List.drop_zero] at p0 p1 p2 p3 q0 q1 q2 q3
    dsimp only
    rw [p0, p1, p2, p3, q0, q1, q2, q3]; rfl
  exact ret_eq key fun _ h => h

example : ∀ w : Fin 4, ((fun w : Fin 4 => [UInt8.ofNat w.val, 1, 2]) w).length = 3 := fun _ => rfl

/-! ## C29: the permutation -/

/-- The FIPS 202 state of 25 lanes: `A[x, y, z]` is bit `z` of lane `5y + x`. -/
def stateOf (L : List Model.W) : KState := fun x y z => (L.getD (5 * y.val + x.val) 0).getLsbD z.val

theorem segK_stateOf (L : List Model.W) (h : L.length = 25) : SegK (Buf.ofList L) 0 (stateOf L) := by
  intro l hl
  refine ⟨L.getD l 0, ?_, fun z hz => ?_⟩
  · have := (Holds.ofList L 0).seg l (by omega)
    simpa using this
  · unfold stateOf stateBit
    have e : 5 * (Fin.ofNat 5 ((64 * l + z) / 320)).val + (Fin.ofNat 5 ((64 * l + z) / 64)).val = l := by simp [Fin.ofNat]; omega
    have e2 : (Fin.ofNat 64 (64 * l + z)).val = z := by simp [Fin.ofNat]; omega
    beta_reduce
    rw [e, e2]

theorem lanes_of_segK {s : Buf Model.W} {S : KState} (hs : s.size = 25) (h : SegK s 0 S) : ∃ L : List Model.W, L.length = 25 ∧ s = Buf.ofList L ∧ stateOf L = S := by
  choose! f hf hz using h
  have hh : Holds s 25 f := ⟨hs, fun i hi => by have := hf i hi; simpa using this⟩
  refine ⟨(List.range 25).map f, by simp, hh.eq_ofList, ?_⟩
  funext x y z
  unfold stateOf
  have hx : 5 * y.val + x.val < 25 := by omega
  rw [getD_map_range _ _ hx, hz _ hx _ z.2]
  exact stateBit_kpos S x y z

/-- **C29.** On every state, `KeccakF1600_StatePermute` is the FIPS 202 permutation Keccak-f[1600]. -/
theorem C29_permutation (L : List Model.W) (h : L.length = 25) : ∃ L' : List Model.W, L'.length = 25 ∧ Returns (KeccakF1600_StatePermute (Buf.ofList L) 0) (Buf.ofList L') ∧ stateOf L' = keccakF (stateOf L) := by
  obtain ⟨s, hs, hf, hk⟩ := ret_of_post (KeccakF1600_StatePermute_spec (segK_stateOf L h))
  obtain ⟨L', h1, h2, h3⟩ := lanes_of_segK (by rw [hf.1]; simp [Buf.ofList, h]) hk
  exact ⟨L', h1, h2 ▸ hs, h3⟩

/-- Lanes are determined by the FIPS 202 state, so C29 determines every output lane. -/
theorem C29_determined (L L' : List Model.W) (h : L.length = 25) (h' : L'.length = 25) (e : stateOf L = stateOf L') : L = L' := by
  refine List.ext_getElem (by omega) fun i hi hi' => ?_
  apply BitVec.eq_of_getLsbD_eq
  intro z hz
  have := congrFun (congrFun (congrFun e ⟨i % 5, by omega⟩) ⟨i / 5, by omega⟩) ⟨z, hz⟩
  unfold stateOf at this
  simp only [show 5 * (i / 5) + i % 5 = i by omega] at this
  simpa [List.getD, hi, hi'] using this

example : (List.replicate 25 (5#64)).length = 25 := by decide

end Verif.Props

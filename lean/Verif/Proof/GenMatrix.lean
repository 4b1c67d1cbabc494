import Verif.Proof.Noise
import Verif.Proof.RejUniform
/-! # Matrix generation -/
namespace Verif
open Model Spec

attribute [local irreducible] keccakF partialK finK blocksK sqByte SHAKE256 SHA3_256 SHA3_512 SHAKE128

/-- The coefficients sampled from the first `n` bytes of the XOF on seed `B`. -/
def smp (B : List UInt8) (n : Nat) : List Nat := sN 256 (SHAKE128 B n) []

theorem smp_le (B : List UInt8) (n : Nat) : (smp B n).length ≤ 256 := sN_length (by simp)
theorem smp_lt (B : List UInt8) (n : Nat) : ∀ x ∈ smp B n, x < 3329 := sN_lt (by simp)
theorem smp_getD_lt (B : List UInt8) (n i : Nat) : (smp B n).getD i 0 < 3329 := by
  rw [List.getD_eq_getElem?_getD]
  rcases h : (smp B n)[i]? with _ | x
  · simp
  · exact smp_lt B n x (List.mem_of_getElem? h)

theorem SampleNTT_eq (n : Nat) (B : List UInt8) : SampleNTT n B = if (smp B n).length = 256 then some (fun i => ((smp B n).getD i 0 : Zq)) else none := by
  unfold SampleNTT smp
  have h := sampleLoop_eq (SHAKE128 B n) []
  rw [List.map_nil] at h
  simp only [h, List.length_map]
  split
  · congr 1
    funext i
    rw [List.getD_eq_getElem?_getD, List.getD_eq_getElem?_getD, List.getElem?_map]
    cases (sN 256 (SHAKE128 B n) [])[i]? <;> simp
  · rfl

theorem SHAKE128_add (B : List UInt8) (n m : Nat) :
    SHAKE128 B (n + m) = SHAKE128 B n ++ (List.range m).map (fun j => sqByte 168 (finK 168 (fun j => B.getD j 0) B.length 0x1F) (n + j)) := by
  rw [SHAKE128_eq, SHAKE128_eq, List.range_add, List.map_append, List.map_map]
  rfl

theorem smp_add (B : List UInt8) (n m : Nat) (h : n % 3 = 0) :
    smp B (n + m) = sN 256 ((List.range m).map (fun j => sqByte 168 (finK 168 (fun j => B.getD j 0) B.length 0x1F) (n + j))) (smp B n) := by
  unfold smp
  rw [SHAKE128_add, sN_append (by rw [SHAKE128_length]; exact h)]

theorem smp_stable (B : List UInt8) {n m : Nat} (h : n % 3 = 0) (hm : n ≤ m) (hl : (smp B n).length = 256) : smp B m = smp B n := by
  obtain ⟨d, rfl⟩ := Nat.exists_eq_add_of_le hm
  rw [smp_add B n d h, sN_full (by omega)]

/-- One entry after `m` blocks. -/
structure EntryAt (v : Model.Poly) (c : Nat) (B : List UInt8) (m : Nat) : Prop where
  size : v.size = 256
  has : HasList v (smp B (168 * m))
  cnt : c = (smp B (168 * m)).length

theorem rej_next {v : Model.Poly} {c m n : Nat} {B : List UInt8} {buf : Buf UInt8} (hn : n ≤ 3) (h : EntryAt v c B m)
    (hb : Seg buf 0 (n * 168) (fun j => sqByte 168 (finK 168 (fun j => B.getD j 0) B.length 0x1F) (m * 168 + j))) :
    Post (rej_uniform v 256 c buf (n * 168)) (fun x => EntryAt x.1 x.2 B (m + n)) := by
  have hlen : ((List.range (n * 168)).map (fun j => sqByte 168 (finK 168 (fun j => B.getD j 0) B.length 0x1F) (168 * m + j))).length = n * 168 := by simp
  rw [h.cnt]
  conv => arg 1; rw [← hlen]
  refine Post.use (rej_uniform_spec (by rw [h.size]) (by omega) (by rw [hlen]; omega) (smp_le _ _) h.has ?_) fun x hx => ⟨hx.1.trans h.size, ?_, ?_⟩
  · rw [hlen]
    exact hb.congr fun j hj => by rw [getD_map_range _ _ hj, Nat.mul_comm]
  · rw [show 168 * (m + n) = 168 * m + n * 168 by omega, smp_add _ _ _ (by omega)]
    exact hx.2.1
  · rw [show 168 * (m + n) = 168 * m + n * 168 by omega, smp_add _ _ _ (by omega)]
    exact hx.2.2.1

theorem entry_zero {v : Model.Poly} {B : List UInt8} (h : v.size = 256) : EntryAt v 0 B 0 := by
  have e : smp B (168 * 0) = [] := by
    unfold smp
    exact sN_short (by rw [SHAKE128_length]; omega)
  exact ⟨h, by rw [e]; intro i hi; simp at hi, by rw [e]; rfl⟩

theorem EntryAt.full {v : Model.Poly} {c m N : Nat} {B : List UInt8} (h : EntryAt v c B m) (hc : 256 ≤ c) (hN : m ≤ N) :
    (smp B (168 * N)).length = 256 ∧ Holds v 256 (fun i => ((smp B (168 * N)).getD i 0 : Nat)) := by
  have hl : (smp B (168 * m)).length = 256 := by
    have := smp_le B (168 * m); have := h.cnt; omega
  rw [smp_stable B (by omega) (Nat.mul_le_mul_left 168 hN) hl]
  exact ⟨hl, h.size, fun i hi => h.has i (by omega)⟩

theorem NB_eq : MLKEM_GEN_MATRIX_NBLOCKS = 3 := by decide

theorem gen_matrix_entry_spec {fuel : Nat} {entry : Model.Poly} {seed : Buf UInt8} {B : List UInt8} (he : entry.size = 256) (hB : B.length = 34) (hs : Seg seed 0 34 (fun j => B.getD j 0)) :
    PostF ((smp B (168 * (3 + fuel))).length ≠ 256) (gen_matrix_entry fuel entry seed)
      (fun r => (smp B (168 * (3 + fuel))).length = 256 ∧ Holds r 256 (fun i => ((smp B (168 * (3 + fuel))).getD i 0 : Nat))) := by
  unfold gen_matrix_entry shake128_squeezeblocks
  rw [NB_eq, show SHAKE128_RATE = 168 from rfl]
  simp only [wp_bind]
  refine Post.use (shake128_absorb_spec (by simp) hs) fun s1 hs1 => ?_
  rw [show 32 + 2 = B.length from hB.symm] at hs1
  refine Post.use (keccak_squeezeblocks_spec (k := 0) (by omega) (by omega) hs1.2 (by simp)) fun x hx => ?_
  refine Post.use (rej_next (by decide) (entry_zero he) (hx.1.seg.congr fun j _ => rfl)) fun y hy => ?_
  refine wp_while_fuel (k0 := 0) (fun k (x : Model.Poly × Nat × Buf UInt8 × Buf Model.W) => EntryAt x.1 x.2.1 B (3 + k) ∧ x.2.2.1.size = 3 * 168 ∧
      SegK x.2.2.2 0 (iter keccakF (3 + k) (finK 168 (fun j => B.getD j 0) B.length 0x1F))) (fun x => decide (x.2.1 < 256)) ⟨?_, ?_, ?_⟩ ?_ ?_ ?_ ?_
  · exact hy
  · exact hx.1.1.trans (by simp)
  · exact hx.2.2
  · intro k x _; simp only [wp_pure]
  · rintro k ⟨e, c, b, s⟩ hk ⟨h1, h2, h3⟩ _
    simp only [] at h1 h2 h3 ⊢
    simp only [wp_bind]
    refine Post.use (keccak_squeezeblocks_spec (k := 3 + k) (nblocks := 1) (by omega) (by omega) h3 (by omega)) fun z hz => ?_
    refine Post.use (rej_next (n := 1) (by omega) h1 hz.1.seg) fun w hw => ?_
    simp only [wp_pure]
    exact ⟨hw, hz.1.1.trans h2, hz.2.2⟩
  · rintro ⟨e, c, b, s⟩ ⟨h1, _, _⟩ hC
    simp only [] at h1 hC
    simp only [decide_eq_true_eq] at hC
    have := h1.cnt
    rw [Nat.zero_add] at this
    omega
  · rintro k ⟨e, c, b, s⟩ hk ⟨h1, _, _⟩ hC
    simp only [] at h1 hC ⊢
    simp only [decide_eq_false_iff_not] at hC
    simp only [wp_pure]
    exact h1.full (by omega) (by omega)

theorem gen_matrix_entry_x4_spec {fuel : Nat} {vec : Four Model.Poly} {seed : Four (Buf UInt8)} {B : Nat → List UInt8} (he : Fresh4 vec) (hB : ∀ w, w < 4 → (B w).length = 34)
    (hs : Seg4 seed 0 34 (fun w j => (B w).getD j 0)) :
    PostF (∃ w, w < 4 ∧ (smp (B w) (168 * (3 + fuel))).length ≠ 256) (gen_matrix_entry_x4 fuel vec seed)
      (fun r => (∀ w, w < 4 → (smp (B w) (168 * (3 + fuel))).length = 256) ∧ Holds4 r (fun i => ((smp (B 0) (168 * (3 + fuel))).getD i 0 : Nat))
        (fun i => ((smp (B 1) (168 * (3 + fuel))).getD i 0 : Nat)) (fun i => ((smp (B 2) (168 * (3 + fuel))).getD i 0 : Nat))
        (fun i => ((smp (B 3) (168 * (3 + fuel))).getD i 0 : Nat))) := by
  unfold gen_matrix_entry_x4 shake128x4_squeezeblocks
  rw [NB_eq, show SHAKE128_RATE = 168 from rfl]
  simp only [wp_bind]
  refine Post.use (shake128x4_absorb_spec (by simp) hs) fun s1 hs1 => ?_
  have hs2 : State4 s1 (fun w => iter keccakF 0 (finK 168 (fun j => (B w).getD j 0) (B w).length 0x1F)) := hs1.2.congr fun w hw => by rw [hB w hw]; rfl
  refine Post.use (keccak_squeezeblocks_x4_spec (k := 0) (by omega) (by omega) hs2 ⟨by simp [Four.rep], by simp [Four.rep], by simp [Four.rep], by simp [Four.rep]⟩) fun x hx => ?_
  refine Post.use (rej_next (by decide) (entry_zero he.h0) hx.1.s0.seg) fun y0 hy0 => ?_
  refine Post.use (rej_next (by decide) (entry_zero he.h1) hx.1.s1.seg) fun y1 hy1 => ?_
  refine Post.use (rej_next (by decide) (entry_zero he.h2) hx.1.s2.seg) fun y2 hy2 => ?_
  refine Post.use (rej_next (by decide) (entry_zero he.h3) hx.1.s3.seg) fun y3 hy3 => ?_
  refine wp_while_fuel (k0 := 0) (fun k (x : Four Model.Poly × Four Nat × Four (Buf UInt8) × Buf Model.W) =>
      EntryAt x.1.x0 x.2.1.x0 (B 0) (3 + k) ∧ EntryAt x.1.x1 x.2.1.x1 (B 1) (3 + k) ∧ EntryAt x.1.x2 x.2.1.x2 (B 2) (3 + k) ∧ EntryAt x.1.x3 x.2.1.x3 (B 3) (3 + k) ∧
      Size4 x.2.2.1 (3 * 168) ∧ State4 x.2.2.2 (fun w => iter keccakF (3 + k) (finK 168 (fun j => (B w).getD j 0) (B w).length 0x1F)))
    (fun x => decide (x.2.1.x0 < 256 ∨ x.2.1.x1 < 256 ∨ x.2.1.x2 < 256 ∨ x.2.1.x3 < 256)) ⟨?_, ?_, ?_, ?_, ?_, ?_⟩ ?_ ?_ ?_ ?_
  · exact hy0
  · exact hy1
  · exact hy2
  · exact hy3
  · exact hx.1.size ⟨by simp [Four.rep], by simp [Four.rep], by simp [Four.rep], by simp [Four.rep]⟩
  · exact hx.2.2
  · rintro k ⟨v, c, b, s⟩ _
    simp only [wp_branch, wp_pure, decide_eq_true_eq, decide_eq_false_iff_not]
    refine ⟨fun h => ?_, fun h0 => ⟨fun h => ?_, fun h1 => ⟨fun h => ?_, fun h2 => ?_⟩⟩⟩
    · simp [h]
    · simp [h]
    · simp [h]
    · simp [h0, h1, h2]
  · rintro k ⟨v, c, b, s⟩ hk ⟨h0, h1, h2, h3, h4, h5⟩ _
    simp only [] at h0 h1 h2 h3 h4 h5 ⊢
    simp only [wp_bind]
    refine Post.use (keccak_squeezeblocks_x4_spec (k := 3 + k) (nblocks := 1) (by omega) (by omega) h5 (h4.mono (by omega))) fun z hz => ?_
    refine Post.use (rej_next (n := 1) (by omega) h0 hz.1.s0.seg) fun w0 hw0 => ?_
    refine Post.use (rej_next (n := 1) (by omega) h1 hz.1.s1.seg) fun w1 hw1 => ?_
    refine Post.use (rej_next (n := 1) (by omega) h2 hz.1.s2.seg) fun w2 hw2 => ?_
    refine Post.use (rej_next (n := 1) (by omega) h3 hz.1.s3.seg) fun w3 hw3 => ?_
    simp only [wp_pure]
    exact ⟨hw0, hw1, hw2, hw3, hz.1.size h4, hz.2.2⟩
  · rintro ⟨v, c, b, s⟩ ⟨h0, h1, h2, h3, h4, h5⟩ hC
    simp only [] at h0 h1 h2 h3 hC
    rw [Nat.zero_add] at h0 h1 h2 h3
    simp only [decide_eq_true_eq] at hC
    rcases hC with h | h | h | h
    · exact ⟨0, by omega, by have := h0.cnt; omega⟩
    · exact ⟨1, by omega, by have := h1.cnt; omega⟩
    · exact ⟨2, by omega, by have := h2.cnt; omega⟩
    · exact ⟨3, by omega, by have := h3.cnt; omega⟩
  · rintro k ⟨v, c, b, s⟩ hk ⟨h0, h1, h2, h3, h4, h5⟩ hC
    simp only [] at h0 h1 h2 h3 hC ⊢
    simp only [decide_eq_false_iff_not] at hC
    simp only [wp_pure]
    have f0 := h0.full (N := 3 + fuel) (by omega) (by omega)
    have f1 := h1.full (N := 3 + fuel) (by omega) (by omega)
    have f2 := h2.full (N := 3 + fuel) (by omega) (by omega)
    have f3 := h3.full (N := 3 + fuel) (by omega) (by omega)
    refine ⟨fun w hw => ?_, f0.2, f1.2, f2.2, f3.2⟩
    interval_cases w
    · exact f0.1
    · exact f1.1
    · exact f2.1
    · exact f3.1

/-- A seed buffer holding `ρ` in its first 32 bytes. -/
structure Seeded (s : Buf UInt8) (ρ : List UInt8) : Prop where
  size : s.size = 34
  has : Seg s 0 32 (fun j => ρ.getD j 0)

/-- The seed for row `x`, column `y`. -/
def seedXY (ρ : List UInt8) (tr : Bool) (x y : Nat) : List UInt8 := if tr then ρ ++ [UInt8.ofNat x, UInt8.ofNat y] else ρ ++ [UInt8.ofNat y, UInt8.ofNat x]

theorem seedXY_length {ρ : List UInt8} (h : ρ.length = 32) (tr : Bool) (x y : Nat) : (seedXY ρ tr x y).length = 34 := by
  unfold seedXY; split <;> simp [h]

theorem set2_spec {s : Buf UInt8} {ρ : List UInt8} {a b : UInt8} (h : Seeded s ρ) (hρ : ρ.length = 32) :
    Seeded ((s.setIfInBounds (32 + 0) (some a)).setIfInBounds (32 + 1) (some b)) ρ ∧ Seg ((s.setIfInBounds (32 + 0) (some a)).setIfInBounds (32 + 1) (some b)) 0 34 (fun j => (ρ ++ [a, b]).getD j 0) := by
  have key : ∀ j, j < 34 → ((s.setIfInBounds (32 + 0) (some a)).setIfInBounds (32 + 1) (some b))[0 + j]? = some (some ((ρ ++ [a, b]).getD j 0)) := by
    intro j hj
    by_cases h33 : j = 33
    · subst h33
      have := getD_append_right' ρ [a, b] 0 1
      rw [hρ] at this
      rw [Nat.zero_add, Array.getElem?_setIfInBounds_self, if_pos (by simp [h.size])]
      exact congrArg (fun v => some (some v)) this.symm
    · rw [Array.getElem?_setIfInBounds_ne (by omega)]
      by_cases h32 : j = 32
      · subst h32
        have := getD_append_right' ρ [a, b] 0 0
        rw [hρ] at this
        rw [Nat.zero_add, Array.getElem?_setIfInBounds_self, if_pos (by simp [h.size])]
        exact congrArg (fun v => some (some v)) this.symm
      · rw [Array.getElem?_setIfInBounds_ne (by omega), h.has j (by omega), getD_append_left' _ _ (by omega)]
  exact ⟨⟨by simp [h.size], fun j hj => by rw [key j (by omega), getD_append_left' _ _ (by omega)]⟩, key⟩

theorem setSeed_spec {K : Nat} {s : Buf UInt8} {ρ : List UInt8} {i : Nat} {tr : Bool} (hK : K ≠ 0) (h : Seeded s ρ) (hρ : ρ.length = 32) :
    Post (setSeed K s i tr) (fun s' => Seeded s' ρ ∧ Seg s' 0 34 (fun j => (seedXY ρ tr (i / K) (i % K)).getD j 0)) := by
  unfold setSeed
  simp only [toU8]
  simp only [wp_branch, wp_bind, wp_divM, wp_modM, wp_wr, Array.size_setIfInBounds, h.size]
  refine ⟨hK, hK, fun ht => ⟨by omega, by omega, ?_⟩, fun ht => ⟨by omega, by omega, ?_⟩⟩
  · subst ht
    exact set2_spec h hρ
  · subst ht
    exact set2_spec h hρ

/-- The seed of the entry at flat position `i`. -/
def seedAt (K : Nat) (ρ : List UInt8) (tr : Bool) (i : Nat) : List UInt8 := seedXY ρ tr (i / K) (i % K)

/-- Partially generated matrix: the first `m` entries are done. -/
def MatTo (K N : Nat) (ρ : List UInt8) (tr : Bool) (m : Nat) (j : Nat) (p : Model.Poly) : Prop :=
  p.size = 256 ∧ (j < m → (smp (seedAt K ρ tr j) N).length = 256 ∧ Holds p 256 (fun c => ((smp (seedAt K ρ tr j) N).getD c 0 : Nat)))

theorem MatTo.set {K N : Nat} {ρ : List UInt8} {tr : Bool} {m : Nat} {a : PolyVec} {p : Model.Poly} (h : VAll a (K * K) (MatTo K N ρ tr m)) (hm : m < K * K)
    (hl : (smp (seedAt K ρ tr m) N).length = 256) (hp : Holds p 256 (fun c => ((smp (seedAt K ρ tr m) N).getD c 0 : Nat))) : VAll (a.setIfInBounds m p) (K * K) (MatTo K N ρ tr (m + 1)) :=
  VAll.set h hm ⟨hp.1, fun _ => ⟨hl, hp⟩⟩ fun j q hj hne hq => ⟨hq.1, fun hlt => hq.2 (by omega)⟩

theorem gen_matrix_spec {K fuel : Nat} {a : PolyVec} {seed : Buf UInt8} {so : Nat} {ρ : List UInt8} {tr : Bool} (hK : K * K % 4 ≤ 1) (ha : VAll a (K * K) (fun _ p => p.size = 256))
    (hρ : ρ.length = 32) (hs : Seg seed so 32 (fun j => ρ.getD j 0)) :
    PostF (∃ i, i < K * K ∧ (smp (seedAt K ρ tr i) (168 * (3 + fuel))).length ≠ 256) (gen_matrix K fuel a seed so tr)
      (fun a' => VHolds a' (K * K) 256 (fun i c => ((smp (seedAt K ρ tr i) (168 * (3 + fuel))).getD c 0 : Nat)) ∧ ∀ i, i < K * K → (smp (seedAt K ρ tr i) (168 * (3 + fuel))).length = 256) := by
  generalize hN : 168 * (3 + fuel) = N
  unfold gen_matrix
  simp only [wp_bind]
  have hseed : ∀ s', Written (Buf.uninit UInt8 (32 + 2)) s' 0 32 (fun j => ρ.getD j 0) → Seeded s' ρ := fun s' h => ⟨h.1.trans (by simp), h.seg⟩
  refine Post.use (memcpy_spec (by simp) hs) fun s0 h0 => ?_
  refine Post.use (memcpy_spec (by simp) hs) fun s1 h1 => ?_
  refine Post.use (memcpy_spec (by simp) hs) fun s2 h2 => ?_
  refine Post.use (memcpy_spec (by simp) hs) fun s3 h3 => ?_
  refine wp_forN (fun t (x : PolyVec × Four (Buf UInt8)) => VAll x.1 (K * K) (MatTo K N ρ tr (4 * t)) ∧ Seeded x.2.x0 ρ ∧ Seeded x.2.x1 ρ ∧ Seeded x.2.x2 ρ ∧ Seeded x.2.x3 ρ)
    ⟨ha.mono fun i p _ h => ⟨h, fun h => by omega⟩, hseed _ h0, hseed _ h1, hseed _ h2, hseed _ h3⟩ ?_ ?_
  · rintro t ⟨a, s⟩ ht ⟨hA, g0, g1, g2, g3⟩
    simp only [] at hA g0 g1 g2 g3 ⊢
    simp only [wp_bind, wp_vget, wp_vset, Array.size_setIfInBounds, hA.1, wp_pure]
    have hK0 : K ≠ 0 := by rintro rfl; simp at ht
    refine Post.use (setSeed_spec hK0 g0 hρ) fun s0 k0 => ?_
    refine Post.use (setSeed_spec hK0 g1 hρ) fun s1 k1 => ?_
    refine Post.use (setSeed_spec hK0 g2 hρ) fun s2 k2 => ?_
    refine Post.use (setSeed_spec hK0 g3 hρ) fun s3 k3 => ?_
    obtain ⟨p0, e0, q0⟩ := hA.2 (4 * t + 0) (by omega)
    obtain ⟨p1, e1, q1⟩ := hA.2 (4 * t + 1) (by omega)
    obtain ⟨p2, e2, q2⟩ := hA.2 (4 * t + 2) (by omega)
    obtain ⟨p3, e3, q3⟩ := hA.2 (4 * t + 3) (by omega)
    refine ⟨p0, e0, p1, e1, p2, e2, p3, e3, ?_⟩
    refine PostF.mono (PostF.monoF (gen_matrix_entry_x4_spec (B := fun w => seedAt K ρ tr (4 * t + w)) ⟨q0.1, q1.1, q2.1, q3.1⟩ (fun w _ => seedXY_length hρ _ _ _) ⟨k0.2, k1.2, k2.2, k3.2⟩) ?_) ?_
    · rintro ⟨w, hw, h⟩
      exact ⟨4 * t + w, by omega, hN ▸ h⟩
    · rw [hN]
      rintro r ⟨hl, hr⟩
      refine ⟨by omega, by omega, by omega, by omega, ?_, k0.1, k1.1, k2.1, k3.1⟩
      have a1 := MatTo.set hA (by omega) (hl 0 (by omega)) hr.h0
      have a2 := MatTo.set a1 (by omega) (hl 1 (by omega)) hr.h1
      have a3 := MatTo.set a2 (by omega) (hl 2 (by omega)) hr.h2
      exact MatTo.set a3 (by omega) (hl 3 (by omega)) hr.h3
  · rintro ⟨a, s⟩ ⟨hA, g0, g1, g2, g3⟩
    simp only [] at hA g0 g1 g2 g3 ⊢
    have fin : ∀ a', VAll a' (K * K) (MatTo K N ρ tr (K * K)) →
        VHolds a' (K * K) 256 (fun i c => ((smp (seedAt K ρ tr i) N).getD c 0 : Nat)) ∧ ∀ i, i < K * K → (smp (seedAt K ρ tr i) N).length = 256 := by
      intro a' h
      refine ⟨h.mono fun i p hi hp => (hp.2 hi).2, fun i hi => ?_⟩
      obtain ⟨p, _, hp⟩ := h.2 i hi
      exact (hp.2 hi).1
    simp only [wp_branch, decide_eq_true_eq, decide_eq_false_iff_not, wp_bind, wp_vget, wp_vset, wp_pure, wp_assertM, hA.1]
    refine ⟨fun hlt => ?_, fun hge => ⟨by omega, fin _ ?_⟩⟩
    · have hK0 : K ≠ 0 := by rintro rfl; simp at hlt
      refine Post.use (setSeed_spec hK0 g0 hρ) fun s0 k0 => ?_
      obtain ⟨p0, e0, q0⟩ := hA.2 (4 * (K * K / 4)) hlt
      refine ⟨p0, e0, ?_⟩
      refine PostF.mono (PostF.monoF (gen_matrix_entry_spec (B := seedAt K ρ tr (4 * (K * K / 4))) q0.1 (seedXY_length hρ _ _ _) k0.2) ?_) ?_
      · intro h
        exact ⟨_, hlt, hN ▸ h⟩
      · rw [hN]
        rintro r ⟨hl, hr⟩
        refine ⟨hlt, by omega, fin _ ?_⟩
        have := MatTo.set hA hlt hl hr
        rwa [show 4 * (K * K / 4) + 1 = K * K by omega] at this
    · rwa [show 4 * (K * K / 4) = K * K by omega] at hA

/-! ## Rows and the specification matrix -/

theorem matRow_spec {K : Nat} {a : PolyVec} {f : Nat → Nat → Int} (h : VHolds a (K * K) 256 f) {i : Nat} (hi : i < K) :
    Post (matRow K a i) (fun r => VHolds r K 256 (fun j => f (K * i + j))) := by
  have hle : K * i + K ≤ K * K := by rw [← Nat.mul_succ]; exact Nat.mul_le_mul_left K hi
  unfold matRow
  rw [if_pos (by rw [h.1]; exact hle)]
  simp only [wp_ret]
  refine ⟨by rw [Array.size_extract]; have := h.1; omega, fun j hj => ?_⟩
  obtain ⟨p, hp, hh⟩ := h.2 (K * i + j) (by omega)
  refine ⟨p, ?_, hh⟩
  rw [Array.getElem?_extract, if_pos (by have := h.1; omega), hp]

theorem sampleA_eq {K N : Nat} {ρ : List UInt8} (h : ∀ x, x < K → ∀ y, y < K → (smp (seedXY ρ false x y) N).length = 256) :
    sampleA K N ρ = some (fun x y => (SampleNTT N (ρ ++ [UInt8.ofNat y, UInt8.ofNat x])).getD 0) := by
  unfold sampleA
  rw [if_pos]
  intro x hx y hy
  rw [SampleNTT_eq]
  have := h x hx y hy
  unfold seedXY at this
  simp only [Bool.false_eq_true, if_false] at this
  rw [if_pos this]; rfl

theorem sampleA_none {K N : Nat} {ρ : List UInt8} {x y : Nat} (hx : x < K) (hy : y < K) (h : (smp (seedXY ρ false x y) N).length ≠ 256) : sampleA K N ρ = none := by
  unfold sampleA
  rw [if_neg]
  intro hall
  have := hall x hx y hy
  rw [SampleNTT_eq] at this
  unfold seedXY at h
  simp only [Bool.false_eq_true, if_false] at h
  rw [if_neg h] at this
  simp at this

theorem SampleNTT_val {N : Nat} {B : List UInt8} (h : (smp B N).length = 256) (c : Nat) : ((SampleNTT N B).getD 0) c = ((smp B N).getD c 0 : Zq) := by
  rw [SampleNTT_eq, if_pos h]; rfl

end Verif

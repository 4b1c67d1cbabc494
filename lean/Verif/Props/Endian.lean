import Verif.Props.Common
import Verif.Proof.Keccak

/-!
# C30: the little-endian and the portable byte access to the Keccak state agree

`KeccakF1600_StateXORBytes` and `KeccakF1600_StateExtractBytes` have one version that goes through a `uint8_t *` to the lanes
(little-endian machines) and one that uses shifts.  The first is modelled on the object representation `leBytes` of the lanes.
-/

namespace Verif.Props
open Verif Model

theorem ofList_get {α : Type} (L : List α) (i : Nat) : (Buf.ofList L)[i]? = (L[i]?).map some := by
  unfold Buf.ofList; simp

theorem ofList_size {α : Type} (L : List α) : (Buf.ofList L).size = L.length := by
  unfold Buf.ofList; simp

theorem ofList_set {α : Type} (L : List α) (i : Nat) (v : α) : (Buf.ofList L).setIfInBounds i (some v) = Buf.ofList (L.set i v) := by
  unfold Buf.ofList; simp [List.map_set]

theorem getD_of_lt {α : Type} (L : List α) (d : α) {i : Nat} (h : i < L.length) : L.getD i d = L[i] := by
  simp [List.getD, h]

theorem rd_ofList {α : Type} {L : List α} {i : Nat} (h : i < L.length) : Returns (rd (Buf.ofList L) i) L[i] :=
  ⟨[.ld i], by unfold rd; rw [ofList_get, List.getElem?_eq_getElem h]; rfl⟩

theorem wr_ofList {α : Type} {L : List α} {i : Nat} (h : i < L.length) (v : α) : Returns (wr (Buf.ofList L) i v) (Buf.ofList (L.set i v)) := by
  refine ⟨[.st i], ?_⟩
  rw [← ofList_set]
  exact if_pos (by rw [ofList_size]; exact h)

/-- Byte `p` of the little-endian representation of the lanes `L`. -/
def laneByte (L : List Model.W) (p : Nat) : UInt8 := toU8 ((L.getD (p / 8) 0) >>> (8 * (p % 8))).toNat

/-- The little-endian representation of the lanes `L`. -/
def laneBytes (L : List Model.W) : List UInt8 := List.ofFn (n := 8 * L.length) fun p => laneByte L p.val

theorem laneBytes_length (L : List Model.W) : (laneBytes L).length = 8 * L.length := by simp [laneBytes]

theorem leBytes_ofList (L : List Model.W) : leBytes (Buf.ofList L) = Buf.ofList (laneBytes L) := by
  apply Array.ext_getElem?
  intro p
  rw [ofList_get]
  unfold leBytes laneBytes
  by_cases hp : p < 8 * L.length
  · have h8 : p / 8 < L.length := by omega
    rw [Array.getElem?_ofFn, dif_pos (by rw [ofList_size]; exact hp), List.getElem?_ofFn, dif_pos hp]
    simp only [ofList_get, List.getElem?_eq_getElem h8, Option.map_some, laneByte, getD_of_lt _ _ h8]
  · rw [Array.getElem?_ofFn, dif_neg (by rw [ofList_size]; exact hp), List.getElem?_ofFn, dif_neg hp]; rfl

theorem lane_digits (w : Nat) (hw : w < 2 ^ 64) :
    w % 256 + 256 * (w / 256 % 256 + 256 * (w / 2 ^ 16 % 256 + 256 * (w / 2 ^ 24 % 256 + 256 * (w / 2 ^ 32 % 256
      + 256 * (w / 2 ^ 40 % 256 + 256 * (w / 2 ^ 48 % 256 + 256 * (w / 2 ^ 56 % 256))))))) = w := by
  omega

theorem laneByte_toNat (L : List Model.W) (l k : Nat) (hk : k < 8) :
    (laneByte L (8 * l + k)).toNat = (L.getD l 0).toNat / 2 ^ (8 * k) % 256 := by
  unfold laneByte
  rw [toU8_toNat, show (8 * l + k) / 8 = l by omega, show (8 * l + k) % 8 = k by omega, BitVec.toNat_ushiftRight, Nat.shiftRight_eq_div_pow]

theorem lane_of_bytes (b0 b1 b2 b3 b4 b5 b6 b7 : UInt8) (w : Model.W) (h0 : b0.toNat = w.toNat / 2 ^ (8 * 0) % 256) (h1 : b1.toNat = w.toNat / 2 ^ (8 * 1) % 256)
    (h2 : b2.toNat = w.toNat / 2 ^ (8 * 2) % 256) (h3 : b3.toNat = w.toNat / 2 ^ (8 * 3) % 256) (h4 : b4.toNat = w.toNat / 2 ^ (8 * 4) % 256)
    (h5 : b5.toNat = w.toNat / 2 ^ (8 * 5) % 256) (h6 : b6.toNat = w.toNat / 2 ^ (8 * 6) % 256) (h7 : b7.toNat = w.toNat / 2 ^ (8 * 7) % 256) :
    BitVec.ofNat 64 (b0.toNat + 256 * (b1.toNat + 256 * (b2.toNat + 256 * (b3.toNat + 256 * (b4.toNat
        + 256 * (b5.toNat + 256 * (b6.toNat + 256 * b7.toNat))))))) = w := by
  apply BitVec.eq_of_toNat_eq
  rw [BitVec.toNat_ofNat, h0, h1, h2, h3, h4, h5, h6, h7]
  have hw := w.isLt
  generalize w.toNat = x at hw
  have := lane_digits x hw
  norm_num at this ⊢
  omega

theorem ofLeBytes_laneBytes (L : List Model.W) : ofLeBytes (Buf.ofList (laneBytes L)) = Buf.ofList L := by
  apply Array.ext_getElem?
  intro l
  rw [ofList_get]
  unfold ofLeBytes
  have hsz : (Buf.ofList (laneBytes L)).size / 8 = L.length := by rw [ofList_size, laneBytes_length]; omega
  by_cases hl : l < L.length
  · have hb : ∀ k, k < 8 → (Buf.ofList (laneBytes L))[8 * l + k]? = some (some (laneByte L (8 * l + k))) := by
      intro k hk
      rw [ofList_get]; unfold laneBytes
      rw [List.getElem?_ofFn, dif_pos (by omega)]; rfl
    rw [Array.getElem?_ofFn, dif_pos (by rw [hsz]; exact hl), List.getElem?_eq_getElem hl]
    have e0 := hb 0 (by omega)
    rw [Nat.add_zero] at e0
    have e1 := hb 1 (by omega)
    have e2 := hb 2 (by omega)
    have e3 := hb 3 (by omega)
    have e4 := hb 4 (by omega)
    have e5 := hb 5 (by omega)
    have e6 := hb 6 (by omega)
    have e7 := hb 7 (by omega)
    dsimp only
    rw [e0, e1, e2, e3, e4, e5, e6, e7]
    dsimp only
    rw [Option.map_some]
    refine congrArg (fun w => some (some w)) (lane_of_bytes _ _ _ _ _ _ _ _ (L[l]) ?_ ?_ ?_ ?_ ?_ ?_ ?_ ?_)
    · have := laneByte_toNat L l 0 (by omega)
      rwa [Nat.add_zero, getD_of_lt _ _ hl] at this
    all_goals rw [laneByte_toNat L l _ (by omega), getD_of_lt _ _ hl]
  · rw [Array.getElem?_ofFn, dif_neg (by rw [hsz]; exact hl), List.getElem?_eq_none (by omega)]; rfl

/-- Exclusive-or of a byte into the lane, seen in the representation. -/
theorem laneBytes_xor (L : List Model.W) (l k : Nat) (hl : l < L.length) (hk : k < 8) (d : UInt8) :
    laneBytes (L.set l (L[l] ^^^ (BitVec.ofNat 64 d.toNat) <<< (8 * k))) = (laneBytes L).set (8 * l + k) (laneByte L (8 * l + k) ^^^ d) := by
  apply List.ext_getElem?
  intro p
  rw [List.getElem?_set, laneBytes_length]
  unfold laneBytes
  rw [List.getElem?_ofFn, List.getElem?_ofFn]
  simp only [List.length_set]
  by_cases hp : p < 8 * L.length
  · rw [dif_pos hp, dif_pos hp]
    by_cases hpe : 8 * l + k = p
    · subst hpe
      rw [if_pos rfl, if_pos hp]
      congr 1
      apply UInt8.toNat_inj.mp
      rw [UInt8.toNat_xor]
      apply Nat.eq_of_testBit_eq
      intro t
      unfold laneByte
      rw [show (8 * l + k) / 8 = l by omega, show (8 * l + k) % 8 = k by omega, toU8_toNat, toU8_toNat, Nat.testBit_xor]
      rw [getD_of_lt _ _ (by simpa using hl), getD_of_lt _ _ hl, List.getElem_set_self]
      rw [show (256 : Nat) = 2 ^ 8 from rfl, Nat.testBit_mod_two_pow, Nat.testBit_mod_two_pow]
      by_cases ht : t < 8
      · simp only [ht, decide_true, Bool.true_and, BitVec.testBit_toNat, BitVec.getLsbD_ushiftRight, BitVec.getLsbD_xor, BitVec.getLsbD_shiftLeft,
          BitVec.getLsbD_ofNat]
        rw [show 8 * k + t - 8 * k = t by omega]
        simp [show 8 * k + t < 64 by omega, show t < 64 by omega]
      · simp only [ht, decide_false, Bool.false_and]
        rw [testBit_of_lt (n := 8) d.toNat_lt (by omega)]; rfl
    · rw [if_neg hpe]
      congr 1
      by_cases hpl : p / 8 = l
      · apply UInt8.toNat_inj.mp
        apply Nat.eq_of_testBit_eq
        intro t
        unfold laneByte
        rw [hpl, toU8_toNat, toU8_toNat]
        rw [getD_of_lt _ _ (by simpa using hl), getD_of_lt _ _ hl, List.getElem_set_self]
        rw [show (256 : Nat) = 2 ^ 8 from rfl, Nat.testBit_mod_two_pow, Nat.testBit_mod_two_pow]
        by_cases ht : t < 8
        · simp only [ht, decide_true, Bool.true_and, BitVec.testBit_toNat, BitVec.getLsbD_ushiftRight, BitVec.getLsbD_xor, BitVec.getLsbD_shiftLeft,
            BitVec.getLsbD_ofNat]
          have hm : p % 8 ≠ k := by omega
          by_cases hlt : 8 * (p % 8) + t < 8 * k
          · simp [hlt]
          · rw [testBit_of_lt (n := 8) d.toNat_lt (by omega)]; simp
        · simp [ht]
      · unfold laneByte
        rw [List.getD_eq_getElem?_getD, List.getD_eq_getElem?_getD, List.getElem?_set_ne (by omega)]
  · rw [dif_neg hp, dif_neg hp, if_neg (by omega)]

theorem u32_off {off : Nat} (h : off < 200) : u32 off = off ∧ u32 off &&& 7 = off % 8 ∧ (u32 off) >>> 3 = off / 8 := by
  have : u32 off = off := by unfold u32; omega
  refine ⟨this, ?_, ?_⟩
  · rw [this]; exact Nat.and_two_pow_sub_one_eq_mod off 3
  · rw [this, Nat.shiftRight_eq_div_pow]

theorem Returns.bind {α β : Type} {p : M α} {a : α} {f : α → M β} {b : β} (hp : Returns p a) (hf : Returns (f a) b) : Returns (p >>= f) b := by
  obtain ⟨t, rfl⟩ := hp
  obtain ⟨t', h⟩ := hf
  refine ⟨t ++ t', ?_⟩
  show M.bnd _ _ = _
  simp only [M.bnd]
  rw [h]

theorem xor_loops (B : List UInt8) (so dof off : Nat) (len : Nat) : ∀ (i : Nat) (L : List Model.W), so + 25 ≤ L.length → off + i + len ≤ 200 → dof + i + len ≤ B.length →
    ∃ L' : List Model.W, L'.length = L.length ∧
      Returns (forFrom i len (Buf.ofList L) fun i s => do
        let d ← rd (Buf.ofList B) (dof + i)
        let lane ← rd s (so + (u32 (off + i)) >>> 3)
        wr s (so + (u32 (off + i)) >>> 3) (lane ^^^ (BitVec.ofNat 64 d.toNat) <<< (8 * (u32 (off + i) &&& 0x07)))) (Buf.ofList L') ∧
      Returns (forFrom i len (Buf.ofList (laneBytes L)) fun i st => do
        let d ← rd (Buf.ofList B) (dof + i)
        let v ← rd st (8 * so + off + i)
        wr st (8 * so + off + i) (v ^^^ d)) (Buf.ofList (laneBytes L')) := by
  induction len with
  | zero =>
    intro i L _ _ _
    exact ⟨L, rfl, ⟨_, rfl⟩, ⟨_, rfl⟩⟩
  | succ n ih =>
    intro i L hL ho hd
    obtain ⟨e1, e2, e3⟩ := u32_off (off := off + i) (by omega)
    have hl : so + (off + i) / 8 < L.length := by omega
    obtain ⟨L', hlen, hP, hE⟩ := ih (i + 1) (L.set (so + (off + i) / 8) (L[so + (off + i) / 8] ^^^ (BitVec.ofNat 64 (B[dof + i]).toNat) <<< (8 * ((off + i) % 8))))
      (by simpa using hL) (by omega) (by omega)
    refine ⟨L', by simpa using hlen, ?_, ?_⟩
    · refine Returns.bind ⟨_, rfl⟩ ?_
      refine Returns.bind ?_ hP
      dsimp only
      rw [e3, e2]
      exact Returns.bind (rd_ofList (by omega)) (Returns.bind (rd_ofList hl) (wr_ofList hl _))
    · refine Returns.bind ⟨_, rfl⟩ ?_
      rw [laneBytes_xor L _ _ hl (by omega)] at hE
      have hp : 8 * so + off + i < (laneBytes L).length := by rw [laneBytes_length]; omega
      have hpe : 8 * (so + (off + i) / 8) + (off + i) % 8 = 8 * so + off + i := by omega
      rw [hpe] at hE
      refine Returns.bind ?_ hE
      have hv := rd_ofList hp
      rw [show (laneBytes L)[8 * so + off + i] = laneByte L (8 * so + off + i) by simp [laneBytes]] at hv
      exact Returns.bind (rd_ofList (by omega)) (Returns.bind hv (wr_ofList hp _))

theorem extract_loops (L : List Model.W) (so dof off : Nat) (hL : so + 25 ≤ L.length) (len : Nat) : ∀ (i : Nat) (D : Buf UInt8), off + i + len ≤ 200 → dof + i + len ≤ D.size →
    ∃ D' : Buf UInt8,
      Returns (forFrom i len D fun i data => do
        let lane ← rd (Buf.ofList L) (so + (u32 (off + i)) >>> 3)
        wr data (dof + i) (toU8 (lane >>> (8 * (u32 (off + i) &&& 0x07))).toNat)) D' ∧
      Returns (forFrom i len D fun i data => do
        let v ← rd (Buf.ofList (laneBytes L)) (8 * so + off + i)
        wr data (dof + i) v) D' := by
  induction len with
  | zero =>
    intro i D _ _
    exact ⟨D, ⟨_, rfl⟩, ⟨_, rfl⟩⟩
  | succ n ih =>
    intro i D ho hd
    obtain ⟨e1, e2, e3⟩ := u32_off (off := off + i) (by omega)
    have hl : so + (off + i) / 8 < L.length := by omega
    have hw : ∀ v, Returns (wr D (dof + i) v) (D.setIfInBounds (dof + i) (some v)) := fun v => ⟨_, if_pos (by omega)⟩
    obtain ⟨D', hP, hE⟩ := ih (i + 1) (D.setIfInBounds (dof + i) (some (laneByte L (8 * so + off + i)))) (by omega) (by simp; omega)
    have hp : 8 * so + off + i < (laneBytes L).length := by rw [laneBytes_length]; omega
    refine ⟨D', ?_, ?_⟩
    · refine Returns.bind ⟨_, rfl⟩ (Returns.bind ?_ hP)
      dsimp only
      rw [e3, e2]
      have hb : laneByte L (8 * so + off + i) = toU8 (L[so + (off + i) / 8] >>> (8 * ((off + i) % 8))).toNat := by
        unfold laneByte
        rw [show (8 * so + off + i) / 8 = so + (off + i) / 8 by omega, show (8 * so + off + i) % 8 = (off + i) % 8 by omega, getD_of_lt _ _ hl]
      rw [hb]
      exact Returns.bind (rd_ofList hl) (hw _)
    · refine Returns.bind ⟨_, rfl⟩ (Returns.bind ?_ hE)
      have hv := rd_ofList hp
      rw [show (laneBytes L)[8 * so + off + i] = laneByte L (8 * so + off + i) by simp [laneBytes]] at hv
      exact Returns.bind hv (hw _)

/-- **C30 (absorbing).**  For every array of lanes `L` that contains a 25-lane Keccak state at position `so` (`so = 0` for a single
state, `25*j` for the `j`-th of four), every input `B` and every window of the state, the little-endian version and the portable
version both succeed and leave the same lanes. -/
theorem C30_xor (L : List Model.W) (so : Nat) (B : List UInt8) (dof off len : Nat)
    (hL : so + 25 ≤ L.length) (hoff : off + len ≤ 200) (hB : dof + len ≤ B.length) :
    ∃ L' : List Model.W,
      Returns (KeccakF1600_StateXORBytes (Buf.ofList L) so (Buf.ofList B) dof off len) (Buf.ofList L') ∧
      Returns (KeccakF1600_StateXORBytes_LE (Buf.ofList L) so (Buf.ofList B) dof off len) (Buf.ofList L') := by
  obtain ⟨L', _, hP, hE⟩ := xor_loops B so dof off len 0 L hL (by omega) (by omega)
  refine ⟨L', hP, ?_⟩
  unfold KeccakF1600_StateXORBytes_LE
  rw [leBytes_ofList]
  refine Returns.bind hE ⟨[], ?_⟩
  rw [ofLeBytes_laneBytes]; rfl

/-- **C30 (squeezing).**  Likewise for reading bytes out of the state into any output buffer `D`, initialised or not: same output, in
every cell. -/
theorem C30_extract (L : List Model.W) (so : Nat) (D : Buf UInt8) (dof off len : Nat)
    (hL : so + 25 ≤ L.length) (hoff : off + len ≤ 200) (hD : dof + len ≤ D.size) :
    ∃ D' : Buf UInt8,
      Returns (KeccakF1600_StateExtractBytes (Buf.ofList L) so D dof off len) D' ∧
      Returns (KeccakF1600_StateExtractBytes_LE (Buf.ofList L) so D dof off len) D' := by
  obtain ⟨D', hP, hE⟩ := extract_loops L so dof off hL len 0 D (by omega) (by omega)
  refine ⟨D', hP, ?_⟩
  unfold KeccakF1600_StateExtractBytes_LE
  rw [leBytes_ofList]
  exact hE

/-- The hypotheses are met by the window of the second of four states that starts inside a lane and ends inside another one. -/
example : (25 : Nat) + 25 ≤ (List.replicate 100 (0 : Model.W)).length ∧ 13 + 100 ≤ 200 ∧ 3 + 100 ≤ (List.replicate 103 (7 : UInt8)).length := by
  simp only [List.length_replicate]; omega

end Verif.Props

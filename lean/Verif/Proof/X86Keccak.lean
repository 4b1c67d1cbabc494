import Verif.Proof.SpongeX4
import Verif.Model.X86Keccak
/-! # The AVX2 four-way Keccak-f[1600] -/
namespace Verif
open Model Spec

/-- Element `w` of the 25 vectors. -/
def projL (A : LanesV) (w : Fin 4) : Lanes :=
  ⟨A.ba w, A.be w, A.bi w, A.bo w, A.bu w, A.ga w, A.ge w, A.gi w, A.go w, A.gu w, A.ka w, A.ke w, A.ki w, A.ko w, A.ku w,
   A.ma w, A.me w, A.mi w, A.mo w, A.mu w, A.sa w, A.se w, A.si w, A.so w, A.su w⟩

/-- The parities are those of the state. -/
def IsParity (A : LanesV) (C : ParityV) : Prop :=
  ∀ w, C.Ca w = Cl (projL A w) 0 ∧ C.Ce w = Cl (projL A w) 1 ∧ C.Ci w = Cl (projL A w) 2 ∧ C.Co w = Cl (projL A w) 3 ∧ C.Cu w = Cl (projL A w) 4

theorem or_eq_ROL (a : W) (o : Nat) (h0 : 0 < o) (h : o < 64) : (a <<< o ||| a >>> (64 - o)) = ROL a o := by
  unfold ROL
  apply BitVec.eq_of_getLsbD_eq
  intro i hi
  simp only [BitVec.getLsbD_or, BitVec.getLsbD_xor, BitVec.getLsbD_shiftLeft, BitVec.getLsbD_ushiftRight]
  by_cases c : i < o
  · simp [c]
  · have : a.getLsbD (64 - o + i) = false := BitVec.getLsbD_of_ge _ _ (by omega)
    simp [this]

theorem ROL64in256_apply (a : V256) (o : Nat) (h0 : 0 < o) (h : o < 64) (w : Fin 4) : ROL64in256 a o w = ROL (a w) o := or_eq_ROL (a w) o h0 h

theorem rho8_byte : ∀ w : Fin 4, ∀ k : Fin 8, (v256Byte rho8 (8 * w.val + k.val)).getLsbD 7 = false ∧ 16 * ((8 * w.val + k.val) / 16) + (v256Byte rho8 (8 * w.val + k.val)).toNat % 16 = 8 * w.val + (k.val + 7) % 8 := by
  decide +kernel
theorem rho56_byte : ∀ w : Fin 4, ∀ k : Fin 8, (v256Byte rho56 (8 * w.val + k.val)).getLsbD 7 = false ∧ 16 * ((8 * w.val + k.val) / 16) + (v256Byte rho56 (8 * w.val + k.val)).toNat % 16 = 8 * w.val + (k.val + 1) % 8 := by
  decide +kernel

theorem v256Byte_at (a : V256) (w : Fin 4) (k : Nat) (hk : k < 8) : v256Byte a (8 * w.val + k) = (a w).extractLsb' (8 * k) 8 := by
  unfold v256Byte
  have e1 : Fin.ofNat 4 ((8 * w.val + k) / 8) = w := by apply Fin.ext; have := w.isLt; simp only [Fin.ofNat]; omega
  rw [e1, show (8 * w.val + k) % 8 = k by omega]

theorem shuffle_bytes (a b : V256) (w : Fin 4) (r : Nat) (h : ∀ k : Fin 8, (v256Byte b (8 * w.val + k.val)).getLsbD 7 = false ∧
    16 * ((8 * w.val + k.val) / 16) + (v256Byte b (8 * w.val + k.val)).toNat % 16 = 8 * w.val + (k.val + r) % 8) :
    mm256_shuffle_epi8 a b w = (let f := fun k : Nat => (a w).extractLsb' (8 * ((k + r) % 8)) 8; f 7 ++ f 6 ++ f 5 ++ f 4 ++ f 3 ++ f 2 ++ f 1 ++ f 0) := by
  unfold mm256_shuffle_epi8
  have e : ∀ k, k < 8 → (if (v256Byte b (8 * w.val + k)).getLsbD 7 then 0#8 else v256Byte a (16 * ((8 * w.val + k) / 16) + (v256Byte b (8 * w.val + k)).toNat % 16)) =
      (a w).extractLsb' (8 * ((k + r) % 8)) 8 := by
    intro k hk
    obtain ⟨h1, h2⟩ := h ⟨k, hk⟩
    dsimp only at h1 h2
    rw [h1, h2, v256Byte_at a w _ (by omega)]
    simp
  dsimp only
  rw [e 7 (by omega), e 6 (by omega), e 5 (by omega), e 4 (by omega), e 3 (by omega), e 2 (by omega), e 1 (by omega), e 0 (by omega)]

theorem ROL64in256_8_apply (a : V256) (w : Fin 4) : ROL64in256_8 a w = ROL (a w) 8 := by
  unfold ROL64in256_8
  rw [shuffle_bytes a rho8 w 7 (rho8_byte w)]
  unfold ROL
  apply BitVec.eq_of_getLsbD_eq
  intro i hi
  simp only [BitVec.getLsbD_xor, BitVec.getLsbD_shiftLeft, BitVec.getLsbD_ushiftRight, BitVec.getLsbD_append, BitVec.getLsbD_extractLsb']
  interval_cases i <;> simp

theorem ROL64in256_56_apply (a : V256) (w : Fin 4) : ROL64in256_56 a w = ROL (a w) 56 := by
  unfold ROL64in256_56
  rw [shuffle_bytes a rho56 w 1 (rho56_byte w)]
  unfold ROL
  apply BitVec.eq_of_getLsbD_eq
  intro i hi
  simp only [BitVec.getLsbD_xor, BitVec.getLsbD_shiftLeft, BitVec.getLsbD_ushiftRight, BitVec.getLsbD_append, BitVec.getLsbD_extractLsb']
  interval_cases i <;> simp

theorem prepareTheta_spec (A : LanesV) : IsParity A (prepareTheta A) := by
  intro w
  unfold Cl laneAt projL prepareTheta mm256_xor
  simp only [BitVec.xor_assoc]
  exact ⟨trivial, trivial, trivial, trivial, trivial⟩

theorem roundV_spec (rc : W) (A : LanesV) (C : ParityV) (h : IsParity A C) :
    (∀ w, projL (thetaRhoPiChiIotaPrepareTheta rc A C).1 w = oneRound rc (projL A w)) ∧
    IsParity (thetaRhoPiChiIotaPrepareTheta rc A C).1 (thetaRhoPiChiIotaPrepareTheta rc A C).2 := by
  refine ⟨fun w => ?_, fun w => ⟨rfl, rfl, rfl, rfl, rfl⟩⟩
  obtain ⟨h1, h2, h3, h4, h5⟩ := h w
  unfold projL thetaRhoPiChiIotaPrepareTheta
  simp only [mm256_xor, mm256_andnot, mm256_broadcast, ROL64in256_apply, ROL64in256_8_apply, ROL64in256_56_apply, h1, h2, h3, h4, h5, Nat.reduceLT, Nat.lt_add_one]
  rfl

theorem roundV_last (rc : W) (A : LanesV) (C : ParityV) : thetaRhoPiChiIota rc A C = (thetaRhoPiChiIotaPrepareTheta rc A C).1 := rfl

variable {F : Prop}

/-- The vector made of lane `l` of the four states. -/
def vOf (L : Fin 4 → Nat → W) (l : Nat) : V256 := fun w => L w l

/-- The vector variables loaded from four states. -/
def lanesVOf (L : Fin 4 → Nat → W) : LanesV := ⟨vOf L 0, vOf L 1, vOf L 2, vOf L 3, vOf L 4, vOf L 5, vOf L 6, vOf L 7, vOf L 8, vOf L 9, vOf L 10, vOf L 11, vOf L 12, vOf L 13, vOf L 14, vOf L 15, vOf L 16, vOf L 17, vOf L 18, vOf L 19, vOf L 20, vOf L 21, vOf L 22, vOf L 23, vOf L 24⟩

theorem projL_lanesVOf (L : Fin 4 → Nat → W) (w : Fin 4) : projL (lanesVOf L) w = lanesOf (L w) := rfl

theorem gather_spec {s : Buf W} {L : Fin 4 → Nat → W} (h : ∀ w : Fin 4, Seg s (25 * w.val) 25 (L w)) {l : Nat} (hl : l < 25) : Post (gather s l) (fun v => v = vOf L l) := by
  unfold gather
  simp only [wp_bind, wp_rd, wp_pure]
  refine ⟨_, h 0 l hl, _, h 1 l hl, _, h 2 l hl, _, h 3 l hl, ?_⟩
  funext w
  match w with
  | 0 => rfl
  | 1 => rfl
  | 2 => rfl
  | 3 => rfl

theorem copyFromStateV_spec {s : Buf W} {L : Fin 4 → Nat → W} (h : ∀ w : Fin 4, Seg s (25 * w.val) 25 (L w)) : Post (copyFromStateV s) (fun A => A = lanesVOf L) := by
  unfold copyFromStateV
  simp only [wp_bind, wp_pure]
  refine Post.use (gather_spec h (by omega)) fun _ e0 => ?_; subst e0
  refine Post.use (gather_spec h (by omega)) fun _ e1 => ?_; subst e1
  refine Post.use (gather_spec h (by omega)) fun _ e2 => ?_; subst e2
  refine Post.use (gather_spec h (by omega)) fun _ e3 => ?_; subst e3
  refine Post.use (gather_spec h (by omega)) fun _ e4 => ?_; subst e4
  refine Post.use (gather_spec h (by omega)) fun _ e5 => ?_; subst e5
  refine Post.use (gather_spec h (by omega)) fun _ e6 => ?_; subst e6
  refine Post.use (gather_spec h (by omega)) fun _ e7 => ?_; subst e7
  refine Post.use (gather_spec h (by omega)) fun _ e8 => ?_; subst e8
  refine Post.use (gather_spec h (by omega)) fun _ e9 => ?_; subst e9
  refine Post.use (gather_spec h (by omega)) fun _ e10 => ?_; subst e10
  refine Post.use (gather_spec h (by omega)) fun _ e11 => ?_; subst e11
  refine Post.use (gather_spec h (by omega)) fun _ e12 => ?_; subst e12
  refine Post.use (gather_spec h (by omega)) fun _ e13 => ?_; subst e13
  refine Post.use (gather_spec h (by omega)) fun _ e14 => ?_; subst e14
  refine Post.use (gather_spec h (by omega)) fun _ e15 => ?_; subst e15
  refine Post.use (gather_spec h (by omega)) fun _ e16 => ?_; subst e16
  refine Post.use (gather_spec h (by omega)) fun _ e17 => ?_; subst e17
  refine Post.use (gather_spec h (by omega)) fun _ e18 => ?_; subst e18
  refine Post.use (gather_spec h (by omega)) fun _ e19 => ?_; subst e19
  refine Post.use (gather_spec h (by omega)) fun _ e20 => ?_; subst e20
  refine Post.use (gather_spec h (by omega)) fun _ e21 => ?_; subst e21
  refine Post.use (gather_spec h (by omega)) fun _ e22 => ?_; subst e22
  refine Post.use (gather_spec h (by omega)) fun _ e23 => ?_; subst e23
  refine Post.use (gather_spec h (by omega)) fun _ e24 => ?_; subst e24
  rfl

/-- Lane number `l` of the 25 vectors. -/
def laneV (X : LanesV) (l : Nat) : V256 := fun w => laneNo (projL X w) l

/-- The lanes below `k` of the four states have been stored. -/
def Stored (s0 s : Buf W) (X : LanesV) (k : Nat) : Prop :=
  s.size = s0.size ∧ ∀ (w : Fin 4) (l : Nat), l < k → s[25 * w.val + l]? = some (some (laneV X l w))

theorem SCATTER_spec {s0 s : Buf W} {X : LanesV} {k : Nat} {v : V256} (hS : Stored s0 s X k) (h0 : 100 ≤ s0.size) (hk : k < 25) (hv : v = laneV X k) :
    Post (SCATTER_STORE256 s k v) (fun s' => Stored s0 s' X (k + 1)) := by
  subst hv
  unfold SCATTER_STORE256
  simp only [wp_bind, wp_wr]
  have hs := hS.1
  refine ⟨by omega, by simp only [Array.size_setIfInBounds]; omega, by simp only [Array.size_setIfInBounds]; omega, by simp only [Array.size_setIfInBounds]; omega, by simp only [Array.size_setIfInBounds]; exact hs, ?_⟩
  intro w l hl
  have hw := w.isLt
  simp only [Array.getElem?_setIfInBounds, Array.size_setIfInBounds]
  by_cases e : l = k
  · subst e
    match w with
    | 0 => rw [if_neg (by simp <;> omega), if_neg (by simp <;> omega), if_neg (by simp <;> omega), if_pos (by simp), if_pos (by omega)]
    | 1 => rw [if_neg (by simp <;> omega), if_neg (by simp <;> omega), if_pos (by simp), if_pos (by omega)]
    | 2 => rw [if_neg (by simp <;> omega), if_pos (by simp), if_pos (by omega)]
    | 3 => rw [if_pos (by simp), if_pos (by omega)]
  · rw [if_neg (by omega), if_neg (by omega), if_neg (by omega), if_neg (by omega)]
    exact hS.2 w l (by omega)

theorem copyToStateV_spec {s : Buf W} {X : LanesV} (h : 100 ≤ s.size) : Post (copyToStateV s X) (fun s' => Stored s s' X 25) := by
  unfold copyToStateV
  have hS : Stored s s X 0 := ⟨rfl, fun _ _ h => absurd h (by omega)⟩
  simp only [wp_bind, wp_pure]
  refine Post.use (SCATTER_spec hS h (by omega) rfl) (fun s hS => ?_)
  refine Post.use (SCATTER_spec hS h (by omega) rfl) (fun s hS => ?_)
  refine Post.use (SCATTER_spec hS h (by omega) rfl) (fun s hS => ?_)
  refine Post.use (SCATTER_spec hS h (by omega) rfl) (fun s hS => ?_)
  refine Post.use (SCATTER_spec hS h (by omega) rfl) (fun s hS => ?_)
  refine Post.use (SCATTER_spec hS h (by omega) rfl) (fun s hS => ?_)
  refine Post.use (SCATTER_spec hS h (by omega) rfl) (fun s hS => ?_)
  refine Post.use (SCATTER_spec hS h (by omega) rfl) (fun s hS => ?_)
  refine Post.use (SCATTER_spec hS h (by omega) rfl) (fun s hS => ?_)
  refine Post.use (SCATTER_spec hS h (by omega) rfl) (fun s hS => ?_)
  refine Post.use (SCATTER_spec hS h (by omega) rfl) (fun s hS => ?_)
  refine Post.use (SCATTER_spec hS h (by omega) rfl) (fun s hS => ?_)
  refine Post.use (SCATTER_spec hS h (by omega) rfl) (fun s hS => ?_)
  refine Post.use (SCATTER_spec hS h (by omega) rfl) (fun s hS => ?_)
  refine Post.use (SCATTER_spec hS h (by omega) rfl) (fun s hS => ?_)
  refine Post.use (SCATTER_spec hS h (by omega) rfl) (fun s hS => ?_)
  refine Post.use (SCATTER_spec hS h (by omega) rfl) (fun s hS => ?_)
  refine Post.use (SCATTER_spec hS h (by omega) rfl) (fun s hS => ?_)
  refine Post.use (SCATTER_spec hS h (by omega) rfl) (fun s hS => ?_)
  refine Post.use (SCATTER_spec hS h (by omega) rfl) (fun s hS => ?_)
  refine Post.use (SCATTER_spec hS h (by omega) rfl) (fun s hS => ?_)
  refine Post.use (SCATTER_spec hS h (by omega) rfl) (fun s hS => ?_)
  refine Post.use (SCATTER_spec hS h (by omega) rfl) (fun s hS => ?_)
  refine Post.use (SCATTER_spec hS h (by omega) rfl) (fun s hS => ?_)
  refine Post.use (SCATTER_spec hS h (by omega) rfl) (fun s hS => hS)

/-- After `n` rounds. -/
def RoundsV (S : Fin 4 → KState) (n : Nat) (A : LanesV) (C : ParityV) : Prop := IsParity A C ∧ ∀ w, lanesK (projL A w) = rounds n (S w)

attribute [local irreducible] thetaRhoPiChiIotaPrepareTheta prepareTheta

theorem rcV_eq : KeccakF1600RoundConstantsList = KeccakF_RoundConstantsList := rfl

theorem roundV_step {S : Fin 4 → KState} {n : Nat} {A : LanesV} {C : ParityV} (h : RoundsV S n A C) (hn : n < 24) :
    ∃ v, KeccakF1600RoundConstants[n]? = some (some v) ∧ RoundsV S (n + 1) (thetaRhoPiChiIotaPrepareTheta v A C).1 (thetaRhoPiChiIotaPrepareTheta v A C).2 := by
  refine ⟨_, (Holds.ofList KeccakF1600RoundConstantsList 0).get hn, ?_⟩
  obtain ⟨h1, h2⟩ := roundV_spec (KeccakF1600RoundConstantsList.getD n 0) A C h.1
  refine ⟨h2, fun w => ?_⟩
  rw [h1 w, rcV_eq, oneRound_eq n _ (rc_bits ⟨n, hn⟩), h.2 w, rounds_succ]

theorem roundM_spec {S : Fin 4 → KState} {n : Nat} {x : LanesV × ParityV} (h : RoundsV S n x.1 x.2) (hn : n < 24) : Post (roundM n x) (fun x' => RoundsV S (n + 1) x'.1 x'.2) := by
  obtain ⟨v, hv, hR⟩ := roundV_step h hn
  unfold roundM
  simp only [wp_bind, wp_rd, wp_pure]
  exact ⟨v, hv, hR⟩

theorem keccak_f1600_x4_native_spec {s : Buf W} {S : Nat → KState} (h : State4 s S) :
    Post (keccak_f1600_x4_native s) (fun s' => s'.size = s.size ∧ State4 s' (fun w => keccakF (S w))) := by
  obtain ⟨L0, hL0, hb0⟩ := h.s0.choose
  obtain ⟨L1, hL1, hb1⟩ := h.s1.choose
  obtain ⟨L2, hL2, hb2⟩ := h.s2.choose
  obtain ⟨L3, hL3, hb3⟩ := h.s3.choose
  let L : Fin 4 → Nat → W := fun w => match w with | 0 => L0 | 1 => L1 | 2 => L2 | 3 => L3
  have hL : ∀ w : Fin 4, Seg s (25 * w.val) 25 (L w) := fun w => match w with | 0 => hL0 | 1 => hL1 | 2 => hL2 | 3 => hL3
  have hb : ∀ w : Fin 4, ∀ l, l < 25 → ∀ z, z < 64 → (L w l).getLsbD z = stateBit (S w.val) (64 * l + z) := fun w => match w with | 0 => hb0 | 1 => hb1 | 2 => hb2 | 3 => hb3
  have hsz : 100 ≤ s.size := hL3.le_size (by omega)
  unfold keccak_f1600_x4_native KeccakP1600times4_PermuteAll_24rounds
  simp only [wp_bind, wp_rd]
  refine Post.use (copyFromStateV_spec hL) fun A hA => ?_
  subst hA
  have hR : RoundsV (fun w => S w.val) 0 (lanesVOf L) (prepareTheta (lanesVOf L)) := by
    refine ⟨prepareTheta_spec _, fun w => ?_⟩
    rw [projL_lanesVOf]
    funext x y z
    unfold lanesK lb
    rw [laneAt_lanesOf, hb w _ (by have := x.isLt; have := y.isLt; omega) _ z.isLt, stateBit_kpos]
    rfl
  refine Post.use (roundM_spec (x := (lanesVOf L, prepareTheta (lanesVOf L))) hR (by omega)) fun x hR => ?_
  refine Post.use (roundM_spec hR (by omega)) fun x hR => ?_
  refine Post.use (roundM_spec hR (by omega)) fun x hR => ?_
  refine Post.use (roundM_spec hR (by omega)) fun x hR => ?_
  refine Post.use (roundM_spec hR (by omega)) fun x hR => ?_
  refine Post.use (roundM_spec hR (by omega)) fun x hR => ?_
  refine Post.use (roundM_spec hR (by omega)) fun x hR => ?_
  refine Post.use (roundM_spec hR (by omega)) fun x hR => ?_
  refine Post.use (roundM_spec hR (by omega)) fun x hR => ?_
  refine Post.use (roundM_spec hR (by omega)) fun x hR => ?_
  refine Post.use (roundM_spec hR (by omega)) fun x hR => ?_
  refine Post.use (roundM_spec hR (by omega)) fun x hR => ?_
  refine Post.use (roundM_spec hR (by omega)) fun x hR => ?_
  refine Post.use (roundM_spec hR (by omega)) fun x hR => ?_
  refine Post.use (roundM_spec hR (by omega)) fun x hR => ?_
  refine Post.use (roundM_spec hR (by omega)) fun x hR => ?_
  refine Post.use (roundM_spec hR (by omega)) fun x hR => ?_
  refine Post.use (roundM_spec hR (by omega)) fun x hR => ?_
  refine Post.use (roundM_spec hR (by omega)) fun x hR => ?_
  refine Post.use (roundM_spec hR (by omega)) fun x hR => ?_
  refine Post.use (roundM_spec hR (by omega)) fun x hR => ?_
  refine Post.use (roundM_spec hR (by omega)) fun x hR => ?_
  refine Post.use (roundM_spec hR (by omega)) fun x hR => ?_
  refine ⟨_, (Holds.ofList KeccakF1600RoundConstantsList 0).get (by decide : 23 < 24), ?_⟩
  rw [roundV_last]
  have hfin : ∀ w, lanesK (projL (thetaRhoPiChiIotaPrepareTheta (KeccakF1600RoundConstantsList.getD 23 0) x.1 x.2).1 w) = keccakF (S w.val) := by
    intro w
    obtain ⟨h1, h2⟩ := roundV_spec (KeccakF1600RoundConstantsList.getD 23 0) x.1 x.2 hR.1
    rw [h1 w, rcV_eq, oneRound_eq 23 _ (rc_bits ⟨23, by omega⟩), hR.2 w, ← rounds_succ]
    rfl
  refine Post.use (copyToStateV_spec hsz) fun s' hs' => ⟨hs'.1, ?_⟩
  have seg : ∀ w : Fin 4, SegK s' (25 * w.val) (keccakF (S w.val)) := by
    intro w l hl
    refine ⟨_, hs'.2 w l hl, fun z hz => ?_⟩
    rw [← hfin w]
    have e := stateBit_kpos (lanesK (projL (thetaRhoPiChiIotaPrepareTheta (KeccakF1600RoundConstantsList.getD 23 0) x.1 x.2).1 w)) (Fin.ofNat 5 l) (Fin.ofNat 5 (l / 5)) ⟨z, hz⟩
    rw [show 64 * l + z = 64 * (5 * (Fin.ofNat 5 (l / 5)).val + (Fin.ofNat 5 l).val) + (⟨z, hz⟩ : Fin 64).val by simp [Fin.ofNat]; omega, e]
    rfl
  exact ⟨seg 0, seg 1, seg 2, seg 3⟩

end Verif

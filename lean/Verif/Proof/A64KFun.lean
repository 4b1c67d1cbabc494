import Verif.Proof.A64KRun
import Verif.Proof.Keccak
/-! # A function that passes the symbolic check permutes its states -/
namespace Verif.A64K
open Verif Model Model.A64K Spec

attribute [local irreducible] keccakF

/-! ## The lanes round by round -/

theorem ROL_eq (a : Model.W) {k : Nat} (h0 : 0 < k) (hk : k < 64) : ROL a k = a.rotateLeft k := by
  apply BitVec.eq_of_getLsbD_eq
  intro i hi
  rw [getLsbD_rotl _ _ hi]
  have e := lb_ROL a k hk h0 ⟨i, hi⟩
  unfold lb at e
  rw [e]
  congr 1
  rw [Fin.sub_def]
  simp
  omega
theorem rot_eq (a : Model.W) {k : Nat} (hk : k < 64) : rot a k = a.rotateLeft k := by
  cases k with
  | zero => exact (rotl_0 a).symm
  | succ k => exact ROL_eq a (by omega) hk

/-- The lanes of state `s` before round `r`. -/
noncomputable def lanesR (L : Nat → Nat → Model.W) (s : Nat) : Nat → Lanes
  | 0 => lanesOf (L s)
  | r + 1 => oneRound (rcW r) (lanesR L s r)

/-- The symbols of state and round `z`. -/
noncomputable def valk (L : Nat → Nat → Model.W) (v : Nat → Model.W) (z k : Nat) : Model.W :=
  let A := lanesR L (z / 25) (z % 25)
  if k < 25 then laneAt A (Fin.ofNat 5 k) (Fin.ofNat 5 (k / 5))
  else if k < 30 then Cl A (Fin.ofNat 5 (k - 25))
  else if k < 35 then Dl A (Fin.ofNat 5 (k - 30))
  else if k < 60 then laneAt A (Fin.ofNat 5 (k - 35)) (Fin.ofNat 5 ((k - 35) / 5)) ^^^ Dl A (Fin.ofNat 5 (k - 35))
  else v z

/-- The meaning of the symbols. -/
noncomputable def symV (L : Nat → Nat → Model.W) (v : Nat → Model.W) (y : Nat) : Model.W := valk L v (y / 64) (y % 64)

theorem symV_eq (L : Nat → Nat → Model.W) (v : Nat → Model.W) (z : Nat) {k : Nat} (hk : k < 64) : symV L v (64 * z + k) = valk L v z k := by
  unfold symV
  rw [show (64 * z + k) / 64 = z by omega, show (64 * z + k) % 64 = k by omega]

theorem Bl_eq (L : Nat → Nat → Model.W) (v : Nat → Model.W) (z : Nat) {l : Nat} (hl : l < 25) (x y : Fin 5) (h : srcL l = 5 * y.val + x.val) :
    bW (symV L v) z l = Bl (lanesR L (z / 25) (z % 25)) x y := by
  have hx := x.isLt; have hy := y.isLt
  have hrho : nn rhoL (5 * y.val + x.val) = rotTab x y := by
    clear h hx hy
    fin_cases y <;> fin_cases x <;> rfl
  unfold bW Bl
  rw [symV_eq _ _ _ (by have := srcL_lt l; omega), rot_eq _ (rotTab_lt x y), h, hrho]
  congr 1
  unfold valk
  simp only []
  rw [if_neg (by omega), if_neg (by omega), if_neg (by omega), if_pos (by omega), Nat.add_sub_cancel_left,
    show Fin.ofNat 5 (5 * y.val + x.val) = x by apply Fin.ext; simp only [Fin.ofNat]; omega,
    show Fin.ofNat 5 ((5 * y.val + x.val) / 5) = y by apply Fin.ext; simp only [Fin.ofNat]; omega]

theorem symV_good (L : Nat → Nat → Model.W) (v : Nat → Model.W) : Good (symV L v) where
  par z x hx := by
    simp only [symV_eq L v z (show 25 + x < 64 by omega), symV_eq L v z (show x < 64 by omega), symV_eq L v z (show x + 5 < 64 by omega), symV_eq L v z (show x + 10 < 64 by omega),
      symV_eq L v z (show x + 15 < 64 by omega), symV_eq L v z (show x + 20 < 64 by omega)]
    interval_cases x <;> rfl
  the z x hx := by
    have h1 : nn [4, 0, 1, 2, 3] x < 5 := by interval_cases x <;> decide
    have h2 : nn [1, 2, 3, 4, 0] x < 5 := by interval_cases x <;> decide
    rw [symV_eq L v z (by omega), symV_eq L v z (by omega), symV_eq L v z (by omega), ← ROL_eq _ (by omega) (by omega)]
    interval_cases x <;> rfl
  add z l hl := by
    rw [symV_eq L v z (by omega), symV_eq L v z (by omega), symV_eq L v z (by omega)]
    unfold valk
    simp only []
    rw [if_neg (by omega), if_neg (by omega), if_neg (by omega), if_pos (by omega), if_pos hl, if_neg (by omega), if_neg (by omega), if_pos (by omega), Nat.add_sub_cancel_left,
      Nat.add_sub_cancel_left, show Fin.ofNat 5 (l % 5) = Fin.ofNat 5 l by apply Fin.ext; simp only [Fin.ofNat]; omega]
  chi z l hz hl := by
    rw [symV_eq L v _ (by omega)]
    unfold valk
    simp only []
    rw [if_pos hl, show (z + 1) / 25 = z / 25 by omega, show (z + 1) % 25 = z % 25 + 1 by omega]
    show laneAt (oneRound (rcW (z % 25)) (lanesR L (z / 25) (z % 25))) _ _ = _
    rw [laneAt_oneRound]
    have hR : ∀ l, l < 25 → Rl (lanesR L (z / 25) (z % 25)) (Fin.ofNat 5 l) (Fin.ofNat 5 (l / 5)) =
        bW (symV L v) z l ^^^ (bW (symV L v) z (nextL (nextL l)) &&& ~~~bW (symV L v) z (nextL l)) := fun l hl => by
      unfold Rl
      rw [BitVec.and_comm]
      have h1 : nextL l < 25 := by interval_cases l <;> decide
      have h2 : nextL (nextL l) < 25 := by interval_cases l <;> decide
      rw [Bl_eq L v z hl (Fin.ofNat 5 l + 3 * Fin.ofNat 5 (l / 5)) (Fin.ofNat 5 l) (by interval_cases l <;> rfl),
        Bl_eq L v z h1 (Fin.ofNat 5 l + 1 + 3 * Fin.ofNat 5 (l / 5)) (Fin.ofNat 5 l + 1) (by interval_cases l <;> rfl),
        Bl_eq L v z h2 (Fin.ofNat 5 l + 2 + 3 * Fin.ofNat 5 (l / 5)) (Fin.ofNat 5 l + 2) (by interval_cases l <;> rfl)]
    by_cases h0 : l = 0
    · subst h0
      rw [if_pos ⟨rfl, rfl⟩, if_pos rfl, hR 0 (by omega)]
    · rw [if_neg, if_neg h0, hR l hl]
      · exact (xor_zero' _).symm
      · rintro ⟨a, b⟩
        have a := congrArg Fin.val a
        have b := congrArg Fin.val b
        simp only [Fin.ofNat] at a b
        have : l % 5 = 0 := a
        have : l / 5 % 5 = 0 := b
        omega

theorem rcW_bits {r : Nat} (h : r < 24) (z : Fin 64) : lb (rcW r) z = RCbit r z := by
  rw [← rc_bits ⟨r, h⟩ z]
  congr 1
  interval_cases r <;> rfl

theorem lanesR_eq {L : Nat → Nat → Model.W} {s : Nat} {S : KState} (h : lanesK (lanesOf (L s)) = S) {r : Nat} (hr : r ≤ 24) : lanesK (lanesR L s r) = rounds r S := by
  induction r with
  | zero => exact h
  | succ r ih =>
    show lanesK (oneRound (rcW r) (lanesR L s r)) = _
    rw [oneRound_eq r _ (rcW_bits (by omega)), ih (by omega), rounds_succ]

/-! ## The description on entry -/

theorem nth_atoms (l : List Nat) (i : Nat) : nth (atoms l) i = l[i]?.map fun a => .lin [a] := by
  induction l generalizing i with
  | nil => rfl
  | cons a l ih => cases i with
    | zero => rfl
    | succ i => simpa [atoms] using ih i
theorem atoms_length (l : List Nat) : (atoms l).length = l.length := by
  induction l with
  | nil => rfl
  | cons a l ih => simp [atoms, ih]

theorem startX_sound {so frame : Nat} {c : Cx} {g : Entry} {s : Buf Model.W} (hg : c.g = g.x) (i : Nat) (d : XD) (h : nth (startX frame) i = some d) :
    (start g frame s so).x i = d.val so c := by
  have hi : i < 32 := by
    by_contra hc
    rw [nth_eq, List.getElem?_eq_none (by simp [startX]; omega)] at h
    cases h
  by_cases h0 : i = 0
  · subst h0
    cases h
    simp [start, XD.val]
  · by_cases h1 : i = 31
    · subst h1
      cases h
      rfl
    · have : nth (startX frame) i = some (.r i) := by
        interval_cases i <;> first | rfl | omega
      rw [this] at h
      cases h
      simp [start, XD.val, h0, h1, hg]

/-- What a caller relies on: the states are permuted, nothing else in memory changes, and the callee-saved registers hold what they held on entry. -/
structure Done (n : Nat) (g : Entry) (frame : Nat) (s : Buf Model.W) (so : Nat) (Ss : Nat → KState) (m : St) : Prop where
  size : m.st.size = s.size
  out : ∀ j, (j < so ∨ so + 25 * n ≤ j) → m.st[j]? = s[j]?
  st : ∀ i, i < n → SegK m.st (so + 25 * i) (keccakF (Ss i))
  x : ∀ r, 18 ≤ r → r ≤ 30 → m.x r = g.x r
  sp : m.x 31 = .ptr .stk frame
  d : ∀ r, 8 ≤ r → r ≤ 15 → m.v r 0 = g.v r 0

theorem allAtoms_sound {l : List Nat} {S : List (Option E)} (h : allAtoms l S = true) : S = atoms l := by
  induction l generalizing S with
  | nil => cases S <;> simp_all [allAtoms, atoms]
  | cons a l ih =>
    cases S with
    | nil => simp [allAtoms] at h
    | cons x S =>
      simp only [allAtoms, Bool.and_eq_true] at h
      rw [ih h.2, atoms]
      congr 1
      have h1 := h.1
      unfold isAtom at h1
      split at h1
      · rw [Nat.eq_of_beq_eq_true h1]
      · cases h1

theorem isAtom_sound {a : Nat} {x : Option E} (h : isAtom a x = true) : x = some (.lin [a]) := by
  unfold isAtom at h
  split at h
  · rw [Nat.eq_of_beq_eq_true h]
  · cases h
theorem isEntry_sound {i : Nat} {x : Option XD} (h : isEntry i x = true) : x = some (.r i) := by
  unfold isEntry at h
  split at h
  · rw [Nat.eq_of_beq_eq_true h]
  · cases h

theorem at_64 (e : Nat → Model.W) (y : Nat) : at' e (64 * y) = e y := by
  unfold at'
  rw [Nat.mul_div_cancel_left _ (by omega), Nat.mul_mod_right, rotl_0]

/-- **The functions.**  A function that passes the check permutes its `n` states, with a trace that depends on nothing but their position. -/
theorem run_spec {prog : List Block} {n frame : Nat} (hn : 0 < n) (hc : correct prog n frame = true) (so : Nat) :
    ∃ tr, ∀ {g : Entry} {s : Buf Model.W} {Ss : Nat → KState}, (∀ i, i < n → SegK s (so + 25 * i) (Ss i)) → Runs (run prog g frame s so) tr (Done n g frame s so Ss) := by
  unfold correct at hc
  cases hd : arun prog n frame with
  | none => rw [hd] at hc; cases hc
  | some d =>
    rw [hd] at hc
    simp only [Bool.and_eq_true, List.all_eq_true] at hc
    obtain ⟨⟨⟨h1, h2⟩, h3⟩, h4⟩ := hc
    unfold arun at hd
    simp only [fXs_eq, fPs_eq, fOs_eq] at hd
    obtain ⟨tr, htr⟩ := arunB_sound (so := so) hd
    refine ⟨tr, fun {g s Ss} hS => ?_⟩
    have hch : ∀ i, ∃ L : Nat → Model.W, i < n → Seg s (so + 25 * i) 25 L ∧ ∀ l, l < 25 → ∀ z, z < 64 → (L l).getLsbD z = stateBit (Ss i) (64 * l + z) := fun i => by
      by_cases hi : i < n
      · obtain ⟨L, hL⟩ := (hS i hi).choose
        exact ⟨L, fun _ => hL⟩
      · exact ⟨fun _ => 0, fun h => absurd h hi⟩
    choose L hL using hch
    let c : Cx := ⟨symV L fun i => g.v (i / 2) (i % 2), symV_good _ _, g.x, s⟩
    have hce : c.e = symV L fun i => g.v (i / 2) (i % 2) := rfl
    have hlen : (lanesD n 0).length = 25 * n := by simp [lanesD, atoms_length]
    have hsz : so + 25 * n ≤ s.size := by
      have := (hL (n - 1) (by omega)).1.le_size (by omega)
      omega
    have hl0 : ∀ i l, i < n → l < 25 → c.e (64 * (25 * i + 0) + l) = L i l := fun i l hi hl => by
      rw [hce, symV_eq _ _ _ (by omega)]
      unfold valk
      simp only []
      rw [if_pos hl, show (25 * i + 0) / 25 = i by omega, show (25 * i + 0) % 25 = 0 by omega]
      show laneAt (lanesOf (L i)) _ _ = _
      rw [laneAt_lanesOf]
      congr 1
      simp only [Fin.ofNat]
      omega
    have hf : Fits so c (startX frame) startV none (lanesD n 0) ((List.range (frame / 8)).map fun _ => none) (start g frame s so) := {
      x := startX_sound rfl
      v0 := fun r y hy => by
        rw [nthP_eq] at hy
        unfold startV at hy
        rw [List.getElem?_map] at hy
        by_cases hr : r < 32
        · rw [List.getElem?_range hr] at hy
          cases hy
          simp only [E.eval, sumA]
          rw [xor_zero', at_64]
          rw [hce, symV_eq _ _ _ (by omega)]
          unfold valk
          simp only []
          rw [if_neg (by omega), if_neg (by omega), if_neg (by omega), if_neg (by omega), show 2 * r / 2 = r by omega, show 2 * r % 2 = 0 by omega]
          rfl
        · rw [List.getElem?_eq_none (by simpa using hr)] at hy
          cases hy
      v1 := fun r y hy => by
        rw [nthP_eq] at hy
        unfold startV at hy
        rw [List.getElem?_map] at hy
        by_cases hr : r < 32
        · rw [List.getElem?_range hr] at hy
          cases hy
          simp only [E.eval, sumA]
          rw [xor_zero', at_64]
          rw [hce, symV_eq _ _ _ (by omega)]
          unfold valk
          simp only []
          rw [if_neg (by omega), if_neg (by omega), if_neg (by omega), if_neg (by omega), show (2 * r + 1) / 2 = r by omega, show (2 * r + 1) % 2 = 1 by omega]
          rfl
        · rw [List.getElem?_eq_none (by simpa using hr)] at hy
          cases hy
      f := fun a b h => by cases h
      st := fun i y hy => by
        unfold lanesD at hy
        rw [nth_atoms, List.getElem?_map] at hy
        by_cases hi : i < 25 * n
        · rw [List.getElem?_range hi] at hy
          cases hy
          simp only [E.eval, sumA]
          rw [xor_zero', at_64, hl0 (i / 25) (i % 25) (by omega) (by omega)]
          have := (hL (i / 25) (by omega)).1 (i % 25) (by omega)
          rw [show so + 25 * (i / 25) + i % 25 = so + i by omega] at this
          exact this
        · rw [List.getElem?_eq_none (by simpa using hi)] at hy
          cases hy
      sz := rfl
      le := by rw [hlen]; exact hsz
      out := fun j _ => rfl
      stk := fun i d hd => by
        rw [nth_eq, List.getElem?_map] at hd
        by_cases hi : i < frame / 8
        · rw [List.getElem?_range hi] at hd
          cases hd
        · rw [List.getElem?_eq_none (by simpa using hi)] at hd
          cases hd
      ksz := by simp [start, Buf.uninit] }
    refine (htr hf).mono fun m hm => ?_
    have hS' := allAtoms_sound h1
    have hlen' : d.S.length = 25 * n := by rw [hS', atoms_length]; simp
    refine ⟨hm.sz, fun j hj => hm.out j (by rw [hlen']; exact hj), fun i hi l hl => ?_, fun r hr hr' => ?_, ?_, fun r hr hr' => ?_⟩
    · refine ⟨c.e (64 * (25 * i + 24) + l), ?_, fun z hz => ?_⟩
      · have := hm.st (25 * i + l) (.lin [64 * (64 * (25 * i + 24) + l)]) (by
          rw [hS', nth_atoms, List.getElem?_map, List.getElem?_range (by omega)]
          simp only [Option.map_some]
          rw [show (25 * i + l) / 25 = i by omega, show (25 * i + l) % 25 = l by omega])
        simp only [E.eval, sumA] at this
        rw [xor_zero', at_64] at this
        rw [← this, Nat.add_assoc]
      · rw [hce, symV_eq _ _ _ (by omega)]
        unfold valk
        simp only []
        rw [if_pos hl, show (25 * i + 24) / 25 = i by omega, show (25 * i + 24) % 25 = 24 by omega]
        have h0 : lanesK (lanesOf (L i)) = Ss i := by
          funext x y z
          unfold lanesK lb
          rw [laneAt_lanesOf, (hL i hi).2 _ (by have := x.isLt; have := y.isLt; omega) _ z.isLt, stateBit_kpos]
        have hK : lanesK (lanesR L i 24) = keccakF (Ss i) := by rw [lanesR_eq h0 (by omega)]; unfold keccakF; rfl
        rw [← hK]
        have e := stateBit_kpos (lanesK (lanesR L i 24)) (Fin.ofNat 5 l) (Fin.ofNat 5 (l / 5)) ⟨z, hz⟩
        rw [show 64 * l + z = 64 * (5 * (Fin.ofNat 5 (l / 5)).val + (Fin.ofNat 5 l).val) + (⟨z, hz⟩ : Fin 64).val by simp [Fin.ofNat]; omega, e]
        rfl
    · exact hm.x r _ (isEntry_sound (h2 r (by rw [List.mem_range'_1]; omega)))
    · split at h4
      · rename_i p hp
        rw [hm.x 31 _ hp, Nat.eq_of_beq_eq_true h4]
        rfl
      · cases h4
    · have := vOf_sound hm (by omega) (isAtom_sound (h3 r (by rw [List.mem_range'_1]; omega)))
      rw [this]
      simp only [E.eval, sumA]
      rw [xor_zero', at_64]
      rw [hce, symV_eq _ _ _ (by omega)]
      unfold valk
      simp only []
      rw [if_neg (by omega), if_neg (by omega), if_neg (by omega), if_neg (by omega), show 2 * r / 2 = r by omega, show 2 * r % 2 = 0 by omega]

end Verif.A64K

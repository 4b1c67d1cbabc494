import Verif.Proof.A64KSym
import Mathlib.Tactic.IntervalCases
/-! # Soundness of the symbolic execution of the AArch64 Keccak assembly -/
namespace Verif.A64K
open Verif Model Model.A64K
open Verif.Eval (force force_eq)

theorem ndiv (a b : Nat) : Nat.div a b = a / b := rfl
theorem nmod (a b : Nat) : Nat.mod a b = a % b := rfl

theorem xor_zero' (x : W) : x ^^^ 0 = x := BitVec.xor_zero

/-! ## Rotation -/

theorem getLsbD_rotl (x : W) (n : Nat) {i : Nat} (hi : i < 64) : (x.rotateLeft n).getLsbD i = x.getLsbD ((i + (64 - n % 64)) % 64) := by
  rw [BitVec.getLsbD_rotateLeft, Bool.cond_eq_ite]
  have := Nat.mod_lt n (show 0 < 64 by omega)
  simp only [decide_eq_true_eq]
  split
  · rename_i h
    rw [show (i + (64 - n % 64)) % 64 = 64 - n % 64 + i by omega]
  · rename_i h
    rw [show (i + (64 - n % 64)) % 64 = i - n % 64 by omega]
    simp [hi]

theorem rotl_add (x : W) (m n : Nat) : (x.rotateLeft m).rotateLeft n = x.rotateLeft ((m + n) % 64) := by
  apply BitVec.eq_of_getLsbD_eq
  intro i hi
  rw [getLsbD_rotl _ _ hi, getLsbD_rotl _ _ (Nat.mod_lt _ (by omega)), getLsbD_rotl _ _ hi]
  congr 1
  omega

theorem rotl_xor (x y : W) (n : Nat) : (x ^^^ y).rotateLeft n = x.rotateLeft n ^^^ y.rotateLeft n := by
  apply BitVec.eq_of_getLsbD_eq
  intro i hi
  simp only [BitVec.getLsbD_xor, getLsbD_rotl _ _ hi]

theorem rotl_bic (x y : W) (n : Nat) : (x &&& ~~~y).rotateLeft n = x.rotateLeft n &&& ~~~(y.rotateLeft n) := by
  apply BitVec.eq_of_getLsbD_eq
  intro i hi
  have h2 := Nat.mod_lt (i + (64 - n % 64)) (show 0 < 64 by omega)
  simp only [BitVec.getLsbD_and, BitVec.getLsbD_not, getLsbD_rotl _ _ hi, hi, h2, decide_true, Bool.true_and]

theorem rotl_zero (n : Nat) : (0 : W).rotateLeft n = 0 := by
  apply BitVec.eq_of_getLsbD_eq
  intro i hi
  rw [getLsbD_rotl _ _ hi]
  simp

theorem rotl_0 (x : W) : x.rotateLeft 0 = x := by
  apply BitVec.eq_of_getLsbD_eq
  intro i hi
  rw [getLsbD_rotl _ _ hi]
  congr 1
  omega

theorem rotr_eq (x : W) (n : Nat) (h0 : n ≠ 0) (h : n ≤ 64) : x.rotateRight n = x.rotateLeft (64 - n) := by
  apply BitVec.eq_of_getLsbD_eq
  intro i hi
  rw [getLsbD_rotl _ _ hi, BitVec.getLsbD_rotateRight, Bool.cond_eq_ite]
  simp only [decide_eq_true_eq]
  split
  · congr 1; omega
  · rename_i h'
    rw [show (i + (64 - (64 - n) % 64)) % 64 = i - (64 - n % 64) by omega]
    simp [hi]

theorem rotr_0 (x : W) : x.rotateRight 0 = x := by
  apply BitVec.eq_of_getLsbD_eq
  intro i hi
  rw [BitVec.getLsbD_rotateRight]
  simp only [Nat.zero_mod, Nat.sub_zero, hi, decide_true, cond_true, Nat.zero_add]

theorem sri_shl (x : W) (n i : Nat) (h : n + i = 64) : sriW i (x <<< n) x = x.rotateLeft n := by
  apply BitVec.eq_of_getLsbD_eq
  intro j hj
  rw [getLsbD_rotl _ _ hj]
  unfold sriW
  simp only [BitVec.getLsbD_or, BitVec.getLsbD_and, BitVec.getLsbD_not, BitVec.getLsbD_ushiftRight, BitVec.getLsbD_shiftLeft, BitVec.getLsbD_allOnes, hj, decide_true, Bool.true_and]
  by_cases h1 : j < n
  · by_cases h2 : n = 64
    · subst h2
      simp [show i = 0 by omega, show (j + (64 - 64 % 64)) % 64 = j by omega, h1]
    · rw [show (j + (64 - n % 64)) % 64 = i + j by omega]
      simp [h1]
  · rw [show (j + (64 - n % 64)) % 64 = j - n by omega]
    simp [h1, show ¬ i + j < 64 by omega, BitVec.getLsbD_of_ge x (i + j) (by omega)]

/-! ## The values of atoms and expressions -/

/-- The value of an atom. -/
def at' (e : Nat → W) (c : Nat) : W := (e (c / 64)).rotateLeft (c % 64)

/-- The exclusive or of atoms. -/
def sumA (e : Nat → W) : List Nat → W
  | [] => 0
  | a :: l => at' e a ^^^ sumA e l

/-- The value of an expression. -/
def E.eval (e : Nat → W) : E → W
  | .lin l => sumA e l
  | .k w => BitVec.ofNat 64 w
  | .bic a b => at' e a &&& ~~~at' e b
  | .chi p a b => at' e p ^^^ (at' e a &&& ~~~at' e b)
  | .shl n l => sumA e l <<< n

/-- The round constants. -/
noncomputable def rcW (r : Nat) : W := BitVec.ofNat 64 (nn rcL r)
/-- Lane `l` after θ, ρ and π. -/
noncomputable def bW (e : Nat → W) (z l : Nat) : W := (e (64 * z + (35 + srcL l))).rotateLeft (nn rhoL (srcL l))

/-- The symbols stand for the lanes of Keccak-f[1600]. -/
structure Good (e : Nat → W) : Prop where
  par : ∀ z x, x < 5 → e (64 * z + (25 + x)) = e (64 * z + x) ^^^ e (64 * z + (x + 5)) ^^^ e (64 * z + (x + 10)) ^^^ e (64 * z + (x + 15)) ^^^ e (64 * z + (x + 20))
  the : ∀ z x, x < 5 → e (64 * z + (30 + x)) = e (64 * z + (25 + nn [4, 0, 1, 2, 3] x)) ^^^ (e (64 * z + (25 + nn [1, 2, 3, 4, 0] x))).rotateLeft 1
  add : ∀ z l, l < 25 → e (64 * z + (35 + l)) = e (64 * z + l) ^^^ e (64 * z + (30 + l % 5))
  chi : ∀ z l, z % 25 ≤ 23 → l < 25 →
    e (64 * (z + 1) + l) = (bW e z l ^^^ (bW e z (nextL (nextL l)) &&& ~~~bW e z (nextL l))) ^^^ (if l = 0 then rcW (z % 25) else 0)

theorem at_mkA (e : Nat → W) (z : Nat) {y o : Nat} (hy : y < 64) (ho : o < 64) : at' e (mkA z y o) = (e (64 * z + y)).rotateLeft o := by
  unfold at' mkA
  simp only [Nat.add_eq, Nat.mul_eq]
  rw [show (4096 * z + (64 * y + o)) / 64 = 64 * z + y by omega, show (4096 * z + (64 * y + o)) % 64 = o by omega]

theorem mkA_self (a : Nat) : a = mkA (rnd a) (kind a) (amt a) := by
  unfold mkA rnd kind amt
  simp only [Nat.add_eq, Nat.mul_eq, ndiv, nmod]
  omega
theorem kind_lt (a : Nat) : kind a < 64 := Nat.mod_lt _ (by omega)
theorem amt_lt (a : Nat) : amt a < 64 := Nat.mod_lt _ (by omega)

theorem at_rotA (e : Nat → W) (n a : Nat) : at' e (rotA n a) = (at' e a).rotateLeft n := by
  unfold at' rotA sym
  simp only [Nat.add_eq, Nat.mul_eq, ndiv, nmod]
  rw [rotl_add, show (64 * (a / 64) + (a + n) % 64) / 64 = a / 64 by omega, show (64 * (a / 64) + (a + n) % 64) % 64 = (a % 64 + n) % 64 by omega]

theorem sumA_map (e : Nat → W) (n : Nat) (l : List Nat) : sumA e (mapL n l) = (sumA e l).rotateLeft n := by
  induction l with
  | nil => exact (rotl_zero n).symm
  | cons a l ih => simp only [mapL, sumA, ih, at_rotA, rotl_xor]

theorem sumA_append (e : Nat → W) (l m : List Nat) : sumA e (l ++ m) = sumA e l ^^^ sumA e m := by
  induction l with
  | nil => simp [sumA]
  | cons a l ih => simp only [List.cons_append, sumA, ih, BitVec.xor_assoc]

theorem sumA_merge (e : Nat → W) (f : Nat) (l m : List Nat) : sumA e (mergeL f l m) = sumA e l ^^^ sumA e m := by
  induction f generalizing l m with
  | zero => exact sumA_append e l m
  | succ f ih =>
    cases l with
    | nil => simp [mergeL, sumA]
    | cons a l =>
      cases m with
      | nil => simp [mergeL, sumA]
      | cons b m =>
        simp only [mergeL]
        cases h : Nat.beq a b
        · cases h2 : Nat.ble a b
          · simp only [cond_false, sumA, ih]; ac_rfl
          · simp only [cond_false, cond_true, sumA, ih]; ac_rfl
        · have : a = b := Nat.eq_of_beq_eq_true h
          subst this
          simp only [cond_true, ih, sumA]
          rw [show at' e a ^^^ sumA e l ^^^ (at' e a ^^^ sumA e m) = (at' e a ^^^ at' e a) ^^^ (sumA e l ^^^ sumA e m) by ac_rfl]
          simp

theorem isD_sound {e : Nat → W} (h : Good e) {z x o a b : Nat} (ho : o < 64) (hd : isD z x o a b = true) : at' e a ^^^ at' e b = at' e (mkA z (30 + x) o) := by
  unfold isD at hd
  simp only [Bool.and_eq_true, Nat.beq_eq, Nat.ble_eq] at hd
  obtain ⟨rfl, rfl, hx⟩ := hd
  have h1 : nn [4, 0, 1, 2, 3] x < 5 := by interval_cases x <;> decide
  have h2 : nn [1, 2, 3, 4, 0] x < 5 := by interval_cases x <;> decide
  rw [at_mkA e z (by simp only [Nat.add_eq]; omega) ho, nmod, at_mkA e z (by simp only [Nat.add_eq]; omega) (Nat.mod_lt _ (by omega)), at_mkA e z (by omega) ho, h.the z x (by omega), rotl_xor, rotl_add]
  simp only [Nat.add_eq, nmod, Nat.succ_eq_add_one, Nat.add_comm o 1]

theorem recD_sound {e : Nat → W} (h : Good e) {a b : Nat} {l : List Nat} (hl : sumA e l = at' e a ^^^ at' e b) : sumA e (recD a b l) = at' e a ^^^ at' e b := by
  unfold recD
  simp only [force_eq]
  cases hd : isD (rnd a) (nn [1, 2, 3, 4, 0] (Nat.sub (kind a) 25)) (amt a) a b
  · exact hl
  · rw [isD_sound h (amt_lt a) hd]
    simp [sumA]

theorem recL_sound {e : Nat → W} (h : Good e) (l : List Nat) : sumA e (recL l) = sumA e l := by
  unfold recL
  split
  · rename_i a b
    simp only [force_eq]
    cases hy : Nat.ble (kind a) 24
    · simp only [cond_false]
      cases Nat.ble (kind a) 29
      · rfl
      · simp only [cond_true]
        rw [recD_sound h]
        · simp [sumA]
        · rw [recD_sound h]
          · exact BitVec.xor_comm _ _
          · show at' e a ^^^ (at' e b ^^^ 0) = _; rw [xor_zero' (at' e b)]; exact BitVec.xor_comm _ _
    · simp only [cond_true]
      cases hb : Nat.beq (Nat.add b (Nat.mul 64 (kind a))) (Nat.add a (Nat.mul 64 (Nat.add 30 (Nat.mod (kind a) 5))))
      · rfl
      · simp only [cond_true, sumA, xor_zero']
        rw [Nat.ble_eq] at hy
        rw [Nat.beq_eq] at hb
        simp only [Nat.add_eq, Nat.mul_eq, nmod] at hb ⊢
        have ha := mkA_self a
        generalize rnd a = z at *
        generalize kind a = y at *
        have ho := amt_lt a
        generalize amt a = o at *
        have hb' : b = mkA z (30 + y % 5) o := by
          unfold mkA at *; simp only [Nat.add_eq, Nat.mul_eq] at *; omega
        have hc : a + 2240 = mkA z (35 + y) o := by
          unfold mkA at *; simp only [Nat.add_eq, Nat.mul_eq] at *; omega
        rw [hc, hb', ha, at_mkA e z (by omega) ho, at_mkA e z (by omega) ho, at_mkA e z (by omega) ho, h.add z y (by omega), rotl_xor]
  · rename_i a b c d f
    cases hd : ((Nat.ble (kind a) 4).and ((Nat.beq b (Nat.add a 320)).and ((Nat.beq c (Nat.add a 640)).and ((Nat.beq d (Nat.add a 960)).and (Nat.beq f (Nat.add a 1280))))))
    · rfl
    · simp only [Bool.and_eq_true, Nat.beq_eq, Nat.ble_eq, Nat.add_eq] at hd
      obtain ⟨hy, rfl, rfl, rfl, rfl⟩ := hd
      simp only [cond_true, sumA, xor_zero', Nat.add_eq]
      have ha := mkA_self a
      generalize rnd a = z at *
      generalize kind a = y at *
      have ho := amt_lt a
      generalize amt a = o at *
      have hs : ∀ k, a + 64 * k = mkA z (y + k) o := fun k => by
        unfold mkA at *; simp only [Nat.add_eq, Nat.mul_eq] at *; omega
      rw [show a + 1600 = a + 64 * 25 by omega, show a + 320 = a + 64 * 5 by omega, show a + 640 = a + 64 * 10 by omega, show a + 960 = a + 64 * 15 by omega,
        show a + 1280 = a + 64 * 20 by omega, hs, hs, hs, hs, hs]
      conv_rhs => rw [ha]
      rw [at_mkA e z (by omega) ho, at_mkA e z (by omega) ho, at_mkA e z (by omega) ho, at_mkA e z (by omega) ho, at_mkA e z (by omega) ho, at_mkA e z (by omega) ho,
        show y + 25 = 25 + y by omega, h.par z y (by omega)]
      simp only [rotl_xor]
      ac_rfl
  · rfl

theorem srcL_lt : ∀ l, srcL l < 25 := by
  intro l
  by_cases h : l < 25
  · interval_cases l <;> decide
  · obtain ⟨m, rfl⟩ := Nat.exists_eq_add_of_le (Nat.not_lt.mp h)
    rw [show 25 + m = m + 1 + 1 + 1 + 1 + 1 + 1 + 1 + 1 + 1 + 1 + 1 + 1 + 1 + 1 + 1 + 1 + 1 + 1 + 1 + 1 + 1 + 1 + 1 + 1 + 1 by omega]
    exact Nat.zero_lt_succ 24
theorem dstL_lt {y : Nat} (h : y < 25) : dstL y < 25 := by interval_cases y <;> decide

theorem laneChi_sound {e : Nat → W} {p a b z l o : Nat} (hc : laneChi p a b = some (z, l, o)) :
    z % 25 ≤ 23 ∧ l < 25 ∧ o < 64 ∧ at' e p ^^^ (at' e a &&& ~~~at' e b) = (bW e z l ^^^ (bW e z (nextL (nextL l)) &&& ~~~bW e z (nextL l))).rotateLeft o := by
  unfold laneChi at hc
  simp only [force_eq, Bool.cond_eq_ite, Bool.and_eq_true, Nat.beq_eq, Nat.ble_eq, Option.ite_none_right_eq_some, Option.some.injEq, Prod.mk.injEq] at hc
  obtain ⟨⟨h1, h2, h3, h4, h5, h6⟩, rfl, rfl, rfl⟩ := hc
  have ho : Nat.mod (Nat.sub (Nat.add (amt p) 64) (nn rhoL (Nat.sub (kind p) 35))) 64 < 64 := Nat.mod_lt _ (by omega)
  have hl : dstL (Nat.sub (kind p) 35) < 25 := dstL_lt (by simp only [Nat.sub_eq]; omega)
  refine ⟨h3, hl, ho, ?_⟩
  generalize Nat.mod (Nat.sub (Nat.add (amt p) 64) (nn rhoL (Nat.sub (kind p) 35))) 64 = o at *
  generalize dstL (Nat.sub (kind p) 35) = l at *
  generalize rnd p = z at *
  have hB : ∀ l, at' e (atB z (srcL l) o) = (bW e z l).rotateLeft o := fun l => by
    unfold atB bW
    have := srcL_lt l
    rw [nmod, at_mkA e z (by simp only [Nat.add_eq]; omega) (Nat.mod_lt _ (by omega)), rotl_add]
    simp only [Nat.add_eq, nmod, Nat.add_comm]
  rw [h4, h5, h6, hB, hB, hB, rotl_xor, rotl_bic]

theorem chiE_sound {e : Nat → W} (h : Good e) (p a b : Nat) : (chiE p a b).eval e = at' e p ^^^ (at' e a &&& ~~~at' e b) := by
  unfold chiE
  split
  · rename_i z l o hc
    obtain ⟨h1, h2, h3, h4⟩ := laneChi_sound (e := e) hc
    cases hl : Nat.beq l 0
    · have : l ≠ 0 := fun h => by rw [h] at hl; simp at hl
      simp only [cond_false, E.eval, sumA, xor_zero']
      rw [at_mkA e _ (by omega) h3, h.chi z l h1 h2, if_neg this, xor_zero', h4]
    · rfl
  · rfl

theorem iotaE_sound {e : Nat → W} (h : Good e) {p a b w : Nat} {x : E} (hx : iotaE p a b w = some x) :
    x.eval e = (at' e p ^^^ (at' e a &&& ~~~at' e b)) ^^^ BitVec.ofNat 64 w := by
  unfold iotaE at hx
  split at hx
  · rename_i z l o hc
    obtain ⟨h1, h2, h3, h4⟩ := laneChi_sound (e := e) hc
    simp only [Bool.cond_eq_ite, Bool.and_eq_true, Nat.beq_eq, Option.ite_none_right_eq_some, Option.some.injEq] at hx
    obtain ⟨⟨rfl, rfl, rfl⟩, rfl⟩ := hx
    simp only [E.eval, sumA, xor_zero']
    rw [show Nat.mul 4096 (Nat.succ z) = mkA (z + 1) 0 0 from rfl, at_mkA e _ (by omega) (by omega), h.chi z 0 h1 (by omega), rotl_0, if_pos rfl, h4, rotl_0]
    rfl
  · cases hx

theorem xorE_sound {e : Nat → W} (h : Good e) {x y z : E} (hz : xorE x y = some z) : z.eval e = x.eval e ^^^ y.eval e := by
  unfold xorE at hz
  split at hz
  · rename_i l
    split at hz
    · simp only [fL_eq, Option.some.injEq] at hz
      subst hz
      simp only [E.eval, recL_sound h, sumA_merge]
    · split at hz
      · simp only [Option.some.injEq] at hz
        subst hz
        rw [chiE_sound h]
        simp [E.eval, sumA]
      · cases hz
    · cases hz
  · split at hz
    · simp only [Option.some.injEq] at hz
      subst hz
      rw [chiE_sound h]
      simp only [E.eval, sumA, xor_zero']
      exact BitVec.xor_comm _ _
    · cases hz
  · split at hz
    · rw [iotaE_sound h hz]; rfl
    · cases hz
  · split at hz
    · rw [iotaE_sound h hz]; exact BitVec.xor_comm _ _
    · cases hz
  · cases hz

theorem rotE_sound {e : Nat → W} {n : Nat} {x z : E} (hz : rotE n x = some z) : z.eval e = (x.eval e).rotateLeft n := by
  unfold rotE at hz
  split at hz
  · cases hz; exact sumA_map e n _
  · cases hz; simp only [E.eval, at_rotA, rotl_bic]
  · cases hz

theorem rorE_sound {e : Nat → W} {n : Nat} {x z : E} (hz : rorE n x = some z) : z.eval e = (x.eval e).rotateRight n := by
  unfold rorE at hz
  cases h : Nat.beq n 0
  · have h0 : n ≠ 0 := fun h' => by rw [h'] at h; simp at h
    rw [h, cond_false] at hz
    cases h2 : Nat.ble n 64
    · rw [h2] at hz; cases hz
    · rw [h2, cond_true] at hz
      rw [rotE_sound hz, rotr_eq _ _ h0 (by simpa using h2)]
      rfl
  · rw [h, cond_true] at hz
    cases hz
    rw [Nat.eq_of_beq_eq_true h, rotr_0]

theorem bicE_sound {e : Nat → W} {x y z : E} (hz : bicE x y = some z) : z.eval e = x.eval e &&& ~~~y.eval e := by
  unfold bicE at hz
  split at hz
  · cases hz; simp [E.eval, sumA]
  · cases hz

theorem eqL_sound {l m : List Nat} (h : eqL l m = true) : l = m := by
  induction l generalizing m with
  | nil => cases m <;> simp_all [eqL]
  | cons a l ih =>
    cases m with
    | nil => simp [eqL] at h
    | cons b m =>
      simp only [eqL, Bool.and_eq_true, Nat.beq_eq] at h
      rw [h.1, ih h.2]

theorem addE_sound {e : Nat → W} {x y z : E} (hz : addE x y = some z) : z.eval e = x.eval e + y.eval e := by
  unfold addE at hz
  split at hz
  · rename_i l m
    cases h : eqL l m
    · rw [h] at hz; cases hz
    · rw [h, cond_true] at hz
      cases hz
      rw [eqL_sound h]
      simp only [E.eval]
      apply BitVec.eq_of_toNat_eq
      simp only [BitVec.toNat_shiftLeft, BitVec.toNat_add, Nat.shiftLeft_eq]
      congr 1; omega
  · cases hz

theorem shlE_sound {e : Nat → W} {n : Nat} {x z : E} (hz : shlE n x = some z) : z.eval e = x.eval e <<< n := by
  unfold shlE at hz
  split at hz
  · cases hz; rfl
  · cases hz

theorem sriE_sound {e : Nat → W} {i : Nat} {d x z : E} (hz : sriE i d x = some z) : z.eval e = sriW i (d.eval e) (x.eval e) := by
  unfold sriE at hz
  split at hz
  · rename_i n l m
    cases h : (eqL l m).and (Nat.beq (Nat.add n i) 64)
    · rw [h] at hz; cases hz
    · rw [h, cond_true] at hz
      simp only [Bool.and_eq_true, Nat.beq_eq, Nat.add_eq] at h
      rw [rotE_sound hz, eqL_sound h.1]
      simp only [E.eval]
      rw [sri_shl _ _ _ h.2]
  · cases hz

end Verif.A64K

import Verif.Proof.Calc
import Verif.Model.Keccak
import Verif.Spec.Fips202
import Mathlib.Data.Fintype.Basic
import Mathlib.Tactic.FinCases
/-! # The rounds of Keccak-f[1600] -/
namespace Verif
open Model Spec

/-- One round, in the style of the code. -/
def oneRound (rc : W) (A : Lanes) : Lanes :=
  let Aba := A.Aba
  let Abe := A.Abe
  let Abi := A.Abi
  let Abo := A.Abo
  let Abu := A.Abu
  let Aga := A.Aga
  let Age := A.Age
  let Agi := A.Agi
  let Ago := A.Ago
  let Agu := A.Agu
  let Aka := A.Aka
  let Ake := A.Ake
  let Aki := A.Aki
  let Ako := A.Ako
  let Aku := A.Aku
  let Ama := A.Ama
  let Ame := A.Ame
  let Ami := A.Ami
  let Amo := A.Amo
  let Amu := A.Amu
  let Asa := A.Asa
  let Ase := A.Ase
  let Asi := A.Asi
  let Aso := A.Aso
  let Asu := A.Asu
  -- prepareTheta
  let BCa := Aba ^^^ Aga ^^^ Aka ^^^ Ama ^^^ Asa
  let BCe := Abe ^^^ Age ^^^ Ake ^^^ Ame ^^^ Ase
  let BCi := Abi ^^^ Agi ^^^ Aki ^^^ Ami ^^^ Asi
  let BCo := Abo ^^^ Ago ^^^ Ako ^^^ Amo ^^^ Aso
  let BCu := Abu ^^^ Agu ^^^ Aku ^^^ Amu ^^^ Asu
  -- thetaRhoPiChiIotaPrepareTheta(round  , A, E)
  let Da := BCu ^^^ (ROL BCe 1)
  let De := BCa ^^^ (ROL BCi 1)
  let Di := BCe ^^^ (ROL BCo 1)
  let Do := BCi ^^^ (ROL BCu 1)
  let Du := BCo ^^^ (ROL BCa 1)
  let Aba := Aba ^^^ Da
  let BCa := Aba
  let Age := Age ^^^ De
  let BCe := ROL Age 44
  let Aki := Aki ^^^ Di
  let BCi := ROL Aki 43
  let Amo := Amo ^^^ Do
  let BCo := ROL Amo 21
  let Asu := Asu ^^^ Du
  let BCu := ROL Asu 14
  let Eba := BCa ^^^ ((~~~BCe) &&& BCi)
  let Eba := Eba ^^^ rc
  let Ebe := BCe ^^^ ((~~~BCi) &&& BCo)
  let Ebi := BCi ^^^ ((~~~BCo) &&& BCu)
  let Ebo := BCo ^^^ ((~~~BCu) &&& BCa)
  let Ebu := BCu ^^^ ((~~~BCa) &&& BCe)
  let Abo := Abo ^^^ Do
  let BCa := ROL Abo 28
  let Agu := Agu ^^^ Du
  let BCe := ROL Agu 20
  let Aka := Aka ^^^ Da
  let BCi := ROL Aka 3
  let Ame := Ame ^^^ De
  let BCo := ROL Ame 45
  let Asi := Asi ^^^ Di
  let BCu := ROL Asi 61
  let Ega := BCa ^^^ ((~~~BCe) &&& BCi)
  let Ege := BCe ^^^ ((~~~BCi) &&& BCo)
  let Egi := BCi ^^^ ((~~~BCo) &&& BCu)
  let Ego := BCo ^^^ ((~~~BCu) &&& BCa)
  let Egu := BCu ^^^ ((~~~BCa) &&& BCe)
  let Abe := Abe ^^^ De
  let BCa := ROL Abe 1
  let Agi := Agi ^^^ Di
  let BCe := ROL Agi 6
  let Ako := Ako ^^^ Do
  let BCi := ROL Ako 25
  let Amu := Amu ^^^ Du
  let BCo := ROL Amu 8
  let Asa := Asa ^^^ Da
  let BCu := ROL Asa 18
  let Eka := BCa ^^^ ((~~~BCe) &&& BCi)
  let Eke := BCe ^^^ ((~~~BCi) &&& BCo)
  let Eki := BCi ^^^ ((~~~BCo) &&& BCu)
  let Eko := BCo ^^^ ((~~~BCu) &&& BCa)
  let Eku := BCu ^^^ ((~~~BCa) &&& BCe)
  let Abu := Abu ^^^ Du
  let BCa := ROL Abu 27
  let Aga := Aga ^^^ Da
  let BCe := ROL Aga 36
  let Ake := Ake ^^^ De
  let BCi := ROL Ake 10
  let Ami := Ami ^^^ Di
  let BCo := ROL Ami 15
  let Aso := Aso ^^^ Do
  let BCu := ROL Aso 56
  let Ema := BCa ^^^ ((~~~BCe) &&& BCi)
  let Eme := BCe ^^^ ((~~~BCi) &&& BCo)
  let Emi := BCi ^^^ ((~~~BCo) &&& BCu)
  let Emo := BCo ^^^ ((~~~BCu) &&& BCa)
  let Emu := BCu ^^^ ((~~~BCa) &&& BCe)
  let Abi := Abi ^^^ Di
  let BCa := ROL Abi 62
  let Ago := Ago ^^^ Do
  let BCe := ROL Ago 55
  let Aku := Aku ^^^ Du
  let BCi := ROL Aku 39
  let Ama := Ama ^^^ Da
  let BCo := ROL Ama 41
  let Ase := Ase ^^^ De
  let BCu := ROL Ase 2
  let Esa := BCa ^^^ ((~~~BCe) &&& BCi)
  let Ese := BCe ^^^ ((~~~BCi) &&& BCo)
  let Esi := BCi ^^^ ((~~~BCo) &&& BCu)
  let Eso := BCo ^^^ ((~~~BCu) &&& BCa)
  let Esu := BCu ^^^ ((~~~BCa) &&& BCe)
  { Aba := Eba, Abe := Ebe, Abi := Ebi, Abo := Ebo, Abu := Ebu, Aga := Ega, Age := Ege, Agi := Egi, Ago := Ego, Agu := Egu, Aka := Eka, Ake := Eke, Aki := Eki, Ako := Eko, Aku := Eku, Ama := Ema, Ame := Eme, Ami := Emi, Amo := Emo, Amu := Emu, Asa := Esa, Ase := Ese, Asi := Esi, Aso := Eso, Asu := Esu }

theorem keccakTwoRounds_eq (rc0 rc1 : W) (A : Lanes) : keccakTwoRounds rc0 rc1 A = oneRound rc1 (oneRound rc0 A) := rfl

/-- Lane `(x, y)`. -/
def laneAt (A : Lanes) (x y : Fin 5) : W :=
  match x, y with
  | 0, 0 => A.Aba | 1, 0 => A.Abe | 2, 0 => A.Abi | 3, 0 => A.Abo | 4, 0 => A.Abu
  | 0, 1 => A.Aga | 1, 1 => A.Age | 2, 1 => A.Agi | 3, 1 => A.Ago | 4, 1 => A.Agu
  | 0, 2 => A.Aka | 1, 2 => A.Ake | 2, 2 => A.Aki | 3, 2 => A.Ako | 4, 2 => A.Aku
  | 0, 3 => A.Ama | 1, 3 => A.Ame | 2, 3 => A.Ami | 3, 3 => A.Amo | 4, 3 => A.Amu
  | 0, 4 => A.Asa | 1, 4 => A.Ase | 2, 4 => A.Asi | 3, 4 => A.Aso | 4, 4 => A.Asu

/-- Bit `z` of a lane. -/
def lb (w : W) (z : Fin 64) : Bool := w.getLsbD z

/-- The state array of the lanes. -/
def lanesK (A : Lanes) : KState := fun x y z => lb (laneAt A x y) z

theorem lb_xor (a b : W) (z : Fin 64) : lb (a ^^^ b) z = (lb a z ^^ lb b z) := BitVec.getLsbD_xor
theorem lb_and (a b : W) (z : Fin 64) : lb (a &&& b) z = (lb a z && lb b z) := BitVec.getLsbD_and
theorem lb_not (a : W) (z : Fin 64) : lb (~~~a) z = !(lb a z) := by unfold lb; rw [BitVec.getLsbD_not]; simp

theorem lb_ROL (a : W) (k : Nat) (hk : k < 64) (hk0 : 0 < k) (z : Fin 64) : lb (ROL a k) z = lb a (z - Fin.ofNat 64 k) := by
  unfold ROL lb
  rw [BitVec.getLsbD_xor, BitVec.getLsbD_shiftLeft, BitVec.getLsbD_ushiftRight]
  have hz := z.isLt
  have hv : (z - Fin.ofNat 64 k).val = (z.val + (64 - k)) % 64 := by
    rw [Fin.sub_def]; simp; omega
  rw [hv]
  by_cases h : z.val < k
  · rw [show (z.val + (64 - k)) % 64 = 64 - k + z.val by omega]
    simp [h]
  · rw [show (z.val + (64 - k)) % 64 = z.val - k by omega, BitVec.getLsbD_of_ge _ (64 - k + z.val) (by omega)]
    simp [h]

/-- The rotation offsets as a table. -/
def rotTab (x y : Fin 5) : Nat :=
  match x, y with
  | 0, 0 => 0 | 1, 0 => 1 | 2, 0 => 62 | 3, 0 => 28 | 4, 0 => 27
  | 0, 1 => 36 | 1, 1 => 44 | 2, 1 => 6 | 3, 1 => 55 | 4, 1 => 20
  | 0, 2 => 3 | 1, 2 => 10 | 2, 2 => 43 | 3, 2 => 25 | 4, 2 => 39
  | 0, 3 => 41 | 1, 3 => 45 | 2, 3 => 15 | 3, 3 => 21 | 4, 3 => 8
  | 0, 4 => 18 | 1, 4 => 2 | 2, 4 => 61 | 3, 4 => 56 | 4, 4 => 14

theorem rhoOffset_eq : ∀ x y, Fin.ofNat 64 (rhoOffset x y) = Fin.ofNat 64 (rotTab x y) := by decide +kernel

/-- Column parities, as lanes. -/
def Cl (A : Lanes) (x : Fin 5) : W := laneAt A x 0 ^^^ laneAt A x 1 ^^^ laneAt A x 2 ^^^ laneAt A x 3 ^^^ laneAt A x 4
/-- `D[x]`, as a lane. -/
def Dl (A : Lanes) (x : Fin 5) : W := Cl A (x - 1) ^^^ ROL (Cl A (x + 1)) 1
/-- Rotation by a table entry. -/
def rot (a : W) (k : Nat) : W := match k with | 0 => a | k + 1 => ROL a (k + 1)
/-- The lanes after θ and ρ. -/
def Bl (A : Lanes) (x y : Fin 5) : W := rot (laneAt A x y ^^^ Dl A x) (rotTab x y)
/-- The lanes after θ, ρ, π and χ. -/
def Rl (A : Lanes) (x y : Fin 5) : W := Bl A (x + 3 * y) x ^^^ (~~~(Bl A (x + 1 + 3 * y) (x + 1)) &&& Bl A (x + 2 + 3 * y) (x + 2))

theorem laneAt_oneRound (rc : W) (A : Lanes) (x y : Fin 5) : laneAt (oneRound rc A) x y = if x = 0 ∧ y = 0 then Rl A x y ^^^ rc else Rl A x y := by
  fin_cases y <;> fin_cases x <;> rfl

theorem lb_rot (a : W) (k : Nat) (hk : k < 64) (z : Fin 64) : lb (rot a k) z = lb a (z - Fin.ofNat 64 k) := by
  cases k with
  | zero => rw [show z - Fin.ofNat 64 0 = z by ext; rw [Fin.sub_def]; simp]; rfl
  | succ k => exact lb_ROL a (k + 1) hk (by omega) z

theorem rotTab_lt : ∀ x y, rotTab x y < 64 := by decide +kernel

theorem theta_bit (A : Lanes) (x y : Fin 5) (z : Fin 64) : theta (lanesK A) x y z = lb (laneAt A x y ^^^ Dl A x) z := by
  unfold theta parity lanesK Dl Cl
  simp only [lb_xor, lb_ROL _ 1 (by omega : 1 < 64) (by omega)]
  rfl

theorem rho_bit (A : Lanes) (x y : Fin 5) (z : Fin 64) : rho (theta (lanesK A)) x y z = lb (Bl A x y) z := by
  unfold rho Bl
  rw [rhoOffset_eq, theta_bit, lb_rot _ _ (rotTab_lt x y)]

theorem chi_bit (A : Lanes) (x y : Fin 5) (z : Fin 64) : chi (piStep (rho (theta (lanesK A)))) x y z = lb (Rl A x y) z := by
  unfold chi piStep Rl
  simp only [rho_bit, lb_xor, lb_and, lb_not]

/-- One round of the code is `Rnd`. -/
theorem oneRound_eq (ir : Nat) (rc : W) (hrc : ∀ z : Fin 64, lb rc z = RCbit ir z) (A : Lanes) : lanesK (oneRound rc A) = rnd ir (lanesK A) := by
  funext x y z
  unfold rnd iota
  rw [chi_bit, ← hrc]
  unfold lanesK
  rw [laneAt_oneRound]
  split <;> simp only [lb_xor]

theorem rc_bits : ∀ i : Fin 24, ∀ z : Fin 64, lb (KeccakF_RoundConstantsList.getD i.val 0) z = RCbit i.val z.val := by decide +kernel

/-- The first `n` rounds. -/
def rounds (n : Nat) (S : KState) : KState := (List.range n).foldl (fun A ir => rnd ir A) S

theorem rounds_succ (n : Nat) (S : KState) : rounds (n + 1) S = rnd n (rounds n S) := by
  unfold rounds; rw [List.range_succ, List.foldl_append]; rfl

end Verif

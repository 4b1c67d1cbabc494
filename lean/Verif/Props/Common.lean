import Verif.Sem
import Verif.Spec.Fips203
/-! # Vocabulary of the property statements -/
namespace Verif.Props
open Verif

/-- The call `p` ends normally and delivers `a` (a return code together with the output objects after the call). -/
def Returns {α : Type} (p : M α) (a : α) : Prop := ∃ t, p = .ok (a, t)

/-- The call `p` used up the budget of its rejection-sampling loops. -/
def OutOfBudget {α : Type} (p : M α) : Prop := p = .error .fuel

/-- The call `p` with result `a` made exactly the memory accesses and branches `t`. -/
def ReturnsTr {α : Type} (p : M α) (a : α) (t : List Ev) : Prop := p = .ok (a, t)

/-- The supported parameter sets: ML-KEM-512, -768 and -1024. -/
def IsParam (K : Nat) : Prop := K = 2 ∨ K = 3 ∨ K = 4

/-- `b'` is `b` with the bytes `L` at its start; every cell after them is as in `b`. -/
def StartsWith (b b' : Buf UInt8) (L : List UInt8) : Prop :=
  b'.size = b.size ∧ (∀ i (h : i < L.length), b'[i]? = some (some L[i])) ∧ ∀ i, L.length ≤ i → b'[i]? = b[i]?

/-- Size of a public key (api.h, FIPS 203 Table 3). -/
def pkLen (K : Nat) : Nat := 384 * K + 32
/-- Size of a secret key. -/
def skLen (K : Nat) : Nat := 768 * K + 96
/-- Size of a ciphertext. -/
def ctLen (K : Nat) : Nat := 32 * (Spec.d_u K * K + Spec.d_v K)

/-- The number of bytes of SHAKE128 output used for each matrix entry when the refill loops may run `fuel` times: three blocks of 168 bytes and `fuel` more. -/
def xofBytes (fuel : Nat) : Nat := 168 * (3 + fuel)

/-- Coefficient `n` of an encoded vector: bits `12n` to `12n + 11`, least significant first. -/
def coeff12 (B : List UInt8) (n : Nat) : Nat := ∑ j ∈ Finset.range 12, if Spec.bitAt B (12 * n + j) then 2 ^ j else 0

/-- A `poly` object (`/repo/mlkem/poly.h`: 256 `int16_t`) with the given coefficients. -/
def poly (f : Nat → Int) : Buf Int := Buf.ofList ((List.range 256).map f)

/-- A `polyvec` object (`/repo/mlkem/polyvec.h`) of `K` polynomials. -/
def vec (K : Nat) (f : Nat → Nat → Int) : Array (Buf Int) := Array.ofFn fun i : Fin K => poly (f i)

/-- The residues modulo `q` of integer coefficients. -/
def modq (f : Nat → Int) : Spec.Poly := fun n => (f n : Spec.Zq)

/-- The range of `int16_t`. -/
def IsI16 (x : Int) : Prop := -32768 ≤ x ∧ x ≤ 32767

theorem Returns.unique {α : Type} {p : M α} {a b : α} (h : Returns p a) (h' : Returns p b) : a = b := by
  obtain ⟨t, e⟩ := h; obtain ⟨t', e'⟩ := h'; rw [e] at e'
  exact congrArg Prod.fst (Except.ok.inj e')


end Verif.Props

import Verif.Spec.TestMlkem
import Mathlib.Data.List.Sort
/-! # Specification of the benchmark program

What the benchmark is to print, in terms of FIPS 203, of the random bytes drawn and of the readings of the cycle counter.  This file does not mention the code. -/
namespace Verif.Spec

/-- The measurement with reading `a` before and reading `a + 1` after, in each of `N` rounds of six readings, modulo `2^64`. -/
def measured (t : Nat → UInt64) (N a : Nat) : List UInt64 := (List.range N).map fun i => t (6 * i + a + 1) - t (6 * i + a)

/-- The element with exactly `i` elements before it when the list is sorted. -/
def ranked (l : List UInt64) (i : Nat) : Nat := ((l.map UInt64.toNat).mergeSort (fun a b => decide (a ≤ b))).getD i 0

/-- A text preceded by blanks to the width given. -/
def rightAlign (w : Nat) (s : String) : String := String.ofList (List.replicate (w - s.length) ' ') ++ s

/-- The line with the median of the cycles of one of the `I` calls measured together. -/
def medianLine (N I : Nat) (name : String) (l : List UInt64) : String := rightAlign 10 name ++ " cycles = " ++ toString (ranked l (N / 2) / I) ++ "\n"

/-- The percentiles listed. -/
def listedPercentiles : List Nat := [1, 10, 20, 30, 40, 50, 60, 70, 80, 90, 99]

/-- The line with percentiles. -/
def percentileLine (N I : Nat) (name : String) (l : List UInt64) : String :=
  rightAlign 10 name ++ " percentiles:" ++ String.join (listedPercentiles.map fun p => rightAlign 7 (toString (ranked l (N * p / 100) / I))) ++ "\n"

/-- The whole report. -/
def benchReport (N I : Nat) (t : Nat → UInt64) : String :=
  medianLine N I "keypair" (measured t N 0) ++ medianLine N I "encaps" (measured t N 2) ++ medianLine N I "decaps" (measured t N 4) ++ "\n" ++
  rightAlign 21 "percentile" ++ String.join (listedPercentiles.map fun p => rightAlign 7 (toString p)) ++ "\n" ++
  percentileLine N I "keypair" (measured t N 0) ++ percentileLine N I "encaps" (measured t N 2) ++ percentileLine N I "decaps" (measured t N 4)

/-- The comparison function orders the elements: it gives opposite signs for swapped arguments, and "not after" is transitive. -/
def Consistent (cmp : UInt64 → UInt64 → Int) (l : List UInt64) : Prop :=
  (∀ a ∈ l, ∀ b ∈ l, cmp a b < 0 ↔ 0 < cmp b a) ∧ ∀ a ∈ l, ∀ b ∈ l, ∀ c ∈ l, cmp a b ≤ 0 → cmp b c ≤ 0 → cmp a c ≤ 0

/-- What the C standard (7.22.5.2) says about `qsort`: if the comparison function orders the elements, they are rearranged in ascending order; otherwise nothing. -/
def Sorts (qsort : (UInt64 → UInt64 → Int) → List UInt64 → List UInt64) : Prop :=
  ∀ cmp l, Consistent cmp l → (qsort cmp l).Perm l ∧ (qsort cmp l).Pairwise fun a b => cmp a b ≤ 0

/-- Any two elements differ by less than `2^31`. -/
def Near31 (l : List UInt64) : Prop := ∀ a ∈ l, ∀ b ∈ l, a.toNat < b.toNat + 2 ^ 31

/-- Whether in each of `r` rounds, each with 64 and then 32 fresh bytes, decapsulation gives the key of the encapsulation; the first round where it does not is the last one run. -/
def allAgree {σ : Type} (k n : Nat) (src : Source σ) : Nat → σ → Option Bool
  | 0, _ => some true
  | r + 1, s => (keysTest k n src s).bind fun (ok, s) => if ok then allAgree k n src r s else some false

/-- What the program prints. -/
def benchText {σ : Type} (k n N I : Nat) (src : Source σ) (t : Nat → UInt64) (s : σ) : Option String :=
  (allAgree k n src N s).map fun ok => if ok then benchReport N I t else "ERROR keys\n"

end Verif.Spec

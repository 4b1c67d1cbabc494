import Mathlib.Data.Nat.Notation
/-! # Specification of the messages of the debug checks.  This file does not mention the code. -/
namespace Verif.Spec

/-- A number with at least four digits. -/
def fourDigits (n : Nat) : String := String.ofList (List.replicate (4 - (toString n).length) '0') ++ toString n

/-- A line on standard error; of the message at most 255 characters. -/
def errorLine (file : String) (line : Nat) (msg : String) : String := "[ERROR:" ++ file ++ ":" ++ fourDigits line ++ "] " ++ String.ofList (msg.toList.take 255) ++ "\n"

/-- The message on a value out of bounds. -/
def boundsMessage (description : String) (i : Nat) (v lo hi : Int) : String :=
  description ++ ", index " ++ toString i ++ ", value " ++ toString v ++ " out of bounds (" ++ toString lo ++ "," ++ toString hi ++ ")"

/-- The lines for a list of values: one for each value that is not strictly between the bounds, in order. -/
def boundsReport (file : String) (line : Nat) (description : String) (vals : List Int) (lo hi : Int) : String :=
  String.join (((List.range vals.length).filter fun i => !(decide (lo < vals.getD i 0 ∧ vals.getD i 0 < hi))).map fun i => errorLine file line (boundsMessage description i (vals.getD i 0) lo hi))

end Verif.Spec

import Verif.Model.Params
/-! # The debug checks (`/repo/mlkem/debug/debug.c`, with `MLKEM_DEBUG`)

What is written to `stderr` is a `String`; a `char` is a `Char`, and the character after the end of a string is `'\x00'`.  The result of a check says whether it ends the program with `exit(1)`. -/
namespace Verif.Model.Debug
open Verif Verif.Model

/-- `snprintf(buf, n, …)` when the formatted text is `s`.  Meaning of the C library. -/
def snprintf (buf : Buf Char) (n : Nat) (s : List Char) : M (Buf Char) := do
  let buf ← forN (min s.length (n - 1)) buf fun i buf => wr buf i (s.getD i '\x00')
  wr buf (min s.length (n - 1)) '\x00'

/-- The string at position `i` of `buf`, as `printf` reads it for `%s`; first argument: a budget.  Meaning of the C library. -/
def cString (buf : Buf Char) : Nat → Nat → M (List Char)
  | 0, _ => M.fail .fuel
  | f + 1, i => do
    let c ← rd buf i
    if c = '\x00' then pure [] else do
      let l ← cString buf f (i + 1)
      pure (c :: l)

/-- `%04d` of a number that is not negative.  Meaning of the C library. -/
def pad04 (n : Nat) : String := String.ofList (List.replicate (4 - (toString n).length) '0') ++ toString n

/-- `mlkem_debug_print_error`, debug.c 48-52. -/
def mlkem_debug_print_error (err file : String) (line : Nat) (msg : Buf Char) : M String := do
  let m ← cString msg 256 0
  pure (err ++ "[ERROR:" ++ file ++ ":" ++ pad04 line ++ "] " ++ String.ofList m ++ "\n")

/-- `mlkem_debug_assert`, debug.c 13-23, with the contents of `debug_buf` (debug.c 11) and `stderr` before: whether it exits, and both afterwards. -/
def mlkem_debug_assert (file : String) (line : Nat) (description : String) (val : Int) (debug_buf : Buf Char) (err : String) : M (Bool × Buf Char × String) := do
  if val = 0 then
    let debug_buf ← snprintf debug_buf 256 ("Assertion failed: " ++ description ++ " (value " ++ toString val ++ ")").toList
    let err ← mlkem_debug_print_error err file line debug_buf
    pure (true, debug_buf, err)
  else pure (false, debug_buf, err)

/-- The body of the loop of `mlkem_debug_check_bounds`, debug.c 31-41. -/
def checkOne (file : String) (line : Nat) (description : String) (ptr : Buf Int) (lo hi : Int) (i : Nat) (s : Bool × Buf Char × String) : M (Bool × Buf Char × String) := do
  let val ← rd ptr i
  if !(decide (lo < val) && decide (val < hi)) then
    let debug_buf ← snprintf s.2.1 256 (description ++ ", index " ++ toString i ++ ", value " ++ toString val ++ " out of bounds (" ++ toString lo ++ "," ++ toString hi ++ ")").toList
    let err ← mlkem_debug_print_error s.2.2 file line debug_buf
    pure (true, debug_buf, err)
  else pure s

/-- `mlkem_debug_check_bounds`, debug.c 24-46. -/
def mlkem_debug_check_bounds (file : String) (line : Nat) (description : String) (ptr : Buf Int) (len : Nat) (lo hi : Int) (debug_buf : Buf Char) (err : String) : M (Bool × Buf Char × String) :=
  forN len (false, debug_buf, err) fun i s => checkOne file line description ptr lo hi i s

/-- The loop of `POLYVEC_BOUND` (debug.h 132-141) and `POLYVEC_UBOUND` (debug.h 146-155), from entry `idx` on, with `n` entries of `len` coefficients to go: a check that exits is the last. -/
def vecCheck (file : String) (line : Nat) (description : String) (vec : Array (Buf Int)) (len : Nat) (lo hi : Int) : Nat → Nat → Buf Char → String → M (Bool × Buf Char × String)
  | 0, _, debug_buf, err => pure (false, debug_buf, err)
  | n + 1, idx, debug_buf, err =>
    match vec[idx]? with
    | none => M.fail .oob
    | some p => do
      let s ← mlkem_debug_check_bounds file line description p len lo hi debug_buf err
      if s.1 then pure s else vecCheck file line description vec len lo hi n (idx + 1) s.2.1 s.2.2

end Verif.Model.Debug

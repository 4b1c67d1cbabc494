/-!
# A small semantics for the C fragment used by mlkem-native

A C function is modelled by a Lean function into `M`.  An outcome is either a value with a *trace*
or an *error*.  The errors are the ways in which the C program would leave the defined (or intended)
behaviour; they are never assumed away.  The trace records what the constant-time leakage model
lets an attacker see: the index of every array access, the outcome of every branch and the operands of every
division and remainder by a number that is not a constant power of two.

Conventions.
* A C array or object is a `Buf α`; the cell `none` is "allocated but not yet written".
* A pointer argument is a buffer together with an offset (`Nat`).
* A function writing through a pointer returns the updated buffer.
* `uint8_t` cells are `UInt8`.  Values of type `int16_t`, `int32_t` and `int` are `Int`s with explicit range
  checks (`i16`, `i32`).  Values of unsigned types are `Nat`s, with explicit reduction modulo `2^w`.
  `uint64_t` Keccak lanes are `BitVec 64`.
* Every branch of the C code whose condition is computed at run time goes through `branch`, `whileM`, `forFrom`,
  `andM` or `orM`, which record the outcome.  `#if` on `MLKEM_K` becomes an unrecorded Lean `if`.
* Every `/` and `%` of the C code that is evaluated at run time goes through `divM` or `modM`, which record both operands:
  division is not constant time on common processors.  The only exception is a division of an unsigned value by a literal
  power of two (`scalar_decompress_d4` and its siblings in poly.h), which every compiler turns into a shift.
-/

namespace Verif

/-- The ways a run may fail. -/
inductive Err where
  /-- access outside an object -/
  | oob
  /-- read of a cell that was never written -/
  | uninit
  /-- signed integer overflow -/
  | overflow
  /-- narrowing conversion to `int16_t` that changes the value -/
  | lossy
  /-- a bound check of the code (`POLY_BOUND`, `SCALAR_BOUND`, `cassert`, ...) fails -/
  | assert
  /-- division by zero -/
  | div0
  /-- the budget of an open-ended loop is exhausted -/
  | fuel
deriving DecidableEq, Repr, Inhabited

/-- Observable events. -/
inductive Ev where
  /-- load from this index of an object -/
  | ld (i : Nat)
  /-- store to this index of an object -/
  | st (i : Nat)
  /-- outcome of a branch or loop condition -/
  | br (b : Bool)
  /-- operands of a division or of a remainder -/
  | dv (a b : Nat)
deriving DecidableEq, Repr, Inhabited

/-- Outcomes: an error, or a value and the trace of the run. -/
def M (α : Type) : Type := Except Err (α × List Ev)

namespace M

/-- Return a value, silently. -/
def ret {α : Type} (a : α) : M α := Except.ok (a, [])

/-- Sequential composition; traces are concatenated, errors abort. -/
def bnd {α β : Type} (p : M α) (f : α → M β) : M β :=
  match p with
  | .error e => .error e
  | .ok (a, t) =>
    match f a with
    | .error e => .error e
    | .ok (b, t') => .ok (b, t ++ t')

instance : Monad M where
  pure := ret
  bind := bnd

/-- Abort with an error. -/
def fail {α : Type} (e : Err) : M α := Except.error e

/-- Record an event. -/
def emit (e : Ev) : M Unit := Except.ok ((), [e])

end M

/-- A C object: an array of cells, `none` being uninitialised. -/
abbrev Buf (α : Type) := Array (Option α)

namespace Buf

/-- A freshly declared (uninitialised) local array. -/
def uninit (α : Type) (n : Nat) : Buf α := Array.replicate n none

/-- A fully initialised array with the given contents. -/
def ofList {α : Type} (l : List α) : Buf α := (l.map some).toArray

end Buf

/-- `b[i]` as an rvalue. -/
def rd {α : Type} (b : Buf α) (i : Nat) : M α :=
  match b[i]? with
  | none => M.fail .oob
  | some none => M.fail .uninit
  | some (some v) => Except.ok (v, [.ld i])

/-- `b[i] = v`. -/
def wr {α : Type} (b : Buf α) (i : Nat) (v : α) : M (Buf α) :=
  if i < b.size then Except.ok (b.setIfInBounds i (some v), [.st i]) else M.fail .oob

/-- Two-way branch on a run-time condition. -/
def branch {α : Type} (c : Bool) (p q : M α) : M α := do
  M.emit (.br c)
  if c then p else q

/-- Short-circuit `&&` of two run-time conditions. -/
def andM (a b : Bool) : M Bool := branch a (pure b) (pure false)

/-- Short-circuit `||` of two run-time conditions. -/
def orM (a b : Bool) : M Bool := branch a (pure true) (pure b)

/-- `for (i = lo; i < lo + n; i++) body`. -/
def forFrom {σ : Type} (lo : Nat) (n : Nat) (s : σ) (body : Nat → σ → M σ) : M σ :=
  match n with
  | 0 => do M.emit (.br false); pure s
  | n + 1 => do
    M.emit (.br true)
    let s ← body lo s
    forFrom (lo + 1) n s body

/-- `for (i = 0; i < n; i++) body`. -/
abbrev forN {σ : Type} (n : Nat) (s : σ) (body : Nat → σ → M σ) : M σ := forFrom 0 n s body

/-- `while (cond) body`, with a budget for the number of iterations; running out of budget is the
distinct error `fuel`. -/
def whileM {σ : Type} (fuel : Nat) (cond : σ → M Bool) (body : σ → M σ) (s : σ) : M σ := do
  let c ← cond s
  branch c
    (match fuel with
     | 0 => M.fail .fuel
     | f + 1 => do
       let s ← body s
       whileM f cond body s)
    (pure s)

/-- A bound check or assertion in the code (silent when it holds). -/
def assertM (c : Bool) : M Unit := if c then M.ret () else M.fail .assert

/-- Conversion to `int16_t` that must preserve the value. -/
def i16 (x : Int) : M Int :=
  if -32768 ≤ x ∧ x ≤ 32767 then M.ret x else M.fail .lossy

/-- Result of a signed 32-bit operation; overflow is undefined behaviour. -/
def i32 (x : Int) : M Int :=
  if -2147483648 ≤ x ∧ x ≤ 2147483647 then M.ret x else M.fail .overflow

/-- `a / b` on unsigned values, evaluated at run time. -/
def divM (a b : Nat) : M Nat := if b = 0 then M.fail .div0 else Except.ok (a / b, [.dv a b])

/-- `a % b` on unsigned values, evaluated at run time. -/
def modM (a b : Nat) : M Nat := if b = 0 then M.fail .div0 else Except.ok (a % b, [.dv a b])

/-- Conversion of an integer value to `uint8_t`: reduction modulo 2^8 (C99 6.3.1.3 (2)). -/
def toU8 (x : Nat) : UInt8 := UInt8.ofNat x

/-- Conversion of a signed value to `uint16_t`: reduction modulo 2^16 (C99 6.3.1.3 (2)). -/
def u16 (x : Int) : Nat := (x % 65536).toNat

/-- Reduction modulo 2^32: unsigned 32-bit arithmetic. -/
def u32 (x : Nat) : Nat := x % 4294967296

/-- Reduction modulo 2^64: `size_t` / `uint64_t` arithmetic. -/
def u64 (x : Nat) : Nat := x % 18446744073709551616

/-- The element pointed to by `v + i` in an array of objects (e.g. `&r->vec[i]`); no load happens. -/
def vget {β : Type} (v : Array β) (i : Nat) : M β :=
  match v[i]? with
  | none => M.fail .oob
  | some b => M.ret b

/-- Put back the object at `v + i` after a callee has written through the pointer. -/
def vset {β : Type} (v : Array β) (i : Nat) (b : β) : M (Array β) :=
  if i < v.size then M.ret (v.setIfInBounds i b) else M.fail .oob

/-- Call `f` on the object at `v + i`, in place. -/
def vmod {β : Type} (v : Array β) (i : Nat) (f : β → M β) : M (Array β) := do
  let b ← vget v i
  let b ← f b
  vset v i b

/-- `memcpy(dst + dof, src + sof, n)` on byte arrays (source must be initialised). -/
def memcpy (dst : Buf UInt8) (dof : Nat) (src : Buf UInt8) (sof : Nat) (n : Nat) : M (Buf UInt8) :=
  forN n dst fun i d => do
    let v ← rd src (sof + i)
    wr d (dof + i) v

/-- Loop of `memcmp`: compares from index `i`, `n` bytes left, stopping at the first difference. -/
def memcmpLoop (a : Buf UInt8) (ao : Nat) (b : Buf UInt8) (bo : Nat) : Nat → Nat → M Int
  | _, 0 => do M.emit (.br false); pure 0
  | i, n + 1 => do
    M.emit (.br true)
    let x ← rd a (ao + i)
    let y ← rd b (bo + i)
    branch (x == y) (memcmpLoop a ao b bo (i + 1) n) (pure ((x.toNat : Int) - y.toNat))

/-- `memcmp(a + ao, b + bo, n)`: variable time, as the code's comments say is acceptable for public data. -/
def memcmp (a : Buf UInt8) (ao : Nat) (b : Buf UInt8) (bo : Nat) (n : Nat) : M Int :=
  memcmpLoop a ao b bo 0 n

/-- Debug check on an `int16_t` array: `lo < b[off+i] < hi` for `i < n`
(`/repo/mlkem/debug/debug.h` lines 81-100, `mlkem_debug_check_bounds`).  Silent, and a failure is an error.
The checks are part of the model in every build, which is stronger than in the C code, where they exist only with
`MLKEM_DEBUG`. -/
def boundChk (b : Buf Int) (off n : Nat) (lo hi : Int) : Bool :=
  (List.range n).all fun i =>
    match b[off + i]? with
    | some (some v) => decide (lo < v ∧ v < hi)
    | _ => false

end Verif

import Verif.Model.Params
/-! # Modular reduction (`/repo/mlkem/reduce.c`) -/
namespace Verif.Model

/-- reduce.c 10 -/
def QINV : Nat := 62209

/-- `cast_uint16_to_int16`, reduce.c 25-35: the implementation-defined conversion, as the inverse of `int16_t -> uint16_t`.
Argument below 2^16. -/
def cast_uint16_to_int16 (x : Nat) : Int := if x < 32768 then (x : Int) else (x : Int) - 65536

/-- `montgomery_reduce_generic`, reduce.c 65-95.
`a & UINT16_MAX` on a signed value is taken on its two's complement representation. -/
def montgomery_reduce_generic (a : Int) : M Int := do
  let a_reduced : Nat := ((BitVec.ofInt 32 a) &&& 0xFFFF#32).toNat
  let a_inverted : Nat := (u32 (a_reduced * QINV)) &&& 0xFFFF
  let t : Int := cast_uint16_to_int16 a_inverted
  let tq ← i32 (t * 3329)
  let r ← i32 (a - tq)
  -- arithmetic right shift, as the PORTABILITY comment assumes
  let r : Int := r >>> 16
  i16 r

/-- `montgomery_reduce`, reduce.c 97-106, with its two debug checks. -/
def montgomery_reduce (a : Int) : M Int := do
  SCALAR_BOUND a (2 * 3329 * 32768)
  let res ← montgomery_reduce_generic a
  SCALAR_BOUND res ((3 * (3329 + 1)) / 2)
  pure res

/-- `fqmul`, reduce.c 108-117, with its two debug checks. -/
def fqmul (a b : Int) : M Int := do
  SCALAR_BOUND b HALF_Q
  let p ← i32 (a * b)
  let res ← montgomery_reduce p
  SCALAR_BOUND res 3329
  pure res

/-- reduce.c 123-125 -/
def barrett_multiplier : Int := (2 ^ 26 + 3329 / 2) / 3329

/-- `barrett_reduce`, reduce.c 138-154.  Right shift is arithmetic, as the PORTABILITY comment assumes. -/
def barrett_reduce (a : Int) : M Int := do
  let p ← i32 (barrett_multiplier * a)
  let s ← i32 (p + 2 ^ 25)
  let t : Int := s >>> 26
  let tq ← i32 (t * 3329)
  let r ← i32 (a - tq)
  i16 r

end Verif.Model

import Verif.Model.Reduce
/-! # Constant-time helpers (`/repo/mlkem/verify.h`)

The value barriers (lines 67-97) return their argument: the assembly variant is empty, the volatile variant xors with a global that is
always 0 (verify.c).  They are modelled as the identity (`value_barrier`). -/
namespace Verif.Model

/-- `value_barrier_u8/u32/i32`, verify.h 67-97. -/
def value_barrier {α : Type} (b : α) : α := b

/-- `-x` in `uint32_t`.  C arithmetic, as in verify.h: no line of /repo of its own. -/
def neg32 (x : Nat) : Nat := u32 (4294967296 - u32 x)

/-- `ct_cmask_nonzero_u16`, verify.h 118-124. `x < 2^16`. -/
def ct_cmask_nonzero_u16 (x : Nat) : Nat :=
  let tmp := value_barrier (neg32 x)
  let tmp := tmp >>> 16
  tmp % 65536

/-- `ct_cmask_nonzero_u8`, verify.h 133-139. `x < 2^8`. -/
def ct_cmask_nonzero_u8 (x : UInt8) : UInt8 :=
  let tmp := value_barrier (neg32 x.toNat)
  let tmp := tmp >>> 24
  toU8 tmp

/-- `ct_cmask_neg_i16`, verify.h 163-169: shift of the sign-extended value, converted `int16_t` then `uint16_t`. -/
def ct_cmask_neg_i16 (x : Int) : Nat :=
  let tmp : Int := value_barrier x
  let tmp : Int := tmp >>> 16
  u16 tmp

/-- `ct_sel_int16`, verify.h 198-204. `cond < 2^16`. -/
def ct_sel_int16 (a b : Int) (cond : Nat) : Int :=
  let au := u16 a
  let bu := u16 b
  let res := bu ^^^ (ct_cmask_nonzero_u16 cond &&& (au ^^^ bu))
  cast_uint16_to_int16 res

/-- `ct_sel_uint8`, verify.h 222-226. -/
def ct_sel_uint8 (a b cond : UInt8) : UInt8 :=
  b ^^^ (ct_cmask_nonzero_u8 cond &&& (a ^^^ b))

/-- `ct_memcmp`, verify.h 239-275, on `a + ao` and `b + bo`.
`(int)len` is taken to be exact (the contract requires `len <= INT_MAX`); larger lengths are an error here. -/
def ct_memcmp (a : Buf UInt8) (ao : Nat) (b : Buf UInt8) (bo : Nat) (len : Nat) : M UInt8 := do
  let _ ← i32 (len : Int)
  let (r, s) ← forN len ((0 : UInt8), (0 : UInt8)) fun i (r, s) => do
    let x ← rd a (ao + i)
    let y ← rd b (bo + i)
    let r := r ||| (x ^^^ y)
    let x ← rd a (ao + i)
    let y ← rd b (bo + i)
    let s := s ^^^ (x ^^^ y)
    pure (r, s)
  pure (value_barrier (ct_cmask_nonzero_u8 r ^^^ s) ^^^ s)

/-- `ct_cmov_zero`, verify.h 291-303, on `r + ro` and `x + xo`. -/
def ct_cmov_zero (r : Buf UInt8) (ro : Nat) (x : Buf UInt8) (xo : Nat) (len : Nat) (b : UInt8) : M (Buf UInt8) :=
  forN len r fun i r => do
    let u ← rd r (ro + i)
    let v ← rd x (xo + i)
    wr r (ro + i) (ct_sel_uint8 u v b)

end Verif.Model

import Verif.Model.Keccak
/-! # SHA3, SHAKE (`/repo/fips202/fips202.c`)

Open-ended `while` loops carry an internal budget that is a function of the length argument; that it is never exhausted is a theorem.
The context-release functions do nothing and are not modelled. -/
namespace Verif.Model

/-- fips202.h 14 -/
def SHAKE128_RATE : Nat := 168
/-- fips202.h 15 -/
def SHAKE256_RATE : Nat := 136
/-- fips202.h 16 -/
def SHA3_256_RATE : Nat := 136
/-- fips202.h 18 -/
def SHA3_512_RATE : Nat := 72

/-- `keccak_absorb`, fips202.c 37-64, on input `m + mo`.  As in the code, the state is not zeroed here. -/
def keccak_absorb (s : Buf W) (r : Nat) (m : Buf UInt8) (mo mlen : Nat) (p : UInt8) : M (Buf W) := do
  let (s, mo, mlen) ← whileM mlen
    (fun (_, _, mlen) => pure (decide (mlen ≥ r)))
    (fun (s, mo, mlen) => do
      let s ← KeccakF1600_StateXORBytes s 0 m mo 0 r
      let s ← KeccakF1600_StatePermute s 0
      pure (s, mo + r, mlen - r))
    (s, mo, mlen)
  let s ← branch (decide (mlen > 0))
    (KeccakF1600_StateXORBytes s 0 m mo 0 (u32 mlen))
    (pure s)
  branch (decide (mlen = sub32 r 1))
    (KeccakF1600_StateXORBytes s 0 (Buf.ofList [p ||| 128]) 0 (u32 mlen) 1)
    (do
      let s ← KeccakF1600_StateXORBytes s 0 (Buf.ofList [p]) 0 (u32 mlen) 1
      KeccakF1600_StateXORBytes s 0 (Buf.ofList [128]) 0 (sub32 r 1) 1)

/-- `keccak_squeezeblocks`, fips202.c 78-88, writing to `h + ho`. -/
def keccak_squeezeblocks (h : Buf UInt8) (ho nblocks : Nat) (s : Buf W) (r : Nat) : M (Buf UInt8 × Buf W) := do
  let (h, s, _, _) ← whileM nblocks
    (fun (_, _, _, nblocks) => pure (decide (nblocks > 0)))
    (fun (h, s, ho, nblocks) => do
      let s ← KeccakF1600_StatePermute s 0
      let h ← KeccakF1600_StateExtractBytes s 0 h ho 0 r
      pure (h, s, ho + r, nblocks - 1))
    (h, s, ho, nblocks)
  pure (h, s)

/-- `keccak_inc_init`, fips202.c 100-109. -/
def keccak_inc_init (s_inc : Buf W) : M (Buf W) := do
  let s ← forN 25 s_inc fun i s => wr s i 0#64
  wr s 25 0#64

/-- `keccak_inc_absorb`, fips202.c 124-140, on input `m + mo`. -/
def keccak_inc_absorb (s_inc : Buf W) (r : Nat) (m : Buf UInt8) (mo mlen : Nat) : M (Buf W) := do
  let (s, mo, mlen) ← whileM (mlen + 1)
    (fun (s, _, mlen) => do pure (decide (u64 (mlen + (← rd s 25).toNat) ≥ r)))
    (fun (s, mo, mlen) => do
      let c := (← rd s 25).toNat
      let s ← KeccakF1600_StateXORBytes s 0 m mo (u32 c) (u32 (sub64 r c))
      let mlen := sub64 mlen (sub64 r c)
      let mo := mo + sub64 r c
      let s ← wr s 25 0#64
      let s ← KeccakF1600_StatePermute s 0
      pure (s, mo, mlen))
    (s_inc, mo, mlen)
  let s ← KeccakF1600_StateXORBytes s 0 m mo (u32 (← rd s 25).toNat) (u32 mlen)
  wr s 25 ((← rd s 25) + BitVec.ofNat 64 mlen)

/-- `keccak_inc_finalize`, fips202.c 155-171. -/
def keccak_inc_finalize (s_inc : Buf W) (r : Nat) (p : UInt8) : M (Buf W) := do
  let c := (← rd s_inc 25).toNat
  let s ← branch (decide (c = sub32 r 1))
    (KeccakF1600_StateXORBytes s_inc 0 (Buf.ofList [p ||| 128]) 0 (u32 c) 1)
    (do
      let s ← KeccakF1600_StateXORBytes s_inc 0 (Buf.ofList [p]) 0 (u32 c) 1
      KeccakF1600_StateXORBytes s 0 (Buf.ofList [128]) 0 (sub32 r 1) 1)
  wr s 25 0#64

/-- `keccak_inc_squeeze`, fips202.c 186-222, writing to `h + ho`. -/
def keccak_inc_squeeze (h : Buf UInt8) (ho outlen : Nat) (s_inc : Buf W) (r : Nat) : M (Buf UInt8 × Buf W) := do
  let c := (← rd s_inc 25).toNat
  let len ← branch (decide (outlen < c)) (pure outlen) (pure c)
  let h ← KeccakF1600_StateExtractBytes s_inc 0 h ho (u32 (sub64 r c)) (u32 len)
  let s ← wr s_inc 25 (BitVec.ofNat 64 (sub64 c len))
  let (h, s, _, _) ← whileM outlen
    (fun (_, _, _, outlen) => pure (decide (outlen > 0)))
    (fun (h, s, ho, outlen) => do
      let s ← KeccakF1600_StatePermute s 0
      let len ← branch (decide (outlen < r)) (pure outlen) (pure r)
      let h ← KeccakF1600_StateExtractBytes s 0 h ho 0 (u32 len)
      let s ← wr s 25 (BitVec.ofNat 64 (sub64 r len))
      pure (h, s, ho + len, sub64 outlen len))
    (h, s, ho + len, sub64 outlen len)
  pure (h, s)

/-- `shake256_inc_init`, fips202.c 224. -/
def shake256_inc_init (st : Buf W) : M (Buf W) := keccak_inc_init st

/-- `shake256_inc_absorb`, fips202.c 226-230. -/
def shake256_inc_absorb (st : Buf W) (input : Buf UInt8) (io inlen : Nat) : M (Buf W) :=
  keccak_inc_absorb st SHAKE256_RATE input io inlen

/-- `shake256_inc_finalize`, fips202.c 232-235. -/
def shake256_inc_finalize (st : Buf W) : M (Buf W) := keccak_inc_finalize st SHAKE256_RATE 0x1F

/-- `shake256_inc_squeeze`, fips202.c 237-240. -/
def shake256_inc_squeeze (output : Buf UInt8) (oo outlen : Nat) (st : Buf W) : M (Buf UInt8 × Buf W) :=
  keccak_inc_squeeze output oo outlen st SHAKE256_RATE

/-- `shake128_absorb`, fips202.c 256-265. -/
def shake128_absorb (st : Buf W) (input : Buf UInt8) (io inlen : Nat) : M (Buf W) := do
  let s ← forN 25 st fun i s => wr s i 0#64
  keccak_absorb s SHAKE128_RATE input io inlen 0x1F

/-- `shake128_squeezeblocks`, fips202.c 279-282. -/
def shake128_squeezeblocks (output : Buf UInt8) (oo nblocks : Nat) (st : Buf W) : M (Buf UInt8 × Buf W) :=
  keccak_squeezeblocks output oo nblocks st SHAKE128_RATE

/-- `shake256`, fips202.c 297-310: output to `output + oo`, input from `input + io`. -/
def shake256 (output : Buf UInt8) (oo outlen : Nat) (input : Buf UInt8) (io inlen : Nat) : M (Buf UInt8) := do
  let s ← keccak_inc_init (Buf.uninit W 26)
  let s ← keccak_inc_absorb s SHAKE256_RATE input io inlen
  let s ← keccak_inc_finalize s SHAKE256_RATE 0x1F
  let (output, _) ← keccak_inc_squeeze output oo outlen s SHAKE256_RATE
  pure output

/-- `sha3_256`, fips202.c 321-332. -/
def sha3_256 (output : Buf UInt8) (oo : Nat) (input : Buf UInt8) (io inlen : Nat) : M (Buf UInt8) := do
  let s ← keccak_inc_init (Buf.uninit W 26)
  let s ← keccak_inc_absorb s SHA3_256_RATE input io inlen
  let s ← keccak_inc_finalize s SHA3_256_RATE 0x06
  let (output, _) ← keccak_inc_squeeze output oo 32 s SHA3_256_RATE
  pure output

/-- `sha3_512`, fips202.c 343-354. -/
def sha3_512 (output : Buf UInt8) (oo : Nat) (input : Buf UInt8) (io inlen : Nat) : M (Buf UInt8) := do
  let s ← keccak_inc_init (Buf.uninit W 26)
  let s ← keccak_inc_absorb s SHA3_512_RATE input io inlen
  let s ← keccak_inc_finalize s SHA3_512_RATE 0x06
  let (output, _) ← keccak_inc_squeeze output oo 64 s SHA3_512_RATE
  pure output

end Verif.Model

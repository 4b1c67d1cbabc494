import Verif.Model.Fips202
/-! # Four-way SHAKE (`/repo/fips202/fips202x4.c`)

The four input (output) pointers are four buffers with a common offset.  The state is `uint64_t[100]`. -/
namespace Verif.Model

/-- The same object passed four times (`&p, &p, &p, &p`).  For calls such as KeccakF1600x4_StateXORBytes in fips202x4.c. -/
def Four.rep {α : Type} (a : α) : Four α := ⟨a, a, a, a⟩

/-- `keccak_absorb_x4`, fips202x4.c 10-45. -/
def keccak_absorb_x4 (s : Buf W) (r : Nat) (inp : Four (Buf UInt8)) (io inlen : Nat) (p : UInt8) : M (Buf W) := do
  let (s, io, inlen) ← whileM inlen
    (fun (_, _, inlen) => pure (decide (inlen ≥ r)))
    (fun (s, io, inlen) => do
      let s ← KeccakF1600x4_StateXORBytes s inp io 0 r
      let s ← KeccakF1600x4_StatePermute s
      pure (s, io + r, inlen - r))
    (s, io, inlen)
  let s ← branch (decide (inlen > 0))
    (KeccakF1600x4_StateXORBytes s inp io 0 (u32 inlen))
    (pure s)
  branch (decide (inlen = sub32 r 1))
    (KeccakF1600x4_StateXORBytes s (Four.rep (Buf.ofList [p ||| 128])) 0 (u32 inlen) 1)
    (do
      let s ← KeccakF1600x4_StateXORBytes s (Four.rep (Buf.ofList [p])) 0 (u32 inlen) 1
      KeccakF1600x4_StateXORBytes s (Four.rep (Buf.ofList [128])) 0 (sub32 r 1) 1)

/-- `keccak_squeezeblocks_x4`, fips202x4.c 47-64. -/
def keccak_squeezeblocks_x4 (out : Four (Buf UInt8)) (oo nblocks : Nat) (s : Buf W) (r : Nat) : M (Four (Buf UInt8) × Buf W) := do
  let (out, s, _, _) ← whileM nblocks
    (fun (_, _, _, nblocks) => pure (decide (nblocks > 0)))
    (fun (out, s, oo, nblocks) => do
      let s ← KeccakF1600x4_StatePermute s
      let out ← KeccakF1600x4_StateExtractBytes s out oo 0 r
      pure (out, s, oo + r, nblocks - 1))
    (out, s, oo, nblocks)
  pure (out, s)

/-- `memset(state, 0, sizeof(keccakx4_state))` on the 100 lanes.  fips202x4.c 70 and 78. -/
def zeroState_x4 (s : Buf W) : M (Buf W) := forN 100 s fun i s => wr s i 0#64

/-- `shake128x4_absorb`, fips202x4.c 66-72. -/
def shake128x4_absorb (st : Buf W) (inp : Four (Buf UInt8)) (io inlen : Nat) : M (Buf W) := do
  let s ← zeroState_x4 st
  keccak_absorb_x4 s SHAKE128_RATE inp io inlen 0x1F

/-- `shake256x4_absorb`, fips202x4.c 74-80. -/
def shake256x4_absorb (st : Buf W) (inp : Four (Buf UInt8)) (io inlen : Nat) : M (Buf W) := do
  let s ← zeroState_x4 st
  keccak_absorb_x4 s SHAKE256_RATE inp io inlen 0x1F

/-- `shake128x4_squeezeblocks`, fips202x4.c 83-89. -/
def shake128x4_squeezeblocks (out : Four (Buf UInt8)) (oo nblocks : Nat) (st : Buf W) : M (Four (Buf UInt8) × Buf W) :=
  keccak_squeezeblocks_x4 out oo nblocks st SHAKE128_RATE

/-- `shake256x4_squeezeblocks`, fips202x4.c 91-97. -/
def shake256x4_squeezeblocks (out : Four (Buf UInt8)) (oo nblocks : Nat) (st : Buf W) : M (Four (Buf UInt8) × Buf W) :=
  keccak_squeezeblocks_x4 out oo nblocks st SHAKE256_RATE

/-- `shake256x4`, fips202x4.c 103-129; outputs at offset 0. -/
def shake256x4 (out : Four (Buf UInt8)) (outlen : Nat) (inp : Four (Buf UInt8)) (io inlen : Nat) : M (Four (Buf UInt8)) := do
  let nblocks := outlen / SHAKE256_RATE
  let statex ← shake256x4_absorb (Buf.uninit W 100) inp io inlen
  let (out, statex) ← shake256x4_squeezeblocks out 0 nblocks statex
  let oo := nblocks * SHAKE256_RATE
  let outlen := outlen - nblocks * SHAKE256_RATE
  branch (decide (outlen ≠ 0))
    (do
      let (tmp, _) ← shake256x4_squeezeblocks (Four.rep (Buf.uninit UInt8 SHAKE256_RATE)) 0 1 statex
      let o0 ← memcpy out.x0 oo tmp.x0 0 outlen
      let o1 ← memcpy out.x1 oo tmp.x1 0 outlen
      let o2 ← memcpy out.x2 oo tmp.x2 0 outlen
      let o3 ← memcpy out.x3 oo tmp.x3 0 outlen
      pure ⟨o0, o1, o2, o3⟩)
    (pure out)

end Verif.Model

import Verif.Model.Aes
/-! # The generator of known-answer tests (`/repo/test/nistrng/rng.c`) -/
namespace Verif.Model.NistRng
open Verif Verif.Model Verif.Model.Aes

/-- `nistkatctx`, rng.c 13-19: the static variable `ctx`. -/
structure Ctx where
  key : Buf UInt8
  ctr : Buf UInt8

/-- `_aes256_ecb(key, ctr, buffer + bo)`, rng.c 21-29.  `stk key ctr`: what the local array of `aes_ecb` holds at the start. -/
def aes256_ecb_block (stk : Buf UInt8 → Buf UInt8 → Buf W32) (key ctr buffer : Buf UInt8) (bo : Nat) : M (Buf UInt8) := do
  let aesctx ← aes256_ecb_keyexp key 0
  aes_ecb (stk key ctr) buffer bo ctr 0 1 aesctx 14

/-- The loop of `aes256_block_update`, rng.c 34-42: increment byte `j`, and those before it as long as there is a carry. -/
def incLoop : Nat → Buf UInt8 → M (Buf UInt8)
  | 0, ctr => do M.emit (.br false); pure ctr
  | j + 1, ctr => do
    M.emit (.br true)
    let c ← rd ctr j
    let ctr ← wr ctr j (c + 1)
    let c ← rd ctr j
    branch (c != 0) (pure ctr) (incLoop j ctr)

/-- `aes256_block_update(block + bo)`, rng.c 31-45. -/
def aes256_block_update (stk : Buf UInt8 → Buf UInt8 → Buf W32) (ctx : Ctx) (block : Buf UInt8) (bo : Nat) : M (Ctx × Buf UInt8) := do
  let ctr ← incLoop 16 ctx.ctr
  let block ← aes256_ecb_block stk ctx.key ctr block bo
  pure (⟨ctx.key, ctr⟩, block)

/-- `nistkat_update(provided_data, ctx.key, ctx.ctr)`, rng.c 47-69; both callers pass the arrays of `ctx`.  `none` is the null pointer. -/
def nistkat_update (stk : Buf UInt8 → Buf UInt8 → Buf W32) (provided_data : Option (Buf UInt8)) (ctx : Ctx) : M Ctx := do
  let (ctx, tmp) ← forN (48 / 16) (ctx, Buf.uninit UInt8 48) fun i (ctx, tmp) => aes256_block_update stk ctx tmp (16 * i)
  let tmp ← match provided_data with
    | some d => do
      M.emit (.br true)
      forN 48 tmp fun i tmp => do
        let a ← rd tmp i
        let b ← rd d i
        wr tmp i (a ^^^ b)
    | none => do
      M.emit (.br false)
      pure tmp
  let key ← memcpy ctx.key 0 tmp 0 32
  let ctr ← memcpy ctx.ctr 0 tmp 32 16
  pure ⟨key, ctr⟩

/-- `nist_kat_init`, rng.c 71-93, on the static `ctx`.  `security_strength` is ignored by the code. -/
def nist_kat_init (stk : Buf UInt8 → Buf UInt8 → Buf W32) (ctx : Ctx) (entropy_input : Buf UInt8) (personalization_string : Option (Buf UInt8)) : M Ctx := do
  let seed_material ← memcpy (Buf.uninit UInt8 48) 0 entropy_input 0 48
  let seed_material ← match personalization_string with
    | some d => do
      M.emit (.br true)
      forN 48 seed_material fun i m => do
        let a ← rd m i
        let b ← rd d i
        wr m i (a ^^^ b)
    | none => do
      M.emit (.br false)
      pure seed_material
  let key ← forN 32 ctx.key fun i k => wr k i 0
  let ctr ← forN 16 ctx.ctr fun i k => wr k i 0
  nistkat_update stk (some seed_material) ⟨key, ctr⟩

/-- `randombytes(buf, n)`, rng.c 95-116, on the static `ctx`. -/
def randombytes (stk : Buf UInt8 → Buf UInt8 → Buf W32) (ctx : Ctx) (buf : Buf UInt8) (n : Nat) : M (Ctx × Buf UInt8) := do
  let nb := n / 16
  let tail := n % 16
  let (ctx, block, buf) ← forN nb (ctx, Buf.uninit UInt8 16, buf) fun i (ctx, block, buf) => do
    let (ctx, block) ← aes256_block_update stk ctx block 0
    let buf ← memcpy buf (i * 16) block 0 16
    pure (ctx, block, buf)
  let (ctx, buf) ← branch (decide (tail > 0))
    (do
      let (ctx, block) ← aes256_block_update stk ctx block 0
      let buf ← memcpy buf (nb * 16) block 0 tail
      pure (ctx, buf))
    (pure (ctx, buf))
  let ctx ← nistkat_update stk none ctx
  pure (ctx, buf)

end Verif.Model.NistRng

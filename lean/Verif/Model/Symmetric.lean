import Verif.Model.Fips202x4
/-! # Hash functions of ML-KEM (`/repo/mlkem/symmetric.h`, `/repo/mlkem/symmetric-shake.c`) -/
namespace Verif.Model

/-- `hash_h`, symmetric.h 72. -/
def hash_h := sha3_256
/-- `hash_g`, symmetric.h 75. -/
def hash_g := sha3_512

/-- `mlkem_shake256_prf`, symmetric-shake.c 12-21, with key at `key + ko`. -/
def prf (out : Buf UInt8) (outlen : Nat) (key : Buf UInt8) (ko : Nat) (nonce : UInt8) : M (Buf UInt8) := do
  let extkey ← memcpy (Buf.uninit UInt8 (32 + 1)) 0 key ko 32
  let extkey ← wr extkey 32 nonce
  shake256 out 0 outlen extkey 0 (32 + 1)

/-- `mlkem_shake256_rkprf`, symmetric-shake.c 23-35, with key at `key + ko` and output at `out`. -/
def rkprf (K : Nat) (out : Buf UInt8) (key : Buf UInt8) (ko : Nat) (input : Buf UInt8) : M (Buf UInt8) := do
  let s ← shake256_inc_init (Buf.uninit W 26)
  let s ← shake256_inc_absorb s key ko 32
  let s ← shake256_inc_absorb s input 0 (MLKEM_CIPHERTEXTBYTES K)
  let s ← shake256_inc_finalize s
  let (out, _) ← shake256_inc_squeeze out 0 32 s
  pure out

end Verif.Model

import Verif.Model.Indcpa
/-! # The key encapsulation mechanism (`/repo/mlkem/kem.c`)

`fuel` is the budget of the rejection-sampling loops (see `Verif.Model.Indcpa`).  Each API function takes the output objects as the caller passes
them and returns the return code with the output objects after the call. -/
namespace Verif.Model

/-- `check_pk`, kem.c 36-49. -/
def check_pk (K : Nat) (pk : Buf UInt8) : M Int := do
  let p ← polyvec_frombytes K (newVec K) pk 0
  let p ← polyvec_reduce K p
  let p_reencoded ← polyvec_tobytes K (Buf.uninit UInt8 (MLKEM_POLYVECBYTES K)) 0 p
  let d ← memcmp pk 0 p_reencoded 0 (MLKEM_POLYVECBYTES K)
  branch (decide (d ≠ 0)) (pure (-1)) (pure 0)

/-- `check_sk`, kem.c 64-79. -/
def check_sk (K : Nat) (sk : Buf UInt8) : M Int := do
  let test ← hash_h (Buf.uninit UInt8 32) 0 sk (MLKEM_INDCPA_SECRETKEYBYTES K) (MLKEM_PUBLICKEYBYTES K)
  let d ← memcmp sk (MLKEM_SECRETKEYBYTES K - 2 * 32) test 0 32
  branch (decide (d ≠ 0)) (pure (-1)) (pure 0)

/-- `crypto_kem_keypair_derand`, kem.c 97-107; returns `(code, pk, sk)`. -/
def crypto_kem_keypair_derand (K fuel : Nat) (pk sk coins : Buf UInt8) : M (Int × Buf UInt8 × Buf UInt8) := do
  let (pk, sk) ← indcpa_keypair_derand K fuel pk sk coins
  let sk ← memcpy sk (MLKEM_INDCPA_SECRETKEYBYTES K) pk 0 (MLKEM_PUBLICKEYBYTES K)
  let sk ← hash_h sk (MLKEM_SECRETKEYBYTES K - 2 * 32) pk 0 (MLKEM_PUBLICKEYBYTES K)
  let sk ← memcpy sk (MLKEM_SECRETKEYBYTES K - 32) coins 32 32
  pure (0, pk, sk)

/-- A source of randomness: given its state and a length, `randombytes` (randombytes.h) delivers bytes and a new state.  randombytes.h 13. -/
abbrev RandomBytes (σ : Type) := σ → Nat → List UInt8 × σ

/-- `randombytes(buf, n)` into a fresh buffer of `n` bytes; bytes beyond those delivered stay uninitialised.  randombytes.h 13. -/
def randombytes {σ : Type} (rb : RandomBytes σ) (st : σ) (n : Nat) : Buf UInt8 × σ :=
  ((Array.ofFn (n := n) fun i => (rb st n).1[i.val]?), (rb st n).2)

/-- `crypto_kem_keypair`, kem.c 109-115; returns `(code, pk, sk, state)`. The code returned by the derandomised function is dropped,
as in C. -/
def crypto_kem_keypair {σ : Type} (K fuel : Nat) (rb : RandomBytes σ) (st : σ) (pk sk : Buf UInt8) :
    M (Int × Buf UInt8 × Buf UInt8 × σ) := do
  let (coins, st) := randombytes rb st (2 * 32)
  let (_, pk, sk) ← crypto_kem_keypair_derand K fuel pk sk coins
  pure (0, pk, sk, st)

/-- `crypto_kem_enc_derand`, kem.c 117-140; returns `(code, ct, ss)`. -/
def crypto_kem_enc_derand (K fuel : Nat) (ct ss pk coins : Buf UInt8) : M (Int × Buf UInt8 × Buf UInt8) := do
  let chk ← check_pk K pk
  branch (decide (chk ≠ 0)) (pure (-1, ct, ss)) (do
    let buf ← memcpy (Buf.uninit UInt8 (2 * 32)) 0 coins 0 32
    let buf ← hash_h buf 32 pk 0 (MLKEM_PUBLICKEYBYTES K)
    let kr ← hash_g (Buf.uninit UInt8 (2 * 32)) 0 buf 0 (2 * 32)
    let ct ← indcpa_enc K fuel ct buf 0 pk 0 kr 32
    let ss ← memcpy ss 0 kr 0 32
    pure (0, ct, ss))

/-- `crypto_kem_enc`, kem.c 142-147; returns `(code, ct, ss, state)`. -/
def crypto_kem_enc {σ : Type} (K fuel : Nat) (rb : RandomBytes σ) (st : σ) (ct ss pk : Buf UInt8) :
    M (Int × Buf UInt8 × Buf UInt8 × σ) := do
  let (coins, st) := randombytes rb st 32
  let (code, ct, ss) ← crypto_kem_enc_derand K fuel ct ss pk coins
  pure (code, ct, ss, st)

/-- `crypto_kem_dec`, kem.c 149-182; returns `(code, ss)`. -/
def crypto_kem_dec (K fuel : Nat) (ss ct sk : Buf UInt8) : M (Int × Buf UInt8) := do
  let chk ← check_sk K sk
  branch (decide (chk ≠ 0)) (pure (-1, ss)) (do
    let buf ← indcpa_dec K (Buf.uninit UInt8 (2 * 32)) ct sk
    let buf ← memcpy buf 32 sk (MLKEM_SECRETKEYBYTES K - 2 * 32) 32
    let kr ← hash_g (Buf.uninit UInt8 (2 * 32)) 0 buf 0 (2 * 32)
    let cmp ← indcpa_enc K fuel (Buf.uninit UInt8 (MLKEM_CIPHERTEXTBYTES K + 32)) buf 0 sk (MLKEM_INDCPA_SECRETKEYBYTES K) kr 32
    let fail ← ct_memcmp ct 0 cmp 0 (MLKEM_CIPHERTEXTBYTES K)
    let ss ← rkprf K ss sk (MLKEM_SECRETKEYBYTES K - 32) ct
    let ss ← ct_cmov_zero ss 0 kr 0 32 fail
    pure (0, ss))

end Verif.Model

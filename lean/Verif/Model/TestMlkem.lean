import Verif.Model.Native
/-! # The functional test program (`/repo/test/test_mlkem.c`)

The program is linked with a build of the library on the backend `bk` and with any source of randomness `rb`.  What is written to `stdout` is a `String`.  The functions return `(code, state of the source, stdout)`. -/
namespace Verif.Model.TestMlkem
open Verif Verif.Model

/-- `randombytes(buf + off, n)` into an existing buffer.  randombytes.h 13. -/
def randombytesInto {σ : Type} (rb : RandomBytes σ) (st : σ) (buf : Buf UInt8) (off n : Nat) : M (Buf UInt8 × σ) := do
  let (r, st) := randombytes rb st n
  let buf ← memcpy buf off r 0 n
  pure (buf, st)

/-- `test_keys`, test_mlkem.c 13-37. -/
def test_keys {σ : Type} (bk : Native.Backend) (K fuel : Nat) (rb : RandomBytes σ) (st : σ) (out : String) : M (Nat × σ × String) := do
  let (_, pk, sk, st) ← Native.crypto_kem_keypair bk K fuel rb st (Buf.uninit UInt8 (MLKEM_PUBLICKEYBYTES K)) (Buf.uninit UInt8 (MLKEM_SECRETKEYBYTES K))
  let (_, ct, key_b, st) ← Native.crypto_kem_enc bk K fuel rb st (Buf.uninit UInt8 (MLKEM_CIPHERTEXTBYTES K)) (Buf.uninit UInt8 32) pk
  let (_, key_a) ← Native.crypto_kem_dec bk K fuel (Buf.uninit UInt8 32) ct sk
  let d ← memcmp key_a 0 key_b 0 32
  branch (decide (d ≠ 0)) (pure (1, st, out ++ "ERROR keys\n")) (pure (0, st, out))

/-- `test_invalid_pk`, test_mlkem.c 39-70. -/
def test_invalid_pk {σ : Type} (bk : Native.Backend) (K fuel : Nat) (rb : RandomBytes σ) (st : σ) (out : String) : M (Nat × σ × String) := do
  let (_, pk, _, st) ← Native.crypto_kem_keypair bk K fuel rb st (Buf.uninit UInt8 (MLKEM_PUBLICKEYBYTES K)) (Buf.uninit UInt8 (MLKEM_SECRETKEYBYTES K))
  let (rc, ct, key_b, st) ← Native.crypto_kem_enc bk K fuel rb st (Buf.uninit UInt8 (MLKEM_CIPHERTEXTBYTES K)) (Buf.uninit UInt8 32) pk
  branch (decide (rc ≠ 0)) (pure (1, st, out ++ "ERROR test_invalid_pk\n")) (do
    let pk ← wr pk 0 0xFF
    let a ← rd pk 1
    let pk ← wr pk 1 (a ||| 0x0F)
    let (rc, _, _, st) ← Native.crypto_kem_enc bk K fuel rb st ct key_b pk
    branch (decide (rc = 0)) (pure (1, st, out ++ "ERROR test_invalid_pk\n")) (pure (0, st, out)))

/-- `test_invalid_sk_a`, test_mlkem.c 72-108. -/
def test_invalid_sk_a {σ : Type} (bk : Native.Backend) (K fuel : Nat) (rb : RandomBytes σ) (st : σ) (out : String) : M (Nat × σ × String) := do
  let (_, pk, sk, st) ← Native.crypto_kem_keypair bk K fuel rb st (Buf.uninit UInt8 (MLKEM_PUBLICKEYBYTES K)) (Buf.uninit UInt8 (MLKEM_SECRETKEYBYTES K))
  let (_, ct, key_b, st) ← Native.crypto_kem_enc bk K fuel rb st (Buf.uninit UInt8 (MLKEM_CIPHERTEXTBYTES K)) (Buf.uninit UInt8 32) pk
  let (sk, st) ← randombytesInto rb st sk 0 10
  let (rc, key_a) ← Native.crypto_kem_dec bk K fuel (Buf.uninit UInt8 32) ct sk
  branch (decide (rc ≠ 0)) (pure (1, st, out ++ "ERROR test_invalid_sk_a\n")) (do
    let d ← memcmp key_a 0 key_b 0 32
    branch (decide (d = 0)) (pure (1, st, out ++ "ERROR invalid sk\n")) (pure (0, st, out)))

/-- `test_invalid_sk_b`, test_mlkem.c 110-140. -/
def test_invalid_sk_b {σ : Type} (bk : Native.Backend) (K fuel : Nat) (rb : RandomBytes σ) (st : σ) (out : String) : M (Nat × σ × String) := do
  let (_, pk, sk, st) ← Native.crypto_kem_keypair bk K fuel rb st (Buf.uninit UInt8 (MLKEM_PUBLICKEYBYTES K)) (Buf.uninit UInt8 (MLKEM_SECRETKEYBYTES K))
  let (_, ct, _, st) ← Native.crypto_kem_enc bk K fuel rb st (Buf.uninit UInt8 (MLKEM_CIPHERTEXTBYTES K)) (Buf.uninit UInt8 32) pk
  let (sk, st) ← randombytesInto rb st sk (MLKEM_SECRETKEYBYTES K - 64) 32
  let (rc, _) ← Native.crypto_kem_dec bk K fuel (Buf.uninit UInt8 32) ct sk
  branch (decide (rc = 0)) (pure (1, st, out ++ "ERROR test_invalid_sk_b\n")) (pure (0, st, out))

/-- The loop of `test_invalid_ciphertext` that draws the byte `b`, test_mlkem.c 152-155; the first argument is a budget for the number of rounds. -/
def drawByte {σ : Type} (rb : RandomBytes σ) : Nat → σ → M (UInt8 × σ)
  | 0, _ => M.fail .fuel
  | tries + 1, st => do
    let (r, st) := randombytes rb st 1
    let b ← rd r 0
    branch (b == 0) (drawByte rb tries st) (pure (b, st))

/-- How the machine stores a `size_t`: the number of bytes, and the value of these bytes.  Meaning of C. -/
structure SizeT where
  size : Nat
  val : List UInt8 → Nat

/-- The bytes of an initialised buffer, as a value of type `size_t`.  Meaning of C. -/
def readSize (T : SizeT) (b : Buf UInt8) : M Nat := do
  let l ← forN T.size [] fun i l => do
    let x ← rd b i
    pure (l ++ [x])
  pure (T.val l)

/-- `test_invalid_ciphertext`, test_mlkem.c 142-177. -/
def test_invalid_ciphertext {σ : Type} (bk : Native.Backend) (K fuel tries : Nat) (T : SizeT) (rb : RandomBytes σ) (st : σ) (out : String) : M (Nat × σ × String) := do
  let (b, st) ← drawByte rb tries st
  let (r, st) := randombytes rb st T.size
  let pos ← readSize T r
  let (_, pk, sk, st) ← Native.crypto_kem_keypair bk K fuel rb st (Buf.uninit UInt8 (MLKEM_PUBLICKEYBYTES K)) (Buf.uninit UInt8 (MLKEM_SECRETKEYBYTES K))
  let (_, ct, key_b, st) ← Native.crypto_kem_enc bk K fuel rb st (Buf.uninit UInt8 (MLKEM_CIPHERTEXTBYTES K)) (Buf.uninit UInt8 32) pk
  let a ← rd ct (pos % MLKEM_CIPHERTEXTBYTES K)
  let ct ← wr ct (pos % MLKEM_CIPHERTEXTBYTES K) (a ^^^ b)
  let (_, key_a) ← Native.crypto_kem_dec bk K fuel (Buf.uninit UInt8 32) ct sk
  let d ← memcmp key_a 0 key_b 0 32
  branch (decide (d = 0)) (pure (1, st, out ++ "ERROR invalid ciphertext\n")) (pure (0, st, out))

/-- The body of the loop of `main`, test_mlkem.c 186-190. -/
def body {σ : Type} (bk : Native.Backend) (K fuel tries : Nat) (T : SizeT) (rb : RandomBytes σ) (st : σ) (out : String) : M (Nat × σ × String) := do
  let (r, st, out) ← test_keys bk K fuel rb st out
  let (r', st, out) ← test_invalid_pk bk K fuel rb st out
  let r := r ||| r'
  let (r', st, out) ← test_invalid_sk_a bk K fuel rb st out
  let r := r ||| r'
  let (r', st, out) ← test_invalid_sk_b bk K fuel rb st out
  let r := r ||| r'
  let (r', st, out) ← test_invalid_ciphertext bk K fuel tries T rb st out
  pure (r ||| r', st, out)

/-- The loop of `main` and what follows it, test_mlkem.c 184-201, with the number of rounds to go as first argument. -/
def loop {σ : Type} (bk : Native.Backend) (K fuel tries : Nat) (T : SizeT) (rb : RandomBytes σ) : Nat → σ → String → M (Nat × σ × String)
  | 0, st, out => do
    M.emit (.br false)
    let out := out ++ "CRYPTO_SECRETKEYBYTES:  " ++ toString (MLKEM_SECRETKEYBYTES K) ++ "\n"
    let out := out ++ "CRYPTO_PUBLICKEYBYTES:  " ++ toString (MLKEM_PUBLICKEYBYTES K) ++ "\n"
    let out := out ++ "CRYPTO_CIPHERTEXTBYTES: " ++ toString (MLKEM_CIPHERTEXTBYTES K) ++ "\n"
    pure (0, st, out)
  | r + 1, st, out => do
    M.emit (.br true)
    let (rc, st, out) ← body bk K fuel tries T rb st out
    branch (decide (rc ≠ 0)) (pure (1, st, out)) (loop bk K fuel tries T rb r st out)

/-- `main`, test_mlkem.c 179-202, with `N` for `NTESTS`. -/
def main {σ : Type} (bk : Native.Backend) (K fuel tries : Nat) (T : SizeT) (rb : RandomBytes σ) (N : Nat) (st : σ) : M (Nat × σ × String) := loop bk K fuel tries T rb N st ""

end Verif.Model.TestMlkem

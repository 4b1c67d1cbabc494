import Verif.Model.Native
import Verif.Model.NistRng
/-! # The generators of known-answer files (`/repo/test/gen_NISTKAT.c`, `/repo/test/gen_KAT.c`)

The programs are linked with a build of the library on the backend `bk` (`Native.portable`: no native code).
What is written to `stdout` is a `String`; what is written to `stderr` is not modelled. -/
namespace Verif.Model.KatGen
open Verif Verif.Model Verif.Model.Aes Verif.Model.NistRng

/-- A hexadecimal digit as `printf` prints it with `%X` (`up`) or `%x`.  Meaning of the C library. -/
def hexDigit (up : Bool) (n : Nat) : Char := if n < 10 then Char.ofNat (48 + n) else Char.ofNat ((if up then 55 else 87) + n)

/-- `printf("%02X", b)` or `printf("%02x", b)`.  Meaning of the C library. -/
def hex02 (up : Bool) (b : UInt8) : String := String.ofList [hexDigit up (b.toNat / 16), hexDigit up (b.toNat % 16)]

/-- `CRYPTO_ALGNAME`, kem.h 17-23. -/
def CRYPTO_ALGNAME (K : Nat) : String := if K = 2 then "Kyber512" else if K = 3 then "Kyber768" else "Kyber1024"

/-! ## gen_NISTKAT.c -/

/-- `fprintBstr(fh, S, A, L)`, gen_NISTKAT.c 13-26. -/
def fprintBstr (out S : String) (A : Buf UInt8) (L : Nat) : M String := do
  let out := out ++ S
  let out ← forN L out fun i out => do
    let a ← rd A i
    pure (out ++ hex02 true a)
  let out ← branch (L == 0) (pure (out ++ "00")) (pure out)
  pure (out ++ "\n")

/-- `randombytes_nth(seed, nth, len)`, gen_NISTKAT.c 28-41, on the static state of rng.c. -/
def randombytes_nth (stk : Buf UInt8 → Buf UInt8 → Buf W32) (ctx : Ctx) (seed : Buf UInt8) (nth len : Nat) : M (Ctx × Buf UInt8) := do
  let entropy_input := Buf.ofList ([0, 1, 2, 3, 4, 5, 6, 7, 8, 9, 10, 11,
    12, 13, 14, 15, 16, 17, 18, 19, 20, 21, 22, 23,
    24, 25, 26, 27, 28, 29, 30, 31, 32, 33, 34, 35,
    36, 37, 38, 39, 40, 41, 42, 43, 44, 45, 46, 47] : List UInt8)
  let ctx ← nist_kat_init stk ctx entropy_input none
  forN (nth + 1) (ctx, seed) fun _ (ctx, seed) => NistRng.randombytes stk ctx seed len

/-- `crypto_kem_keypair`, kem.c 109-115, linked with the `randombytes` of rng.c. -/
def keypair (bk : Native.Backend) (K fuel : Nat) (stk : Buf UInt8 → Buf UInt8 → Buf W32) (ctx : Ctx) (pk sk : Buf UInt8) : M (Int × Buf UInt8 × Buf UInt8 × Ctx) := do
  let (ctx, coins) ← NistRng.randombytes stk ctx (Buf.uninit UInt8 64) (2 * 32)
  let (_, pk, sk) ← Native.crypto_kem_keypair_derand bk K fuel pk sk coins
  pure (0, pk, sk, ctx)

/-- `crypto_kem_enc`, kem.c 142-147, linked with the `randombytes` of rng.c. -/
def enc (bk : Native.Backend) (K fuel : Nat) (stk : Buf UInt8 → Buf UInt8 → Buf W32) (ctx : Ctx) (ct ss pk : Buf UInt8) : M (Int × Buf UInt8 × Buf UInt8 × Ctx) := do
  let (ctx, coins) ← NistRng.randombytes stk ctx (Buf.uninit UInt8 32) 32
  let (code, ct, ss) ← Native.crypto_kem_enc_derand bk K fuel ct ss pk coins
  pure (code, ct, ss, ctx)

/-- The variables of `main` and the static state of rng.c, gen_NISTKAT.c 45-51. -/
structure Vars where
  ctx : Ctx
  seed : Buf UInt8
  public_key : Buf UInt8
  secret_key : Buf UInt8
  ciphertext : Buf UInt8
  shared_secret_e : Buf UInt8
  shared_secret_d : Buf UInt8

/-- The body of the loop of `main`, gen_NISTKAT.c 60-101: the exit code if the body returns, the variables, the output. -/
def body (bk : Native.Backend) (K fuel : Nat) (stk : Buf UInt8 → Buf UInt8 → Buf W32) (count : Nat) (v : Vars) (out : String) : M (Option Int × Vars × String) := do
  let out := out ++ "count = " ++ toString count ++ "\n"
  let (ctx, seed) ← randombytes_nth stk v.ctx v.seed count 48
  let out ← fprintBstr out "seed = " seed 48
  let ctx ← nist_kat_init stk ctx seed none
  let (rc, pk, sk, ctx) ← keypair bk K fuel stk ctx v.public_key v.secret_key
  branch (decide (rc ≠ 0)) (pure (some (-1), v, out)) (do
    let out ← fprintBstr out "pk = " pk (MLKEM_PUBLICKEYBYTES K)
    let out ← fprintBstr out "sk = " sk (MLKEM_SECRETKEYBYTES K)
    let (rc, ct, sse, ctx) ← enc bk K fuel stk ctx v.ciphertext v.shared_secret_e pk
    branch (decide (rc ≠ 0)) (pure (some (-2), v, out)) (do
      let out ← fprintBstr out "ct = " ct (MLKEM_CIPHERTEXTBYTES K)
      let out ← fprintBstr out "ss = " sse 32
      let out := out ++ "\n"
      let (rc, ssd) ← Native.crypto_kem_dec bk K fuel v.shared_secret_d ct sk
      branch (decide (rc ≠ 0)) (pure (some (-3), v, out)) (do
        let rc ← memcmp sse 0 ssd 0 32
        branch (decide (rc ≠ 0)) (pure (some (-4), v, out)) (pure (none, ⟨ctx, seed, pk, sk, ct, sse, ssd⟩, out)))))

/-- The loop of `main`, gen_NISTKAT.c 58-105, `while (count < N)`; the first argument is a budget for the number of rounds (`N` is enough). -/
def loop (bk : Native.Backend) (K fuel : Nat) (stk : Buf UInt8 → Buf UInt8 → Buf W32) (N : Nat) : Nat → Nat → Vars → String → M (Int × String)
  | 0, _, _, _ => M.fail .fuel
  | r + 1, count, v, out => do
    let (code, v, out) ← body bk K fuel stk count v out
    match code with
    | some c => pure (c, out)
    | none =>
      let count := count + 1
      branch (decide (count < N)) (loop bk K fuel stk N r count v out) (pure (0, out))

/-- `main`, gen_NISTKAT.c 43-106, with `N` for the constant 100; exit code and output.  `ctx`: the static state of rng.c. -/
def nistkat_main (bk : Native.Backend) (K fuel : Nat) (stk : Buf UInt8 → Buf UInt8 → Buf W32) (ctx : Ctx) (N : Nat) : M (Int × String) :=
  loop bk K fuel stk N N 0 ⟨ctx, Buf.uninit UInt8 48, Buf.uninit UInt8 (MLKEM_PUBLICKEYBYTES K), Buf.uninit UInt8 (MLKEM_SECRETKEYBYTES K),
    Buf.uninit UInt8 (MLKEM_CIPHERTEXTBYTES K), Buf.uninit UInt8 32, Buf.uninit UInt8 32⟩ ("" ++ "# " ++ CRYPTO_ALGNAME K ++ "\n\n")

/-! ## gen_KAT.c -/

/-- `print_hex(label, data, size)`, gen_KAT.c 14-23. -/
def print_hex (out label : String) (data : Buf UInt8) (size : Nat) : M String := do
  let out := out ++ label ++ " = "
  let out ← forN size out fun i out => do
    let a ← rd data i
    pure (out ++ hex02 false a)
  pure (out ++ "\n")

/-- `shake256_absorb(state, input, inlen)`, gen_KAT.c 25-31. -/
def shake256_absorb (bk : Native.Backend) (state : Buf W) (input : Buf UInt8) (inlen : Nat) : M (Buf W) := do
  let state ← shake256_inc_init state
  let state ← Native.shake256_inc_absorb bk state input 0 inlen
  shake256_inc_finalize state

/-- The loop of `main`, gen_KAT.c 53-77, with `r` rounds to go.  The return codes of the library are ignored by the code.  `coins + 64` is a window of `coins`. -/
def katLoop (bk : Native.Backend) (K fuel : Nat) : Nat → Buf UInt8 → Buf UInt8 → Buf UInt8 → Buf UInt8 → Buf UInt8 → Buf UInt8 → Buf W → String → M (Int × String)
  | 0, _, _, _, _, _, _, _, out => do
    M.emit (.br false)
    pure (0, out)
  | r + 1, coins, pk, sk, ct, ss1, ss2, state, out => do
    M.emit (.br true)
    let (coins, state) ← Native.shake256_inc_squeeze bk coins 0 (3 * 32) state
    let (_, pk, sk) ← Native.crypto_kem_keypair_derand bk K fuel pk sk coins
    let out ← print_hex out "pk" pk (MLKEM_PUBLICKEYBYTES K)
    let out ← print_hex out "sk" sk (MLKEM_SECRETKEYBYTES K)
    let (_, ct, ss1) ← Native.crypto_kem_enc_derand bk K fuel ct ss1 pk (coins.extract (2 * 32) (3 * 32))
    let out ← print_hex out "ct" ct (MLKEM_CIPHERTEXTBYTES K)
    let (_, ss2) ← Native.crypto_kem_dec bk K fuel ss2 ct sk
    let rc ← memcmp ss1 0 ss2 0 32
    branch (decide (rc ≠ 0)) (pure (-1, out)) (do
      let out ← print_hex out "ss" ss1 32
      katLoop bk K fuel r coins pk sk ct ss1 ss2 state out)

/-- `main`, gen_KAT.c 33-78, with `N` for `NTESTS`; exit code and output. -/
def kat_main (bk : Native.Backend) (K fuel N : Nat) : M (Int × String) := do
  let seed := Buf.ofList ([32, 33, 34, 35, 36, 37, 38, 39, 40, 41, 42, 43, 44, 45, 46, 47,
    48, 49, 50, 51, 52, 53, 54, 55, 56, 57, 58, 59, 60, 61, 62, 63,
    64, 65, 66, 67, 68, 69, 70, 71, 72, 73, 74, 75, 76, 77, 78, 79,
    80, 81, 82, 83, 84, 85, 86, 87, 88, 89, 90, 91, 92, 93, 94, 95] : List UInt8)
  let state ← shake256_absorb bk (Buf.uninit W 26) seed 64
  katLoop bk K fuel N (Buf.uninit UInt8 (3 * 32)) (Buf.uninit UInt8 (MLKEM_PUBLICKEYBYTES K)) (Buf.uninit UInt8 (MLKEM_SECRETKEYBYTES K))
    (Buf.uninit UInt8 (MLKEM_CIPHERTEXTBYTES K)) (Buf.uninit UInt8 32) (Buf.uninit UInt8 32) state ""

end Verif.Model.KatGen

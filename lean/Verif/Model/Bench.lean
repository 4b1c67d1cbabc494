import Verif.Model.TestMlkem
/-! # The benchmark of the library (`/repo/test/bench_mlkem.c`)

The program is linked with a build of the library on the backend `bk`, with any source of randomness `rb`, any cycle counter and any `qsort`.  The cycle counter is the sequence of the values
it returns (`t i` in reading number `i`); `enable_cyclecounter` and `disable_cyclecounter` (hal.c) have no effect in the model.  What is written to `stdout` is a `String`.  `NTESTS`, `NWARMUP` and
`NITERATIONS` (500, 50 and 300) are parameters; the products of `print_percentiles` are exact, as they are in the code for these values. -/
namespace Verif.Model.Bench
open Verif Verif.Model Verif.Model.TestMlkem

/-- `cmp_uint64_t`, bench_mlkem.c 18-21: the difference modulo `2^64`, converted to `int`. -/
def cmp_uint64_t (a b : UInt64) : Int := BitVec.toInt ((a - b).toBitVec.setWidth 32)

/-- `qsort` of the C library: what it makes of the elements, given the comparison function. -/
abbrev Qsort := (UInt64 → UInt64 → Int) → List UInt64 → List UInt64

/-- `qsort(cyc, n, sizeof(uint64_t), cmp_uint64_t)`, on `n` initialised elements.  bench_mlkem.c 116-118. -/
def qsort (q : Qsort) (cyc : Buf UInt64) (n : Nat) : M (Buf UInt64) := do
  let l ← forN n [] fun i l => do
    let x ← rd cyc i
    pure (l ++ [x])
  pure (Buf.ofList (q cmp_uint64_t l))

/-- `printf("%<w>s", s)`: padded on the left with blanks.  Meaning of the C library. -/
def pad (w : Nat) (s : String) : String := String.ofList (List.replicate (w - s.length) ' ') ++ s

/-- `print_median`, bench_mlkem.c 23-26. -/
def print_median (N I : Nat) (out txt : String) (cyc : Buf UInt64) : M String := do
  let x ← rd cyc (N >>> 1)
  pure (out ++ pad 10 txt ++ " cycles = " ++ toString (x.toNat / I) ++ "\n")

/-- `percentiles`, bench_mlkem.c 28. -/
def percentiles : List Nat := [1, 10, 20, 30, 40, 50, 60, 70, 80, 90, 99]

/-- `print_percentile_legend`, bench_mlkem.c 30-37. -/
def print_percentile_legend (out : String) : M String := do
  let out ← forN 11 (out ++ pad 21 "percentile") fun i out => do
    let p ← rd (Buf.ofList percentiles) i
    pure (out ++ pad 7 (toString p))
  pure (out ++ "\n")

/-- `print_percentiles`, bench_mlkem.c 39-46. -/
def print_percentiles (N I : Nat) (out txt : String) (cyc : Buf UInt64) : M String := do
  let out ← forN 11 (out ++ pad 10 txt ++ " percentiles:") fun i out => do
    let p ← rd (Buf.ofList percentiles) i
    let x ← rd cyc (N * p / 100)
    pure (out ++ pad 7 (toString (x.toNat / I)))
  pure (out ++ "\n")

/-- The variables of `bench`, bench_mlkem.c 50-57. -/
structure Vars where
  pk : Buf UInt8
  sk : Buf UInt8
  ct : Buf UInt8
  key_a : Buf UInt8
  key_b : Buf UInt8
  kg_rand : Buf UInt8
  enc_rand : Buf UInt8
  cycles_kg : Buf UInt64
  cycles_enc : Buf UInt64
  cycles_dec : Buf UInt64

/-- `n` calls of `crypto_kem_keypair_derand`, bench_mlkem.c 68-71 and 74-77. -/
def keypairs (bk : Native.Backend) (K fuel n : Nat) (pk sk kg_rand : Buf UInt8) : M (Buf UInt8 × Buf UInt8) :=
  forN n (pk, sk) fun _ (pk, sk) => do
    let (_, pk, sk) ← Native.crypto_kem_keypair_derand bk K fuel pk sk kg_rand
    pure (pk, sk)

/-- `n` calls of `crypto_kem_enc_derand`, bench_mlkem.c 83-86 and 88-91. -/
def encs (bk : Native.Backend) (K fuel n : Nat) (ct key_a pk enc_rand : Buf UInt8) : M (Buf UInt8 × Buf UInt8) :=
  forN n (ct, key_a) fun _ (ct, key_a) => do
    let (_, ct, key_a) ← Native.crypto_kem_enc_derand bk K fuel ct key_a pk enc_rand
    pure (ct, key_a)

/-- `n` calls of `crypto_kem_dec`, bench_mlkem.c 96-99 and 101-104. -/
def decs (bk : Native.Backend) (K fuel n : Nat) (key_b ct sk : Buf UInt8) : M (Buf UInt8) :=
  forN n key_b fun _ key_b => do
    let (_, key_b) ← Native.crypto_kem_dec bk K fuel key_b ct sk
    pure key_b

/-- The body of the loop of `bench`, bench_mlkem.c 64-113, in round `i`: six readings of the counter per round.  Gives whether the loop goes on. -/
def round {σ : Type} (bk : Native.Backend) (K fuel W I : Nat) (rb : RandomBytes σ) (t : Nat → UInt64) (i : Nat) (v : Vars) (st : σ) : M (Bool × Vars × σ) := do
  let (kg_rand, st) ← randombytesInto rb st v.kg_rand 0 64
  let (enc_rand, st) ← randombytesInto rb st v.enc_rand 0 32
  let (pk, sk) ← keypairs bk K fuel W v.pk v.sk kg_rand
  let t0 := t (6 * i)
  let (pk, sk) ← keypairs bk K fuel I pk sk kg_rand
  let t1 := t (6 * i + 1)
  let cycles_kg ← wr v.cycles_kg i (t1 - t0)
  let (ct, key_a) ← encs bk K fuel W v.ct v.key_a pk enc_rand
  let t0 := t (6 * i + 2)
  let (ct, key_a) ← encs bk K fuel I ct key_a pk enc_rand
  let t1 := t (6 * i + 3)
  let cycles_enc ← wr v.cycles_enc i (t1 - t0)
  let key_b ← decs bk K fuel W v.key_b ct sk
  let t0 := t (6 * i + 4)
  let key_b ← decs bk K fuel I key_b ct sk
  let t1 := t (6 * i + 5)
  let cycles_dec ← wr v.cycles_dec i (t1 - t0)
  let d ← memcmp key_a 0 key_b 0 32
  branch (decide (d ≠ 0)) (pure (false, ⟨pk, sk, ct, key_a, key_b, kg_rand, enc_rand, cycles_kg, cycles_enc, cycles_dec⟩, st))
    (pure (true, ⟨pk, sk, ct, key_a, key_b, kg_rand, enc_rand, cycles_kg, cycles_enc, cycles_dec⟩, st))

/-- The loop of `bench`, bench_mlkem.c 62-114, from round `i` on, with `r` rounds to go; `none` when `bench` returns 1. -/
def rounds {σ : Type} (bk : Native.Backend) (K fuel W I : Nat) (rb : RandomBytes σ) (t : Nat → UInt64) : Nat → Nat → Vars → σ → M (Option Vars)
  | 0, _, v, _ => do
    M.emit (.br false)
    pure (some v)
  | r + 1, i, v, st => do
    M.emit (.br true)
    let (go, v, st) ← round bk K fuel W I rb t i v st
    match go with
    | true => rounds bk K fuel W I rb t r (i + 1) v st
    | false => pure none

/-- The part of `bench` after the loop, bench_mlkem.c 116-130. -/
def report (q : Qsort) (N I : Nat) (v : Vars) (out : String) : M String := do
  let kg ← qsort q v.cycles_kg N
  let enc ← qsort q v.cycles_enc N
  let dec ← qsort q v.cycles_dec N
  let out ← print_median N I out "keypair" kg
  let out ← print_median N I out "encaps" enc
  let out ← print_median N I out "decaps" dec
  let out := out ++ "\n"
  let out ← print_percentile_legend out
  let out ← print_percentiles N I out "keypair" kg
  let out ← print_percentiles N I out "encaps" enc
  print_percentiles N I out "decaps" dec

/-- `bench`, bench_mlkem.c 48-133: return code and output. -/
def bench {σ : Type} (bk : Native.Backend) (K fuel N W I : Nat) (rb : RandomBytes σ) (t : Nat → UInt64) (q : Qsort) (st : σ) (out : String) : M (Int × String) := do
  let v ← rounds bk K fuel W I rb t N 0 ⟨Buf.uninit UInt8 (MLKEM_PUBLICKEYBYTES K), Buf.uninit UInt8 (MLKEM_SECRETKEYBYTES K), Buf.uninit UInt8 (MLKEM_CIPHERTEXTBYTES K), Buf.uninit UInt8 32,
    Buf.uninit UInt8 32, Buf.uninit UInt8 64, Buf.uninit UInt8 32, Buf.uninit UInt64 N, Buf.uninit UInt64 N, Buf.uninit UInt64 N⟩ st
  match v with
  | none => pure (1, out ++ "ERROR keys\n")
  | some v => do
    let out ← report q N I v out
    pure (0, out)

/-- `main`, bench_mlkem.c 135-142: exit code and output.  What `bench` returns is ignored by the code. -/
def main {σ : Type} (bk : Native.Backend) (K fuel N W I : Nat) (rb : RandomBytes σ) (t : Nat → UInt64) (q : Qsort) (st : σ) : M (Int × String) := do
  let (_, out) ← bench bk K fuel N W I rb t q st ""
  pure (0, out)

end Verif.Model.Bench

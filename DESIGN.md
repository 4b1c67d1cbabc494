# Formal model of mlkem-native in Lean 4: design

The code under study is the source in `/repo` (mlkem-native, pinned commit).  The model and proofs are in `lean/Verif/`.
Properties are in `properties.jsonl`, their status in `MANIFEST.json`, and the record of deliberate damage to the model
in `seeded/LOG.jsonl`.

## 1. Approach

1. `Verif/Sem.lean` gives a small semantics for the fragment of C that the code uses.  A C function becomes a total Lean
   function in a monad `M` whose outcome is either a value together with a *trace*, or an *error*.
   * Errors are distinct: `oob` (out-of-bounds or misaligned access), `uninit` (read of an uninitialised cell), `overflow`
     (signed overflow), `lossy` (narrowing to `int16_t` that changes the value), `assert` (a debug or bound check of the code
     fails), `fuel` (budget of an open-ended loop exhausted).  Undefined behaviour is an outcome, never assumed away.
   * The trace lists the index of every element read or written, the outcome of every branch and the operands of every division
     and remainder (`divM`, `modM`): the usual constant-time leakage model with variable-time division.  Not recorded are
     divisions of unsigned values by a literal power of two (`scalar_decompress_d4` and its siblings), which compile to shifts.
   * A C object is `Buf α = Array (Option α)`; `none` is an uninitialised cell.  A pointer is a buffer plus an offset.  A
     function that writes through a pointer returns the new buffer.
   * `uint8_t` cells are `UInt8`.  `int16_t`/`int32_t` values are `Int` with explicit range checks.  Unsigned 16/32/64-bit
     values are `Nat` with explicit reduction.  `uint64_t` Keccak lanes are `BitVec 64`.
2. `Verif/Model/*.lean` translates the code function by function, with `K ∈ {2,3,4}` a parameter.  Every definition cites file and
   lines.
3. `Verif/Spec/*.lean` states FIPS 202 and FIPS 203 independently of the model: Keccak-p on bits, the sponge with pad10*1, the NTT
   as residues over `ZMod 3329`, rounding in `ℚ`, byte encoding by bits, the K-PKE and ML-KEM algorithms.
4. `Verif/Proof/*.lean` contains lemmas: a Hoare calculus (`Post`, `PostF`), a two-run calculus for traces (`SI`), the
   refinement lemma of each function.
5. `Verif/Props/*.lean` contains the property theorems.  `Props/Common.lean` is the vocabulary used in statements.  Non-vacuity
   examples stand beside the theorems or in `Props/Examples.lean`.

### The open-ended loop

`gen_matrix` samples until 256 coefficients are accepted; nothing bounds this loop.  The model gives it a budget `fuel` of refills.  All
theorems hold for every budget.  C35 shows that a larger budget never changes an outcome and characterises exactly when a budget
suffices: when the first `168·(3+fuel)` bytes of each SHAKE128 stream contain 256 accepted candidates.  That every stream does so
eventually is not provable (it is a statement about SHAKE128), so termination is stated as this equivalence.

### x86_64

The AVX2 backend is modelled at the level of instructions and intrinsics.

* `Model/X86Asm.lean` is generated from `/repo/mlkem/native/x86_64/*.S`, `*.inc`, `consts.c`, `x86_64_zetas.i` by
  `tools/gen_avx2.py`: one constructor of `Ins` per instruction, one Lean function per macro.  The meaning of an instruction (`Ins.step`)
  is hand-written from Intel's manual.  `Proof/X86Sym.lean` has a symbolic executor with a soundness theorem; the kernel runs it
  (`decide +kernel` on a closed term) on each program.  The result is a theorem for all inputs, because the executor carries
  intervals and linear forms over the *symbolic* inputs; it is not a test of sample inputs.
* `Model/X86Gp.lean` has the same functions with their general-purpose instructions, memory operands as written, `call`, `ret` and the stack, generated by `tools/gen_x86gp.py`.  `Proof/X86Gp.lean` has a function that resolves
  such a program to vector instructions, keeping track of what is known of each register (address in an argument, offset from the stack pointer, value at the call), with a soundness theorem; the kernel checks that each
  function resolves to its counterpart in `Model/X86Asm.lean` and restores the stack pointer and the callee-saved registers.  `Proof/X86GpTrace.lean` proves that the accesses
  of a program that resolves are the same for all data.  `Model/NativeGp.lean` is the build that calls these functions (C82); `Model/NativeA64Gp.lean` the AArch64 build that runs the instructions of its sampler (C83).
* `Model/X86Rej.lean` (`rej_uniform_avx2.c`) and `Model/X86Keccak.lean` (XKCP, `tools/gen_xkcp.py`) model the intrinsics.
* `Model/Native.lean` models everything above these functions over an arbitrary `Backend`.  `portable` and `x86_64 g` are the two
  instances; `portable` is definitionally the model of the C code.  `g : Regs` is the content of the vector registers at each call of
  an assembly function, which is arbitrary; simplification: it may depend on the function and the polynomial passed, on nothing else.
* The proof that the API functions meet FIPS 203 is done once for every backend that satisfies the contract `Meets`
  (`Proof/Native*.lean`), and similarly for traces (`Quiet`, `Proof/NativeTrace.lean`).  The property theorems are stated
  for `x86_64 g` itself.

### AArch64

The Neon arithmetic backend is modelled in the same way.

* `Model/A64Asm.lean` is generated from the preprocessed reading of `/repo/mlkem/native/aarch64/*.S` by `tools/gen_a64.py` (macros expanded, labels resolved into
  blocks): general-purpose registers hold numbers or pointers (object and byte offset), vector registers eight 16-bit elements.  `Ins.step` is
  hand-written from the Arm manual.  Loads and stores outside an object, through a number, or to a table are errors.
* `Proof/A64Sym.lean` has a symbolic executor (loops included: counters are concrete) with a soundness theorem, run by the kernel on each function of
  both profiles.
* `Proof/A64Trace.lean` and `Proof/A64Frame.lean` have two syntactic checks with soundness theorems: all addresses and loop counters derive from
  arguments, immediates and tables (so traces are data-independent), and every store goes to the first argument or the stack frame, and no
  callee-saved general-purpose register is written.
* `Model/A64Rej.lean` models `rej_uniform_asm_clean.S` loop by loop, with the Neon instructions as functions on vectors (table generated by `tools/gen_a64rej.py`).
* `Model/A64RejAsm.lean` has the same function as a program of instructions, generated by `tools/gen_a64rejasm.py`, for a machine with general-purpose and vector registers, flags, stack pointer, and branches
  to labels.  `Proof/A64RejAsm*.lean` prove that it refines `Model/A64Rej.lean`: a relation between machine state and loop state holds after the prologue, is kept by each block, and the copy at the end follows it.
* `Model/A64Keccak.lean` is generated from `/repo/fips202/native/aarch64/*.S` by `tools/gen_a64keccak.py`: the seven Keccak functions, with general-purpose registers as above,
  vector registers of two 64-bit elements, and a stack frame whose cells hold numbers or (spilled) pointers.  `Proof/A64KSym.lean` executes them symbolically in the kernel on
  expressions (rotated lanes modulo exclusive-or, lazily rotated ones included) and compares every lane, round by round, with Keccak-f; `Proof/A64K{Sound,Run,Fun}.lean` prove that this
  implies the result for all states.  `Model/A64Fips202.lean` has the choice among them made by the profiles.
* `Model/NativeA64.lean` is the backend `aarch64 P Q g` for the arithmetic profiles `P = clean, opt` and the Keccak profiles `Q`.

## 2. Plan per property

| id | what is modelled | how it is proved |
|----|------------------|------------------|
| C01–C03 | all of kem.c, indcpa.c, poly*.c, ntt.c, reduce.c, cbd.c, rej_uniform.c, symmetric, fips202*.c, keccakf1600.c | function-by-function refinement to `Spec`; NTT by induction on layers with an evaluation invariant; sponge by induction on blocks; rejection loop by induction on refills |
| C04–C07 | `check_pk`, `check_sk`, entry points | consequences of the refinement and of the bijectivity of 12-bit packing |
| C08 | K-PKE | ring algebra in `ZMod q[X]/(X^256+1)`, linearity of the NTT; the failure event is stated exactly (window of each message bit), and decryption succeeds if and only if it does not occur.  How many noise bytes lead to it is C73 |
| C09, C34 | entry point `dec` | from C03 and exactness of `ct_memcmp` |
| C10–C12 | error outcomes of `M` | the refinement shows the outcome is never `oob`/`uninit`/`overflow`/`lossy`/`assert`/`div0` |
| C13–C15, C36 | traces of `M` | relational (two-run) calculus |
| C16 | `randombytes` as a parameter with its own state | unfolding |
| C17–C23, C31, C32 | the individual functions | refinement; whole-domain `decide +kernel` only for genuinely finite domains (3329 coefficients, 65536 `int16_t`, 128 zetas, 24 round constants) |
| C24 | CBD | refinement; the distribution by counting preimages with a bijection |
| C25 | uniform sampling | induction over the stream of candidates; equal likelihood by a bijection of buffers that exchanges accepted values |
| C26–C30 | fips202.c, fips202x4.c, keccakf1600.c with both endianness paths | lane-level equality with the bit-level step maps; sponge invariant over arbitrary histories of absorb/squeeze calls |
| C33 | sizes and frame | `Buf` sizes and cell-wise statements |
| C35 | budget | induction on fuel; see above; the number of byte strings with too few accepted candidates by counting lists of candidates (generating polynomial, exponential weights for the tail) |
| C37 | XKCP four-way Keccak | lane-wise equality with the portable permutation |
| C38 | AVX2 rejection sampler | table-free invariant for each of its three loops; the 256-row table, and the 256 results of scatter and gather (`BMI`), by `decide +kernel` |
| C39–C42 | AVX2 NTT, inverse NTT, inner product, reduce, tomont, tobytes, frombytes, permutation | symbolic execution run by the kernel, with soundness theorem; then the algebra of C20–C22 in the permuted order |
| C43–C47 | the whole library over the AVX2 backend | `Meets (x86_64 g)` and the backend-generic refinement; C46 compares the two builds call by call |
| C48 | traces of the AVX2 build | `Quiet2 (x86_64 g) (x86_64 g')` (the two runs may find different register contents) and the backend-generic two-run proof |
| C49–C51 | AArch64 NTT, inverse NTT, inner product, reduce, tomont, tobytes, both profiles | symbolic execution run by the kernel, with soundness theorem; then the algebra of C20–C22 |
| C52 | AArch64 rejection sampler | loop invariants; table rows by `decide +kernel`; refinement from the instructions to the loops, block by block |
| C53 | procedure call standard for the arithmetic assembly | symbolic execution (vector registers, stack pointer) and syntactic check (general-purpose registers, stores); for the rejection sampler the refinement of C52 |
| C54–C56 | the whole library over the AArch64 arithmetic and Keccak backends | `Meets (aarch64 P Q g)` and the backend-generic refinement |
| C57 | traces of the AArch64 build | `Quiet2 (aarch64 P Q g) (aarch64 P Q g')` (the two runs may find different register and stack contents) and the backend-generic two-run proof |
| C58–C60 | the AArch64 Keccak assembly, the profiles that choose it | symbolic execution run by the kernel, with soundness theorem |
| C61 | its traces | the symbolic execution fixes the trace; a simulation extends this to memory of any contents |
| C62, C65 | the API on an arbitrary backend | the contract used in the proofs is equivalent to the readable one in `Props/Backend.lean`; then as C46, C16 |
| C66 | the API on three arbitrary backends, one per call | C62 takes each call to the portable code, where C07, C08, C34 apply |
| C67 | the `__contract__` annotations of reduce.h, poly.h, polyvec.h, ntt.h, ntt.c, cbd.h, rej_uniform.h, indcpa.h, indcpa.c, symmetric.h | one theorem per function or group; the bounds come with the functional lemmas |
| C68 | test/nistrng/aes.c and rng.c; AES, its modes and CTR_DRBG specified in `Spec/Fips197.lean`, `Spec/Drbg.lean` | the bit-sliced S-box for all 256 bytes at once by the kernel, lifted to 32 lanes; each layer commutes with bit-slicing; induction over blocks and requests |
| C69 | test/gen_NISTKAT.c and gen_KAT.c; the files specified in `Spec/Kat.lean`; linked with any backend that keeps the contract of C62 | C68, C27 and the refinement lemmas of the API, induction over the cases |
| C70 | test/acvp_mlkem.c; command lines and answers specified in `Spec/Acvp.lean`; linked with any backend that keeps the contract of C62 | induction over strings for `strlen`, `strcmp` and the decoding loop, the 256 characters by the kernel, then C01–C05 |
| C71 | test/notrandombytes/notrandombytes.c; SURF as one recursive sequence in `Spec/Surf.lean` | loop invariants for the twelve steps of a round, the counter as a 128-bit number, induction over the history of calls |
| C72 | test/test_mlkem.c, linked with any source of randomness; when each test passes is specified in `Spec/TestMlkem.lean`; linked with any backend that keeps the contract of C62 | C01–C06 for the calls, the layout of the secret key, induction over the rounds |
| C73 | the noise bytes of K-PKE as an input in `Spec/Failure.lean`; the link to the code is C08 | decryption noise as an integer `e·y - s·f` plus a bounded rest; exponential moments of the centred binomial distribution summed over all bits (first `s`, `e`, then `e₁` with the compression error for the worst value of `u`, then `y`); rational arithmetic, no real numbers; tables over all of `Z_q` by the kernel |
| C74 | the entry points of kem.c | case distinction over accepted and rejected decapsulations (C02, C03), injectivity of concatenation for fixed lengths |
| C75 | test/bench_mlkem.c, with arbitrary counter readings, `qsort` known only by the text of the C standard; the report is specified in `Spec/Bench.lean` | the calls as for C72; the wrapped difference compared as a 32-bit integer is the difference for close values, so a sorted permutation is unique |
| C76 | the numbers computed by scripts/autogenerate_files.py | tables by kernel evaluation; the preparation of a constant from what rounding guarantees, for all integers |
| C77 | the functions of test/test_bounds.py; a layer of butterflies as any function of the form `x_i ± mul(x_j, t)` | exact formulas for both multiplications, then induction over the layers |
| C78 | mlkem/debug/debug.c and the macros of debug.h; messages specified in `Spec/Debug.lean` | loop invariants for formatting, reading back and reporting |
| C79 | `Spec/Printed.lean`: Algorithms 3 to 18 of FIPS 203 with their loops and assignments | loop invariants: the printed loops compute the formulas of `Spec/Fips203.lean`; composition with C01–C03, C20 |
| C80 | scripts/tests (func, nistkat, kat, acvp, all), scripts/lib/mlkem_test.py, util.py, the digests and lengths of META.yml; the outcomes of commands are an arbitrary function of the history | a Hoare logic for transcripts: a plan of steps, by induction over the loops; composition with C69, C70 and C72 |
| C81 | the AVX2 assembly functions with general-purpose registers, calls and stack (`Model/X86Gp.lean`); System V calling convention | resolution of registers to what is known of them, with a soundness theorem (simulation of the vector program; the aligned slot of the multiplication by a relation between stack and slot), then C39 - C42 |
| C82 | the AVX2 build with its assembly as instructions (`Model/NativeGp.lean`) | what the transcription returns the instructions return (C81), through the C functions around them; then C62 and C64 |
| C83 | the AArch64 build with the rejection sampler as instructions (`Model/NativeA64Gp.lean`) | the same, from the simulation of C52 |
| C63 | the sponge functions on an arbitrary backend | as C26–C28, from the contract |
| C64 | traces of key generation, encapsulation, decapsulation and the hash functions on an arbitrary backend | as C57 and C36, from data-independence of the backend's functions |

Cannot be expressed in this model: wall-clock time, cache and micro-architectural state beyond addresses and branches, data-dependent
latency of single instructions, compiler-introduced branches, and cryptographic hardness.  The decryption-failure rate is expressed for uniformly chosen noise bytes (C73), not for the output of the PRF on random seeds.

## 3. Trusted base

* Lean 4.33.0's kernel.
* Axioms.  Every theorem named in `MANIFEST.json` depends on a subset of `propext`, `Classical.choice`, `Quot.sound`.  All depend on exactly these
  three, except `C25_cut`, `C25_uniform`, `C29_determined`, `C33_sizes`, the five `C35_more_budget_*`, `C67_cache_check`, `C68_spec_inverse`, `C77_barrett_is_montgomery`, `C77_products` and the six `C36_*` whose names do not end in `_trace`, which depend on
  `propext` and `Quot.sound` only, `C76_tables` and `C81_constant_time`, which depend on `propext` only, and `C64_choose`, which depends on no axiom.  No axiom is declared; there is no `sorry`, `admit`, `native_decide`, `bv_decide`.
* The reading of the C code and assembly into `Verif/Model`, including the generators in `tools/` (they only produce Lean text, which
  can be compared with the source), and the meaning of C in `Verif/Sem.lean`, of the AVX2 instructions in `Model/X86Asm.lean`, of the general-purpose instructions, `call` and `ret` in `Model/X86Gp.lean`, of the AArch64 instructions in `Model/A64Asm.lean`, `Model/A64Rej.lean`, `Model/A64RejAsm.lean`, `Model/A64Keccak.lean` and
  of the intrinsics in `Model/X86Rej.lean`, `Model/X86Keccak.lean`.
* The reading of FIPS 202/203 into `Verif/Spec`, and the definitions in `Verif/Props/Common.lean`.  FIPS 203 is read twice: as formulas in `Spec/Fips203.lean` and as the loops of the printed algorithms in `Spec/Printed.lean`; C79
  proves that both readings are the same functions.

As a test of the reading (not part of the proofs) the model was run as a compiled program on the 180 ACVP vectors in
`/repo/test/acvp_data`, all of which it reproduces (`tools/Acvp.lean.txt`, `tools/acvp_lines.py`).  The model of the known-answer generator was run in the same way (`tools/Kat.lean.txt`): the 100 cases it prints for ML-KEM-512, ML-KEM-768 and ML-KEM-1024 have the SHA-256
digests `a30184ed…`, `729367b5…` and `3fba7327…` that `/repo/META.yml` gives as `nistkat-sha256`.
For some vectors the kernel checks this too: `Props/Vectors*.lean` prove that specification, printed algorithms and code give the first ACVP vector of each kind (key generation, encapsulation, decapsulation of an
honest and of a modified ciphertext) for each parameter set, and that the hash functions give the published digests of the empty string; `Props/VectorsKat.lean` proves that the specification of AES gives the
example of FIPS 197, Appendix C.3, and that of CTR_DRBG the seed of case 0 of NIST's known-answer files.

## 4. Modelled / not modelled

Modelled:

* `mlkem/`: kem.c, indcpa.c, polyvec.c, poly.c, ntt.c, reduce.h, zetas.i, cbd.c, rej_uniform.c, verify.h/verify.c, symmetric.h, params.h, and the
  bound checks of debug.h (as `assert` outcomes).
* `fips202/`: fips202.c, fips202x4.c, keccakf1600.c (portable and little-endian variants).
* `mlkem/native/x86_64/`: ntt.S, intt.S, basemul.S, basemul.c, fq.S, shuffle.S, fq.inc, shuffle.inc, consts.c, rej_uniform_avx2.c
  (with and without `BMI`), profiles/default.h.
* `mlkem/native/aarch64/`: ntt_{clean,opt}.S, intt_{clean,opt}.S, poly_{clean,opt}.S, polyvec_{clean,opt}.S, rej_uniform_asm_clean.S, the zeta
  tables, profiles/{clean,opt}.h.
* `fips202/native/aarch64/`: the seven assembly files, common.i, profiles/{default,cortex_a55}.h.
* `fips202/native/x86_64/xkcp/`: KeccakP-1600-times4-SIMD256.c and the unrolling macros used.
* `test/nistrng/`: aes.c, rng.c (`malloc` succeeds; `free` is not modelled); `test/gen_NISTKAT.c`, `test/gen_KAT.c` (standard output only, and the meaning of `printf`
  conversions `%02X`, `%02x`, `%d`, `%s` is part of the model); `test/acvp_mlkem.c` (standard output and exit code; the messages on standard error are left out); `test/notrandombytes/notrandombytes.c`; `test/test_mlkem.c` (standard output and exit code); `test/bench_mlkem.c`
  (standard output and exit code, with the cycle counter as a sequence of readings); `test/test_bounds.py` (the functions; its own sampling loops are replaced by theorems).
* `scripts/autogenerate_files.py` (the numbers, not the formatting); `mlkem/debug/debug.c`.
* `scripts/tests` and `scripts/lib/` for the commands `func`, `nistkat`, `kat`, `acvp` and `all`: the commands started, the comparisons and the exit status.  Left out: the log, the summaries written on GitHub, the options that only change
  the text of the `make` command, the commands `bench` and `cbmc`.  Reading the JSON and YAML files is taken to deliver their contents; SHA-256 of the Python library is a parameter.

`nttpack_avx2`, which the library does not call, is modelled and proved to undo the unpacking of a half (`C42_nttpack`). Not modelled: 
`randombytes` itself in the library (a parameter); the rest of `test/` (`bench_components_mlkem.c`, `hal/`, `acvp_data/`) and of `scripts/`; the inline-assembly variants of the
value barrier (`ct_*` value barriers are the identity on values).

Simplifications:

* Distinct pointer arguments do not overlap (the code's contracts, stated as CBMC `requires`, say so).
* Pointer provenance, effective types, stack size are not modelled; alignment only for aligned AVX2 accesses to 16-bit objects, which the code
  declares aligned.
* `gen_matrix` writes through `&a[0].vec[0] + i` across `polyvec` boundaries; the matrix is modelled as the flat array this intends.
* A pointer into the middle of a byte array passed to assembly is a window: the function works on a separate object, so that an access
  outside the window is an error, and the trace has offsets in the window.
* Arithmetic right shift and two's-complement conversion are as the code's comments assume.
* Rejection sampling: `ctr` and `pos` of `rej_uniform_scalar` are `unsigned int` and wrap in the model as in C.  Theorems about the samplers assume
  length + 3 < 2^32, which leaves out only lengths for which `pos + 3` can wrap; the contract (rej_uniform.c 26-31) allows 4096 bytes.
* Hash lengths: theorems about hashing assume message length + 200 < 2^64, because the code's position counters wrap otherwise.

## 5. Disagreements between code and documentation

* `kem.h` says of `crypto_kem_dec`: "On failure, ss will contain a pseudo-random value."  When the secret-key hash check
  fails the function returns -1 and leaves `ss` unmodified (C06).
* `keccak_absorb` is documented as starting by zeroing the state; in the code the caller does that (`shake128_absorb`).
* `arith_native.h` documents the input of `poly_tobytes_native` as coefficients in `-(q-1) … q-1`; the AVX2 code is right only for
  `0 … q-1`.  Its only caller guarantees the latter (`POLY_UBOUND`), which C42 and C47 use.
* The contracts of `poly_basemul_montgomery_cached`, `polyvec_basemul_acc_montgomery_cached` and `matvec_mul` allow every `int16_t` in
  the second factor and in the cache.  The debug checks in poly.c 459 and polyvec.c 101-102 demand `|b| < 8q` and `|b_cache| < q`, so
  with `MLKEM_DEBUG` a call that meets the contract can fail (`C67_cache_check` gives one).  The library's own calls meet the checks (C12).
* `aes_ecb` (test/nistrng/aes.c) called with a number of blocks that is not a multiple of four encrypts words of its local array that were never
  written.  The model takes the contents of that array as a parameter; the result does not depend on it (C68).
* `acvp_mlkem.c` ignores the return codes of `crypto_kem_enc_derand` and `crypto_kem_dec`: for a key that does not pass the check of FIPS 203 it prints local arrays
  that were never written (`C70_ignored_code`).
* `cmp_uint64_t` of the benchmarks returns the difference of two 64-bit numbers converted to `int`: it is not an order when measurements differ by `2^31` or more (`C75_comparator`).
  `main` of bench_mlkem.c ignores what `bench` returns, so the exit code is 0 also after `ERROR keys` (`C75_any_times`).
* `bench_components_mlkem.c` calls functions on random data outside their contracts (for example `poly_compress_du` on coefficients that are not in `0 … q-1`), so nothing proved about these functions applies there.
* `test/test_bounds.py` (186) computes the growth of coefficients under Montgomery multiplication with the factor 0.0204; the comments of reduce.c say 0.0254.  The script's factor is too small: `fqmul(-295, -1602) = 1671`
  with a constant of the table (`C77_montgomery_factor`).  0.0254 is right (`C77_montgomery_progression`).  The bounds the library relies on are not affected (C12).
* The test driver compares only what the ACVP program prints with the vector: expected fields that are not printed are not looked at, so a program that prints nothing and returns 0 passes (last examples of `Props/DriverVectors.lean`).  The program of the repository prints them all (C80_acvp).
  In `all`, the tests after the first that fails are not run (`code or …`), and the exit status is 1 whatever the failing program returned.  A group of vectors with an unknown `function` would reuse the arguments of the vector before
  (C80 is about files without such groups).

## 6. Testing the theorems against wrong programs

`seeded/LOG.jsonl` has one line per edit of the model.  Each edit is made in a scratch copy, the project is rebuilt, and the line records
the lemmas whose proofs fail and the property theorems that depend on them.  A theorem listed under `theorems_not_failed` is one
whose proof does not use a broken lemma although it mentions the edited definition; its claim must still be true for the edited
program.  Edits that survive are explained in `note`.

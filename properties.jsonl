{"id": "C01", "title": "Key generation computes FIPS 203 KeyGen_internal", "statement": "crypto_kem_keypair_derand(pk, sk, d||z) returns 0 and leaves in pk and sk exactly the bytes ek and dk that FIPS 203 ML-KEM.KeyGen_internal(d, z) (Algorithm 16, with K-PKE.KeyGen, Algorithm 13) prescribes.", "quantifier": "all 64-byte coins, all previous contents of the output buffers, for each of ML-KEM-512, -768 and -1024 (MLKEM_K = 2, 3, 4)", "why_tests_cant": "There are 2^512 seeds; test vectors touch a few hundred. A wrong rounding, a missed carry or a rare rejection-sampling path shows up only on inputs no vector contains.", "anchors": ["mlkem/kem.c:crypto_kem_keypair_derand", "mlkem/indcpa.c:indcpa_keypair_derand", "mlkem/indcpa.c:gen_matrix"]}
{"id": "C02", "title": "Encapsulation computes FIPS 203 Encaps_internal", "statement": "For every public key that passes the modulus check, crypto_kem_enc_derand(ct, ss, pk, m) returns 0 and leaves in ct and ss exactly the c and K of FIPS 203 ML-KEM.Encaps_internal(pk, m) (Algorithms 17 and 14).", "quantifier": "all well-formed public keys (not only honestly generated ones), all 32-byte coins, all previous buffer contents, for each of ML-KEM-512, -768 and -1024 (MLKEM_K = 2, 3, 4)", "why_tests_cant": "The public key is attacker-controlled and ranges over 2^9500 values; interoperability must hold for each.", "anchors": ["mlkem/kem.c:crypto_kem_enc_derand", "mlkem/indcpa.c:indcpa_enc"]}
{"id": "C03", "title": "Decapsulation computes FIPS 203 Decaps_internal", "statement": "For every secret key whose stored hash matches, and every ciphertext, crypto_kem_dec(ss, ct, sk) returns 0 and leaves in ss exactly the key of FIPS 203 ML-KEM.Decaps_internal(sk, ct) (Algorithms 18, 14, 15).", "quantifier": "all ciphertexts of the right length (valid, invalid, adversarial), all secret keys passing the hash check, for each of ML-KEM-512, -768 and -1024 (MLKEM_K = 2, 3, 4)", "why_tests_cant": "The ciphertext is attacker-controlled; chosen-ciphertext behaviour must be right on every one, including those never produced by an honest encapsulation.", "anchors": ["mlkem/kem.c:crypto_kem_dec", "mlkem/indcpa.c:indcpa_dec", "mlkem/verify.h:ct_memcmp", "mlkem/verify.h:ct_cmov_zero"]}
{"id": "C04", "title": "Public-key modulus check is exact", "statement": "crypto_kem_enc_derand returns -1 if and only if some 12-bit coefficient of the public key's encoded vector is >= 3329 (equivalently ByteEncode12(ByteDecode12(pk)) differs from pk, FIPS 203 section 7.2); otherwise it returns 0.", "quantifier": "all byte strings of public-key length, all coins, for each of ML-KEM-512, -768 and -1024 (MLKEM_K = 2, 3, 4)", "why_tests_cant": "A single unchecked coefficient position or an off-by-one in the bound is missed unless a test happens to put exactly that value at that position.", "anchors": ["mlkem/kem.c:check_pk", "mlkem/kem.c:crypto_kem_enc_derand"]}
{"id": "C05", "title": "Secret-key hash check is exact", "statement": "crypto_kem_dec returns -1 if and only if the 32 bytes stored at offset 768k+32 differ from SHA3-256 of the embedded public key (FIPS 203 section 7.3); otherwise it returns 0.", "quantifier": "all byte strings of secret-key length, all ciphertexts, for each of ML-KEM-512, -768 and -1024 (MLKEM_K = 2, 3, 4)", "why_tests_cant": "The check must react to a change in any of the public-key or hash bytes.", "anchors": ["mlkem/kem.c:check_sk", "mlkem/kem.c:crypto_kem_dec"]}
{"id": "C06", "title": "Rejected calls write nothing", "statement": "Whenever crypto_kem_enc_derand or crypto_kem_dec returns -1, every output buffer (ct, ss) has exactly the contents it had before the call.", "quantifier": "all inputs on which -1 is returned, all previous buffer contents, for each of ML-KEM-512, -768 and -1024 (MLKEM_K = 2, 3, 4)", "why_tests_cant": "The absence of a write on every rejecting input cannot be sampled. (The header comment of crypto_kem_dec promises a pseudo-random ss on failure; for the -1 path the code does not do that - see DESIGN.md.)", "anchors": ["mlkem/kem.c:crypto_kem_enc_derand", "mlkem/kem.c:crypto_kem_dec", "mlkem/kem.h:crypto_kem_dec"]}
{"id": "C07", "title": "Generated keys are always accepted", "statement": "For every seed, the pk produced by crypto_kem_keypair_derand is accepted by crypto_kem_enc_derand and the sk is accepted by crypto_kem_dec on every ciphertext; sk consists of the encoded secret vector, then pk, then SHA3-256(pk), then z.", "quantifier": "all 64-byte coins, all ciphertexts, for each of ML-KEM-512, -768 and -1024 (MLKEM_K = 2, 3, 4)", "why_tests_cant": "Would fail only on the rare seed producing a non-canonical coefficient.", "anchors": ["mlkem/kem.c:crypto_kem_keypair_derand", "mlkem/kem.c:check_pk", "mlkem/kem.c:check_sk"]}
{"id": "C08", "title": "Round trip: decapsulation recovers the encapsulated key", "statement": "For every seed and every message: after keygen and encapsulation, decapsulation returns the same 32-byte shared secret whenever the decryption noise polynomial w = e.y + e2 + c_v - s.(e1 + c_u) (a function of the seed and message) has all coefficients between -832 and 831 modulo q; so the only way honest parties disagree is the documented decryption-failure event.", "quantifier": "all seeds d, z, all messages m with small noise, for each of ML-KEM-512, -768 and -1024 (MLKEM_K = 2, 3, 4)", "why_tests_cant": "Decryption failures have probability below 2^-138; tests can neither find them nor show nothing else breaks agreement.", "anchors": ["mlkem/kem.c", "mlkem/indcpa.c:indcpa_enc", "mlkem/indcpa.c:indcpa_dec"]}
{"id": "C09", "title": "Implicit rejection is all-or-nothing and exact", "statement": "On every accepted secret key decapsulation re-encrypts the decrypted m'. If this gives back the ciphertext byte for byte it returns K' = first half of G(m'||h); in every other case it returns SHAKE256(z||ct, 32). No mixture of the two ever appears and the return code is 0 in both cases.", "quantifier": "all ciphertexts, all secret keys passing the hash check, for each of ML-KEM-512, -768 and -1024 (MLKEM_K = 2, 3, 4)", "why_tests_cant": "Requires that a difference in any single ciphertext bit position triggers rejection, for all 2^8704 ciphertexts.", "anchors": ["mlkem/kem.c:crypto_kem_dec", "mlkem/verify.h:ct_memcmp", "mlkem/verify.h:ct_cmov_zero"]}
{"id": "C10", "title": "Memory safety of the KEM API", "statement": "Called with buffers of the sizes announced in api.h, the key generation, encapsulation and decapsulation entry points never read or write outside any object, including all internal stack buffers.", "quantifier": "all buffer contents, all execution paths including repeated rejection-sampling refills, for each of ML-KEM-512, -768 and -1024 (MLKEM_K = 2, 3, 4)", "why_tests_cant": "A sanitizer run only sees the paths and indices it executes.", "anchors": ["mlkem/kem.c", "mlkem/indcpa.c", "mlkem/poly.c", "mlkem/polyvec.c", "fips202/fips202.c", "fips202/fips202x4.c"]}
{"id": "C11", "title": "No use of uninitialised memory", "statement": "No entry point reads a byte, coefficient or state word before it has been written; in particular results never depend on previous contents of output buffers or of stack objects.", "quantifier": "all inputs, all previous memory contents, for each of ML-KEM-512, -768 and -1024 (MLKEM_K = 2, 3, 4)", "why_tests_cant": "Uninitialised reads often give the right answer by luck in tests.", "anchors": ["mlkem/indcpa.c", "mlkem/kem.c", "fips202/fips202.c"]}
{"id": "C12", "title": "No undefined or lossy integer arithmetic, and no debug assertion fires", "statement": "In every call of the entry points no signed addition, subtraction, multiplication or shift overflows, nothing is divided by zero, no narrowing conversion to int16_t loses information except the documented modular casts, and none of the POLY_BOUND / SCALAR_BOUND / BOUND debug checks in the code can fail.", "quantifier": "all inputs of the entry points, for each of ML-KEM-512, -768 and -1024 (MLKEM_K = 2, 3, 4)", "why_tests_cant": "Coefficient growth across NTT layers reaches its extremes only on adversarial inputs with negligible probability under random testing.", "anchors": ["mlkem/reduce.c", "mlkem/ntt.c", "mlkem/poly.c", "mlkem/polyvec.c", "mlkem/debug/debug.h"]}
{"id": "C13", "title": "Encapsulation is secret-independent", "statement": "The sequence of branch outcomes, memory addresses accessed and operands of divisions and remainders (other than divisions by a literal power of two) in crypto_kem_enc_derand depends only on the public key, never on the coins (and hence not on the shared secret).", "quantifier": "all pairs of 32-byte coins for the same public key, for each of ML-KEM-512, -768 and -1024 (MLKEM_K = 2, 3, 4)", "why_tests_cant": "Constant-time behaviour is a property of pairs of executions over all secrets; timing tests are statistical.", "anchors": ["mlkem/kem.c:crypto_kem_enc_derand", "mlkem/indcpa.c:indcpa_enc", "mlkem/verify.h"]}
{"id": "C14", "title": "Decapsulation is secret-independent", "statement": "The sequence of branch outcomes, memory addresses accessed and operands of divisions and remainders (other than divisions by a literal power of two) in crypto_kem_dec depends only on the embedded public key and its stored hash, not on the secret vector, not on z, not on the ciphertext, and in particular not on whether the ciphertext was valid.", "quantifier": "all pairs of secret keys agreeing on the public part, all pairs of ciphertexts, for each of ML-KEM-512, -768 and -1024 (MLKEM_K = 2, 3, 4)", "why_tests_cant": "As for C13; a validity-dependent branch would break IND-CCA security yet pass all functional tests.", "anchors": ["mlkem/kem.c:crypto_kem_dec", "mlkem/verify.h:ct_memcmp", "mlkem/verify.h:ct_cmov_zero", "mlkem/poly.c:poly_tomsg"]}
{"id": "C15", "title": "Key generation is secret-independent", "statement": "The sequence of branch outcomes, memory addresses accessed and operands of divisions and remainders (other than divisions by a literal power of two) in crypto_kem_keypair_derand depends only on the public matrix seed rho = first half of SHA3-512(d||k) (part of the public key); two seeds with equal rho give equal traces, whatever z and the noise seed.", "quantifier": "all pairs of coins with the same public matrix seed, for each of ML-KEM-512, -768 and -1024 (MLKEM_K = 2, 3, 4)", "why_tests_cant": "As for C13.", "anchors": ["mlkem/kem.c:crypto_kem_keypair_derand", "mlkem/indcpa.c:indcpa_keypair_derand", "mlkem/cbd.c"]}
{"id": "C16", "title": "Randomised API is the deterministic API on fresh random bytes", "statement": "crypto_kem_keypair and crypto_kem_enc request exactly 64 respectively 32 bytes from randombytes in one call and then behave exactly like the _derand variant on those bytes (same return code for enc, same outputs).", "quantifier": "all byte streams delivered by randombytes, all public keys, for each of ML-KEM-512, -768 and -1024 (MLKEM_K = 2, 3, 4)", "why_tests_cant": "The random source is not under test control in production.", "anchors": ["mlkem/kem.c:crypto_kem_keypair", "mlkem/kem.c:crypto_kem_enc", "mlkem/randombytes.h"]}
{"id": "C17", "title": "Polynomial serialisation is a bijection onto canonical encodings", "statement": "Serialising 256 coefficients in [0,q) and deserialising gives them back; deserialising any 384 bytes gives 256 values below 4096 whose 12-bit little-endian packing is the input; hence the encoded key vectors are unique.", "quantifier": "all polynomials with canonical coefficients and all 384-byte strings", "why_tests_cant": "Domain of size 3329^256.", "anchors": ["mlkem/poly.c:poly_tobytes", "mlkem/poly.c:poly_frombytes"]}
{"id": "C18", "title": "Ciphertext compression is exactly FIPS 203 Compress/Decompress, with bounded error", "statement": "For d in {1,4,5,10,11} the scalar compression of every u in [0,q) equals round(2^d u / q) mod 2^d computed in exact arithmetic, decompression of every y < 2^d equals round(q y / 2^d), compressing a decompressed value returns it, and decompressing a compressed value moves a coefficient by at most round(q/2^(d+1)) modulo q.", "quantifier": "all coefficients, all compressed values, all five d", "why_tests_cant": "The multiply-shift constants are correct only if no coefficient lands on the wrong side of a rounding boundary.", "anchors": ["mlkem/poly.h:scalar_compress_d1", "mlkem/poly.h:scalar_compress_d4", "mlkem/poly.h:scalar_compress_d5", "mlkem/poly.h:scalar_compress_d10", "mlkem/poly.h:scalar_compress_d11"]}
{"id": "C19", "title": "Compressed serialisation round trip", "statement": "poly_decompress_du/dv of any byte string followed by poly_compress_du/dv reproduces the byte string, so a ciphertext is determined by its decoded polynomials and no two ciphertexts decode alike.", "quantifier": "all byte strings of the compressed lengths, for each of ML-KEM-512, -768 and -1024 (MLKEM_K = 2, 3, 4)", "why_tests_cant": "2^2816 strings.", "anchors": ["mlkem/poly.c:poly_compress_du", "mlkem/poly.c:poly_decompress_du", "mlkem/poly.c:poly_compress_dv", "mlkem/poly.c:poly_decompress_dv"]}
{"id": "C20", "title": "The forward NTT is the FIPS 203 transform", "statement": "For every polynomial with coefficients of absolute value below q, poly_ntt computes, coefficient by coefficient modulo q, the 128 residues f mod (X^2 - 17^(2 BitRev7(i)+1)), in the FIPS 203 order, and every output is below 8q in absolute value.", "quantifier": "all 256-coefficient inputs in range", "why_tests_cant": "6657^256 inputs; intermediate overflow depends on worst-case growth.", "anchors": ["mlkem/ntt.c:poly_ntt", "mlkem/ntt.c:ntt_layer", "mlkem/zetas.c:zetas"]}
{"id": "C21", "title": "The inverse NTT inverts the forward NTT", "statement": "For every array of 256 int16_t values, poly_invntt_tomont computes 2^16 times the inverse of the FIPS 203 transform modulo q with all outputs below 3q/4 in absolute value; composed with poly_ntt it multiplies every coefficient by 2^16 modulo q.", "quantifier": "all 256-coefficient arrays of int16_t values", "why_tests_cant": "65536^256 inputs.", "anchors": ["mlkem/ntt.c:poly_invntt_tomont", "mlkem/ntt.c:invntt_layer"]}
{"id": "C22", "title": "NTT-domain multiplication is multiplication in Z_q[X]/(X^256+1)", "statement": "Transforming two polynomials (or two vectors), multiplying with the cached base multiplication, and transforming back yields the product (inner product) in Z_q[X]/(X^256+1), coefficient by coefficient modulo q.", "quantifier": "all polynomials/vectors with coefficients in the documented ranges", "why_tests_cant": "Quadratically many interactions between coefficients over an enormous domain.", "anchors": ["mlkem/poly.c:poly_basemul_montgomery_cached", "mlkem/ntt.c:basemul_cached", "mlkem/polyvec.c:polyvec_basemul_acc_montgomery_cached", "mlkem/poly.c:poly_mulcache_compute"]}
{"id": "C23", "title": "Modular reductions are exact", "statement": "barrett_reduce of every int16_t is the unique congruent value in [-(q-1)/2,(q-1)/2]; montgomery_reduce of every a with |a| < 2q*2^15 is congruent to a*2^-16 mod q with |result| < 3(q+1)/2; fqmul(a,b) for every int16_t a and |b| <= (q-1)/2 is congruent to ab*2^-16 with |result| < q; poly_reduce maps every int16_t coefficient to its canonical representative in [0,q).", "quantifier": "all int16_t / int32_t arguments in the stated ranges", "why_tests_cant": "Exhaustive for one argument, not for pairs or arrays.", "anchors": ["mlkem/reduce.c:barrett_reduce", "mlkem/reduce.c:montgomery_reduce", "mlkem/reduce.c:fqmul", "mlkem/poly.c:poly_reduce"]}
{"id": "C24", "title": "Noise sampling is FIPS 203 SamplePolyCBD", "statement": "For eta in {2,3} and every input buffer, each of the 256 sampled coefficients equals (sum of eta bits) - (sum of the next eta bits) of the corresponding bits of the buffer; coefficients lie in [-eta, eta], and over uniformly random buffers every coefficient follows the centered binomial distribution exactly.", "quantifier": "all 64*eta-byte buffers, all coefficient positions", "why_tests_cant": "The masked parallel bit counting must be right for each of 2^1536 buffers.", "anchors": ["mlkem/cbd.c:cbd2", "mlkem/cbd.c:cbd3", "mlkem/poly.c:poly_getnoise_eta1_4x", "mlkem/poly.c:poly_getnoise_eta2"]}
{"id": "C25", "title": "Uniform sampling is FIPS 203 SampleNTT, independent of buffering", "statement": "Each matrix entry consists of the first 256 12-bit values below q, in order, of the SHAKE128 stream of seed||j||i, no matter how the stream is cut into blocks (three blocks first, then one at a time), whether the entry is sampled alone or in a batch of four, and however many refills are needed. If the bytes of a buffer are uniformly random, every polynomial is equally likely to be the result.", "quantifier": "all 32-byte seeds, all entries, all streams, any number of refills, all buffer sizes whose end the 32-bit counters of the sampler can represent (length + 3 < 2^32), all pairs of polynomials", "why_tests_cant": "Refills beyond the initial three blocks occur with probability about 0.8% per entry and multiple refills essentially never in tests.", "anchors": ["mlkem/rej_uniform.c:rej_uniform", "mlkem/indcpa.c:gen_matrix_entry", "mlkem/indcpa.c:gen_matrix_entry_x4", "mlkem/indcpa.c:gen_matrix"]}
{"id": "C26", "title": "SHA3-256, SHA3-512 and SHAKE256 equal FIPS 202", "statement": "sha3_256, sha3_512 and shake256 return the FIPS 202 digest for every message and every output length.", "quantifier": "all messages of every length (below the size_t limit) and all output lengths", "why_tests_cant": "Padding and block-boundary cases for unboundedly many lengths.", "anchors": ["fips202/fips202.c:sha3_256", "fips202/fips202.c:sha3_512", "fips202/fips202.c:shake256", "fips202/keccakf1600.c:KeccakF1600_StatePermute"]}
{"id": "C27", "title": "Incremental SHAKE256 is chunking-independent", "statement": "Absorbing any sequence of chunks and squeezing any sequence of lengths with the incremental API yields the same bytes as one-shot SHAKE256 on the concatenation.", "quantifier": "all chunkings of all messages, all sequences of output lengths", "why_tests_cant": "Unboundedly many histories of calls.", "anchors": ["fips202/fips202.c:keccak_inc_absorb", "fips202/fips202.c:keccak_inc_finalize", "fips202/fips202.c:keccak_inc_squeeze"]}
{"id": "C28", "title": "Four-way batched SHAKE equals four single SHAKEs", "statement": "shake256x4 and shake128x4_absorb/squeezeblocks produce in each of the four outputs exactly what the single-instance function produces from the corresponding input; no data crosses between the four instances.", "quantifier": "all quadruples of messages of equal length, all output lengths / block counts", "why_tests_cant": "Cross-lane contamination may need specific data.", "anchors": ["fips202/fips202x4.c:shake256x4", "fips202/fips202x4.c:shake128x4_absorb", "fips202/fips202x4.c:shake128x4_squeezeblocks"]}
{"id": "C29", "title": "Keccak-f[1600] equals the FIPS 202 permutation", "statement": "KeccakF1600_StatePermute applies to every 25-lane state exactly the composition of 24 rounds of theta, rho, pi, chi, iota as FIPS 202 defines them on bits, with the FIPS 202 round constants.", "quantifier": "all 2^1600 states", "why_tests_cant": "State space of size 2^1600.", "anchors": ["fips202/keccakf1600.c:KeccakF1600_StatePermute", "fips202/keccakf1600.c:KeccakF_RoundConstants"]}
{"id": "C30", "title": "Little-endian and portable Keccak byte access agree", "statement": "The little-endian fast path and the portable path of StateXORBytes and StateExtractBytes have the same effect on every state.", "quantifier": "all states, offsets and lengths within the state", "why_tests_cant": "A test platform has one endianness only.", "anchors": ["fips202/keccakf1600.c:KeccakF1600_StateXORBytes", "fips202/keccakf1600.c:KeccakF1600_StateExtractBytes"]}
{"id": "C31", "title": "Constant-time helpers are functionally right", "statement": "ct_memcmp returns 0 exactly when the two buffers are equal and 0xFF otherwise; ct_cmov_zero copies all bytes when the flag is 0 and none otherwise; ct_sel_int16, ct_sel_uint8 select by truth of the condition; ct_cmask_* return all-ones/zero masks.", "quantifier": "all lengths up to INT_MAX, all contents, all argument values", "why_tests_cant": "Unbounded lengths and all byte combinations.", "anchors": ["mlkem/verify.h:ct_memcmp", "mlkem/verify.h:ct_cmov_zero", "mlkem/verify.h:ct_sel_int16", "mlkem/verify.h:ct_sel_uint8"]}
{"id": "C32", "title": "Message encoding survives noise", "statement": "poly_tomsg(poly_frommsg(m) + w) = m for every message and every noise polynomial w with coefficients in [-832, 831] modulo q, and the bounds are tight.", "quantifier": "all 32-byte messages, all noise polynomials in range", "why_tests_cant": "The noise domain is astronomically large; the tight boundary is hit with negligible probability.", "anchors": ["mlkem/poly.c:poly_frommsg", "mlkem/poly.c:poly_tomsg"]}
{"id": "C33", "title": "Output lengths and layout", "statement": "On success the entry points write every byte of pk (384k+32), sk (768k+96), ct (32(du k + dv)) and ss (32) and nothing else; sizes are those in api.h and params.h.", "quantifier": "all inputs, for each of ML-KEM-512, -768 and -1024 (MLKEM_K = 2, 3, 4)", "why_tests_cant": "A missed byte would keep old contents which tests often pre-zero.", "anchors": ["mlkem/params.h", "mlkem/api.h", "mlkem/kem.c"]}
{"id": "C34", "title": "Accepted ciphertexts are exactly the honest encapsulations of the decrypted message", "statement": "If decapsulation under a generated key returns the non-rejection key then ct is byte-for-byte the ciphertext crypto_kem_enc_derand produces for some 32-byte coins under that public key; so modifying any bit of an honestly produced ciphertext either yields a ciphertext of the (different) decrypted message or the rejection key.", "quantifier": "all ciphertexts, all generated keys, for each of ML-KEM-512, -768 and -1024 (MLKEM_K = 2, 3, 4)", "why_tests_cant": "Universally quantified over adversarial ciphertexts.", "anchors": ["mlkem/kem.c:crypto_kem_dec", "mlkem/kem.c:crypto_kem_enc_derand"]}
{"id": "C35", "title": "Termination of the rejection sampling loop is the only open-endedness", "statement": "A call that is accepted returns, with a budget of n refills of the sampling buffer, if and only if the first 168(3+n) bytes of every SHAKE128 stream of the matrix contain 256 accepted candidates; otherwise it is still sampling when the budget ends. More budget never changes the result of a call that has returned. If the bytes of the stream are uniformly random, the first 504 bytes are not enough for one matrix entry with a probability between 0.83 % and 0.84 %, and n refills are not enough with a probability of at most 2^(57-151n), so the loop ends with probability one.", "quantifier": "all inputs, all budgets, for each of ML-KEM-512, -768 and -1024 (MLKEM_K = 2, 3, 4)", "why_tests_cant": "Non-termination cannot be observed by a test.", "anchors": ["mlkem/indcpa.c:gen_matrix_entry", "mlkem/indcpa.c:gen_matrix_entry_x4"]}
{"id": "C36", "title": "Hashing is constant time in the hashed bytes", "statement": "The branches taken and the memory offsets touched by sha3_256, sha3_512, shake256, the four-way shake256, the one-way and four-way SHAKE128 absorb/squeeze sequences and every sequence of incremental SHAKE256 absorbs and squeezes depend only on the requested lengths and offsets. Two calls with the same lengths and different contents, different states and different previous output bytes leave the same trace.", "quantifier": "all pairs of inputs, states and output buffers of equal shape, all lengths", "why_tests_cant": "It compares every pair of executions; timing tests sample pairs and depend on the machine.", "anchors": ["fips202/fips202.c: sha3_256, sha3_512, shake256, shake128_absorb, shake128_squeezeblocks", "fips202/fips202x4.c: shake256x4", "fips202/keccakf1600.c: KeccakF1600_StatePermute"]}
{"id": "C37", "title": "The AVX2 four-way Keccak permutation agrees with FIPS 202 and with the portable code", "statement": "On an x86_64 build the four-way Keccak permutation leaves in memory exactly the four FIPS 202 Keccak-f[1600] images of the four states, the same bytes as the portable C code, and it always returns normally.", "quantifier": "all four 1600-bit states", "why_tests_cant": "There are 2^6400 inputs; a lane mix-up or a wrong rotation in one of 24 unrolled rounds may show only on rare bit patterns of one lane.", "anchors": ["fips202/native/x86_64/xkcp/KeccakP-1600-times4-SIMD256.c: KeccakP1600times4_PermuteAll_24rounds", "fips202/native/x86_64/profiles/xkcp.h: keccak_f1600_x4_native"]}
{"id": "C38", "title": "The AVX2 rejection sampler accepts exactly the candidates the portable sampler accepts", "statement": "On an x86_64 build, sampling coefficients from a byte buffer returns the same number of coefficients and the same coefficients, in the same order, as the portable code; it never reads outside the buffer, never writes outside the 256 coefficients asked for, and always terminates. The same holds when the code is compiled with the BMI option, where the shuffle indices are computed with bit scatter and gather instructions.", "quantifier": "all byte buffers with length + 3 < 2^32, the range of the code's counters, all numbers of coefficients wanted and already sampled, all previous contents of the destination", "why_tests_cant": "The vector code goes through a 256-row shuffle table and three loops with different guards; a wrong row or guard shows only for particular acceptance patterns out of 2^32 per step.", "anchors": ["mlkem/native/x86_64/rej_uniform_avx2.c: rej_uniform_avx2", "mlkem/native/x86_64/profiles/default.h: rej_uniform_native", "mlkem/rej_uniform.c: rej_uniform"]}
{"id": "C39", "title": "The AVX2 forward NTT computes the FIPS 203 NTT", "statement": "On an x86_64 build the forward NTT of a polynomial with coefficients below q in absolute value returns normally, and its result is the FIPS 203 NTT modulo q in the coefficient order of that backend, with coefficients below 8q in absolute value; so it agrees modulo q with the portable transform. No vector register contents at the call matter and no 16-bit product or sum loses information.", "quantifier": "all polynomials with coefficients in (-q, q), all contents of the vector registers at the call", "why_tests_cant": "The assembly is unrolled into about 900 vector instructions whose 16-bit sums wrap silently; an overflow needs particular coefficients out of 6657^256 and would pass random tests.", "anchors": ["mlkem/native/x86_64/ntt.S: ntt_avx2", "mlkem/native/x86_64/consts.c: qdata", "mlkem/native/x86_64/profiles/default.h: ntt_native", "mlkem/ntt.c: poly_ntt"]}
{"id": "C40", "title": "The AVX2 inverse NTT inverts the NTT for all int16 inputs", "statement": "On an x86_64 build the inverse NTT of any polynomial of 16-bit coefficients in the order of that backend returns normally with 2^16 times the FIPS 203 inverse NTT modulo q, coefficients below 8q in absolute value, and composing it with the forward transform multiplies by 2^16.", "quantifier": "all polynomials of int16_t coefficients, all contents of the vector registers at the call", "why_tests_cant": "The input domain has 65536^256 elements and lazy reduction makes wrap-around depend on rare combinations.", "anchors": ["mlkem/native/x86_64/intt.S: invntt_avx2", "mlkem/native/x86_64/profiles/default.h: intt_native", "mlkem/ntt.c: poly_invntt_tomont"]}
{"id": "C41", "title": "The AVX2 inner product computes the inner product in the ring", "statement": "On an x86_64 build the accumulated product of two vectors in the NTT domain (first below q, second below 8q in absolute value) is 2^-16 times the FIPS 203 sum of products modulo q, below 8q in absolute value; together with the AVX2 transforms it gives the inner product over Z_q[X]/(X^256+1).", "quantifier": "all vectors in range for K = 2, 3, 4, all register contents, all previous contents of the output", "why_tests_cant": "Accumulating four unreduced products in 16-bit lanes is safe only by an exact bound over all inputs.", "anchors": ["mlkem/native/x86_64/basemul.S: basemul_avx2", "mlkem/native/x86_64/basemul.c: polyvec_basemul_acc_montgomery_cached_avx2", "mlkem/polyvec.c: polyvec_basemul_acc_montgomery_cached"]}
{"id": "C42", "title": "The AVX2 reduction, Montgomery conversion, serialisation and reordering agree with the portable ones", "statement": "On an x86_64 build, reducing and converting to Montgomery form return the same integers as the portable code; serialising a polynomial in the order of the backend gives the bytes the portable code gives for the polynomial in normal order and touches no other byte; deserialising any 384 bytes gives the same coefficients in the order of the backend; the reordering function is the permutation it claims to be.", "quantifier": "all polynomials in range, all 384-byte strings, all offsets, all register contents", "why_tests_cant": "The shuffles use chains of in-lane and cross-lane permutations; all 256 positions and all values must be right at once.", "anchors": ["mlkem/native/x86_64/fq.S: reduce_avx2, tomont_avx2", "mlkem/native/x86_64/shuffle.S: nttunpack_avx2, ntttobytes_avx2, nttfrombytes_avx2", "mlkem/poly.c: poly_reduce, poly_tomont, poly_tobytes, poly_frombytes"]}
{"id": "C43", "title": "An x86_64 build generates exactly the FIPS 203 key pair", "statement": "With the AVX2 code in place of the portable Keccak x4 permutation, rejection sampler and polynomial arithmetic, crypto_kem_keypair_derand returns 0 and delivers ML-KEM.KeyGen_internal of its coins.", "quantifier": "all 64-byte coins, K = 2, 3, 4, all sampling budgets, all previous contents of outputs and vector registers", "why_tests_cant": "Vector code keeps coefficients in another order and with other lazy-reduction bounds; only a proof over all inputs shows that these never leak into the keys.", "anchors": ["mlkem/kem.c: crypto_kem_keypair_derand", "mlkem/indcpa.c: indcpa_keypair_derand, gen_matrix", "mlkem/native/x86_64/profiles/default.h", "fips202/native/x86_64"]}
{"id": "C44", "title": "An x86_64 build encapsulates as FIPS 203 says and rejects exactly the malformed public keys", "statement": "crypto_kem_enc_derand of an x86_64 build delivers ML-KEM.Encaps_internal and 0 for every public key passing the modulus check; it returns -1 with the outputs untouched exactly for the keys with a coefficient not below q.", "quantifier": "all public keys, coins, previous contents of outputs and registers, K = 2, 3, 4", "why_tests_cant": "The rejected keys are a vanishing fraction of what tests draw and the vector deserialisation is separate code.", "anchors": ["mlkem/kem.c: crypto_kem_enc_derand, check_pk", "mlkem/indcpa.c: indcpa_enc", "mlkem/native/x86_64"]}
{"id": "C45", "title": "An x86_64 build decapsulates as FIPS 203 says, with the hash check and implicit rejection", "statement": "crypto_kem_dec of an x86_64 build delivers ML-KEM.Decaps_internal and 0 for every secret key with a right hash and every ciphertext; it returns -1 with the output untouched exactly for the other secret keys.", "quantifier": "all secret keys, all ciphertexts, all previous contents of the output and registers, K = 2, 3, 4", "why_tests_cant": "Adversarial ciphertexts are not sampled by tests; a difference on one of them is a decryption oracle.", "anchors": ["mlkem/kem.c: crypto_kem_dec, check_sk", "mlkem/indcpa.c: indcpa_dec", "mlkem/native/x86_64"]}
{"id": "C46", "title": "x86_64 and portable builds are interchangeable", "statement": "Every API call has the same outcome (return code, output objects, or exhaustion of the same sampling budget) on an x86_64 and on a portable build, including rejected inputs and outputs objects larger than needed; so keys, ciphertexts and secrets can be exchanged between builds.", "quantifier": "all inputs of the announced sizes, well-formed or not, all output objects large enough", "why_tests_cant": "Two independent implementations must agree on all inputs, including adversarial ones.", "anchors": ["mlkem/kem.c: crypto_kem_keypair_derand, crypto_kem_enc_derand, crypto_kem_dec", "mlkem/native/arith_native.h"]}
{"id": "C47", "title": "No undefined behaviour in an x86_64 build", "statement": "On an x86_64 build no API call with objects of the announced sizes accesses memory outside an object (vector loads and stores of the assembly included), reads uninitialised memory, overflows in C code, or violates a debug check.", "quantifier": "all inputs, budgets, previous contents of outputs and registers", "why_tests_cant": "Vector loads touch 32 bytes at a time; an over-read at the end of an object is invisible to functional tests.", "anchors": ["mlkem/native/x86_64", "fips202/native/x86_64", "mlkem/kem.c"]}
{"id": "C48", "title": "An x86_64 build is secret-independent", "statement": "On an x86_64 build with the AVX2 backend, the branch outcomes, the memory addresses accessed (each element of a vector load or store included) and the operands of divisions and remainders depend only on the public key for encapsulation, only on the embedded public key and its stored hash for decapsulation, and only on the public matrix seed for key generation.", "quantifier": "all pairs of coins, secret keys with the same public part, ciphertexts, seeds with the same public matrix seed; every K; every previous content of outputs and registers", "why_tests_cant": "Constant-time behaviour is a property of pairs of executions over all secrets; timing tests are statistical.", "anchors": ["mlkem/native/x86_64", "fips202/native/x86_64", "mlkem/kem.c:crypto_kem_dec", "mlkem/kem.c:crypto_kem_enc_derand", "mlkem/kem.c:crypto_kem_keypair_derand"]}
{"id": "C49", "title": "AArch64 NTT and inverse NTT are right", "statement": "On an AArch64 build, in either profile of the backend, the forward transform of every polynomial with coefficients below q in absolute value is the FIPS 203 NTT modulo q with outputs below 6q, and the inverse transform of every polynomial of int16_t is 2^16 times the inverse NTT with outputs below 8q; one undoes the other for any mixture of profiles.", "quantifier": "all polynomials in the stated ranges, all previous register contents, both profiles", "why_tests_cant": "Overflow in one of 896 butterflies happens only for rare combinations of coefficients; interleaved (software-pipelined) assembly has no per-step tests.", "anchors": ["mlkem/native/aarch64/ntt_clean.S", "mlkem/native/aarch64/ntt_opt.S", "mlkem/native/aarch64/intt_clean.S", "mlkem/native/aarch64/intt_opt.S", "mlkem/native/aarch64/aarch64_zetas.c"]}
{"id": "C50", "title": "AArch64 multiplication gives the inner product in the ring", "statement": "On an AArch64 build the accumulated product with the multiplication cache is the sum of FIPS 203 products of the two vectors (times 2^-16) with result below 8q, so transform, cache, product and inverse transform compute the inner product of two vectors in Z_q[X]/(X^256+1).", "quantifier": "all vectors of 2, 3 or 4 polynomials in the stated ranges, all previous contents of outputs and registers, both profiles", "why_tests_cant": "32-bit accumulators hold the sum of up to 8 products; an overflow needs extreme coefficients at the same place in all polynomials.", "anchors": ["mlkem/native/aarch64/polyvec_clean.S", "mlkem/native/aarch64/polyvec_opt.S", "mlkem/native/aarch64/poly_clean.S: poly_mulcache_compute_asm_clean", "mlkem/native/aarch64/poly_opt.S"]}
{"id": "C51", "title": "AArch64 reduction, Montgomery form and serialisation are right", "statement": "On an AArch64 build poly_reduce gives the representative in [0,q) of every int16_t, poly_tomont multiplies by 2^16 modulo q with result below q, poly_tobytes delivers the FIPS 203 encoding into its 384 bytes and touches nothing else.", "quantifier": "all int16_t coefficients; all polynomials in [0,q); all previous contents of outputs and registers; both profiles", "why_tests_cant": "A wrong rounding in a doubling-high multiply shows for single values of the 65536.", "anchors": ["mlkem/native/aarch64/poly_clean.S", "mlkem/native/aarch64/poly_opt.S"]}
{"id": "C52", "title": "AArch64 rejection sampling agrees with the standard", "statement": "On an AArch64 build the sampler returns the accepted 12-bit candidates in stream order, the count is right, entries beyond the target are untouched, and it agrees with the portable sampler, whatever its stack memory holds. The instructions of its vectorised part do so from any register contents.", "quantifier": "all byte strings with length + 3 < 2^32, all targets and offsets, all stack contents, all contents of registers and flags", "why_tests_cant": "The compaction uses a table indexed by an acceptance mask of eight candidates; a wrong row shows for one mask of 256, and overshoot only for particular counts.", "anchors": ["mlkem/native/aarch64/rej_uniform_asm_clean.S", "mlkem/rej_uniform.c: rej_uniform"]}
{"id": "C53", "title": "AArch64 assembly respects its caller", "statement": "Each arithmetic assembly function of the AArch64 backend, and its rejection sampler, returns with the stack pointer, general-purpose registers 18 to 30 and the low halves of vector registers 8 to 15 as it found them, uses no more than 64 bytes of stack (the rejection sampler: 576), and changes no memory but its output.", "quantifier": "all register contents and inputs in the stated ranges; both profiles", "why_tests_cant": "A clobbered callee-saved register corrupts the caller only if the compiler happened to keep a value there.", "anchors": ["mlkem/native/aarch64/*.S: push_stack, pop_stack"]}
{"id": "C54", "title": "An AArch64 build computes FIPS 203", "statement": "On an AArch64 build crypto_kem_keypair_derand, crypto_kem_enc_derand and crypto_kem_dec deliver exactly ML-KEM.KeyGen_internal, Encaps_internal and Decaps_internal and return 0; they return -1 with outputs untouched exactly for public keys with a coefficient ≥ q and for secret keys with a wrong hash.", "quantifier": "all coins, keys and ciphertexts of the right length, all previous contents of outputs, registers and stack, K = 2, 3, 4, both arithmetic profiles; every Keccak configuration of C59", "why_tests_cant": "The whole computation runs on a different implementation; all inputs, adversarial ones included, must agree with the standard.", "anchors": ["mlkem/kem.c: crypto_kem_keypair_derand, crypto_kem_enc_derand, crypto_kem_dec", "mlkem/native/aarch64", "fips202/native/aarch64/profiles/default.h", "fips202/native/aarch64/profiles/cortex_a55.h"]}
{"id": "C55", "title": "AArch64, x86_64 and portable builds are interchangeable", "statement": "Every API call has the same outcome on an AArch64 and on a portable build (return code, output objects, or exhaustion of the same sampling budget), so keys and ciphertexts made on any of the three kinds of build can be used on any other.", "quantifier": "all inputs of the announced sizes, well-formed or not, all output objects large enough; both arithmetic profiles; every Keccak configuration of C59", "why_tests_cant": "Independent implementations must agree on all inputs.", "anchors": ["mlkem/kem.c", "mlkem/native/arith_native.h", "mlkem/native/aarch64/profiles/clean.h", "mlkem/native/aarch64/profiles/opt.h", "fips202/native/aarch64/profiles/default.h", "fips202/native/aarch64/profiles/cortex_a55.h"]}
{"id": "C56", "title": "No undefined behaviour in an AArch64 build", "statement": "On an AArch64 build no API call with objects of the announced sizes accesses memory outside an object (loads and stores of the assembly and its stack frame included), reads uninitialised memory, overflows in C code, or violates a debug check.", "quantifier": "all inputs, budgets, previous contents of outputs and registers; both arithmetic profiles; every Keccak configuration of C59", "why_tests_cant": "An over-read at the end of an object by a post-increment load is invisible to functional tests.", "anchors": ["mlkem/native/aarch64", "mlkem/kem.c", "fips202/native/aarch64/profiles/default.h", "fips202/native/aarch64/profiles/cortex_a55.h"]}
{"id": "C57", "title": "An AArch64 build is secret-independent", "statement": "On an AArch64 build the branch outcomes, memory addresses accessed and operands of divisions and remainders depend only on the public key for encapsulation, only on the embedded public key and its stored hash for decapsulation, and only on the public matrix seed for key generation.", "quantifier": "all pairs of coins, secret keys with the same public part, ciphertexts, seeds with the same public matrix seed; every K; every previous content of outputs and registers; both arithmetic profiles; every Keccak configuration of C59", "why_tests_cant": "Constant-time behaviour is a property of pairs of executions over all secrets; timing tests are statistical.", "anchors": ["mlkem/native/aarch64", "mlkem/kem.c", "fips202/native/aarch64/profiles/default.h", "fips202/native/aarch64/profiles/cortex_a55.h"]}
{"id": "C58", "title": "AArch64 Keccak assembly computes the FIPS 202 permutation", "statement": "Each of the seven AArch64 Keccak assembly functions, given a pointer to the one, two or four states it permutes, returns with each of them replaced by Keccak-f[1600] of it, and with the memory before and after the states unchanged.", "quantifier": "all states, all surrounding memory (initialised or not), all register contents at entry", "why_tests_cant": "2^1600 states per way; lazily-rotated and software-pipelined code has paths and lanes whose errors random vectors need not show.", "anchors": ["fips202/native/aarch64/keccak_f1600_x1_scalar_asm_opt.S", "fips202/native/aarch64/keccak_f1600_x4_v8a_scalar_hybrid_asm_opt.S", "fips202/native/aarch64"]}
{"id": "C59", "title": "Every AArch64 configuration permutes like the portable code", "statement": "Whatever combination of SHA3 instructions, Apple target, slow barrel shifter, Cortex-A55 profile or no FIPS 202 backend an AArch64 build is configured for, its one-way and four-way Keccak permutations compute FIPS 202 Keccak-f[1600] on every state and leave memory exactly as the portable code does.", "quantifier": "all ten configurations, all states, all register contents", "why_tests_cant": "A test machine exercises one configuration; agreement must hold on all states.", "anchors": ["fips202/native/aarch64/profiles/default.h", "fips202/native/aarch64/profiles/cortex_a55.h", "fips202/keccakf1600.c: KeccakF1600_StatePermute, KeccakF1600x4_StatePermute"]}
{"id": "C60", "title": "AArch64 Keccak assembly respects its caller", "statement": "Each AArch64 Keccak assembly function returns with the stack pointer, the general-purpose registers x18-x30 and the low halves of the vector registers v8-v15 as they were at the call, and accesses no memory but the states, the round constants and its own stack frame, whose cells it reads only after writing them.", "quantifier": "all states, all register contents at entry", "why_tests_cant": "A clobbered callee-saved register shows only if the compiler happens to keep a live value in it.", "anchors": ["fips202/native/aarch64"]}
{"id": "C61", "title": "AArch64 Keccak assembly is constant-time", "statement": "The branches taken and the addresses accessed by each AArch64 Keccak assembly function, and by the permutations of every AArch64 configuration, do not depend on the states, on the surrounding memory, or on the register contents.", "quantifier": "all pairs of states, surrounding memories and register contents", "why_tests_cant": "A statement about pairs of executions over all secrets.", "anchors": ["fips202/native/aarch64", "fips202/keccakf1600.c"]}
{"id": "C62", "title": "Any backend that keeps the contract is a drop-in replacement", "statement": "If the functions a native profile supplies (Keccak permutations, rejection sampler, NTT, inverse NTT, reduction, Montgomery conversion, serialisation, multiplication cache and multiplication, optional reordering) do what the contract of the backend interface says (the sampler only has to for buffers and targets of at most 4096 and lengths divisible by three), then key generation, encapsulation and decapsulation of the resulting build compute FIPS 203, reject what it rejects, have the same outcome as the portable build on every input, and never access memory out of bounds, read uninitialised memory or overflow. The portable, AVX2 and AArch64 functions keep the contract; so do an arithmetic profile combined with any Keccak profile, and a function-by-function choice between two profiles with the same coefficient order.", "quantifier": "all backends that keep the contract, all combinations, all parameter sets, inputs and output objects", "why_tests_cant": "Ranges over all profiles a user can write or compose, which do not exist yet.", "anchors": ["mlkem/native/arith_native.h", "mlkem/native/profile.h", "fips202/native/fips202_native.h", "mlkem/kem.c"]}
{"id": "C63", "title": "Hash functions of native builds are FIPS 202", "statement": "On every backend that keeps the contract (hence in portable, AVX2 and AArch64 builds) sha3_256, sha3_512, shake256, incremental SHAKE256 with any chunking, shake128 absorb/squeeze and the four-way functions compute the FIPS 202 functions.", "quantifier": "all such backends, all messages, chunkings and output lengths", "why_tests_cant": "Unbounded message lengths and arbitrary chunkings, on every backend.", "anchors": ["fips202/fips202.c", "fips202/fips202x4.c", "fips202/keccakf1600.c", "fips202/native/fips202_native.h"]}
{"id": "C64", "title": "Constant time on any backend", "statement": "If the secret-handling functions of a backend take branches, access addresses and divide independently of the contents of their objects, then encapsulation, decapsulation and key generation of the build do so too: the observable trace is independent of coins, secret key, implicit-rejection secret, ciphertext and its validity. The hash functions (one-shot, incremental and four-way) of such a build return with a trace that is a function of the lengths alone. The portable, AVX2 and AArch64 functions satisfy the hypothesis, and so do combinations.", "quantifier": "all such backends, all pairs of secrets with the same public data, all messages, chunkings and output lengths", "why_tests_cant": "A statement about pairs of executions over all secrets and all backends.", "anchors": ["mlkem/kem.c", "mlkem/indcpa.c", "mlkem/native/arith_native.h", "fips202/native/fips202_native.h", "fips202/fips202.c", "fips202/fips202x4.c"]}
{"id": "C65", "title": "Randomised API on any backend", "statement": "In every build crypto_kem_keypair and crypto_kem_enc ask randombytes once, for 64 and 32 bytes, and do what the derandomised function of that build does on these bytes; given the same source of randomness in the same state, two builds deliver the same keys, ciphertexts and secrets and leave the source in the same state.", "quantifier": "all backends, all sources of randomness, all states of the source", "why_tests_cant": "Ranges over all randomness sources and all backends.", "anchors": ["mlkem/kem.c", "mlkem/randombytes.h"]}
{"id": "C66", "title": "Interoperability of any two builds", "statement": "Keys generated on one build, a ciphertext made on a second and decapsulation on a third fit together: both sides obtain the same shared secret under the noise condition of C08, generated keys are accepted everywhere, a secret other than the rejection value means the ciphertext is one that honest encapsulation on any build delivers, and any two builds agree on the result of every call, rejections included.", "quantifier": "all triples of backends that keep the contract, all parameter sets, seeds, keys, coins and ciphertexts", "why_tests_cant": "Ranges over all pairs and triples of builds and all keys, coins and ciphertexts.", "anchors": ["mlkem/kem.c", "mlkem/native/api.h", "mlkem/native/x86_64/meta.h", "mlkem/native/aarch64/meta.h"]}
{"id": "C67", "title": "The documented contracts of the arithmetic, packing and sampling functions hold", "statement": "For each function of the portable library that carries a contract in its header (value ranges required of the arguments, value ranges promised for the results, memory that may change), every call that meets the requirements ends without undefined behaviour and without a failing check, delivers results in the promised ranges, and changes nothing but the memory named. Where a debug check demands more than the contract, the difference is stated.", "quantifier": "all argument values within the documented ranges (every int16_t where none is given), all buffers, offsets and byte strings (for the sampler: all that its 32-bit counters can index), all parameter sets", "why_tests_cant": "The ranges are checked at their corners only by tests; a coefficient range of 256 int16_t values has 2^4096 elements.", "anchors": ["mlkem/ntt.h:poly_ntt", "mlkem/ntt.c:ntt_layer", "mlkem/poly.h", "mlkem/polyvec.h", "mlkem/reduce.h", "mlkem/cbd.h", "mlkem/rej_uniform.h", "mlkem/indcpa.h:gen_matrix", "mlkem/symmetric.h"]}
{"id": "C68", "title": "The generator behind the known-answer tests is AES-256 CTR_DRBG", "statement": "The block cipher shipped with the known-answer tests is AES of FIPS 197 with 128-, 192- and 256-bit keys, in ECB mode on any number of blocks and in CTR mode for any output length. The deterministic generator built on it delivers, after seeding with 48 bytes and for every sequence of requests of any lengths, the bytes of CTR_DRBG with AES-256 (SP 800-90A, no derivation function). The result never depends on what the stack held before.", "quantifier": "all keys, messages, nonces, lengths, seeds, personalisation strings, histories of requests, and all contents of uninitialised stack words", "why_tests_cant": "The cipher is bit-sliced, four blocks at a time, with a partial last group, and the generator is stateful; tests see a few keys, lengths and one sequence of requests.", "anchors": ["test/nistrng/aes.c:aes128_ecb", "test/nistrng/aes.c:aes256_ecb_keyexp", "test/nistrng/aes.c:aes_ctr", "test/nistrng/rng.c:nist_kat_init", "test/nistrng/rng.c:randombytes"]}
{"id": "C69", "title": "The known-answer generators print what the standards determine", "statement": "The two programs that produce the known-answer files print, byte for byte, the file determined by FIPS 203 together with AES-256 CTR_DRBG (NIST's format) or SHAKE256 (the project's own format): seeds, keys, ciphertexts and shared secrets in hexadecimal, for each parameter set and any number of cases. They exit with 0 unless in some case the two shared secrets differ, which they report with -4 (or -1) after that case; none of the other error exits can be taken. Nothing depends on uninitialised memory.", "quantifier": "all builds (portable, AVX2, AArch64 or any other backend that keeps the contract of C62), all parameter sets, all numbers of cases, all budgets of the rejection loop, all contents of uninitialised stack words, all previous states of the generator", "why_tests_cant": "A comparison of hashes of one finished file on one machine does not show that the file is the one the standards determine, nor that the error exits are unreachable.", "anchors": ["test/gen_NISTKAT.c:main", "test/gen_NISTKAT.c:randombytes_nth", "test/gen_KAT.c:main", "test/nistrng/rng.c:randombytes", "mlkem/kem.c:crypto_kem_keypair"]}
{"id": "C70", "title": "The ACVP program answers exactly the well-formed requests, with what FIPS 203 determines", "statement": "For every command line, the ACVP test program either prints exactly the ciphertext and shared secret, the shared secret, or the key pair that FIPS 203 determines for the bytes spelled in hexadecimal (upper or lower case) by its arguments and exits with 0, or, if the command line is not of a documented form (unknown word, missing argument, wrong number of digits, a character that is no digit), prints nothing and exits with 1. It never reads outside its argument strings. The one exception: if the key given does not pass the input check of FIPS 203 the program ignores the error code of the library and prints memory that was never written.", "quantifier": "all builds (portable, AVX2, AArch64 or any other backend that keeps the contract of C62), all parameter sets, all argument lists of any number and length, all budgets of the rejection loop", "why_tests_cant": "The vectors exercise well-formed requests only; the parser must be right for every string, and the missing check of the error code shows only for keys that no vector contains.", "anchors": ["test/acvp_mlkem.c:main", "test/acvp_mlkem.c:decode_hex", "test/acvp_mlkem.c:decode_hex_char", "test/acvp_mlkem.c:print_hex", "test/acvp_mlkem.c:acvp_mlkem_encapDecp_AFT_encapsulation", "test/acvp_mlkem.c:acvp_mlkem_encapDecp_VAL_decapsulation", "test/acvp_mlkem.c:acvp_mlkem_keyGen_AFT"]}
{"id": "C71", "title": "The test generator delivers one fixed stream of bytes, however it is asked", "statement": "The random bytes of the test programs (notrandombytes) form one fixed, infinite stream: after any number of calls that asked for n bytes in total, a call for m bytes returns the bytes n, n+1, ..., n+m-1 of the SURF stream for the fixed seed, writes nothing outside the m bytes given to it, and has no undefined behaviour. In particular asking once for a+b bytes or for a and then b bytes gives the same bytes.", "quantifier": "all histories of calls of any lengths, including past the point where the 32-bit counter words overflow, all destination buffers", "why_tests_cant": "A test sees one history; the carry between the counter words happens after 2^35 bytes at the earliest.", "anchors": ["test/notrandombytes/notrandombytes.c:surf", "test/notrandombytes/notrandombytes.c:randombytes"]}
{"id": "C72", "title": "The functional test program passes exactly when FIPS 203 says so", "statement": "For every source of random bytes, the functional test program ends without undefined behaviour; its exit code and what it prints are determined by FIPS 203 on the bytes drawn: the round-trip test fails exactly on a decryption failure, the test with an invalid public key never fails, the tests with a changed secret key or ciphertext fail exactly when FIPS 203 decapsulation of the changed input gives the same key, and the test with a replaced hash fails exactly when the random bytes are the hash. The program stops with 1 at the first round with a failure; otherwise it prints the sizes and exits with 0.", "quantifier": "all builds (portable, AVX2, AArch64 or any other backend that keeps the contract of C62), all parameter sets, all sources of randomness that deliver what they are asked for, any number of rounds, all representations of size_t, all budgets of the loops", "why_tests_cant": "This is a statement about the test itself: for which random bytes it raises an alarm.", "anchors": ["test/test_mlkem.c:main", "test/test_mlkem.c:test_keys", "test/test_mlkem.c:test_invalid_pk", "test/test_mlkem.c:test_invalid_sk_a", "test/test_mlkem.c:test_invalid_sk_b", "test/test_mlkem.c:test_invalid_ciphertext"]}
{"id": "C73", "title": "Decapsulation failures are rare, whatever the public matrix and the message", "statement": "Fix any public matrix and any message. Of all byte strings from which the noise of a key generation and an encryption can be made, at most one in 2^80 (ML-KEM-512), 2^90 (ML-KEM-768), 2^111 (ML-KEM-1024) makes decryption of the honest ciphertext return another message; some do. In the code, whose noise bytes are PRF outputs, decryption returns the message exactly if these bytes are not among the failing ones, and then decapsulation returns the encapsulated key.", "quantifier": "all parameter sets, all matrices, all messages, all noise bytes; for the code: all seeds, messages and output buffers", "why_tests_cant": "An event of probability below 2^-80 is never met in a test; only counting over all noise bytes shows that it is that rare.", "anchors": ["mlkem/indcpa.c:indcpa_keypair_derand", "mlkem/indcpa.c:indcpa_enc", "mlkem/indcpa.c:indcpa_dec", "mlkem/cbd.c", "mlkem/kem.c:crypto_kem_dec"]}
{"id": "C74", "title": "A shared secret belongs to one public key and one ciphertext, up to hash collisions", "statement": "If two encapsulations return the same shared secret, they used the same public key and message, or two strings computed from the inputs are a collision of SHA3-256 or of the first half of SHA3-512. If two decapsulations return 0 and the same shared secret, public keys and ciphertexts agree, or both rejected the same ciphertext with the same rejection seed z, or two strings computed from the inputs are a collision of SHA3-256, of the first half of SHA3-512, of SHAKE256, or between the last two. In particular, under one secret key two different ciphertexts never have the same shared secret without such a collision.", "quantifier": "all parameter sets, all public keys, secret keys (also malformed ones that are accepted), messages, ciphertexts", "why_tests_cant": "The statement is about all pairs of runs, including keys chosen by an attacker.", "anchors": ["mlkem/kem.c:crypto_kem_enc_derand", "mlkem/kem.c:crypto_kem_dec"]}
{"id": "C75", "title": "The benchmark program reports the order statistics of what it measured, if nothing took too long", "statement": "Linked with any source of randomness, any cycle counter and any C library, the benchmark program is free of undefined behaviour and ends with exit code 0. If in one of its rounds decapsulation does not give the key of the encapsulation, it prints ERROR keys and nothing else, and the exit code is still 0. If all rounds agree and, in each of the three series, the measured times differ by less than 2^31 cycles, it prints the exact medians and the listed percentiles of the measurements, divided by the number of calls per measurement. The condition is needed: measurements that differ by more than 2^31 and less than 2^32 cycles are sorted in the wrong order by every qsort.", "quantifier": "all parameter sets, sources of randomness, counter readings, qsort implementations that do what the C standard says, numbers of rounds, of warm-up calls and of measured calls; every backend that keeps the contract (C62)", "why_tests_cant": "The outcome depends on times and random bytes; the failure needs a measurement that is slow by a particular amount, and the C standard leaves the algorithm of qsort open.", "anchors": ["test/bench_mlkem.c:main", "test/bench_mlkem.c:bench", "test/bench_mlkem.c:cmp_uint64_t", "test/bench_mlkem.c:print_percentiles"]}
{"id": "C76", "title": "The constant tables are what the generator script computes, and the generator prepares every constant correctly", "statement": "The tables of roots of unity in the sources (portable code, AArch64, AVX2) are number by number the lists that scripts/autogenerate_files.py computes. For every integer constant, the pair the script prepares for Barrett multiplication is the representative of least absolute value with a multiplier whose double is within 1 of its multiple with 2^16/q, and the pair it prepares for Montgomery multiplication is a representative of the constant times 2^16 with that times the inverse of q modulo 2^16 as a signed 16-bit number. The portable table holds, at each index, the power of 17 with the bit-reversed index as exponent times 2^16, in absolute value at most 1664.", "quantifier": "all entries of all generated tables; all integer constants for the two preparations", "why_tests_cant": "Test vectors exercise sums of many table entries and do not pin down each number; the helper functions of the script are used on a few constants only.", "anchors": ["scripts/autogenerate_files.py:gen_c_zetas", "scripts/autogenerate_files.py:prepare_root_for_barrett", "scripts/autogenerate_files.py:prepare_root_for_montmul", "scripts/autogenerate_files.py:gen_avx2_fwd_ntt_zetas", "mlkem/zetas.c", "mlkem/native/aarch64/aarch64_zetas.c", "mlkem/native/x86_64/x86_64_zetas.i"]}
{"id": "C77", "title": "The claims of the bounds script hold for all integers, with one constant corrected", "statement": "test/test_bounds.py checks, on samples or with long loops, claims on modular multiplication that the assembly relies on. For all integers: Barrett multiplication equals Montgomery multiplication by the even representative; both give the product (Montgomery: divided by 2^16) modulo q; the result of Barrett multiplication is below 0.0508 |a| + q/2 in absolute value for non-zero a; so after any number of layers of butterflies the coefficients keep the bound the script computes, and after seven layers they are below 5.5 q. For Montgomery multiplication the script computes the progression with the factor 0.0204, which is not a bound for a constant of the table of the library; with 0.0254, the factor in the comments of reduce.c, it is, and seven layers stay below 5 q.", "quantifier": "all integers a and b; all sequences of butterfly layers, of any length and over any index set, with any constants (Montgomery: of absolute value at most q/2)", "why_tests_cant": "The script tests the claims on random samples or on 16-bit numbers and reduced constants only, and the factor 0.0204 not at all.", "anchors": ["test/test_bounds.py:barmul_test", "test/test_bounds.py:bar_bound_test", "test/test_bounds.py:ntt_layer_bound", "test/test_bounds.py:montmul_ntt_layer_bound", "mlkem/reduce.c:fqmul", "mlkem/ntt.c:zetas"]}
{"id": "C78", "title": "The debug checks exit exactly when a bound is violated, report every violation, and never write outside their message buffer", "statement": "With MLKEM_DEBUG, checking an array against bounds prints one line per value that is not strictly between the bounds, in order, with file, line, index, value and bounds, and exits if and only if there is such a value. Checking a vector of polynomials reports the first polynomial with a violation and exits there. A scalar assertion prints and exits if and only if the value is zero. However long the description is, the message is cut at 255 characters and nothing is written outside the 256-byte buffer, and no character is read that was not written. The checks in the model of the library stop the model exactly where these functions exit.", "quantifier": "all files, lines, descriptions of any length, arrays of any length, bounds, earlier contents of the buffer and of standard error; vectors of any size", "why_tests_cant": "A correct library never fails a check, so the failing paths are not exercised by its tests, and long descriptions do not occur.", "anchors": ["mlkem/debug/debug.c:mlkem_debug_check_bounds", "mlkem/debug/debug.c:mlkem_debug_assert", "mlkem/debug/debug.c:mlkem_debug_print_error", "mlkem/debug/debug.h:POLYVEC_BOUND", "mlkem/debug/debug.h:SCALAR_BOUND"]}
{"id": "C79", "title": "The code computes the algorithms of FIPS 203 as they are printed", "statement": "Algorithms 3 to 18 of FIPS 203, with the loops, in-place updates and running counters of the printed text (bit conversion, byte encoding and decoding, rejection sampling, binomial sampling, the transform, its inverse and the product, K-PKE and ML-KEM), compute the same functions as the formulas that the other properties are stated with, so key generation, encapsulation and decapsulation leave in their output objects exactly what Algorithms 16, 17 and 18 as printed return, and the input checks of Sections 7.2 and 7.3 as printed are the ones the code makes. The forward and the inverse transform of the library compute Algorithms 9 and 10 as printed, modulo q (and the factor 2^16 for the inverse).", "quantifier": "all parameter sets, seeds, keys, messages, ciphertexts, polynomials, byte strings, and numbers of turns of the rejection-sampling loop", "why_tests_cant": "Test vectors compare a few inputs; a reading of the standard into closed formulas could differ from the printed loops on other inputs.", "anchors": ["mlkem/kem.c:crypto_kem_keypair_derand", "mlkem/kem.c:crypto_kem_enc_derand", "mlkem/kem.c:crypto_kem_dec", "mlkem/ntt.c:poly_ntt", "mlkem/ntt.c:poly_invntt_tomont"]}
{"id": "C80", "title": "The test driver passes exactly if everything it is to run was run and came out right", "statement": "The commands func, nistkat, kat, acvp and all of scripts/tests start the builds and runs that their options ask for, in a fixed order, and nothing else. The exit status is 0 exactly if all of them were started, every build and every program returned 0, and every output was the right one (the sizes of FIPS 203; a text with the SHA-256 digest given in META.yml; for every test vector, lines that agree with the vector). If it is not 0, some command that was started went wrong. With the ACVP program of the repository, on any backend, acvp exits with 0 exactly if every vector of the files is what FIPS 203 gives; with the functional test program of the repository, func exits with 0 exactly if all rounds of its tests pass in terms of FIPS 203; with the known-answer programs of the repository, nistkat and kat exit with 0 exactly if the files that FIPS 203, the generator of SP 800-90A and SHAKE256 determine have the digests of META.yml.", "quantifier": "all options, all files of test vectors, all behaviours of the commands started, including behaviour that depends on what was run before, crashes, killed and missing programs and outputs that are not text; for the library, all backends that keep the contract", "why_tests_cant": "A driver that swallows a failure reports success on exactly the runs that matter; trying it on programs that pass says nothing about that.", "anchors": ["scripts/tests", "scripts/lib/mlkem_test.py:Tests.func", "scripts/lib/mlkem_test.py:Tests.nistkat", "scripts/lib/mlkem_test.py:Tests.kat", "scripts/lib/mlkem_test.py:Tests.acvp", "scripts/lib/mlkem_test.py:Tests.all", "scripts/lib/mlkem_test.py:Base.run_scheme", "scripts/lib/util.py:SCHEME", "META.yml"]}
{"id": "C81", "title": "The AVX2 assembly returns to its caller, leaves the caller's registers and stack alone, and accesses memory independently of data", "statement": "Each function of the AVX2 assembly (forward and inverse transform, reduction, Montgomery form, changes of order, serialisation, deserialisation, multiplication), with its general-purpose registers, its calls of inner functions and its stack: it returns to the address its caller left on the stack, with the stack pointer just above it; rbx, rbp and r12 to r15 are as they were; memory of the stack from the stack pointer upwards is as it was; it needs at most 64 bytes of stack below the stack pointer; of its arguments it changes only the first; which places of its arguments and of the stack it accesses does not depend on their contents or on the other registers; and the result is the one of C39 to C42.", "quantifier": "all contents of general-purpose and vector registers, all stack contents, all addresses of the stack, all alignments of the stack pointer (to 2 bytes), all return addresses, all inputs in the ranges of C39 to C42", "why_tests_cant": "Whether a clobbered register or stack slot matters depends on what the compiler keeps there at each call, and the place of the aligned slot depends on the stack pointer at the call.", "anchors": ["mlkem/native/x86_64/ntt.S:ntt_avx2", "mlkem/native/x86_64/intt.S:invntt_avx2", "mlkem/native/x86_64/basemul.S:basemul_avx2", "mlkem/native/x86_64/fq.S:reduce_avx2", "mlkem/native/x86_64/fq.S:tomont_avx2", "mlkem/native/x86_64/shuffle.S:nttunpack_avx2", "mlkem/native/x86_64/shuffle.S:ntttobytes_avx2", "mlkem/native/x86_64/shuffle.S:nttfrombytes_avx2"]}
{"id": "C82", "title": "An x86_64 build whose assembly runs instruction by instruction computes FIPS 203 and is constant-time", "statement": "With the AVX2 assembly run as instructions (general-purpose registers, inner calls, return addresses, stack) instead of vector operations with resolved addresses, crypto_kem_keypair_derand, crypto_kem_enc_derand and crypto_kem_dec deliver exactly ML-KEM.KeyGen_internal, Encaps_internal and Decaps_internal and return 0; they return -1 with outputs untouched exactly for public keys with a coefficient ≥ q and for secret keys with a wrong hash; branches and addresses, those in the stack frames of the assembly included, do not depend on secrets as in C13 to C15.", "quantifier": "all keys, coins, ciphertexts, parameter sets, contents of general-purpose and vector registers and of the stack at every call of the assembly", "why_tests_cant": "What the registers and the stack hold at a call of the assembly is decided by compiler and caller, and a run shows one case for one input.", "anchors": ["mlkem/native/x86_64/profiles/default.h", "mlkem/native/x86_64/basemul.S:basemul_avx2", "mlkem/native/x86_64/ntt.S:ntt_avx2", "mlkem/kem.c:crypto_kem_keypair_derand", "mlkem/kem.c:crypto_kem_enc_derand", "mlkem/kem.c:crypto_kem_dec"]}
{"id": "C83", "title": "An AArch64 build whose assembly all runs instruction by instruction computes FIPS 203 and is constant-time", "statement": "With the instructions of the rejection sampler in place of its transcription, so that all assembly of the build is run as instructions, crypto_kem_keypair_derand, crypto_kem_enc_derand and crypto_kem_dec deliver exactly ML-KEM.KeyGen_internal, Encaps_internal and Decaps_internal and return 0; they return -1 with outputs untouched exactly for public keys with a coefficient ≥ q and for secret keys with a wrong hash; branches and addresses do not depend on secrets as in C13 to C15.", "quantifier": "all keys, coins, ciphertexts, parameter sets, both arithmetic profiles, all Keccak profiles, all contents of registers, flags and stack at every call of the assembly", "why_tests_cant": "What the registers and the stack hold at a call of the assembly is decided by compiler and caller, and a run shows one case for one input.", "anchors": ["mlkem/native/aarch64/rej_uniform_asm_clean.S:rej_uniform_asm_clean", "mlkem/native/aarch64/profiles/clean.h:rej_uniform_native", "mlkem/native/aarch64/profiles/opt.h:rej_uniform_native", "mlkem/kem.c:crypto_kem_keypair_derand", "mlkem/kem.c:crypto_kem_enc_derand", "mlkem/kem.c:crypto_kem_dec"]}

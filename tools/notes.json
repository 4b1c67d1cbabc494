{
 "C08": "The failure event is stated exactly per run; C73 bounds how many noise bytes lead to it.",
 "C10": "Portable C build; C47 is the analogue for x86_64.",
 "C11": "Portable C build; C47 is the analogue for x86_64.",
 "C12": "Portable C build; C47 is the analogue for x86_64.",
 "C13": "Leakage model: element addresses, branch outcomes and operands of divisions and remainders (not by a literal power of two). C48 is the analogue for x86_64.",
 "C14": "Leakage model: element addresses, branch outcomes and operands of divisions and remainders (not by a literal power of two). C48 is the analogue for x86_64.",
 "C15": "Leakage model: element addresses, branch outcomes and operands of divisions and remainders (not by a literal power of two). C48 is the analogue for x86_64.",
 "C25": "Rejection sampling has a budget of refills, universally quantified.",
 "C26": "Message length + 200 < 2^64.",
 "C27": "Any sequence of absorb and squeeze calls, by induction over the history.",
 "C35": "Unconditional termination is a statement about SHAKE128 and not provable; the exact condition is proved, and how many byte strings of each length meet it.",
 "C36": "Leakage model: element addresses, branch outcomes and operands of divisions and remainders (not by a literal power of two). The C36_*_trace theorems speak of complete calls and sessions and their traces; the others are about the internal relation.",
 "C37": "Intrinsics modelled by their documented meaning.",
 "C38": "Intrinsics modelled by their documented meaning. C38_rej_uniform_bmi covers the BMI branches.",
 "C39": "Instruction semantics from Intel's manual; program generated from ntt.S.",
 "C40": "Instruction semantics from Intel's manual; program generated from intt.S.",
 "C41": "Instruction semantics from Intel's manual; program generated from basemul.S.",
 "C42": "Instruction semantics from Intel's manual; programs generated from fq.S and shuffle.S.",
 "C43": "For arbitrary contents of the vector registers at each call.",
 "C44": "For arbitrary contents of the vector registers at each call.",
 "C45": "For arbitrary contents of the vector registers at each call.",
 "C46": "Equality of outcomes call by call, errors and budget included.",
 "C47": "For arbitrary contents of the vector registers at each call.",
 "C48": "The two compared runs may find different contents in the vector registers at each call.",
 "C49": "For arbitrary register contents and both profiles.",
 "C50": "For arbitrary register contents and both profiles.",
 "C51": "For arbitrary register contents and both profiles; poly_frombytes has no AArch64 version at this commit.",
 "C52": "For arbitrary contents of the stack buffer. C52_instructions is about the program of instructions generated from the assembly file, C52_transcription relates it to the loop-level model that the theorems on whole AArch64 builds use; both for inputs below 2^32 bytes.",
 "C53": "The models have 64 bytes (the rejection sampler: 576 bytes) of stack below the stack pointer at the call; using more is an error outcome.",
 "C54": "For arbitrary register and stack contents at each call, both arithmetic profiles, every Keccak configuration (C59).",
 "C55": "Equality of outcomes call by call, errors and budget included.",
 "C56": "For arbitrary register and stack contents at each call.",
 "C57": "The two compared runs may find different contents in the registers and on the stack at each call.",
 "C58": "All seven functions, those no profile refers to included.",
 "C59": "The eight settings of default.h, cortex_a55.h, and no backend.",
 "C60": "Accesses outside the states, the constants and the frame, and reads of uninitialised cells of the frame, are error outcomes of the model; the theorem says the function returns.",
 "C61": "Accesses to the round constants and the stack are part of the trace.",
 "C62": "The contract is the structure Contract in Props/Backend.lean; C62_portable, C62_x86_64 and C62_aarch64 show that it is met.",
 "C63": "C62 gives the instances for the builds of the library.",
 "C64": "DataIndependent in Props/Backend.lean is the hypothesis; C64_backends shows that it is met. The hash functions are in Props/BackendHashTrace.lean.",
 "C65": "randombytes is a parameter, as in C16.",
 "C66": "Builds on arbitrary backends that keep the contract of C62 (all backends of the library do: C66_backends). The noise condition is that of C08.",
 "C67": "The contracts of kem.h are C06, C10 and C33, those of verify.h C31, those of fips202.h and fips202x4.h C26 to C28. C67_poly_basemul, C67_polyvec_basemul and C67_matvec_mul assume the ranges of the debug checks, which are narrower than the contracts; C67_cache_check shows that the difference is real.",
 "C68": "The contents of the uninitialised part of the stack are a parameter (stk); the theorems hold for all of them. malloc is assumed to succeed.",
 "C69": "The number of cases (100 and 1000 in the code) is a parameter. Messages on stderr are not modelled.",
 "C70": "C70_ignored_code states the exception: the program does not look at the return codes of the library. Messages on stderr are not modelled.",
 "C72": "NTESTS is a parameter; C72_as_built has 1000 and the generator of C71. Both loops without a bound (sampling, drawing a nonzero byte) have a budget.",
 "C73": "The count is over uniformly distributed noise bytes, for every fixed matrix; that PRF outputs behave like such bytes is a cryptographic assumption outside the model. FIPS 203 quotes smaller figures (2^-138.8, 2^-164.8, 2^-174.8) from a computation that treats the compression errors as independent uniform, which is a heuristic for a fixed matrix.",
 "C74": "Collisions are named explicitly, since collisions exist by counting. Two rejections with the same z and ciphertext have the same secret, whatever the public keys.",
 "C75": "NTESTS, NWARMUP and NITERATIONS are parameters (at least one round and one measured call). C75_benchmark is the text for measurements that differ by less than 2^31; C75_any_times is exit code and absence of undefined behaviour for all measurements, with a qsort that permutes its input; C75_comparator is what goes wrong beyond 2^31.",
 "C76": "Python's `/` is modelled exactly (see the header of Model/Scripts.lean); the lists of numbers are modelled, not the formatting of the files.",
 "C77": "C77_ntt_progression and C77_montgomery_progression are for any family of butterfly layers (IsLayer). C77_montgomery_factor shows that 0.0204, the factor in the script, is not a bound: fqmul(-295, -1602) = 1671.",
 "C78": "The text printed is specified in Spec/Debug.lean. C78_library connects the checks in the model of the library (Model/Params.lean) with these functions.",
 "C79": "Spec/Printed.lean is the printed text; loops are Lean for-loops over lists with mutable variables. The loop of SampleNTT, which has no bound in the standard, has a number of turns as a parameter; xofTurns relates it to the budget of the code. Concrete cases: the ACVP vectors in Props/Vectors2, 3, 4.",
 "C80": "A World gives the outcome of every command, given all that happened before. C80_single and C80_all are for every world with POSIX return codes; C80_acvp, C80_func, C80_nistkat and C80_kat put the programs of C70, C72 and C69 into it. Concrete cases with published vectors in Props/DriverVectors.lean and Props/VectorsKat.lean. Not modelled: the log, the GitHub summaries, the options that only change the make command, bench and cbmc, the parsing of JSON and YAML.",
 "C81": "Model/X86Gp.lean has the functions with the operands as written (base register and displacement); C81_transcription proves that they compute what the vector programs of Model/X86Asm.lean, whose addresses the generator works out, compute. Called functions are part of the call instruction; a return address stands for the line after the call. System V calling convention. The stack pointer at a call may have any even alignment.",
 "C82": "The build is Native.x86_64 with the assembly of Model/X86Gp.lean (Model/NativeGp.lean). The state of the machine at a call may depend on the function and on the polynomial it is called with; for the constant-time theorems the stack pointer may depend on the function only. The Keccak permutation and the rejection sampler of this build are C code with intrinsics and are as in C43 to C48. Fuel bounds the number of matrix-sampling blocks as in C01.",
 "C83": "The build is Native.aarch64 with the sampler of Model/A64RejAsm.lean (Model/NativeA64Gp.lean); the other assembly functions of Native.aarch64 are run as instructions already. The sampler works on the public matrix seed only, so that the constant-time theorems do not constrain its addresses. Fuel as in C01."
}
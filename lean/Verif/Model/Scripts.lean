import Verif.Model.Ntt
/-! # The scripts with arithmetic content

`/repo/scripts/autogenerate_files.py` computes the constant tables of the library, `/repo/test/test_bounds.py` checks claims about the modular arithmetic on samples.  Python's integers are `Int`.  Quotients
with `/` are floating-point numbers in Python; here they are exact fractions, given by numerator and denominator.  (For the arguments that occur the quotient is either an integer or at least `1/6658` away
from the numbers where rounding or comparing changes, much more than the error of a `double`.)  The formatting of the files is left out: the lists of numbers are modelled. -/
namespace Verif.Model.Scripts

/-- Python's `round(n / d)`: to the nearest integer, ties to the even one.  Meaning of Python. -/
def pyRound (n d : Int) : Int :=
  if 2 * (n % d) < d then n / d else if d < 2 * (n % d) then n / d + 1 else if n / d % 2 = 0 then n / d else n / d + 1

/-- Euclid's algorithm: the coefficient of the first number; first argument: a bound on the number of steps.  Meaning of Python (see `pyPow`). -/
def euclid : Nat → Int → Int → Int → Int → Int
  | 0, _, _, s, _ => s
  | f + 1, r, r', s, s' => if r' = 0 then s else euclid f r' (r - r / r' * r') s' (s - r / r' * s')

/-- Python's `pow(b, e, m)`; for a negative exponent the power of the inverse.  Meaning of Python. -/
def pyPow (b : Nat) (e : Int) (m : Nat) : Int :=
  if 0 ≤ e then ((b ^ e.toNat % m : Nat) : Int) else euclid m ((b ^ (-e).toNat % m : Nat) : Int) m 1 0 % m

/-! ## scripts/autogenerate_files.py -/

/-- `modulus`, autogenerate_files.py 9. -/
def modulus : Nat := 3329
/-- `root_of_unity`, autogenerate_files.py 10. -/
def root_of_unity : Nat := 17
/-- `montgomery_factor`, autogenerate_files.py 11. -/
def montgomery_factor : Int := pyPow 2 16 modulus

/-- `bitreverse`, autogenerate_files.py 59-64: the loop with `r`, `i` and `n` rounds to go. -/
def bitreverseFrom (r i : Nat) : Nat → Nat
  | 0 => r
  | n + 1 => bitreverseFrom (2 * r + (i &&& 1)) (i >>> 1) n
/-- `bitreverse`, autogenerate_files.py 59-64. -/
def bitreverse (i n : Nat) : Nat := bitreverseFrom 0 i n

/-- `signed_reduce`, autogenerate_files.py 67-72. -/
def signed_reduce (a : Int) : Int :=
  let c := a % modulus
  if modulus ≤ 2 * c then c - modulus else c

/-- `gen_c_zetas`, autogenerate_files.py 75-87. -/
def gen_c_zetas : List Int :=
  let zeta := (List.range 128).map fun i : Nat => signed_reduce (pyPow root_of_unity i modulus * montgomery_factor)
  (List.range 128).map fun i => zeta.getD (bitreverse i 7) 0

/-- `round_to_even`, autogenerate_files.py 115-123, of `n / d`. -/
def round_to_even (n d : Int) : Int :=
  let rt := pyRound n d
  if rt % 2 = 0 then rt else if rt * d ≤ n then rt + 1 else rt - 1

/-- `prepare_root_for_barrett`, autogenerate_files.py 107-126. -/
def prepare_root_for_barrett (root : Int) : Int × Int :=
  let root := signed_reduce root
  (root, round_to_even (root * 2 ^ 16) modulus / 2)

/-- `gen_aarch64_root_of_unity_for_block`, autogenerate_files.py 129-136, as the list of two numbers that the callers emit. -/
def gen_aarch64_root_of_unity_for_block (layer block : Nat) (inv : Bool) : List Int :=
  let log : Int := bitreverse (2 ^ layer + block) 7
  let log := if inv then -log else log
  let p := prepare_root_for_barrett (pyPow root_of_unity log modulus)
  [p.1, p.2]

/-- The roots of layers 0, 1 and 2 with padding, autogenerate_files.py 141-148 and 220-227. -/
def gen_aarch64_layers012 (inv : Bool) : List Int :=
  gen_aarch64_root_of_unity_for_block 0 0 inv ++ gen_aarch64_root_of_unity_for_block 1 0 inv ++ gen_aarch64_root_of_unity_for_block 1 1 inv ++
  gen_aarch64_root_of_unity_for_block 2 0 inv ++ gen_aarch64_root_of_unity_for_block 2 1 inv ++ gen_aarch64_root_of_unity_for_block 2 2 inv ++
  gen_aarch64_root_of_unity_for_block 2 3 inv ++ [0, 0]

/-- The roots of layers 3 and 4 with padding, autogenerate_files.py 152-156 and 213-217. -/
def gen_aarch64_layers34 (inv : Bool) : List Int :=
  (List.range 8).flatMap fun block => gen_aarch64_root_of_unity_for_block 3 block inv ++ gen_aarch64_root_of_unity_for_block 4 (2 * block + 0) inv ++
    gen_aarch64_root_of_unity_for_block 4 (2 * block + 1) inv ++ [0, 0]

/-- `gen_aarch64_fwd_ntt_zetas_layer01234`, autogenerate_files.py 139-156. -/
def gen_aarch64_fwd_ntt_zetas_layer01234 : List Int := gen_aarch64_layers012 false ++ gen_aarch64_layers34 false
/-- `gen_aarch64_inv_ntt_zetas_layer01234`, autogenerate_files.py 210-227. -/
def gen_aarch64_inv_ntt_zetas_layer01234 : List Int := gen_aarch64_layers34 true ++ gen_aarch64_layers012 true

/-- `double_ith`, autogenerate_files.py 164-165 and 235-236. -/
def double_ith (t : List Int) (i : Nat) : List Int := [t.getD i 0, t.getD i 0]

/-- `gen_aarch64_fwd_ntt_zetas_layer56`, autogenerate_files.py 159-207, and `gen_aarch64_inv_ntt_zetas_layer56`, 230-278: they differ in `inv` only. -/
def gen_aarch64_layers56 (inv : Bool) : List Int :=
  (List.range 8).flatMap fun block =>
    ((List.range 2).flatMap fun i => ([0, 1, 2, 3] : List Nat).flatMap fun j => double_ith (gen_aarch64_root_of_unity_for_block 5 (4 * block + j) inv) i) ++
    ((List.range 2).flatMap fun i => ([0, 2, 4, 6] : List Nat).flatMap fun j => double_ith (gen_aarch64_root_of_unity_for_block 6 (8 * block + j) inv) i) ++
    ((List.range 2).flatMap fun i => ([1, 3, 5, 7] : List Nat).flatMap fun j => double_ith (gen_aarch64_root_of_unity_for_block 6 (8 * block + j) inv) i)

/-- `gen_aarch64_mulcache_twiddles` (not twisted), autogenerate_files.py 281-285, and `gen_aarch64_mulcache_twiddles_twisted`, 288-292. -/
def gen_aarch64_mulcache (twisted : Bool) : List Int :=
  (List.range 64).flatMap fun idx =>
    let root := pyPow root_of_unity (bitreverse (64 + idx) 7) modulus
    let pick := fun p : Int × Int => if twisted then p.2 else p.1
    [pick (prepare_root_for_barrett root), pick (prepare_root_for_barrett (-root))]

/-- `signed_reduce_u16`, autogenerate_files.py 341-345. -/
def signed_reduce_u16 (x : Int) : Int :=
  let x := x % 2 ^ 16
  if 2 ^ 15 ≤ x then x - 2 ^ 16 else x

/-- `prepare_root_for_montmul`, autogenerate_files.py 348-357. -/
def prepare_root_for_montmul (root : Int) : Int × Int :=
  let root := signed_reduce (root * montgomery_factor)
  (root, signed_reduce_u16 (root * pyPow modulus (-1) (2 ^ 16)))

/-- `gen_avx2_root_of_unity_for_block`, autogenerate_files.py 360-367, with `inv=False`, its only use. -/
def gen_avx2_root_of_unity_for_block (layer block : Nat) : Int × Int :=
  prepare_root_for_montmul (pyPow root_of_unity (bitreverse (2 ^ layer + block) 7) modulus)

/-- `gen_twiddles_many`, autogenerate_files.py 378-385, with `gen_twiddles`, 372-376. -/
def gen_twiddles_many (layer block_base : Nat) (block_offsets : List Nat) (rep : Nat) : List Int :=
  (block_offsets.flatMap fun x => List.replicate rep (gen_avx2_root_of_unity_for_block layer (block_base + x)).2) ++
  (block_offsets.flatMap fun x => List.replicate rep (gen_avx2_root_of_unity_for_block layer (block_base + x)).1)

/-- `gen_avx2_fwd_ntt_zetas`, autogenerate_files.py 370-400. -/
def gen_avx2_fwd_ntt_zetas : List Int :=
  gen_twiddles_many 0 0 [0] 4 ++ List.replicate 8 0 ++
  (List.range 2).flatMap fun i =>
    gen_twiddles_many 1 (i * 2 ^ 0) (List.range 1) 16 ++ gen_twiddles_many 2 (i * 2 ^ 1) (List.range 2) 8 ++ gen_twiddles_many 3 (i * 2 ^ 2) (List.range 4) 4 ++
    gen_twiddles_many 4 (i * 2 ^ 3) (List.range 8) 2 ++ gen_twiddles_many 5 (i * 2 ^ 4) (List.range 16) 1 ++
    gen_twiddles_many 6 (i * 2 ^ 5) ((List.range 16).map (2 * ·)) 1 ++ gen_twiddles_many 6 (i * 2 ^ 5) ((List.range 16).map (2 * · + 1)) 1

/-! ## test/test_bounds.py -/

/-- `R`, test_bounds.py 14. -/
def R : Int := 2 ^ 16
/-- `Q`, test_bounds.py 15. -/
def Q : Int := 3329
/-- `Qinv`, test_bounds.py 16: `pow(-Q, -1, R)`, the inverse of `-Q` modulo `R`. -/
def Qinv : Int := euclid 65536 (-Q % R) R 1 0 % R

/-- `round_even`, test_bounds.py 23-24, of `n / d`. -/
def round_even (n d : Int) : Int := 2 * pyRound n (2 * d)
/-- `barrett_twiddle`, test_bounds.py 27-31. -/
def barrett_twiddle (b : Int) : Int := round_even (b * R) Q / 2
/-- `sqrdmulh_i16`, test_bounds.py 34-38. -/
def sqrdmulh_i16 (a b : Int) : Int := (2 * a * b + 2 ^ 15) / 2 ^ 16
/-- `barmul`, test_bounds.py 41-44. -/
def barmul (a b : Int) : Int := a * b - Q * sqrdmulh_i16 a (barrett_twiddle b)
/-- `lift_signed_i16`, test_bounds.py 52-57. -/
def lift_signed_i16 (x : Int) : Int :=
  let x := x % R
  if R / 2 ≤ x then x - R else x
/-- `montmul_neg_twiddle`, test_bounds.py 60-62. -/
def montmul_neg_twiddle (b : Int) : Int := b * Qinv % R
/-- `montmul_neg`, test_bounds.py 65-67. -/
def montmul_neg (a b : Int) : Int := (a * b + Q * lift_signed_i16 (a * montmul_neg_twiddle b)) / R
/-- `modq_even`, test_bounds.py 100-102. -/
def modq_even (a : Int) : Int := a - Q * round_even a Q
/-- `funciter`, test_bounds.py 161-165. -/
def funciter {α : Type} (f : α → α) : Nat → α → α
  | 0, x => x
  | n + 1, x => funciter f n (f x)
/-- `ntt_layer_bound_growth`, test_bounds.py 168-176. -/
def ntt_layer_bound_growth (factor C : Rat) : Rat := C + factor * C + 1 / 2
/-- `ntt_layer_bound`, test_bounds.py 179-182. -/
def ntt_layer_bound (factor : Rat) (layers : Nat) (initial : Rat) : Rat := funciter (ntt_layer_bound_growth factor) layers (initial / (Q : Rat))

end Verif.Model.Scripts

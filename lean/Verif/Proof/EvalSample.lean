import Verif.Proof.Eval
import Verif.Props.Budget
/-! # Rejection sampling that the kernel can run -/
namespace Verif.Eval
open Verif Model Spec Props

attribute [local irreducible] SHAKE256 SHA3_256 SHA3_512 SHAKE128

/-- The numbers below 3329 among the `c` lowest 12-bit digits of `n`. -/
def nacc : Nat → Nat → List Nat
  | 0, _ => []
  | c + 1, n => force (Nat.mod n 4096) fun x => bif Nat.blt x 3329 then x :: nacc c (Nat.div n 4096) else nacc c (Nat.div n 4096)

theorem nacc_succ (c n : Nat) : nacc (c + 1) n = if n % 4096 < 3329 then n % 4096 :: nacc c (n / 4096) else nacc c (n / 4096) := by
  rw [nacc, force_eq]
  show (bif Nat.blt (n % 4096) 3329 then _ else _) = _
  by_cases h : n % 4096 < 3329
  · rw [if_pos h, show Nat.blt (n % 4096) 3329 = true from by rw [Nat.blt_eq]; exact h]; rfl
  · rw [if_neg h, show Nat.blt (n % 4096) 3329 = false from Bool.eq_false_iff.2 fun h' => h (by rw [Nat.blt_eq] at h'; exact h')]; rfl

theorem accepted_eq_nacc (c : Nat) (L : List UInt8) (hL : L.length = 3 * c) : accepted L = nacc (2 * c) (leN L) := by
  induction c generalizing L with
  | zero =>
    have : L = [] := List.length_eq_zero_iff.1 (by omega)
    subst this; rfl
  | succ c ih =>
    match L, hL with
    | c0 :: c1 :: c2 :: rest, hL =>
      have hr : rest.length = 3 * c := by simp at hL; omega
      have e : leN (c0 :: c1 :: c2 :: rest) = 256 * (256 * (256 * leN rest + c2.toNat) + c1.toNat) + c0.toNat := rfl
      have h0 := c0.toNat_lt; have h1 := c1.toNat_lt; have h2 := c2.toNat_lt
      have d1 : leN (c0 :: c1 :: c2 :: rest) % 4096 = c0.toNat + 256 * (c1.toNat % 16) := by rw [e]; omega
      have d2 : leN (c0 :: c1 :: c2 :: rest) / 4096 % 4096 = c1.toNat / 16 + 16 * c2.toNat := by rw [e]; omega
      have d3 : leN (c0 :: c1 :: c2 :: rest) / 4096 / 4096 = leN rest := by rw [e]; omega
      rw [show 2 * (c + 1) = 2 * c + 1 + 1 by omega, nacc_succ, nacc_succ, d1, d2, d3, ← ih rest hr]
      unfold accepted
      rw [candidates, List.filter_cons, List.filter_cons]
      simp only [decide_eq_true_eq]

/-- A number as a string of `n` bytes. -/
def bytesOf : Nat → Nat → List UInt8
  | 0, _ => []
  | n + 1, x => UInt8.ofNat x :: bytesOf n (x / 256)

theorem length_bytesOf (n x : Nat) : (bytesOf n x).length = n := by
  induction n generalizing x with
  | zero => rfl
  | succ n ih => simp [bytesOf, ih]

theorem leN_bytesOf (n x : Nat) : leN (bytesOf n x) = x % 2 ^ (8 * n) := by
  induction n generalizing x with
  | zero => simp [bytesOf, leN, packN, Nat.mod_one]
  | succ n ih =>
    show 256 * leN (bytesOf n (x / 256)) + (UInt8.ofNat x).toNat = _
    rw [ih, UInt8.toNat_ofNat', show 8 * (n + 1) = 8 + 8 * n by ring, pow_add, Nat.mod_mul, show (2 : Nat) ^ 8 = 256 from rfl]
    omega

theorem eq_bytesOf (L : List UInt8) : L = bytesOf L.length (leN L) := by
  refine leN_inj (length_bytesOf _ _).symm ?_
  rw [leN_bytesOf, Nat.mod_eq_of_lt (leN_lt L)]

/-- The accepted candidates of matrix entry `(i, j)` in the first `c` blocks, for the public seed with number `ρ`. -/
def nentry (c ρ i j : Nat) : List Nat :=
  force (nhash 168 31 (Nat.add ρ (Nat.mul (Nat.pow 2 256) (Nat.add j (Nat.mul 256 i)))) 34 c) (nacc (Nat.mul 112 c))

theorem leN_append (L L' : List UInt8) : leN (L ++ L') = leN L + 2 ^ (8 * L.length) * leN L' := by
  induction L with
  | nil => simp [leN, packN]
  | cons a L ih =>
    show 256 * leN (L ++ L') + a.toNat = 256 * leN L + a.toNat + 2 ^ (8 * (L.length + 1)) * leN L'
    rw [ih, show 8 * (L.length + 1) = 8 + 8 * L.length by ring, pow_add]
    ring

theorem accepted_entry (c : Nat) (ρ : List UInt8) (hρ : ρ.length = 32) (i j : Nat) (hi : i < 256) (hj : j < 256) :
    accepted (SHAKE128 (ρ ++ [UInt8.ofNat j, UInt8.ofNat i]) (168 * c)) = nentry c (leN ρ) i j := by
  have hl : (ρ ++ [UInt8.ofNat j, UInt8.ofNat i]).length = 34 := by simp [hρ]
  have e := leN_SHAKE128 (ρ ++ [UInt8.ofNat j, UInt8.ofNat i]) (168 * c) c (by omega)
  have hlen : (SHAKE128 (ρ ++ [UInt8.ofNat j, UInt8.ofNat i]) (168 * c)).length = 3 * (56 * c) := by
    rw [SHAKE128_eq]; simp; omega
  rw [accepted_eq_nacc (56 * c) _ hlen]
  have e2 : leN (ρ ++ [UInt8.ofNat j, UInt8.ofNat i]) = leN ρ + 2 ^ 256 * (j + 256 * i) := by
    rw [leN_append, hρ]
    congr 2
    show 256 * (256 * 0 + (UInt8.ofNat i).toNat) + (UInt8.ofNat j).toNat = _
    rw [UInt8.toNat_ofNat', UInt8.toNat_ofNat']; omega
  rw [e, hl, e2]
  unfold nentry
  rw [force_eq, show 2 * (56 * c) = 112 * c by omega]
  -- the digits beyond the block limit are not looked at
  have cut : ∀ k n, nacc k (n % 2 ^ (12 * k)) = nacc k n := by
    intro k
    induction k with
    | zero => intro n; rfl
    | succ k ih =>
      intro n
      have p : (2 : Nat) ^ (12 * (k + 1)) = 4096 * 2 ^ (12 * k) := by rw [show 12 * (k + 1) = 12 + 12 * k by ring, pow_add]; rfl
      have h1 : n % 2 ^ (12 * (k + 1)) % 4096 = n % 4096 := by rw [p, Nat.mod_mul_right_mod]
      have h2 : n % 2 ^ (12 * (k + 1)) / 4096 = n / 4096 % 2 ^ (12 * k) := by rw [p, Nat.mod_mul_right_div_self]
      rw [nacc_succ, nacc_succ, h1, h2, ih]
  have := cut (112 * c) (nhash 168 31 (leN ρ + 2 ^ 256 * (j + 256 * i)) 34 c)
  rw [show 12 * (112 * c) = 8 * (168 * c) by omega] at this
  exact this

/-- The public matrix seed of a key-generation seed, as a number. -/
def nrho (d K : Nat) : Nat := Nat.mod (nhash 72 6 (Nat.add d (Nat.mul (Nat.pow 2 256) K)) 33 1) (Nat.pow 2 256)

/-- Whether every matrix entry finds 256 candidates in `c` blocks. -/
def nenough (K c ρ : Nat) : Bool :=
  (List.range K).all fun i => (List.range K).all fun j => Nat.ble 256 (nentry c ρ i j).length

theorem enough_iff {K c : Nat} (hK : K ≤ 256) {ρ : List UInt8} (hρ : ρ.length = 32) : Enough K (168 * c) ρ ↔ nenough K c (leN ρ) = true := by
  unfold Enough nenough
  simp only [List.all_eq_true, List.mem_range, Nat.ble_eq]
  constructor
  · intro h i hi j hj; rw [← accepted_entry c ρ hρ i j (by omega) (by omega)]; exact h i j hi hj
  · intro h i j hi hj; rw [accepted_entry c ρ hρ i j (by omega) (by omega)]; exact h i hi j hj

theorem leN_rho {K : Nat} (hK : K < 256) {d : List UInt8} (hd : d.length = 32) : leN ((SHA3_512 (d ++ [UInt8.ofNat K])).take 32) = nrho (leN d) K := by
  have hl : (SHA3_512 (d ++ [UInt8.ofNat K])).length = 64 := by rw [SHA3_512_eq]; simp
  have e := leN_SHA3_512 (d ++ [UInt8.ofNat K])
  have e2 : leN (d ++ [UInt8.ofNat K]) = leN d + 2 ^ 256 * K := by
    rw [leN_append, hd]
    congr 2
    show 256 * 0 + (UInt8.ofNat K).toNat = _
    rw [UInt8.toNat_ofNat']; omega
  rw [e2, show (d ++ [UInt8.ofNat K]).length = 33 by simp [hd]] at e
  have h1 : (SHA3_512 (d ++ [UInt8.ofNat K])) = (SHA3_512 (d ++ [UInt8.ofNat K])).take 32 ++ (SHA3_512 (d ++ [UInt8.ofNat K])).drop 32 := (List.take_append_drop 32 _).symm
  have h2 := congrArg leN h1
  rw [leN_append, List.length_take, hl, e] at h2
  have h3 := leN_lt ((SHA3_512 (d ++ [UInt8.ofNat K])).take 32)
  rw [List.length_take, hl] at h3
  have h4 : nhash 72 6 (leN d + 2 ^ 256 * K) 33 1 % 2 ^ 512 % 2 ^ 256 = nhash 72 6 (leN d + 2 ^ 256 * K) 33 1 % 2 ^ 256 :=
    Nat.mod_mod_of_dvd _ (pow_dvd_pow 2 (by omega))
  show _ = nhash 72 6 (leN d + 2 ^ 256 * K) 33 1 % 2 ^ 256
  rw [← h4, h2]
  rw [show 8 * min 32 64 = 256 from rfl] at *
  rw [Nat.add_mul_mod_self_left, Nat.mod_eq_of_lt h3]

theorem leN_replicate (n : Nat) (b : UInt8) : leN (List.replicate n b) = packN 8 (List.replicate n b.toNat) := by
  unfold leN; rw [List.map_replicate]

example : nenough 2 3 (nrho (packN 8 (List.replicate 32 1)) 2) = true := by decide +kernel

end Verif.Eval

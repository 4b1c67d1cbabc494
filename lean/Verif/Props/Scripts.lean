import Verif.Props.Common
import Verif.Model.Scripts
import Verif.Model.A64Asm
import Verif.Model.X86Asm
import Verif.Model.Reduce
import Verif.Spec.Fips203
import Mathlib.Tactic.Linarith
import Mathlib.Tactic.NormNum
import Mathlib.Tactic.Ring
import Mathlib.Tactic.Push
import Mathlib.Tactic.FieldSimp
/-! # C76, C77: the generator of the tables, and the claims of the script on bounds -/
namespace Verif.Props
open Verif Verif.Model Verif.Model.Scripts

namespace Scripts

theorem pyRound_near (n : Int) {d : Int} (hd : 0 < d) : 2 * |n - d * pyRound n d| ≤ d := by
  have h1 := Int.emod_nonneg n hd.ne'
  have h2 := Int.emod_lt_of_pos n hd
  have h3 := Int.mul_ediv_add_emod n d
  have key : ∀ x : Int, -d ≤ 2 * x → 2 * x ≤ d → 2 * |x| ≤ d := fun x a b => by rcases abs_cases x with ⟨e, -⟩ | ⟨e, -⟩ <;> omega
  unfold pyRound
  split
  · exact key _ (by omega) (by omega)
  · split
    · rw [mul_add, mul_one]; exact key _ (by omega) (by omega)
    · split
      · exact key _ (by omega) (by omega)
      · rw [mul_add, mul_one]; exact key _ (by omega) (by omega)

theorem round_even_near (n : Int) {d : Int} (hd : 0 < d) : |n - d * round_even n d| ≤ d := by
  have := pyRound_near n (show 0 < 2 * d by omega)
  unfold round_even
  rw [show d * (2 * pyRound n (2 * d)) = 2 * d * pyRound n (2 * d) by ring]
  omega

theorem round_to_even_near (n : Int) {d : Int} (hd : 0 < d) : |n - d * round_to_even n d| ≤ d ∧ round_to_even n d % 2 = 0 := by
  have h := pyRound_near n hd
  unfold round_to_even
  simp only
  generalize pyRound n d = rt at *
  have hc : rt * d = d * rt := mul_comm ..
  rcases abs_cases (n - d * rt) with ⟨e, e'⟩ | ⟨e, e'⟩ <;> rw [e] at h <;> split
  · exact ⟨by rw [e]; omega, by assumption⟩
  · rw [if_pos (by omega)]
    exact ⟨by rw [mul_add, mul_one, abs_le]; omega, by omega⟩
  · exact ⟨by rw [e]; omega, by assumption⟩
  · rw [if_neg (by omega)]
    exact ⟨by rw [mul_sub, mul_one, abs_le]; omega, by omega⟩

theorem signed_reduce_spec (a : Int) : ∃ k : Int, a = signed_reduce a + 3329 * k ∧ -1664 ≤ signed_reduce a ∧ signed_reduce a ≤ 1664 := by
  unfold signed_reduce modulus
  simp only
  have e : ((3329 : Nat) : Int) = 3329 := rfl
  rw [e]
  split
  · exact ⟨a / 3329 + 1, by omega, by omega, by omega⟩
  · exact ⟨a / 3329, by omega, by omega, by omega⟩

theorem lift_eq (x : Int) : lift_signed_i16 x = x - 65536 * ((x + 32768) / 65536) := by
  unfold lift_signed_i16 R
  simp only
  split <;> omega

theorem lift_add (x k : Int) : lift_signed_i16 (x + 65536 * k) = lift_signed_i16 x := by rw [lift_eq, lift_eq]; omega

theorem lift_range (x : Int) : -32768 ≤ lift_signed_i16 x ∧ lift_signed_i16 x ≤ 32767 := by rw [lift_eq]; omega

theorem Qinv_eq : Qinv = 3327 := by decide +kernel

/-- The twiddle is computed modulo `R`, which makes no difference. -/
theorem montmul_eq (a b : Int) : montmul_neg a b = (a * b + 3329 * lift_signed_i16 (a * b * 3327)) / 65536 := by
  unfold montmul_neg montmul_neg_twiddle
  rw [Qinv_eq]
  have e : a * b * 3327 = a * (b * 3327 % R) + 65536 * (a * (b * 3327 / 65536)) := by
    have h : b * 3327 = b * 3327 % 65536 + 65536 * (b * 3327 / 65536) := by omega
    unfold R
    calc a * b * 3327 = a * (b * 3327) := by ring
      _ = a * (b * 3327 % 65536 + 65536 * (b * 3327 / 65536)) := by rw [← h]
      _ = _ := by norm_num; ring
  rw [e, lift_add]; rfl

/-- The numerator is divisible by `R`. -/
theorem montmul_exact (a b : Int) : 65536 * montmul_neg a b = a * b + 3329 * lift_signed_i16 (a * b * 3327) := by
  rw [montmul_eq, lift_eq]
  generalize a * b = x
  omega

theorem barmul_montmul (a b : Int) : barmul a b = montmul_neg a (modq_even (b * R)) := by
  have h := montmul_exact a (modq_even (b * R))
  unfold barmul sqrdmulh_i16 barrett_twiddle
  unfold modq_even at *
  unfold round_even at *
  generalize pyRound (b * R) (2 * Q) = p at *
  rw [show (2 * p) / 2 = p by omega]
  have e : a * (b * R - Q * (2 * p)) * 3327 = 2 * a * p + 65536 * (a * b * 3327 - 338 * (a * p)) := by unfold R Q; ring
  rw [e, lift_add, lift_eq] at h
  unfold Q at h ⊢
  rw [show ((2 : Int) ^ 15) = 32768 by norm_num, show ((2 : Int) ^ 16) = 65536 by norm_num]
  unfold R at h ⊢
  generalize hm : montmul_neg a (b * 2 ^ 16 - 3329 * (2 * p)) = m at *
  have e3 : a * (b * 2 ^ 16 - 3329 * (2 * p)) = 65536 * (a * b) - 3329 * (2 * a * p) := by ring
  rw [e3] at h
  generalize a * b = x at *
  generalize 2 * a * p = y at *
  omega

/-- From the exact form. -/
theorem montmul_bound (a b : Int) : 65536 * |montmul_neg a b| ≤ |a| * |b| + 3329 * 32768 := by
  have h := montmul_exact a b
  have hr := lift_range (a * b * 3327)
  have h1 : |(65536 : Int) * montmul_neg a b| = 65536 * |montmul_neg a b| := by rw [abs_mul]; rfl
  rw [← h1, h, ← abs_mul]
  generalize lift_signed_i16 _ = l at *
  have h2 := le_abs_self (a * b)
  have h3 := neg_abs_le (a * b)
  rw [abs_le]
  omega

theorem modq_even_le (a : Int) : |modq_even a| ≤ 3329 := round_even_near a (show (0 : Int) < Q by decide)

theorem barmul_bound (a b : Int) : 65536 * |barmul a b| ≤ 3329 * |a| + 3329 * 32768 := by
  rw [barmul_montmul]
  have h := montmul_bound a (modq_even (b * R))
  have h' : |a| * |modq_even (b * R)| ≤ |a| * 3329 := mul_le_mul_of_nonneg_left (modq_even_le _) (abs_nonneg a)
  omega

/-- A bound of the form of the script. -/
theorem scaled {x a : Int} {k : Nat} {f : Rat} (h : 65536 * |x| ≤ k * |a| + 3329 * 32768) (hf : (k : Rat) / 65536 ≤ f) : (|x| : Rat) / 3329 ≤ f * ((|a| : Rat) / 3329) + 1 / 2 := by
  have h' : (65536 : Rat) * (|x| : Rat) ≤ k * (|a| : Rat) + 3329 * 32768 := by exact_mod_cast h
  have ha : (0 : Rat) ≤ (|a| : Rat) := abs_nonneg _
  have hk : (k : Rat) ≤ f * 65536 := by rwa [div_le_iff₀ (by norm_num)] at hf
  have hm : (k : Rat) * (|a| : Rat) ≤ f * 65536 * (|a| : Rat) := mul_le_mul_of_nonneg_right hk ha
  rw [div_le_iff₀ (by norm_num)]
  have : (f * ((|a| : Rat) / 3329) + 1 / 2) * 3329 = f * (|a| : Rat) + 3329 / 2 := by ring
  rw [this]
  nlinarith

end Scripts

open Scripts

/-! ## The generator of the tables -/

/-- The tables in the sources of the library are those the generator computes: zetas.c, aarch64_zetas.c, x86_64_zetas.i. -/
theorem C76_tables :
    zetasList = gen_c_zetas ∧
    A64.aarch64_ntt_zetas_layer01234 = gen_aarch64_fwd_ntt_zetas_layer01234 ∧ A64.aarch64_ntt_zetas_layer56 = gen_aarch64_layers56 false ∧
    A64.aarch64_invntt_zetas_layer01234 = gen_aarch64_inv_ntt_zetas_layer01234 ∧ A64.aarch64_invntt_zetas_layer56 = gen_aarch64_layers56 true ∧
    A64.aarch64_zetas_mulcache_native = gen_aarch64_mulcache false ∧ A64.aarch64_zetas_mulcache_twisted_native = gen_aarch64_mulcache true ∧
    (X86.qdataList.drop 160).take 464 = gen_avx2_fwd_ntt_zetas := by
  refine ⟨?_, ?_, ?_, ?_, ?_, ?_, ?_, ?_⟩ <;> decide +kernel

/-- For every constant, the pair the generator prepares for Barrett multiplication: a representative of least absolute value, and half of an even number nearest to its multiple with `2^16/q`. -/
theorem C76_barrett_constant (root : Int) :
    ((prepare_root_for_barrett root).1 : Spec.Zq) = root ∧ |(prepare_root_for_barrett root).1| ≤ 1664 ∧
    |(prepare_root_for_barrett root).1 * 2 ^ 16 - 3329 * (2 * (prepare_root_for_barrett root).2)| ≤ 3329 := by
  obtain ⟨k, h1, h2, h3⟩ := signed_reduce_spec root
  unfold prepare_root_for_barrett
  simp only
  refine ⟨?_, by rw [abs_le]; omega, ?_⟩
  · conv_rhs => rw [h1]
    push_cast
    rw [show ((3329 : Spec.Zq)) = 0 from by decide +kernel]; ring
  · obtain ⟨g1, g2⟩ := round_to_even_near (signed_reduce root * 2 ^ 16) (d := (modulus : Int)) (by decide)
    rw [show 2 * (round_to_even (signed_reduce root * 2 ^ 16) modulus / 2) = round_to_even (signed_reduce root * 2 ^ 16) modulus by omega]
    exact g1

/-- For every constant, the pair the generator prepares for Montgomery multiplication: a representative of least absolute value of the multiple with `2^16`, and that times `q⁻¹` modulo `2^16`. -/
theorem C76_montgomery_constant (root : Int) :
    ((prepare_root_for_montmul root).1 : Spec.Zq) = root * 2 ^ 16 ∧ |(prepare_root_for_montmul root).1| ≤ 1664 ∧
    (2 : Int) ^ 16 ∣ (prepare_root_for_montmul root).1 - 3329 * (prepare_root_for_montmul root).2 ∧ -(2 : Int) ^ 15 ≤ (prepare_root_for_montmul root).2 ∧ (prepare_root_for_montmul root).2 < 2 ^ 15 := by
  obtain ⟨k, h1, h2, h3⟩ := signed_reduce_spec (root * montgomery_factor)
  unfold prepare_root_for_montmul
  simp only
  rw [show pyPow modulus (-1) (2 ^ 16) = 62209 by decide +kernel]
  generalize signed_reduce (root * montgomery_factor) = r at *
  unfold signed_reduce_u16
  simp only
  refine ⟨?_, by rw [abs_le]; omega, ?_, ?_, ?_⟩
  · have : ((r + 3329 * k : Int) : Spec.Zq) = ((root * montgomery_factor : Int) : Spec.Zq) := by rw [h1]
    rw [show montgomery_factor = 2285 by decide +kernel] at this
    push_cast at this
    rw [show ((3329 : Spec.Zq)) = 0 from by decide +kernel, zero_mul, add_zero] at this
    rw [this, show ((2 : Spec.Zq)) ^ 16 = 2285 from by decide +kernel]
  · split <;> omega
  · split <;> omega
  · split <;> omega

/-- The table of the portable code: powers of the root of unity in bit-reversed order, in Montgomery form. -/
theorem C76_zetas (i : Nat) (hi : i < 128) : ((zetasList.getD i 0 : Int) : Spec.Zq) = Spec.ζ ^ Spec.bitRev7 i * 2 ^ 16 ∧ |zetasList.getD i 0| ≤ 1664 := by
  have : ∀ i : Fin 128, ((zetasList.getD i 0 : Int) : Spec.Zq) = Spec.ζ ^ Spec.bitRev7 i * 2 ^ 16 ∧ |zetasList.getD i 0| ≤ 1664 := by decide +kernel
  exact this ⟨i, hi⟩

example : prepare_root_for_barrett 17 = (17, 167) ∧ prepare_root_for_montmul 17 = (-1103, -335) := by decide +kernel

/-! ## The claims of the script on bounds -/

/-- Barrett multiplication by doubling is Montgomery multiplication by the even representative of the multiple with `2^16`: for all integers. -/
theorem C77_barrett_is_montgomery (a b : Int) : barmul a b = montmul_neg a (modq_even (b * R)) := barmul_montmul a b

/-- What both compute. -/
theorem C77_products (a b : Int) : ((barmul a b : Int) : Spec.Zq) = a * b ∧ ((montmul_neg a b : Int) : Spec.Zq) * 2 ^ 16 = a * b := by
  constructor
  · unfold barmul Q
    push_cast
    rw [show ((3329 : Spec.Zq)) = 0 from by decide +kernel]; ring
  · have := congrArg (fun x : Int => (x : Spec.Zq)) (montmul_exact a b)
    push_cast at this
    rw [show ((3329 : Spec.Zq)) = 0 from by decide +kernel, zero_mul, add_zero] at this
    rw [← this, show ((2 : Spec.Zq)) ^ 16 = 65536 by norm_num]; ring

/-- The bound on Barrett multiplication: for all integers. -/
theorem C77_barrett_bound (a b : Int) (ha : a ≠ 0) : (|barmul a b| : Rat) / 3329 < 508 / 10000 * ((|a| : Rat) / 3329) + 1 / 2 := by
  have h := scaled (x := barmul a b) (a := a) (k := 3329) (f := 3329 / 65536) (by exact_mod_cast barmul_bound a b) (by norm_num)
  have hp : (0 : Rat) < (|a| : Rat) / 3329 := by
    have : (0 : Rat) < (|a| : Rat) := abs_pos.2 (by exact_mod_cast ha)
    positivity
  refine lt_of_le_of_lt h ?_
  have : (3329 : Rat) / 65536 * ((|a| : Rat) / 3329) < 508 / 10000 * ((|a| : Rat) / 3329) := mul_lt_mul_of_pos_right (by norm_num) hp
  linarith

/-- A layer of butterflies: every output is the sum or the difference of an input and of a product, as `mul` computes it, of an input with a constant from the set given. -/
def IsLayer {ι : Type} (mul : Int → Int → Int) (consts : Int → Prop) (f : (ι → Int) → ι → Int) : Prop :=
  ∀ x i, ∃ j k t, consts t ∧ (f x i = x j + mul (x k) t ∨ f x i = x j - mul (x k) t)

theorem Scripts.layer_bound {ι : Type} {mul : Int → Int → Int} {consts : Int → Prop} {F : Rat} (hF : 0 ≤ F)
    (hm : ∀ a t, consts t → (|mul a t| : Rat) / 3329 ≤ F * ((|a| : Rat) / 3329) + 1 / 2) {f : (ι → Int) → ι → Int} (hf : IsLayer mul consts f) {C : Rat} {x : ι → Int} (hx : ∀ i, (|x i| : Rat) / 3329 ≤ C) (i : ι) :
    (|f x i| : Rat) / 3329 ≤ ntt_layer_bound_growth F C := by
  obtain ⟨j, k, t, ht, h⟩ := hf x i
  have h1 := hm (x k) t ht
  have h2 := hx j
  have h3 : F * ((|x k| : Rat) / 3329) ≤ F * C := mul_le_mul_of_nonneg_left (hx k) hF
  have h4 : (|f x i| : Rat) ≤ (|x j| : Rat) + (|mul (x k) t| : Rat) := by
    rcases h with h | h
    · rw [h]; push_cast; exact abs_add_le _ _
    · rw [h]; push_cast; exact abs_sub _ _
  unfold ntt_layer_bound_growth
  have h5 : (|f x i| : Rat) / 3329 ≤ (|x j| : Rat) / 3329 + (|mul (x k) t| : Rat) / 3329 := by rw [← add_div]; exact div_le_div_of_nonneg_right h4 (by norm_num)
  linarith

theorem Scripts.layers_bound {ι : Type} {mul : Int → Int → Int} {consts : Int → Prop} {F : Rat} (hF : 0 ≤ F)
    (hm : ∀ a t, consts t → (|mul a t| : Rat) / 3329 ≤ F * ((|a| : Rat) / 3329) + 1 / 2) : ∀ (fs : List ((ι → Int) → ι → Int)) (_ : ∀ f ∈ fs, IsLayer mul consts f) (C : Rat) (x : ι → Int) (_ : ∀ i, (|x i| : Rat) / 3329 ≤ C) (i : ι),
    (|fs.foldl (fun x f => f x) x i| : Rat) / 3329 ≤ funciter (ntt_layer_bound_growth F) fs.length C
  | [], _, C, x, hx, i => hx i
  | f :: fs, hfs, C, x, hx, i => layers_bound hF hm fs (fun g hg => hfs g (List.mem_cons_of_mem _ hg)) _ (f x) (layer_bound hF hm (hfs f List.mem_cons_self) hx) i

/-- The progression of the bounds: any number of layers with Barrett multiplication by any constants, from coefficients of absolute value at most `B`; and the number for the NTT. -/
theorem C77_ntt_progression {ι : Type} (fs : List ((ι → Int) → ι → Int)) (hfs : ∀ f ∈ fs, IsLayer barmul (fun _ => True) f) (B : Rat) (x : ι → Int) (hx : ∀ i, (|x i| : Rat) ≤ B) (i : ι) :
    (|fs.foldl (fun x f => f x) x i| : Rat) ≤ ntt_layer_bound (508 / 10000) fs.length B * 3329 ∧ ntt_layer_bound (508 / 10000) 7 3329 < 55 / 10 := by
  constructor
  · rw [← div_le_iff₀ (by norm_num)]
    refine layers_bound (by norm_num) (fun a t _ => ?_) fs hfs _ x (fun i => ?_) i
    · exact scaled (k := 3329) (by exact_mod_cast barmul_bound a t) (by norm_num)
    · exact div_le_div_of_nonneg_right (hx i) (by norm_num)
  · unfold ntt_layer_bound
    simp only [funciter, ntt_layer_bound_growth, Q]
    norm_num

/-- Seven layers in which every coefficient is added to its product with 5. -/
example (i : Fin 256) : (|(List.replicate 7 fun (x : Fin 256 → Int) i => x i + barmul (x i) 5).foldl (fun (x : Fin 256 → Int) f => f x) (fun _ => 3329) i| : Rat) ≤ ntt_layer_bound (508 / 10000) 7 3329 * 3329 := by
  have := (C77_ntt_progression (List.replicate 7 fun (x : Fin 256 → Int) i => x i + barmul (x i) 5) (fun f hf => by
    rw [List.eq_of_mem_replicate hf]; exact fun x i => ⟨i, i, 5, trivial, Or.inl rfl⟩) 3329 (fun _ => 3329) (fun _ => by norm_num) i).1
  rwa [List.length_replicate] at this

/-- The factor in the script for Montgomery multiplication, 0.0204, is too small: for a constant of the table of the NTT, and in the code of the library, the product is larger. -/
theorem C77_montgomery_factor : -1602 ∈ zetasList ∧ Returns (fqmul (-295) (-1602)) 1671 ∧ montmul_neg (-295) (-1602) = 1671 ∧ (204 : Rat) / 10000 * (295 / 3329) + 1 / 2 < 1671 / 3329 := by
  refine ⟨by decide, ?_, by decide +kernel, by norm_num⟩
  have h : (match fqmul (-295) (-1602) with | .ok (r, _) => decide (r = 1671) | .error _ => false) = true := by decide +kernel
  generalize fqmul (-295) (-1602) = p at *
  match p, h with
  | .ok (r, t), h => exact ⟨t, by rw [of_decide_eq_true h]⟩

/-- With 0.0254 in place of 0.0204 the claim is true, for all integers and all constants of absolute value at most `q/2`; seven layers then stay below `5q`. -/
theorem C77_montgomery_progression {ι : Type} (fs : List ((ι → Int) → ι → Int)) (hfs : ∀ f ∈ fs, IsLayer montmul_neg (fun t => |t| ≤ 1664) f) (B : Rat) (x : ι → Int) (hx : ∀ i, (|x i| : Rat) ≤ B) (i : ι) :
    (|fs.foldl (fun x f => f x) x i| : Rat) ≤ ntt_layer_bound (254 / 10000) fs.length B * 3329 ∧ ntt_layer_bound (254 / 10000) 7 3329 < 5 := by
  constructor
  · rw [← div_le_iff₀ (by norm_num)]
    refine layers_bound (by norm_num) (fun a t ht => ?_) fs hfs _ x (fun i => ?_) i
    · refine scaled (k := 1664) ?_ (by norm_num)
      have h1 := montmul_bound a t
      have h2 : |a| * |t| ≤ |a| * 1664 := mul_le_mul_of_nonneg_left ht (abs_nonneg a)
      push_cast
      omega
    · exact div_le_div_of_nonneg_right (hx i) (by norm_num)
  · unfold ntt_layer_bound
    simp only [funciter, ntt_layer_bound_growth, Q]
    norm_num

example (x : Fin 256 → Int) (hx : ∀ i, |x i| ≤ 3329) (i : Fin 256) : (|(fun (x : Fin 256 → Int) i => x i - montmul_neg (x (i + 1)) (-1602)) x i| : Rat) ≤ ntt_layer_bound (254 / 10000) 1 3329 * 3329 :=
  (C77_montgomery_progression [fun (x : Fin 256 → Int) i => x i - montmul_neg (x (i + 1)) (-1602)] (fun f hf => by
    rw [List.mem_singleton.1 hf]; exact fun x i => ⟨i, i + 1, -1602, by decide, Or.inr rfl⟩) 3329 x (fun i => by exact_mod_cast hx i) i).1

end Verif.Props

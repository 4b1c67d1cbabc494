import Verif.Props.Uniform
import Verif.Props.Budget
import Mathlib.Algebra.BigOperators.Ring.Finset
import Mathlib.Algebra.Polynomial.Coeff
import Mathlib.Algebra.Polynomial.Eval.Coeff
import Mathlib.Data.Nat.Choose.Sum
import Mathlib.Data.Fintype.BigOperators

/-! # C35: how often the rejection loop has to refill its buffer

For uniformly random bytes in place of the SHAKE128 output: the exact number of byte strings that do not contain 256 accepted candidates, and a bound that shows that the loop ends with
probability one, very fast. -/

namespace Verif.Props
open Verif Verif.Model

/-- The number of accepted candidates. -/
def accCount {N : Nat} (f : Fin N → Fin 4096) : Nat := ((List.ofFn fun i => (f i).val).filter (· < 3329)).length

theorem prod_list {R : Type} [CommSemiring R] (a b : R) (L : List Nat) :
    (L.map fun x => if x < 3329 then a else b).prod = a ^ (L.filter (· < 3329)).length * b ^ (L.length - (L.filter (· < 3329)).length) := by
  induction L with
  | nil => simp
  | cons x L ih =>
    have h : (L.filter (· < 3329)).length ≤ L.length := List.length_filter_le ..
    rw [List.map_cons, List.prod_cons, ih]
    by_cases hx : x < 3329
    · rw [if_pos hx, List.filter_cons_of_pos (by simpa using hx), List.length_cons, List.length_cons, Nat.add_sub_add_right, pow_succ]; ring
    · rw [if_neg hx, List.filter_cons_of_neg (by simpa using hx), List.length_cons, Nat.succ_sub h, pow_succ]; ring

theorem sum_one {R : Type} [CommSemiring R] (a b : R) : ∑ x : Fin 4096, (if x.val < 3329 then a else b) = 3329 * a + 767 * b := by
  rw [Fin.sum_univ_eq_sum_range (fun x => if x < 3329 then a else b) 4096, show (4096 : Nat) = 3329 + 767 by rfl, Finset.sum_range_add]
  rw [Finset.sum_congr rfl (g := fun _ => a) fun x hx => if_pos (Finset.mem_range.1 hx),
    Finset.sum_congr rfl (g := fun _ => b) fun x hx => if_neg (by omega)]
  simp

/-- Weigh each list of candidates by `a` for each accepted and `b` for each rejected one. -/
theorem weight_sum {R : Type} [CommSemiring R] (a b : R) (N : Nat) : ∑ f : Fin N → Fin 4096, a ^ accCount f * b ^ (N - accCount f) = (3329 * a + 767 * b) ^ N := by
  have h := Finset.prod_univ_sum (fun _ : Fin N => (Finset.univ : Finset (Fin 4096))) (fun _ x => if x.val < 3329 then a else b)
  rw [Finset.prod_congr rfl fun i _ => sum_one a b, Finset.prod_const, Finset.card_univ, Fintype.card_fin, Fintype.piFinset_univ] at h
  rw [h]
  refine Finset.sum_congr rfl fun f _ => ?_
  have e := prod_list a b (List.ofFn fun i => (f i).val)
  rw [List.length_ofFn] at e
  unfold accCount
  rw [← e, List.map_ofFn, List.prod_ofFn]
  rfl

/-- The number of lists of `N` candidates of which exactly `j` are accepted. -/
theorem card_accCount (N j : Nat) : (Finset.univ.filter fun f : Fin N → Fin 4096 => accCount f = j).card = N.choose j * 3329 ^ j * 767 ^ (N - j) := by
  have h := congrArg (fun p => Polynomial.coeff p j) (weight_sum (Polynomial.X : Polynomial ℕ) 1 N)
  simp only [one_pow, mul_one, Polynomial.finset_sum_coeff, Polynomial.coeff_X_pow] at h
  rw [Finset.card_filter, Finset.sum_congr rfl fun f _ => if_congr (eq_comm (a := accCount f) (b := j)) rfl rfl, h, add_pow, Polynomial.finset_sum_coeff]
  have e : ∀ m ∈ Finset.range (N + 1), Polynomial.coeff ((3329 * Polynomial.X : Polynomial ℕ) ^ m * 767 ^ (N - m) * (N.choose m : Polynomial ℕ)) j = if j = m then N.choose j * 3329 ^ j * 767 ^ (N - j) else 0 := by
    intro m _
    have : (3329 * Polynomial.X : Polynomial ℕ) ^ m * 767 ^ (N - m) * (N.choose m : Polynomial ℕ) = Polynomial.C (3329 ^ m * 767 ^ (N - m) * N.choose m) * Polynomial.X ^ m := by
      have e1 : (3329 : Polynomial ℕ) = Polynomial.C 3329 := rfl
      have e2 : (767 : Polynomial ℕ) = Polynomial.C 767 := rfl
      have e3 : (N.choose m : Polynomial ℕ) = Polynomial.C (N.choose m) := (Polynomial.C_eq_natCast _).symm
      rw [e1, e2, e3, mul_pow, Polynomial.C_mul, Polynomial.C_mul, Polynomial.C_pow, Polynomial.C_pow]; ring
    rw [this, Polynomial.coeff_C_mul, Polynomial.coeff_X_pow]
    by_cases hj : j = m
    · subst hj; rw [if_pos rfl, if_pos rfl]; ring
    · rw [if_neg hj, if_neg hj, mul_zero]
  rw [Finset.sum_congr rfl e, Finset.sum_ite_eq]
  by_cases hj : j ∈ Finset.range (N + 1)
  · rw [if_pos hj]
  · rw [if_neg hj, Nat.choose_eq_zero_of_lt (by rw [Finset.mem_range] at hj; omega)]; simp

/-- Byte strings and lists of candidates. -/
def candEquiv (n : Nat) (P : Nat → Prop) : {L : List UInt8 // L.length = 3 * n ∧ P (accepted L).length} ≃
    {cs : List Nat // cs.length = 2 * n ∧ (∀ x ∈ cs, x < 4096) ∧ P (cs.filter (· < 3329)).length} where
  toFun L := ⟨candidates L.1, (candidates_length n L.1 L.2.1).1, (candidates_length n L.1 L.2.1).2, L.2.2⟩
  invFun cs := ⟨fromCandidates cs.1, (candidates_fromCandidates n cs.1 cs.2.1 cs.2.2.1).2, by
    have := (candidates_fromCandidates n cs.1 cs.2.1 cs.2.2.1).1
    unfold accepted; rw [this]; exact cs.2.2.2⟩
  left_inv L := Subtype.ext (fromCandidates_candidates n L.1 L.2.1)
  right_inv cs := Subtype.ext (candidates_fromCandidates n cs.1 cs.2.1 cs.2.2.1).1

/-- Lists of candidates as functions. -/
theorem card_lists (N : Nat) (P : Nat → Prop) : Nat.card {cs : List Nat // cs.length = N ∧ (∀ x ∈ cs, x < 4096) ∧ P (cs.filter (· < 3329)).length} = Nat.card {f : Fin N → Fin 4096 // P (accCount f)} := by
  have hm : ∀ f : {f : Fin N → Fin 4096 // P (accCount f)}, ∀ x ∈ (List.ofFn fun i => (f.1 i).val), x < 4096 := by
    intro f x hx
    obtain ⟨i, rfl⟩ := (List.mem_ofFn' _ _).1 hx
    exact (f.1 i).2
  refine (Nat.card_congr (Equiv.ofBijective (fun f : {f : Fin N → Fin 4096 // P (accCount f)} =>
    (⟨List.ofFn fun i => (f.1 i).val, List.length_ofFn, hm f, f.2⟩ : {cs : List Nat // cs.length = N ∧ (∀ x ∈ cs, x < 4096) ∧ P (cs.filter (· < 3329)).length})) ⟨?_, ?_⟩)).symm
  · intro f g h
    have := List.ofFn_injective (congrArg Subtype.val h)
    apply Subtype.ext; funext i
    exact Fin.ext (congrFun this i)
  · rintro ⟨cs, h1, h2, h3⟩
    subst h1
    have e : (List.ofFn fun i : Fin cs.length => cs.get i) = cs := List.ofFn_get cs
    exact ⟨⟨fun i => ⟨cs.get i, h2 _ (List.get_mem ..)⟩, by unfold accCount; dsimp only; rw [e]; exact h3⟩, Subtype.ext e⟩

theorem card_accepted (n : Nat) (P : Nat → Prop) [DecidablePred P] : Nat.card {B : Fin (3 * n) → UInt8 // P (accepted (List.ofFn B)).length} = (Finset.univ.filter fun f : Fin (2 * n) → Fin 4096 => P (accCount f)).card := by
  rw [Nat.card_congr (ofFnEquiv (3 * n) fun L => P (accepted L).length), Nat.card_congr (candEquiv n P), card_lists, Nat.card_eq_fintype_card, Fintype.card_subtype]

/-- The sampler returns the number of accepted candidates, up to 256. -/
theorem rej_count_iff (r : Model.Poly) (hr : r.size = 256) (L : List UInt8) (hL : L.length + 3 < 2 ^ 32) (j : Nat) (hj : j < 256) :
    (∃ r', Returns (rej_uniform r 256 0 (Buf.ofList L) L.length) (r', j)) ↔ (accepted L).length = j := by
  obtain ⟨r', a', h, ha, _⟩ := C25_rej_uniform 256 r (by omega) (by omega) [] (by simp) (by simp) L hL
  simp only [List.nil_append, List.length_nil, Nat.sub_zero] at ha h
  have e : a'.length = min 256 (accepted L).length := by rw [ha, List.length_take]
  constructor
  · rintro ⟨r'', h'⟩
    have := congrArg Prod.snd (h.unique h')
    simp only at this; omega
  · intro h'
    refine ⟨r', ?_⟩
    rw [show j = a'.length by omega]; exact h

/-- **C35 (distribution).**  Of the byte strings of length `3 n` (in the range of an `unsigned int`), exactly `C(2n, j) · 3329^j · 767^(2n-j)` make the sampler stop short with `j < 256` coefficients: with uniformly random
bytes, each candidate is accepted with probability 3329/4096, independently. -/
theorem C35_accepted_distribution (n j : Nat) (hn : 3 * n + 3 < 2 ^ 32) (hj : j < 256) (r : Model.Poly) (hr : r.size = 256) :
    Nat.card {B : Fin (3 * n) → UInt8 // ∃ r', Returns (rej_uniform r 256 0 (Buf.ofList (List.ofFn B)) (3 * n)) (r', j)} = (2 * n).choose j * 3329 ^ j * 767 ^ (2 * n - j) := by
  have conv : ∀ B : Fin (3 * n) → UInt8, (∃ r', Returns (rej_uniform r 256 0 (Buf.ofList (List.ofFn B)) (3 * n)) (r', j)) ↔ (accepted (List.ofFn B)).length = j := fun B => by
    have := rej_count_iff r hr (List.ofFn B) (by rw [List.length_ofFn]; exact hn) j hj
    rwa [List.length_ofFn (n := 3 * n)] at this
  rw [Nat.card_congr (Equiv.subtypeEquivRight conv), card_accepted n (· = j), card_accCount]

theorem tail_count (n : Nat) : Nat.card {B : Fin (3 * n) → UInt8 // (accepted (List.ofFn B)).length < 256} * 4 ^ (2 * n) ≤ 4 ^ 255 * 6397 ^ (2 * n) := by
  rw [card_accepted n (· < 256)]
  have h := weight_sum (1 : ℕ) 4 (2 * n)
  simp only [one_pow, one_mul] at h
  rw [show 3329 * 1 + 767 * 4 = 6397 by norm_num] at h
  rw [← h, Finset.mul_sum, Finset.card_eq_sum_ones, Finset.sum_mul, Finset.sum_filter]
  refine Finset.sum_le_sum fun f _ => ?_
  split
  · rename_i hf
    rw [one_mul, ← pow_add]
    exact Nat.pow_le_pow_right (by norm_num) (by omega)
  · exact Nat.zero_le _

/-- The sampler stops short. -/
theorem short_iff (r : Model.Poly) (hr : r.size = 256) (L : List UInt8) (hL : L.length + 3 < 2 ^ 32) :
    (∃ r' j, Returns (rej_uniform r 256 0 (Buf.ofList L) L.length) (r', j) ∧ j < 256) ↔ (accepted L).length < 256 := by
  constructor
  · rintro ⟨r', j, h, hj⟩
    rw [(rej_count_iff r hr L hL j hj).1 ⟨r', h⟩]; exact hj
  · intro h
    obtain ⟨r', h'⟩ := (rej_count_iff r hr L hL _ h).2 rfl
    exact ⟨r', _, h', h⟩

theorem card_short (n : Nat) (hn : 3 * n + 3 < 2 ^ 32) (r : Model.Poly) (hr : r.size = 256) (m : Nat) (hm : m = 3 * n) :
    Nat.card {B : Fin m → UInt8 // ∃ r' j, Returns (rej_uniform r 256 0 (Buf.ofList (List.ofFn B)) m) (r', j) ∧ j < 256} = Nat.card {B : Fin (3 * n) → UInt8 // (accepted (List.ofFn B)).length < 256} := by
  subst hm
  refine Nat.card_congr (Equiv.subtypeEquivRight fun B => ?_)
  have := short_iff r hr (List.ofFn B) (by rw [List.length_ofFn]; exact hn)
  rwa [List.length_ofFn (n := 3 * n)] at this

theorem card_less (n b : Nat) : Nat.card {B : Fin (3 * n) → UInt8 // (accepted (List.ofFn B)).length < b} =
    ∑ j ∈ Finset.range b, (2 * n).choose j * 3329 ^ j * 767 ^ (2 * n - j) := by
  rw [card_accepted n (· < b), Finset.sum_congr rfl fun j _ => (card_accCount (2 * n) j).symm, ← Finset.card_biUnion]
  · congr 1; ext f; simp
  · intro a _ b _ hab
    rw [Function.onFun, Finset.disjoint_filter]
    intro f _ h1 h2; exact hab (h1.symm.trans h2)

/-- The sum of `C(n, j) · 3329^j · 767^(n-j)` over `j < b`, with the binomial coefficients from falling factorials so that the kernel can compute it. -/
def lessSum (n : Nat) : Nat → Nat
  | 0 => 0
  | b + 1 => lessSum n b + n.descFactorial b / b.factorial * 3329 ^ b * 767 ^ (n - b)

theorem lessSum_eq (n b : Nat) : ∑ j ∈ Finset.range b, n.choose j * 3329 ^ j * 767 ^ (n - j) = lessSum n b := by
  induction b with
  | zero => rfl
  | succ b ih => rw [Finset.sum_range_succ, ih, lessSum, Nat.choose_eq_descFactorial_div_factorial]

theorem lessSum_val : 83 * 256 ^ 504 < 10000 * lessSum 336 256 ∧ 10000 * lessSum 336 256 < 84 * 256 ^ 504 := by
  decide +kernel

/-- **C35 (the first three blocks).**  With uniformly random bytes the 504 bytes that the code squeezes at first are not enough for one matrix entry with probability between 0.83 % and 0.84 %:
the number of byte strings with less than 256 accepted candidates lies between `0.0083 · 256^504` and `0.0084 · 256^504`. -/
theorem C35_first_blocks (r : Model.Poly) (hr : r.size = 256) (c : Nat)
    (hc : c = Nat.card {B : Fin 504 → UInt8 // ∃ r' j, Returns (rej_uniform r 256 0 (Buf.ofList (List.ofFn B)) 504) (r', j) ∧ j < 256}) :
    83 * 256 ^ 504 < 10000 * c ∧ 10000 * c < 84 * 256 ^ 504 := by
  rw [card_short 168 (by norm_num) r hr 504 (by norm_num), card_less, lessSum_eq, show 2 * 168 = 336 by norm_num] at hc
  have h := lessSum_val
  rw [← hc] at h
  exact h

/-- The sampling of one matrix entry from a given stream of bytes in place of the SHAKE128 output, cut as `gen_matrix_entry` cuts it (indcpa.c 222-256): the first 504 bytes, then 168 bytes
at a time, each call continuing at the count the previous one returned. -/
def sampleStream (r : Model.Poly) (L : List UInt8) : Nat → M (Model.Poly × Nat)
  | 0 => rej_uniform r 256 0 (Buf.ofList (L.take 504)) 504
  | n + 1 => do
    let (r, ctr) ← sampleStream r L n
    rej_uniform r 256 ctr (Buf.ofList ((L.drop (504 + 168 * n)).take 168)) 168

theorem sampleStream_spec (r : Model.Poly) (hr : r.size = 256) (L : List UInt8) : ∀ n, xofBytes n ≤ L.length → ∃ r' a', Returns (sampleStream r L n) (r', a'.length) ∧
    a' = (accepted (L.take (xofBytes n))).take 256 ∧ r'.size = 256 ∧ ∀ i, i < a'.length → r'[i]? = some (some (nth a' i))
  | 0, h => by
    have hl : (L.take 504).length = 504 := by rw [List.length_take]; unfold xofBytes at h; omega
    obtain ⟨r', a', h1, h2, h3, h4, _⟩ := C25_rej_uniform 256 r (by omega) (by omega) [] (by simp) (by simp) (L.take 504) (by omega)
    rw [hl] at h1
    exact ⟨r', a', h1, by simpa [xofBytes] using h2, h3.trans hr, h4⟩
  | n + 1, h => by
    have e : xofBytes (n + 1) = xofBytes n + 168 := by unfold xofBytes; ring
    have e' : 504 + 168 * n = xofBytes n := by unfold xofBytes; ring
    obtain ⟨r1, a1, h1, h2, h3, h4⟩ := sampleStream_spec r hr L n (by omega)
    have hl : ((L.drop (xofBytes n)).take 168).length = 168 := by rw [List.length_take, List.length_drop]; omega
    have ha : a1.length ≤ 256 := by rw [h2, List.length_take]; omega
    obtain ⟨r', a', g1, g2, g3, g4, _⟩ := C25_rej_uniform 256 r1 (by omega) (by omega) a1 ha h4 ((L.drop (xofBytes n)).take 168) (by omega)
    rw [hl] at g1
    refine ⟨r', a', ?_, ?_, g3.trans h3, g4⟩
    · unfold sampleStream
      rw [e']
      obtain ⟨t, ht⟩ := h1
      obtain ⟨t', ht'⟩ := g1
      exact ⟨t ++ t', by rw [ht]; show M.bnd _ _ = _; unfold M.bnd; dsimp only; rw [ht']⟩
    · have hm : (L.take (xofBytes n)).length % 3 = 0 := by rw [List.length_take, Nat.min_eq_left (by omega)]; unfold xofBytes; omega
      rw [e, List.take_add, C25_cut _ _ hm, List.take_append, ← h2, g2]
      congr 2
      rw [h2, List.length_take]; omega

/-- The stream is not enough. -/
theorem stream_short_iff (r : Model.Poly) (hr : r.size = 256) (L : List UInt8) (n : Nat) (hL : L.length = xofBytes n) :
    (∃ r' j, Returns (sampleStream r L n) (r', j) ∧ j < 256) ↔ (accepted L).length < 256 := by
  obtain ⟨r', a', h1, h2, _⟩ := sampleStream_spec r hr L n hL.ge
  rw [← hL, List.take_length] at h2
  have e : a'.length = min 256 (accepted L).length := by rw [h2, List.length_take]
  constructor
  · rintro ⟨r'', j, h, hj⟩
    have := congrArg Prod.snd (h1.unique h)
    simp only at this; omega
  · intro h
    exact ⟨r', _, h1, by omega⟩

/-- **C35 (refills).**  With uniformly random bytes in place of the SHAKE128 output, the probability that `fuel` refills are not enough for one matrix entry is at most `2^(57 - 151 fuel)`:
below `2^-94` for one refill, and it tends to zero, so the loop ends with probability one. -/
theorem C35_refills (fuel : Nat) (r : Model.Poly) (hr : r.size = 256) :
    Nat.card {B : Fin (xofBytes fuel) → UInt8 // ∃ r' j, Returns (sampleStream r (List.ofFn B) fuel) (r', j) ∧ j < 256} * 2 ^ (151 * fuel) ≤ 2 ^ 57 * 256 ^ xofBytes fuel := by
  have hx : xofBytes fuel = 3 * (56 * (3 + fuel)) := by unfold xofBytes; ring
  rw [Nat.card_congr (Equiv.subtypeEquivRight fun B => stream_short_iff r hr (List.ofFn B) fuel List.length_ofFn), hx]
  have h := tail_count (56 * (3 + fuel))
  generalize Nat.card {B : Fin (3 * (56 * (3 + fuel))) → UInt8 // (accepted (List.ofFn B)).length < 256} = c at h
  have h1 : 6397 ^ 112 * 2 ^ 151 ≤ 16384 ^ 112 := by norm_num
  have h2 := Nat.pow_le_pow_left h1 (3 + fuel)
  rw [mul_pow, ← pow_mul, ← pow_mul, ← pow_mul] at h2
  have e : 2 * (56 * (3 + fuel)) = 112 * (3 + fuel) := by ring
  rw [e] at h
  have h3 : c * 2 ^ (151 * fuel) * (4 ^ (112 * (3 + fuel)) * 2 ^ 453) ≤ 2 ^ 57 * 256 ^ (3 * (56 * (3 + fuel))) * (4 ^ (112 * (3 + fuel)) * 2 ^ 453) := by
    calc c * 2 ^ (151 * fuel) * (4 ^ (112 * (3 + fuel)) * 2 ^ 453) = c * 4 ^ (112 * (3 + fuel)) * 2 ^ (151 * (3 + fuel)) := by
          rw [show 151 * (3 + fuel) = 151 * fuel + 453 by ring, pow_add, mul_comm (2 ^ (151 * fuel)) (2 ^ 453), mul_assoc, mul_assoc, mul_left_comm (2 ^ (151 * fuel)), mul_comm (2 ^ (151 * fuel))]
      _ ≤ 4 ^ 255 * 6397 ^ (112 * (3 + fuel)) * 2 ^ (151 * (3 + fuel)) := Nat.mul_le_mul_right _ h
      _ = 4 ^ 255 * (6397 ^ (112 * (3 + fuel)) * 2 ^ (151 * (3 + fuel))) := by ring
      _ ≤ 4 ^ 255 * 16384 ^ (112 * (3 + fuel)) := Nat.mul_le_mul_left _ h2
      _ = 2 ^ 57 * 256 ^ (3 * (56 * (3 + fuel))) * (4 ^ (112 * (3 + fuel)) * 2 ^ 453) := by
          rw [show (16384 : ℕ) = 2 ^ 14 by norm_num, show (4 : ℕ) = 2 ^ 2 by norm_num, show (256 : ℕ) = 2 ^ 8 by norm_num]
          simp only [← pow_mul, ← pow_add]
          congr 1; ring
  exact Nat.le_of_mul_le_mul_right h3 (by positivity)

/-- Both cases occur for the 504 bytes squeezed at first: 504 zero bytes give 256 coefficients, 504 bytes 255 give none. -/
example (r : Model.Poly) (hr : r.size = 256) : (∃ r', Returns (rej_uniform r 256 0 (Buf.ofList (List.replicate 504 0)) 504) (r', 256)) ∧
    ∃ r', Returns (rej_uniform r 256 0 (Buf.ofList (List.replicate 504 255)) 504) (r', 0) := by
  have key : ∀ (L : List UInt8) (j : Nat), L.length = 504 → min 256 (accepted L).length = j →
      ∃ r', Returns (rej_uniform r 256 0 (Buf.ofList L) 504) (r', j) := by
    intro L j h1 h2
    obtain ⟨r', a', h, ha, _⟩ := C25_rej_uniform 256 r (by omega) (by omega) [] (by simp) (by simp) L (by omega)
    simp only [List.nil_append, List.length_nil, Nat.sub_zero] at ha h
    have e : a'.length = j := by rw [ha, List.length_take, h2]
    rw [e, h1] at h
    exact ⟨r', h⟩
  exact ⟨key _ 256 (List.length_replicate ..) (by decide +kernel), key _ 0 (List.length_replicate ..) (by decide +kernel)⟩

end Verif.Props

import Verif.Proof.EvalPoly
import Verif.Props.RoundTrip
/-! # ML-KEM that the kernel can run

Used only to exhibit concrete runs beside the property theorems. -/
namespace Verif.Eval
open Verif Model Spec Props Finset

attribute [local irreducible] SHAKE256 SHA3_256 SHA3_512 SHAKE128

/-- Evaluate a matrix. -/
def forceM {β : Type} : List (List P) → (List (List P) → β) → β
  | [], k => k []
  | a :: l, k => forceV a fun a => forceM l fun l => k (a :: l)
@[simp] theorem forceM_eq {β : Type} (l : List (List P)) (k : List (List P) → β) : forceM l k = k l := by
  induction l generalizing k with
  | nil => rfl
  | cons a l ih => rw [forceM, forceV_eq, ih]

/-! ## Noise -/

/-- `PRF` as a number (with surplus high digits). -/
def nPRF (σ b : Nat) : Nat := nhash 136 31 (Nat.add σ (Nat.mul (Nat.pow 2 256) b)) 33 2

theorem bitAt_PRF {η : Nat} (hη : η ≤ 4) {s : List UInt8} (hs : s.length = 32) {b : Nat} (hb : b < 256) {k : Nat} (hk : k < 512 * η) :
    bitAt (PRF η s b) k = (nPRF (leN s) b).testBit k := by
  unfold PRF nPRF
  have e := leN_SHAKE256 (s ++ [UInt8.ofNat b]) (64 * η) 2 (by omega)
  have e2 : leN (s ++ [UInt8.ofNat b]) = leN s + 2 ^ 256 * b := by
    rw [leN_append, hs]
    congr 2
    show 256 * 0 + (UInt8.ofNat b).toNat = _
    rw [UInt8.toNat_ofNat']; omega
  rw [← testBit_leN, e, e2, show (s ++ [UInt8.ofNat b]).length = 33 by simp [hs], Nat.testBit_mod_two_pow, decide_eq_true (by omega), Bool.true_and]
  rfl

/-- Number of ones among the lowest `η` bits. -/
def pop : Nat → Nat → Nat
  | 0, _ => 0
  | η + 1, y => Nat.add (Nat.mod y 2) (pop η (Nat.div y 2))

theorem pop_eq (η y : Nat) : ((pop η y : Nat) : Zq) = ∑ j ∈ range η, if y.testBit j then (1 : Zq) else 0 := by
  induction η generalizing y with
  | zero => rfl
  | succ η ih =>
    have e : pop (η + 1) y = y % 2 + pop η (y / 2) := rfl
    rw [e, sum_range_succ']
    push_cast
    rw [ih, add_comm]
    congr 1
    · exact sum_congr rfl fun j _ => by rw [Nat.testBit_succ]
    · rw [Nat.testBit_zero]
      rcases Nat.mod_two_eq_zero_or_one y with h | h <;> simp [h]

theorem pop_le (η y : Nat) : pop η y ≤ η := by
  induction η generalizing y with
  | zero => exact le_refl 0
  | succ η ih =>
    have e : pop (η + 1) y = y % 2 + pop η (y / 2) := rfl
    have := ih (y / 2)
    rw [e]; omega

/-- One coefficient of the centred binomial distribution. -/
def cb (η y : Nat) : Nat := Nat.mod (Nat.sub (Nat.add (pop η y) 3329) (pop η (Nat.shiftRight y η))) 3329

/-- A centred binomial polynomial. -/
def nCBD (η x : Nat) : P := force x fun x =>
  ((List.range 128).map fun j => cb η (Nat.shiftRight x (Nat.mul (Nat.mul 4 η) j)), (List.range 128).map fun j => cb η (Nat.shiftRight x (Nat.add (Nat.mul (Nat.mul 4 η) j) (Nat.mul 2 η))))

theorem hl_range {f : Nat → Zq} (g G : Nat → Nat) (hg : ∀ j, g j = G j % 3329) (hf : ∀ j, j < 128 → f j = ((G j : Nat) : Zq)) : HL ((List.range 128).map g) f := by
  refine HL.mk' (by simp) G (fun j hj => ?_) hf
  rw [getD_map g (List.range 128) 0 0 (by simpa using hj), List.getD_eq_getElem?_getD, List.getElem?_range hj]
  exact hg j

theorem rp_cbd {η x : Nat} (hη : η ≤ 3) {B : List UInt8} (hB : ∀ k, k < 512 * η → bitAt B k = x.testBit k) : Rp (nCBD η x) (SamplePolyCBD η B) := by
  have key : ∀ o i, i < 256 → o = 2 * i * η → SamplePolyCBD η B i = ((pop η (x >>> o) + 3329 - pop η (x >>> o >>> η) : Nat) : Zq) := by
    intro o i hi ho
    have h1 := pop_le η (x >>> o >>> η)
    have hle : 2 * i * η + 2 * η ≤ 512 * η := by
      have : (2 * i + 2) * η ≤ 512 * η := Nat.mul_le_mul_right _ (by omega)
      rw [Nat.add_mul] at this; exact this
    rw [Nat.cast_sub (by omega)]
    push_cast
    rw [show (3329 : Zq) = 0 from by decide, add_zero, pop_eq, pop_eq]
    unfold SamplePolyCBD
    refine zsub ?_ ?_
    · refine sum_congr rfl fun j hj => ?_
      have hj := mem_range.1 hj
      rw [hB _ (by omega), Nat.testBit_shiftRight, ho]
    · refine sum_congr rfl fun j hj => ?_
      have hj := mem_range.1 hj
      rw [hB _ (by omega), Nat.testBit_shiftRight, Nat.testBit_shiftRight, ho, Nat.add_assoc]
  unfold nCBD
  rw [force_eq]
  constructor
  · refine hl_range _ (fun j => pop η (x >>> (4 * η * j)) + 3329 - pop η (x >>> (4 * η * j) >>> η)) (fun j => rfl) fun j hj => key _ _ (by omega) (by ring)
  · refine hl_range _ (fun j => pop η (x >>> (4 * η * j + 2 * η)) + 3329 - pop η (x >>> (4 * η * j + 2 * η) >>> η)) (fun j => rfl) fun j hj => key _ _ (by omega) (by ring)

/-! ## Matrix -/

/-- Every second element. -/
def evens : Nat → List Nat → List Nat
  | 0, _ => []
  | c + 1, a :: l => a :: evens c l.tail
  | _ + 1, [] => []

theorem evens_length (c : Nat) (l : List Nat) (h : 2 * c ≤ l.length + 1) : (evens c l).length = c := by
  induction c generalizing l with
  | zero => rfl
  | succ c ih =>
    match l, h with
    | a :: l, h => rw [evens, List.length_cons, ih _ (by simp at h ⊢; omega)]
    | [], h => simp at h; omega

theorem evens_getD (c : Nat) (l : List Nat) (j : Nat) (hj : j < c) : (evens c l).getD j 0 = l.getD (2 * j) 0 := by
  induction c generalizing l j with
  | zero => omega
  | succ c ih =>
    match l with
    | a :: l =>
      rw [evens]
      cases j with
      | zero => rfl
      | succ j =>
        rw [List.getD_cons_succ, ih _ _ (by omega), show 2 * (j + 1) = 2 * j + 1 + 1 by ring, List.getD_cons_succ]
        cases l <;> simp
    | [] => rw [evens]; simp

theorem evens_mem (c : Nat) (l : List Nat) : ∀ x ∈ evens c l, x ∈ l := by
  induction c generalizing l with
  | zero => intro x hx; exact absurd hx (by simp [evens])
  | succ c ih =>
    match l with
    | a :: l =>
      intro x hx
      rw [evens] at hx
      rcases List.mem_cons.1 hx with rfl | h
      · simp
      · exact List.mem_cons_of_mem _ (List.mem_of_mem_tail (ih _ _ h))
    | [] => intro x hx; exact absurd hx (by simp [evens])

/-- The matrix. -/
def nMat (K c ρ : Nat) : List (List P) :=
  (List.range K).map fun i => (List.range K).map fun j => forceL (nentry c ρ i j) fun l => (evens 128 l, evens 128 l.tail)

theorem accepted_lt (L : List UInt8) : ∀ x ∈ accepted L, x < 3329 := by
  intro x hx; unfold accepted at hx; simpa using (List.mem_filter.1 hx).2

theorem rp_entry {K c : Nat} (hK : K ≤ 256) {ρ : List UInt8} (hρ : ρ.length = 32) (h : Enough K (168 * c) ρ) {i j : Nat} (hi : i < K) (hj : j < K) :
    Rp (forceL (nentry c (leN ρ) i j) fun l => (evens 128 l, evens 128 l.tail)) ((SampleNTT (168 * c) (ρ ++ [UInt8.ofNat j, UInt8.ofNat i])).getD 0) := by
  have hl := h i j hi hj
  rw [forceL_eq, ← accepted_entry c ρ hρ i j (by omega) (by omega), C25_SampleNTT, if_pos hl]
  have hm := accepted_lt (SHAKE128 (ρ ++ [UInt8.ofNat j, UInt8.ofNat i]) (168 * c))
  generalize accepted (SHAKE128 (ρ ++ [UInt8.ofNat j, UInt8.ofNat i]) (168 * c)) = l at hl hm
  have ht : ∀ n, l.tail.getD n 0 = l.getD (n + 1) 0 := by cases l <;> simp
  constructor
  · refine ⟨evens_length _ _ (by omega), fun x hx => hm x (evens_mem _ _ x hx), fun n hn => ?_⟩
    rw [evens_getD _ _ _ hn]
    show (if 2 * n < 256 then _ else _) = _
    rw [if_pos (by omega)]
  · refine ⟨evens_length _ _ (by simp; omega), fun x hx => hm x (List.mem_of_mem_tail (evens_mem _ _ x hx)), fun n hn => ?_⟩
    rw [evens_getD _ _ _ hn, ht]
    show (if 2 * n + 1 < 256 then _ else _) = _
    rw [if_pos (by omega)]

/-- The matrix `M` represents `A`. -/
def RM (K : Nat) (M : List (List P)) (A : Nat → Nat → Spec.Poly) : Prop := M.length = K ∧ ∀ i, i < K → Rv K (M.getD i []) (A i)

theorem rm_mat {K c : Nat} (hK : K ≤ 256) {ρ : List UInt8} (hρ : ρ.length = 32) (h : Enough K (168 * c) ρ) :
    RM K (nMat K c (leN ρ)) fun i j => (SampleNTT (168 * c) (ρ ++ [UInt8.ofNat j, UInt8.ofNat i])).getD 0 := by
  refine ⟨by simp [nMat], fun i hi => ?_⟩
  unfold nMat
  rw [getD_map _ (List.range K) 0 [] (by simpa using hi), List.getD_eq_getElem?_getD, List.getElem?_range hi]
  exact rv_map fun j hj => rp_entry hK hρ h hi hj

/-- Column `i`. -/
def col (M : List (List P)) (i : Nat) : List P := M.map fun r => r.getD i ([], [])

theorem RM.col {K : Nat} {M : List (List P)} {A : Nat → Nat → Spec.Poly} (h : RM K M A) {i : Nat} (hi : i < K) : Rv K (col M i) fun j => A j i := by
  refine ⟨by rw [Eval.col, List.length_map, h.1], fun j hj => ?_⟩
  rw [Eval.col, getD_map _ M [] ([], []) (by rw [h.1]; exact hj)]
  exact (h.2 j hj).2 i hi

/-! ## Encoding and compression -/

/-- `ByteEncode_d` as a number. -/
def nEnc (d : Nat) (p : P) : Nat := packN (Nat.mul 2 d) (List.zipWith (fun a b => Nat.add (Nat.mul (Nat.pow 2 d) b) a) p.1 p.2)

theorem leN_ByteEncode {d : Nat} (hd : 0 < d) {F : Nat → Nat} (hF : ∀ i, i < 256 → F i < 2 ^ d) {p : P} (l1 : p.1.length = 128) (l2 : p.2.length = 128)
    (h1 : ∀ j, j < 128 → F (2 * j) = p.1.getD j 0) (h2 : ∀ j, j < 128 → F (2 * j + 1) = p.2.getD j 0) : leN (ByteEncode d F) = nEnc d p := by
  have hlt : ∀ x ∈ List.zipWith (fun a b => Nat.add (Nat.mul (Nat.pow 2 d) b) a) p.1 p.2, x < 2 ^ (2 * d) := by
    intro x hx
    obtain ⟨j, hj, rfl⟩ := List.mem_iff_getElem.1 hx
    have hj' : j < 128 := by rw [List.length_zipWith, l1, l2] at hj; exact hj
    rw [List.getElem_zipWith]
    have a1 : p.1[j]'(by omega) < 2 ^ d := by
      have := hF (2 * j) (by omega); rw [h1 j hj', List.getD_eq_getElem?_getD, List.getElem?_eq_getElem (by omega)] at this; exact this
    have a2 : p.2[j]'(by omega) < 2 ^ d := by
      have := hF (2 * j + 1) (by omega); rw [h2 j hj', List.getD_eq_getElem?_getD, List.getElem?_eq_getElem (by omega)] at this; exact this
    show 2 ^ d * p.2[j] + p.1[j] < _
    rw [two_mul, pow_add]
    calc 2 ^ d * p.2[j] + p.1[j] < 2 ^ d * p.2[j] + 2 ^ d := by omega
      _ = 2 ^ d * (p.2[j] + 1) := by ring
      _ ≤ 2 ^ d * 2 ^ d := Nat.mul_le_mul_left _ a2
  refine Nat.eq_of_testBit_eq fun k => ?_
  unfold nEnc
  rw [testBit_leN, show Nat.mul 2 d = 2 * d from rfl, testBit_packN (by omega) _ hlt]
  have hk := Nat.div_add_mod k (2 * d)
  have hr := Nat.mod_lt k (show 2 * d > 0 by omega)
  by_cases hq : k / (2 * d) < 128
  · have hk2 : k < 256 * d := by
      have : 2 * d * (k / (2 * d)) ≤ 2 * d * 127 := Nat.mul_le_mul_left _ (by omega)
      omega
    rw [bitAt_ByteEncode d hd F hk2, getD_zip _ _ _ 0 0 0 (by omega) (by omega), ← h1 _ hq, ← h2 _ hq]
    generalize k / (2 * d) = q at hk hq
    generalize k % (2 * d) = r at hk hr
    show _ = (2 ^ d * F (2 * q + 1) + F (2 * q)).testBit r
    rw [Nat.testBit_two_pow_mul_add _ (hF _ (by omega))]
    by_cases hrd : r < d
    · rw [if_pos hrd, ← hk, show 2 * d * q + r = d * (2 * q) + r by ring, Nat.mul_add_div hd, Nat.div_eq_of_lt hrd, Nat.mul_add_mod, Nat.mod_eq_of_lt hrd, Nat.add_zero]
    · rw [if_neg hrd, ← hk, show 2 * d * q + r = d * (2 * q + 1) + (r - d) by rw [show d * (2 * q + 1) = 2 * d * q + d by ring]; omega, Nat.mul_add_div hd, Nat.div_eq_of_lt (by omega), Nat.mul_add_mod, Nat.mod_eq_of_lt (by omega), Nat.add_zero]
  · have hlen : (ByteEncode d F).length = 32 * d := ByteEncode_length _ _
    have hk2 : 256 * d ≤ k := by
      have : 2 * d * 128 ≤ 2 * d * (k / (2 * d)) := Nat.mul_le_mul_left _ (by omega)
      omega
    unfold bitAt
    rw [getD_ge _ _ (by rw [hlen]; omega), getD_ge _ _ (by rw [List.length_zipWith, l1, l2]; omega)]
    simp

theorem Rp.enc12 {p : P} {f : Spec.Poly} (h : Rp p f) : leN (ByteEncode 12 fun c => (f c).val) = nEnc 12 p :=
  leN_ByteEncode (by omega) (fun i _ => lt_of_lt_of_le (ZMod.val_lt (f i)) (by norm_num)) h.even.len h.odd.len (fun j hj => h.even.val hj) (fun j hj => h.odd.val hj)

theorem leN_flatMap {α : Type} (l : List α) (f : α → List UInt8) (L : Nat) (hL : ∀ a ∈ l, (f a).length = L) : leN (l.flatMap f) = packN (8 * L) (l.map fun a => leN (f a)) := by
  induction l with
  | nil => rfl
  | cons a l ih =>
    rw [List.flatMap_cons, leN_append, hL a (by simp), ih fun b hb => hL b (by simp [hb]), List.map_cons]
    show _ = 2 ^ (8 * L) * packN (8 * L) _ + _
    rw [Nat.add_comm]

theorem map_range_eq {K : Nat} {l : List P} (hl : l.length = K) (g : Nat → Nat) (h : P → Nat) (e : ∀ i, i < K → g i = h (l.getD i ([], []))) : (List.range K).map g = l.map h := by
  refine List.ext_getElem (by simp [hl]) fun i hi hi' => ?_
  simp only [List.length_map, List.length_range] at hi
  rw [List.getElem_map, List.getElem_map, List.getElem_range, e i hi, List.getD_eq_getElem?_getD, List.getElem?_eq_getElem (by omega)]
  rfl

/-- `encode12` as a number. -/
def nEnc12 (l : List P) : Nat := packN 3072 (l.map (nEnc 12))

theorem Rv.enc12 {K : Nat} {l : List P} {v : Nat → Spec.Poly} (h : Rv K l v) : leN (encode12 K v) = nEnc12 l := by
  unfold encode12 nEnc12
  rw [leN_flatMap _ _ 384 fun a _ => ByteEncode_length _ _, map_range_eq h.1 _ (nEnc 12) fun i hi => (h.2 i hi).enc12]

/-- `Compress_d`. -/
def comp (d u : Nat) : Nat := Nat.mod (Nat.div (Nat.add (Nat.mul (Nat.pow 2 (Nat.add d 1)) u) 3329) 6658) (Nat.pow 2 d)
/-- `Compress_d` of a polynomial. -/
def nComp (d : Nat) (p : P) : P := (p.1.map (comp d), p.2.map (comp d))
/-- `Decompress_d`. -/
def decomp (d y : Nat) : Nat := Nat.mod (Nat.div (Nat.add (Nat.mul 6658 y) (Nat.pow 2 d)) (Nat.pow 2 (Nat.add d 1))) 3329
/-- `Decompress_d` of a polynomial. -/
def nDecomp (d : Nat) (p : P) : P := (p.1.map (decomp d), p.2.map (decomp d))

theorem comp_eq (d : Nat) (x : Zq) : comp d x.val = Compress d x := by rw [Compress_eq]; rfl

theorem HL.comp {l : List Nat} {f : Nat → Zq} (h : HL l f) (d : Nat) {j : Nat} (hj : j < 128) : Compress d (f j) = (l.map (comp d)).getD j 0 := by
  rw [getD_map _ l 0 0 (by rw [h.len]; exact hj), ← h.val hj, comp_eq]

theorem Rp.encComp {p : P} {f : Spec.Poly} (h : Rp p f) {d : Nat} (hd : 0 < d) : leN (ByteEncode d fun c => Compress d (f c)) = nEnc d (nComp d p) :=
  leN_ByteEncode hd (fun i _ => by rw [Compress_eq]; exact Nat.mod_lt _ (by positivity)) (by simp [nComp, h.even.len]) (by simp [nComp, h.odd.len])
    (fun j hj => h.even.comp d hj) (fun j hj => h.odd.comp d hj)

theorem HL.decomp {l : List Nat} {f : Nat → Zq} (h : HL l f) (d : Nat) : HL ((l.map (Eval.comp d)).map (Eval.decomp d)) fun j => Decompress d (Compress d (f j)) := by
  refine HL.mk' (by simp [h.len]) (fun j => decompNat d (Compress d (f j))) (fun j hj => ?_) (fun j hj => Decompress_eq _ _)
  rw [getD_map _ (l.map (Eval.comp d)) 0 0 (by rw [List.length_map, h.len]; exact hj), ← h.comp d hj]
  rfl

theorem Rp.decomp {p : P} {f : Spec.Poly} (h : Rp p f) (d : Nat) : Rp (nDecomp d (nComp d p)) fun c => Decompress d (Compress d (f c)) := ⟨h.even.decomp d, h.odd.decomp d⟩

/-- The encoded message. -/
def nMu (m : Nat) : P :=
  ((List.range 128).map fun j => Nat.mul 1665 (Nat.mod (Nat.shiftRight m (Nat.mul 2 j)) 2), (List.range 128).map fun j => Nat.mul 1665 (Nat.mod (Nat.shiftRight m (Nat.add (Nat.mul 2 j) 1)) 2))

theorem rp_mu (m : List UInt8) : Rp (nMu (leN m)) fun c => Decompress 1 (ByteDecode 1 m c) := by
  have key : ∀ i, Decompress 1 (ByteDecode 1 m i) = ((1665 * (leN m >>> i % 2) : Nat) : Zq) ∧ 1665 * (leN m >>> i % 2) = 1665 * (leN m >>> i % 2) % 3329 := by
    intro i
    rw [ByteDecode_one, ← testBit_leN, Decompress_eq, Nat.testBit_eq_decide_div_mod_eq, Nat.shiftRight_eq_div_pow]
    rcases Nat.mod_two_eq_zero_or_one (leN m / 2 ^ i) with h | h <;> rw [h] <;> exact ⟨by simp [decompNat], by norm_num⟩
  constructor
  · exact hl_range _ (fun j => 1665 * (leN m >>> (2 * j) % 2)) (fun j => (key (2 * j)).2) fun j _ => (key (2 * j)).1
  · exact hl_range _ (fun j => 1665 * (leN m >>> (2 * j + 1) % 2)) (fun j => (key (2 * j + 1)).2) fun j _ => (key (2 * j + 1)).1

/-! ## K-PKE -/

/-- Noise polynomials `b`, `b + 1`, … -/
def noiseV (K η σ b : Nat) : List P := (List.range K).map fun i => nCBD η (nPRF σ (Nat.add b i))
/-- NTT of a vector. -/
def nttV (l : List P) : List P := l.map nNTT
/-- Public vector. -/
def tV (A : List (List P)) (s e : List P) : List P := List.zipWith (fun r e => forceP (nDot r s) fun x => nAdd x e) A e
/-- First part of a ciphertext before compression. -/
def uV (K : Nat) (A : List (List P)) (y e1 : List P) : List P :=
  (List.range K).map fun i => forceP (nDot (col A i) y) fun x => forceP (nInv x) fun x => nAdd x (e1.getD i ([], []))
/-- Second part. -/
def vP (t y : List P) (e2 μ : P) : P := forceP (nDot t y) fun x => forceP (nInv x) fun x => forceP (nAdd x e2) fun x => nAdd x μ
/-- Ciphertext. -/
def nCt (K : Nat) (u : List P) (v : P) : Nat :=
  Nat.add (packN (Nat.mul 256 (d_u K)) (u.map fun p => nEnc (d_u K) (nComp (d_u K) p))) (Nat.mul (Nat.pow 2 (Nat.mul (Nat.mul 256 (d_u K)) K)) (nEnc (d_v K) (nComp (d_v K) v)))
/-- Message recovered from a ciphertext. -/
def nMsg (K : Nat) (s u : List P) (v : P) : Nat :=
  forceV (u.map fun p => nDecomp (d_u K) (nComp (d_u K) p)) fun u => forceV (nttV u) fun u => forceP (nDot s u) fun x => forceP (nInv x) fun x =>
    forceP (nDecomp (d_v K) (nComp (d_v K) v)) fun v => forceP (nSub v x) fun w => nEnc 1 (nComp 1 w)

theorem rv_noise {K η b : Nat} (hη : η ≤ 3) {σ : List UInt8} (hσ : σ.length = 32) (hb : b + K ≤ 256) : Rv K (noiseV K η (leN σ) b) fun i => SamplePolyCBD η (PRF η σ (b + i)) :=
  rv_map fun _ hi => rp_cbd hη fun _ hk => bitAt_PRF (by omega) hσ (by omega) hk

theorem Rv.ntt {K : Nat} {l : List P} {v : Nat → Spec.Poly} (h : Rv K l v) : Rv K (nttV l) fun i => NTT (v i) := h.map (F := NTT) fun _ _ h => h.ntt

theorem rv_t {K : Nat} {A : List (List P)} {s e : List P} {A' : Nat → Nat → Spec.Poly} {s' e' : Nat → Spec.Poly} (hA : RM K A A') (hs : Rv K s s') (he : Rv K e e') :
    Rv K (tV A s e) fun i c => (∑ j ∈ range K, MultiplyNTTs (A' i j) (s' j) c) + e' i c := by
  refine ⟨by rw [tV, List.length_zipWith, hA.1, he.1]; omega, fun i hi => ?_⟩
  rw [tV, getD_zip _ _ _ [] ([], []) _ (by rw [hA.1]; exact hi) (by rw [he.1]; exact hi), forceP_eq]
  exact (rp_dot (hA.2 i hi) hs).add (he.2 i hi)

theorem rv_u {K : Nat} {A : List (List P)} {y e1 : List P} {A' : Nat → Nat → Spec.Poly} {y' e1' : Nat → Spec.Poly} (hA : RM K A A') (hy : Rv K y y') (he : Rv K e1 e1') :
    Rv K (uV K A y e1) fun i c => NTTInv (fun c => ∑ j ∈ range K, MultiplyNTTs (A' j i) (y' j) c) c + e1' i c :=
  rv_map fun i hi => by
    rw [forceP_eq, forceP_eq]
    exact (rp_dot (hA.col hi) hy).inv.add (he.2 i hi)

theorem rp_v {K : Nat} {t y : List P} {e2 μ : P} {t' y' : Nat → Spec.Poly} {e2' μ' : Spec.Poly} (ht : Rv K t t') (hy : Rv K y y') (he : Rp e2 e2') (hμ : Rp μ μ') :
    Rp (vP t y e2 μ) fun c => NTTInv (fun c => ∑ j ∈ range K, MultiplyNTTs (t' j) (y' j) c) c + e2' c + μ' c := by
  rw [vP, forceP_eq, forceP_eq, forceP_eq]
  exact ((rp_dot ht hy).inv.add he).add hμ

theorem Rv.congr {K : Nat} {l : List P} {v w : Nat → Spec.Poly} (h : Rv K l v) (e : ∀ i, i < K → ∀ n, n < 256 → v i n = w i n) : Rv K l w :=
  ⟨h.1, fun i hi => (h.2 i hi).congr (e i hi)⟩

theorem leN_ct {K : Nat} {u : List P} {v : P} {u' : Nat → Spec.Poly} {v' : Spec.Poly} (hu : Rv K u u') (hv : Rp v v') :
    leN (((List.range K).flatMap fun i => ByteEncode (d_u K) fun c => Compress (d_u K) (u' i c)) ++ ByteEncode (d_v K) fun c => Compress (d_v K) (v' c)) = nCt K u v := by
  have hdu : 0 < d_u K := by unfold d_u; split <;> omega
  have hdv : 0 < d_v K := by unfold d_v; split <;> omega
  rw [leN_append, leN_flatMap _ _ (32 * d_u K) fun a _ => ByteEncode_length _ _, flatMap_length (k := K) fun i => ByteEncode_length (d_u K) (fun c => Compress (d_u K) (u' i c)), hv.encComp hdv,
    map_range_eq hu.1 _ (fun p => nEnc (d_u K) (nComp (d_u K) p)) fun i hi => (hu.2 i hi).encComp hdu]
  show _ = packN (256 * d_u K) _ + 2 ^ (256 * d_u K * K) * _
  rw [show 8 * (32 * d_u K) = 256 * d_u K by ring, show 8 * (K * (32 * d_u K)) = 256 * d_u K * K by ring]

theorem leN_msg {K : Nat} {s u : List P} {v : P} {s' u' : Nat → Spec.Poly} {v' : Spec.Poly} (hs : Rv K s s') (hu : Rv K u u') (hv : Rp v v') :
    leN (kpkeDecrypt K (encode12 K s') (((List.range K).flatMap fun i => ByteEncode (d_u K) fun c => Compress (d_u K) (u' i c)) ++ ByteEncode (d_v K) fun c => Compress (d_v K) (v' c)))
      = nMsg K s u v := by
  unfold kpkeDecrypt nMsg
  simp only [forceV_eq, forceP_eq]
  generalize hct : ((List.range K).flatMap fun i => ByteEncode (d_u K) fun c => Compress (d_u K) (u' i c)) ++ (ByteEncode (d_v K) fun c => Compress (d_v K) (v' c)) = ct
  have h1 : Rv K s (decode12 (encode12 K s')) := hs.congr fun i hi n hn => by
    have := decode12_encode12 s' [] hi hn
    rw [List.append_nil] at this
    exact this.symm
  have h2 : Rv K (u.map fun p => nDecomp (d_u K) (nComp (d_u K) p)) (ctU K ct) :=
    (hu.map (F := fun f c => Decompress (d_u K) (Compress (d_u K) (f c))) fun _ _ h => h.decomp _).congr fun i hi n hn => by
      rw [← hct]; exact (ctU_encrypt u' _ hi hn).symm
  have h3 : Rp (nDecomp (d_v K) (nComp (d_v K) v)) (ctV K ct) := (hv.decomp _).congr fun n hn => by
    rw [← hct]; exact (ctV_encrypt u' v' hn).symm
  exact Rp.encComp (f := decryptW K (encode12 K s') ct) (h3.sub (rp_dot h1 h2.ntt).inv) (by omega)

/-! ## A complete run -/

/-- Evaluate the key generation. -/
def nKG {β : Type} (K c d : Nat) (k : Nat → List (List P) → List P → List P → β) : β :=
  force (nhash 72 6 (Nat.add d (Nat.mul (Nat.pow 2 256) K)) 33 1) fun g => force (Nat.mod g (Nat.pow 2 256)) fun ρ =>
  force (Nat.mod (Nat.shiftRight g 256) (Nat.pow 2 256)) fun σ => forceM (nMat K c ρ) fun A =>
  forceV (noiseV K (η₁ K) σ 0) fun s => forceV (nttV s) fun s => forceV (noiseV K (η₁ K) σ K) fun e => forceV (nttV e) fun e => forceV (tV A s e) fun t => k ρ A s t

/-- Evaluate the encryption. -/
def nEncr {β : Type} (K : Nat) (A : List (List P)) (t : List P) (m r : Nat) (k : List P → P → β) : β :=
  forceV (noiseV K (η₁ K) r 0) fun y => forceV (nttV y) fun y => forceV (noiseV K 2 r K) fun e1 => forceV (noiseV 1 2 r (Nat.mul 2 K)) fun e2 =>
  forceV (uV K A y e1) fun u => forceP (vP t y (e2.getD 0 ([], [])) (nMu m)) fun v => k u v

theorem leN_split (M : List UInt8) : leN ((SHA3_512 M).take 32) = nhash 72 6 (leN M) M.length 1 % 2 ^ 256 ∧
    leN ((SHA3_512 M).drop 32) = nhash 72 6 (leN M) M.length 1 >>> 256 % 2 ^ 256 := by
  have hl : (SHA3_512 M).length = 64 := by rw [SHA3_512_eq]; simp
  have e := leN_SHA3_512 M
  generalize nhash 72 6 (leN M) M.length 1 = x at e
  have h2 := congrArg leN (List.take_append_drop 32 (SHA3_512 M)).symm
  rw [leN_append, List.length_take, hl, e] at h2
  have h3 := leN_lt ((SHA3_512 M).take 32)
  have h4 := leN_lt ((SHA3_512 M).drop 32)
  rw [List.length_take, hl] at h3
  rw [List.length_drop, hl] at h4
  rw [show 8 * min 32 64 = 256 from rfl] at h2 h3
  rw [show 8 * (64 - 32) = 256 from rfl] at h4
  generalize leN ((SHA3_512 M).take 32) = a at *
  generalize leN ((SHA3_512 M).drop 32) = b at *
  rw [Nat.shiftRight_eq_div_pow, show (512 : Nat) = 256 + 256 from rfl, pow_add] at *
  generalize (2 : Nat) ^ 256 = B at *
  have h5 : x % (B * B) % B = x % B := Nat.mod_mul_right_mod _ _ _
  have h6 : x % (B * B) / B = x / B % B := Nat.mod_mul_right_div_self _ _ _
  rw [← h5, ← h6, h2, Nat.add_mul_mod_self_left, Nat.mod_eq_of_lt h3, Nat.add_mul_div_left _ _ (by omega), Nat.div_eq_of_lt h3, Nat.zero_add]
  exact ⟨rfl, rfl⟩

theorem kg_sound {K c : Nat} (hK : K ≤ 4) {d : List UInt8} (hd : d.length = 32) (hen : Enough K (168 * c) ((SHA3_512 (d ++ [UInt8.ofNat K])).take 32)) :
    ∃ A s t A' s' t', (∀ {β : Type} (k : Nat → List (List P) → List P → List P → β), nKG K c (leN d) k = k (leN ((SHA3_512 (d ++ [UInt8.ofNat K])).take 32)) A s t) ∧
      RM K A A' ∧ Rv K s s' ∧ Rv K t t' ∧ sampleA K (168 * c) ((SHA3_512 (d ++ [UInt8.ofNat K])).take 32) = some A' ∧
      kpkeKeyGen K (168 * c) d = some (encode12 K t' ++ (SHA3_512 (d ++ [UInt8.ofNat K])).take 32, encode12 K s') := by
  obtain ⟨hρ, hσ⟩ := leN_split (d ++ [UInt8.ofNat K])
  have e2 : leN (d ++ [UInt8.ofNat K]) = leN d + 2 ^ 256 * K := by
    rw [leN_append, hd]
    congr 2
    show 256 * 0 + (UInt8.ofNat K).toNat = _
    rw [UInt8.toNat_ofNat']; omega
  rw [e2, show (d ++ [UInt8.ofNat K]).length = 33 by simp [hd]] at hρ hσ
  have hl : (SHA3_512 (d ++ [UInt8.ofNat K])).length = 64 := by rw [SHA3_512_eq]; simp
  generalize hr : (SHA3_512 (d ++ [UInt8.ofNat K])).take 32 = ρ at *
  generalize hs : (SHA3_512 (d ++ [UInt8.ofNat K])).drop 32 = σ at *
  have lρ : ρ.length = 32 := by rw [← hr, List.length_take, hl]; rfl
  have lσ : σ.length = 32 := by rw [← hs, List.length_drop, hl]
  have hη : η₁ K ≤ 3 := by unfold η₁; split <;> omega
  have hA := rm_mat (by omega) lρ hen
  have hS := (rv_noise (K := K) (b := 0) hη lσ (by omega)).ntt
  have hE := (rv_noise (K := K) (b := K) hη lσ (by omega)).ntt
  have hT := rv_t hA hS hE
  have hsa : sampleA K (168 * c) ρ = some fun i j => (SampleNTT (168 * c) (ρ ++ [UInt8.ofNat j, UInt8.ofNat i])).getD 0 := by
    have h1 := (sampleA_some_iff K (168 * c) ρ).2 hen
    unfold sampleA at h1 ⊢
    split at h1
    · rename_i h'; rw [if_pos h']
    · simp at h1
  refine ⟨_, _, _, _, _, _, fun k => ?_, hA, hS, hT, hsa, ?_⟩
  · unfold nKG
    simp only [forceV_eq, forceM_eq, force_eq]
    rw [hρ, hσ]
    rfl
  · unfold kpkeKeyGen
    dsimp only
    rw [show (G (d ++ [UInt8.ofNat K])).1 = ρ from hr, show (G (d ++ [UInt8.ofNat K])).2 = σ from hs, hsa, Option.map_some]
    simp only [Nat.zero_add]

theorem encr_sound {K c : Nat} (hK : K ≤ 4) {ρ m r : List UInt8} (hρ : ρ.length = 32) (hr : r.length = 32) {A : List (List P)} {t : List P} {A' : Nat → Nat → Spec.Poly} {t' : Nat → Spec.Poly}
    (hA : RM K A A') (ht : Rv K t t') (hs : sampleA K (168 * c) ρ = some A') :
    ∃ u v u' v', (∀ {β : Type} (k : List P → P → β), nEncr K A t (leN m) (leN r) k = k u v) ∧ Rv K u u' ∧ Rp v v' ∧
      kpkeEncrypt K (168 * c) (encode12 K t' ++ ρ) m r =
        some (((List.range K).flatMap fun i => ByteEncode (d_u K) fun c => Compress (d_u K) (u' i c)) ++ ByteEncode (d_v K) fun c => Compress (d_v K) (v' c)) := by
  have hη : η₁ K ≤ 3 := by unfold η₁; split <;> omega
  have hy := (rv_noise (K := K) (b := 0) hη hr (by omega)).ntt
  have he1 := rv_noise (K := K) (η := 2) (b := K) (by omega) hr (by omega)
  have he2 := (rv_noise (K := 1) (η := 2) (b := 2 * K) (by omega) hr (by omega)).2 0 (by omega)
  have ht' := ht.congr (w := decode12 (encode12 K t' ++ ρ)) fun i hi n hn => (decode12_encode12 t' ρ hi hn).symm
  have hu := rv_u hA hy he1
  have hv := rp_v ht' hy he2 (rp_mu m)
  refine ⟨_, _, _, _, fun k => ?_, hu, hv, ?_⟩
  · unfold nEncr
    simp only [forceV_eq, forceP_eq]
    rfl
  · have hl : (encode12 K t').length = 384 * K := by
      unfold encode12
      rw [flatMap_length (k := K) fun i => ByteEncode_length 12 _]; ring
    unfold kpkeEncrypt
    dsimp only
    rw [List.drop_left' hl, List.take_of_length_le (by omega), hs, Option.map_some]
    simp only [Nat.zero_add, Nat.add_zero]
    rfl

/-- A run with seed `d` and message `m`: the decapsulated message is `m` and the rejection key for `z` differs from the encapsulated key. -/
def run (K c d m z : Nat) : Bool :=
  nKG K c d fun ρ A s t => force (Nat.add (nEnc12 t) (Nat.mul (Nat.pow 2 (Nat.mul 3072 K)) ρ)) fun ek =>
  force (Nat.mod (nhash 136 6 ek (Nat.add (Nat.mul 384 K) 32) 1) (Nat.pow 2 256)) fun h =>
  force (nhash 72 6 (Nat.add m (Nat.mul (Nat.pow 2 256) h)) 64 1) fun g => force (Nat.mod (Nat.shiftRight g 256) (Nat.pow 2 256)) fun r =>
  nEncr K A t m r fun u v => force (nCt K u v) fun ct =>
  Nat.beq (nMsg K s u v) m &&
    !Nat.beq (Nat.mod (nhash 136 31 (Nat.add z (Nat.mul (Nat.pow 2 256) ct)) (Nat.add 32 (Nat.mul 32 (Nat.add (Nat.mul (d_u K) K) (d_v K)))) 1) (Nat.pow 2 256)) (Nat.mod g (Nat.pow 2 256))

theorem run_sound {K c : Nat} (hK : K ≤ 4) {d m z : List UInt8} (hd : d.length = 32) (hm : m.length = 32) (hz : z.length = 32)
    (hen : Enough K (168 * c) ((SHA3_512 (d ++ [UInt8.ofNat K])).take 32)) (h : run K c (leN d) (leN m) (leN z) = true) :
    ∃ ek s ct, kpkeKeyGen K (168 * c) d = some (ek, s) ∧ kpkeEncrypt K (168 * c) ek m ((SHA3_512 (m ++ SHA3_256 ek)).drop 32) = some ct ∧
      kpkeDecrypt K s ct = m ∧ SHAKE256 (z ++ ct) 32 ≠ (SHA3_512 (m ++ SHA3_256 ek)).take 32 := by
  obtain ⟨A, s, t, A', s', t', e1, hA, hs, ht, hsa, hkg⟩ := kg_sound hK hd hen
  unfold run at h
  rw [e1] at h
  have lρ : ((SHA3_512 (d ++ [UInt8.ofNat K])).take 32).length = 32 := by rw [List.length_take, SHA3_512_eq]; simp
  generalize (SHA3_512 (d ++ [UInt8.ofNat K])).take 32 = ρ at *
  have hl : (encode12 K t').length = 384 * K := by
    unfold encode12
    rw [flatMap_length (k := K) fun i => ByteEncode_length 12 _]; ring
  have eek : leN (encode12 K t' ++ ρ) = nEnc12 t + 2 ^ (3072 * K) * leN ρ := by
    rw [leN_append, ht.enc12, hl, show 8 * (384 * K) = 3072 * K by ring]
  have lek : (encode12 K t' ++ ρ).length = 384 * K + 32 := by rw [List.length_append, hl, lρ]
  generalize hek : encode12 K t' ++ ρ = ek at *
  have eh := leN_SHA3_256 ek
  have lh : (SHA3_256 ek).length = 32 := by rw [SHA3_256_eq]; simp
  rw [eek, lek] at eh
  obtain ⟨gk, gr⟩ := leN_split (m ++ SHA3_256 ek)
  have lr : ((SHA3_512 (m ++ SHA3_256 ek)).drop 32).length = 32 := by rw [List.length_drop, SHA3_512_eq]; simp
  rw [leN_append, hm, eh, show (m ++ SHA3_256 ek).length = 64 by rw [List.length_append, hm, lh]] at gk gr
  generalize hr : (SHA3_512 (m ++ SHA3_256 ek)).drop 32 = r at *
  generalize hkey : (SHA3_512 (m ++ SHA3_256 ek)).take 32 = key at *
  obtain ⟨u, v, u', v', e2, hu, hv, henc⟩ := encr_sound (m := m) hK lρ lr hA ht hsa
  rw [hek] at henc
  simp only [force_eq] at h
  have h' : (Nat.beq (nMsg K s u v) (leN m) && !Nat.beq (nhash 136 31 (leN z + 2 ^ 256 * nCt K u v) (32 + 32 * (d_u K * K + d_v K)) 1 % 2 ^ 256) (leN key)) = true := by
    rw [← h, ← e2 (fun u v => (Nat.beq (nMsg K s u v) (leN m) && !Nat.beq (nhash 136 31 (leN z + 2 ^ 256 * nCt K u v) (32 + 32 * (d_u K * K + d_v K)) 1 % 2 ^ 256) (leN key)) ), gk, gr]
    rfl
  rw [Bool.and_eq_true, Bool.not_eq_true'] at h'
  rw [← hr] at henc
  refine ⟨ek, encode12 K s', _, hkg, henc, ?_, ?_⟩
  · refine leN_inj ?_ ((leN_msg hs hu hv).trans (Nat.eq_of_beq_eq_true h'.1))
    unfold kpkeDecrypt
    rw [ByteEncode_length, hm]
  · rw [hkey]
    intro hc
    refine absurd ?_ (ne_true_of_eq_false h'.2)
    have := leN_SHAKE256 (z ++ (((List.range K).flatMap fun i => ByteEncode (d_u K) fun c => Compress (d_u K) (u' i c)) ++ ByteEncode (d_v K) fun c => Compress (d_v K) (v' c))) 32 1 (by omega)
    rw [hc, leN_append, leN_ct hu hv, hz, List.length_append, List.length_append, flatMap_length (k := K) fun i => ByteEncode_length (d_u K) (fun c => Compress (d_u K) (u' i c)), ByteEncode_length, hz] at this
    rw [this, show K * (32 * d_u K) + 32 * d_v K = 32 * (d_u K * K + d_v K) by ring]
    exact Nat.beq_refl _

end Verif.Eval

import Verif.Props.TestMlkem
import Verif.Model.Bench
import Verif.Spec.Bench
/-! # C75: the benchmark program -/
namespace Verif.Props
open Verif Verif.Model Verif.Spec

attribute [local irreducible] keccakF partialK finK blocksK sqByte SHAKE256 SHA3_256 SHA3_512 SHAKE128 KeyGen_internal Encaps_internal Decaps_internal
  Native.crypto_kem_keypair_derand Native.crypto_kem_enc_derand Native.crypto_kem_dec

namespace Bench
open Verif.Model.Bench Verif.Model.TestMlkem TestMlkem

/-! ## Comparing and sorting -/

theorem cmp_close {a b : UInt64} (h1 : a.toNat < b.toNat + 2 ^ 31) (h2 : b.toNat < a.toNat + 2 ^ 31) : cmp_uint64_t a b = (a.toNat : Int) - b.toNat := by
  unfold cmp_uint64_t
  have ha := a.toNat_lt
  have hb := b.toNat_lt
  have e : ((a - b).toBitVec.setWidth 32).toNat = (2 ^ 64 - b.toNat + a.toNat) % 2 ^ 64 % 2 ^ 32 := by
    rw [BitVec.toNat_setWidth, UInt64.toNat_toBitVec, UInt64.toNat_sub]
  rw [BitVec.toInt_eq_toNat_cond, e]
  split <;> omega

theorem cmp_far {a b : UInt64} (h1 : a.toNat + 2 ^ 31 < b.toNat) (h2 : b.toNat < a.toNat + 2 ^ 32) : cmp_uint64_t a b = (a.toNat : Int) - b.toNat + 2 ^ 32 ∧ cmp_uint64_t b a = (b.toNat : Int) - a.toNat - 2 ^ 32 := by
  unfold cmp_uint64_t
  have ha := a.toNat_lt
  have hb := b.toNat_lt
  have e : ∀ a b : UInt64, ((a - b).toBitVec.setWidth 32).toNat = (2 ^ 64 - b.toNat + a.toNat) % 2 ^ 64 % 2 ^ 32 := fun a b => by
    rw [BitVec.toNat_setWidth, UInt64.toNat_toBitVec, UInt64.toNat_sub]
  rw [BitVec.toInt_eq_toNat_cond, BitVec.toInt_eq_toNat_cond, e, e]
  constructor <;> split <;> omega

theorem close_consistent {l : List UInt64} (h : Near31 l) : Consistent cmp_uint64_t l := by
  constructor
  · intro a ha b hb
    rw [cmp_close (h a ha b hb) (h b hb a ha), cmp_close (h b hb a ha) (h a ha b hb)]; omega
  · intro a ha b hb c hc
    rw [cmp_close (h a ha b hb) (h b hb a ha), cmp_close (h b hb c hc) (h c hc b hb), cmp_close (h a ha c hc) (h c hc a ha)]; omega

/-- On close elements, sorting with the comparison function of the program gives the order statistics. -/
theorem sorted_eq {q : Qsort} (hq : Sorts q) {l : List UInt64} (h : Near31 l) : (q cmp_uint64_t l).map UInt64.toNat = (l.map UInt64.toNat).mergeSort (fun a b => decide (a ≤ b)) := by
  obtain ⟨hp, hs⟩ := hq _ l (close_consistent h)
  refine List.Perm.eq_of_pairwise (le := fun a b : Nat => a ≤ b) (fun a b _ _ h1 h2 => Nat.le_antisymm h1 h2) ?_ ?_ ((hp.map _).trans (List.mergeSort_perm _ _).symm)
  · rw [List.pairwise_map]
    refine hs.imp_of_mem fun {a b} ha hb hab => ?_
    have ha := hp.subset ha
    have hb := hp.subset hb
    rw [cmp_close (h a ha b hb) (h b hb a ha)] at hab; omega
  · have := List.pairwise_mergeSort (le := fun a b : Nat => decide (a ≤ b)) (fun a b c h1 h2 => by simp at *; omega) (fun a b => by simp; omega) (l.map UInt64.toNat)
    exact this.imp fun h => by simpa using h

/-- The number of elements not after a given one. -/
def rank (cmp : UInt64 → UInt64 → Int) (l : List UInt64) (x : UInt64) : Nat := l.countP fun y => decide (cmp y x ≤ 0)

theorem rank_le {cmp : UInt64 → UInt64 → Int} {l : List UInt64} (h : Consistent cmp l) {a b : UInt64} (ha : a ∈ l) (hb : b ∈ l) (hr : rank cmp l a ≤ rank cmp l b) : cmp a b ≤ 0 := by
  by_contra hn
  have hba : cmp b a < 0 := (h.1 b hb a ha).2 (by omega)
  have haa : cmp a a ≤ 0 := by
    have := h.1 a ha a ha
    omega
  have hle : ∀ l' : List UInt64, (∀ y ∈ l', y ∈ l) → l'.countP (fun y => decide (cmp y b ≤ 0)) ≤ l'.countP (fun y => decide (cmp y a ≤ 0)) := fun l' hl' =>
    List.countP_mono_left fun y hy hyb => by
      simp only [decide_eq_true_eq] at *
      exact h.2 y (hl' y hy) b hb a ha hyb (by omega)
  obtain ⟨l1, l2, e⟩ := List.append_of_mem ha
  have h1 := hle l1 (fun y hy => by rw [e]; simp [hy])
  have h2 := hle l2 (fun y hy => by rw [e]; simp [hy])
  unfold rank at hr
  rw [show (l.countP fun y => decide (cmp y a ≤ 0)) = (l1 ++ a :: l2).countP fun y => decide (cmp y a ≤ 0) from by rw [← e],
    show (l.countP fun y => decide (cmp y b ≤ 0)) = (l1 ++ a :: l2).countP fun y => decide (cmp y b ≤ 0) from by rw [← e]] at hr
  simp only [List.countP_append, List.countP_cons, decide_eq_true haa, decide_eq_false hn] at hr
  simp at hr
  omega

/-- A `qsort` as in the C standard exists: sort by rank. -/
def byRank : Qsort := fun cmp l => l.mergeSort fun a b => decide (rank cmp l a ≤ rank cmp l b)

theorem byRank_sorts : Sorts byRank := fun cmp l h => by
  have hp : (byRank cmp l).Perm l := List.mergeSort_perm ..
  refine ⟨hp, ?_⟩
  have := List.pairwise_mergeSort (le := fun a b : UInt64 => decide (rank cmp l a ≤ rank cmp l b)) (fun a b c h1 h2 => by simp at *; omega) (fun a b => by simp; omega) l
  refine List.Pairwise.imp_of_mem (fun {a b} ha hb hab => ?_) this
  exact rank_le h (hp.subset ha) (hp.subset hb) (by simpa using hab)

/-! ## The report -/

theorem rd_list {α : Type} {L : List α} {i : Nat} (h : i < L.length) : Returns (rd (Buf.ofList L) i) L[i] := by
  obtain ⟨x, hx, e⟩ := ret_of_post (p := rd (Buf.ofList L) i) (Q := fun x => x = L[i]) (by rw [Post, wp_rd]; exact ⟨L[i], by simp [Buf.ofList, h], rfl⟩)
  rw [e] at hx; exact hx

theorem join_concat (l : List String) (x : String) : String.join (l ++ [x]) = String.join l ++ x := by
  simp [String.join, List.foldl_append]

theorem measured_length (t : Nat → UInt64) (N a : Nat) : (measured t N a).length = N := by simp [measured]

theorem qsort_ret (q : Qsort) {l : List UInt64} {n : Nat} (hl : l.length = n) : Returns (Model.Bench.qsort q (Buf.ofList l) n) (Buf.ofList (q cmp_uint64_t l)) := by
  subst hl
  unfold Model.Bench.qsort
  have h := Kat.for_ret (body := fun i l' => do let x ← rd (Buf.ofList l) i; pure (l' ++ [x])) (fun i => l.take i) l.length 0 fun i _ hi => by
    refine Kat.seq (rd_list (by omega)) ?_
    rw [List.take_concat_get' l i (by omega)]
    exact Kat.ret _
  rw [Nat.zero_add, List.take_length, List.take_zero] at h
  exact Kat.seq h (Kat.ret _)

/-- The numbers in a report from sorted lists. -/
def medianText (N I : Nat) (txt : String) (l : List UInt64) : String := pad 10 txt ++ " cycles = " ++ toString ((l.getD (N / 2) 0).toNat / I) ++ "\n"

def percentileText (N I : Nat) (txt : String) (l : List UInt64) : String :=
  pad 10 txt ++ " percentiles:" ++ String.join (percentiles.map fun p => pad 7 (toString ((l.getD (N * p / 100) 0).toNat / I))) ++ "\n"

def reportText (N I : Nat) (kg enc dec : List UInt64) : String :=
  medianText N I "keypair" kg ++ medianText N I "encaps" enc ++ medianText N I "decaps" dec ++ "\n" ++
  pad 21 "percentile" ++ String.join (percentiles.map fun p => pad 7 (toString p)) ++ "\n" ++
  percentileText N I "keypair" kg ++ percentileText N I "encaps" enc ++ percentileText N I "decaps" dec

theorem median_ret {N I : Nat} (hN : 0 < N) (out txt : String) {l : List UInt64} (hl : l.length = N) : Returns (print_median N I out txt (Buf.ofList l)) (out ++ medianText N I txt l) := by
  unfold print_median medianText
  have hi : N >>> 1 < l.length := by rw [Nat.shiftRight_eq_div_pow]; omega
  refine Kat.seq (rd_list hi) ?_
  have e : l[N >>> 1] = l.getD (N / 2) 0 := by
    simp only [Nat.shiftRight_eq_div_pow, Nat.pow_one]
    rw [List.getD_eq_getElem]
  rw [e]
  simp only [← String.append_assoc]
  exact Kat.ret _

theorem legend_ret (out : String) : Returns (print_percentile_legend out) (out ++ (pad 21 "percentile" ++ String.join (percentiles.map fun p => pad 7 (toString p)) ++ "\n")) := by
  unfold print_percentile_legend
  have h := Kat.for_ret (body := fun i out => do let p ← rd (Buf.ofList percentiles) i; pure (out ++ pad 7 (toString p)))
    (fun i => out ++ pad 21 "percentile" ++ String.join ((percentiles.take i).map fun p => pad 7 (toString p))) 11 0 fun i _ hi => by
    have hi' : i < percentiles.length := by simpa [percentiles] using hi
    refine Kat.seq (rd_list hi') ?_
    rw [← List.take_concat_get' percentiles i hi', List.map_append, List.map_cons, List.map_nil, join_concat, ← String.append_assoc]
    exact Kat.ret _
  have e : percentiles.take (0 + 11) = percentiles := rfl
  rw [e] at h
  simp only [List.take_zero, List.map_nil, show String.join [] = "" from rfl, String.append_empty] at h
  refine Kat.seq h ?_
  simp only [← String.append_assoc]
  exact Kat.ret _

theorem percentiles_le {i : Nat} (h : i < percentiles.length) : percentiles[i] ≤ 99 := by
  have : ∀ p ∈ percentiles, p ≤ 99 := by decide
  exact this _ (List.getElem_mem h)

theorem percentiles_ret {N I : Nat} (hN : 0 < N) (out txt : String) {l : List UInt64} (hl : l.length = N) : Returns (print_percentiles N I out txt (Buf.ofList l)) (out ++ percentileText N I txt l) := by
  unfold print_percentiles percentileText
  have h := Kat.for_ret (body := fun i out => do let p ← rd (Buf.ofList percentiles) i; let x ← rd (Buf.ofList l) (N * p / 100); pure (out ++ pad 7 (toString (x.toNat / I))))
    (fun i => out ++ pad 10 txt ++ " percentiles:" ++ String.join ((percentiles.take i).map fun p => pad 7 (toString ((l.getD (N * p / 100) 0).toNat / I)))) 11 0 fun i _ hi => by
    have hi' : i < percentiles.length := by simpa [percentiles] using hi
    refine Kat.seq (rd_list hi') ?_
    have hp := percentiles_le hi'
    have hx : N * percentiles[i] / 100 < l.length := by
      rw [hl, Nat.div_lt_iff_lt_mul (by decide)]
      exact Nat.mul_lt_mul_of_pos_left (by omega) hN
    refine Kat.seq (rd_list hx) ?_
    rw [← List.take_concat_get' percentiles i hi', List.map_append, List.map_cons, List.map_nil, join_concat, ← String.append_assoc, List.getD_eq_getElem _ _ hx]
    exact Kat.ret _
  have e : percentiles.take (0 + 11) = percentiles := rfl
  rw [e] at h
  simp only [List.take_zero, List.map_nil, show String.join [] = "" from rfl, String.append_empty] at h
  refine Kat.seq h ?_
  simp only [← String.append_assoc]
  exact Kat.ret _

/-- What is printed after the loop, whatever the lists, if `qsort` keeps their length. -/
theorem report_ret {N I : Nat} (hN : 0 < N) (q : Qsort) {kg enc dec : List UInt64} (h1 : kg.length = N) (h2 : enc.length = N) (h3 : dec.length = N)
    (k1 : (q cmp_uint64_t kg).length = N) (k2 : (q cmp_uint64_t enc).length = N) (k3 : (q cmp_uint64_t dec).length = N) {v : Vars}
    (e1 : v.cycles_kg = Buf.ofList kg) (e2 : v.cycles_enc = Buf.ofList enc) (e3 : v.cycles_dec = Buf.ofList dec) :
    Returns (report q N I v "") (reportText N I (q cmp_uint64_t kg) (q cmp_uint64_t enc) (q cmp_uint64_t dec)) := by
  unfold report
  rw [e1, e2, e3]
  refine Kat.seq (qsort_ret q h1) (Kat.seq (qsort_ret q h2) (Kat.seq (qsort_ret q h3) ?_))
  refine Kat.seq (median_ret hN _ _ k1) (Kat.seq (median_ret hN _ _ k2) (Kat.seq (median_ret hN _ _ k3) ?_))
  refine Kat.seq (legend_ret _) (Kat.seq (percentiles_ret hN _ _ k1) (Kat.seq (percentiles_ret hN _ _ k2) ?_))
  have := percentiles_ret (I := I) hN ("" ++ medianText N I "keypair" (q cmp_uint64_t kg) ++ medianText N I "encaps" (q cmp_uint64_t enc) ++ medianText N I "decaps" (q cmp_uint64_t dec) ++ "\n" ++
    (pad 21 "percentile" ++ String.join (percentiles.map fun p => pad 7 (toString p)) ++ "\n") ++ percentileText N I "keypair" (q cmp_uint64_t kg) ++ percentileText N I "encaps" (q cmp_uint64_t enc)) "decaps" k3
  unfold reportText
  simpa only [String.append_assoc, String.empty_append] using this

theorem getD_ranked {q : Qsort} (hq : Sorts q) {l : List UInt64} (h : Near31 l) (i : Nat) : ((q cmp_uint64_t l).getD i 0).toNat = ranked l i := by
  unfold ranked
  rw [← sorted_eq hq h]
  simp only [List.getD_eq_getElem?_getD, List.getElem?_map]
  cases (q cmp_uint64_t l)[i]? <;> rfl

theorem reportText_eq {q : Qsort} (hq : Sorts q) (N I : Nat) {t : Nat → UInt64} (h0 : Near31 (measured t N 0)) (h2 : Near31 (measured t N 2)) (h4 : Near31 (measured t N 4)) :
    reportText N I (q cmp_uint64_t (measured t N 0)) (q cmp_uint64_t (measured t N 2)) (q cmp_uint64_t (measured t N 4)) = benchReport N I t := by
  unfold reportText benchReport medianText medianLine percentileText percentileLine
  simp only [getD_ranked hq h0, getD_ranked hq h2, getD_ranked hq h4]
  rfl

/-- A report begins with a blank. -/
theorem reportText_ne (N I : Nat) (kg enc dec : List UInt64) : reportText N I kg enc dec ≠ "ERROR keys\n" := by
  intro h
  have h := congrArg String.toList h
  unfold reportText medianText pad at h
  simp only [String.toList_append, String.toList_ofList, List.append_assoc, show (10 : Nat) - "keypair".length = 3 from rfl] at h
  have := congrArg List.head? h
  simp [List.replicate_succ] at this

/-! ## The loops -/

theorem rep_ends {α : Type} {body : α → M α} {P : α → Prop} {o : Option α} (h : ∀ a, P a → Ends (body a) o) (ho : ∀ b, o = some b → P b) :
    ∀ (n lo : Nat) (a : α), 0 < n → P a → Ends (forFrom lo n a fun _ => body) o
  | 0, _, _, hn, _ => absurd hn (lt_irrefl _)
  | n + 1, lo, a, _, ha => by
    unfold forFrom
    refine Kat.seqE (a := ()) ⟨_, rfl⟩ ?_
    have hb := h a ha
    cases o with
    | none => exact Kat.outBind hb
    | some b =>
      refine Kat.seqE hb ?_
      cases n with
      | zero => unfold forFrom; exact Kat.seqE (a := ()) ⟨_, rfl⟩ (Kat.ret _)
      | succ n => exact rep_ends h ho (n + 1) (lo + 1) b (Nat.succ_pos n) (ho b rfl)

/-- Repeating any number of times. -/
theorem rep_any {α : Type} {body : α → M α} {P : α → Prop} {o : Option α} (h : ∀ a, P a → Ends (body a) o) (ho : ∀ b, o = some b → P b) (n : Nat) {a : α} (ha : P a) :
    (∃ b, P b ∧ Returns (forN n a fun _ => body) b) ∨ (o = none ∧ OutOfBudget (forN n a fun _ => body)) := by
  cases n with
  | zero => exact Or.inl ⟨a, ha, by unfold forN forFrom; exact Kat.seq (a := ()) ⟨_, rfl⟩ (Kat.ret _)⟩
  | succ n =>
    have := rep_ends h ho (n + 1) 0 a (Nat.succ_pos n) ha
    cases o with
    | none => exact Or.inr ⟨rfl, this⟩
    | some b => exact Or.inl ⟨b, ho b rfl, this⟩

/-- An array of `N` elements of which the first `i` are measurements. -/
def filled (t : Nat → UInt64) (N a i : Nat) : Buf UInt64 := ((measured t i a).map some ++ List.replicate (N - i) none).toArray

theorem filled_zero (t : Nat → UInt64) (N a : Nat) : Buf.uninit UInt64 N = filled t N a 0 := by
  simp [filled, measured, Buf.uninit]

theorem filled_all (t : Nat → UInt64) (N a : Nat) : filled t N a N = Buf.ofList (measured t N a) := by
  simp [filled, Buf.ofList]

theorem filled_wr (t : Nat → UInt64) {N a i : Nat} (hi : i < N) : Returns (wr (filled t N a i) i (t (6 * i + a + 1) - t (6 * i + a))) (filled t N a (i + 1)) := by
  obtain ⟨b, hb, h⟩ := ret_of_post (p := wr (filled t N a i) i (t (6 * i + a + 1) - t (6 * i + a))) (Q := fun b => b = (filled t N a i).setIfInBounds i (some (t (6 * i + a + 1) - t (6 * i + a)))) (by
    rw [Post, wp_wr]; exact ⟨by simp [filled, measured]; omega, rfl⟩)
  rw [h] at hb
  have e : (filled t N a i).setIfInBounds i (some (t (6 * i + a + 1) - t (6 * i + a))) = filled t N a (i + 1) := by
    unfold filled
    rw [List.setIfInBounds_toArray, List.set_append_right _ _ (by simp [measured]), show N - i = (N - (i + 1)) + 1 by omega, List.replicate_succ]
    simp [measured, List.range_succ]
  rw [e] at hb; exact hb

/-- The variables before round `i`. -/
structure Good (K N : Nat) (t : Nat → UInt64) (i : Nat) (v : Vars) : Prop where
  pk : v.pk.size = pkLen K
  sk : v.sk.size = skLen K
  ct : v.ct.size = ctLen K
  key_a : v.key_a.size = 32
  key_b : v.key_b.size = 32
  kg_rand : v.kg_rand.size = 64
  enc_rand : v.enc_rand.size = 32
  kg : v.cycles_kg = filled t N 0 i
  enc : v.cycles_enc = filled t N 2 i
  dec : v.cycles_dec = filled t N 4 i

theorem memcpy_all {b : Buf UInt8} {r : List UInt8} {n : Nat} (hr : r.length = n) (h : b.size = n) : Returns (memcpy b 0 (Buf.ofList r) 0 n) (Buf.ofList r) := by
  obtain ⟨b', hb, hw⟩ := ret_of_post (memcpy_spec (dst := b) (dof := 0) (by omega) (seg_ofList hr))
  have e : b' = Buf.ofList r := by
    apply Array.ext_getElem?
    intro i
    by_cases h2 : i < n
    · have := hw.2.1 i h2
      rw [Nat.zero_add] at this
      rw [this]
      simp [Buf.ofList, List.getD, show i < r.length by omega]
    · rw [hw.2.2 i (Or.inr (by omega))]
      simp [Buf.ofList, show ¬ i < b.size by omega, show ¬ i < r.length by omega]
  rw [e] at hb; exact hb

theorem size_ofList (l : List UInt8) : (Buf.ofList l).size = l.length := by simp [Buf.ofList]

section
variable {σ : Type} {rb : RandomBytes σ} (hrb : ∀ s n, (rb s n).1.length = n)
include hrb

theorem into_all {b : Buf UInt8} {n : Nat} (s : σ) (h : b.size = n) : Returns (randombytesInto rb s b 0 n) (Buf.ofList (rb s n).1, (rb s n).2) := by
  unfold randombytesInto
  rw [randombytes_eq rb s n (hrb s n)]
  exact Kat.seq (memcpy_all (hrb s n) h) (Kat.ret _)

/-- One round: with the outcome of the comparison, or out of budget. -/
theorem round_cases {bk : Native.Backend} (hb : KeepsContract bk) {K : Nat} (hK : IsParam K) (fuel W : Nat) {I : Nat} (hI : 0 < I) {t : Nat → UInt64} {N i : Nat} (hi : i < N) {v : Vars} (g : Good K N t i v) (s : σ) :
    (∃ ok s' v', keysTest K (xofBytes fuel) rb s = some (ok, s') ∧ Good K N t (i + 1) v' ∧ Returns (Model.Bench.round bk K fuel W I rb t i v s) (ok, v', s')) ∨
    (keysTest K (xofBytes fuel) rb s = none ∧ OutOfBudget (Model.Bench.round bk K fuel W I rb t i v s)) := by
  have hl := hrb s 64
  have hm := hrb (rb s 64).2 32
  set dz := (rb s 64).1 with hdz
  set s1 := (rb s 64).2 with hs1
  set m := (rb s1 32).1 with hmm
  set s2 := (rb s1 32).2 with hs2
  have r1 := into_all hrb s g.kg_rand
  have r2 := into_all hrb s1 g.enc_rand
  have kg : ∀ (p : Buf UInt8 × Buf UInt8), p.1.size = pkLen K ∧ p.2.size = skLen K →
      Ends (Native.crypto_kem_keypair_derand bk K fuel p.1 p.2 (Buf.ofList dz) >>= fun x => pure (x.2.1, x.2.2))
        ((KeyGen_internal K (xofBytes fuel) (dz.take 32) (dz.drop 32)).map fun p => (Buf.ofList p.1, Buf.ofList p.2)) := fun p hp => by
    have h := Kat.keygen_ends hb hK fuel (d := dz.take 32) (z := dz.drop 32) (by simp [hl]) (by simp [hl]) (coins := Buf.ofList dz) (pk := p.1) (sk := p.2)
      (by rw [List.take_append_drop]; exact SegL_ofList _) hp.1 hp.2
    cases e : KeyGen_internal K (xofBytes fuel) (dz.take 32) (dz.drop 32) with
    | none => rw [e] at h; exact Kat.outBind h
    | some p => rw [e] at h; exact Kat.seq h (Kat.ret _)
  unfold keysTest honestRun
  simp only [← hdz, ← hs1, ← hmm, ← hs2]
  cases e : KeyGen_internal K (xofBytes fuel) (dz.take 32) (dz.drop 32) with
  | none =>
    rw [e] at kg
    refine Or.inr ⟨rfl, Kat.seqOut r1 (Kat.seqOut r2 ?_)⟩
    rcases rep_any kg (by simp) W (a := (v.pk, v.sk)) ⟨g.pk, g.sk⟩ with ⟨p, hp, h⟩ | ⟨-, h⟩
    · exact Kat.seqOut h (Kat.outBind (rep_ends kg (by simp) I 0 p hI hp))
    · exact Kat.outBind h
  | some kp =>
    obtain ⟨ek, dk⟩ := kp
    rw [e] at kg
    obtain ⟨g1, g2, g3, g4⟩ := Kat.keygen_good (show (dz.drop 32).length = 32 by simp [hl]) e
    have kgP : ∀ b, (Option.map (fun p : List UInt8 × List UInt8 => (Buf.ofList p.1, Buf.ofList p.2)) (some (ek, dk))) = some b → b.1.size = pkLen K ∧ b.2.size = skLen K := by
      intro b hb
      simp only [Option.map_some, Option.some.injEq] at hb
      subst hb
      exact ⟨by rw [size_ofList, g1], by rw [size_ofList, g2]⟩
    rcases rep_any kg kgP W (a := (v.pk, v.sk)) ⟨g.pk, g.sk⟩ with ⟨p, hp, hW⟩ | ⟨hn, -⟩
    swap
    · simp at hn
    have hI1 := rep_ends kg kgP I 0 p hI hp
    have enc : ∀ (p : Buf UInt8 × Buf UInt8), p.1.size = ctLen K ∧ p.2.size = 32 →
        Ends (Native.crypto_kem_enc_derand bk K fuel p.1 p.2 (Buf.ofList ek) (Buf.ofList m) >>= fun x => pure (x.2.1, x.2.2))
          ((Encaps_internal K (xofBytes fuel) ek m).map fun p => (Buf.ofList p.2, Buf.ofList p.1)) := fun p hp => by
      rcases Kat.enc_ends hb hK fuel g1 hm g3 hp.1 hp.2 with ⟨k, c, e, -, -, h⟩ | ⟨e, h⟩
      · rw [e]; exact Kat.seq h (Kat.ret _)
      · rw [e]; exact Kat.outBind h
    cases e' : Encaps_internal K (xofBytes fuel) ek m with
    | none =>
      rw [e'] at enc
      refine Or.inr ⟨by simp [e'], Kat.seqOut r1 (Kat.seqOut r2 (Kat.seqOut hW (Kat.seqOut hI1 (Kat.seqOut (a := filled t N 0 (i + 1)) (by rw [g.kg]; exact filled_wr t hi) ?_))))⟩
      rcases rep_any enc (by simp) W (a := (v.ct, v.key_a)) ⟨g.ct, g.key_a⟩ with ⟨p, hp, h⟩ | ⟨-, h⟩
      · exact Kat.seqOut h (Kat.outBind (rep_ends enc (by simp) I 0 p hI hp))
      · exact Kat.outBind h
    | some kc =>
      obtain ⟨k, c⟩ := kc
      rw [e'] at enc
      have hkc : k.length = 32 ∧ c.length = ctLen K := by
        rcases Kat.enc_ends hb hK fuel g1 hm g3 g.ct g.key_a with ⟨k', c', h, l1, l2, -⟩ | ⟨h, -⟩
        · rw [e'] at h; cases h; exact ⟨l1, l2⟩
        · rw [e'] at h; cases h
      have encP : ∀ b, (Option.map (fun p : List UInt8 × List UInt8 => (Buf.ofList p.2, Buf.ofList p.1)) (some (k, c))) = some b → b.1.size = ctLen K ∧ b.2.size = 32 := by
        intro b hb
        simp only [Option.map_some, Option.some.injEq] at hb
        subst hb
        exact ⟨by rw [size_ofList, hkc.2], by rw [size_ofList, hkc.1]⟩
      rcases rep_any enc encP W (a := (v.ct, v.key_a)) ⟨g.ct, g.key_a⟩ with ⟨p', hp', hW'⟩ | ⟨hn, -⟩
      swap
      · simp at hn
      have hI2 := rep_ends enc encP I 0 p' hI hp'
      have dec : ∀ (p : Buf UInt8), p.size = 32 →
          Ends (Native.crypto_kem_dec bk K fuel p (Buf.ofList c) (Buf.ofList dk) >>= fun x => pure x.2) ((Decaps_internal K (xofBytes fuel) dk c).map Buf.ofList) := fun p hp => by
        rcases Kat.dec_ends hb hK fuel g2 hkc.2 g4 hp with ⟨k, e, -, h⟩ | ⟨e, h⟩
        · rw [e]; exact Kat.seq h (Kat.ret _)
        · rw [e]; exact Kat.outBind h
      cases e'' : Decaps_internal K (xofBytes fuel) dk c with
      | none =>
        rw [e''] at dec
        refine Or.inr ⟨by simp [e', e''], Kat.seqOut r1 (Kat.seqOut r2 (Kat.seqOut hW (Kat.seqOut hI1 (Kat.seqOut (a := filled t N 0 (i + 1)) (by rw [g.kg]; exact filled_wr t hi) (Kat.seqOut hW' (Kat.seqOut hI2
          (Kat.seqOut (a := filled t N 2 (i + 1)) (by rw [g.enc]; exact filled_wr t hi) ?_)))))))⟩
        rcases rep_any dec (by simp) W (a := v.key_b) g.key_b with ⟨p, hp, h⟩ | ⟨-, h⟩
        · exact Kat.seqOut h (Kat.outBind (rep_ends dec (by simp) I 0 p hI hp))
        · exact Kat.outBind h
      | some k' =>
        rw [e''] at dec
        have hk' : k'.length = 32 := by
          rcases Kat.dec_ends hb hK fuel g2 hkc.2 g4 g.key_b with ⟨k, e, l, -⟩ | ⟨e, -⟩
          · rw [e''] at e; cases e; exact l
          · rw [e''] at e; cases e
        have decP : ∀ b, (Option.map Buf.ofList (some k')) = some b → b.size = 32 := by
          intro b hb
          simp only [Option.map_some, Option.some.injEq] at hb
          subst hb
          rw [size_ofList, hk']
        rcases rep_any dec decP W (a := v.key_b) g.key_b with ⟨p'', hp'', hW''⟩ | ⟨hn, -⟩
        swap
        · simp at hn
        have hI3 := rep_ends dec decP I 0 p'' hI hp''
        obtain ⟨d, h1, h2⟩ := Kat.memcmp_ret hkc.1 hk'
        have hd : decide (d ≠ 0) = !decide (k' = k) := by
          by_cases hkk : k = k'
          · simp [h2.2 hkk, hkk]
          · simp [show d ≠ 0 from fun e => hkk (h2.1 e), show ¬ k' = k from fun e => hkk e.symm]
        refine Or.inl ⟨decide (k' = k), s2, ⟨Buf.ofList ek, Buf.ofList dk, Buf.ofList c, Buf.ofList k, Buf.ofList k', Buf.ofList dz, Buf.ofList m, filled t N 0 (i + 1), filled t N 2 (i + 1), filled t N 4 (i + 1)⟩,
          by simp [e', e''], ⟨by simp [size_ofList, g1], by simp [size_ofList, g2], by simp [size_ofList, hkc], by simp [size_ofList, hkc], by simp [size_ofList, hk'], by simp [size_ofList, hl], by simp [size_ofList, hm], rfl, rfl, rfl⟩, ?_⟩
        refine Kat.seq r1 (Kat.seq r2 (Kat.seq hW (Kat.seq hI1 (Kat.seq (a := filled t N 0 (i + 1)) (by rw [g.kg]; exact filled_wr t hi) (Kat.seq hW' (Kat.seq hI2
          (Kat.seq (a := filled t N 2 (i + 1)) (by rw [g.enc]; exact filled_wr t hi) (Kat.seq hW'' (Kat.seq hI3 (Kat.seq (a := filled t N 4 (i + 1)) (by rw [g.dec]; exact filled_wr t hi) (Kat.seq h1 ?_)))))))))))
        refine br_ret ?_
        rw [hd]
        cases decide (k' = k) <;> rfl

/-- The loop. -/
theorem rounds_cases {bk : Native.Backend} (hb : KeepsContract bk) {K : Nat} (hK : IsParam K) (fuel W : Nat) {I : Nat} (hI : 0 < I) {t : Nat → UInt64} {N : Nat} : ∀ (r i : Nat) (v : Vars) (s : σ), i + r = N → Good K N t i v →
    (∃ v', allAgree K (xofBytes fuel) rb r s = some true ∧ Good K N t N v' ∧ Returns (Model.Bench.rounds bk K fuel W I rb t r i v s) (some v')) ∨
    (allAgree K (xofBytes fuel) rb r s = some false ∧ Returns (Model.Bench.rounds bk K fuel W I rb t r i v s) none) ∨
    (allAgree K (xofBytes fuel) rb r s = none ∧ OutOfBudget (Model.Bench.rounds bk K fuel W I rb t r i v s))
  | 0, i, v, s, hi, g => by
    subst hi
    exact Or.inl ⟨v, rfl, g, by unfold Model.Bench.rounds; exact Kat.seq (a := ()) ⟨_, rfl⟩ (Kat.ret _)⟩
  | r + 1, i, v, s, hi, g => by
    unfold Model.Bench.rounds allAgree
    rcases round_cases hrb hb hK fuel W hI (show i < N by omega) g s with ⟨ok, s', v', e, g', h⟩ | ⟨e, h⟩
    · rw [e]
      cases ok with
      | false => exact Or.inr (Or.inl ⟨rfl, Kat.seq (a := ()) ⟨_, rfl⟩ (Kat.seq h (Kat.ret _))⟩)
      | true =>
        rcases rounds_cases hb hK fuel W hI r (i + 1) v' s' (by omega) g' with ⟨v'', e, g'', h'⟩ | ⟨e, h'⟩ | ⟨e, h'⟩
        · exact Or.inl ⟨v'', e, g'', Kat.seq (a := ()) ⟨_, rfl⟩ (Kat.seq h h')⟩
        · exact Or.inr (Or.inl ⟨e, Kat.seq (a := ()) ⟨_, rfl⟩ (Kat.seq h h')⟩)
        · exact Or.inr (Or.inr ⟨e, Kat.seqOut (a := ()) ⟨_, rfl⟩ (Kat.seqOut h h')⟩)
    · rw [e]
      exact Or.inr (Or.inr ⟨rfl, Kat.seqOut (a := ()) ⟨_, rfl⟩ (Kat.outBind h)⟩)

omit hrb in
theorem start_good (K N : Nat) (t : Nat → UInt64) : Good K N t 0 ⟨Buf.uninit UInt8 (MLKEM_PUBLICKEYBYTES K), Buf.uninit UInt8 (MLKEM_SECRETKEYBYTES K), Buf.uninit UInt8 (MLKEM_CIPHERTEXTBYTES K), Buf.uninit UInt8 32,
    Buf.uninit UInt8 32, Buf.uninit UInt8 64, Buf.uninit UInt8 32, Buf.uninit UInt64 N, Buf.uninit UInt64 N, Buf.uninit UInt64 N⟩ :=
  ⟨by rw [Buf.size_uninit, Kat.pk_bytes], by rw [Buf.size_uninit, Kat.sk_bytes], ct_size K, Buf.size_uninit .., Buf.size_uninit .., Buf.size_uninit .., Buf.size_uninit .., filled_zero .., filled_zero .., filled_zero ..⟩

/-- The program, for any `qsort` that keeps the lengths of the lists measured. -/
theorem main_ends {bk : Native.Backend} (hb : KeepsContract bk) {K : Nat} (hK : IsParam K) (fuel W : Nat) {I N : Nat} (hI : 0 < I) (hN : 0 < N) (t : Nat → UInt64) {q : Qsort}
    (k0 : (q cmp_uint64_t (measured t N 0)).length = N) (k2 : (q cmp_uint64_t (measured t N 2)).length = N) (k4 : (q cmp_uint64_t (measured t N 4)).length = N) (s : σ) :
    Ends (Model.Bench.main bk K fuel N W I rb t q s) ((allAgree K (xofBytes fuel) rb N s).map fun ok =>
      (0, if ok then reportText N I (q cmp_uint64_t (measured t N 0)) (q cmp_uint64_t (measured t N 2)) (q cmp_uint64_t (measured t N 4)) else "ERROR keys\n")) := by
  unfold Model.Bench.main bench
  rcases rounds_cases hrb hb hK fuel W hI N 0 _ s (Nat.zero_add N) (start_good K N t) with ⟨v', e, g, h⟩ | ⟨e, h⟩ | ⟨e, h⟩
  · rw [e]
    refine Kat.seq (Kat.seq h (Kat.seq (report_ret hN q (measured_length t N 0) (measured_length t N 2) (measured_length t N 4) k0 k2 k4 ?_ ?_ ?_) (Kat.ret _))) (Kat.ret _)
    · rw [g.kg, filled_all]
    · rw [g.enc, filled_all]
    · rw [g.dec, filled_all]
  · rw [e]
    exact Kat.seq (Kat.seq h (Kat.ret _)) (Kat.ret _)
  · rw [e]
    exact Kat.outBind (Kat.outBind h)

end

end Bench

open Bench

/-- The benchmark program, on every backend that keeps the contract, with any source of randomness and any `qsort` as in the C standard.  If in each of the three series the measurements differ by less
than `2^31` cycles, it prints the medians and percentiles of what was measured when decapsulation gave the right key in every round, and `ERROR keys` otherwise; it ends with exit code 0 in both cases. -/
theorem C75_benchmark {bk : Native.Backend} (hb : KeepsContract bk) {K : Nat} (hK : IsParam K) (fuel W : Nat) {I N : Nat} (hI : 0 < I) (hN : 0 < N) {σ : Type} {rb : RandomBytes σ} (hrb : ∀ s n, (rb s n).1.length = n)
    {q : Model.Bench.Qsort} (hq : Sorts q) (t : Nat → UInt64) (h0 : Near31 (measured t N 0)) (h2 : Near31 (measured t N 2)) (h4 : Near31 (measured t N 4)) (s : σ) :
    Ends (Model.Bench.main bk K fuel N W I rb t q s) ((benchText K (xofBytes fuel) N I rb t s).map fun text => (0, text)) := by
  have k : ∀ a, Near31 (measured t N a) → (q Model.Bench.cmp_uint64_t (measured t N a)).length = N := fun a h => by
    rw [(hq _ _ (close_consistent h)).1.length_eq, measured_length]
  have := main_ends hrb hb hK fuel W hI hN t (k 0 h0) (k 2 h2) (k 4 h4) s
  unfold benchText
  rw [reportText_eq hq N I h0 h2 h4] at this
  rw [Option.map_map]
  exact this

/-- A clock that advances by 100 during each measurement, with the numbers of rounds of the program. -/
example (s : Nat) : Ends (Model.Bench.main Native.portable 3 1 500 50 300 (fun (s : Nat) n => (List.replicate n s.toUInt8, s + 1)) (fun i => if i % 2 = 0 then 7 else 107) byRank s)
    ((benchText 3 (xofBytes 1) 500 300 (fun (s : Nat) n => (List.replicate n s.toUInt8, s + 1)) (fun i => if i % 2 = 0 then 7 else 107) s).map fun text => (0, text)) := by
  have hn : ∀ a, a % 2 = 0 → Near31 (measured (fun i => if i % 2 = 0 then 7 else 107) 500 a) := fun a ha x hx y hy => by
    have : ∀ x ∈ measured (fun i => if i % 2 = 0 then 7 else 107) 500 a, x = 100 := fun x hx => by
      simp only [measured, List.mem_map] at hx
      obtain ⟨i, -, rfl⟩ := hx
      rw [if_neg (by omega), if_pos (by omega)]; rfl
    rw [this x hx, this y hy]; decide
  exact C75_benchmark C66_backends.1 (Or.inr (Or.inl rfl)) 1 50 (by decide) (by decide) (fun s n => List.length_replicate ..) byRank_sorts _ (hn 0 rfl) (hn 2 rfl) (hn 4 rfl) s

/-- A source with which all rounds end. -/
example {K : Nat} (hK : IsParam K) (t : Nat → UInt64) : ∃ r, benchText K (xofBytes 0) 500 300 (fun _ n => (List.replicate n 1, ())) t () = some r := by
  obtain ⟨ek, s, c, e1, e2, _⟩ := run_facts hK
  have hen : Enough K (xofBytes 0) ((ek.drop (384 * K)).take 32) := by
    rw [← encrypt_some_iff K (xofBytes 0) ek ffs ((SHA3_512 (ffs ++ SHA3_256 ek)).drop 32), e2]; rfl
  have hgen : KeyGen_internal K (xofBytes 0) ones ones = some (ek, s ++ ek ++ H ek ++ ones) := by unfold KeyGen_internal; rw [e1]; rfl
  obtain ⟨_, p1, _⟩ := KeyGen_parts ones_length hgen
  generalize s ++ ek ++ H ek ++ ones = dk at *
  obtain ⟨⟨k, c⟩, henc⟩ := Option.isSome_iff_exists.1 ((encaps_some_iff K (xofBytes 0) ek ones).2 hen)
  obtain ⟨k', hdec⟩ := Option.isSome_iff_exists.1 ((decaps_some_iff K (xofBytes 0) dk c).2 (by rw [show 384 * K + 32 = pkLen K from rfl, p1]; exact hen))
  have hrun : keysTest K (xofBytes 0) (fun _ n => (List.replicate n 1, ())) () = some (decide (k' = k), ()) := by
    unfold keysTest honestRun
    simp only
    rw [show (List.replicate 64 (1 : UInt8)).take 32 = ones from rfl, show (List.replicate 64 (1 : UInt8)).drop 32 = ones from rfl, hgen, Option.bind_some]
    simp only
    rw [show List.replicate 32 (1 : UInt8) = ones from rfl, henc, Option.map_some, Option.bind_some]
    simp only
    rw [hdec]; rfl
  have key : ∀ N, ∃ ok, allAgree K (xofBytes 0) (fun _ n => (List.replicate n 1, ())) N () = some ok := fun N => by
    induction N with
    | zero => exact ⟨_, rfl⟩
    | succ N ih =>
      unfold allAgree
      rw [hrun, Option.bind_some]
      simp only
      split
      · exact ih
      · exact ⟨_, rfl⟩
  obtain ⟨ok, h⟩ := key 500
  exact ⟨_, by unfold benchText; rw [h]; rfl⟩

/-- Whatever is measured, and although nothing is promised about the order then, the program is free of undefined behaviour of its own, and exits with code 0, if only `qsort` rearranges its input.
The text is `ERROR keys` if and only if a round fails. -/
theorem C75_any_times {bk : Native.Backend} (hb : KeepsContract bk) {K : Nat} (hK : IsParam K) (fuel W : Nat) {I N : Nat} (hI : 0 < I) (hN : 0 < N) {σ : Type} {rb : RandomBytes σ} (hrb : ∀ s n, (rb s n).1.length = n)
    {q : Model.Bench.Qsort} (hq : ∀ cmp l, (q cmp l).Perm l) (t : Nat → UInt64) (s : σ) :
    (allAgree K (xofBytes fuel) rb N s = none ∧ OutOfBudget (Model.Bench.main bk K fuel N W I rb t q s)) ∨
    (allAgree K (xofBytes fuel) rb N s = some false ∧ Returns (Model.Bench.main bk K fuel N W I rb t q s) (0, "ERROR keys\n")) ∨
    (allAgree K (xofBytes fuel) rb N s = some true ∧ ∃ text, text ≠ "ERROR keys\n" ∧ Returns (Model.Bench.main bk K fuel N W I rb t q s) (0, text)) := by
  have k : ∀ a, (q Model.Bench.cmp_uint64_t (measured t N a)).length = N := fun a => by rw [(hq _ _).length_eq, measured_length]
  have := main_ends hrb hb hK fuel W hI hN t (k 0) (k 2) (k 4) s
  cases e : allAgree K (xofBytes fuel) rb N s with
  | none => rw [e] at this; exact Or.inl ⟨rfl, this⟩
  | some ok =>
    rw [e] at this
    cases ok with
    | false => exact Or.inr (Or.inl ⟨rfl, this⟩)
    | true => exact Or.inr (Or.inr ⟨rfl, _, reportText_ne _ _ _ _ _, this⟩)

/-- The comparison function of the program orders two measurements that differ by more than `2^31` and less than `2^32` the wrong way round, so that every `qsort` puts the larger one first; at a distance
of exactly `2^31` each of the two is before the other, and at `2^32` they count as equal. -/
theorem C75_comparator (a b : UInt64) :
    (a.toNat + 2 ^ 31 < b.toNat → b.toNat < a.toNat + 2 ^ 32 → ∀ q : Model.Bench.Qsort, Sorts q → q Model.Bench.cmp_uint64_t [a, b] = [b, a] ∧ q Model.Bench.cmp_uint64_t [b, a] = [b, a]) ∧
    (b.toNat = a.toNat + 2 ^ 31 → Model.Bench.cmp_uint64_t a b < 0 ∧ Model.Bench.cmp_uint64_t b a < 0) ∧
    (b.toNat = a.toNat + 2 ^ 32 → Model.Bench.cmp_uint64_t a b = 0) := by
  refine ⟨fun h1 h2 q hq => ?_, fun h => ?_, fun h => ?_⟩
  · obtain ⟨c1, c2⟩ := cmp_far h1 h2
    have c0 : ∀ x, Model.Bench.cmp_uint64_t x x = 0 := fun x => by rw [cmp_close (by omega) (by omega)]; omega
    have key : ∀ l : List UInt64, l.Perm [a, b] → q Model.Bench.cmp_uint64_t l = [b, a] := fun l hl => by
      have hm : ∀ x ∈ l, x = a ∨ x = b := fun x hx => by simpa using hl.subset hx
      have hc : Consistent Model.Bench.cmp_uint64_t l := by
        constructor
        · intro x hx y hy
          rcases hm x hx with rfl | rfl <;> rcases hm y hy with rfl | rfl <;> simp only [c1, c2, c0] <;> omega
        · intro x hx y hy z hz
          rcases hm x hx with rfl | rfl <;> rcases hm y hy with rfl | rfl <;> rcases hm z hz with rfl | rfl <;> simp only [c1, c2, c0] <;> omega
      obtain ⟨hp, hs⟩ := hq _ l hc
      have hp := hp.trans hl
      have hlen := hp.length_eq
      match hql : q Model.Bench.cmp_uint64_t l, hlen with
      | [x, y], _ =>
        rw [hql] at hp hs
        have hab : a ≠ b := fun e => by rw [e] at h1; omega
        have ma : a = x ∨ a = y := by simpa using hp.symm.subset (show a ∈ [a, b] by simp)
        have mb : b = x ∨ b = y := by simpa using hp.symm.subset (show b ∈ [a, b] by simp)
        have hxy : Model.Bench.cmp_uint64_t x y ≤ 0 := by simpa using hs
        rcases mb with rfl | rfl
        · rcases ma with h | rfl
          · exact absurd h hab
          · rfl
        · rcases ma with rfl | h
          · rw [c1] at hxy; omega
          · exact absurd h hab
    exact ⟨key _ (List.Perm.refl _), key _ (List.Perm.swap _ _ _)⟩
  · unfold Model.Bench.cmp_uint64_t
    have ha := a.toNat_lt
    have hb := b.toNat_lt
    have e : ∀ a b : UInt64, ((a - b).toBitVec.setWidth 32).toNat = (2 ^ 64 - b.toNat + a.toNat) % 2 ^ 64 % 2 ^ 32 := fun a b => by
      rw [BitVec.toNat_setWidth, UInt64.toNat_toBitVec, UInt64.toNat_sub]
    rw [BitVec.toInt_eq_toNat_cond, BitVec.toInt_eq_toNat_cond, e, e]
    constructor <;> split <;> omega
  · unfold Model.Bench.cmp_uint64_t
    have ha := a.toNat_lt
    have hb := b.toNat_lt
    have e : ((a - b).toBitVec.setWidth 32).toNat = (2 ^ 64 - b.toNat + a.toNat) % 2 ^ 64 % 2 ^ 32 := by
      rw [BitVec.toNat_setWidth, UInt64.toNat_toBitVec, UInt64.toNat_sub]
    rw [BitVec.toInt_eq_toNat_cond, e]
    split <;> omega

/-- Such measurements: a series of calls that took two and a half thousand million cycles is sorted before one that took ten. -/
example : byRank Model.Bench.cmp_uint64_t [10, 2500000000] = [2500000000, 10] := ((C75_comparator 10 2500000000).1 (by decide) (by decide) byRank byRank_sorts).1

end Verif.Props

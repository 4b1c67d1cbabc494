import Verif.Props.Bench
import Verif.Model.Debug
import Verif.Spec.Debug
/-! # C78: the debug checks -/
namespace Verif.Props
open Verif Verif.Model Verif.Spec

namespace Debug
open Verif.Model.Debug

/-- A string without the character that ends a string. -/
def NoNul (s : String) : Prop := '\x00' ∉ s.toList

instance (s : String) : Decidable (NoNul s) := by unfold NoNul; infer_instance

theorem NoNul.append {s t : String} (hs : NoNul s) (ht : NoNul t) : NoNul (s ++ t) := by
  unfold NoNul at *; rw [String.toList_append, List.mem_append]; tauto

theorem noNul_nat (n : Nat) : NoNul (toString n) := by
  unfold NoNul
  rw [show toString n = n.repr from rfl, Nat.toList_repr]
  intro h
  have := Nat.isDigit_of_mem_toDigits (by decide) (by decide) h
  exact absurd this (by decide)

theorem noNul_int (n : Int) : NoNul (toString n) := by
  cases n with
  | ofNat n => exact noNul_nat n
  | negSucc n => exact NoNul.append (s := "-") (by decide) (noNul_nat (n + 1))

theorem noNul_bounds {d : String} (hd : NoNul d) (i : Nat) (v lo hi : Int) : NoNul (boundsMessage d i v lo hi) := by
  unfold boundsMessage
  exact ((((((((hd.append (by decide)).append (noNul_nat i)).append (by decide)).append (noNul_int v)).append (by decide)).append (noNul_int lo)).append (by decide)).append (noNul_int hi)).append (by decide)

theorem wr_any {b : Buf Char} {i : Nat} (hi : i < b.size) (v : Char) : Returns (wr b i v) (b.setIfInBounds i (some v)) := by
  obtain ⟨b', hb, h⟩ := ret_of_post (p := wr b i v) (Q := fun b' => b' = b.setIfInBounds i (some v)) (by rw [Post, wp_wr]; exact ⟨hi, rfl⟩)
  rw [h] at hb; exact hb

/-- A text at the start of a buffer. -/
def textIn (s : List Char) (b : Buf Char) : Buf Char := (s.map some ++ b.toList.drop s.length).toArray

theorem snprintf_ret {b : Buf Char} (hb : b.size = 256) (s : List Char) : Returns (snprintf b 256 s) (textIn (s.take 255 ++ ['\x00']) b) := by
  unfold snprintf
  have hk : min s.length (256 - 1) ≤ 255 := by omega
  have hk' : min s.length (256 - 1) ≤ s.length := by omega
  have hl : s.take (min s.length (256 - 1)) = s.take 255 := by rw [List.take_eq_take_iff]; omega
  rw [← hl]
  generalize min s.length (256 - 1) = k at *
  have step : ∀ (l : List Char) (c : Char), l.length < 256 → Returns (wr (textIn l b) l.length c) (textIn (l ++ [c]) b) := fun l c h => by
    have := wr_any (b := textIn l b) (i := l.length) (by simp [textIn]; omega) c
    have e : (textIn l b).setIfInBounds l.length (some c) = textIn (l ++ [c]) b := by
      unfold textIn
      rw [List.setIfInBounds_toArray, List.set_append_right _ _ (by simp)]
      simp only [List.length_map, Nat.sub_self, List.map_append, List.map_cons, List.map_nil, List.length_append, List.length_cons, List.length_nil]
      have : l.length < b.toList.length := by simp; omega
      rw [List.drop_eq_getElem_cons this]
      simp
    rw [e] at this; exact this
  have hloop := Kat.for_ret (body := fun i buf => wr buf i (s.getD i '\x00')) (fun i => textIn (s.take i) b) k 0 fun i _ hi => by
    have hi : i < s.length := by omega
    have := step (s.take i) (s.getD i '\x00') (by simp; omega)
    rw [show (s.take i).length = i by simp; omega, List.getD_eq_getElem _ _ hi, List.take_concat_get' s i hi] at this
    rw [List.getD_eq_getElem _ _ hi]
    exact this
  rw [Nat.zero_add, show textIn (s.take 0) b = b by simp [textIn]] at hloop
  refine Kat.seq hloop ?_
  have := step (s.take k) '\x00' (by simp; omega)
  rwa [show (s.take k).length = k by simp; omega] at this

theorem textIn_size {b : Buf Char} (hb : b.size = 256) {s : List Char} (hs : s.length ≤ 256) : (textIn s b).size = 256 := by
  simp [textIn]; omega

theorem cString_ret (b : Buf Char) (l : List Char) (hl : '\x00' ∉ l) : ∀ (f i : Nat), i ≤ l.length → l.length - i < f → Returns (cString (textIn (l ++ ['\x00']) b) f i) (l.drop i)
  | 0, _, _, h => absurd h (Nat.not_lt_zero _)
  | f + 1, i, hi, h => by
    unfold cString
    have hr : ∀ c, (l ++ ['\x00'])[i]? = some c → Returns (rd (textIn (l ++ ['\x00']) b) i) c := fun c hc => by
      obtain ⟨x, hx, e⟩ := ret_of_post (p := rd (textIn (l ++ ['\x00']) b) i) (Q := fun x => x = c) (by
        rw [Post, wp_rd]
        refine ⟨c, ?_, rfl⟩
        unfold textIn
        rw [List.getElem?_toArray, List.getElem?_append_left (by simp; omega), List.getElem?_map, hc]; rfl)
      rw [e] at hx; exact hx
    by_cases hi' : i < l.length
    · refine Kat.seq (hr l[i] (by rw [List.getElem?_append_left hi']; exact List.getElem?_eq_getElem hi')) ?_
      rw [if_neg (fun e => hl (by rw [← e]; exact List.getElem_mem hi')), List.drop_eq_getElem_cons hi']
      exact Kat.seq (cString_ret b l hl f (i + 1) (by omega) (by omega)) (Kat.ret _)
    · have e : i = l.length := by omega
      subst e
      refine Kat.seq (hr '\x00' (by simp)) ?_
      rw [if_pos rfl, List.drop_length]
      exact Kat.ret _

theorem print_ret {b : Buf Char} {s : String} (hs : NoNul s) (err file : String) (line : Nat) :
    Returns (mlkem_debug_print_error err file line (textIn (s.toList.take 255 ++ ['\x00']) b)) (err ++ errorLine file line s) := by
  unfold mlkem_debug_print_error errorLine
  refine Kat.seq (cString_ret b (s.toList.take 255) (fun h => hs (List.mem_of_mem_take h)) 256 0 (Nat.zero_le _) (by rw [List.length_take]; omega)) ?_
  simp only [← String.append_assoc]
  exact Kat.ret _

/-- A loop with an invariant. -/
theorem for_inv {σ : Type} {body : Nat → σ → M σ} (I : Nat → σ → Prop) : ∀ (n lo : Nat) (s : σ), I lo s → (∀ i s, lo ≤ i → i < lo + n → I i s → ∃ s', Returns (body i s) s' ∧ I (i + 1) s') → ∃ s', Returns (forFrom lo n s body) s' ∧ I (lo + n) s'
  | 0, lo, s, h, _ => by unfold forFrom; exact ⟨s, Kat.seq (a := ()) ⟨_, rfl⟩ (Kat.ret _), h⟩
  | n + 1, lo, s, h, hs => by
    unfold forFrom
    obtain ⟨s1, r1, h1⟩ := hs lo s (le_refl _) (by omega) h
    obtain ⟨s2, r2, h2⟩ := for_inv I n (lo + 1) s1 h1 (fun i s a b c => hs i s (by omega) (by omega) c)
    refine ⟨s2, Kat.seq (a := ()) ⟨_, rfl⟩ (Kat.seq r1 r2), ?_⟩
    rwa [show lo + (n + 1) = lo + 1 + n by omega]

end Debug

open Debug Verif.Model.Debug

/-- The assertion: nothing happens when the value is not zero; otherwise one line is printed and the program ends.  Nothing is written outside `debug_buf`, however long the description. -/
theorem C78_assert (file : String) (line : Nat) {description : String} (hd : NoNul description) (val : Int) {b : Buf Char} (hb : b.size = 256) (err : String) :
    (val ≠ 0 ∧ Returns (mlkem_debug_assert file line description val b err) (false, b, err)) ∨
    (val = 0 ∧ ∃ b' : Buf Char, b'.size = 256 ∧ Returns (mlkem_debug_assert file line description val b err) (true, b', err ++ errorLine file line ("Assertion failed: " ++ description ++ " (value 0)"))) := by
  unfold mlkem_debug_assert
  by_cases h : val = 0
  · refine Or.inr ⟨h, _, textIn_size hb (s := ("Assertion failed: " ++ description ++ " (value " ++ toString val ++ ")").toList.take 255 ++ ['\x00']) (by simp; omega), ?_⟩
    subst h
    rw [if_pos rfl]
    have e : "Assertion failed: " ++ description ++ " (value " ++ toString (0 : Int) ++ ")" = "Assertion failed: " ++ description ++ " (value 0)" := by
      generalize "Assertion failed: " ++ description = t
      rw [String.append_assoc, String.append_assoc]; rfl
    rw [e]
    refine Kat.seq (snprintf_ret hb _) (Kat.seq (print_ret ?_ err file line) (Kat.ret _))
    exact (NoNul.append (by decide) hd).append (by decide)
  · rw [if_neg h]
    exact Or.inl ⟨h, Kat.ret _⟩

/-- The check of an array: one line for each value out of bounds, in order, and the program ends if there is one; nothing is written outside `debug_buf`. -/
theorem C78_check_bounds (file : String) (line : Nat) {description : String} (hd : NoNul description) (vals : List Int) (lo hi : Int) {b : Buf Char} (hb : b.size = 256) (err : String) :
    ∃ b' : Buf Char, b'.size = 256 ∧ Returns (mlkem_debug_check_bounds file line description (Buf.ofList vals) vals.length lo hi b err)
      (decide (∃ v ∈ vals, ¬ (lo < v ∧ v < hi)), b', err ++ boundsReport file line description vals lo hi) := by
  obtain ⟨⟨e, b', err'⟩, hr, he, hb', herr⟩ := for_inv (body := fun i s => checkOne file line description (Buf.ofList vals) lo hi i s)
    (fun k s => (s.1 = true ↔ ∃ j, j < k ∧ ¬ (lo < vals.getD j 0 ∧ vals.getD j 0 < hi)) ∧ s.2.1.size = 256 ∧
      s.2.2 = err ++ String.join (((List.range k).filter fun i => !(decide (lo < vals.getD i 0 ∧ vals.getD i 0 < hi))).map fun i => errorLine file line (boundsMessage description i (vals.getD i 0) lo hi)))
    vals.length 0 (false, b, err) ⟨by simp, hb, by simp [String.join]⟩ (by
      rintro i ⟨e, b', err'⟩ - hi' ⟨he, hb', herr⟩
      rw [Nat.zero_add] at hi'
      simp only at he hb' herr
      unfold checkOne
      have hv : vals[i] = vals.getD i 0 := (List.getD_eq_getElem _ _ hi').symm
      by_cases hc : lo < vals.getD i 0 ∧ vals.getD i 0 < hi
      · refine ⟨(e, b', err'), Kat.seq (Bench.rd_list hi') ?_, ?_, hb', ?_⟩
        · rw [hv, if_neg (by simpa using hc)]; exact Kat.ret _
        · rw [he]
          exact ⟨fun ⟨j, hj, h⟩ => ⟨j, by omega, h⟩, fun ⟨j, hj, h⟩ => ⟨j, by
            rcases Nat.lt_succ_iff_lt_or_eq.mp hj with h' | h'
            · exact h'
            · exact absurd hc (h' ▸ h), h⟩⟩
        · show err' = _
          rw [herr, List.range_succ, List.filter_append, List.filter_cons, if_neg (by simpa using hc)]
          simp
      · refine ⟨(true, textIn ((boundsMessage description i (vals.getD i 0) lo hi).toList.take 255 ++ ['\x00']) b', err' ++ errorLine file line (boundsMessage description i (vals.getD i 0) lo hi)),
          Kat.seq (Bench.rd_list hi') ?_, ⟨fun _ => ⟨i, by omega, hc⟩, fun _ => rfl⟩, textIn_size hb' (by rw [List.length_append, List.length_take, List.length_singleton]; omega), ?_⟩
        · rw [hv, if_pos (by simp only [Bool.not_eq_true', ← Bool.decide_and, decide_eq_false_iff_not]; exact hc)]
          exact Kat.seq (snprintf_ret hb' _) (Kat.seq (print_ret (noNul_bounds hd _ _ _ _) err' file line) (Kat.ret _))
        · show _ ++ _ = _
          rw [herr, List.range_succ, List.filter_append, List.filter_cons, if_pos (by simp only [Bool.not_eq_true', ← Bool.decide_and, decide_eq_false_iff_not]; exact hc), List.filter_nil, List.map_append, List.map_cons, List.map_nil, Bench.join_concat, String.append_assoc])
  refine ⟨b', hb', ?_⟩
  unfold mlkem_debug_check_bounds
  rw [Nat.zero_add] at he herr
  simp only at he hb' herr
  have : e = decide (∃ v ∈ vals, ¬ (lo < v ∧ v < hi)) := by
    rw [Bool.eq_iff_iff, he, decide_eq_true_iff]
    constructor
    · rintro ⟨j, hj, h⟩
      exact ⟨vals[j], List.getElem_mem hj, by rwa [List.getD_eq_getElem _ _ hj] at h⟩
    · rintro ⟨v, hv, h⟩
      obtain ⟨j, hj, rfl⟩ := List.getElem_of_mem hv
      exact ⟨j, hj, by rwa [List.getD_eq_getElem _ _ hj]⟩
  rw [← this]
  have e2 : err' = err ++ boundsReport file line description vals lo hi := herr
  rw [← e2]
  exact hr

/-- The vectors: the entries are checked in order up to the first with a value out of bounds, whose values are all reported. -/
theorem C78_check_vector (file : String) (line : Nat) {description : String} (hd : NoNul description) (len : Nat) (lo hi : Int) (err : String) :
    ∀ (vec : List (List Int)), (∀ p ∈ vec, p.length = len) → ∀ {b : Buf Char}, b.size = 256 →
    ∃ b' : Buf Char, b'.size = 256 ∧ Returns (vecCheck file line description (vec.map Buf.ofList).toArray len lo hi vec.length 0 b err)
      (decide (∃ p ∈ vec, ∃ v ∈ p, ¬ (lo < v ∧ v < hi)), b',
        match vec.find? fun p => decide (∃ v ∈ p, ¬ (lo < v ∧ v < hi)) with
        | none => err
        | some p => err ++ boundsReport file line description p lo hi) := by
  intro vec hlen
  suffices H : ∀ (n idx : Nat) {b : Buf Char}, b.size = 256 → idx + n = vec.length → ∃ b' : Buf Char, b'.size = 256 ∧ Returns (vecCheck file line description (vec.map Buf.ofList).toArray len lo hi n idx b err)
      (decide (∃ p ∈ vec.drop idx, ∃ v ∈ p, ¬ (lo < v ∧ v < hi)), b',
        match (vec.drop idx).find? fun p => decide (∃ v ∈ p, ¬ (lo < v ∧ v < hi)) with
        | none => err
        | some p => err ++ boundsReport file line description p lo hi) from
    fun {b} hb => H vec.length 0 hb (by omega)
  intro n
  induction n with
  | zero =>
    intro idx b hb h
    rw [List.drop_eq_nil_of_le (by omega)]
    exact ⟨b, hb, by simpa [vecCheck] using Kat.ret _⟩
  | succ n ih =>
    intro idx b hb h
    have hi' : idx < vec.length := by omega
    unfold vecCheck
    have hg : (vec.map (Buf.ofList (α := Int))).toArray[idx]? = some (Buf.ofList vec[idx]) := by simp [hi']
    rw [hg]
    obtain ⟨b1, hb1, h1⟩ := C78_check_bounds file line hd vec[idx] lo hi hb err
    rw [hlen _ (List.getElem_mem hi')] at h1
    rw [List.drop_eq_getElem_cons hi', List.find?_cons]
    by_cases hc : ∃ v ∈ vec[idx], ¬ (lo < v ∧ v < hi)
    · rw [decide_eq_true hc] at h1
      refine ⟨b1, hb1, ?_⟩
      simp only
      refine Kat.seq h1 ?_
      have e1 : (∃ p ∈ vec[idx] :: vec.drop (idx + 1), ∃ v ∈ p, ¬ (lo < v ∧ v < hi)) := ⟨_, List.mem_cons_self .., hc⟩
      rw [decide_eq_true hc, decide_eq_true e1]
      exact Kat.ret _
    · rw [decide_eq_false hc] at h1
      have hr : boundsReport file line description vec[idx] lo hi = "" := by
        unfold boundsReport
        rw [List.filter_eq_nil_iff.mpr]
        · rfl
        · intro j hj
          have hj : j < vec[idx].length := List.mem_range.mp hj
          have : lo < vec[idx].getD j 0 ∧ vec[idx].getD j 0 < hi := by
            by_contra hn
            rw [List.getD_eq_getElem _ _ hj] at hn
            exact hc ⟨_, List.getElem_mem hj, hn⟩
          rw [decide_eq_true this]; decide
      rw [hr, String.append_empty] at h1
      obtain ⟨b2, hb2, h2⟩ := ih (idx + 1) hb1 (by omega)
      refine ⟨b2, hb2, ?_⟩
      simp only
      refine Kat.seq h1 ?_
      have e1 : (∃ p ∈ vec[idx] :: vec.drop (idx + 1), ∃ v ∈ p, ¬ (lo < v ∧ v < hi)) ↔ ∃ p ∈ vec.drop (idx + 1), ∃ v ∈ p, ¬ (lo < v ∧ v < hi) := by
        rw [List.exists_mem_cons_iff]; exact or_iff_right hc
      rw [decide_eq_false hc, decide_eq_decide.mpr e1]
      exact h2

theorem Debug.boundChk_list (vals : List Int) (lo hi : Int) : boundChk (Buf.ofList vals) 0 vals.length lo hi = !decide (∃ v ∈ vals, ¬ (lo < v ∧ v < hi)) := by
  unfold boundChk
  rw [Bool.eq_iff_iff, List.all_eq_true, Bool.not_eq_true', decide_eq_false_iff_not]
  have hg : ∀ i, i < vals.length → (Buf.ofList vals)[0 + i]? = some (vals[i]?) := fun i hi => by simp [Buf.ofList, hi]
  constructor
  · rintro h ⟨v, hv, hn⟩
    obtain ⟨j, hj, rfl⟩ := List.getElem_of_mem hv
    have := h j (List.mem_range.mpr hj)
    rw [hg j hj, List.getElem?_eq_getElem hj] at this
    exact hn (by simpa using this)
  · intro h i hi'
    have hi' := List.mem_range.mp hi'
    rw [hg i hi', List.getElem?_eq_getElem hi']
    simp only [decide_eq_true_iff]
    by_contra hn
    exact h ⟨_, List.getElem_mem hi', hn⟩

/-- The checks written in the model of the library are these: the model goes on where the program goes on, and stops with a failed assertion where the program exits. -/
theorem C78_library (file : String) (line : Nat) {description : String} (hd : NoNul description) (bound : Nat) {b : Buf Char} (hb : b.size = 256) (err : String) :
    (∀ vals : List Int, vals.length = 256 → ∃ stop b' err', b'.size = 256 ∧
      Returns (mlkem_debug_check_bounds file line description (Buf.ofList vals) 256 (-(bound : Int)) bound b err) (stop, b', err') ∧
      POLY_BOUND (Buf.ofList vals) bound = if stop then M.fail .assert else M.ret ()) ∧
    (∀ vals : List Int, vals.length = 128 → ∃ stop b' err', b'.size = 256 ∧
      Returns (mlkem_debug_check_bounds file line description (Buf.ofList vals) 128 (-(bound : Int)) bound b err) (stop, b', err') ∧
      MULCACHE_BOUND (Buf.ofList vals) bound = if stop then M.fail .assert else M.ret ()) ∧
    (∀ vals : List Int, vals.length = 256 → ∃ stop b' err', b'.size = 256 ∧
      Returns (mlkem_debug_check_bounds file line description (Buf.ofList vals) 256 (-1) bound b err) (stop, b', err') ∧
      POLY_UBOUND (Buf.ofList vals) bound = if stop then M.fail .assert else M.ret ()) ∧
    (∀ x : Int, ∃ stop b' err', b'.size = 256 ∧
      Returns (mlkem_debug_assert file line description (if -(bound : Int) < x ∧ x < bound then 1 else 0) b err) (stop, b', err') ∧
      SCALAR_BOUND x bound = if stop then M.fail .assert else M.ret ()) ∧
    (∀ (K : Nat) (vec : List (List Int)), vec.length = K → (∀ p ∈ vec, p.length = 256) → ∃ stop b' err', b'.size = 256 ∧
      Returns (vecCheck file line description (vec.map Buf.ofList).toArray 256 (-(bound : Int)) bound K 0 b err) (stop, b', err') ∧
      POLYVEC_BOUND K (vec.map Buf.ofList).toArray bound = if stop then M.fail .assert else M.ret ()) ∧
    (∀ (K : Nat) (vec : List (List Int)), vec.length = K → (∀ p ∈ vec, p.length = 128) → ∃ stop b' err', b'.size = 256 ∧
      Returns (vecCheck file line description (vec.map Buf.ofList).toArray 128 (-(bound : Int)) bound K 0 b err) (stop, b', err') ∧
      MULCACHEVEC_BOUND K (vec.map Buf.ofList).toArray bound = if stop then M.fail .assert else M.ret ()) ∧
    (∀ (K : Nat) (vec : List (List Int)), vec.length = K → (∀ p ∈ vec, p.length = 256) → ∃ stop b' err', b'.size = 256 ∧
      Returns (vecCheck file line description (vec.map Buf.ofList).toArray 256 (-1) bound K 0 b err) (stop, b', err') ∧
      POLYVEC_UBOUND K (vec.map Buf.ofList).toArray bound = if stop then M.fail .assert else M.ret ()) := by
  have one : ∀ (vals : List Int) (lo hi : Int), ∃ stop b' err', b'.size = 256 ∧
      Returns (mlkem_debug_check_bounds file line description (Buf.ofList vals) vals.length lo hi b err) (stop, b', err') ∧
      assertM (boundChk (Buf.ofList vals) 0 vals.length lo hi) = if stop then M.fail .assert else M.ret () := fun vals lo hi => by
    obtain ⟨b', hb', h⟩ := C78_check_bounds file line hd vals lo hi hb err
    refine ⟨_, b', _, hb', h, ?_⟩
    rw [boundChk_list]
    unfold assertM
    by_cases hc : ∃ v ∈ vals, ¬ (lo < v ∧ v < hi) <;> simp only [hc, decide_true, decide_false] <;> rfl
  have many : ∀ (vec : List (List Int)) (len : Nat) (lo hi : Int), (∀ p ∈ vec, p.length = len) → ∃ stop b' err', b'.size = 256 ∧
      Returns (vecCheck file line description (vec.map Buf.ofList).toArray len lo hi vec.length 0 b err) (stop, b', err') ∧
      assertM ((List.range vec.length).all fun i => match (vec.map Buf.ofList).toArray[i]? with
        | some b => boundChk b 0 len lo hi
        | none => false) = if stop then M.fail .assert else M.ret () := fun vec len lo hi hlen => by
    obtain ⟨b', hb', h⟩ := C78_check_vector file line hd len lo hi err vec hlen hb
    refine ⟨_, b', _, hb', h, ?_⟩
    have e : ((List.range vec.length).all fun i => match (vec.map (Buf.ofList (α := Int))).toArray[i]? with
        | some b => boundChk b 0 len lo hi
        | none => false) = !decide (∃ p ∈ vec, ∃ v ∈ p, ¬ (lo < v ∧ v < hi)) := by
      rw [Bool.eq_iff_iff, List.all_eq_true, Bool.not_eq_true', decide_eq_false_iff_not]
      have hg : ∀ i (hi : i < vec.length), (vec.map (Buf.ofList (α := Int))).toArray[i]? = some (Buf.ofList vec[i]) := fun i hi => by simp [hi]
      constructor
      · rintro h ⟨p, hp, hn⟩
        obtain ⟨j, hj, rfl⟩ := List.getElem_of_mem hp
        have := h j (List.mem_range.mpr hj)
        rw [hg j hj] at this
        simp only at this
        rw [← hlen _ hp, boundChk_list, decide_eq_true hn] at this
        exact absurd this (by decide)
      · intro h i hi'
        have hi' := List.mem_range.mp hi'
        rw [hg i hi']
        simp only
        rw [← hlen _ (List.getElem_mem hi'), boundChk_list, decide_eq_false fun hn => h ⟨_, List.getElem_mem hi', hn⟩]
        rfl
    rw [e]
    unfold assertM
    by_cases hc : ∃ p ∈ vec, ∃ v ∈ p, ¬ (lo < v ∧ v < hi) <;> simp only [hc, decide_true, decide_false] <;> rfl
  refine ⟨fun vals h => ?_, fun vals h => ?_, fun vals h => ?_, fun x => ?_, fun K vec h hl => ?_, fun K vec h hl => ?_, fun K vec h hl => ?_⟩
  · have := one vals (-(bound : Int)) bound; rwa [h] at this
  · have := one vals (-(bound : Int)) bound; rwa [h] at this
  · have := one vals (-1) bound; rwa [h] at this
  · unfold SCALAR_BOUND
    by_cases hc : -(bound : Int) < x ∧ x < bound
    · rcases C78_assert file line hd 1 hb err with ⟨_, h⟩ | ⟨h, _⟩
      · exact ⟨_, _, _, hb, by rw [if_pos hc]; exact h, by rw [decide_eq_true hc]; rfl⟩
      · exact absurd h (by decide)
    · rcases C78_assert file line hd 0 hb err with ⟨h, _⟩ | ⟨_, b', hb', h⟩
      · exact absurd rfl h
      · exact ⟨_, _, _, hb', by rw [if_neg hc]; exact h, by rw [decide_eq_false hc]; rfl⟩
  · subst h; exact many vec 256 _ _ hl
  · subst h; exact many vec 128 _ _ hl
  · subst h; exact many vec 256 _ _ hl

/-! ## The hypotheses are met -/

/-- A description of the library, and a report with one line. -/
example : NoNul "poly absolute bound for r" ∧ (Buf.uninit Char 256).size = 256 ∧
    boundsReport "poly.c" 42 "poly absolute bound for r" [0, 3329, -3328] (-3329) 3329 = "[ERROR:poly.c:0042] poly absolute bound for r, index 1, value 3329 out of bounds (-3329,3329)\n" := by
  refine ⟨by decide, by simp [Buf.uninit], ?_⟩
  decide +kernel

/-- A check that exits, and one that does not. -/
example : (∃ v ∈ [0, 3329, (-3328 : Int)], ¬ (-3329 < v ∧ v < 3329)) ∧ ¬ (∃ v ∈ [0, 3328, (-3328 : Int)], ¬ (-3329 < v ∧ v < 3329)) := by decide

end Verif.Props

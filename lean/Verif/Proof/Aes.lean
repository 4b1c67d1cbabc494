import Verif.Model.Aes
import Verif.Spec.Fips197
import Verif.Proof.Calc
import Mathlib.Tactic.IntervalCases
/-! # AES: the bit-sliced functions -/
namespace Verif.Aes
open Verif Verif.Model Verif.Model.Aes Verif.Spec

/-! ## Transposition -/

theorem mask2 : ∀ p, p < 64 → (0x5555555555555555#64).getLsbD p = decide (p % 2 = 0) ∧ (0xAAAAAAAAAAAAAAAA#64).getLsbD p = decide (p % 2 = 1) := by decide +kernel
theorem mask4 : ∀ p, p < 64 → (0x3333333333333333#64).getLsbD p = decide (p / 2 % 2 = 0) ∧ (0xCCCCCCCCCCCCCCCC#64).getLsbD p = decide (p / 2 % 2 = 1) := by decide +kernel
theorem mask8 : ∀ p, p < 64 → (0x0F0F0F0F0F0F0F0F#64).getLsbD p = decide (p / 4 % 2 = 0) ∧ (0xF0F0F0F0F0F0F0F0#64).getLsbD p = decide (p / 4 % 2 = 1) := by decide +kernel

theorem swapn_spec {cl ch : W} {s i j : Nat} {q : Buf W} {f : Nat → W} (h : Holds q 8 f) (hi : i < 8) (hj : j < 8) (hij : i ≠ j) :
    Post (SWAPN cl ch s i j q) (fun q' => Holds q' 8 (upd (upd f i ((f i &&& cl) ||| ((f j &&& cl) <<< s))) j (((f i &&& ch) >>> s) ||| (f j &&& ch)))) := by
  unfold SWAPN
  simp only [wp_bind, wp_rd, wp_wr]
  refine ⟨_, h.2 i hi, _, h.2 j hj, by rw [h.1]; exact hi, ?_⟩
  have h1 := h.set hi ((f i &&& cl) ||| ((f j &&& cl) <<< s))
  exact ⟨by rw [h1.1]; exact hj, h1.set hj _⟩

/-- Position `(t, p)` of a bit before a step that exchanges it across distance `s`. -/
def src (s : Nat) (x : Nat × Nat) : Nat × Nat :=
  if x.1 / s % 2 = x.2 / s % 2 then x else if x.1 / s % 2 = 0 then (x.1 + s, x.2 - s) else (x.1 - s, x.2 + s)

/-- The bit at a position. -/
def at_ (f : Nat → W) (x : Nat × Nat) : Bool := (f x.1).getLsbD x.2

theorem low_bit {cl a b : W} {s : Nat} (hs : s = 1 ∨ s = 2 ∨ s = 4) (hm : ∀ p, p < 64 → cl.getLsbD p = decide (p / s % 2 = 0)) {p : Nat} (hp : p < 64) :
    ((a &&& cl) ||| ((b &&& cl) <<< s)).getLsbD p = if p / s % 2 = 0 then a.getLsbD p else b.getLsbD (p - s) := by
  simp only [BitVec.getLsbD_or, BitVec.getLsbD_and, BitVec.getLsbD_shiftLeft, hm p hp, hp, decide_true, Bool.true_and]
  by_cases h : p < s
  · have : p / s = 0 := Nat.div_eq_of_lt h
    simp [h, this]
  · rw [hm (p - s) (by omega)]
    have : (p - s) / s + 1 = p / s := by rcases hs with rfl | rfl | rfl <;> omega
    by_cases h2 : p / s % 2 = 0
    · have : ¬ (p - s) / s % 2 = 0 := by omega
      simp [h, h2, this]
    · have : (p - s) / s % 2 = 0 := by omega
      simp [h, h2, this]

theorem high_bit {ch a b : W} {s : Nat} (hs : s = 1 ∨ s = 2 ∨ s = 4) (hm : ∀ p, p < 64 → ch.getLsbD p = decide (p / s % 2 = 1)) {p : Nat} (hp : p < 64) :
    (((a &&& ch) >>> s) ||| (b &&& ch)).getLsbD p = if p / s % 2 = 1 then b.getLsbD p else a.getLsbD (s + p) := by
  simp only [BitVec.getLsbD_or, BitVec.getLsbD_and, BitVec.getLsbD_ushiftRight, hm p hp]
  have e : (s + p) / s = p / s + 1 := by rw [Nat.add_div_left]; omega
  by_cases h : s + p < 64
  · rw [hm _ h, e]
    by_cases h2 : p / s % 2 = 1
    · have : ¬ (p / s + 1) % 2 = 1 := by omega
      simp [h2, this]
    · have : (p / s + 1) % 2 = 1 := by omega
      simp [h2, this]
  · have h2 : p / s % 2 = 1 := by rcases hs with rfl | rfl | rfl <;> omega
    have : (s + p) ≥ 64 := by omega
    simp [h2, BitVec.getLsbD_of_ge _ _ this]

/-- What a step makes of eight words. -/
def Stage (s : Nat) (f g : Nat → W) : Prop := ∀ t p, t < 8 → p < 64 → at_ g (t, p) = at_ f (src s (t, p))

/-- The two words after `SWAPN`. -/
def swA (cl : W) (s : Nat) (a b : W) : W := (a &&& cl) ||| ((b &&& cl) <<< s)
def swB (ch : W) (s : Nat) (a b : W) : W := ((a &&& ch) >>> s) ||| (b &&& ch)

theorem stage_low {cl : W} {s : Nat} (hs : s = 1 ∨ s = 2 ∨ s = 4) (hm : ∀ p, p < 64 → cl.getLsbD p = decide (p / s % 2 = 0)) {f : Nat → W} {t p : Nat} (hp : p < 64) (ht : t / s % 2 = 0) :
    (swA cl s (f t) (f (t + s))).getLsbD p = at_ f (src s (t, p)) := by
  unfold swA at_ src
  rw [low_bit hs hm hp]
  by_cases h : p / s % 2 = 0
  · rw [if_pos h, if_pos (by show t / s % 2 = p / s % 2; omega)]
  · rw [if_neg h, if_neg (by show ¬ t / s % 2 = p / s % 2; omega), if_pos (by exact ht)]

theorem stage_high {ch : W} {s : Nat} (hs : s = 1 ∨ s = 2 ∨ s = 4) (hm : ∀ p, p < 64 → ch.getLsbD p = decide (p / s % 2 = 1)) {f : Nat → W} {t p : Nat} (hp : p < 64) (ht : t / s % 2 = 1) :
    (swB ch s (f (t - s)) (f t)).getLsbD p = at_ f (src s (t, p)) := by
  unfold swB at_ src
  rw [high_bit hs hm hp]
  by_cases h : p / s % 2 = 1
  · rw [if_pos h, if_pos (by show t / s % 2 = p / s % 2; omega)]
  · rw [if_neg h, if_neg (by show ¬ t / s % 2 = p / s % 2; omega), if_neg (by show ¬ t / s % 2 = 0; omega), Nat.add_comm]

/-- Word `t` after the step. -/
def staged (cl ch : W) (s : Nat) (f : Nat → W) (t : Nat) : W := if t / s % 2 = 0 then swA cl s (f t) (f (t + s)) else swB ch s (f (t - s)) (f t)

/-- The words in `D` are done, the others as before. -/
def Done (cl ch : W) (s : Nat) (f : Nat → W) (D : Nat → Bool) (q : Buf W) : Prop := ∃ g, Holds q 8 g ∧ ∀ t, t < 8 → g t = if D t then staged cl ch s f t else f t

theorem swap_step {cl ch : W} {s : Nat} {f : Nat → W} {D : Nat → Bool} {q : Buf W} (i j : Nat) (h : Done cl ch s f D q) (hs : 0 < s) (hj : j = i + s) (hj8 : j < 8) (hi : D i = false) (hj' : D j = false)
    (hb : i / s % 2 = 0) : Post (SWAPN cl ch s i j q) (Done cl ch s f fun t => D t || t == i || t == j) := by
  subst hj
  obtain ⟨g, hg, hd⟩ := h
  refine PostF.mono (swapn_spec hg (by omega) hj8 (by omega)) fun q' h => ⟨_, h, fun t ht => ?_⟩
  have gi : g i = f i := by rw [hd i (by omega), hi]; rfl
  have gj : g (i + s) = f (i + s) := by rw [hd _ hj8, hj']; rfl
  have e : (i + s) / s % 2 = 1 := by rw [Nat.add_div_right _ hs]; omega
  by_cases h1 : t = i + s
  · subst h1
    rw [upd_same, gi, gj]
    simp only [BEq.rfl, Bool.or_true, if_true]
    unfold staged swB
    rw [if_neg (by omega), Nat.add_sub_cancel]
  · rw [upd_ne h1]
    by_cases h2 : t = i
    · subst h2
      rw [upd_same, gi, gj]
      simp only [BEq.rfl, Bool.or_true, Bool.true_or, if_true]
      unfold staged swA
      rw [if_pos hb]
    · rw [upd_ne h2, hd t ht]
      simp [h1, h2]

theorem stage_of {cl ch : W} {s : Nat} {f : Nat → W} {D : Nat → Bool} {q : Buf W} (hs : s = 1 ∨ s = 2 ∨ s = 4) (h : Done cl ch s f D q) (hD : ∀ t, t < 8 → D t = true)
    (hl : ∀ p, p < 64 → cl.getLsbD p = decide (p / s % 2 = 0)) (hh : ∀ p, p < 64 → ch.getLsbD p = decide (p / s % 2 = 1)) :
    ∃ g, Holds q 8 g ∧ Stage s f g := by
  obtain ⟨g, hg, hd⟩ := h
  refine ⟨g, hg, fun t p ht hp => ?_⟩
  unfold at_
  show (g t).getLsbD p = _
  rw [hd t ht, hD t ht, if_pos rfl]
  unfold staged
  split
  · next h0 => exact stage_low hs hl hp h0
  · next h0 => exact stage_high hs hh hp (by omega)

/-- Transposition of 8×8 bits in each byte position. -/
def Transposed (f g : Nat → W) : Prop := ∀ t p, t < 8 → p < 64 → (g t).getLsbD p = (f (p % 8)).getLsbD (8 * (p / 8) + t)

theorem src_comp : ∀ t, t < 8 → ∀ p, p < 64 → (src 4 (t, p)).1 < 8 ∧ (src 4 (t, p)).2 < 64 ∧ (src 2 (src 4 (t, p))).1 < 8 ∧ (src 2 (src 4 (t, p))).2 < 64 ∧
    src 1 (src 2 (src 4 (t, p))) = (p % 8, 8 * (p / 8) + t) := by decide +kernel

theorem ortho_spec {q : Buf W} {f : Nat → W} (h : Holds q 8 f) : Post (br_aes_ct64_ortho q) (fun q' => ∃ g, Holds q' 8 g ∧ Transposed f g) := by
  unfold br_aes_ct64_ortho SWAP2 SWAP4 SWAP8
  simp only [wp_bind]
  have d0 : ∀ cl ch s, ∀ f : Nat → W, ∀ q, Holds q 8 f → Done cl ch s f (fun _ => false) q := fun cl ch s f q h => ⟨f, h, fun t _ => by simp⟩
  refine PostF.mono (swap_step 0 1 (d0 _ _ 1 _ _ h) (by decide) rfl (by decide) (by decide) (by decide) (by decide)) fun q d => ?_
  refine PostF.mono (swap_step 2 3 d (by decide) rfl (by decide) (by decide) (by decide) (by decide)) fun q d => ?_
  refine PostF.mono (swap_step 4 5 d (by decide) rfl (by decide) (by decide) (by decide) (by decide)) fun q d => ?_
  refine PostF.mono (swap_step 6 7 d (by decide) rfl (by decide) (by decide) (by decide) (by decide)) fun q d => ?_
  obtain ⟨g1, h1, s1⟩ := stage_of (by decide) d (by decide) (fun p hp => by rw [Nat.div_one]; exact (mask2 p hp).1) (fun p hp => by rw [Nat.div_one]; exact (mask2 p hp).2)
  refine PostF.mono (swap_step 0 2 (d0 _ _ 2 _ _ h1) (by decide) rfl (by decide) (by decide) (by decide) (by decide)) fun q d => ?_
  refine PostF.mono (swap_step 1 3 d (by decide) rfl (by decide) (by decide) (by decide) (by decide)) fun q d => ?_
  refine PostF.mono (swap_step 4 6 d (by decide) rfl (by decide) (by decide) (by decide) (by decide)) fun q d => ?_
  refine PostF.mono (swap_step 5 7 d (by decide) rfl (by decide) (by decide) (by decide) (by decide)) fun q d => ?_
  obtain ⟨g2, h2, s2⟩ := stage_of (by decide) d (by decide) (fun p hp => (mask4 p hp).1) (fun p hp => (mask4 p hp).2)
  refine PostF.mono (swap_step 0 4 (d0 _ _ 4 _ _ h2) (by decide) rfl (by decide) (by decide) (by decide) (by decide)) fun q d => ?_
  refine PostF.mono (swap_step 1 5 d (by decide) rfl (by decide) (by decide) (by decide) (by decide)) fun q d => ?_
  refine PostF.mono (swap_step 2 6 d (by decide) rfl (by decide) (by decide) (by decide) (by decide)) fun q d => ?_
  refine PostF.mono (swap_step 3 7 d (by decide) rfl (by decide) (by decide) (by decide) (by decide)) fun q d => ?_
  obtain ⟨g3, h3, s3⟩ := stage_of (by decide) d (by decide) (fun p hp => (mask8 p hp).1) (fun p hp => (mask8 p hp).2)
  refine ⟨g3, h3, fun t p ht hp => ?_⟩
  obtain ⟨a1, a2, a3, a4, a5⟩ := src_comp t ht p hp
  have e := s3 t p ht hp
  rw [s2 _ _ a1 a2, s1 _ _ a3 a4, a5] at e
  exact e

/-! ## The S-box -/

/-- The truth tables of the eight bits of a byte: bit `v` of `ttab t` is bit `t` of `v`. -/
def ttab (t : Nat) : BitVec 256 := BitVec.ofNat 256 ((List.range 256).foldr (fun v s => 2 * s + if v.testBit t then 1 else 0) 0)

theorem ttab_bit : ∀ t, t < 8 → ∀ v, v < 256 → (ttab t).getLsbD v = v.testBit t := by decide +kernel

/-- The results of the gates on the truth tables. -/
def sboxTab : Option (V → Option (BitVec 256)) := runGates sboxGates (inputs (ttab 7) (ttab 6) (ttab 5) (ttab 4) (ttab 3) (ttab 2) (ttab 1) (ttab 0))

/-- The result in `s_i`. -/
def outTab (i : Nat) : Option (BitVec 256) := sboxTab.bind fun e => e (.s i)

theorem sbox_table : ∀ t, t < 8 → (match outTab (7 - t) with | some x => (List.range 256).all (fun v => x.getLsbD v == (sbox (BitVec.ofNat 8 v)).getLsbD t) | none => false) = true := by decide +kernel

/-- Two variable assignments (of words of different lengths) that are defined for the same variables and agree at the bits `p`, `p'`. -/
def Agree {n m : Nat} (p p' : Nat) (e : V → Option (BitVec n)) (e' : V → Option (BitVec m)) : Prop :=
  ∀ v, (e v).map (fun x => x.getLsbD p) = (e' v).map fun x => x.getLsbD p'

theorem op_bit {n m p p' : Nat} (hp : p < n) (hp' : p' < m) (g : Gate) {a b : BitVec n} {a' b' : BitVec m} (ha : a.getLsbD p = a'.getLsbD p') (hb : b.getLsbD p = b'.getLsbD p') :
    (g.op a b).getLsbD p = (g.op a' b').getLsbD p' := by
  cases g <;> simp only [Gate.op, BitVec.getLsbD_xor, BitVec.getLsbD_and, BitVec.getLsbD_not, ha, hb, hp, hp', decide_true]

theorem run_agree {n m p p' : Nat} (hp : p < n) (hp' : p' < m) (gs : List Gate) {e : V → Option (BitVec n)} {e' : V → Option (BitVec m)} (h : Agree p p' e e') {o' : V → Option (BitVec m)}
    (ho : runGates gs e' = some o') : ∃ o, runGates gs e = some o ∧ Agree p p' o o' := by
  induction gs generalizing e e' with
  | nil => simp only [runGates, Option.some.injEq] at ho; subst ho; exact ⟨e, rfl, h⟩
  | cons g gs ih =>
    rw [runGates] at ho
    split at ho
    · next a' b' h1 h2 =>
      have ha := h g.args.2.1; have hb := h g.args.2.2
      rw [h1] at ha; rw [h2] at hb
      obtain ⟨a, ea, ha⟩ := Option.map_eq_some_iff.1 ha
      obtain ⟨b, eb, hb⟩ := Option.map_eq_some_iff.1 hb
      rw [runGates, ea, eb]
      refine ih (fun v => ?_) ho
      split
      · simp only [Option.map_some, op_bit hp hp' g ha hb]
      · exact h v
    · exact absurd ho (by simp)

theorem inputs_agree {n m p p' : Nat} {x : Nat → BitVec n} {y : Nat → BitVec m} (h : ∀ t, t < 8 → (x t).getLsbD p = (y t).getLsbD p') :
    Agree p p' (inputs (x 7) (x 6) (x 5) (x 4) (x 3) (x 2) (x 1) (x 0)) (inputs (y 7) (y 6) (y 5) (y 4) (y 3) (y 2) (y 1) (y 0)) := by
  intro v
  unfold inputs
  split <;> simp only [Option.map_some, Option.map_none, Option.some.injEq] <;> exact h _ (by decide)

/-- Bit `p` of the words holds the byte `v`. -/
def HoldsByte (f : Nat → W) (p : Nat) (v : Byte) : Prop := ∀ t, t < 8 → (f t).getLsbD p = v.getLsbD t

theorem sbox_run (f : Nat → W) : ∃ e g, runGates sboxGates (inputs (f 7) (f 6) (f 5) (f 4) (f 3) (f 2) (f 1) (f 0)) = some e ∧ (∀ t, t < 8 → e (.s (7 - t)) = some (g t)) ∧
    ∀ p v, p < 64 → HoldsByte f p v → HoldsByte g p (sbox v) := by
  have tabSome : ∀ t, t < 8 → (outTab (7 - t)).isSome = true := fun t ht => by
    have := sbox_table t ht
    revert this; cases outTab (7 - t) <;> simp
  have hs : sboxTab.isSome = true := by
    have := tabSome 0 (by decide)
    unfold outTab at this
    cases h : sboxTab with
    | some _ => rfl
    | none => rw [h] at this; simp at this
  obtain ⟨o', ho'⟩ := Option.isSome_iff_exists.1 hs
  have runs : ∀ p v, p < 64 → HoldsByte f p v → ∃ o, runGates sboxGates (inputs (f 7) (f 6) (f 5) (f 4) (f 3) (f 2) (f 1) (f 0)) = some o ∧ Agree p v.toNat o o' := fun p v hp hv =>
    run_agree hp v.isLt _ (inputs_agree fun t ht => by rw [hv t ht, ttab_bit t ht _ v.isLt]; rfl) ho'
  have anyByte : ∀ p, ∃ v, HoldsByte f p v := fun p => by
    refine ⟨BitVec.ofBool ((f 0).getLsbD p) |>.setWidth 8 |> fun b0 => b0 ||| ((BitVec.ofBool ((f 1).getLsbD p)).setWidth 8 <<< 1) ||| ((BitVec.ofBool ((f 2).getLsbD p)).setWidth 8 <<< 2) |||
      ((BitVec.ofBool ((f 3).getLsbD p)).setWidth 8 <<< 3) ||| ((BitVec.ofBool ((f 4).getLsbD p)).setWidth 8 <<< 4) ||| ((BitVec.ofBool ((f 5).getLsbD p)).setWidth 8 <<< 5) |||
      ((BitVec.ofBool ((f 6).getLsbD p)).setWidth 8 <<< 6) ||| ((BitVec.ofBool ((f 7).getLsbD p)).setWidth 8 <<< 7), ?_⟩
    intro t ht
    interval_cases t <;> simp
  obtain ⟨v0, hv0⟩ := anyByte 0
  obtain ⟨e, he, ha⟩ := runs 0 v0 (by decide) hv0
  refine ⟨e, fun t => (e (.s (7 - t))).getD 0#64, he, fun t ht => ?_, fun p v hp hv t ht => ?_⟩
  · have h1 := ha (.s (7 - t))
    have h2 := tabSome t ht
    unfold outTab at h2
    rw [ho'] at h2
    obtain ⟨x, hx⟩ := Option.isSome_iff_exists.1 h2
    rw [show o' (.s (7 - t)) = some x from hx] at h1
    obtain ⟨y, hy, _⟩ := Option.map_eq_some_iff.1 h1
    show e (.s (7 - t)) = some ((e (.s (7 - t))).getD 0#64)
    rw [hy]; rfl
  · obtain ⟨o, ho, hag⟩ := runs p v hp hv
    rw [he] at ho
    obtain rfl := Option.some.inj ho
    have h1 := hag (.s (7 - t))
    have h3 := sbox_table t ht
    unfold outTab at h3
    rw [ho'] at h3
    simp only [Option.bind_some] at h3
    cases hx : o' (.s (7 - t)) with
    | none => rw [hx] at h3; simp at h3
    | some x =>
      rw [hx] at h1 h3
      obtain ⟨y, hy, hyx⟩ := Option.map_eq_some_iff.1 h1
      show ((e (.s (7 - t))).getD 0#64).getLsbD p = _
      rw [hy]
      simp only [Option.getD_some]
      rw [hyx]
      have h4 := List.all_eq_true.1 h3 v.toNat (List.mem_range.2 v.isLt)
      rw [BitVec.ofNat_toNat, BitVec.setWidth_eq] at h4
      exact eq_of_beq h4

attribute [local irreducible] runGates sboxGates

theorem wr8 {q : Buf W} {f : Nat → W} (h : Holds q 8 f) (g : Nat → W) {is : List Nat} (hp : is.Perm (List.range 8)) :
    Holds (is.foldl (fun q i => q.setIfInBounds i (some (g i))) q) 8 g := by
  have gen : ∀ (is : List Nat) (q : Buf W) (f : Nat → W), Holds q 8 f → (∀ i ∈ is, i < 8) → Holds (is.foldl (fun q i => q.setIfInBounds i (some (g i))) q) 8 (fun t => if t ∈ is then g t else f t) := by
    intro is
    induction is with
    | nil => intro q f h _; simpa using h
    | cons i is ih =>
      intro q f h hi
      refine (ih _ _ (h.set (hi i (by simp)) (g i)) fun j hj => hi j (by simp [hj])).congr fun t ht => ?_
      by_cases h1 : t ∈ is
      · simp [h1]
      · by_cases h2 : t = i
        · subst h2; simp [h1]
        · simp [h1, h2, upd]
  refine (gen is q f h fun i hi => List.mem_range.1 (hp.mem_iff.1 hi)).congr fun t ht => ?_
  rw [if_pos (hp.mem_iff.2 (List.mem_range.2 ht))]

theorem bitslice_spec {q : Buf W} {f : Nat → W} (h : Holds q 8 f) :
    Post (br_aes_ct64_bitslice_Sbox q) (fun q' => ∃ g, Holds q' 8 g ∧ ∀ p v, p < 64 → HoldsByte f p v → HoldsByte g p (sbox v)) := by
  obtain ⟨e, g, he, hg, hv⟩ := sbox_run f
  unfold br_aes_ct64_bitslice_Sbox
  simp only [wp_bind, wp_rd]
  refine ⟨_, h.2 7 (by decide), _, h.2 6 (by decide), _, h.2 5 (by decide), _, h.2 4 (by decide), _, h.2 3 (by decide), _, h.2 2 (by decide), _, h.2 1 (by decide), _, h.2 0 (by decide), ?_⟩
  rw [he]
  have gv : ∀ t, t < 8 → getV e (.s (7 - t)) = pure (g t) := fun t ht => by unfold getV; rw [hg t ht]
  show Post (do
    let q ← wr q 7 (← getV e (.s (7 - 7)))
    let q ← wr q 6 (← getV e (.s (7 - 6)))
    let q ← wr q 5 (← getV e (.s (7 - 5)))
    let q ← wr q 4 (← getV e (.s (7 - 4)))
    let q ← wr q 3 (← getV e (.s (7 - 3)))
    let q ← wr q 2 (← getV e (.s (7 - 2)))
    let q ← wr q 1 (← getV e (.s (7 - 1)))
    wr q 0 (← getV e (.s (7 - 0)))) _
  rw [gv 7 (by decide), gv 6 (by decide), gv 5 (by decide), gv 4 (by decide), gv 3 (by decide), gv 2 (by decide), gv 1 (by decide), gv 0 (by decide)]
  simp only [wp_bind, wp_pure, wp_wr, Array.size_setIfInBounds, h.1]
  refine ⟨by decide, by decide, by decide, by decide, by decide, by decide, by decide, by decide, g, ?_, hv⟩
  have := wr8 h g (is := [7, 6, 5, 4, 3, 2, 1, 0]) (by decide +kernel)
  simpa only [List.foldl] using this
end Verif.Aes

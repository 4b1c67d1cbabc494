import Verif.Proof.Pack
import Verif.Model.RejUniform
/-! # Rejection sampling -/
open Finset
namespace Verif
open Model Spec

variable {F : Prop}

/-- The two candidates in three bytes. -/
def cand (c0 c1 c2 : UInt8) : Nat × Nat := (c0.toNat + 256 * (c1.toNat % 16), c1.toNat / 16 + 16 * c2.toNat)

/-- One iteration of the sampling loop, with an arbitrary number `T` of entries wanted. -/
def sStep (T : Nat) (c0 c1 c2 : UInt8) (a : List Nat) : List Nat :=
  let a := if (cand c0 c1 c2).1 < 3329 then a ++ [(cand c0 c1 c2).1] else a
  if (cand c0 c1 c2).2 < 3329 ∧ a.length < T then a ++ [(cand c0 c1 c2).2] else a

/-- `sampleLoop` on natural numbers, with an arbitrary number `T` of entries wanted. -/
def sN (T : Nat) : List UInt8 → List Nat → List Nat
  | c0 :: c1 :: c2 :: rest, a => if a.length < T then sN T rest (sStep T c0 c1 c2 a) else a
  | _, a => a

theorem sampleLoop_eq (L : List UInt8) (a : List Nat) : sampleLoop L (a.map fun x : Nat => (x : Zq)) = (sN 256 L a).map fun x : Nat => (x : Zq) := by
  induction L, a using sN.induct (T := 256) with
  | case1 c0 c1 c2 rest a h ih =>
    rw [sampleLoop, sN, List.length_map, if_pos h, if_pos h, ← ih]
    congr 1
    unfold sStep
    simp only [cand]
    by_cases h1 : c0.toNat + 256 * (c1.toNat % 16) < 3329
    · by_cases h2 : c1.toNat / 16 + 16 * c2.toNat < 3329
      · simp [h1, h2]; split <;> simp
      · simp [h1, h2]
    · by_cases h2 : c1.toNat / 16 + 16 * c2.toNat < 3329
      · simp [h1, h2, h]
      · simp [h1, h2]
  | case2 c0 c1 c2 rest a h => rw [sampleLoop, sN, List.length_map, if_neg h, if_neg h]
  | case3 L a h =>
    match L, h with
    | [], _ => rfl
    | [_], _ => rfl
    | [_, _], _ => rfl
    | _ :: _ :: _ :: _, h => exact (h _ _ _ _ rfl).elim

theorem sN_full {T : Nat} {L : List UInt8} {a : List Nat} (h : T ≤ a.length) : sN T L a = a := by
  match L with
  | [] => rfl
  | [_] => rfl
  | [_, _] => rfl
  | _ :: _ :: _ :: _ => rw [sN, if_neg (by omega)]

theorem sN_short {T : Nat} {L : List UInt8} {a : List Nat} (h : L.length < 3) : sN T L a = a := by
  match L, h with
  | [], _ => rfl
  | [_], _ => rfl
  | [_, _], _ => rfl

theorem sStep_length {T : Nat} {c0 c1 c2 : UInt8} {a : List Nat} (h : a.length < T) : (sStep T c0 c1 c2 a).length ≤ T := by
  unfold sStep
  by_cases h1 : (cand c0 c1 c2).1 < 3329
  · simp only [h1, if_true]; split <;> simp_all <;> omega
  · simp only [h1, if_false]; split <;> simp_all <;> omega

theorem sStep_prefix {T : Nat} {c0 c1 c2 : UInt8} {a : List Nat} : a <+: sStep T c0 c1 c2 a := by
  unfold sStep
  simp only
  split <;> split <;> simp [List.append_assoc]

theorem sStep_lt {T : Nat} {c0 c1 c2 : UInt8} {a : List Nat} (h : ∀ x ∈ a, x < 3329) : ∀ x ∈ sStep T c0 c1 c2 a, x < 3329 := by
  intro x hx
  unfold sStep at hx
  simp only at hx
  by_cases h1 : (cand c0 c1 c2).1 < 3329 <;> simp only [h1, if_true, if_false] at hx <;> split at hx
  · simp at hx; rcases hx with hx | hx | hx
    · exact h x hx
    · omega
    · omega
  · simp at hx; rcases hx with hx | hx
    · exact h x hx
    · omega
  · simp at hx; rcases hx with hx | hx
    · exact h x hx
    · omega
  · exact h x hx

theorem sN_ind {T : Nat} (P : List Nat → Prop) (hs : ∀ c0 c1 c2 a, a.length < T → P a → P (sStep T c0 c1 c2 a)) {L : List UInt8} {a : List Nat} (h : P a) :
    P (sN T L a) := by
  induction L, a using sN.induct (T := T) with
  | case1 c0 c1 c2 rest a hl ih => rw [sN, if_pos hl]; exact ih (hs _ _ _ _ hl h)
  | case2 c0 c1 c2 rest a hl => rw [sN, if_neg hl]; exact h
  | case3 L a hl =>
    match L, hl with
    | [], _ => exact h
    | [_], _ => exact h
    | [_, _], _ => exact h
    | _ :: _ :: _ :: _, hl => exact (hl _ _ _ _ rfl).elim

theorem sN_length {T : Nat} {L : List UInt8} {a : List Nat} (h : a.length ≤ T) : (sN T L a).length ≤ T :=
  sN_ind (fun a => a.length ≤ T) (fun _ _ _ _ h _ => sStep_length h) h

theorem sN_lt {T : Nat} {L : List UInt8} {a : List Nat} (h : ∀ x ∈ a, x < 3329) : ∀ x ∈ sN T L a, x < 3329 :=
  sN_ind (fun a => ∀ x ∈ a, x < 3329) (fun _ _ _ _ _ h => sStep_lt h) h

theorem sN_prefix {T : Nat} {L : List UInt8} {a : List Nat} : a <+: sN T L a :=
  sN_ind (fun b => a <+: b) (fun _ _ _ _ _ h => h.trans sStep_prefix) (List.prefix_refl a)

/-- Splitting the byte stream at a multiple of three. -/
theorem sN_append {T : Nat} {L L' : List UInt8} {a : List Nat} (h : L.length % 3 = 0) : sN T (L ++ L') a = sN T L' (sN T L a) := by
  induction L, a using sN.induct (T := T) with
  | case1 c0 c1 c2 rest a hl ih =>
    simp only [List.cons_append]
    rw [sN, if_pos hl, sN, if_pos hl, ih (by simp at h; omega)]
  | case2 c0 c1 c2 rest a hl =>
    rw [sN_full (by omega), sN_full (L := c0 :: c1 :: c2 :: rest) (by omega), sN_full (by omega)]
  | case3 L a hl =>
    match L, hl with
    | [], _ => rfl
    | [_], _ => simp at h
    | [_, _], _ => simp at h
    | _ :: _ :: _ :: _, hl => exact (hl _ _ _ _ rfl).elim

/-- The polynomial buffer holds the list, from cell 0. -/
def HasList (r : Model.Poly) (a : List Nat) : Prop := ∀ i, i < a.length → r[i]? = some (some ((a.getD i 0 : Nat) : Int))

theorem HasList.push {r : Model.Poly} {a : List Nat} {v : Nat} (h : HasList r a) (hs : a.length < r.size) :
    HasList (r.setIfInBounds a.length (some (v : Int))) (a ++ [v]) := by
  intro i hi
  simp at hi
  by_cases e : i = a.length
  · subst e
    rw [Array.getElem?_setIfInBounds_self, if_pos hs]; simp [List.getD]
  · rw [Array.getElem?_setIfInBounds_ne (by omega), h i (by omega)]
    simp [List.getD, List.getElem?_append_left (show i < a.length by omega)]

theorem val0_eq (c0 c1 : UInt8) : ((c0.toNat >>> 0) ||| (c1.toNat <<< 8)) &&& 0xFFF = c0.toNat + 256 * (c1.toNat % 16) := by
  have h0 := c0.toNat_lt
  rw [Nat.shiftRight_zero, Nat.or_comm, ← Nat.shiftLeft_add_eq_or_of_lt (show c0.toNat < 2 ^ 8 from h0), show 0xFFF = 2 ^ 12 - 1 from rfl, Nat.and_two_pow_sub_one_eq_mod,
    Nat.shiftLeft_eq]
  omega

theorem val1_eq (c1 c2 : UInt8) : ((c1.toNat >>> 4) ||| (c2.toNat <<< 4)) &&& 0xFFF = c1.toNat / 16 + 16 * c2.toNat := by
  have h0 := c1.toNat_lt
  have h1 := c2.toNat_lt
  have : c1.toNat >>> 4 = c1.toNat / 16 := Nat.shiftRight_eq_div_pow _ _
  rw [this, Nat.or_comm, ← Nat.shiftLeft_add_eq_or_of_lt (show c1.toNat / 16 < 2 ^ 4 by omega), show 0xFFF = 2 ^ 12 - 1 from rfl, Nat.and_two_pow_sub_one_eq_mod,
    Nat.shiftLeft_eq]
  omega

/-- `rej_uniform` continues the sampling loop on the bytes of the buffer. -/
theorem rej_uniform_spec {r : Model.Poly} {T : Nat} {a : List Nat} {buf : Buf UInt8} {L : List UInt8} (hT : T ≤ r.size) (hT32 : T < 2 ^ 32) (hL : L.length + 3 < 2 ^ 32)
    (ha : a.length ≤ T) (hr : HasList r a) (hb : Seg buf 0 L.length (fun i => L.getD i 0)) :
    Post (rej_uniform r T a.length buf L.length) (fun x => x.1.size = r.size ∧ HasList x.1 (sN T L a) ∧ x.2 = (sN T L a).length ∧
      ∀ j, T ≤ j → x.1[j]? = r[j]?) := by
  have w : ∀ {x : Nat}, x < 2 ^ 32 → u32 x = x := fun h => Nat.mod_eq_of_lt h
  unfold rej_uniform rej_uniform_scalar
  simp only [wp_bind]
  refine wp_while (fun (s : Model.Poly × Nat × Nat) => ∃ b, s.2.1 = b.length ∧ b.length ≤ T ∧ s.2.2 ≤ L.length ∧ s.1.size = r.size ∧ HasList s.1 b ∧
      sN T (L.drop s.2.2) b = sN T L a ∧ ∀ j, T ≤ j → s.1[j]? = r[j]?)
    (fun s => L.length - s.2.2) (fun s => decide (s.2.1 < T) && decide (s.2.2 + 3 ≤ L.length)) ?_ ?_ ?_ ?_ ?_
  · exact ⟨a, rfl, ha, Nat.zero_le _, rfl, hr, by simp, fun _ _ => rfl⟩
  · simp
  · rintro ⟨r', ctr, pos⟩ ⟨b, e, hbl, hp, _⟩
    simp only [wp_andM]
    rw [w (show pos + 3 < 2 ^ 32 by simp only at hp; omega)]
  · rintro ⟨r', ctr, pos⟩ ⟨b, e, hbl, hp, hs, hl, hsn, hfr⟩ hC
    simp only [Bool.and_eq_true, decide_eq_true_eq] at hC e hp hs hl hsn hfr
    refine ⟨by first | omega | (simp; omega), ?_⟩
    subst e
    have g : ∀ k, k < 3 → buf[pos + k]? = some (some (L.getD (pos + k) 0)) := fun k hk => by
      have := hb.get (i := pos + k) (by omega); rwa [Nat.zero_add] at this
    simp only [wp_bind, wp_rd]
    rw [w (show pos + 0 < 2 ^ 32 by omega), w (show pos + 1 < 2 ^ 32 by omega), w (show pos + 2 < 2 ^ 32 by omega), w (show pos + 3 < 2 ^ 32 by omega),
      w (show b.length + 1 < 2 ^ 32 by omega)]
    refine ⟨_, g 0 (by omega), _, g 1 (by omega), _, g 1 (by omega), _, g 2 (by omega), ?_⟩
    rw [val0_eq, val1_eq]
    have hd : L.drop pos = L.getD pos 0 :: L.getD (pos + 1) 0 :: L.getD (pos + 2) 0 :: L.drop (pos + 3) := by
      rw [List.drop_eq_getElem_cons (show pos < L.length by omega), List.drop_eq_getElem_cons (show pos + 1 < L.length by omega),
        List.drop_eq_getElem_cons (show pos + 1 + 1 < L.length by omega)]
      simp [List.getD, List.getElem?_eq_getElem (show pos < L.length by omega), List.getElem?_eq_getElem (show pos + 1 < L.length by omega),
        List.getElem?_eq_getElem (show pos + 2 < L.length by omega)]
    rw [hd, sN, if_pos hC.1] at hsn
    rw [Nat.add_zero]
    generalize L.getD pos 0 = c0 at *
    generalize L.getD (pos + 1) 0 = c1 at *
    generalize L.getD (pos + 2) 0 = c2 at *
    have hsz : b.length < r'.size := by omega
    simp only [wp_branch, wp_bind, wp_wr, wp_pure, wp_andM, decide_eq_true_eq, decide_eq_false_iff_not, Bool.and_eq_true, Bool.and_eq_false_iff]
    unfold sStep at hsn
    simp only [cand] at hsn
    refine ⟨fun h1 => ⟨hsz, ?_⟩, fun h1 => ?_⟩
    · simp only [h1, if_true] at hsn
      have hp1 := hl.push (v := c0.toNat + 256 * (c1.toNat % 16)) hsz
      have hf1 : ∀ j, T ≤ j → (r'.setIfInBounds b.length (some (((c0.toNat + 256 * (c1.toNat % 16) : Nat)) : Int)))[j]? = r[j]? := fun j hj => by
        rw [Array.getElem?_setIfInBounds_ne (by omega), hfr j hj]
      have hl1 : (b ++ [c0.toNat + 256 * (c1.toNat % 16)]).length = b.length + 1 := by simp
      rw [hl1] at hsn
      refine ⟨fun h2 => ?_, fun h2 => ?_⟩
      · rw [if_pos ⟨h2.2, h2.1⟩] at hsn
        refine ⟨by first | omega | (simp; omega), ⟨_, ?_, ?_, ?_, ?_, ?_, hsn, ?_⟩, by omega⟩
        · simp; exact w (by omega)
        · first | omega | (simp; omega)
        · first | omega | (simp; omega)
        · simp [hs]
        · rw [← hl1]; exact hp1.push (by first | omega | (simp; omega))
        · intro j hj
          rw [Array.getElem?_setIfInBounds_ne (by omega)]; exact hf1 j hj
      · rw [if_neg (by omega)] at hsn
        refine ⟨⟨_, ?_, ?_, ?_, ?_, hp1, hsn, hf1⟩, by omega⟩
        · simp
        · first | omega | (simp; omega)
        · first | omega | (simp; omega)
        · simp [hs]
    · simp only [h1, if_false] at hsn
      refine ⟨fun h2 => ?_, fun h2 => ?_⟩
      · rw [if_pos ⟨h2.2, h2.1⟩] at hsn
        refine ⟨by omega, ⟨_, ?_, ?_, ?_, ?_, hl.push hsz, hsn, ?_⟩, by omega⟩
        · simp; exact w (by omega)
        · first | omega | (simp; omega)
        · first | omega | (simp; omega)
        · simp [hs]
        · intro j hj
          rw [Array.getElem?_setIfInBounds_ne (by omega)]; exact hfr j hj
      · rw [if_neg (by omega)] at hsn
        exact ⟨⟨b, rfl, hbl, by first | omega | (simp; omega), hs, hl, hsn, hfr⟩, by first | omega | (simp; omega)⟩
  · rintro ⟨r', ctr, pos⟩ ⟨b, e, hbl, hp, hs, hl, hsn, hfr⟩ hC
    simp only [Bool.and_eq_false_iff, decide_eq_false_iff_not] at hC e hp hs hl hsn hfr
    simp only [wp_pure]
    have : sN T (L.drop pos) b = b := by
      rcases hC with h | h
      · exact sN_full (by omega)
      · exact sN_short (by first | omega | (simp; omega))
    rw [this] at hsn
    subst hsn
    exact ⟨hs, hl, e, hfr⟩

end Verif

import Verif.Spec.Printed
import Verif.Proof.InvNtt
import Verif.Proof.NttLin
import Mathlib.Data.List.GetD
/-! # The algorithms of FIPS 203 as printed compute the formulas -/
open Finset
namespace Verif.Printed
open Spec
open Function (update)

/-- A counting loop, with an invariant. -/
theorem for_inv {σ : Type} (I : Nat → σ → Prop) {n : Nat} {s : σ} {f : Nat → σ → Id (ForInStep σ)} (h0 : I 0 s)
    (hs : ∀ i s, i < n → I i s → ∃ s', f i s = pure (ForInStep.yield s') ∧ I (i + 1) s') : I n (forIn (List.range n) s f : Id σ).run := by
  have key : ∀ m lo s, lo + m = n → I lo s → I n (forIn (List.range' lo m) s f : Id σ).run := by
    intro m
    induction m with
    | zero => intro lo s h hI; simp only [Nat.add_zero] at h; subst h; simpa using hI
    | succ m ih =>
      intro lo s h hI
      obtain ⟨s', e, hI'⟩ := hs lo s (by omega) hI
      rw [List.range'_succ, List.forIn_cons, e]
      exact ih (lo + 1) s' (by omega) hI'
  rw [List.range_eq_range']
  exact key n 0 s (by omega) h0

theorem upd_eq {α : Type} (f : Nat → α) (i : Nat) (x : α) (n : Nat) : update f i x n = if n = i then x else f n := by
  simp [Function.update_apply]

/-! ## Bits and bytes -/

theorem BitsToBytes_eq (ℓ : Nat) (b : Nat → Bool) {c : Nat → Nat} (hc : ∀ i, i < 8 * ℓ → c i = if b i then 1 else 0) {k : Nat} (hk : k < ℓ) :
    Printed.BitsToBytes ℓ c k = (byteOf fun t => b (8 * k + t)).toNat := by
  rw [byteOf_toNat]
  have := for_inv (σ := Nat → Nat) (fun i B => ∀ k, B k = ∑ j ∈ range 8, if 8 * k + j < i ∧ b (8 * k + j) then 2 ^ j else 0) (n := 8 * ℓ)
    (s := fun _ => 0) (f := fun i B => pure (ForInStep.yield (update B (i / 8) (B (i / 8) + c i * 2 ^ (i % 8))))) (by simp) ?_
  · refine (this k).trans ?_
    unfold ofBits
    refine sum_congr rfl fun j hj => ?_
    have := mem_range.mp hj
    simp [show 8 * k + j < 8 * ℓ by omega]
  · intro i B hi hB
    refine ⟨_, rfl, fun k => ?_⟩
    rw [upd_eq]
    by_cases hk : k = i / 8
    · subst hk
      rw [if_pos rfl, hB, hc i hi]
      have h8 : i % 8 < 8 := Nat.mod_lt _ (by omega)
      rw [← Finset.add_sum_erase _ _ (mem_range.mpr h8), ← Finset.add_sum_erase (a := i % 8) (f := fun j => if 8 * (i / 8) + j < i + 1 ∧ _ then 2 ^ j else 0) _ (mem_range.mpr h8)]
      have e : 8 * (i / 8) + i % 8 = i := by omega
      rw [e]
      rw [if_neg (by omega : ¬ (i < i ∧ b i = true))]
      have : ∑ x ∈ (range 8).erase (i % 8), (if 8 * (i / 8) + x < i ∧ b (8 * (i / 8) + x) = true then 2 ^ x else 0) = ∑ x ∈ (range 8).erase (i % 8), (if 8 * (i / 8) + x < i + 1 ∧ b (8 * (i / 8) + x) = true then 2 ^ x else 0) := by
        refine sum_congr rfl fun x hx => ?_
        have := (mem_erase.mp hx).1
        exact if_congr (and_congr_left' (by omega)) rfl rfl
      rw [this]
      by_cases hb : b i
      · simp [hb]; omega
      · simp [hb]
    · rw [if_neg hk, hB]
      refine sum_congr rfl fun j hj => ?_
      have := mem_range.mp hj
      exact if_congr (and_congr_left' (by omega)) rfl rfl

theorem testBit_ite (x t : Nat) : x / 2 ^ t % 2 = if x.testBit t then 1 else 0 := by
  rw [Nat.testBit_eq_decide_div_mod_eq]
  have := Nat.mod_lt (x / 2 ^ t) (show 2 > 0 by omega)
  by_cases h : x / 2 ^ t % 2 = 1
  · simp [h]
  · simp [h]; omega

theorem BytesToBits_eq (ℓ : Nat) (B : Nat → Nat) {n : Nat} (hn : n < 8 * ℓ) :
    Printed.BytesToBits ℓ B n = if (B (n / 8)).testBit (n % 8) then 1 else 0 := by
  have := for_inv (σ := (Nat → Nat) × (Nat → Nat)) (fun i s => (∀ n, n < 8 * i → s.2 n = if (B (n / 8)).testBit (n % 8) then 1 else 0) ∧ ∀ n, i ≤ n → s.1 n = B n) (n := ℓ)
    (s := (B, fun _ => 0)) (f := fun i s => do
      let s' ← forIn (List.range 8) s fun j s => (pure (ForInStep.yield (update s.1 i (s.1 i / 2), update s.2 (8 * i + j) (s.1 i % 2))) : Id _)
      pure (ForInStep.yield s')) (by simp) ?_
  · exact this.1 n hn
  · rintro i ⟨C, b⟩ hi ⟨h1, h2⟩
    refine ⟨_, rfl, ?_⟩
    have := for_inv (σ := (Nat → Nat) × (Nat → Nat)) (fun j s => (∀ n, n < 8 * i + j → s.2 n = if (B (n / 8)).testBit (n % 8) then 1 else 0) ∧ s.1 i = B i / 2 ^ j ∧ ∀ n, i + 1 ≤ n → s.1 n = B n) (n := 8)
      (s := (C, b)) (f := fun j s => (pure (ForInStep.yield (update s.1 i (s.1 i / 2), update s.2 (8 * i + j) (s.1 i % 2))) : Id _))
      ⟨h1, by simpa using h2 i le_rfl, fun n hn => h2 n (by omega)⟩ ?_
    · exact ⟨this.1, this.2.2⟩
    · rintro j ⟨C, b⟩ hj ⟨g1, g2, g3⟩
      refine ⟨_, rfl, ⟨fun n hn => ?_, ?_, fun n hn => ?_⟩⟩
      · simp only [upd_eq]
        by_cases e : n = 8 * i + j
        · rw [if_pos e]
          simp only [] at g2
          rw [g2, testBit_ite, e, show (8 * i + j) / 8 = i by omega, show (8 * i + j) % 8 = j by omega]
        · rw [if_neg e]; exact g1 n (by omega)
      · simp only [upd_eq, if_true]
        simp only [] at g2
        rw [g2, Nat.div_div_eq_div_mul, pow_succ]
      · simp only [upd_eq]
        rw [if_neg (by omega)]; exact g3 n hn

theorem ByteEncode_eq {d : Nat} (hd : 0 < d) (F : Nat → Nat) {k : Nat} (hk : k < 32 * d) :
    Printed.ByteEncode d F k = ((Spec.ByteEncode d F).getD k 0).toNat := by
  rw [ByteEncode_getD d F hk]
  have := for_inv (σ := Nat → Nat) (fun i b => ∀ n, n < i * d → b n = if (F (n / d)).testBit (n % d) then 1 else 0) (n := 256)
    (s := fun _ => 0) (f := fun i b => do
      let s' ← forIn (List.range d) (b, F i) fun j s => (pure (ForInStep.yield (update s.1 (i * d + j) (s.2 % 2), (s.2 - update s.1 (i * d + j) (s.2 % 2) (i * d + j)) / 2)) : Id _)
      pure (ForInStep.yield s'.1)) (by simp) ?_
  · unfold Printed.ByteEncode
    simp only [Id.run_bind, Id.run_pure]
    refine BitsToBytes_eq (32 * d) (fun n => (F (n / d)).testBit (n % d)) (fun i hi => ?_) hk
    exact this i (by omega)
  · rintro i b hi hb
    refine ⟨_, rfl, ?_⟩
    have := for_inv (σ := (Nat → Nat) × Nat) (fun j s => (∀ n, n < i * d + j → s.1 n = if (F (n / d)).testBit (n % d) then 1 else 0) ∧ s.2 = F i / 2 ^ j) (n := d)
      (s := (b, F i)) (f := fun j s => (pure (ForInStep.yield (update s.1 (i * d + j) (s.2 % 2), (s.2 - update s.1 (i * d + j) (s.2 % 2) (i * d + j)) / 2)) : Id _))
      ⟨hb, by simp⟩ ?_
    · intro n hn
      rw [Nat.add_mul, Nat.one_mul] at hn
      exact this.1 n hn
    · rintro j ⟨b, a⟩ hj ⟨g1, g2⟩
      refine ⟨_, rfl, ⟨fun n hn => ?_, ?_⟩⟩
      · simp only [upd_eq]
        by_cases e : n = i * d + j
        · rw [if_pos e]
          simp only [] at g2
          have e1 : (i * d + j) / d = i := by rw [Nat.mul_comm, Nat.mul_add_div hd, Nat.div_eq_of_lt hj]; rfl
          have e2 : (i * d + j) % d = j := by rw [Nat.mul_comm, Nat.mul_add_mod, Nat.mod_eq_of_lt hj]
          rw [g2, testBit_ite, e, e1, e2]
        · rw [if_neg e]; exact g1 n (by omega)
      · simp only [upd_eq, if_true]
        simp only [] at g2
        have : (a - a % 2) / 2 = a / 2 := by omega
        rw [this, g2, Nat.div_div_eq_div_mul, pow_succ]

theorem bitAt_bytes (B : List UInt8) (ℓ : Nat) {n : Nat} (hn : n < 8 * ℓ) : Printed.BytesToBits ℓ (Printed.bytes B) n = if bitAt B n then 1 else 0 := BytesToBits_eq ℓ _ hn

theorem ByteDecode_eq {d : Nat} (hd : d ≤ 12) (B : List UInt8) {i : Nat} (hi : i < 256) : Printed.ByteDecode d (Printed.bytes B) i = Spec.ByteDecode d B i := by
  have := for_inv (σ := Nat → Nat) (fun n F => ∀ i, i < n → F i = Spec.ByteDecode d B i) (n := 256)
    (s := fun _ => 0) (f := fun i F => pure (ForInStep.yield (update F i ((∑ j ∈ range d, Printed.BytesToBits (32 * d) (Printed.bytes B) (i * d + j) * 2 ^ j) % (if d < 12 then 2 ^ d else 3329))))) (by simp) ?_
  · exact this i hi
  · intro n F hn hF
    refine ⟨_, rfl, fun i hi => ?_⟩
    rw [upd_eq]
    by_cases e : i = n
    · rw [if_pos e]
      subst e
      unfold Spec.ByteDecode
      have e1 : (if d < 12 then 2 ^ d else 3329) = decodeMod d := by
        unfold decodeMod
        by_cases h : d = 12
        · simp [h]
        · rw [if_pos (by omega), if_neg h]
      rw [e1]
      congr 1
      refine sum_congr rfl fun j hj => ?_
      have := mem_range.mp hj
      have h1 : i * d + j < 256 * d := by
        calc i * d + j < i * d + d := by omega
          _ = (i + 1) * d := by rw [Nat.add_mul, Nat.one_mul]
          _ ≤ 256 * d := Nat.mul_le_mul_right _ (by omega)
      rw [bitAt_bytes B _ (by omega)]
      split <;> simp
    · rw [if_neg e]; exact hF i (by omega)

theorem SamplePolyCBD_eq (η : Nat) (B : List UInt8) {i : Nat} (hi : i < 256) : Printed.SamplePolyCBD η (Printed.bytes B) i = Spec.SamplePolyCBD η B i := by
  have := for_inv (σ := Nat → Zq) (fun n F => ∀ i, i < n → F i = Spec.SamplePolyCBD η B i) (n := 256)
    (s := fun _ => 0) (f := fun i F => pure (ForInStep.yield (update F i
      (((∑ j ∈ range η, Printed.BytesToBits (64 * η) (Printed.bytes B) (2 * i * η + j) : Nat) : Zq) - ((∑ j ∈ range η, Printed.BytesToBits (64 * η) (Printed.bytes B) (2 * i * η + η + j) : Nat) : Zq))))) (by simp) ?_
  · exact this i hi
  · intro n F hn hF
    refine ⟨_, rfl, fun i hi => ?_⟩
    rw [upd_eq]
    by_cases e : i = n
    · rw [if_pos e]
      subst e
      unfold Spec.SamplePolyCBD
      have h1 : 2 * i * η + η + η ≤ 512 * η := by
        calc 2 * i * η + η + η = (2 * i + 2) * η := by ring
          _ ≤ 512 * η := Nat.mul_le_mul_right _ (by omega)
      have h2 : ∀ o, o ≤ η → ((∑ j ∈ range η, Printed.BytesToBits (64 * η) (Printed.bytes B) (2 * i * η + o + j) : Nat) : Zq) = ∑ j ∈ range η, if bitAt B (2 * i * η + o + j) then 1 else 0 := by
        intro o ho
        rw [Nat.cast_sum]
        refine sum_congr rfl fun j hj => ?_
        have := mem_range.mp hj
        rw [bitAt_bytes B _ (by omega)]
        split <;> simp
      have := h2 0 (by omega)
      simp only [Nat.add_zero] at this
      rw [this, h2 η le_rfl]
    · rw [if_neg e]; exact hF i (by omega)

theorem MultiplyNTTs_eq (f g : Nat → Zq) {n : Nat} (hn : n < 256) : Printed.MultiplyNTTs f g n = Spec.MultiplyNTTs f g n := by
  have := for_inv (σ := Nat → Zq) (fun i h => ∀ n, n < 2 * i → h n = Spec.MultiplyNTTs f g n) (n := 128)
    (s := fun _ => 0) (f := fun i h => pure (ForInStep.yield (update (update h (2 * i) (f (2 * i) * g (2 * i) + f (2 * i + 1) * g (2 * i + 1) * ζ ^ (2 * bitRev7 i + 1))) (2 * i + 1)
      (f (2 * i) * g (2 * i + 1) + f (2 * i + 1) * g (2 * i))))) (by simp) ?_
  · exact this n hn
  · intro i h hi hh
    refine ⟨_, rfl, fun n hn => ?_⟩
    rw [upd_eq, upd_eq]
    unfold Spec.MultiplyNTTs
    by_cases e1 : n = 2 * i + 1
    · subst e1
      rw [if_pos rfl, if_neg (by omega)]
      rfl
    · by_cases e2 : n = 2 * i
      · subst e2
        rw [if_neg e1, if_pos rfl, if_pos (by omega), show 2 * i / 2 = i by omega]
        rfl
      · rw [if_neg e1, if_neg e2]; exact hh n (by omega)

/-! ## The transforms -/

/-- A loop over a list, with an invariant. -/
theorem for_list {α σ : Type} (I : Nat → σ → Prop) {l : List α} {s : σ} {f : α → σ → Id (ForInStep σ)} {m : Nat} (hm : l.length = m) (h0 : I 0 s)
    (hs : ∀ i s (h : i < l.length), I i s → ∃ s', f l[i] s = pure (ForInStep.yield s') ∧ I (i + 1) s') : I m (forIn l s f : Id σ).run := by
  subst hm
  have key : ∀ (l' : List α) lo s, lo + l'.length = l.length → l.drop lo = l' → I lo s → I l.length (forIn l' s f : Id σ).run := by
    intro l'
    induction l' with
    | nil => intro lo s h _ hI; simp only [List.length_nil, Nat.add_zero] at h; subst h; simpa using hI
    | cons a l' ih =>
      intro lo s h hd hI
      rw [List.length_cons] at h
      have hlo : lo < l.length := by omega
      rw [List.drop_eq_getElem_cons hlo] at hd
      obtain ⟨s', e, hI'⟩ := hs lo s hlo hI
      rw [List.cons.injEq] at hd
      rw [hd.1] at e
      rw [List.forIn_cons, e]
      exact ih (lo + 1) s' (by omega) hd.2 hI'
  exact key l 0 s (by simp) rfl h0

theorem y_zeta {k : Nat} (hk : k < 128) : ζ ^ bitRev7 k = y k := by
  have h : ∀ k, k < 128 → (((17 ^ bitRev7 k : Nat) : Int) - Z k * 169) % 3329 = 0 := by decide +kernel
  have := zq_int_eq (h k hk)
  push_cast at this
  exact this

theorem block (g : Nat → Zq) (z : Zq) (start len : Nat) (n : Nat) :
    (forIn (List.range len) g fun o g => (pure (ForInStep.yield (update (update g (start + o + len) (g (start + o) - z * g (start + o + len))) (start + o)
        (update g (start + o + len) (g (start + o) - z * g (start + o + len)) (start + o) + z * g (start + o + len)))) : Id _) : Id (Nat → Zq)).run n =
      if start ≤ n ∧ n < start + len then g n + z * g (n + len) else if start + len ≤ n ∧ n < start + len + len then g (n - len) - z * g n else g n := by
  have := for_inv (σ := Nat → Zq) (fun m g' => ∀ n, g' n = if start ≤ n ∧ n < start + m then g n + z * g (n + len) else if start + len ≤ n ∧ n < start + len + m then g (n - len) - z * g n else g n) (n := len)
    (s := g) (f := fun o g => (pure (ForInStep.yield (update (update g (start + o + len) (g (start + o) - z * g (start + o + len))) (start + o)
        (update g (start + o + len) (g (start + o) - z * g (start + o + len)) (start + o) + z * g (start + o + len)))) : Id _)) ?_ ?_
  · exact this n
  · intro n
    rw [if_neg (by omega), if_neg (by omega)]
  · intro o g' ho hg
    refine ⟨_, rfl, fun n => ?_⟩
    have e1 : g' (start + o) = g (start + o) := by rw [hg, if_neg (by omega), if_neg (by omega)]
    have e2 : g' (start + o + len) = g (start + o + len) := by rw [hg, if_neg (by omega), if_neg (by omega)]
    rw [upd_eq, upd_eq, upd_eq, if_neg (by omega : ¬ start + o = start + o + len), e1, e2]
    by_cases h1 : n = start + o
    · subst h1
      rw [if_pos rfl, if_pos (by omega)]
    · rw [if_neg h1]
      by_cases h2 : n = start + o + len
      · subst h2
        rw [if_pos rfl, if_neg (by omega), if_pos (by omega), show start + o + len - len = start + o by omega]
      · rw [if_neg h2, hg n]
        by_cases c1 : start ≤ n ∧ n < start + o
        · rw [if_pos c1, if_pos (by omega)]
        · rw [if_neg c1, if_neg (by omega : ¬ (start ≤ n ∧ n < start + (o + 1)))]
          by_cases c2 : start + len ≤ n ∧ n < start + len + o
          · rw [if_pos c2, if_pos (by omega)]
          · rw [if_neg c2, if_neg (by omega)]

theorem layer (g : Nat → Zq) {len B : Nat} (hlen : 0 < len) (hB : 2 * len * B = 256) (hB' : B ≤ 64) :
    let r := (forIn (List.range (128 / len)) (g, B) fun s st => (do
      let g' ← forIn (List.range len) st.1 fun o g => (pure (ForInStep.yield (update (update g (2 * len * s + o + len) (g (2 * len * s + o) - ζ ^ bitRev7 st.2 * g (2 * len * s + o + len))) (2 * len * s + o)
        (update g (2 * len * s + o + len) (g (2 * len * s + o) - ζ ^ bitRev7 st.2 * g (2 * len * s + o + len)) (2 * len * s + o) + ζ ^ bitRev7 st.2 * g (2 * len * s + o + len)))) : Id _)
      pure (ForInStep.yield (g', st.2 + 1)) : Id _) : Id ((Nat → Zq) × Nat)).run
    r.2 = 2 * B ∧ ∀ n, n < 256 → r.1 n = nl len B g n := by
  have e128 : 128 / len = B := Nat.div_eq_of_eq_mul_right hlen (by rw [Nat.mul_assoc] at hB; omega)
  rw [e128]
  intro r
  have := for_inv (σ := (Nat → Zq) × Nat) (fun m st => st.2 = B + m ∧ ∀ n, st.1 n = if n < 2 * len * m then nl len B g n else g n) (n := B) (s := (g, B))
    (f := fun s st => (do
      let g' ← forIn (List.range len) st.1 fun o g => (pure (ForInStep.yield (update (update g (2 * len * s + o + len) (g (2 * len * s + o) - ζ ^ bitRev7 st.2 * g (2 * len * s + o + len))) (2 * len * s + o)
        (update g (2 * len * s + o + len) (g (2 * len * s + o) - ζ ^ bitRev7 st.2 * g (2 * len * s + o + len)) (2 * len * s + o) + ζ ^ bitRev7 st.2 * g (2 * len * s + o + len)))) : Id _)
      pure (ForInStep.yield (g', st.2 + 1)) : Id _)) ⟨rfl, by simp⟩ ?_
  · refine ⟨this.1.trans (by omega), fun n hn => ?_⟩
    refine (this.2 n).trans ?_
    rw [if_pos (by omega)]
  · rintro s ⟨g', i⟩ hs ⟨hi, hg⟩
    simp only [] at hi hg
    subst hi
    refine ⟨_, rfl, rfl, fun n => ?_⟩
    refine (block g' _ _ _ n).trans ?_
    simp only []
    rw [y_zeta (by omega : B + s < 128)]
    have hpos : ∀ o, o < 2 * len → (2 * len * s + o) / (2 * len) = s ∧ (2 * len * s + o) % (2 * len) = o := by
      intro o ho
      rw [Nat.mul_add_div (by omega), Nat.mul_add_mod, Nat.div_eq_of_lt (by omega), Nat.mod_eq_of_lt ho]
      omega
    have hs1 : 2 * len * (s + 1) = 2 * len * s + 2 * len := by ring
    rw [hs1]
    by_cases c1 : 2 * len * s ≤ n ∧ n < 2 * len * s + len
    · obtain ⟨o, rfl⟩ : ∃ o, n = 2 * len * s + o := ⟨n - 2 * len * s, by omega⟩
      obtain ⟨d1, m1⟩ := hpos o (by omega)
      rw [if_pos c1, if_pos (by omega), hg, hg, if_neg (by omega), if_neg (by omega)]
      unfold nl
      rw [d1, m1, if_pos (by omega)]
      ring
    · rw [if_neg c1]
      by_cases c2 : 2 * len * s + len ≤ n ∧ n < 2 * len * s + len + len
      · obtain ⟨o, rfl⟩ : ∃ o, n = 2 * len * s + o := ⟨n - 2 * len * s, by omega⟩
        obtain ⟨d1, m1⟩ := hpos o (by omega)
        rw [if_pos c2, if_pos (by omega), hg, hg, if_neg (by omega), if_neg (by omega)]
        unfold nl
        rw [d1, m1, if_neg (by omega)]
        ring
      · rw [if_neg c2, hg]
        by_cases c3 : n < 2 * len * s
        · rw [if_pos c3, if_pos (by omega)]
        · rw [if_neg c3, if_neg (by omega)]

theorem NTT_eq (f : Nat → Zq) {n : Nat} (hn : n < 256) : Printed.NTT f n = Spec.NTT f n := by
  rw [← fwd_NTT f hn]
  have := for_list (α := Nat) (σ := (Nat → Zq) × Nat) (fun L st => st.2 = 2 ^ L ∧ ∀ n, n < 256 → st.1 n = fwd L f n) (l := [128, 64, 32, 16, 8, 4, 2]) (s := (f, 1))
    (f := fun len st => (do
      let st' ← forIn (List.range (128 / len)) (st.1, st.2) fun s st => (do
        let g' ← forIn (List.range len) st.1 fun o g => (pure (ForInStep.yield (update (update g (2 * len * s + o + len) (g (2 * len * s + o) - ζ ^ bitRev7 st.2 * g (2 * len * s + o + len))) (2 * len * s + o)
          (update g (2 * len * s + o + len) (g (2 * len * s + o) - ζ ^ bitRev7 st.2 * g (2 * len * s + o + len)) (2 * len * s + o) + ζ ^ bitRev7 st.2 * g (2 * len * s + o + len)))) : Id _)
        pure (ForInStep.yield (g', st.2 + 1)) : Id _)
      pure (ForInStep.yield (st'.1, st'.2)) : Id _)) (m := 7) rfl ⟨rfl, fun _ _ => rfl⟩ ?_
  · unfold Printed.NTT
    simp only [Id.run_bind, Id.run_pure]
    convert this.2 n hn
  · rintro L ⟨g, i⟩ hL ⟨hi, hg⟩
    simp only [] at hi hg
    subst hi
    have hL' : L < 7 := hL
    obtain ⟨h1, h2, h3⟩ := layer_len hL'
    have e : ([128, 64, 32, 16, 8, 4, 2] : List Nat)[L] = 128 / 2 ^ L := by interval_cases L <;> rfl
    rw [e]
    obtain ⟨q1, q2⟩ := layer g h1 h2 h3
    refine ⟨_, rfl, ?_, fun n hn => ?_⟩
    · refine q1.trans ?_; rw [pow_succ, Nat.mul_comm]
    · refine (q2 n hn).trans ?_
      exact nl_congr h1 h2 hg n hn

theorem iblock (g : Nat → Zq) (z : Zq) (start len : Nat) (n : Nat) :
    (forIn (List.range len) g fun o g => (pure (ForInStep.yield (update (update g (start + o) (g (start + o) + g (start + o + len))) (start + o + len) (z * (update g (start + o) (g (start + o) + g (start + o + len)) (start + o + len) - g (start + o))))) : Id _) : Id (Nat → Zq)).run n =
      if start ≤ n ∧ n < start + len then g n + g (n + len) else if start + len ≤ n ∧ n < start + len + len then z * (g n - g (n - len)) else g n := by
  have := for_inv (σ := Nat → Zq) (fun m g' => ∀ n, g' n = if start ≤ n ∧ n < start + m then g n + g (n + len) else if start + len ≤ n ∧ n < start + len + m then z * (g n - g (n - len)) else g n) (n := len)
    (s := g) (f := fun o g => (pure (ForInStep.yield (update (update g (start + o) (g (start + o) + g (start + o + len))) (start + o + len) (z * (update g (start + o) (g (start + o) + g (start + o + len)) (start + o + len) - g (start + o))))) : Id _)) ?_ ?_
  · exact this n
  · intro n
    rw [if_neg (by omega), if_neg (by omega)]
  · intro o g' ho hg
    refine ⟨_, rfl, fun n => ?_⟩
    have e1 : g' (start + o) = g (start + o) := by rw [hg, if_neg (by omega), if_neg (by omega)]
    have e2 : g' (start + o + len) = g (start + o + len) := by rw [hg, if_neg (by omega), if_neg (by omega)]
    rw [upd_eq, upd_eq, upd_eq, if_neg (by omega : ¬ start + o + len = start + o), e1, e2]
    by_cases h2 : n = start + o + len
    · subst h2
      rw [if_pos rfl, if_neg (by omega), if_pos (by omega), show start + o + len - len = start + o by omega]
    · rw [if_neg h2]
      by_cases h1 : n = start + o
      · subst h1
        rw [if_pos rfl, if_pos (by omega)]
      · rw [if_neg h1, hg n]
        by_cases c1 : start ≤ n ∧ n < start + o
        · rw [if_pos c1, if_pos (by omega)]
        · rw [if_neg c1, if_neg (by omega : ¬ (start ≤ n ∧ n < start + (o + 1)))]
          by_cases c2 : start + len ≤ n ∧ n < start + len + o
          · rw [if_pos c2, if_pos (by omega)]
          · rw [if_neg c2, if_neg (by omega)]

/-- One layer of inverse butterflies. -/
def zl (len B : Nat) (g : Nat → Zq) : Nat → Zq := fun n =>
  if n % (2 * len) < len then g n + g (n + len) else y (2 * B - 1 - n / (2 * len)) * (g n - g (n - len))

theorem ilayer (g : Nat → Zq) {len B : Nat} (hlen : 0 < len) (hB : 2 * len * B = 256) (hB' : B ≤ 64) :
    let r := (forIn (List.range (128 / len)) (g, 2 * B - 1) fun s st => (do
      let g' ← forIn (List.range len) st.1 fun o g => (pure (ForInStep.yield (update (update g (2 * len * s + o) (g (2 * len * s + o) + g (2 * len * s + o + len))) (2 * len * s + o + len) (ζ ^ bitRev7 st.2 * (update g (2 * len * s + o) (g (2 * len * s + o) + g (2 * len * s + o + len)) (2 * len * s + o + len) - g (2 * len * s + o))))) : Id _)
      pure (ForInStep.yield (g', st.2 - 1)) : Id _) : Id ((Nat → Zq) × Nat)).run
    r.2 = B - 1 ∧ ∀ n, n < 256 → r.1 n = zl len B g n := by
  have e128 : 128 / len = B := Nat.div_eq_of_eq_mul_right hlen (by rw [Nat.mul_assoc] at hB; omega)
  rw [e128]
  intro r
  have := for_inv (σ := (Nat → Zq) × Nat) (fun m st => st.2 = 2 * B - 1 - m ∧ ∀ n, st.1 n = if n < 2 * len * m then zl len B g n else g n) (n := B) (s := (g, 2 * B - 1))
    (f := fun s st => (do
      let g' ← forIn (List.range len) st.1 fun o g => (pure (ForInStep.yield (update (update g (2 * len * s + o) (g (2 * len * s + o) + g (2 * len * s + o + len))) (2 * len * s + o + len) (ζ ^ bitRev7 st.2 * (update g (2 * len * s + o) (g (2 * len * s + o) + g (2 * len * s + o + len)) (2 * len * s + o + len) - g (2 * len * s + o))))) : Id _)
      pure (ForInStep.yield (g', st.2 - 1)) : Id _)) ⟨rfl, by simp⟩ ?_
  · refine ⟨this.1.trans (by omega), fun n hn => ?_⟩
    refine (this.2 n).trans ?_
    rw [if_pos (by omega)]
  · rintro s ⟨g', i⟩ hs ⟨hi, hg⟩
    simp only [] at hi hg
    subst hi
    refine ⟨_, rfl, ?_, fun n => ?_⟩
    · simp only []; omega
    refine (iblock g' _ _ _ n).trans ?_
    simp only []
    rw [y_zeta (by omega : 2 * B - 1 - s < 128)]
    have hpos : ∀ o, o < 2 * len → (2 * len * s + o) / (2 * len) = s ∧ (2 * len * s + o) % (2 * len) = o := by
      intro o ho
      rw [Nat.mul_add_div (by omega), Nat.mul_add_mod, Nat.div_eq_of_lt (by omega), Nat.mod_eq_of_lt ho]
      omega
    have hs1 : 2 * len * (s + 1) = 2 * len * s + 2 * len := by ring
    rw [hs1]
    by_cases c1 : 2 * len * s ≤ n ∧ n < 2 * len * s + len
    · obtain ⟨o, rfl⟩ : ∃ o, n = 2 * len * s + o := ⟨n - 2 * len * s, by omega⟩
      obtain ⟨d1, m1⟩ := hpos o (by omega)
      rw [if_pos c1, if_pos (by omega), hg, hg, if_neg (by omega), if_neg (by omega)]
      unfold zl
      rw [m1, if_pos (by omega)]
    · rw [if_neg c1]
      by_cases c2 : 2 * len * s + len ≤ n ∧ n < 2 * len * s + len + len
      · obtain ⟨o, rfl⟩ : ∃ o, n = 2 * len * s + o := ⟨n - 2 * len * s, by omega⟩
        obtain ⟨d1, m1⟩ := hpos o (by omega)
        rw [if_pos c2, if_pos (by omega), hg, hg, if_neg (by omega), if_neg (by omega)]
        unfold zl
        rw [d1, m1, if_neg (by omega)]
      · rw [if_neg c2, hg]
        by_cases c3 : n < 2 * len * s
        · rw [if_pos c3, if_pos (by omega)]
        · rw [if_neg c3, if_neg (by omega)]

theorem nl_zl {len l : Nat} (hl : l < 7) (hlen : 0 < len) (hB : 2 * len * 2 ^ l = 256) (f : Nat → Zq) {n : Nat} (hn : n < 256) :
    nl len (2 ^ l) (zl len (2 ^ l) f) n = 2 * f n := by
  have hk : n / (2 * len) < 2 ^ l := by apply Nat.div_lt_of_lt_mul; omega
  have hy := y_inv hl hk
  have hdm := Nat.div_add_mod n (2 * len)
  have hmod := Nat.mod_lt n (show 2 * len > 0 by omega)
  set b := n / (2 * len) with hb
  have hpos : ∀ o, o < 2 * len → (2 * len * b + o) / (2 * len) = b ∧ (2 * len * b + o) % (2 * len) = o := by
    intro o ho
    rw [Nat.mul_add_div (by omega), Nat.mul_add_mod, Nat.div_eq_of_lt (by omega), Nat.mod_eq_of_lt ho]
    omega
  unfold nl
  rw [← hb]
  by_cases hc : n % (2 * len) < len
  · rw [if_pos hc]
    have e1 : n + len = 2 * len * b + (n % (2 * len) + len) := by omega
    obtain ⟨d1, m1⟩ := hpos (n % (2 * len) + len) (by omega)
    unfold zl
    beta_reduce
    rw [if_pos hc, e1, d1, m1, if_neg (by omega), show 2 * len * b + (n % (2 * len) + len) - len = n by omega]
    linear_combination (f (2 * len * b + (n % (2 * len) + len)) - f n) * hy
  · rw [if_neg hc]
    have e1 : n - len = 2 * len * b + (n % (2 * len) - len) := by omega
    obtain ⟨d1, m1⟩ := hpos (n % (2 * len) - len) (by omega)
    unfold zl
    beta_reduce
    rw [if_neg hc, ← hb, e1, m1, if_pos (by omega), show 2 * len * b + (n % (2 * len) - len) + len = n by omega]
    linear_combination (-(f n - f (2 * len * b + (n % (2 * len) - len)))) * hy

theorem NTTInv_eq (f : Nat → Zq) {n : Nat} (hn : n < 256) : Printed.NTTInv f n = Spec.NTTInv f n := by
  have := for_list (α := Nat) (σ := (Nat → Zq) × Nat) (fun l st => st.2 = 2 ^ (7 - l) - 1 ∧ ∀ n, n < 256 → chain l st.1 n = 2 ^ l * f n) (l := [2, 4, 8, 16, 32, 64, 128]) (s := (f, 127))
    (f := fun len st => (do
      let st' ← forIn (List.range (128 / len)) (st.1, st.2) fun s st => (do
        let g' ← forIn (List.range len) st.1 fun o g => (pure (ForInStep.yield (update (update g (2 * len * s + o) (g (2 * len * s + o) + g (2 * len * s + o + len))) (2 * len * s + o + len) (ζ ^ bitRev7 st.2 * (update g (2 * len * s + o) (g (2 * len * s + o) + g (2 * len * s + o + len)) (2 * len * s + o + len) - g (2 * len * s + o))))) : Id _)
        pure (ForInStep.yield (g', st.2 - 1)) : Id _)
      pure (ForInStep.yield (st'.1, st'.2)) : Id _)) (m := 7) rfl ⟨rfl, fun _ _ => by simp [chain]⟩ ?_
  · obtain ⟨_, h⟩ := this
    unfold Printed.NTTInv
    simp only [Id.run_bind, Id.run_pure]
    have key : ∀ g : Nat → Zq, (∀ n, n < 256 → chain 7 g n = 2 ^ 7 * f n) → g n * 3303 = Spec.NTTInv f n := by
      intro g hg
      have h1 : ∀ n, n < 256 → NTT g n = 2 ^ 7 * f n := fun n hn => by rw [← fwd_NTT _ hn, ← chain_seven, hg n hn]
      rw [← NTTInv_NTT g hn, NTTInv_congr h1, NTTInv_smul]
      have h2 : (2 : Zq) ^ 7 * 3303 = 1 := by
        have := zq_cast_eq (a := 2 ^ 7 * 3303) (b := 1) (by norm_num)
        exact_mod_cast this
      rw [mul_right_comm, h2, one_mul]
    refine key _ fun n hn => ?_
    convert h n hn
  · rintro l ⟨g, i⟩ hl ⟨hi, hg⟩
    simp only [] at hi hg
    have hl' : l < 7 := hl
    obtain ⟨h1, h2, h3⟩ := layer_len (l := 6 - l) (by omega)
    have e : ([2, 4, 8, 16, 32, 64, 128] : List Nat)[l] = 128 / 2 ^ (6 - l) := by interval_cases l <;> rfl
    rw [e]
    have hi' : i = 2 * 2 ^ (6 - l) - 1 := by rw [hi, show 7 - l = 6 - l + 1 by omega, pow_succ, Nat.mul_comm]
    subst hi'
    obtain ⟨q1, q2⟩ := ilayer g h1 h2 h3
    refine ⟨_, rfl, ?_, fun n hn => ?_⟩
    · refine q1.trans ?_; rw [show 7 - (l + 1) = 6 - l by omega]
    · show chain l (nlayer (6 - l) _) n = _
      refine (chain_congr (by omega) (g' := fun n => 2 * g n) (fun n hn => ?_) n hn).trans ?_
      · exact (nl_congr h1 h2 q2 n hn).trans (nl_zl (by omega) h1 h2 g hn)
      · rw [chain_smul]
        beta_reduce
        rw [hg n hn, pow_succ]; ring

/-! ## Sampling -/

theorem sampleLoop_full (L : List UInt8) {a : List Zq} (h : 256 ≤ a.length) : sampleLoop L a = a := by
  rcases L with _ | ⟨c0, _ | ⟨c1, _ | ⟨c2, L⟩⟩⟩
  all_goals first | rfl | (rw [sampleLoop, if_neg (by omega)])

theorem sampleLoop_append (n : Nat) : ∀ (L M : List UInt8) (a : List Zq), L.length = 3 * n → sampleLoop (L ++ M) a = sampleLoop M (sampleLoop L a) := by
  induction n with
  | zero => intro L M a h; rw [List.eq_nil_of_length_eq_zero (by omega : L.length = 0)]; rfl
  | succ n ih =>
    intro L M a h
    rcases L with _ | ⟨c0, _ | ⟨c1, _ | ⟨c2, L⟩⟩⟩
    · simp at h
    · simp at h; omega
    · simp at h; omega
    · simp only [List.length_cons] at h
      by_cases hl : a.length < 256
      · simp only [List.cons_append, sampleLoop, if_pos hl]
        exact ih L M _ (by omega)
      · simp only [List.cons_append, sampleLoop, if_neg hl]
        rw [sampleLoop_full M (by omega)]

/-- Byte `i` of the output of SHAKE128. -/
def xof (B : List UInt8) (i : Nat) : UInt8 := byteOf fun t => squeezeBit 1344 (absorb 1344 (bitsOf B ++ [true, true, true, true])) (8 * i + t)

theorem SHAKE128_xof (B : List UInt8) (n : Nat) : SHAKE128 B n = (List.range n).map (xof B) := rfl

theorem xof_getD (B : List UInt8) {i n : Nat} (h : i < n) : (SHAKE128 B n).getD i 0 = xof B i := by
  rw [SHAKE128_xof]; simp [List.getD, h]

theorem xof_succ (B : List UInt8) (t : Nat) : SHAKE128 B (3 * (t + 1)) = SHAKE128 B (3 * t) ++ [xof B (3 * t), xof B (3 * t + 1), xof B (3 * t + 2)] := by
  rw [SHAKE128_xof, SHAKE128_xof, show 3 * (t + 1) = 3 * t + 1 + 1 + 1 by ring, List.range_succ, List.range_succ, List.range_succ]
  simp

theorem getD_push (a : List Zq) (x : Zq) : (fun n => (a ++ [x]).getD n 0) = update (fun n => a.getD n 0) a.length x := by
  funext n
  rw [upd_eq]
  by_cases h : n = a.length
  · subst h; simp [List.getD]
  · rw [if_neg h]
    rcases Nat.lt_or_ge n a.length with h' | h'
    · rw [List.getD_append _ _ _ _ h']
    · rw [List.getD_eq_default _ _ (by simp; omega), List.getD_eq_default _ _ h']

theorem SampleNTT_eq (n : Nat) (B : List UInt8) : Printed.SampleNTT n B = Spec.SampleNTT (3 * n) B := by
  unfold Printed.SampleNTT
  simp only [Id.run_bind, Id.run_pure]
  have := for_inv (σ := (Nat → Zq) × Nat) (fun t s => s.1 = (fun n => (sampleLoop (SHAKE128 B (3 * t)) []).getD n 0) ∧ s.2 = (sampleLoop (SHAKE128 B (3 * t)) []).length ∧ s.2 ≤ 256) (n := n) (s := (fun _ => 0, 0))
    (f := fun t s => (if s.2 < 256 then
        if ((SHAKE128 B (3 * (t + 1))).getD (3 * t + 0) 0).toNat + 256 * (((SHAKE128 B (3 * (t + 1))).getD (3 * t + 1) 0).toNat % 16) < 3329 then
          if ((SHAKE128 B (3 * (t + 1))).getD (3 * t + 1) 0).toNat / 16 + 16 * ((SHAKE128 B (3 * (t + 1))).getD (3 * t + 2) 0).toNat < 3329 ∧ s.2 + 1 < 256 then
            pure (ForInStep.yield (update (update s.1 s.2 ((((SHAKE128 B (3 * (t + 1))).getD (3 * t + 0) 0).toNat + 256 * (((SHAKE128 B (3 * (t + 1))).getD (3 * t + 1) 0).toNat % 16) : Nat) : Zq)) (s.2 + 1)
              ((((SHAKE128 B (3 * (t + 1))).getD (3 * t + 1) 0).toNat / 16 + 16 * ((SHAKE128 B (3 * (t + 1))).getD (3 * t + 2) 0).toNat : Nat) : Zq), s.2 + 1 + 1))
          else pure (ForInStep.yield (update s.1 s.2 ((((SHAKE128 B (3 * (t + 1))).getD (3 * t + 0) 0).toNat + 256 * (((SHAKE128 B (3 * (t + 1))).getD (3 * t + 1) 0).toNat % 16) : Nat) : Zq), s.2 + 1))
        else
          if ((SHAKE128 B (3 * (t + 1))).getD (3 * t + 1) 0).toNat / 16 + 16 * ((SHAKE128 B (3 * (t + 1))).getD (3 * t + 2) 0).toNat < 3329 ∧ s.2 < 256 then
            pure (ForInStep.yield (update s.1 s.2 ((((SHAKE128 B (3 * (t + 1))).getD (3 * t + 1) 0).toNat / 16 + 16 * ((SHAKE128 B (3 * (t + 1))).getD (3 * t + 2) 0).toNat : Nat) : Zq), s.2 + 1))
          else pure (ForInStep.yield (s.1, s.2))
      else pure (ForInStep.yield (s.1, s.2)) : Id _)) ⟨rfl, rfl, by simp⟩ ?_
  · unfold Spec.SampleNTT
    obtain ⟨h1, h2, h3⟩ := this
    generalize hs : sampleLoop (SHAKE128 B (3 * n)) [] = a at *
    have key : ∀ r : (Nat → Zq) × Nat, r.1 = (fun n => a.getD n 0) → r.2 = a.length → r.2 ≤ 256 → (if r.2 < 256 then none else some r.1) = (if a.length = 256 then some (fun i => a.getD i 0) else none) := by
      intro r e1 e2 e3
      by_cases c : a.length = 256
      · rw [if_pos c, if_neg (by omega), e1]
      · rw [if_neg c, if_pos (by omega)]
    exact key _ h1 h2 h3
  · rintro t ⟨f, j⟩ ht ⟨h1, h2, h3⟩
    simp only [] at h1 h2 h3
    simp only [xof_getD B (show 3 * t < 3 * (t + 1) by omega), xof_getD B (show 3 * t + 1 < 3 * (t + 1) by omega), xof_getD B (show 3 * t + 2 < 3 * (t + 1) by omega), Nat.add_zero]
    rw [xof_succ, sampleLoop_append t _ _ _ (by simp [SHAKE128_xof])]
    generalize sampleLoop (SHAKE128 B (3 * t)) [] = a at *
    generalize xof B (3 * t) = c0
    generalize xof B (3 * t + 1) = c1
    generalize xof B (3 * t + 2) = c2
    subst h1; subst h2
    simp only [sampleLoop]
    by_cases c : a.length < 256
    · simp only [if_pos c]
      by_cases d1 : c0.toNat + 256 * (c1.toNat % 16) < 3329
      · simp only [if_pos d1, List.length_append, List.length_cons, List.length_nil, Nat.zero_add]
        by_cases d2 : c1.toNat / 16 + 16 * c2.toNat < 3329 ∧ a.length + 1 < 256
        · rw [if_pos d2, if_pos d2]
          refine ⟨_, rfl, ?_, ?_, ?_⟩
          · rw [getD_push, getD_push, List.length_append]; rfl
          · simp
          · simp only []; omega
        · rw [if_neg d2, if_neg d2]
          refine ⟨_, rfl, ?_, ?_, ?_⟩
          · rw [getD_push]
          · simp
          · simp only []; omega
      · simp only [if_neg d1]
        by_cases d2 : c1.toNat / 16 + 16 * c2.toNat < 3329 ∧ a.length < 256
        · rw [if_pos d2, if_pos d2]
          refine ⟨_, rfl, ?_, ?_, ?_⟩
          · rw [getD_push]
          · simp
          · simp only []; omega
        · rw [if_neg d2, if_neg d2]
          exact ⟨_, rfl, rfl, rfl, h3⟩
    · simp only [if_neg c]
      exact ⟨_, rfl, rfl, rfl, h3⟩

end Verif.Printed

import Verif.Proof.A64MulChk
/-! # Multiplication and serialisation in the AArch64 arithmetic backend -/
namespace Verif.A64
open Verif Model Model.A64 Spec Finset
open Verif.X86 (Ext mth s16_id s16_exists s16_add window_wp putBack_written)
open Verif.Model.X86 (s16)

/-- The first product of summand `j` at position `p`. -/
def fst (e : Nat → Int) (p j : Nat) : Int := e (256 * j + p / 2 * 2) * e (1024 + (256 * j + p))
/-- The second product. -/
def snd (e : Nat → Int) (p j : Nat) : Int := e (256 * j + (p / 2 * 2 + 1)) * e (if p % 2 = 0 then 2048 + (128 * j + p / 2) else 1024 + (256 * j + (p - 1)))

/-- The bounds on the arguments. -/
def ArgBounds (e : Nat → Int) (K : Nat) : Prop :=
  (∀ i, i < 256 * K → -3328 ≤ e i ∧ e i ≤ 3328) ∧ (∀ i, i < 256 * K → -26631 ≤ e (1024 + i) ∧ e (1024 + i) ≤ 26631) ∧ ∀ i, i < 128 * K → -3329 ≤ e (2048 + i) ∧ e (2048 + i) ≤ 3329

theorem prod_bounds {e : Nat → Int} {K p j : Nat} (h : ArgBounds e K) (hp : p < 256) (hj : j < K) :
    (-88627968 ≤ fst e p j ∧ fst e p j ≤ 88627968) ∧ (-88627968 ≤ snd e p j ∧ snd e p j ≤ 88627968) := by
  obtain ⟨h1, h2, h3⟩ := h
  have hb : -26631 ≤ e (if p % 2 = 0 then 2048 + (128 * j + p / 2) else 1024 + (256 * j + (p - 1))) ∧ e (if p % 2 = 0 then 2048 + (128 * j + p / 2) else 1024 + (256 * j + (p - 1))) ≤ 26631 := by
    split
    · have := h3 (128 * j + p / 2) (by omega); omega
    · exact h2 _ (by omega)
  exact ⟨Verif.mul_bound (A := 3328) (B := 26631) (h1 _ (by omega)) (h2 _ (by omega)), Verif.mul_bound (A := 3328) (B := 26631) (h1 _ (by omega)) hb⟩

theorem snd_eval (e : Nat → Int) (p k : Nat) : e (256 * k + (p / 2 * 2 + 1)) * ((if Nat.beq (p % 2) 0 then vv (2048 + (128 * k + p / 2)) else vv (1024 + (256 * k + (p - 1)))) : E).eval e = snd e p k := by
  unfold snd
  by_cases hc : p % 2 = 0
  · rw [if_pos hc, if_pos (by rw [hc]; rfl)]; rfl
  · rw [if_neg hc, if_neg (by rw [Nat.beq_eq]; exact hc)]; rfl
theorem accE_one (e : Nat → Int) (p : Nat) : (accE p 1).eval e = s32 (fst e p 0 + snd e p 0) := by
  rw [← snd_eval]; rfl
theorem accE_succ (e : Nat → Int) (p k : Nat) : (accE p (k + 2)).eval e = s32 (s32 ((accE p (k + 1)).eval e + fst e p (k + 1)) + snd e p (k + 1)) := by
  rw [← snd_eval]; rfl

theorem accE_eval {e : Nat → Int} {K p : Nat} (h : ArgBounds e K) (hK : K ≤ 4) (hp : p < 256) : ∀ k, k < K → (accE p (k + 1)).eval e = ∑ j ∈ range (k + 1), (fst e p j + snd e p j) ∧
    -(177255936 * ((k + 1 : Nat) : Int)) ≤ (accE p (k + 1)).eval e ∧ (accE p (k + 1)).eval e ≤ 177255936 * ((k + 1 : Nat) : Int) := by
  intro k
  induction k with
  | zero =>
    intro hk
    obtain ⟨b1, b2⟩ := prod_bounds h hp hk
    rw [sum_range_one, accE_one, s32_id (by omega) (by omega)]
    refine ⟨rfl, ?_, ?_⟩ <;> (push_cast; omega)
  | succ k ih =>
    intro hk
    obtain ⟨i1, i2, i3⟩ := ih (by omega)
    obtain ⟨b1, b2⟩ := prod_bounds h hp hk
    rw [sum_range_succ, ← i1, accE_succ]
    push_cast at i2 i3 ⊢
    rw [s32_id (x := _ + fst e p (k + 1)) (by omega) (by omega), s32_id (by omega) (by omega)]
    refine ⟨add_assoc _ _ _, ?_, ?_⟩ <;> omega

theorem mont_hi {D : Int} (h : -709023744 ≤ D ∧ D ≤ 709023744) : let v := s16 (s32 (D + s16 (s16 D * 3327) * 3329) / 65536)
    (-24128 ≤ v ∧ v ≤ 24128) ∧ (v : Zq) = 169 * (D : Zq) := by
  have hb := X86.s16_bounds (s16 D * 3327)
  obtain ⟨k, hk⟩ := s16_exists D
  obtain ⟨k', hk'⟩ := s16_exists (s16 D * 3327)
  generalize s16 (s16 D * 3327) = t at *
  have h1 : s32 (D + t * 3329) = D + t * 3329 := s32_id (by omega) (by omega)
  obtain ⟨v, hv⟩ : ∃ v, D + t * 3329 = v * 65536 := ⟨k' * 3329 + k * 3327 * 3329 + 169 * D, by rw [hk', hk]; ring⟩
  intro w
  have hw : w = v := by
    show s16 (s32 (D + t * 3329) / 65536) = v
    rw [h1, hv, Int.mul_ediv_cancel _ (by decide)]
    exact s16_id (by omega) (by omega)
  rw [hw]
  refine ⟨by omega, ?_⟩
  have hq : (3329 : Zq) = 0 := by exact_mod_cast ZMod.natCast_self 3329
  have h2 : (v : Zq) * 65536 = D := by
    have := congrArg (fun x : Int => (x : Zq)) hv
    push_cast at this
    rw [← this, hq]; ring
  rw [← h2]
  have h3 : (169 : Zq) * 65536 = 1 := by
    have := zq_cast_eq (a := 169 * 65536) (b := 1) (by norm_num)
    exact_mod_cast this
  linear_combination (-(v : Zq)) * h3

theorem flat_get {N K : Nat} {v : PolyVec} {f : Nat → Nat → Int} (h : VHolds v K N f) {i : Nat} (hi : i < N * K) : (flat N K v)[i]? = some (some (f (i / N) (i % N))) := by
  have hN : 0 < N := Nat.pos_of_ne_zero fun h => by subst h; simp at hi
  obtain ⟨p, h1, h2⟩ := h.get (i := i / N) (Nat.div_lt_of_lt_mul hi)
  unfold flat
  rw [Array.getElem?_eq_some_iff]
  refine ⟨by simpa using hi, ?_⟩
  simp only [Array.getElem_ofFn]
  rw [h1, Option.getD_some, h2.2 _ (Nat.mod_lt _ hN), Option.getD_some]

/-- The values of the variables. -/
def bmEnv (fa fb vc : Nat → Nat → Int) (i : Nat) : Int :=
  if i < 1024 then fa (i / 256) (i % 256) else if i < 2048 then fb ((i - 1024) / 256) ((i - 1024) % 256) else vc ((i - 2048) / 128) ((i - 2048) % 128)

theorem bm_get {fa fb vc : Nat → Nat → Int} {j : Nat} (hj : j < 4) : (∀ n, n < 256 → bmEnv fa fb vc (256 * j + n) = fa j n) ∧ (∀ n, n < 256 → bmEnv fa fb vc (1024 + (256 * j + n)) = fb j n) ∧
    ∀ n, n < 128 → bmEnv fa fb vc (2048 + (128 * j + n)) = vc j n := by
  unfold bmEnv
  refine ⟨fun n hn => ?_, fun n hn => ?_, fun n hn => ?_⟩
  · rw [if_pos (by omega), show (256 * j + n) / 256 = j by omega, show (256 * j + n) % 256 = n by omega]
  · rw [if_neg (by omega), if_pos (by omega), show (1024 + (256 * j + n) - 1024) / 256 = j by omega, show (1024 + (256 * j + n) - 1024) % 256 = n by omega]
  · rw [if_neg (by omega), if_neg (by omega), show (2048 + (128 * j + n) - 2048) / 128 = j by omega, show (2048 + (128 * j + n) - 2048) % 128 = n by omega]

theorem basemul_run {prog : List Block} {K : Nat} (hK : 1 ≤ K ∧ K ≤ 4) (hc : basemulChk K prog = true) {a b c : PolyVec} {fa fb : Nat → Nat → Int} (ha : VHolds a K 256 fa) (hb : VHolds b K 256 fb)
    (hcc : VAll c K (fun i p => Cache p (fb i))) (hfa : ∀ i n, i < K → n < 256 → -3329 < fa i n ∧ fa i n < 3329) (hfb : ∀ i n, i < K → n < 256 → -26632 < fb i n ∧ fb i n < 26632)
    (g : Entry) {m : Obj → Buf Int} {bb : Obj → Buf UInt8} (h0 : (m .a0).size = 256) (h1 : m .a1 = flat 256 K a) (h2 : m .a2 = flat 256 K b) (h3 : m .a3 = flat 128 K c) :
    PostF F (run prog (call g bmArgs m bb)) (fun s => Saved g s ∧ ∃ v : Nat → Int, Holds (s.m .a0) 256 v ∧ ∀ n, n < 256 → (-24128 ≤ v n ∧ v n ≤ 24128) ∧
      (v n : Zq) = 169 * ∑ j ∈ range K, MultiplyNTTs (fun n => (fa j n : Zq)) (fun n => (fb j n : Zq)) n) := by
  unfold basemulChk at hc
  split at hc <;> [cases hc; skip]
  rename_i r hr
  rw [Bool.and_eq_true] at hc
  obtain ⟨vc, hvc⟩ : ∃ vc : Nat → Nat → Int, ∀ i, i < K → ∃ p, c[i]? = some p ∧ Holds p 128 (vc i) ∧ ∀ k, k < 128 → (-3329 ≤ vc i k ∧ vc i k ≤ 3329) ∧ (vc i k : Zq) = (fb i (2 * k + 1) : Zq) * γ k := by
    have : ∀ i, ∃ v : Nat → Int, i < K → ∃ p, c[i]? = some p ∧ Holds p 128 v ∧ ∀ k, k < 128 → (-3329 ≤ v k ∧ v k ≤ 3329) ∧ (v k : Zq) = (fb i (2 * k + 1) : Zq) * γ k := by
      intro i
      by_cases hi : i < K
      · obtain ⟨p, hp, v, hv⟩ := hcc.2 i hi
        exact ⟨v, fun _ => ⟨p, hp, hv⟩⟩
      · exact ⟨fun _ => 0, fun h => absurd h hi⟩
    exact ⟨fun i => (this i).choose, fun i => (this i).choose_spec⟩
  have hcv : VHolds c K 128 vc := ⟨hcc.1, fun i hi => by obtain ⟨p, hp, h, -⟩ := hvc i hi; exact ⟨p, hp, h⟩⟩
  have hB : ArgBounds (bmEnv fa fb vc) K := by
    refine ⟨fun i hi => ?_, fun i hi => ?_, fun i hi => ?_⟩
    · have := (bm_get (fa := fa) (fb := fb) (vc := vc) (j := i / 256) (by omega)).1 (i % 256) (by omega)
      rw [show 256 * (i / 256) + i % 256 = i by omega] at this
      rw [this]; have := hfa (i / 256) (i % 256) (by omega) (by omega); omega
    · have := (bm_get (fa := fa) (fb := fb) (vc := vc) (j := i / 256) (by omega)).2.1 (i % 256) (by omega)
      rw [show 256 * (i / 256) + i % 256 = i by omega] at this
      rw [this]; have := hfb (i / 256) (i % 256) (by omega) (by omega); omega
    · have := (bm_get (fa := fa) (fb := fb) (vc := vc) (j := i / 128) (by omega)).2.2 (i % 128) (by omega)
      rw [show 128 * (i / 128) + i % 128 = i by omega] at this
      rw [this]; obtain ⟨p, -, -, h⟩ := hvc (i / 128) (by omega); exact (h (i % 128) (by omega)).1
  have hgood : ∀ i, i < 2560 → -32768 ≤ bmEnv fa fb vc i ∧ bmEnv fa fb vc i ≤ 32767 → Good (fun i => (bmEnv fa fb vc i : Zq)) (bmEnv fa fb vc) 2560 (vv i) := fun i hi hb =>
    ⟨hi, by decide, by push_cast; omega, by push_cast; omega, by omega, rfl⟩
  refine PostF.mono (run_spec (noTags_sound fun i => (bmEnv fa fb vc i : Zq)) hr (by simp [bmArgs]) (RelO.none (by rw [h0]))
    (RelO.of (e := bmEnv fa fb vc) (by rw [h1]; simp [flat]; omega) fun i hi => ?_) (RelO.of (by rw [h2]; simp [flat]; omega) fun i hi => ?_)
    (RelO.of (by rw [h3]; simp [flat]; omega) fun i hi => ?_) (c := 0) rfl (Nat.zero_le _))
    fun s ⟨e', g1, g2, g3⟩ => ⟨g3 hc.1, fun n => ((s.m .a0)[n]?.getD none).getD 0, ⟨?_, fun n hn => ?_⟩, fun n hn => ?_⟩
  · have := hB.1 i (by omega)
    refine ⟨hgood i (by omega) (by omega), ?_, by show -32768 ≤ bmEnv fa fb vc i; omega, by show bmEnv fa fb vc i ≤ 32767; omega⟩
    rw [h1, flat_get ha (by omega)]
    have := (bm_get (fa := fa) (fb := fb) (vc := vc) (j := i / 256) (by omega)).1 (i % 256) (by omega)
    rw [show 256 * (i / 256) + i % 256 = i by omega] at this
    rw [← this]; rfl
  · have := hB.2.1 i (by omega)
    refine ⟨hgood (1024 + i) (by omega) (by omega), ?_, by show -32768 ≤ bmEnv fa fb vc (1024 + i); omega, by show bmEnv fa fb vc (1024 + i) ≤ 32767; omega⟩
    rw [h2, flat_get hb (by omega)]
    have := (bm_get (fa := fa) (fb := fb) (vc := vc) (j := i / 256) (by omega)).2.1 (i % 256) (by omega)
    rw [show 256 * (i / 256) + i % 256 = i by omega] at this
    rw [← this]; rfl
  · have := hB.2.2 i (by omega)
    refine ⟨hgood (2048 + i) (by omega) (by omega), ?_, by show -32768 ≤ bmEnv fa fb vc (2048 + i); omega, by show bmEnv fa fb vc (2048 + i) ≤ 32767; omega⟩
    rw [h3, flat_get hcv (by omega)]
    have := (bm_get (fa := fa) (fb := fb) (vc := vc) (j := i / 128) (by omega)).2.2 (i % 128) (by omega)
    rw [show 128 * (i / 128) + i % 128 = i by omega] at this
    rw [← this]; rfl
  · rw [g2.msz]; exact h0
  · obtain ⟨x, -, -, k3, -⟩ := g2.out (c := 32) (o := .a0) hc.2 (i := n) hn
    simp only [k3, Option.getD_some]
  · obtain ⟨x, k1, -, k3, -⟩ := g2.out (c := 32) (o := .a0) hc.2 (i := n) hn
    simp only [k3, Option.getD_some]
    have k1 := of_decide_eq_true k1
    subst k1
    have hB' : ArgBounds e' K := by
      refine ⟨fun i hi => ?_, fun i hi => ?_, fun i hi => ?_⟩
      · rw [g1.2 _ (by omega)]; exact hB.1 i hi
      · rw [g1.2 _ (by omega)]; exact hB.2.1 i hi
      · rw [g1.2 _ (by omega)]; exact hB.2.2 i hi
    obtain ⟨d1, d2, d3⟩ := accE_eval hB' hK.2 hn (K - 1) (by omega)
    rw [show K - 1 + 1 = K by omega] at d1 d2 d3
    have hm := mont_hi (D := (accE n K).eval e') ⟨by omega, by omega⟩
    refine ⟨hm.1, hm.2.trans ?_⟩
    rw [d1]
    push_cast
    congr 1
    refine sum_congr rfl fun j hj => ?_
    have hj : j < K := mem_range.1 hj
    obtain ⟨e1, e2, e3⟩ := bm_get (fa := fa) (fb := fb) (vc := vc) (j := j) (by omega)
    unfold fst snd MultiplyNTTs
    obtain ⟨p, -, -, hv⟩ := hvc j hj
    by_cases hp : n % 2 = 0
    · rw [if_pos hp, if_pos hp, g1.2 _ (by omega), g1.2 _ (by omega), g1.2 _ (by omega), g1.2 _ (by omega), e1 _ (by omega), e1 _ (by omega), e2 _ (by omega), e3 _ (by omega)]
      push_cast
      rw [(hv (n / 2) (by omega)).2, show n / 2 * 2 = n by omega, show 2 * (n / 2) + 1 = n + 1 by omega]
      ring
    · rw [if_neg hp, if_neg hp, g1.2 _ (by omega), g1.2 _ (by omega), g1.2 _ (by omega), g1.2 _ (by omega), e1 _ (by omega), e1 _ (by omega), e2 _ (by omega), e2 _ (by omega)]
      push_cast
      rw [show n / 2 * 2 + 1 = n by omega, show n / 2 * 2 = n - 1 by omega]

/-! ## Serialisation -/

/-- Byte `p` of the serialised polynomial. -/
def tbE (p : Nat) : E :=
  if Nat.beq (p % 3) 0 then .nar 0 (vv (2 * (p / 3)))
  else if Nat.beq (p % 3) 1 then .sli 4 (.nar 8 (vv (2 * (p / 3)))) (.nar 0 (vv (2 * (p / 3) + 1)))
  else .nar 4 (vv (2 * (p / 3) + 1))

/-- The arguments of `poly_tobytes_asm`. -/
def tbArgs : List Reg := [.ptr .a0 0, .ptr .a1 0]
/-- The check of `poly_tobytes`. -/
noncomputable def tobytesChk (prog : List Block) : Bool :=
  match start noTags prog tbArgs 256 [] (memOf vv 0 32) [] [] (memNone 16) with
  | none => false
  | some r => chkSaved 256 r && chkM (fun p x => decide (x = tbE p)) 24 16 0 (mth r.B 0)
theorem tobytesChk_clean : tobytesChk poly_tobytes_asm_clean = true := by decide +kernel

theorem tb_byte {e : Nat → Int} {f : Nat → Nat} (he : ∀ i, i < 256 → e i = f i) (hf : ∀ i, i < 256 → f i < 4096) {k : Nat} (hk : k < 384) {y : UInt8} (hy : (tbE k).eval e = y.toNat) :
    y = encByte 12 f k := by
  obtain ⟨m, c, hc, rfl⟩ : ∃ m c, c < 3 ∧ k = 3 * m + c := ⟨k / 3, k % 3, by omega, by omega⟩
  have d : (3 * m + c) / 3 = m := by omega
  have d' : (3 * m + c) % 3 = c := by omega
  have h0 := hf (2 * m) (by omega)
  have h1 := hf (2 * m + 1) (by omega)
  have u0 : u16 (e (2 * m)) = f (2 * m) := by rw [he _ (by omega), u16_natCast (by omega)]
  have u1 : u16 (e (2 * m + 1)) = f (2 * m + 1) := by rw [he _ (by omega), u16_natCast (by omega)]
  have hb0 : ∀ t, 12 ≤ t → (f (2 * m)).testBit t = false := fun t ht => testBit_of_lt (n := 12) h0 ht
  have hb1 : ∀ t, 12 ≤ t → (f (2 * m + 1)).testBit t = false := fun t ht => testBit_of_lt (n := 12) h1 ht
  have hyl := UInt8.toNat_lt y
  have fin : ∀ x : Nat, y.toNat = x % 256 → y = toU8 x := fun x hx => by
    apply UInt8.toNat_inj.mp; simp [toU8]; omega
  unfold tbE at hy
  rw [d, d'] at hy
  interval_cases c
  · simp only [vv, E.eval, show Nat.beq 0 0 = true from rfl, if_true] at hy
    rw [u0] at hy
    rw [fin (f (2 * m)) (by omega)]
    exact toU8_encByte (m := 2) (c := 0) (by omega) rfl (by pack_bits)
  · simp only [vv, E.eval, show Nat.beq 1 0 = false from rfl, show Nat.beq 1 1 = true from rfl, if_true, Bool.false_eq_true, if_false] at hy
    rw [u0, u1] at hy
    have e1 : f (2 * m + 1) <<< 4 ||| f (2 * m) >>> 8 = f (2 * m + 1) * 16 + f (2 * m) / 256 := by
      rw [← Nat.shiftLeft_add_eq_or_of_lt (by rw [Nat.shiftRight_eq_div_pow]; omega), Nat.shiftLeft_eq, Nat.shiftRight_eq_div_pow]
    rw [fin (f (2 * m + 1) <<< 4 ||| f (2 * m) >>> 8) (by rw [e1]; simp only [Int.toNat_natCast] at hy; omega)]
    clear e1
    exact toU8_encByte (m := 2) (c := 1) (by omega) rfl (by pack_bits)
  · simp only [vv, E.eval, show Nat.beq 2 0 = false from rfl, show Nat.beq 2 1 = false from rfl, Bool.false_eq_true, if_false] at hy
    rw [u1] at hy
    rw [fin (f (2 * m + 1) >>> 4) (by rw [Nat.shiftRight_eq_div_pow]; omega)]
    exact toU8_encByte (m := 2) (c := 2) (by omega) rfl (by pack_bits)

theorem tobytes_run {prog : List Block} (hc : tobytesChk prog = true) {a : Model.Poly} {f : Nat → Nat} (ha : Holds a 256 (fun i => (f i : Int))) (hf : ∀ i, i < 256 → f i < 4096) (g : Entry)
    {m : Obj → Buf Int} {b : Obj → Buf UInt8} (hm : m .a1 = a) (hb : (b .a0).size = 384) :
    PostF F (run prog (call g tbArgs m b)) (fun s => Saved g s ∧ Holds (s.b .a0) 384 (encByte 12 f)) := by
  unfold tobytesChk at hc
  split at hc <;> [cases hc; skip]
  rename_i r hr
  rw [Bool.and_eq_true] at hc
  subst hm
  refine PostF.mono (run_spec (noTags_sound fun i => (((f i : Nat) : Int) : Zq)) hr (by simp [tbArgs]) RelO.nil (RelO.of (e := fun i => (f i : Int)) ha.1 fun i hi => ?_) RelO.nil RelO.nil (c := 16) rfl
    (by rw [hb])) fun s ⟨e', h1, h2, h3⟩ => ⟨h3 hc.1, ?_, fun n hn => ?_⟩
  · have := hf i hi
    exact ⟨⟨hi, by decide, by show -((32768 : Nat) : Int) ≤ (f i : Int); omega, by show (f i : Int) ≤ (32768 : Nat); omega, by show (f i : Int) ≤ 32767; omega, rfl⟩, ha.2 i hi, by show -32768 ≤ (f i : Int); omega, by show (f i : Int) ≤ 32767; omega⟩
  · rw [h2.bsz]; exact hb
  · obtain ⟨x, k1, -, y, k2, k3⟩ := h2.outB (c := 16) (o := .a0) hc.2 (i := n) hn
    have k1 := of_decide_eq_true k1
    subst k1
    rw [k2, tb_byte (fun i hi => h1.2 i hi) hf hn k3]

/-! ## The functions of a profile -/

/-- The checks of the functions of a profile. -/
structure Good_ (P : Profile) : Prop where
  ntt : nttChk P.ntt = true
  intt : inttChk P.intt = true
  reduce : reduceChk P.reduce = true
  tomont : tomontChk P.tomont = true
  mulcache : mulcacheChk P.mulcache = true
  basemul : ∀ K, 2 ≤ K → K ≤ 4 → basemulChk K (P.basemul K) = true
  tobytes : tobytesChk P.tobytes = true
theorem clean_good : Good_ clean where
  ntt := nttChk_clean
  intt := inttChk_clean
  reduce := reduceChk_clean
  tomont := tomontChk_clean
  mulcache := mulcacheChk_clean
  basemul := fun K h h' => by
    obtain rfl | rfl | rfl : K = 2 ∨ K = 3 ∨ K = 4 := by omega
    exacts [basemulChk_clean.1, basemulChk_clean.2.1, basemulChk_clean.2.2]
  tobytes := tobytesChk_clean
theorem opt_good : Good_ opt where
  ntt := nttChk_opt
  intt := inttChk_opt
  reduce := reduceChk_opt
  tomont := tomontChk_opt
  mulcache := mulcacheChk_opt
  basemul := fun K h h' => by
    obtain rfl | rfl | rfl : K = 2 ∨ K = 3 ∨ K = 4 := by omega
    exacts [basemulChk_opt.1, basemulChk_opt.2.1, basemulChk_opt.2.2]
  tobytes := tobytesChk_clean

variable {P : Profile} (hP : Good_ P) (g : Entry)
include hP

/-- `poly_ntt`, AArch64 backend. -/
theorem poly_ntt_spec {p : Model.Poly} {f : Nat → Int} (h : Holds p 256 f) (hf : ∀ n, n < 256 → -3329 < f n ∧ f n < 3329) :
    Post (Model.A64.poly_ntt P g p) (fun p' => ∃ v, Holds p' 256 v ∧ ∀ n, n < 256 → (-19974 < v n ∧ v n < 19974) ∧ (v n : Zq) = NTT (fun i => (f i : Zq)) n) := by
  unfold Model.A64.poly_ntt ntt_native runT
  simp only [wp_bind, wp_pure]
  refine POLY_BOUND_wp h (fun i hi => by have := hf i hi; push_cast; omega) ?_
  refine PostF.mono (ntt_run hP.ntt h hf g rfl) fun s ⟨_, v, h1, h2⟩ => ?_
  exact POLY_BOUND_wp h1 (fun i hi => by have := (h2 i hi).1; unfold NTT_BOUND_NATIVE; push_cast; omega) ⟨v, h1, h2⟩

/-- `poly_invntt_tomont`, AArch64 backend. -/
theorem poly_invntt_tomont_spec {p : Model.Poly} {f : Nat → Int} (h : Holds p 256 f) (hf : ∀ n, n < 256 → -32768 ≤ f n ∧ f n ≤ 32767) :
    Post (Model.A64.poly_invntt_tomont P g p) (fun p' => ∃ v, Holds p' 256 v ∧ ∀ n, n < 256 → (-26632 < v n ∧ v n < 26632) ∧ (v n : Zq) = 65536 * NTTInv (fun i => (f i : Zq)) n) := by
  unfold Model.A64.poly_invntt_tomont intt_native runT
  simp only [wp_bind, wp_pure]
  refine PostF.mono (intt_run hP.intt h hf g rfl) fun s ⟨_, v, h1, h2⟩ => ?_
  exact POLY_BOUND_wp h1 (fun i hi => by have := (h2 i hi).1; unfold INVNTT_BOUND_NATIVE; push_cast; omega) ⟨v, h1, h2⟩

/-- `poly_reduce`, AArch64 backend. -/
theorem poly_reduce_spec {p : Model.Poly} {f : Nat → Int} (h : Holds p 256 f) (hf : ∀ n, n < 256 → -32768 ≤ f n ∧ f n ≤ 32767) :
    Post (Model.A64.poly_reduce P g p) (fun p' => Holds p' 256 fun n => f n % 3329) := by
  unfold Model.A64.poly_reduce poly_reduce_native runP
  simp only [wp_bind, wp_pure]
  refine PostF.mono (reduce_run hP.reduce h hf g rfl) fun s ⟨_, h1⟩ => ?_
  exact POLY_UBOUND_wp h1 (fun i hi => by push_cast; omega) h1

/-- `poly_tomont`, AArch64 backend. -/
theorem poly_tomont_spec {p : Model.Poly} {f : Nat → Int} (h : Holds p 256 f) (hf : ∀ n, n < 256 → -32768 ≤ f n ∧ f n ≤ 32767) :
    Post (Model.A64.poly_tomont P g p) (fun p' => ∃ v, Holds p' 256 v ∧ ∀ n, n < 256 → (-3329 < v n ∧ v n < 3329) ∧ (v n : Zq) = 65536 * (f n : Zq)) := by
  unfold Model.A64.poly_tomont poly_tomont_native runP
  simp only [wp_bind, wp_pure]
  refine PostF.mono (tomont_run hP.tomont h hf g rfl) fun s ⟨_, v, h1, h2⟩ => ?_
  exact POLY_BOUND_wp h1 (fun i hi => by have := (h2 i hi).1; push_cast; omega) ⟨v, h1, h2⟩

/-- `poly_mulcache_compute`, AArch64 backend. -/
theorem poly_mulcache_compute_spec {x a : Model.Poly} {f : Nat → Int} (hx : x.size = 128) (h : Holds a 256 f) (hf : ∀ n, n < 256 → -32768 ≤ f n ∧ f n ≤ 32767) :
    Post (Model.A64.poly_mulcache_compute P g x a) (fun x' => Cache x' f) := by
  unfold Model.A64.poly_mulcache_compute poly_mulcache_compute_native
  simp only [wp_bind, wp_pure]
  exact PostF.mono (mulcache_run hP.mulcache h hf g rfl hx) fun s ⟨_, h1⟩ => h1

/-- `polyvec_basemul_acc_montgomery_cached`, AArch64 backend. -/
theorem polyvec_basemul_spec {K : Nat} (hK : 2 ≤ K ∧ K ≤ 4) {r : Model.Poly} {a b c : PolyVec} {fa fb : Nat → Nat → Int} (ha : VHolds a K 256 fa) (hb : VHolds b K 256 fb)
    (hcc : VAll c K (fun i p => Cache p (fb i))) (hfa : ∀ i n, i < K → n < 256 → -3329 < fa i n ∧ fa i n < 3329) (hfb : ∀ i n, i < K → n < 256 → -26632 < fb i n ∧ fb i n < 26632)
    (hr : r.size = 256) :
    Post (Model.A64.polyvec_basemul_acc_montgomery_cached P K g r a b c) (fun r' => ∃ v : Nat → Int, Holds r' 256 v ∧ ∀ n, n < 256 → (-24128 ≤ v n ∧ v n ≤ 24128) ∧
      (v n : Zq) = 169 * ∑ j ∈ range K, MultiplyNTTs (fun n => (fa j n : Zq)) (fun n => (fb j n : Zq)) n) := by
  unfold Model.A64.polyvec_basemul_acc_montgomery_cached polyvec_basemul_acc_montgomery_cached_native
  simp only [wp_bind, wp_pure]
  refine POLYVEC_BOUND_wp ha (fun i n hi hn => by have := hfa i n hi hn; push_cast; omega) ?_
  refine POLYVEC_BOUND_wp hb (fun i n hi hn => by have := hfb i n hi hn; unfold NTT_BOUND MLKEM_Q; push_cast; omega) ?_
  exact PostF.mono (basemul_run ⟨by omega, hK.2⟩ (hP.basemul K hK.1 hK.2) ha hb hcc hfa hfb g hr rfl rfl rfl) fun s ⟨_, h1⟩ => h1

/-- `poly_tobytes`, AArch64 backend. -/
theorem poly_tobytes_spec {a : Model.Poly} {f : Nat → Nat} (ha : Holds a 256 (fun i => (f i : Int))) (hf : ∀ i, i < 256 → f i < 3329) {r : Buf UInt8} {ro : Nat} (hr : ro + 384 ≤ r.size) :
    Post (Model.A64.poly_tobytes P g r ro a) (fun r' => Written r r' ro 384 (encByte 12 f)) := by
  unfold Model.A64.poly_tobytes poly_tobytes_native
  simp only [wp_bind, wp_pure]
  refine POLY_UBOUND_wp ha (fun i hi => by have := hf i hi; omega) ?_
  refine window_wp hr fun w hw _ => ?_
  exact PostF.mono (tobytes_run hP.tobytes ha (fun i hi => by have := hf i hi; omega) g rfl hw) fun s ⟨_, h1⟩ => putBack_written hr h1

end Verif.A64

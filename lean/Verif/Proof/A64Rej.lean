import Verif.Proof.X86Rej
import Verif.Model.A64Rej
/-! # AArch64 rejection sampling -/
namespace Verif.A64Rej
open Model Spec Model.A64Rej

/-! ## The sampling loop and its target -/

theorem sStep_pre (T : Nat) (c0 c1 c2 : UInt8) (b : List Nat) : ∃ l, sStep T c0 c1 c2 b = b ++ l := by
  unfold sStep
  by_cases h1 : (cand c0 c1 c2).1 < 3329 <;> simp only [h1, if_true, if_false] <;> split
  · exact ⟨_, List.append_assoc _ _ _⟩
  · exact ⟨_, rfl⟩
  · exact ⟨_, rfl⟩
  · exact ⟨[], by simp⟩

theorem sN_pre {T : Nat} {L : List UInt8} (b : List Nat) : ∃ l, sN T L b = b ++ l := by
  induction L, b using sN.induct (T := T) with
  | case1 c0 c1 c2 rest b hl ih =>
    obtain ⟨l, e⟩ := ih
    obtain ⟨l', e'⟩ := sStep_pre T c0 c1 c2 b
    exact ⟨l' ++ l, by rw [sN, if_pos hl, e, e', List.append_assoc]⟩
  | case2 c0 c1 c2 rest b hl => exact ⟨[], by rw [sN_full (by omega)]; simp⟩
  | case3 L b hl =>
    match L, hl with
    | [], _ => exact ⟨[], by simp [sN]⟩
    | [_], _ => exact ⟨[], by simp [sN]⟩
    | [_, _], _ => exact ⟨[], by simp [sN]⟩
    | _ :: _ :: _ :: _, hl => exact (hl _ _ _ _ rfl).elim

/-- Sampling to a higher target only adds coefficients. -/
theorem sN_take {T T' : Nat} (hT : T ≤ T') {L : List UInt8} (b : List Nat) (hb : b.length ≤ T) : (sN T' L b).take T = sN T L b := by
  induction L, b using sN.induct (T := T) with
  | case1 c0 c1 c2 rest b hl ih =>
    rw [sN, if_pos (by omega), sN, if_pos hl]
    by_cases h1 : (cand c0 c1 c2).1 < 3329 <;> by_cases h2 : (cand c0 c1 c2).2 < 3329
    · by_cases h3 : b.length + 1 < T
      · have e : sStep T c0 c1 c2 b = sStep T' c0 c1 c2 b := by
          unfold sStep; simp [h1, h2, h3, show b.length + 1 < T' by omega]
        rw [e] at ih ⊢
        exact ih (by unfold sStep; simp [h1, h2, show b.length + 1 < T' by omega]; omega)
      · have e : sStep T c0 c1 c2 b = b ++ [(cand c0 c1 c2).1] := by unfold sStep; simp [h1, h3]
        have e' : ∃ l, sStep T' c0 c1 c2 b = b ++ [(cand c0 c1 c2).1] ++ l := by
          unfold sStep; simp only [h1, if_true]; split
          · exact ⟨_, rfl⟩
          · exact ⟨[], by simp⟩
        obtain ⟨l, e'⟩ := e'
        obtain ⟨l', e''⟩ := sN_pre (T := T') (L := rest) (sStep T' c0 c1 c2 b)
        have hl : (b ++ [(cand c0 c1 c2).1]).length = T := by simp; omega
        rw [e'', e', e, sN_full (by omega), List.append_assoc, List.take_append_of_le_length (by omega), List.take_of_length_le (by omega)]
    all_goals
      have e : sStep T c0 c1 c2 b = sStep T' c0 c1 c2 b := by
        unfold sStep; simp [h1, h2, hl, show b.length < T' by omega]
      rw [e] at ih ⊢
      exact ih (by unfold sStep; simp [h1, h2, show b.length < T' by omega]; omega)
  | case2 c0 c1 c2 rest b hl =>
    obtain ⟨l, e⟩ := sN_pre (T := T') (L := c0 :: c1 :: c2 :: rest) b
    rw [e, sN_full (by omega), List.take_append_of_le_length (by omega), List.take_of_length_le (by omega)]
  | case3 L b hl =>
    match L, hl with
    | [], _ => simp only [sN]; exact List.take_of_length_le (by omega)
    | [_], _ => simp only [sN]; exact List.take_of_length_le (by omega)
    | [_, _], _ => simp only [sN]; exact List.take_of_length_le (by omega)
    | _ :: _ :: _ :: _, hl => exact (hl _ _ _ _ rfl).elim

/-! ## The instructions on elements -/

theorem lane_zip1b (a b : VB) (k : Nat) : lane16 (zip1b a b) k = (a k).toNat + 256 * (b k).toNat := by
  unfold lane16 zip1b
  rw [show 2 * k / 2 = k by omega, show (2 * k + 1) / 2 = k by omega, if_pos (by omega), if_neg (by omega)]

theorem lane_zip2b (a b : VB) (k : Nat) : lane16 (zip2b a b) k = (a (8 + k)).toNat + 256 * (b (8 + k)).toNat := by
  unfold lane16 zip2b
  rw [show 2 * k / 2 = k by omega, show (2 * k + 1) / 2 = k by omega, if_pos (by omega), if_neg (by omega)]

theorem lane_zip1h (a b : VB) (k : Nat) : lane16 (zip1h a b) k = if k % 2 = 0 then lane16 a (k / 2) else lane16 b (k / 2) := by
  unfold lane16 zip1h
  rw [show 2 * k / 2 = k by omega, show (2 * k + 1) / 2 = k by omega, show 2 * (2 * k / 4) + 2 * k % 2 = 2 * (k / 2) by omega,
    show 2 * ((2 * k + 1) / 4) + (2 * k + 1) % 2 = 2 * (k / 2) + 1 by omega]
  split <;> rfl

theorem lane_zip2h (a b : VB) (k : Nat) : lane16 (zip2h a b) k = if k % 2 = 0 then lane16 a (4 + k / 2) else lane16 b (4 + k / 2) := by
  unfold lane16 zip2h
  rw [show 2 * k / 2 = k by omega, show (2 * k + 1) / 2 = k by omega, show 8 + 2 * (2 * k / 4) + 2 * k % 2 = 2 * (4 + k / 2) by omega,
    show 8 + 2 * ((2 * k + 1) / 4) + (2 * k + 1) % 2 = 2 * (4 + k / 2) + 1 by omega]
  split <;> rfl

theorem lane_bic (a : VB) (k : Nat) : lane16 (bic8h a 0xf0 8) k = lane16 a k % 4096 := by
  have e : lane16 a k &&& (65535 ^^^ (0xf0 <<< 8)) = lane16 a k % 4096 := by
    rw [show (65535 ^^^ (0xf0 <<< 8) : Nat) = 2 ^ 12 - 1 from rfl, Nat.and_two_pow_sub_one_eq_mod]
  unfold bic8h
  rw [lane16_of16 _ _ (by omega), e]

theorem lane_ushr (a : VB) (k : Nat) : lane16 (ushr8h a 4) k = lane16 a k / 16 := by
  unfold ushr8h
  have := lane16_lt a k
  rw [lane16_of16 _ _ (by rw [Nat.shiftRight_eq_div_pow]; omega), Nat.shiftRight_eq_div_pow]

/-- The candidates from interleaved bytes. -/
theorem cand_lane {v : VB} {k t : Nat} {x y z : UInt8} (ht : t = k / 2) (hx : x = v (3 * t)) (hy : y = v (3 * t + 1)) (hz : z = v (3 * t + 2)) :
    (if k % 2 = 0 then (x.toNat + 256 * y.toNat) % 4096 else (y.toNat + 256 * z.toNat) / 16) = cd v k := by
  subst ht hx hy hz
  unfold cd
  have := (v (3 * (k / 2))).toNat_lt; have := (v (3 * (k / 2) + 1)).toNat_lt; have := (v (3 * (k / 2) + 2)).toNat_lt
  split <;> omega

/-- The set of accepted elements of a vector. -/
def acc (val : VB) : VB := and16b (cmhi8h mlkem_q val) bits

theorem acc_bytes {val : VB} {k : Nat} (hk : k < 8) : ((acc val) (2 * k)).toNat = (if lane16 val k < 3329 then 2 ^ k else 0) ∧ ((acc val) (2 * k + 1)).toNat = 0 := by
  have e : ∀ j, j / 2 = k → cmhi8h mlkem_q val j = if lane16 val k < 3329 then 255 else 0 := by
    intro j hj
    have q : lane16 mlkem_q k = 3329 := by unfold mlkem_q; rw [lane16_of16 _ _ (by omega)]
    unfold cmhi8h of16
    simp only [hj, q]
    have : j % 2 = 0 ∨ j % 2 = 1 := by omega
    by_cases h : lane16 val k < 3329 <;> rcases this with t | t <;> simp [h, t]
  unfold acc and16b
  rw [e _ (by omega), e _ (by omega)]
  have b : bits (2 * k) = UInt8.ofNat (2 ^ k) ∧ bits (2 * k + 1) = 0 := by interval_cases k <;> decide
  rw [b.1, b.2]
  by_cases h : lane16 val k < 3329
  · simp only [h, if_true]; interval_cases k <;> decide
  · simp only [h, if_false]; interval_cases k <;> decide

theorem acc_sum {val : VB} {d : Nat → Nat} (h : ∀ k, k < 8 → lane16 val k = d k) : uaddlv8h (acc val) = bitsNat (fun k => decide (d k < 3329)) 8 := by
  have e : ∀ k, k < 8 → lane16 (acc val) k = if decide (d k < 3329) = true then 2 ^ k else 0 := by
    intro k hk
    unfold lane16
    rw [(acc_bytes hk).1, (acc_bytes hk).2, h k hk]; simp
  unfold uaddlv8h
  simp only [e 0 (by omega), e 1 (by omega), e 2 (by omega), e 3 (by omega), e 4 (by omega), e 5 (by omega), e 6 (by omega), e 7 (by omega), bitsNat, Nat.zero_add]

theorem acc_cnt {val : VB} {d : Nat → Nat} (h : ∀ k, k < 8 → lane16 val k = d k) : uaddlv8h (cnt16b (acc val)) = (acc8 d).length := by
  have e : ∀ k, k < 8 → lane16 (cnt16b (acc val)) k = if decide (d k < 3329) = true then 1 else 0 := by
    intro k hk
    unfold lane16 cnt16b
    rw [(acc_bytes hk).1, (acc_bytes hk).2, h k hk]
    by_cases hd : d k < 3329
    · simp only [hd, if_true, decide_true]; interval_cases k <;> decide
    · simp only [hd, if_false, decide_false]; decide
  unfold uaddlv8h acc8
  rw [← List.countP_eq_length_filter, show (List.range 8).map d = [d 0, d 1, d 2, d 3, d 4, d 5, d 6, d 7] from rfl]
  simp only [e 0 (by omega), e 1 (by omega), e 2 (by omega), e 3 (by omega), e 4 (by omega), e 5 (by omega), e 6 (by omega), e 7 (by omega), List.countP_cons, List.countP_nil]
  omega

theorem table_row : ∀ m, m < 256 → ∀ i, i < (sel m).length → (tableData.getD m []).getD (2 * i) 0 = UInt8.ofNat (2 * (sel m).getD i 0) ∧
    (tableData.getD m []).getD (2 * i + 1) 0 = UInt8.ofNat (2 * (sel m).getD i 0 + 1) := by decide +kernel

theorem table_length : tableData.length = 256 := by decide +kernel

theorem ldrTable_spec {m : Nat} (h : m < 256) : Post (ldrTable m) (fun v => ∀ i, i < (sel m).length → v (2 * i) = UInt8.ofNat (2 * (sel m).getD i 0) ∧ v (2 * i + 1) = UInt8.ofNat (2 * (sel m).getD i 0 + 1)) := by
  unfold ldrTable
  simp only [wp_bind, wp_rd, wp_pure]
  exact ⟨tableData.getD m [], (Holds.ofList tableData []).get (by rw [table_length]; exact h), fun i hi => table_row m h i hi⟩

theorem tbl_lane {val t : VB} {m i : Nat} (hi : i < (sel m).length) (h : t (2 * i) = UInt8.ofNat (2 * (sel m).getD i 0) ∧ t (2 * i + 1) = UInt8.ofNat (2 * (sel m).getD i 0 + 1)) :
    lane16 (tbl16b val t) i = lane16 val ((sel m).getD i 0) := by
  have hs := sel_lt hi
  generalize (sel m).getD i 0 = s at *
  unfold lane16 tbl16b
  rw [h.1, h.2]
  have e0 : (UInt8.ofNat (2 * s)).toNat = 2 * s := by rw [UInt8.toNat_ofNat']; omega
  have e1 : (UInt8.ofNat (2 * s + 1)).toNat = 2 * s + 1 := by rw [UInt8.toNat_ofNat']; omega
  rw [e0, e1, if_pos (by omega), if_pos (by omega)]

theorem ld3_spec {b : Buf UInt8} {pos : Nat} {g : Nat → UInt8} (n : Nat) (h : ∀ j, j < 3 * n → b[pos + j]? = some (some (g j))) :
    Post (ld3 b pos n) (fun x => ∀ j, j < n → x.1 j = g (3 * j) ∧ x.2.1 j = g (3 * j + 1) ∧ x.2.2 j = g (3 * j + 2)) := by
  unfold ld3
  simp only [wp_bind]
  refine (loadu_spec (3 * n) h).mono ?_
  intro v hv
  simp only [wp_pure]
  intro j hj
  simp only [hj, if_true]
  exact ⟨hv _ (by omega), hv _ (by omega), hv _ (by omega)⟩

/-- Every cell is initialised. -/
def Full (r : Model.Poly) : Prop := ∀ j, j < r.size → ∃ v, r[j]? = some (some v)

theorem Full.written {r r' : Model.Poly} {o n : Nat} {g : Nat → Int} (h : Full r) (hw : Written r r' o n g) : Full r' := by
  intro j hj
  rw [hw.1] at hj
  by_cases e : j < o ∨ o + n ≤ j
  · rw [hw.2.2 j e]; exact h j hj
  · obtain ⟨t, rfl⟩ : ∃ t, j = o + t := ⟨j - o, by omega⟩
    exact ⟨_, hw.2.1 t (by omega)⟩

theorem Post.and {α : Type} {p : M α} {Q R : α → Prop} (h : Post p Q) (h' : Post p R) : Post p (fun a => Q a ∧ R a) := by
  obtain ⟨a, t, e, q⟩ := h.elim
  obtain ⟨a', t', e', q'⟩ := h'.elim
  rw [e] at e'; cases e'
  exact Post.intro e ⟨q, q'⟩

/-- One group of eight candidates: the table row has been loaded, the selected elements are stored. -/
theorem store_group {r : Model.Poly} {b : List Nat} {val t : VB} {d : Nat → Nat} (hf : Full r) (hr : HasAt r 0 b) (hs : b.length + 8 ≤ r.size) (h : ∀ k, k < 8 → lane16 val k = d k) (hd : ∀ k, d k < 4096)
    (ht : ∀ i, i < (sel (uaddlv8h (acc val))).length → t (2 * i) = UInt8.ofNat (2 * (sel (uaddlv8h (acc val))).getD i 0) ∧ t (2 * i + 1) = UInt8.ofNat (2 * (sel (uaddlv8h (acc val))).getD i 0 + 1)) :
    Post (storeu128 r b.length (tbl16b val t) 8) (fun r' => r'.size = r.size ∧ HasAt r' 0 (b ++ acc8 d) ∧ Full r') := by
  have hm : ∀ k, k < 8 → (uaddlv8h (acc val)).testBit k = decide (d k < 3329) := fun k hk => by
    rw [acc_sum h, (testBit_bitsNat _ _ _).1]; simp [hk]
  have := store_acc (v := tbl16b val t) (o := 0) hr (by omega) hm (fun i hi => by rw [tbl_lane hi (ht i hi), h _ (sel_lt hi)]) hd
  rw [Nat.zero_add] at this
  exact (Post.and this (storeu128_spec 8 (by omega))).mono fun r' h => ⟨h.1.1, h.1.2.1, hf.written h.2⟩

theorem acc_lt (val : VB) : uaddlv8h (acc val) < 256 := by
  rw [acc_sum (d := fun k => lane16 val k) fun _ _ => rfl]
  exact (testBit_bitsNat _ _ 0).2

/-- The state of the loop: `b` has been sampled so far. -/
structure Inv (L : List UInt8) (T : Nat) (s : St) (b : List Nat) : Prop where
  size : s.stk.size = 288
  full : Full s.stk
  has : HasAt s.stk 0 b
  ot : s.ot = b.length
  count : s.count = b.length
  pos : s.pos + s.buflen = L.length
  sn : sN T (L.drop s.pos) b = sN T L []

theorem round48_spec {buf : Buf UInt8} {L : List UInt8} {T : Nat} {s : St} {b : List Nat} (hb : Seg buf 0 L.length (fun i => L.getD i 0)) (h : Inv L T s b) (hlen : s.buflen ≥ 48)
    (hc : s.count < 256) (hT : 288 ≤ T) : Post (round48 buf s) (fun s' => ∃ b', Inv L T s' b' ∧ s'.buflen = s.buflen - 48 ∧ b'.length ≤ b.length + 32) := by
  obtain ⟨stk, ot, count, pos, buflen⟩ := s
  obtain ⟨hsz, hf, hh, rfl, rfl, hp, hsn⟩ := h
  simp only at hsz hf hh hp hsn hlen hc
  have hget : ∀ j, pos + j < L.length → buf[pos + j]? = some (some (L.getD (pos + j) 0)) := fun j hj => by
    have := hb.get (i := pos + j) hj; rwa [Nat.zero_add] at this
  unfold round48
  try simp only [wp_bind]
  refine (ld3_spec 16 (g := fun j => L.getD (pos + j) 0) fun j hj => hget j (by omega)).mono ?_
  rintro ⟨x, y, z⟩ hv
  simp only at hv ⊢
  generalize hD : cd (fun j => L.getD (pos + j) 0) = D
  have hDl : ∀ k, D k < 4096 := fun k => by rw [← hD]; exact cd_lt _ _
  have par : ∀ i k : Nat, (k % 2 = 0) = ((8 * i + k) % 2 = 0) := fun i k => propext (by omega)
  have h0 : ∀ k, k < 8 → lane16 (zip1h (bic8h (zip1b x y) 0xf0 8) (ushr8h (zip1b y z) 4)) k = D (8 * 0 + k) := fun k hk => by
    rw [lane_zip1h, lane_bic, lane_ushr, lane_zip1b, lane_zip1b, ← hD]
    simp only [par 0 k]
    exact cand_lane (by omega) (hv _ (by omega)).1 (hv _ (by omega)).2.1 (hv _ (by omega)).2.2
  have h1 : ∀ k, k < 8 → lane16 (zip2h (bic8h (zip1b x y) 0xf0 8) (ushr8h (zip1b y z) 4)) k = D (8 * 1 + k) := fun k hk => by
    rw [lane_zip2h, lane_bic, lane_ushr, lane_zip1b, lane_zip1b, ← hD]
    simp only [par 1 k]
    exact cand_lane (by omega) (hv _ (by omega)).1 (hv _ (by omega)).2.1 (hv _ (by omega)).2.2
  have h2 : ∀ k, k < 8 → lane16 (zip1h (bic8h (zip2b x y) 0xf0 8) (ushr8h (zip2b y z) 4)) k = D (8 * 2 + k) := fun k hk => by
    rw [lane_zip1h, lane_bic, lane_ushr, lane_zip2b, lane_zip2b, ← hD]
    simp only [par 2 k]
    exact cand_lane (by omega) (hv _ (by omega)).1 (hv _ (by omega)).2.1 (hv _ (by omega)).2.2
  have h3 : ∀ k, k < 8 → lane16 (zip2h (bic8h (zip2b x y) 0xf0 8) (ushr8h (zip2b y z) 4)) k = D (8 * 3 + k) := fun k hk => by
    rw [lane_zip2h, lane_bic, lane_ushr, lane_zip2b, lane_zip2b, ← hD]
    simp only [par 3 k]
    exact cand_lane (by omega) (hv _ (by omega)).1 (hv _ (by omega)).2.1 (hv _ (by omega)).2.2
  generalize zip1h (bic8h (zip1b x y) 0xf0 8) (ushr8h (zip1b y z) 4) = v0 at *
  generalize zip2h (bic8h (zip1b x y) 0xf0 8) (ushr8h (zip1b y z) 4) = v1 at *
  generalize zip1h (bic8h (zip2b x y) 0xf0 8) (ushr8h (zip2b y z) 4) = v2 at *
  generalize zip2h (bic8h (zip2b x y) 0xf0 8) (ushr8h (zip2b y z) 4) = v3 at *
  have ea : ∀ v, and16b (cmhi8h mlkem_q v) bits = acc v := fun _ => rfl
  simp only [ea]
  refine (ldrTable_spec (acc_lt _)).mono ?_
  intro t0 ht0
  try simp only [wp_bind]
  refine (ldrTable_spec (acc_lt _)).mono ?_
  intro t1 ht1
  try simp only [wp_bind]
  refine (ldrTable_spec (acc_lt _)).mono ?_
  intro t2 ht2
  try simp only [wp_bind]
  refine (ldrTable_spec (acc_lt _)).mono ?_
  intro t3 ht3
  try simp only [wp_bind]
  rw [acc_cnt h0, acc_cnt h1, acc_cnt h2, acc_cnt h3]
  have l0 := acc8_length fun k => D (8 * 0 + k)
  have l1 := acc8_length fun k => D (8 * 1 + k)
  have l2 := acc8_length fun k => D (8 * 2 + k)
  have l3 := acc8_length fun k => D (8 * 3 + k)
  refine (store_group (r := stk) hf hh (by omega) h0 (fun _ => hDl _) ht0).mono ?_
  rintro r1 ⟨z1, g1, f1⟩
  try simp only [wp_bind]
  rw [← List.length_append]
  refine (store_group f1 g1 (by rw [List.length_append]; omega) h1 (fun _ => hDl _) ht1).mono ?_
  rintro r2 ⟨z2, g2, f2⟩
  try simp only [wp_bind]
  rw [← List.length_append]
  refine (store_group f2 g2 (by simp only [List.length_append]; omega) h2 (fun _ => hDl _) ht2).mono ?_
  rintro r3 ⟨z3, g3, f3⟩
  try simp only [wp_bind]
  rw [← List.length_append]
  refine (store_group f3 g3 (by simp only [List.length_append]; omega) h3 (fun _ => hDl _) ht3).mono ?_
  rintro r4 ⟨z4, g4, f4⟩
  simp only [wp_pure]
  refine ⟨_, ⟨by simp only; omega, f4, g4, by simp only [List.length_append], by simp only [List.length_append]; omega, by simp only; omega, ?_⟩, trivial, by simp only [List.length_append]; omega⟩
  simp only
  rw [← hsn]
  have t0 := acc8_shift L pos 0
  have t1 := acc8_shift L pos 1
  have t2 := acc8_shift L pos 2
  have t3 := acc8_shift L pos 3
  rw [hD] at t0 t1 t2 t3
  simp only [Nat.mul_zero, Nat.mul_one, Nat.reduceMul, Nat.add_zero] at t0 t1 t2 t3 ⊢
  have c0 := sN_chunk (T := T) (L := L) (pos := pos) (b := b) (by omega) (by omega)
  rw [t0] at c0
  simp only [Nat.mul_zero, Nat.mul_one, Nat.reduceMul, Nat.zero_add] at l0 l1 l2 l3 c0 ⊢
  rw [c0, sN_chunk (pos := pos + 12) (by omega) (by rw [List.length_append]; omega), t1, sN_chunk (pos := pos + 12 + 12) (by omega) (by simp only [List.length_append]; omega),
    show pos + 12 + 12 = pos + 24 by omega, t2, sN_chunk (pos := pos + 24 + 12) (by omega) (by simp only [List.length_append]; omega), show pos + 24 + 12 = pos + 36 by omega, t3]

theorem round24_spec {buf : Buf UInt8} {L : List UInt8} {T : Nat} {s : St} {b : List Nat} (hb : Seg buf 0 L.length (fun i => L.getD i 0)) (h : Inv L T s b) (hlen : s.buflen ≥ 24)
    (hc : s.count < 256) (hT : 288 ≤ T) : Post (round24 buf s) (fun s' => ∃ b', Inv L T s' b' ∧ s'.buflen = s.buflen - 24) := by
  obtain ⟨stk, ot, count, pos, buflen⟩ := s
  obtain ⟨hsz, hf, hh, rfl, rfl, hp, hsn⟩ := h
  simp only at hsz hf hh hp hsn hlen hc
  have hget : ∀ j, pos + j < L.length → buf[pos + j]? = some (some (L.getD (pos + j) 0)) := fun j hj => by
    have := hb.get (i := pos + j) hj; rwa [Nat.zero_add] at this
  unfold round24
  try simp only [wp_bind]
  refine (ld3_spec 8 (g := fun j => L.getD (pos + j) 0) fun j hj => hget j (by omega)).mono ?_
  rintro ⟨x, y, z⟩ hv
  simp only at hv ⊢
  generalize hD : cd (fun j => L.getD (pos + j) 0) = D
  have hDl : ∀ k, D k < 4096 := fun k => by rw [← hD]; exact cd_lt _ _
  have par : ∀ i k : Nat, (k % 2 = 0) = ((8 * i + k) % 2 = 0) := fun i k => propext (by omega)
  have h0 : ∀ k, k < 8 → lane16 (zip1h (bic8h (zip1b x y) 0xf0 8) (ushr8h (zip1b y z) 4)) k = D (8 * 0 + k) := fun k hk => by
    rw [lane_zip1h, lane_bic, lane_ushr, lane_zip1b, lane_zip1b, ← hD]
    simp only [par 0 k]
    exact cand_lane (by omega) (hv _ (by omega)).1 (hv _ (by omega)).2.1 (hv _ (by omega)).2.2
  have h1 : ∀ k, k < 8 → lane16 (zip2h (bic8h (zip1b x y) 0xf0 8) (ushr8h (zip1b y z) 4)) k = D (8 * 1 + k) := fun k hk => by
    rw [lane_zip2h, lane_bic, lane_ushr, lane_zip1b, lane_zip1b, ← hD]
    simp only [par 1 k]
    exact cand_lane (by omega) (hv _ (by omega)).1 (hv _ (by omega)).2.1 (hv _ (by omega)).2.2
  generalize zip1h (bic8h (zip1b x y) 0xf0 8) (ushr8h (zip1b y z) 4) = v0 at *
  generalize zip2h (bic8h (zip1b x y) 0xf0 8) (ushr8h (zip1b y z) 4) = v1 at *
  have ea : ∀ v, and16b (cmhi8h mlkem_q v) bits = acc v := fun _ => rfl
  simp only [ea]
  refine (ldrTable_spec (acc_lt _)).mono ?_
  intro t0 ht0
  try simp only [wp_bind]
  refine (ldrTable_spec (acc_lt _)).mono ?_
  intro t1 ht1
  try simp only [wp_bind]
  rw [acc_cnt h0, acc_cnt h1]
  have l0 := acc8_length fun k => D (8 * 0 + k)
  have l1 := acc8_length fun k => D (8 * 1 + k)
  refine (store_group (r := stk) hf hh (by omega) h0 (fun _ => hDl _) ht0).mono ?_
  rintro r1 ⟨z1, g1, f1⟩
  try simp only [wp_bind]
  rw [← List.length_append]
  refine (store_group f1 g1 (by rw [List.length_append]; omega) h1 (fun _ => hDl _) ht1).mono ?_
  rintro r2 ⟨z2, g2, f2⟩
  simp only [wp_pure]
  refine ⟨_, ⟨by simp only; omega, f2, g2, by simp only [List.length_append], by simp only [List.length_append], by simp only; omega, ?_⟩, trivial⟩
  simp only
  rw [← hsn]
  have t0 := acc8_shift L pos 0
  have t1 := acc8_shift L pos 1
  rw [hD] at t0 t1
  simp only [Nat.mul_zero, Nat.mul_one, Nat.add_zero] at t0 t1 ⊢
  have c0 := sN_chunk (T := T) (L := L) (pos := pos) (b := b) (by omega) (by omega)
  rw [t0] at c0
  simp only [Nat.mul_zero, Nat.mul_one, Nat.zero_add] at l0 l1 c0 ⊢
  rw [c0, sN_chunk (pos := pos + 12) (by omega) (by rw [List.length_append]; omega), t1, show pos + 12 + 12 = pos + 24 by omega]

theorem copy8_spec {dst src : Model.Poly} {o i : Nat} {g : Nat → Int} (n : Nat) (hs : ∀ k, k < n → src[i + k]? = some (some (g k))) (hd : o + n ≤ dst.size) :
    Post (copy8 dst o src i n) (fun d => Written dst d o n g) := by
  induction n with
  | zero => simp only [copy8, wp_pure]; exact Written.refl _ _ _
  | succ n ih =>
    simp only [copy8, wp_bind]
    refine (ih (fun k hk => hs k (by omega)) (by omega)).mono ?_
    intro d hw
    simp only [wp_rd, wp_wr]
    exact ⟨g n, hs n (by omega), by rw [hw.1]; omega, hw.push (by omega) rfl rfl⟩

theorem copyAll_spec {r stk : Model.Poly} {ro : Nat} {g : Nat → Int} (hs : ∀ k, k < 256 → stk[k]? = some (some (g k))) (hr : ro + 256 ≤ r.size) :
    Post (forN 8 r fun i r => do
      let r ← copy8 r (ro + 32 * i) stk (32 * i) 8
      let r ← copy8 r (ro + 32 * i + 8) stk (32 * i + 8) 8
      let r ← copy8 r (ro + 32 * i + 16) stk (32 * i + 16) 8
      copy8 r (ro + 32 * i + 24) stk (32 * i + 24) 8) (fun r' => Written r r' ro 256 g) := by
  refine wp_forN (fun i r' => Written r r' ro (32 * i) g) (Written.refl _ _ _) ?_ (fun s h => h)
  intro i s hi hw
  have step : ∀ {s s' : Model.Poly} {n : Nat}, Written r s ro n g → Written s s' (ro + n) 8 (fun k => g (n + k)) → Written r s' ro (n + 8) g := by
    intro s s' n h h'
    refine (h.trans h').congr ?_
    intro k _
    by_cases e : k < n
    · rw [if_pos e]
    · rw [if_neg e]; congr 1; omega
  have c : ∀ {s : Model.Poly} {n : Nat}, n + 8 ≤ 256 → Written r s ro n g → Post (copy8 s (ro + n) stk n 8) (fun s' => Written r s' ro (n + 8) g) := by
    intro s n hn hw
    refine (copy8_spec 8 (g := fun k => g (n + k)) (fun k hk => hs _ (by omega)) (by rw [hw.1]; omega)).mono ?_
    intro s' h'
    exact step hw h'
  simp only [wp_bind]
  refine (c (by omega) hw).mono ?_
  intro s1 w1
  try simp only [wp_bind]
  refine (c (n := 32 * i + 8) (by omega) w1).mono ?_
  intro s2 w2
  try simp only [wp_bind]
  refine (c (n := 32 * i + 16) (by omega) w2).mono ?_
  intro s3 w3
  exact c (n := 32 * i + 24) (by omega) w3

/-- `rej_uniform_asm_clean` runs the sampling loop on the bytes of the buffer. -/
theorem rej_uniform_asm_clean_spec {r stk : Model.Poly} {ro : Nat} {buf : Buf UInt8} {L : List UInt8} (hT : ro + 256 ≤ r.size) (hst : stk.size = 288) (hfull : Full stk) (hL : L.length % 24 = 0)
    (hb : Seg buf 0 L.length (fun i => L.getD i 0)) :
    Post (rej_uniform_asm_clean r ro stk buf L.length) (fun x => x.1.size = r.size ∧ HasAt x.1 ro (sN 256 L []) ∧ x.2 = (sN 256 L []).length ∧
      ∀ j, (j < ro ∨ ro + 256 ≤ j) → x.1[j]? = r[j]?) := by
  unfold rej_uniform_asm_clean
  simp only [wp_bind]
  refine wp_while (fun s => ∃ b, Inv L 288 s b ∧ s.buflen % 24 = 0) (fun s => s.buflen) (fun s => decide (s.buflen ≥ 48) && decide (s.count < 256))
    ⟨[], ⟨hst, hfull, fun i hi => by simp at hi, rfl, rfl, by simp, rfl⟩, hL⟩ (Nat.le_refl _) ?_ ?_ ?_
  · intro s _
    simp only [wp_andM]
  · rintro s ⟨b, hI, h24⟩ hC
    simp only [Bool.and_eq_true, decide_eq_true_eq] at hC
    refine ⟨by omega, (round48_spec hb hI hC.1 hC.2 (Nat.le_refl _)).mono ?_⟩
    rintro s' ⟨b', hI', e, _⟩
    exact ⟨⟨b', hI', by omega⟩, by omega⟩
  · rintro s ⟨b, hI, h24⟩ hC
    simp only [Bool.and_eq_false_iff, decide_eq_false_iff_not] at hC
    have fin : ∀ (s : St) (b : List Nat), Inv L 288 s b → (256 ≤ s.count ∨ s.buflen = 0) → b.take 256 = sN 256 L [] := by
      intro s b hI h
      rw [← sN_take (T' := 288) (by omega) [] (by simp), ← hI.sn]
      rcases h with h | h
      · obtain ⟨l, e⟩ := sN_pre (T := 288) (L := L.drop s.pos) b
        rw [e, List.take_append_of_le_length (by have := hI.count; omega)]
      · rw [sN_short (by have := hI.pos; simp; omega)]
    have tail : ∀ (s : St) (b : List Nat), Inv L 288 s b → (256 ≤ s.count ∨ s.buflen = 0) →
        Post (forN 8 r fun i r => do
          let r ← copy8 r (ro + 32 * i) s.stk (32 * i) 8
          let r ← copy8 r (ro + 32 * i + 8) s.stk (32 * i + 8) 8
          let r ← copy8 r (ro + 32 * i + 16) s.stk (32 * i + 16) 8
          copy8 r (ro + 32 * i + 24) s.stk (32 * i + 24) 8) (fun r' => r'.size = r.size ∧ HasAt r' ro (sN 256 L []) ∧ (if s.count < 256 then s.count else 256) = (sN 256 L []).length ∧
            ∀ j, (j < ro ∨ ro + 256 ≤ j) → r'[j]? = r[j]?) := by
      intro s b hI h
      have e := fin s b hI h
      have hg : ∀ k, k < 256 → s.stk[k]? = some (some ((s.stk[k]?.getD none).getD 0)) := by
        intro k hk
        obtain ⟨v, hv⟩ := hI.full k (by rw [hI.size]; omega)
        simp [hv]
      refine (copyAll_spec hg hT).mono ?_
      intro r' hw
      refine ⟨hw.1, fun i hi => ?_, ?_, hw.2.2⟩
      · rw [← e, List.length_take] at hi
        rw [hw.2.1 i (by omega), ← hg i (by omega), ← e]
        have := hI.has i (by omega)
        rw [Nat.zero_add] at this
        rw [this]
        simp [List.getD, show i < 256 by omega]
      · rw [← e, List.length_take, hI.count]
        split <;> omega
    by_cases h48 : s.buflen ≥ 48
    · rw [if_pos h48]
      simp only [wp_bind, wp_pure]
      exact tail s b hI (by omega)
    · rw [if_neg h48]
      simp only [wp_bind, wp_branch, wp_pure, decide_eq_true_eq, decide_eq_false_iff_not]
      refine ⟨fun h => tail s b hI (Or.inl h), fun h => ⟨fun h' => tail s b hI (Or.inr (by omega)), fun h' => ?_⟩⟩
      refine (round24_spec hb hI (by omega) (by omega) (Nat.le_refl _)).mono ?_
      rintro s' ⟨b', hI', e⟩
      exact tail s' b' hI' (Or.inr (by omega))

/-- The AArch64 sampler meets the specification of the portable one. -/
theorem rej_uniform_spec' {stk r : Model.Poly} {T : Nat} {a : List Nat} {buf : Buf UInt8} {L : List UInt8} (hst : stk.size = 288) (hfull : Full stk) (hT : T ≤ r.size) (hT32 : T < 2 ^ 32)
    (hL : L.length + 3 < 2 ^ 32) (ha : a.length ≤ T) (hr : HasList r a) (hb : Seg buf 0 L.length (fun i => L.getD i 0)) :
    Post (Model.A64Rej.rej_uniform stk r T a.length buf L.length) (fun x => x.1.size = r.size ∧ HasList x.1 (sN T L a) ∧ x.2 = (sN T L a).length ∧
      ∀ j, T ≤ j → x.1[j]? = r[j]?) := by
  unfold Model.A64Rej.rej_uniform Model.A64Rej.rej_uniform_native
  simp only [wp_bind, wp_orM, wp_branch, Bool.or_eq_true, Bool.or_eq_false_iff, decide_eq_true_eq, decide_eq_false_iff_not, wp_pure]
  have e : sub32 T a.length = T - a.length := by unfold sub32 u32; omega
  rw [e]
  refine ⟨fun _ => ⟨fun h => by simp at h, fun _ => rej_uniform_spec hT hT32 hL ha hr hb⟩, fun h => ?_⟩
  have hTa : T = a.length + 256 := by omega
  refine (rej_uniform_asm_clean_spec (by omega) hst hfull (by omega) hb).mono ?_
  rintro ⟨r', c⟩ ⟨h1, h2, h3, h4⟩
  simp only at h1 h2 h3 h4
  have ep : sN T L a = a ++ sN 256 L [] := by rw [hTa]; simpa using sN_prepend (L := L) (T := 256) a []
  have g : HasList r' (sN T L a) := by
    rw [ep]
    intro i hi
    simp only [List.length_append] at hi
    by_cases h : i < a.length
    · rw [h4 i (by omega), hr i h]; simp [List.getD, List.getElem?_append_left h]
    · obtain ⟨t, rfl⟩ : ∃ t, i = a.length + t := ⟨i - a.length, by omega⟩
      rw [h2 t (by omega)]; simp [List.getD, List.getElem?_append_right]
  exact ⟨fun _ => ⟨h1, g, by rw [ep, h3]; simp, fun j hj => h4 j (by omega)⟩, fun h => by simp at h⟩

end Verif.A64Rej

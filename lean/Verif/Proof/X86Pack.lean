import Verif.Proof.X86Poly
/-! # Serialisation and accumulation in the AVX2 backend -/
namespace Verif.X86
open Verif Model Model.X86 Spec Finset

theorem u16_s16 (n : Nat) : u16 (s16 (n : Int)) = n % 2 ^ 16 := by unfold u16 s16; omega

/-! ## Windows -/

theorem window_wp {b : Buf UInt8} {off n : Nat} (h : off + n ≤ b.size) {F : Prop} {Q : Buf UInt8 → Prop}
    (hQ : ∀ w : Buf UInt8, w.size = n → (∀ i, i < n → w[i]? = b[off + i]?) → Q w) : PostF F (window b off n) Q := by
  unfold window
  rw [if_pos h, wp_pure]
  refine hQ _ (by simp; omega) fun i hi => ?_
  rw [Array.getElem?_extract]
  rw [if_pos (by omega)]

theorem putBack_written {b c : Buf UInt8} {off n : Nat} (h : off + n ≤ b.size) {f : Nat → UInt8} (hc : Holds c n f) : Written b (putBack b off c) off n f := by
  refine ⟨by simp [putBack], fun i hi => ?_, fun j hj => ?_⟩
  · unfold putBack
    rw [Array.getElem?_ofFn, dif_pos (by omega)]
    simp only
    rw [if_pos ⟨by omega, by rw [hc.1]; omega⟩, Nat.add_sub_cancel_left, hc.2 i hi]
    rfl
  · unfold putBack
    rw [Array.getElem?_ofFn]
    split
    · rename_i hlt
      simp only
      rw [if_neg (by rw [hc.1]; omega)]
      simp
    · rename_i hlt
      rw [Array.getElem?_eq_none (by omega)]

/-! ## `poly_tobytes_native` -/

/-- 16-bit word `w` of the serialised polynomial. -/
def tbE (w : Nat) : E :=
  if w % 3 = 0 then .bor (vv (custInv (4 * (w / 3)))) (.sll 12 (vv (custInv (4 * (w / 3) + 1))))
  else if w % 3 = 1 then .bor (.sll 8 (vv (custInv (4 * (w / 3) + 2)))) (.srl 4 (vv (custInv (4 * (w / 3) + 1))))
  else .bor (.sll 4 (vv (custInv (4 * (w / 3) + 3)))) (.srl 8 (vv (custInv (4 * (w / 3) + 2))))

/-- Run the serialisation and check its result. -/
noncomputable def tobytesChk : Bool :=
  match arun noTags ntttobytes_avx2 256 regs0 [[], memOf vv 0 16, qvec] [memNone 12] with
  | none => false
  | some r => chkM (fun p x => decide (x = tbE p)) 12 0 (mth r.B 0)

theorem tobytes_chk : tobytesChk = true := by decide +kernel

theorem bytes_of_word {u v : UInt8} {x : Int} {n : Nat} (h : x = s16 (u.toNat + 256 * v.toNat)) (hn : u16 x = n) : u = toU8 n ∧ v = toU8 (n >>> 8) := by
  have hu := UInt8.toNat_lt u
  have hv := UInt8.toNat_lt v
  have h1 : u16 x = u.toNat + 256 * v.toNat := by
    rw [h]; unfold u16 s16; omega
  have h2 : n = u.toNat + 256 * v.toNat := hn.symm.trans h1
  rw [Nat.shiftRight_eq_div_pow]
  constructor
  · apply UInt8.toNat_inj.mp
    simp [toU8]; omega
  · apply UInt8.toNat_inj.mp
    simp [toU8]; omega

theorem tb_word {e : Nat → Int} {f : Nat → Nat} (he : ∀ i, i < 256 → e i = f (cust i)) (hf : ∀ i, i < 256 → f i < 4096) {m : Nat} (hm : m < 64) :
    u16 ((tbE (3 * m)).eval e) = (f (4 * m) ||| f (4 * m + 1) <<< 12 % 2 ^ 16) % 2 ^ 16 ∧
    u16 ((tbE (3 * m + 1)).eval e) = (f (4 * m + 2) <<< 8 % 2 ^ 16 ||| f (4 * m + 1) >>> 4 % 2 ^ 16) % 2 ^ 16 ∧
    u16 ((tbE (3 * m + 2)).eval e) = (f (4 * m + 3) <<< 4 % 2 ^ 16 ||| f (4 * m + 2) >>> 8 % 2 ^ 16) % 2 ^ 16 := by
  have hv : ∀ n, n < 256 → u16 (e (custInv n)) = f n := fun n hn => by
    rw [he _ (custInv_lt hn), cust_custInv hn, u16_natCast (by have := hf n hn; omega)]
  have d0 : 3 * m / 3 = m := by omega
  have d1 : (3 * m + 1) / 3 = m := by omega
  have d2 : (3 * m + 2) / 3 = m := by omega
  unfold tbE
  refine ⟨?_, ?_, ?_⟩
  · rw [if_pos (by omega), d0]
    simp only [E.eval, vv]
    rw [u16_s16, u16_s16, hv _ (by omega), hv _ (by omega), Nat.shiftLeft_eq]
  · rw [if_neg (by omega), if_pos (by omega), d1]
    simp only [E.eval, vv]
    rw [u16_s16, u16_s16, u16_s16, hv _ (by omega), hv _ (by omega), Nat.shiftLeft_eq, Nat.shiftRight_eq_div_pow]
  · rw [if_neg (by omega), if_neg (by omega), d2]
    simp only [E.eval, vv]
    rw [u16_s16, u16_s16, u16_s16, hv _ (by omega), hv _ (by omega), Nat.shiftLeft_eq, Nat.shiftRight_eq_div_pow]

/-- Closes the bit-level side conditions of packing into 16-bit words. -/
macro "pack_words" : tactic => `(tactic| (
  intro t ht
  interval_cases t <;> simp [Nat.testBit_or, Nat.testBit_and, Nat.testBit_shiftLeft, Nat.testBit_shiftRight, Nat.testBit_mod_two_pow, reduceTestBit, uint8_testBit_ge,
    -Nat.testBit_zero, -Nat.reducePow, *]))

/-- `poly_tobytes_native` for the x86_64 backend. -/
theorem poly_tobytes_native_spec {a : Model.Poly} {f : Nat → Nat} (ha : Holds a 256 (fun i => (f (cust i) : Int))) (hf : ∀ i, i < 256 → f i < 4096)
    {r : Buf UInt8} {ro : Nat} (hr : ro + 384 ≤ r.size) (g : Nat → Ymm) :
    Post (poly_tobytes_native g r ro a) (fun r' => Written r r' ro 384 (encByte 12 f)) := by
  have hc := tobytes_chk
  unfold tobytesChk at hc
  split at hc
  · cases hc
  rename_i res hres
  unfold poly_tobytes_native
  simp only [wp_bind, wp_pure]
  refine window_wp hr fun w hw _ => ?_
  let e : Nat → Int := fun i => f (cust i)
  refine PostF.mono (arun_sound (Val := fun i => (e i : Zq)) (e := e) (noTags_sound _) (Rel.init (fun q => ?_) (fun q => ?_)) hres) fun s' ⟨e', hx, hr', _, hsz⟩ => ?_
  · cases q with
    | rsi =>
      refine RelW.memOf (by rw [ha.1]) fun i hi => ⟨⟨hi, Nat.le_refl _, ?_, ?_, ?_, rfl⟩, ha.2 i hi⟩
      all_goals have := hf _ (cust_lt hi); simp only [e]; omega
    | rdx => exact RelW.table
    | _ => exact RelW.nil _
  · cases q with
    | rdi => exact RelB.memNone (by rw [hw])
    | _ => exact RelB.nil _
  have hsz' : (s'.b .rdi).size = 384 := by rw [hsz]; exact hw
  refine putBack_written hr ⟨hsz', fun k hk => ?_⟩
  have he : ∀ i, i < 256 → e' i = f (cust i) := fun i hi => hx.2 i hi
  have hf' : ∀ i, i < 256 → ∀ t, 12 ≤ t → (f i).testBit t = false := fun i hi t ht => testBit_of_lt (n := 12) (hf i hi) ht
  obtain ⟨m, c, hc', rfl⟩ : ∃ m c, c < 6 ∧ k = 6 * m + c := ⟨k / 6, k % 6, by omega, by omega⟩
  have hm : m < 64 := by omega
  obtain ⟨w0, w1, w2⟩ := tb_word he hf hm
  have b1 := hf' (4 * m + 1) (by omega)
  have b0 := hf' (4 * m) (by omega)
  have b2 := hf' (4 * m + 2) (by omega)
  have b3 := hf' (4 * m + 3) (by omega)
  obtain ⟨x, hx0, -, u, v, hu, hv, hxe⟩ := hr'.outB (p := .rdi) hc (i := 3 * m + c / 2) (by omega)
  have hx0 := of_decide_eq_true hx0
  subst hx0
  interval_cases c
  all_goals simp only [Nat.reduceDiv, Nat.add_zero] at hu hv hxe
  · obtain ⟨rfl, rfl⟩ := bytes_of_word hxe w0
    rw [show 6 * m + 0 = 2 * (3 * m) by omega, hu, show 2 * (3 * m) = 6 * m + 0 by omega]
    exact congrArg _ (congrArg _ (toU8_encByte (m := 4) (c := 0) (by omega) rfl (by pack_words)))
  · obtain ⟨rfl, rfl⟩ := bytes_of_word hxe w0
    rw [show 6 * m + 1 = 2 * (3 * m) + 1 by omega, hv, show 2 * (3 * m) + 1 = 6 * m + 1 by omega]
    exact congrArg _ (congrArg _ (toU8_encByte (m := 4) (c := 1) (by omega) rfl (by pack_words)))
  · obtain ⟨rfl, rfl⟩ := bytes_of_word hxe w1
    rw [show 6 * m + 2 = 2 * (3 * m + 1) by omega, hu, show 2 * (3 * m + 1) = 6 * m + 2 by omega]
    exact congrArg _ (congrArg _ (toU8_encByte (m := 4) (c := 2) (by omega) rfl (by pack_words)))
  · obtain ⟨rfl, rfl⟩ := bytes_of_word hxe w1
    rw [show 6 * m + 3 = 2 * (3 * m + 1) + 1 by omega, hv, show 2 * (3 * m + 1) + 1 = 6 * m + 3 by omega]
    exact congrArg _ (congrArg _ (toU8_encByte (m := 4) (c := 3) (by omega) rfl (by pack_words)))
  · obtain ⟨rfl, rfl⟩ := bytes_of_word hxe w2
    rw [show 6 * m + 4 = 2 * (3 * m + 2) by omega, hu, show 2 * (3 * m + 2) = 6 * m + 4 by omega]
    exact congrArg _ (congrArg _ (toU8_encByte (m := 4) (c := 4) (by omega) rfl (by pack_words)))
  · obtain ⟨rfl, rfl⟩ := bytes_of_word hxe w2
    rw [show 6 * m + 5 = 2 * (3 * m + 2) + 1 by omega, hv, show 2 * (3 * m + 2) + 1 = 6 * m + 5 by omega]
    exact congrArg _ (congrArg _ (toU8_encByte (m := 4) (c := 5) (by omega) rfl (by pack_words)))

/-! ## `poly_frombytes_native` -/

/-- Coefficient `n` of the deserialised polynomial. -/
def fbE (n : Nat) : E :=
  if n % 4 = 0 then .band (vv (3 * (n / 4))) (.c 4095)
  else if n % 4 = 1 then .band (.bor (.sll 4 (vv (3 * (n / 4) + 1))) (.srl 12 (vv (3 * (n / 4))))) (.c 4095)
  else if n % 4 = 2 then .band (.bor (.sll 8 (vv (3 * (n / 4) + 2))) (.srl 8 (vv (3 * (n / 4) + 1)))) (.c 4095)
  else .band (.srl 4 (vv (3 * (n / 4) + 2))) (.c 4095)

/-- Run the deserialisation and check its result. -/
noncomputable def frombytesChk : Bool :=
  match arun noTags nttfrombytes_avx2 192 regs0 [memNone 16, [], qvec] [[], memOf vv 0 12] with
  | none => false
  | some r => chkM (fun p x => decide (x = fbE (cust p))) 16 0 (mth r.W 0)

theorem frombytes_chk : frombytesChk = true := by decide +kernel

theorem fbE_eval {e : Nat → Int} {B : Nat → UInt8} (he : ∀ w, w < 192 → e w = s16 ((B (2 * w)).toNat + 256 * (B (2 * w + 1)).toNat)) {n : Nat} (hn : n < 256) :
    (fbE n).eval e = (decNum 12 B n : Int) := by
  have hw : ∀ w, w < 192 → u16 (e w) = (B (2 * w + 1)).toNat <<< 8 ||| (B (2 * w)).toNat := fun w hw => by
    rw [he w hw, ← Nat.shiftLeft_add_eq_or_of_lt (by exact UInt8.toNat_lt _), Nat.shiftLeft_eq]
    have := UInt8.toNat_lt (B (2 * w))
    have := UInt8.toNat_lt (B (2 * w + 1))
    unfold u16 s16; omega
  have hs : ∀ x : Nat, s16 ((x &&& 4095 : Nat) : Int) = ((x &&& 4095 : Nat) : Int) := fun x => by
    have : x &&& 4095 ≤ 4095 := Nat.and_le_right
    exact s16_id (by omega) (by omega)
  have hl : ∀ x : Nat, x &&& 4095 < 2 ^ 12 := fun x => lt_of_le_of_lt Nat.and_le_right (by norm_num)
  have h4 : u16 4095 = 4095 := by decide
  obtain ⟨m, c, hc, rfl⟩ : ∃ m c, c < 4 ∧ n = 4 * m + c := ⟨n / 4, n % 4, by omega, by omega⟩
  have hm : m < 64 := by omega
  unfold fbE
  rw [show (4 * m + c) % 4 = c by omega, show (4 * m + c) / 4 = m by omega]
  interval_cases c
  · rw [if_pos rfl]
    simp only [E.eval, vv]
    rw [hw _ (by omega), h4, hs]
    exact congrArg _ (eq_decNum (m := 4) (s := 6) rfl (hl _) (by
      rw [show 2 * (3 * m) = 6 * m by omega]; pack_words))
  · rw [if_neg (by omega), if_pos rfl]
    simp only [E.eval, vv]
    rw [u16_s16, u16_s16, u16_s16, hw _ (by omega), hw _ (by omega), h4, hs, ← Nat.shiftLeft_eq, ← Nat.shiftRight_eq_div_pow]
    exact congrArg _ (eq_decNum (m := 4) (s := 6) rfl (hl _) (by
      rw [show 2 * (3 * m) = 6 * m by omega, show 2 * (3 * m + 1) = 6 * m + 2 by omega, show 6 * m + 2 + 1 = 6 * m + 3 by omega]; pack_words))
  · rw [if_neg (by omega), if_neg (by omega), if_pos rfl]
    simp only [E.eval, vv]
    rw [u16_s16, u16_s16, u16_s16, hw _ (by omega), hw _ (by omega), h4, hs, ← Nat.shiftLeft_eq, ← Nat.shiftRight_eq_div_pow]
    exact congrArg _ (eq_decNum (m := 4) (s := 6) rfl (hl _) (by
      rw [show 2 * (3 * m + 2) = 6 * m + 4 by omega, show 2 * (3 * m + 1) = 6 * m + 2 by omega, show 6 * m + 2 + 1 = 6 * m + 3 by omega, show 6 * m + 4 + 1 = 6 * m + 5 by omega]; pack_words))
  · rw [if_neg (by omega), if_neg (by omega), if_neg (by omega)]
    simp only [E.eval, vv]
    rw [u16_s16, hw _ (by omega), h4, hs, ← Nat.shiftRight_eq_div_pow]
    exact congrArg _ (eq_decNum (m := 4) (s := 6) rfl (hl _) (by
      rw [show 2 * (3 * m + 2) = 6 * m + 4 by omega, show 6 * m + 4 + 1 = 6 * m + 5 by omega]; pack_words))

/-- `poly_frombytes_native` for the x86_64 backend. -/
theorem poly_frombytes_native_spec {a : Buf UInt8} {ao : Nat} {B : Nat → UInt8} (ha : Seg a ao 384 B) (hao : ao + 384 ≤ a.size) {r : Model.Poly} (hr : r.size = 256) (g : Nat → Ymm) :
    Post (poly_frombytes_native g r a ao) (fun r' => Holds r' 256 (fun i => (decNum 12 B (cust i) : Int))) := by
  have hc := frombytes_chk
  unfold frombytesChk at hc
  split at hc
  · cases hc
  rename_i res hres
  unfold poly_frombytes_native
  simp only [wp_bind, wp_pure]
  refine window_wp hao fun w hw hwa => ?_
  let e : Nat → Int := fun w => s16 ((B (2 * w)).toNat + 256 * (B (2 * w + 1)).toNat)
  refine PostF.mono (arun_sound (Val := fun i => (e i : Zq)) (e := e) (noTags_sound _) (Rel.init (fun q => ?_) (fun q => ?_)) hres) fun s' ⟨e', hx, hr', hsz, _⟩ => ?_
  · cases q with
    | rdi => exact RelW.memNone (by rw [hr])
    | rdx => exact RelW.table
    | _ => exact RelW.nil _
  · cases q with
    | rsi =>
      refine RelB.memOf (by rw [hw]) fun i hi => ⟨⟨hi, Nat.le_refl _, ?_, ?_, ?_, rfl⟩, B (2 * i), B (2 * i + 1), ?_, ?_, rfl⟩
      any_goals have := s16_bounds ((B (2 * i)).toNat + 256 * (B (2 * i + 1)).toNat : Int); simp only [e]; omega
      · rw [hwa _ (by omega)]; exact ha _ (by omega)
      · rw [hwa _ (by omega)]; exact ha _ (by omega)
    | _ => exact RelB.nil _
  refine ⟨by rw [hsz]; exact hr, fun i hi => ?_⟩
  obtain ⟨x, h1, -, h3⟩ := hr'.out (p := .rdi) hc (i := i) hi
  have h1 := of_decide_eq_true h1
  rw [h3, h1, fbE_eval (fun w hw => hx.2 w hw) (cust_lt hi)]

/-! ## Accumulated products -/

theorem poly_add_avx2_spec {r b : Model.Poly} {f g : Nat → Int} (hr : Holds r 256 f) (hb : Holds b 256 g) (h : ∀ n, n < 256 → -32768 ≤ f n + g n ∧ f n + g n ≤ 32767) :
    Post (poly_add_avx2 r b) (fun r' => Holds r' 256 fun n => f n + g n) := by
  unfold poly_add_avx2
  refine wp_forN (fun i r' => Written r r' 0 (16 * i) fun n => f n + g n) (Written.refl _ _ _) ?_ (fun r' h => Written.holds h hr.1)
  intro i r' hi hI
  simp only [lda, sta, if_pos (show 16 * i % 16 = 0 by omega), wp_bind]
  refine PostF.mono (ldw_spec (f := fun k => f (16 * i + k)) fun k hk => ?_) fun v0 h0 => ?_
  · rw [hI.2.2 _ (by omega)]; exact hr.2 _ (by omega)
  refine PostF.mono (ldw_spec (f := fun k => g (16 * i + k)) fun k hk => hb.2 _ (by omega)) fun v1 h1 => ?_
  refine PostF.mono (stw_spec (by rw [hI.1, hr.1]; omega)) fun r'' ⟨k1, k2, k3⟩ => ?_
  refine ⟨k1.trans hI.1, fun n hn => ?_, fun j hj => ?_⟩
  · by_cases hlt : n < 16 * i
    · rw [k3 _ (by omega)]; exact hI.2.1 n hlt
    · have := k2 (n - 16 * i) (by omega)
      rw [show 16 * i + (n - 16 * i) = 0 + n by omega] at this
      rw [this, h0 _ (by omega), h1 _ (by omega)]
      simp only
      have hn' := h n (by omega)
      rw [show 16 * i + (n - 16 * i) = n by omega, s16_id (by omega) (by omega)]
  · rw [k3 _ (by omega)]; exact hI.2.2 j (by omega)

/-- `polyvec_basemul_acc_montgomery_cached` for the x86_64 backend. -/
theorem polyvec_basemul_acc_native_spec {K : Nat} (hK : 1 ≤ K ∧ K ≤ 4) {r : Model.Poly} {a b c : PolyVec} {fa fb : Nat → Nat → Int}
    (ha : VHolds a K 256 fun i n => fa i (cust n)) (hb : VHolds b K 256 fun i n => fb i (cust n))
    (hfa : ∀ i n, i < K → n < 256 → -3329 < fa i n ∧ fa i n < 3329) (hfb : ∀ i n, i < K → n < 256 → -26632 < fb i n ∧ fb i n < 26632)
    (hr : r.size = 256) (g : Nat → Nat → Ymm) :
    Post (Model.X86.polyvec_basemul_acc_montgomery_cached K g r a b c) (fun r' => ∃ v : Nat → Int, Holds r' 256 (fun n => v (cust n)) ∧ ∀ n, n < 256 → (-24128 ≤ v n ∧ v n ≤ 24128) ∧
      (v n : Zq) = 169 * ∑ j ∈ range K, MultiplyNTTs (fun n => (fa j n : Zq)) (fun n => (fb j n : Zq)) n) := by
  unfold Model.X86.polyvec_basemul_acc_montgomery_cached polyvec_basemul_acc_montgomery_cached_avx2
  simp only [wp_bind, wp_vget, wp_pure]
  refine POLYVEC_BOUND_wp ha (fun i n hi hn => by have := hfa i _ hi (cust_lt hn); push_cast; exact this) ?_
  refine POLYVEC_BOUND_wp hb (fun i n hi hn => by have := hfb i _ hi (cust_lt hn); simp only [NTT_BOUND, MLKEM_Q]; push_cast; omega) ?_
  obtain ⟨a0, ha0, hha⟩ := ha.get (i := 0) (by omega)
  obtain ⟨b0, hb0, hhb⟩ := hb.get (i := 0) (by omega)
  refine ⟨a0, ha0, b0, hb0, ?_⟩
  refine Post.use (poly_basemul_montgomery_avx2_spec hr hha hhb (fun n hn => hfa 0 n (by omega) hn) (fun n hn => hfb 0 n (by omega) hn) (g 0)) fun r0 ⟨v0, hr0, hv0⟩ => ?_
  refine wp_forFrom (fun i (s : Model.Poly × Model.Poly) => (∃ v, Holds s.1 256 v ∧ ∀ n, n < 256 → (-(6032 * i : Int) ≤ v n ∧ v n ≤ 6032 * i) ∧
    (v n : Zq) = 169 * ∑ j ∈ range i, MultiplyNTTs (fun n => (fa j n : Zq)) (fun n => (fb j n : Zq)) (cust n)) ∧ s.2.size = 256) ?_ ?_ ?_
  · refine ⟨⟨v0, hr0, fun n hn => ⟨by have := (hv0 n hn).1; push_cast; omega, ?_⟩⟩, by simp [newPoly]⟩
    rw [(hv0 n hn).2]; simp
  · rintro i ⟨r', t⟩ h1 h2 ⟨⟨v, hv, hvb⟩, ht⟩
    simp only [wp_bind, wp_vget, wp_pure]
    have hi : i < K := by omega
    obtain ⟨ai, hai, hha⟩ := ha.get hi
    obtain ⟨bi, hbi, hhb⟩ := hb.get hi
    refine ⟨ai, hai, bi, hbi, ?_⟩
    refine Post.use (poly_basemul_montgomery_avx2_spec ht hha hhb (fun n hn => hfa i n hi hn) (fun n hn => hfb i n hi hn) (g i)) fun t' ⟨u, htu, hu⟩ => ?_
    refine Post.use (poly_add_avx2_spec hv htu fun n hn => ?_) fun r'' hr'' => ⟨⟨_, hr'', fun n hn => ⟨?_, ?_⟩⟩, htu.1⟩
    · have := (hvb n hn).1
      have := (hu n hn).1
      omega
    · have := (hvb n hn).1
      have := (hu n hn).1
      push_cast; omega
    · push_cast
      rw [(hvb n hn).2, (hu n hn).2, Finset.sum_range_succ]; ring
  · rintro ⟨r', t⟩ ⟨⟨v, hv, hvb⟩, -⟩
    rw [show 1 + (K - 1) = K by omega] at hvb
    refine ⟨fun n => v (custInv n), hv.congr fun n hn => congrArg v (custInv_cust hn).symm, fun n hn => ?_⟩
    have h1 := hvb _ (custInv_lt hn)
    rw [cust_custInv hn] at h1
    exact ⟨by have := h1.1; beta_reduce; omega, h1.2⟩

/-! ## The native branches -/

/-- `poly_ntt`, x86_64 backend. -/
theorem poly_ntt_spec {p : Model.Poly} {f : Nat → Int} (h : Holds p 256 f) (hf : ∀ n, n < 256 → -3329 < f n ∧ f n < 3329) (g : Nat → Ymm) :
    Post (Model.X86.poly_ntt g p) (fun p' => ∃ v : Nat → Int, Holds p' 256 (fun n => v (cust n)) ∧ ∀ n, n < 256 → (-26632 < v n ∧ v n < 26632) ∧ (v n : Zq) = NTT (fun i => (f i : Zq)) n) := by
  unfold Model.X86.poly_ntt
  simp only [wp_bind, wp_pure]
  refine POLY_BOUND_wp h (fun n hn => hf n hn) ?_
  refine Post.use (ntt_native_spec h hf g) fun p' ⟨v, hv, hv1, hv2⟩ => ?_
  have hvb := fun n hn => And.intro (hv1 n hn) (hv2 n hn)
  refine POLY_BOUND_wp hv (fun n hn => by have := (hvb n hn).1; unfold NATIVE_BOUND; push_cast; omega) ?_
  refine ⟨fun n => v (custInv n), hv.congr fun n hn => congrArg v (custInv_cust hn).symm, fun n hn => ?_⟩
  have h1 := hvb _ (custInv_lt hn)
  rw [cust_custInv hn] at h1
  exact h1

/-- `poly_invntt_tomont`, x86_64 backend. -/
theorem poly_invntt_tomont_spec {p : Model.Poly} {f : Nat → Int} (h : Holds p 256 fun n => f (cust n)) (hf : ∀ n, n < 256 → -32768 ≤ f n ∧ f n ≤ 32767) (g : Nat → Ymm) :
    Post (Model.X86.poly_invntt_tomont g p) (fun p' => ∃ v, Holds p' 256 v ∧ ∀ n, n < 256 → (-26632 < v n ∧ v n < 26632) ∧ (v n : Zq) = 65536 * NTTInv (fun i => (f i : Zq)) n) := by
  unfold Model.X86.poly_invntt_tomont
  simp only [wp_bind, wp_pure]
  refine Post.use (intt_native_spec h hf g) fun p' ⟨v, hv, hv1, hv2⟩ => ?_
  have hvb := fun n hn => And.intro (hv1 n hn) (hv2 n hn)
  exact POLY_BOUND_wp hv (fun n hn => by have := (hvb n hn).1; unfold NATIVE_BOUND; push_cast; omega) ⟨v, hv, hvb⟩

/-- `poly_reduce`, x86_64 backend. -/
theorem poly_reduce_spec {p : Model.Poly} {f : Nat → Int} (h : Holds p 256 f) (hf : ∀ i, i < 256 → -32768 ≤ f i ∧ f i ≤ 32767) (g : Nat → Ymm) :
    Post (Model.X86.poly_reduce g p) (fun p' => Holds p' 256 fun i => f i % 3329) := by
  unfold Model.X86.poly_reduce
  simp only [wp_bind, wp_pure]
  refine Post.use (poly_reduce_native_spec h hf g) fun p' hp' => ?_
  exact POLY_UBOUND_wp hp' (fun n hn => by push_cast; omega) hp'

/-- `poly_tomont`, x86_64 backend. -/
theorem poly_tomont_spec {p : Model.Poly} {f : Nat → Int} (h : Holds p 256 f) (hf : ∀ i, i < 256 → -32768 ≤ f i ∧ f i ≤ 32767) (g : Nat → Ymm) :
    Post (Model.X86.poly_tomont g p) (fun p' => Holds p' 256 fun i => montR (f i * 1353)) := by
  unfold Model.X86.poly_tomont
  simp only [wp_bind, wp_pure]
  refine Post.use (poly_tomont_native_spec h hf g) fun p' hp' => ?_
  refine POLY_BOUND_wp hp' (fun n hn => ?_) hp'
  have := hf n hn
  have := mont_bound (a := f n) (z := 1353) this.1 this.2 (by omega) (by omega)
  push_cast; omega

/-- `poly_tobytes`, x86_64 backend. -/
theorem poly_tobytes_spec {a : Model.Poly} {f : Nat → Nat} (ha : Holds a 256 (fun i => (f (cust i) : Int))) (hf : ∀ i, i < 256 → f i < 3329)
    {r : Buf UInt8} {ro : Nat} (hr : ro + 384 ≤ r.size) (g : Nat → Ymm) :
    Post (Model.X86.poly_tobytes g r ro a) (fun r' => Written r r' ro 384 (encByte 12 f)) := by
  unfold Model.X86.poly_tobytes
  simp only [wp_bind]
  refine POLY_UBOUND_wp ha (fun i hi => by have := hf _ (cust_lt hi); omega) ?_
  exact poly_tobytes_native_spec ha (fun i hi => by have := hf i hi; omega) hr g

end Verif.X86

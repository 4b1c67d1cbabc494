import Verif.Proof.AesEcb
import Verif.Model.NistRng
import Verif.Spec.Drbg
import Mathlib.Tactic.Ring
/-! # The generator of known-answer tests -/
namespace Verif.NistRng
open Verif Verif.Model Verif.Model.Aes Verif.Model.NistRng Verif.Spec Verif.Aes

/-- The big-endian value of the first `n` bytes. -/
def bval (f : Nat → UInt8) : Nat → Nat
  | 0 => 0
  | n + 1 => 256 * bval f n + (f n).toNat

theorem bval_beNat (f : Nat → UInt8) : ∀ n, beNat ((List.range n).map f) = bval f n
  | 0 => rfl
  | n + 1 => by
    rw [bval, ← bval_beNat f n, List.range_succ, List.map_append]
    simp [beNat]

theorem bval_congr {f g : Nat → UInt8} : ∀ {n}, (∀ i, i < n → f i = g i) → bval f n = bval g n
  | 0, _ => rfl
  | n + 1, h => by rw [bval, bval, bval_congr (fun i hi => h i (by omega)), h n (by omega)]

theorem bval_digit (f : Nat → UInt8) : ∀ n i, i < n → bval f n / 256 ^ (n - 1 - i) % 256 = (f i).toNat
  | 0, i, h => by omega
  | n + 1, i, h => by
    have hb : (f n).toNat < 256 := (f n).toNat_lt
    rw [bval]
    by_cases e : i = n
    · subst e
      rw [show i + 1 - 1 - i = 0 by omega, Nat.pow_zero, Nat.div_one]
      omega
    · rw [show n + 1 - 1 - i = (n - 1 - i) + 1 by omega, Nat.pow_succ, Nat.mul_comm (256 ^ _) 256, ← Nat.div_div_eq_div_mul, show (256 * bval f n + (f n).toNat) / 256 = bval f n by omega]
      exact bval_digit f n i (by omega)

theorem bval_upd (f : Nat → UInt8) (j : Nat) (v : UInt8) : ∀ n, j < n → bval (upd f j v) n + (f j).toNat * 256 ^ (n - 1 - j) = bval f n + v.toNat * 256 ^ (n - 1 - j)
  | 0, h => by omega
  | n + 1, h => by
    rw [bval, bval]
    by_cases e : j = n
    · subst e
      rw [upd_same, show j + 1 - 1 - j = 0 by omega, bval_congr (g := f) fun i hi => upd_ne (by omega)]
      simp; omega
    · rw [upd_ne (by omega), show n + 1 - 1 - j = (n - 1 - j) + 1 by omega, Nat.pow_succ]
      have := bval_upd f j v n (by omega)
      have e2 : ∀ a b : Nat, a * (b * 256) = 256 * (a * b) := fun a b => by ring
      rw [e2, e2]
      omega

theorem incLoop_spec : ∀ j, j ≤ 16 → ∀ {ctr : Buf UInt8} {g : Nat → UInt8}, Holds ctr 16 g →
    Post (incLoop j ctr) (fun c => ∃ g', Holds c 16 g' ∧ bval g' 16 % 256 ^ 16 = (bval g 16 + 256 ^ (16 - j)) % 256 ^ 16)
  | 0, _, ctr, g, h => by
    unfold incLoop
    simp only [wp_bind, wp_emit, wp_pure]
    exact ⟨g, h, by simp⟩
  | j + 1, hj, ctr, g, h => by
    unfold incLoop
    simp only [wp_bind, wp_emit, wp_rd, wp_wr, wp_branch, wp_pure]
    have h' := h.set (show j < 16 by omega) (g j + 1)
    have hget := h'.2 j (by omega)
    rw [upd_same] at hget
    have hu := bval_upd g j (g j + 1) 16 (by omega)
    have hlt : (g j).toNat < 256 := (g j).toNat_lt
    have e1 : 16 - (j + 1) = 16 - 1 - j := by omega
    refine ⟨_, h.2 j (by omega), by rw [h.1]; omega, _, hget, fun hc => ?_, fun hc => ?_⟩
    · refine ⟨_, h', ?_⟩
      have hc : g j + 1 ≠ 0 := by simpa using hc
      have : (g j + 1).toNat = (g j).toNat + 1 := by
        rw [UInt8.toNat_add]
        have : (g j).toNat ≠ 255 := fun e => hc (by apply UInt8.toNat_inj.mp; rw [UInt8.toNat_add, e]; rfl)
        simp; omega
      rw [this, Nat.add_mul] at hu
      rw [e1]
      congr 1
      omega
    · have hc : g j + 1 = 0 := by simpa using hc
      have h255 : (g j).toNat = 255 := by
        have := congrArg UInt8.toNat hc
        rw [UInt8.toNat_add] at this
        simp at this; omega
      refine PostF.mono (incLoop_spec j (by omega) h') fun c ⟨g', hg', hv⟩ => ⟨g', hg', ?_⟩
      rw [hv, e1]
      rw [hc, h255] at hu
      rw [hc, show 16 - j = 16 - 1 - j + 1 by omega, Nat.pow_succ]
      congr 1
      simp at hu ⊢
      omega

theorem beBytes_getD (n : Nat) {i : Nat} (hi : i < 16) : (beBytes n).getD i 0 = UInt8.ofNat (n / 256 ^ (15 - i)) := by
  unfold beBytes; simp [hi]

theorem beBytes_length (n : Nat) : (beBytes n).length = 16 := by simp [beBytes]

theorem digit_mod (a k : Nat) (hk : k < 16) : a % 256 ^ 16 / 256 ^ k % 256 = a / 256 ^ k % 256 := by
  rw [show (256 : Nat) ^ 16 = 256 ^ k * 256 ^ (16 - k) by rw [← Nat.pow_add]; congr 1; omega, Nat.mod_mul_right_div_self,
    Nat.mod_mod_of_dvd _ (Dvd.intro (256 ^ (15 - k)) (by rw [show 16 - k = (15 - k) + 1 by omega, Nat.pow_succ, Nat.mul_comm]))]

/-- Bytes with a given value modulo `2^128`. -/
theorem digits_of {g : Nat → UInt8} {m : Nat} (h : bval g 16 % 256 ^ 16 = m % 256 ^ 16) : ∀ i, i < 16 → g i = (beBytes m).getD i 0 := by
  intro i hi
  rw [beBytes_getD m hi]
  apply UInt8.toNat_inj.mp
  rw [← bval_digit g 16 i hi, UInt8.toNat_ofNat', show 16 - 1 - i = 15 - i by omega, ← digit_mod _ _ (show 15 - i < 16 by omega), h, digit_mod _ _ (by omega)]

theorem list_eq_of_getD {a b : List UInt8} {n : Nat} (ha : a.length = n) (hb : b.length = n) (h : ∀ i, i < n → a.getD i 0 = b.getD i 0) : a = b := by
  apply List.ext_getElem (ha.trans hb.symm)
  intro i h1 h2
  have := h i (by omega)
  rwa [List.getD_eq_getElem _ _ h1, List.getD_eq_getElem _ _ h2] at this

theorem list_as_map {a : List UInt8} {n : Nat} (ha : a.length = n) : a = (List.range n).map fun i => a.getD i 0 :=
  list_eq_of_getD ha (by simp) fun i hi => by simp [hi]

theorem beNat_beBytes (n : Nat) : beNat (beBytes n) % 256 ^ 16 = n % 256 ^ 16 := by
  rw [list_as_map (beBytes_length n), bval_beNat]
  -- every digit agrees
  have key : ∀ k, k ≤ 16 → bval (fun i => (beBytes n).getD i 0) k = n / 256 ^ (16 - k) % 256 ^ k := by
    intro k
    induction k with
    | zero => intro _; simp [bval, Nat.mod_one]
    | succ k ih =>
      intro hk
      rw [bval, ih (by omega), beBytes_getD n (by omega), UInt8.toNat_ofNat', show 16 - k = (15 - k) + 1 by omega, show 16 - (k + 1) = 15 - k by omega, show 256 ^ (15 - k + 1) = 256 ^ (15 - k) * 256 from Nat.pow_succ .., ← Nat.div_div_eq_div_mul]
      generalize n / 256 ^ (15 - k) = x
      rw [show 256 ^ (k + 1) = 256 * 256 ^ k by rw [Nat.pow_succ, Nat.mul_comm], Nat.mod_mul, show (2 : Nat) ^ 8 = 256 from rfl]
      omega
  rw [key 16 (by omega)]
  simp

theorem incV_incV (V : List UInt8) (a b : Nat) : incV (incV V a) b = incV V (a + b) := by
  unfold incV
  refine list_eq_of_getD (beBytes_length _) (beBytes_length _) fun i hi => ?_
  rw [beBytes_getD _ hi, beBytes_getD _ hi]
  apply UInt8.toNat_inj.mp
  rw [UInt8.toNat_ofNat', UInt8.toNat_ofNat']
  show _ % 256 = _ % 256
  rw [← digit_mod _ _ (show 15 - i < 16 by omega), ← digit_mod (beNat V + (a + b)) _ (show 15 - i < 16 by omega)]
  rw [Nat.add_mod, beNat_beBytes, ← Nat.add_mod, Nat.add_assoc]

theorem incV_zero {V : List UInt8} (h : V.length = 16) : incV V 0 = V := by
  unfold incV
  refine list_eq_of_getD (beBytes_length _) h fun i hi => ?_
  have e : beNat V = bval (fun i => V.getD i 0) 16 := by
    conv_lhs => rw [list_as_map h]
    exact bval_beNat _ _
  exact (digits_of (g := fun i => V.getD i 0) (m := beNat V + 0) (by rw [e, Nat.add_zero]) i hi).symm

/-- The static variable holds a state of the generator. -/
def CtxOk (c : Ctx) (s : DrbgState) : Prop := (Holds c.key 32 fun i => s.key.getD i 0) ∧ (Holds c.ctr 16 fun i => s.v.getD i 0) ∧ s.key.length = 32 ∧ s.v.length = 16

/-- The local array holds something. -/
def Filled (stk : Buf UInt8 → Buf UInt8 → Buf W32) : Prop := ∀ k c, ∃ F, Holds (stk k c) 16 F

theorem block_spec {stk : Buf UInt8 → Buf UInt8 → Buf W32} (hst : Filled stk) {c : Ctx} {s : DrbgState} (hc : CtxOk c s) {block : Buf UInt8} {bo : Nat} (hb : bo + 16 ≤ block.size) :
    Post (aes256_block_update stk c block bo) (fun r => CtxOk r.1 ⟨s.key, incV s.v 1⟩ ∧ Written block r.2 bo 16 fun m => (AES 8 s.key (incV s.v 1)).getD m 0) := by
  obtain ⟨hk, hv, lk, lv⟩ := hc
  unfold aes256_block_update
  rw [show Post _ _ = PostF False _ _ from rfl, wp_bind]
  refine PostF.mono (incLoop_spec 16 (le_refl _) hv) fun ctr ⟨g, hg, hval⟩ => ?_
  have e : beNat s.v = bval (fun i => s.v.getD i 0) 16 := by
    conv_lhs => rw [list_as_map lv]
    exact bval_beNat _ _
  rw [← e] at hval
  have hd : ∀ i, i < 16 → g i = (incV s.v 1).getD i 0 := digits_of (m := beNat s.v + 1) (by simpa using hval)
  have hg := hg.congr hd
  rw [wp_bind]
  unfold aes256_ecb_block
  rw [wp_bind]
  refine PostF.mono (aes256_keyexp_spec hk.seg) fun sk hsk => ?_
  obtain ⟨F, hF⟩ := hst c.key ctr
  refine PostF.mono (ecb_spec (Nk := 8) (n := 1) hsk hF hg.seg hb) fun b hb' => ?_
  rw [wp_pure]
  refine ⟨⟨hk, hg, lk, beBytes_length _⟩, hb'.congr fun m hm => ?_⟩
  rw [show m / 16 = 0 by omega, show m % 16 = m by omega]
  have : blockOf (fun i => (incV s.v 1).getD i 0) 0 = incV s.v 1 := list_eq_of_getD (by simp [blockOf]) (beBytes_length _) fun i hi => by
    rw [blockOf_getD _ _ hi]; simp
  rw [this]

theorem flat_length {α : Type} (g : Nat → List α) (h : ∀ i, (g i).length = 16) : ∀ n, ((List.range n).flatMap g).length = 16 * n
  | 0 => rfl
  | n + 1 => by rw [List.range_succ, List.flatMap_append, List.length_append, flat_length g h n]; simp [h]; omega

theorem flat_getD {α : Type} (g : Nat → List α) (h : ∀ i, (g i).length = 16) (z : α) : ∀ n m, m < 16 * n → ((List.range n).flatMap g).getD m z = (g (m / 16)).getD (m % 16) z
  | 0, m, hm => by omega
  | n + 1, m, hm => by
    rw [List.range_succ, List.flatMap_append]
    by_cases e : m < 16 * n
    · rw [List.getD_append _ _ _ _ (by rw [flat_length g h]; exact e)]
      exact flat_getD g h z n m e
    · rw [List.getD_append_right _ _ _ _ (by rw [flat_length g h]; omega), flat_length g h, show m - 16 * n = m % 16 by omega, show m / 16 = n by omega]
      simp

theorem ks_length (s : DrbgState) (n : Nat) : (keyStream s n).length = 16 * n := flat_length _ (fun _ => AES_length _ _ _) n

theorem ks_getD (s : DrbgState) {n m : Nat} (h : m < 16 * n) : (keyStream s n).getD m 0 = (AES 8 s.key (incV s.v (m / 16 + 1))).getD (m % 16) 0 :=
  flat_getD _ (fun _ => AES_length _ _ _) 0 n m h

theorem xor_getD {a b : List UInt8} {n : Nat} (ha : a.length = n) (hb : b.length = n) {i : Nat} (hi : i < n) : (xorBytes a b).getD i 0 = a.getD i 0 ^^^ b.getD i 0 := by
  unfold xorBytes
  rw [List.getD_eq_getElem _ _ (by simp; omega), List.getElem_zipWith, List.getD_eq_getElem _ _ (by omega), List.getD_eq_getElem _ _ (by omega)]

theorem xor_length {a b : List UInt8} {n : Nat} (ha : a.length = n) (hb : b.length = n) : (xorBytes a b).length = n := by simp [xorBytes, ha, hb]

theorem take_getD (l : List UInt8) {n i : Nat} (h : i < n) : (l.take n).getD i 0 = l.getD i 0 := by simp [List.getD_eq_getElem?_getD, h]
theorem drop_getD (l : List UInt8) (n i : Nat) : (l.drop n).getD i 0 = l.getD (n + i) 0 := by simp [List.getD_eq_getElem?_getD]

theorem zeros_getD (n i : Nat) : (List.replicate n (0 : UInt8)).getD i 0 = 0 := by
  rw [List.getD_eq_getElem?_getD, List.getElem?_replicate]
  split <;> rfl

theorem xorLoop_spec {n : Nat} {t d : Buf UInt8} {a b : Nat → UInt8} (ht : Holds t n a) (hd : Seg d 0 n b) :
    Post (forN n t fun i tmp => do
        let a ← rd tmp i
        let b ← rd d i
        wr tmp i (a ^^^ b)) (fun t' => Holds t' n fun i => a i ^^^ b i) := by
  refine wp_forN (fun i t' => Holds t' n fun m => if m < i then a m ^^^ b m else a m) (ht.congr fun i _ => by simp) ?_ fun t' h => h.congr fun i hi => by simp [hi]
  intro i t' hi h
  simp only [wp_bind, wp_rd, wp_wr]
  have hg := hd i hi
  rw [Nat.zero_add] at hg
  refine ⟨_, h.2 i hi, _, hg, by rw [h.1]; exact hi, (h.set hi _).congr fun m hm => ?_⟩
  by_cases e : m = i
  · subst e; simp
  · rw [upd_ne e]
    by_cases h2 : m < i
    · simp [h2, show m < i + 1 by omega]
    · simp [h2, show ¬ m < i + 1 by omega]

theorem update_spec {stk : Buf UInt8 → Buf UInt8 → Buf W32} (hst : Filled stk) {c : Ctx} {s : DrbgState} (hc : CtxOk c s) {prov : Option (Buf UInt8)} {p : List UInt8} (hp : p.length = 48)
    (hprov : match prov with | some d => Seg d 0 48 (fun i => p.getD i 0) | none => p = List.replicate 48 0) :
    Post (nistkat_update stk prov c) (fun c' => CtxOk c' (CTR_DRBG_Update p s)) := by
  unfold nistkat_update
  rw [show Post _ _ = PostF False _ _ from rfl, wp_bind]
  refine wp_forN (fun i (ct : Ctx × Buf UInt8) => CtxOk ct.1 ⟨s.key, incV s.v i⟩ ∧ Written (Buf.uninit UInt8 48) ct.2 0 (16 * i) fun m => (keyStream s 3).getD m 0) ⟨?_, Written.refl _ _ _⟩ ?_ ?_
  · rw [incV_zero hc.2.2.2]; exact hc
  · rintro i ⟨c, t⟩ hi ⟨h1, h2⟩
    dsimp only
    refine PostF.mono (block_spec hst h1 (by rw [h2.1]; simp [Buf.uninit]; omega)) fun ⟨c', t'⟩ ⟨h3, h4⟩ => ⟨?_, ?_⟩
    · rwa [incV_incV] at h3
    · rw [show 16 * i = 0 + 16 * i by omega] at h4
      rw [show 16 * (i + 1) = 16 * i + 16 by omega]
      refine (h2.trans h4).congr fun m hm => ?_
      split
      · rfl
      · rw [ks_getD s (by omega), show m / 16 = i by omega, show m - 16 * i = m % 16 by omega, incV_incV]
  rintro ⟨c', t⟩ ⟨⟨hk, hv, lk, lv⟩, ht⟩
  have ht := ht.holds (by simp [Buf.uninit])
  dsimp only
  have fin : ∀ t : Buf UInt8, (Holds t 48 fun i => (xorBytes (keyStream s 3) p).getD i 0) → PostF False (do
      let key ← memcpy c'.key 0 t 0 32
      let ctr ← memcpy c'.ctr 0 t 32 16
      pure ⟨key, ctr⟩ : M Ctx) (fun c' => CtxOk c' (CTR_DRBG_Update p s)) := by
    intro t ht
    have hl := xor_length (ks_length s 3) hp
    rw [wp_bind]
    refine PostF.mono (memcpy_spec (by rw [hk.1]) (ht.seg.sub 0 32 (by decide))) fun k hk' => ?_
    rw [wp_bind]
    refine PostF.mono (memcpy_spec (by rw [hv.1]) (sof := 32) (f := fun i => (xorBytes (keyStream s 3) p).getD (32 + i) 0) fun i hi => ht.2 _ (by omega)) fun v hv' => ?_
    rw [wp_pure]
    refine ⟨(hk'.holds hk.1).congr fun i hi => ?_, (hv'.holds hv.1).congr fun i hi => ?_, by simp [CTR_DRBG_Update, hl], by simp [CTR_DRBG_Update, hl]⟩
    · unfold CTR_DRBG_Update
      rw [take_getD _ hi, Nat.zero_add]
    · unfold CTR_DRBG_Update
      rw [drop_getD]
  cases prov with
  | some d =>
    dsimp only at hprov ⊢
    simp only [wp_bind, wp_emit]
    refine PostF.mono (xorLoop_spec ht hprov) fun t ht => ?_
    have := fin t (ht.congr fun i hi => by rw [xor_getD (ks_length s 3) hp hi])
    simpa only [wp_bind] using this
  | none =>
    dsimp only at hprov ⊢
    simp only [wp_bind, wp_emit, wp_pure]
    have := fin t (ht.congr fun i hi => by
      rw [xor_getD (ks_length s 3) hp hi, hprov, zeros_getD, UInt8.xor_zero])
    simpa only [wp_bind, wp_pure] using this

theorem init_spec {stk : Buf UInt8 → Buf UInt8 → Buf W32} (hst : Filled stk) {c : Ctx} (hk : c.key.size = 32) (hv : c.ctr.size = 16) {ent : Buf UInt8} {e : List UInt8} (he : Seg ent 0 48 fun i => e.getD i 0) (le : e.length = 48)
    {pers : Option (Buf UInt8)} {p : List UInt8} (hp : p.length = 48) (hpers : match pers with | some d => Seg d 0 48 (fun i => p.getD i 0) | none => p = List.replicate 48 0) :
    Post (nist_kat_init stk c ent pers) (fun c' => CtxOk c' (CTR_DRBG_Instantiate e p)) := by
  unfold nist_kat_init
  rw [show Post _ _ = PostF False _ _ from rfl, wp_bind]
  refine PostF.mono (memcpy_spec (by simp [Buf.uninit]) he) fun m hm => ?_
  have hm := hm.holds (by simp [Buf.uninit])
  have fin : ∀ m : Buf UInt8, (Holds m 48 fun i => (xorBytes e p).getD i 0) → PostF False (do
      let key ← forN 32 c.key fun i k => wr k i 0
      let ctr ← forN 16 c.ctr fun i k => wr k i 0
      nistkat_update stk (some m) ⟨key, ctr⟩ : M Ctx) (fun c' => CtxOk c' (CTR_DRBG_Instantiate e p)) := by
    intro m hm
    have zero : ∀ (b : Buf UInt8) (n : Nat), b.size = n → Post (forN n b fun i k => wr k i 0) (fun b' => Holds b' n fun i => (List.replicate n (0 : UInt8)).getD i 0) := by
      intro b n hb
      refine wp_forN (fun i b' => Written b b' 0 i fun _ => 0) (Written.refl _ _ _) ?_ fun b' h => (h.holds hb).congr fun i hi => by simp
      intro i b' hi h
      rw [wp_wr]
      exact ⟨by rw [h.1]; omega, h.push (by omega) (by omega) rfl⟩
    rw [wp_bind]
    refine PostF.mono (zero _ 32 hk) fun k hk => ?_
    rw [wp_bind]
    refine PostF.mono (zero _ 16 hv) fun v hv => ?_
    exact update_spec hst (s := ⟨List.replicate 32 0, List.replicate 16 0⟩) ⟨hk, hv, by simp, by simp⟩ (xor_length le hp) hm.seg
  cases pers with
  | some d =>
    dsimp only at hpers ⊢
    simp only [wp_bind, wp_emit]
    refine PostF.mono (xorLoop_spec hm hpers) fun t ht => ?_
    have := fin t (ht.congr fun i hi => by rw [xor_getD le hp hi])
    simpa only [wp_bind, wp_pure] using this
  | none =>
    dsimp only at hpers ⊢
    simp only [wp_bind, wp_emit, wp_pure]
    have := fin m (hm.congr fun i hi => by
      rw [xor_getD le hp hi, hpers, zeros_getD, UInt8.xor_zero])
    simpa only [wp_bind, wp_pure] using this

theorem randombytes_spec {stk : Buf UInt8 → Buf UInt8 → Buf W32} (hst : Filled stk) {c : Ctx} {s : DrbgState} (hc : CtxOk c s) {buf : Buf UInt8} {n : Nat} (hb : n ≤ buf.size) :
    Post (randombytes stk c buf n) (fun r => CtxOk r.1 (CTR_DRBG_Generate s n).2 ∧ Written buf r.2 0 n fun m => ((CTR_DRBG_Generate s n).1).getD m 0) := by
  have hout : ∀ m, m < n → ((CTR_DRBG_Generate s n).1).getD m 0 = (AES 8 s.key (incV s.v (m / 16 + 1))).getD (m % 16) 0 := by
    intro m hm
    unfold CTR_DRBG_Generate
    rw [take_getD _ hm, ks_getD s (by omega)]
  unfold randombytes
  dsimp only
  rw [show Post _ _ = PostF False _ _ from rfl, wp_bind]
  refine wp_forN (fun i (x : Ctx × Buf UInt8 × Buf UInt8) => CtxOk x.1 ⟨s.key, incV s.v i⟩ ∧ x.2.1.size = 16 ∧ Written buf x.2.2 0 (16 * i) fun m => (AES 8 s.key (incV s.v (m / 16 + 1))).getD (m % 16) 0)
    ⟨by rw [incV_zero hc.2.2.2]; exact hc, by simp [Buf.uninit], Written.refl _ _ _⟩ ?_ ?_
  · rintro i ⟨c, bl, b⟩ hi ⟨h1, h2, h3⟩
    dsimp only at h1 h2 h3 ⊢
    rw [wp_bind]
    refine PostF.mono (block_spec hst h1 (by rw [h2])) fun ⟨c', t'⟩ ⟨h4, h5⟩ => ?_
    dsimp only at h4 h5 ⊢
    rw [wp_bind]
    refine PostF.mono (memcpy_spec (by rw [h3.1]; omega) h5.seg) fun b' hb' => ?_
    rw [wp_pure]
    refine ⟨?_, h5.1.trans h2, ?_⟩
    · rwa [incV_incV] at h4
    · rw [show i * 16 = 0 + 16 * i by omega] at hb'
      dsimp only
      rw [show 16 * (i + 1) = 16 * i + 16 by omega]
      refine (h3.trans hb').congr fun m hm => ?_
      split
      · rfl
      · rw [show m / 16 = i by omega, show m - 16 * i = m % 16 by omega, incV_incV]
  rintro ⟨c, bl, b⟩ ⟨h1, h2, h3⟩
  dsimp only at h1 h2 h3 ⊢
  have fin : ∀ (c' : Ctx) (b' : Buf UInt8), CtxOk c' ⟨s.key, incV s.v ((n + 15) / 16)⟩ → (Written buf b' 0 n fun m => (AES 8 s.key (incV s.v (m / 16 + 1))).getD (m % 16) 0) →
      PostF False (do
        let ctx ← nistkat_update stk none c'
        pure (ctx, b') : M (Ctx × Buf UInt8)) (fun r => CtxOk r.1 (CTR_DRBG_Generate s n).2 ∧ Written buf r.2 0 n fun m => ((CTR_DRBG_Generate s n).1).getD m 0) := by
    intro c' b' hc' hb'
    rw [wp_bind]
    refine PostF.mono (update_spec hst hc' (prov := none) (p := List.replicate 48 0) (by simp) rfl) fun c'' hc'' => ?_
    rw [wp_pure]
    exact ⟨hc'', hb'.congr fun m hm => (hout m hm).symm⟩
  rw [wp_bind, wp_branch]
  refine ⟨fun ht => ?_, fun ht => ?_⟩
  · have ht : n % 16 > 0 := of_decide_eq_true ht
    rw [wp_bind]
    refine PostF.mono (block_spec hst h1 (by rw [h2])) fun ⟨c', t'⟩ ⟨h4, h5⟩ => ?_
    dsimp only at h4 h5 ⊢
    rw [wp_bind]
    refine PostF.mono (memcpy_spec (n := n % 16) (by rw [h3.1]; omega) (h5.seg.sub 0 (n % 16) (by omega))) fun b' hb' => ?_
    rw [wp_pure]
    refine fin _ _ ?_ ?_
    · rw [incV_incV] at h4
      rwa [show (n + 15) / 16 = n / 16 + 1 by omega]
    · rw [show n / 16 * 16 = 0 + 16 * (n / 16) by omega] at hb'
      rw [show n = 16 * (n / 16) + n % 16 by omega]
      refine (h3.trans hb').congr fun m hm => ?_
      split
      · rfl
      · rw [show m / 16 = n / 16 by omega, Nat.zero_add, show m - 16 * (n / 16) = m % 16 by omega, incV_incV]
  · have ht : ¬ n % 16 > 0 := of_decide_eq_false ht
    rw [wp_pure]
    refine fin _ _ ?_ ?_
    · rwa [show (n + 15) / 16 = n / 16 by omega]
    · rw [show 16 * (n / 16) = n by omega] at h3
      exact h3

end Verif.NistRng

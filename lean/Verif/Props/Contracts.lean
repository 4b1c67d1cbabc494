import Verif.Props.Sampling
/-!
# The function contracts in the source (C67)

The headers of /repo annotate functions with `__contract__(requires … assigns … ensures …)` (mlkem/cbmc.h).  Each theorem below states one of those contracts: objects
that meet `requires` make the call end normally (no undefined behaviour, no failing assertion) with a result that meets `ensures`, and only what `assigns` names changes.
`memory_no_alias` has no counterpart, the model's objects are always distinct.  An input object is initialised, which C demands and the contracts leave unsaid.
-/
namespace Verif.Props
open Verif Verif.Model Verif.Spec

/-- `array_bound(b, lo, hi - 1, l, u)`, mlkem/cbmc.h 123-135: every element from `lo` to below `hi` is in `[l, u]`. -/
def ArrayBound (b : Buf Int) (lo hi : Nat) (l u : Int) : Prop := ∀ i, lo ≤ i → i < hi → ∃ x, b[i]? = some (some x) ∧ l ≤ x ∧ x ≤ u

/-- `array_abs_bound(b, lo, hi - 1, k)`, mlkem/cbmc.h 139-140. -/
def ArrayAbsBound (b : Buf Int) (lo hi : Nat) (k : Int) : Prop := ArrayBound b lo hi (-k) k

/-- An initialised array of `n` `int16_t`. -/
def IsArr (n : Nat) (b : Buf Int) : Prop := b.size = n ∧ ArrayBound b 0 n (-32768) 32767

/-- An initialised `poly`. -/
def IsPoly (b : Buf Int) : Prop := IsArr 256 b

/-- An initialised `poly_mulcache`. -/
def IsCache (b : Buf Int) : Prop := IsArr 128 b

/-- An array of `K` objects with property `P`. -/
def VecOf (K : Nat) (P : Buf Int → Prop) (v : Array (Buf Int)) : Prop := v.size = K ∧ ∀ i, i < K → ∃ p, v[i]? = some p ∧ P p

/-- The call ends normally with a result that meets `E`. -/
def Ensures {α : Type} (p : M α) (E : α → Prop) : Prop := ∃ a, Returns p a ∧ E a

/-- `assigns(memory_slice(b + off, n))`: the `n` bytes from `off` are written, nothing else in the object changes. -/
def Fills (b : Buf UInt8) (off n : Nat) (b' : Buf UInt8) : Prop :=
  b'.size = b.size ∧ (∀ i, off ≤ i → i < off + n → ∃ x, b'[i]? = some (some x)) ∧ ∀ i, (i < off ∨ off + n ≤ i) → b'[i]? = b[i]?

/-- The byte string `L` is in the object from `off`. -/
def HasBytes (b : Buf UInt8) (off : Nat) (L : List UInt8) : Prop := ∀ i (h : i < L.length), b[off + i]? = some (some L[i])

/-! ## From and to the vocabulary of the proofs -/

theorem ens_of_post {α : Type} {p : M α} {Q E : α → Prop} (h : Post p Q) (hE : ∀ a, Q a → E a) : Ensures p E := by
  obtain ⟨a, h, q⟩ := ret_of_post h; exact ⟨a, h, hE a q⟩

theorem arr_holds {b : Buf Int} {n : Nat} {l u : Int} (hs : b.size = n) (h : ArrayBound b 0 n l u) :
    ∃ f, Holds b n f ∧ ∀ i, i < n → l ≤ f i ∧ f i ≤ u := by
  refine ⟨fun i => ((b[i]?).getD none).getD 0, ⟨hs, fun i hi => ?_⟩, fun i hi => ?_⟩ <;>
  · obtain ⟨x, hx, h1, h2⟩ := h i (Nat.zero_le _) hi
    simp [hx, h1, h2]

theorem holds_arr {b : Buf Int} {n lo hi : Nat} {f : Nat → Int} {l u : Int} (h : Holds b n f) (hn : hi ≤ n) (hb : ∀ i, lo ≤ i → i < hi → l ≤ f i ∧ f i ≤ u) : ArrayBound b lo hi l u :=
  fun i h1 h2 => ⟨_, h.get (by omega), hb i h1 h2⟩

theorem vec_contents {v : PolyVec} {K n : Nat} {l u : Int} (h : VecOf K (fun p => p.size = n ∧ ArrayBound p 0 n l u) v) :
    ∃ f, VHolds v K n f ∧ ∀ i c, i < K → c < n → l ≤ f i c ∧ f i c ≤ u := by
  obtain ⟨f, h1, h2⟩ := VAll.choose (v := v) (K := K) (n := n) (P := fun _ g => ∀ c, c < n → l ≤ g c ∧ g c ≤ u)
    ⟨h.1, fun i hi => by obtain ⟨p, hp, hs, hb⟩ := h.2 i hi; obtain ⟨g, hg, hgb⟩ := arr_holds hs hb; exact ⟨p, hp, g, hg, hgb⟩⟩
  exact ⟨f, h1, fun i c hi hc => h2 i hi c hc⟩

theorem vec_bound {v : PolyVec} {K n : Nat} {f : Nat → Nat → Int} {l u : Int} (h : VHolds v K n f) (hb : ∀ i c, i < K → c < n → l ≤ f i c ∧ f i c ≤ u) :
    VecOf K (fun p => p.size = n ∧ ArrayBound p 0 n l u) v :=
  ⟨h.1, fun i hi => by obtain ⟨p, hp, hh⟩ := h.2 i hi; exact ⟨p, hp, hh.size, holds_arr hh (Nat.le_refl _) fun c _ hc => hb i c hi hc⟩⟩

theorem fills_of {b b' : Buf UInt8} {off n : Nat} {g : Nat → UInt8} (h : Written b b' off n g) : Fills b off n b' :=
  ⟨h.1, fun i h1 h2 => by obtain ⟨j, rfl⟩ := Nat.exists_eq_add_of_le h1; exact ⟨_, h.2.1 j (by omega)⟩, h.2.2⟩

theorem seg_of {b : Buf UInt8} {off n : Nat} {L : List UInt8} (h : HasBytes b off L) (hn : L.length = n) : Seg b off n (fun j => L.getD j 0) := fun i hi => by
  rw [h i (by omega)]; simp [List.getD, show i < L.length by omega]

/-- Non-negative contents as natural numbers. -/
theorem holds_nat {b : Buf Int} {n : Nat} (hs : b.size = n) {u : Nat} (h : ArrayBound b 0 n 0 u) : ∃ f : Nat → Nat, Holds b n (fun i => (f i : Int)) ∧ ∀ i, i < n → f i ≤ u := by
  obtain ⟨f, h1, h2⟩ := arr_holds hs h
  exact ⟨fun i => (f i).toNat, h1.congr fun i hi => by have := h2 i hi; show f i = ((f i).toNat : Int); omega, fun i hi => by have := h2 i hi; show (f i).toNat ≤ u; omega⟩

theorem vec_nat {v : PolyVec} {K n u : Nat} (h : VecOf K (fun p => p.size = n ∧ ArrayBound p 0 n 0 u) v) :
    ∃ f : Nat → Nat → Nat, VHolds v K n (fun i c => (f i c : Int)) ∧ ∀ i c, i < K → c < n → f i c ≤ u := by
  obtain ⟨f, h1, h2⟩ := vec_contents h
  refine ⟨fun i c => (f i c).toNat, h1.mono fun i p hi hp => hp.congr fun c hc => ?_, fun i c hi hc => ?_⟩
  · have := h2 i c hi hc; show f i c = ((f i c).toNat : Int); omega
  · have := h2 i c hi hc; show (f i c).toNat ≤ u; omega

/-! ## Scalars -/

/-- **C67.** reduce.h 29-61: `montgomery_reduce`, `barrett_reduce`, `fqmul`. -/
theorem C67_reduce :
    (∀ a : Int, -(2 * 3329 * 32768) < a → a < 2 * 3329 * 32768 → Ensures (montgomery_reduce a) fun r => -(3 * 1665) < r ∧ r < 3 * 1665) ∧
    (∀ a, IsI16 a → Ensures (barrett_reduce a) fun r => -1665 < r ∧ r < 1665) ∧
    (∀ a b, IsI16 a → -1665 < b → b < 1665 → Ensures (fqmul a b) fun r => -3329 < r ∧ r < 3329) := by
  refine ⟨fun a h1 h2 => ?_, fun a h => ?_, fun a b h h1 h2 => ?_⟩
  · obtain ⟨r, hr, _, h3, h4⟩ := C23_montgomery a ⟨by norm_num; omega, by norm_num; omega⟩
    exact ⟨r, hr, by omega, by omega⟩
  · obtain ⟨r, hr, _, h3, h4⟩ := C23_barrett a h
    exact ⟨r, hr, by omega, by omega⟩
  · obtain ⟨r, hr, _, h3, h4⟩ := C23_fqmul a b h ⟨h1, h2⟩
    exact ⟨r, hr, h3, h4⟩

/-- The value the contracts of the compression functions give: `((u * 2^d + q/2) / q) mod 2^d`. -/
def compressed (d u : Nat) : Nat := ((u * 2 ^ d + 3329 / 2) / 3329) % 2 ^ d

/-- **C67.** poly.h 63-258: `scalar_compress_d*`, with the exact formulas of the contracts. -/
theorem C67_scalar_compress (u : Nat) (hu : u ≤ 3328) :
    (scalar_compress_d1 u < 2 ∧ scalar_compress_d1 u = compressed 1 u) ∧ (scalar_compress_d4 u < 16 ∧ scalar_compress_d4 u = compressed 4 u) ∧
    (scalar_compress_d5 u < 32 ∧ scalar_compress_d5 u = compressed 5 u) ∧ (scalar_compress_d10 u < 1024 ∧ scalar_compress_d10 u = compressed 10 u) ∧
    (scalar_compress_d11 u < 2048 ∧ scalar_compress_d11 u = compressed 11 u) := by
  have key : ∀ d, 1 ≤ d → d ≤ 11 → compNat d u = compressed d u := by
    intro d h1 h2
    unfold compNat compressed
    congr 1
    interval_cases d <;> omega
  have hu' : u < 3329 := by omega
  rw [scalar_compress_d1_eq u hu', scalar_compress_d4_eq u hu', scalar_compress_d5_eq u hu', scalar_compress_d10_eq u hu', scalar_compress_d11_eq u hu']
  have e := key
  exact ⟨⟨compNat_lt 1 u, key 1 (by omega) (by omega)⟩, ⟨compNat_lt 4 u, key 4 (by omega) (by omega)⟩, ⟨compNat_lt 5 u, key 5 (by omega) (by omega)⟩,
    ⟨compNat_lt 10 u, key 10 (by omega) (by omega)⟩, ⟨compNat_lt 11 u, key 11 (by omega) (by omega)⟩⟩

/-- **C67.** poly.h 122-283: `scalar_decompress_d*`. -/
theorem C67_scalar_decompress (u : Nat) :
    (u < 16 → scalar_decompress_d4 u ≤ 3328) ∧ (u < 32 → scalar_decompress_d5 u ≤ 3328) ∧ (u < 1024 → scalar_decompress_d10 u ≤ 3328) ∧ (u < 2048 → scalar_decompress_d11 u ≤ 3328) := by
  refine ⟨fun h => ?_, fun h => ?_, fun h => ?_, fun h => ?_⟩
  · rw [scalar_decompress_d4_eq u h]; have := decompNat_lt 4 u (by omega) (by omega) h; omega
  · rw [scalar_decompress_d5_eq u h]; have := decompNat_lt 5 u (by omega) (by omega) h; omega
  · rw [scalar_decompress_d10_eq u h]; have := decompNat_lt 10 u (by omega) (by omega) h; omega
  · rw [scalar_decompress_d11_eq u h]; have := decompNat_lt 11 u (by omega) (by omega) h; omega

/-- **C67.** poly.h 295-308: `scalar_signed_to_unsigned_q`. -/
theorem C67_signed_to_unsigned (c : Int) (h1 : -3328 ≤ c) (h2 : c ≤ 3328) :
    Ensures (scalar_signed_to_unsigned_q c) fun r => r ≤ 3328 ∧ (r : Int) = c + (if c < 0 then 1 else 0) * 3329 :=
  ens_of_post (signed_to_unsigned_spec c ⟨by omega, by omega⟩) fun r hr => by split <;> omega

/-! ## The transforms -/

/-- **C67.** ntt.c 42-76: `ntt_butterfly_block`.  The argument `bound` of the C function is used by the contract only. -/
theorem C67_ntt_butterfly_block (r : Buf Int) (zeta : Int) (start len bound : Nat) (hr : r.size = 256) (_hs : start < 256) (_hl : 1 ≤ len ∧ len ≤ 128) (hsl : start + 2 * len ≤ 256)
    (hb : bound < 32767 - 3329) (hz : -1665 < zeta ∧ zeta < 1665) (h1 : ArrayAbsBound r 0 start (bound + 3329)) (h2 : ArrayAbsBound r start 256 bound) :
    Ensures (ntt_butterfly_block r zeta start len) fun r' => r'.size = 256 ∧ ArrayAbsBound r' 0 (start + 2 * len) (bound + 3329) ∧ ArrayAbsBound r' (start + 2 * len) 256 bound := by
  obtain ⟨f, hf, hfb⟩ := arr_holds (b := r) (n := 256) (l := -(bound + 3329)) (u := bound + 3329) hr fun i _ hi => by
    by_cases c : i < start
    · exact h1 i (Nat.zero_le _) c
    · obtain ⟨x, e, l, u⟩ := h2 i (by omega) hi; exact ⟨x, e, by omega, by omega⟩
  have hfs : ∀ n, start ≤ n → n < 256 → -(bound : Int) ≤ f n ∧ f n ≤ bound := fun n a b => by
    obtain ⟨x, e, l, u⟩ := h2 n a b
    have := hf.get b
    rw [e] at this
    simp only [Option.some.injEq] at this
    rw [← this]; exact ⟨l, u⟩
  refine ens_of_post (ntt_butterfly_block_spec hf hz hsl fun n a b => by have := hfs n a (by omega); omega) fun r' h => ⟨h.size, ?_, ?_⟩
  · refine holds_arr h (by omega) fun i _ hi => ?_
    unfold bf
    split
    · have := hfs i (by omega) (by omega)
      have b1 := hfs (i + len) (by omega) (by omega)
      have := mul_z_bound (a := f (i + len)) (B := bound) b1 (by omega) hz
      omega
    · split
      · have := hfs (i - len) (by omega) (by omega)
        have b1 := hfs i (by omega) (by omega)
        have := mul_z_bound (a := f i) (B := bound) b1 (by omega) hz
        omega
      · exact hfb i (by omega)
  · refine holds_arr h (by omega) fun i h1 hi => ?_
    unfold bf
    rw [if_neg (by omega), if_neg (by omega)]
    exact hfs i (by omega) hi

/-- **C67.** ntt.c 90-114: `ntt_layer`.  The C function has the further argument `layer`, and `len = 256 >> layer`. -/
theorem C67_ntt_layer (r : Buf Int) (layer : Nat) (hr : r.size = 256) (hl : 1 ≤ layer ∧ layer ≤ 7) (h : ArrayAbsBound r 0 256 (layer * 3329 - 1)) :
    Ensures (ntt_layer r (256 >>> layer)) fun r' => r'.size = 256 ∧ ArrayAbsBound r' 0 256 ((layer + 1) * 3329 - 1) := by
  obtain ⟨f, hf, hfb⟩ := arr_holds hr h
  obtain ⟨e1, e2, e3⟩ := layer_len (l := layer - 1) (by omega)
  rw [show 256 >>> layer = 128 / 2 ^ (layer - 1) by obtain ⟨h1, h2⟩ := hl; interval_cases layer <;> rfl]
  refine ens_of_post (ntt_layer_spec hf e1 e2 e3 fun n hn => by have := hfb n hn; omega) fun r' h' => ⟨h'.size, holds_arr h' (Nat.le_refl _) fun i _ hi => ?_⟩
  have := il_bound e1 e2 e3 (bd := layer * 3329 - 1) (by omega) (fun n hn => by have := hfb n hn; omega) i hi
  omega

/-- **C67.** ntt.c 166-201: `invntt_layer`. -/
theorem C67_invntt_layer (r : Buf Int) (layer : Nat) (hr : r.size = 256) (hl : 1 ≤ layer ∧ layer ≤ 7) (h : ArrayAbsBound r 0 256 3329) :
    Ensures (invntt_layer r (1 <<< (8 - layer))) fun r' => r'.size = 256 ∧ ArrayAbsBound r' 0 256 3329 := by
  obtain ⟨f, hf, hfb⟩ := arr_holds hr h
  obtain ⟨e1, e2, e3⟩ := layer_len (l := layer - 1) (by omega)
  rw [show 1 <<< (8 - layer) = 128 / 2 ^ (layer - 1) by obtain ⟨h1, h2⟩ := hl; interval_cases layer <;> rfl]
  refine ens_of_post (invntt_layer_spec hf e1 e2 e3 hfb) fun r' h' => ⟨h'.size, holds_arr h' (Nat.le_refl _) fun i _ hi => ?_⟩
  have := iil_bound e1 e2 e3 hfb i hi
  omega

/-- **C67.** ntt.h 38-45: `poly_ntt`. -/
theorem C67_poly_ntt (r : Buf Int) (hr : r.size = 256) (h : ArrayAbsBound r 0 256 3328) :
    Ensures (poly_ntt r) fun r' => r'.size = 256 ∧ ArrayAbsBound r' 0 256 (8 * 3329 - 1) := by
  obtain ⟨f, hf, hfb⟩ := arr_holds hr h
  exact ens_of_post (poly_ntt_spec hf fun n hn => by have := hfb n hn; omega) fun r' ⟨g, h1, h2, _⟩ =>
    ⟨h1.size, holds_arr h1 (Nat.le_refl _) fun i _ hi => by have := h2 i hi; omega⟩

/-- **C67.** ntt.h 63-68: `poly_invntt_tomont`. -/
theorem C67_poly_invntt_tomont (r : Buf Int) (hr : IsPoly r) :
    Ensures (poly_invntt_tomont r) fun r' => r'.size = 256 ∧ ArrayAbsBound r' 0 256 (8 * 3329 - 1) := by
  obtain ⟨f, hf, hfb⟩ := arr_holds hr.1 hr.2
  exact ens_of_post (poly_invntt_tomont_spec hf hfb) fun r' ⟨g, h1, h2, _⟩ =>
    ⟨h1.size, holds_arr h1 (Nat.le_refl _) fun i _ hi => by have := h2 i hi; omega⟩

/-! ## Multiplication -/

/-- **C67.** ntt.h 92-101: `basemul_cached` accepts every `int16_t` in `b` and as cached value.  The pointers are `r + ro`, `a + ao` and `b + bo`. -/
theorem C67_basemul_cached (r a b : Buf Int) (ro ao bo : Nat) (c : Int) (hr : ro + 2 ≤ r.size) (ha : ArrayAbsBound a ao (ao + 2) 3328) (hb : ArrayBound b bo (bo + 2) (-32768) 32767)
    (hc : IsI16 c) :
    Ensures (basemul_cached r ro a ao b bo c) fun r' => r'.size = r.size ∧ ArrayAbsBound r' ro (ro + 2) (3 * 1665 - 1) ∧ ∀ i, i < ro ∨ ro + 2 ≤ i → r'[i]? = r[i]? := by
  obtain ⟨a0, ha0, A0, A0'⟩ := ha ao (by omega) (by omega)
  obtain ⟨a1, ha1, A1, A1'⟩ := ha (ao + 1) (by omega) (by omega)
  obtain ⟨b0, hb0, B0, B0'⟩ := hb bo (by omega) (by omega)
  obtain ⟨b1, hb1, B1, B1'⟩ := hb (bo + 1) (by omega) (by omega)
  obtain ⟨C, C'⟩ := hc
  have m1 := mul_bound (A := 3328) (B := 32768) (a := a1) (b := c) (by omega) (by omega)
  have m2 := mul_bound (A := 3328) (B := 32768) (a := a0) (b := b0) (by omega) (by omega)
  have m3 := mul_bound (A := 3328) (B := 32768) (a := a0) (b := b1) (by omega) (by omega)
  have m4 := mul_bound (A := 3328) (B := 32768) (a := a1) (b := b0) (by omega) (by omega)
  have M0 := montR_bound (x := a1 * c + a0 * b0) (B := 3328 * 32768 + 3328 * 32768) (by omega)
  have M1 := montR_bound (x := a0 * b1 + a1 * b0) (B := 3328 * 32768 + 3328 * 32768) (by omega)
  refine ens_of_post (Q := fun r' => r' = (r.setIfInBounds ro (some (montR (a1 * c + a0 * b0)))).setIfInBounds (ro + 1) (some (montR (a0 * b1 + a1 * b0)))) ?_ ?_
  · unfold basemul_cached
    simp only [wp_bind, wp_assertM, wp_rd, wp_i32, wp_pure]
    refine ⟨boundChk_eq (f := fun i => if i = 0 then a0 else a1) (fun i hi => ?_) _ _ fun i hi => ?_, _, ha1, by omega, _, ha0, _, hb0, by omega, by omega, _, ha0, _, hb1, by omega, _, ha1, _, hb0, by omega, by omega, ?_⟩
    · interval_cases i <;> simp [ha0, ha1]
    · interval_cases i <;> simp <;> omega
    refine Post.use (montgomery_reduce_post _ (by omega)) fun t0 h0 => ?_
    simp only [wp_wr]
    refine ⟨by omega, ?_⟩
    refine Post.use (montgomery_reduce_post _ (by omega)) fun t1 h1 => ?_
    subst h0 h1
    refine ⟨by simp; omega, boundChk_eq (f := fun i => if i = 0 then montR (a1 * c + a0 * b0) else montR (a0 * b1 + a1 * b0)) (fun i hi => ?_) _ _ fun i hi => ?_, rfl⟩
    · interval_cases i
      · simp only [Nat.add_zero, if_pos]; rw [Array.getElem?_setIfInBounds_ne (by omega), Array.getElem?_setIfInBounds_self_of_lt (by omega)]
      · rw [Array.getElem?_setIfInBounds_self_of_lt (by simp; omega)]; simp
    · interval_cases i <;> simp <;> omega
  · rintro _ rfl
    refine ⟨by simp, fun i h1 h2 => ?_, fun i hi => by rw [Array.getElem?_setIfInBounds_ne (by omega), Array.getElem?_setIfInBounds_ne (by omega)]⟩
    obtain rfl | rfl : i = ro ∨ i = ro + 1 := by omega
    · exact ⟨_, by rw [Array.getElem?_setIfInBounds_ne (by omega), Array.getElem?_setIfInBounds_self_of_lt (by omega)], by omega, by omega⟩
    · exact ⟨_, Array.getElem?_setIfInBounds_self_of_lt (by simp; omega), by omega, by omega⟩

/-- **C67.** poly.h 635-646: `poly_basemul_montgomery_cached`.  The contract allows every `int16_t` in the cache; the debug check in poly.c 459 demands `|b_cache| < q`, see
`C67_cache_check`. -/
theorem C67_poly_basemul (r a b c : Buf Int) (hr : r.size = 256) (ha : a.size = 256) (hab : ArrayAbsBound a 0 256 3328) (hb : IsPoly b) (hc : c.size = 128) (hcb : ArrayAbsBound c 0 128 3328) :
    Ensures (poly_basemul_montgomery_cached r a b c) fun r' => r'.size = 256 ∧ ArrayAbsBound r' 0 256 (3 * 1665 - 1) := by
  obtain ⟨fa, h1, h2⟩ := arr_holds ha hab
  obtain ⟨fb, h3, h4⟩ := arr_holds hb.1 hb.2
  obtain ⟨fc, h5, h6⟩ := arr_holds hc hcb
  have h2' : ∀ n, n < 256 → -3329 < fa n ∧ fa n < 3329 := fun n hn => by have := h2 n hn; omega
  refine ens_of_post (poly_basemul_spec h1 h3 h5 h2' h4 (fun n hn => by have := h6 n hn; omega) hr) fun r' h =>
    ⟨h.size, holds_arr h (Nat.le_refl _) fun i _ hi => ?_⟩
  have := bm_bound (c := fc) h2' h4 (fun n hn => by have := h6 n hn; omega) hi
  omega

/-- **C67, a gap.** The contract of `poly_basemul_montgomery_cached` is weaker than its debug check: some arguments the contract allows make the check in poly.c 459 fail (in builds with
`MLKEM_DEBUG`; other builds have no check, and compute what `C67_basemul_cached` says). -/
theorem C67_cache_check : ∃ r a b c : Buf Int, r.size = 256 ∧ a.size = 256 ∧ ArrayAbsBound a 0 256 3328 ∧ IsPoly b ∧ IsCache c ∧ poly_basemul_montgomery_cached r a b c = .error .assert := by
  have hz : ∀ n (x : Int) l u, l ≤ x → x ≤ u → ArrayBound (Array.replicate n (some x)) 0 n l u := fun n x l u h1 h2 i _ hi => ⟨x, by simp [hi], h1, h2⟩
  refine ⟨Array.replicate 256 none, Array.replicate 256 (some 0), Array.replicate 256 (some 0), Array.replicate 128 (some 3329), by simp, by simp,
    hz _ _ _ _ (by omega) (by omega), ⟨by simp, hz _ _ _ _ (by omega) (by omega)⟩, ⟨by simp, hz _ _ _ _ (by omega) (by omega)⟩, ?_⟩
  have hc : boundChk (Array.replicate 128 (some 3329)) 0 128 (-((3329 : Nat) : Int)) ((3329 : Nat) : Int) = false := by decide +kernel
  have : MULCACHE_BOUND (Array.replicate 128 (some 3329)) 3329 = .error .assert := by unfold MULCACHE_BOUND; rw [hc]; rfl
  unfold poly_basemul_montgomery_cached
  rw [this]; rfl

/-- **C67.** polyvec.h 185-200 (`polyvec_basemul_acc_montgomery_cached`), within the bounds of the debug checks of polyvec.c 100-102; the bound on the result is that of the `cassert` in polyvec.c 118-120. -/
theorem C67_polyvec_basemul (K : Nat) (hK : IsParam K) (r : Buf Int) (a b c : Array (Buf Int)) (hr : r.size = 256)
    (ha : VecOf K (fun p => p.size = 256 ∧ ArrayAbsBound p 0 256 3328) a) (hb : VecOf K (fun p => p.size = 256 ∧ ArrayAbsBound p 0 256 (8 * 3329 - 1)) b)
    (hc : VecOf K (fun p => p.size = 128 ∧ ArrayAbsBound p 0 128 3328) c) :
    Ensures (polyvec_basemul_acc_montgomery_cached K r a b c) fun r' => r'.size = 256 ∧ ArrayAbsBound r' 0 256 (K * (3 * 1665 - 1)) := by
  obtain ⟨fa, h1, h2⟩ := vec_contents ha
  obtain ⟨fb, h3, h4⟩ := vec_contents hb
  obtain ⟨fc, h5, h6⟩ := vec_contents hc
  refine ens_of_post (polyvec_basemul_acc_cached_spec (by unfold IsParam at hK; omega) h1 h3 h5 (fun i n hi hn => by have := h2 i n hi hn; omega)
    (fun i n hi hn => by have := h4 i n hi hn; omega) (fun i n hi hn => by have := h6 i n hi hn; omega) hr) fun r' ⟨h, hbd⟩ => ⟨h.size, holds_arr h (Nat.le_refl _) fun i _ hi => ?_⟩
  have := hbd i hi
  constructor <;> omega

/-! ## Polynomials -/

/-- **C67.** poly.h 657-780: `poly_tomont`, `poly_mulcache_compute`, `poly_reduce` for every polynomial. -/
theorem C67_poly_unary (r : Buf Int) (hr : IsPoly r) :
    Ensures (poly_tomont r) (fun r' => r'.size = 256 ∧ ArrayAbsBound r' 0 256 3328) ∧
    (∀ x : Buf Int, x.size = 128 → Ensures (poly_mulcache_compute x r) fun x' => x'.size = 128 ∧ ArrayAbsBound x' 0 128 3328) ∧
    Ensures (poly_reduce r) (fun r' => r'.size = 256 ∧ ArrayBound r' 0 256 0 3328) := by
  obtain ⟨f, hf, hfb⟩ := arr_holds hr.1 hr.2
  refine ⟨ens_of_post (poly_tomont_spec hf hfb) fun r' h => ⟨h.size, holds_arr h (Nat.le_refl _) fun i _ hi => ?_⟩,
    fun x hx => ens_of_post (poly_mulcache_compute_spec hf hfb hx) fun r' h => ⟨h.size, holds_arr h (Nat.le_refl _) fun i _ hi => ?_⟩,
    ens_of_post (poly_reduce_spec hf hfb) fun r' h => ⟨h.size, holds_arr h (Nat.le_refl _) fun i _ hi => by omega⟩⟩
  · have := mul_z_bound (a := f i) (z := 1353) (B := 32768) (by have := hfb i hi; omega) (by omega) (by omega)
    omega
  · have := mc_bound hfb hi
    omega

/-- **C67.** poly.h 739-780: `poly_add` and `poly_sub`, whenever no sum or difference leaves `int16_t`. -/
theorem C67_poly_add_sub (f g : Nat → Int) :
    ((∀ n, n < 256 → IsI16 (f n + g n)) → Returns (poly_add (poly f) (poly g)) (poly fun n => f n + g n)) ∧
    ((∀ n, n < 256 → IsI16 (f n - g n)) → Returns (poly_sub (poly f) (poly g)) (poly fun n => f n - g n)) :=
  ⟨fun h => ret_eq (poly_add_spec (poly_holds f) (poly_holds g) h) fun _ h => eq_poly h, fun h => ret_eq (poly_sub_spec (poly_holds f) (poly_holds g) h) fun _ h => eq_poly h⟩

/-- **C67.** poly.h 324-480: the functions that turn a polynomial with coefficients in `[0, q)` into bytes. -/
theorem C67_pack (K : Nat) (a : Buf Int) (ha : a.size = 256) (hab : ArrayBound a 0 256 0 3328) (r : Buf UInt8) (ro : Nat) :
    (ro + 32 * d_u K ≤ r.size → Ensures (poly_compress_du K r ro a) (Fills r ro (32 * d_u K))) ∧
    (ro + 32 * d_v K ≤ r.size → Ensures (poly_compress_dv K r ro a) (Fills r ro (32 * d_v K))) ∧
    (ro + 384 ≤ r.size → Ensures (poly_tobytes r ro a) (Fills r ro 384)) ∧ (ro + 32 ≤ r.size → Ensures (poly_tomsg r ro a) (Fills r ro 32)) := by
  obtain ⟨f, hf, hb⟩ := holds_nat ha (u := 3328) hab
  have hb' : ∀ i, i < 256 → f i < 3329 := fun i hi => by have := hb i hi; omega
  exact ⟨fun h => ens_of_post (poly_compress_du_spec hf hb' h) fun _ => fills_of, fun h => ens_of_post (poly_compress_dv_spec hf hb' h) fun _ => fills_of,
    fun h => ens_of_post (poly_tobytes_spec hf hb' h) fun _ => fills_of, fun h => ens_of_post (poly_tomsg_spec hf hb' h) fun _ => fills_of⟩

/-- **C67.** poly.h 347-462: the functions that turn arbitrary bytes into a polynomial. -/
theorem C67_unpack (K : Nat) (r : Buf Int) (hr : r.size = 256) (a : Buf UInt8) (ao : Nat) (B : List UInt8) (hB : HasBytes a ao B) :
    (B.length = 32 * d_u K → Ensures (poly_decompress_du K r a ao) fun r' => r'.size = 256 ∧ ArrayBound r' 0 256 0 3328) ∧
    (B.length = 32 * d_v K → Ensures (poly_decompress_dv K r a ao) fun r' => r'.size = 256 ∧ ArrayBound r' 0 256 0 3328) ∧
    (B.length = 384 → Ensures (poly_frombytes r a ao) fun r' => r'.size = 256 ∧ ArrayBound r' 0 256 0 4095) ∧
    (B.length = 32 → Ensures (poly_frommsg r a ao) fun r' => r'.size = 256 ∧ ArrayBound r' 0 256 0 3328) := by
  have hu : 0 < d_u K ∧ d_u K ≤ 11 := by rcases d_u_cases K with h | h <;> omega
  have hv : 0 < d_v K ∧ d_v K ≤ 11 := by rcases d_v_cases K with h | h <;> omega
  refine ⟨fun h => ens_of_post (poly_decompress_du_spec (seg_of hB h) hr) fun _ h => ⟨h.size, holds_arr h (Nat.le_refl _) fun i _ _ => ?_⟩,
    fun h => ens_of_post (poly_decompress_dv_spec (seg_of hB h) hr) fun _ h => ⟨h.size, holds_arr h (Nat.le_refl _) fun i _ _ => ?_⟩,
    fun h => ens_of_post (poly_frombytes_spec (seg_of hB h) hr) fun _ h => ⟨h.size, holds_arr h (Nat.le_refl _) fun i _ _ => ?_⟩,
    fun h => ens_of_post (poly_frommsg_spec (seg_of hB h) hr) fun _ h => ⟨h.size, holds_arr h (Nat.le_refl _) fun i _ _ => ?_⟩⟩
  · have := decompNat_lt _ _ hu.1 hu.2 (decNum_lt (d_u K) (fun j => B.getD j 0) i); omega
  · have := decompNat_lt _ _ hv.1 hv.2 (decNum_lt (d_v K) (fun j => B.getD j 0) i); omega
  · have := decNum_lt 12 (fun j => B.getD j 0) i; omega
  · have := decompNat_lt _ _ (by omega) (by omega) (decNum_lt 1 (fun j => B.getD j 0) i); omega

/-! ## Vectors -/

/-- **C67.** polyvec.h 124-160, 248-310: the transforms and reductions of vectors. -/
theorem C67_polyvec_unary (K : Nat) (r : Array (Buf Int)) (hr : VecOf K IsPoly r) :
    (VecOf K (fun p => ArrayAbsBound p 0 256 3328) r → Ensures (polyvec_ntt K r) (VecOf K fun p => p.size = 256 ∧ ArrayAbsBound p 0 256 (8 * 3329 - 1))) ∧
    Ensures (polyvec_invntt_tomont K r) (VecOf K fun p => p.size = 256 ∧ ArrayAbsBound p 0 256 (8 * 3329 - 1)) ∧
    Ensures (polyvec_reduce K r) (VecOf K fun p => p.size = 256 ∧ ArrayBound p 0 256 0 3328) ∧
    Ensures (polyvec_tomont K r) (VecOf K fun p => p.size = 256 ∧ ArrayAbsBound p 0 256 3328) ∧
    (∀ x, VecOf K (fun p => p.size = 128) x → Ensures (polyvec_mulcache_compute K x r) (VecOf K fun p => p.size = 128 ∧ ArrayAbsBound p 0 128 3328)) := by
  obtain ⟨f, hf, hfb⟩ := vec_contents (l := -32768) (u := 32767) hr
  refine ⟨fun h => ?_, ?_, ?_, ?_, fun x hx => ?_⟩
  · obtain ⟨g, hg, hgb⟩ := vec_contents (v := r) (K := K) (n := 256) (l := -3328) (u := 3328)
      ⟨hr.1, fun i hi => by
        obtain ⟨p, e, hp⟩ := hr.2 i hi; obtain ⟨p', e', hp'⟩ := h.2 i hi
        rw [e] at e'; obtain rfl := Option.some.inj e'; exact ⟨p, e, hp.1, hp'⟩⟩
    exact ens_of_post (polyvec_ntt_spec hg fun i c hi hc => by have := hgb i c hi hc; omega) fun r' ⟨g', h1, h2⟩ => vec_bound h1 fun i c hi hc => by
      have := (h2 i hi c hc).1; omega
  · exact ens_of_post (polyvec_invntt_spec hf hfb) fun r' ⟨g', h1, h2⟩ => vec_bound h1 fun i c hi hc => by have := (h2 i hi c hc).1; omega
  · exact ens_of_post (polyvec_reduce_spec hf hfb) fun r' h => vec_bound h fun i c hi hc => by omega
  · refine ens_of_post (polyvec_tomont_spec hf hfb) fun r' h => vec_bound h fun i c hi hc => ?_
    have := mul_z_bound (a := f i c) (z := 1353) (B := 32768) (by have := hfb i c hi hc; omega) (by omega) (by omega)
    omega
  · refine ens_of_post (polyvec_mulcache_spec hx hf hfb) fun r' h => vec_bound h fun i c hi hc => ?_
    have := mc_bound (b := f i) (fun n hn => hfb i n hi hn) hc
    omega

/-- **C67.** polyvec.h 37-110: serialisation of vectors. -/
theorem C67_polyvec_bytes (K : Nat) :
    (∀ (a : Array (Buf Int)) (r : Buf UInt8) (ro : Nat), VecOf K (fun p => p.size = 256 ∧ ArrayBound p 0 256 0 3328) a →
      (ro + K * (32 * d_u K) ≤ r.size → Ensures (polyvec_compress_du K r ro a) (Fills r ro (K * (32 * d_u K)))) ∧
      (ro + K * 384 ≤ r.size → Ensures (polyvec_tobytes K r ro a) (Fills r ro (K * 384)))) ∧
    (∀ (r : Array (Buf Int)) (a : Buf UInt8) (ao : Nat) (B : List UInt8), VecOf K (fun p => p.size = 256) r → HasBytes a ao B →
      (B.length = K * (32 * d_u K) → Ensures (polyvec_decompress_du K r a ao) (VecOf K fun p => p.size = 256 ∧ ArrayBound p 0 256 0 3328)) ∧
      (B.length = K * 384 → Ensures (polyvec_frombytes K r a ao) (VecOf K fun p => p.size = 256 ∧ ArrayBound p 0 256 0 4095))) := by
  refine ⟨fun a r ro ha => ?_, fun r a ao B hr hB => ?_⟩
  · obtain ⟨f, hf, hb⟩ := vec_nat (u := 3328) ha
    have hb' : ∀ i c, i < K → c < 256 → f i c < 3329 := fun i c hi hc => by have := hb i c hi hc; omega
    exact ⟨fun h => ens_of_post (polyvec_compress_du_spec hf hb' h) fun _ => fills_of, fun h => ens_of_post (polyvec_tobytes_spec hf hb' h) fun _ => fills_of⟩
  · refine ⟨fun h => ens_of_post (polyvec_decompress_du_spec (seg_of hB h) hr) fun r' h => vec_bound h fun i c _ _ => ?_,
      fun h => ens_of_post (polyvec_frombytes_spec (seg_of hB h) hr) fun r' h => vec_bound h fun i c _ _ => ?_⟩
    · have := decompNat_du_lt K (decNum_lt (d_u K) (fun k => B.getD (i * (32 * d_u K) + k) 0) c); omega
    · have := decNum_lt 12 (fun k => B.getD (i * 384 + k) 0) c; omega

/-! ## Sampling -/

/-- **C67.** cbd.h 24-50: centred binomial sampling from arbitrary bytes. -/
theorem C67_cbd (K : Nat) (r : Buf Int) (hr : r.size = 256) (buf : Buf UInt8) (B : List UInt8) (hB : HasBytes buf 0 B) :
    (B.length = 64 * η₁ K → Ensures (poly_cbd_eta1 K r buf) fun r' => r'.size = 256 ∧ ArrayAbsBound r' 0 256 (η₁ K)) ∧
    (B.length = 128 → Ensures (poly_cbd_eta2 r buf) fun r' => r'.size = 256 ∧ ArrayAbsBound r' 0 256 2) :=
  ⟨fun h => ens_of_post (poly_cbd_eta1_spec (seg_of hB h) hr) fun _ h => ⟨h.size, holds_arr h (Nat.le_refl _) fun i _ _ => cbdI_bound _ _ i⟩,
    fun h => ens_of_post (poly_cbd_eta2_spec (seg_of hB h) hr) fun _ h => ⟨h.size, holds_arr h (Nat.le_refl _) fun i _ _ => cbdI_bound 2 _ i⟩⟩

/-- **C67.** poly.h 504-625: noise sampling. -/
theorem C67_getnoise (K : Nat) (seed : Buf UInt8) (so : Nat) (σ : List UInt8) (hσ : σ.length = 32) (hs : HasBytes seed so σ) :
    (∀ (r : Four (Buf Int)) (nonce : Four UInt8), r.x0.size = 256 → r.x1.size = 256 → r.x2.size = 256 → r.x3.size = 256 →
      Ensures (poly_getnoise_eta1_4x K r seed so nonce) (fun r' => ArrayAbsBound r'.x0 0 256 (η₁ K) ∧ ArrayAbsBound r'.x1 0 256 (η₁ K) ∧ ArrayAbsBound r'.x2 0 256 (η₁ K) ∧ ArrayAbsBound r'.x3 0 256 (η₁ K)) ∧
      Ensures (poly_getnoise_eta1122_4x K r seed so nonce) (fun r' => ArrayAbsBound r'.x0 0 256 (η₁ K) ∧ ArrayAbsBound r'.x1 0 256 (η₁ K) ∧ ArrayAbsBound r'.x2 0 256 2 ∧ ArrayAbsBound r'.x3 0 256 2)) ∧
    (∀ (r : Buf Int) (nonce : UInt8), r.size = 256 → Ensures (poly_getnoise_eta2 K r seed so nonce) fun r' => r'.size = 256 ∧ ArrayAbsBound r' 0 256 2) := by
  have hb : ∀ {b : Buf Int} {η : Nat} {n : UInt8}, Holds b 256 (noiseI η σ n) → ArrayAbsBound b 0 256 η := fun h => holds_arr h (Nat.le_refl _) fun i _ _ => noiseI_bound _ _ _ i
  refine ⟨fun r nonce h0 h1 h2 h3 => ⟨ens_of_post (poly_getnoise_eta1_4x_spec hσ (seg_of hs hσ) ⟨h0, h1, h2, h3⟩) fun _ h => ⟨hb h.h0, hb h.h1, hb h.h2, hb h.h3⟩,
    ens_of_post (poly_getnoise_eta1122_4x_spec hσ (seg_of hs hσ) ⟨h0, h1, h2, h3⟩) fun _ h => ⟨hb h.h0, hb h.h1, hb h.h2, hb h.h3⟩⟩,
    fun r nonce hr => ens_of_post (poly_getnoise_eta2_spec hσ (seg_of hs hσ) hr) fun _ h => ⟨h.size, hb h⟩⟩

/-- **C67.** rej_uniform.h 52-72: `rej_uniform` on a buffer of any length below `2^32 - 3`, from any offset: the count does not shrink and does not pass the target, everything below it is in `[0, q)`, nothing beyond
the target changes. -/
theorem C67_rej_uniform (r : Buf Int) (target offset : Nat) (buf : Buf UInt8) (L : List UInt8) (h1 : offset ≤ target) (h2 : target ≤ r.size) (h3 : target < 2 ^ 32)
    (h4 : L.length + 3 < 2 ^ 32) (hL : HasBytes buf 0 L) (hr : ArrayBound r 0 offset 0 3328) :
    Ensures (rej_uniform r target offset buf L.length) fun x => offset ≤ x.2 ∧ x.2 ≤ target ∧ x.1.size = r.size ∧ ArrayBound x.1 0 x.2 0 3328 ∧ ∀ j, target ≤ j → x.1[j]? = r[j]? := by
  obtain ⟨f, hf, hfb⟩ : ∃ f : Nat → Nat, (∀ i, i < offset → r[i]? = some (some (f i : Int))) ∧ ∀ i, i < offset → f i < 3329 := by
    refine ⟨fun i => (((r[i]?).getD none).getD 0).toNat, fun i hi => ?_, fun i hi => ?_⟩ <;>
    · obtain ⟨x, e, l, u⟩ := hr i (Nat.zero_le _) hi
      simp only [e, Option.getD_some]
      first | omega | (congr 2; omega)
  have hlen : ((List.range offset).map f).length = offset := by simp
  have hlt : ∀ x ∈ (List.range offset).map f, x < 3329 := fun x hx => by
    obtain ⟨i, hi, rfl⟩ := List.mem_map.1 hx; exact hfb i (List.mem_range.1 hi)
  have key := rej_uniform_spec (a := (List.range offset).map f) h2 h3 h4 (by omega) (fun i hi => by
    rw [hlen] at hi; rw [hf i hi]; simp [List.getD, hi]) (seg_of hL rfl)
  rw [hlen] at key
  refine ens_of_post key fun x ⟨a1, a2, a3, a4⟩ => ⟨?_, ?_, a1, ?_, a4⟩
  · rw [a3]; have := (sN_prefix (T := target) (L := L) (a := (List.range offset).map f)).length_le; omega
  · rw [a3]; exact sN_length (by omega)
  · intro i _ hi
    rw [a3] at hi
    refine ⟨_, a2 i hi, by omega, ?_⟩
    have := sN_lt (T := target) (L := L) hlt ((sN target L ((List.range offset).map f)).getD i 0) (by simp [List.getD, hi])
    omega

/-- **C67.** indcpa.h 17-26: `gen_matrix`.  The C loops have no bound; with the budget `fuel` the call either uses it up or meets the contract. -/
theorem C67_gen_matrix (K fuel : Nat) (hK : IsParam K) (a : Array (Buf Int)) (ha : VecOf (K * K) (fun p => p.size = 256) a) (seed : Buf UInt8) (so : Nat) (ρ : List UInt8) (hρ : ρ.length = 32)
    (hs : HasBytes seed so ρ) (transposed : Bool) :
    OutOfBudget (gen_matrix K fuel a seed so transposed) ∨
      Ensures (gen_matrix K fuel a seed so transposed) (VecOf (K * K) fun p => p.size = 256 ∧ ArrayBound p 0 256 0 3328) := by
  have h := gen_matrix_spec (K := K) (fuel := fuel) (tr := transposed) (by rcases hK with rfl | rfl | rfl <;> decide) ha hρ (seg_of hs hρ)
  unfold PostF at h
  split at h
  · next x t e =>
    refine Or.inr ⟨x, ⟨t, e⟩, vec_bound h.1 fun i c hi hc => ?_⟩
    have := smp_lt (seedAt K ρ transposed i) (168 * (3 + fuel)) ((smp (seedAt K ρ transposed i) (168 * (3 + fuel))).getD c 0) (by
      have := h.2 i hi
      simp [List.getD, this, hc])
    omega
  · next e => exact Or.inl e
  · exact h.elim

/-- **C67.** indcpa.c 148-161 and 221-227: `gen_matrix_entry_x4` and `gen_matrix_entry`, in the same way. -/
theorem C67_gen_matrix_entry (fuel : Nat) :
    (∀ (entry : Buf Int) (seed : Buf UInt8) (B : List UInt8), entry.size = 256 → B.length = 34 → HasBytes seed 0 B →
      OutOfBudget (gen_matrix_entry fuel entry seed) ∨ Ensures (gen_matrix_entry fuel entry seed) fun p => p.size = 256 ∧ ArrayBound p 0 256 0 3328) ∧
    (∀ (v0 v1 v2 v3 : Buf Int) (s0 s1 s2 s3 : Buf UInt8) (B0 B1 B2 B3 : List UInt8), v0.size = 256 → v1.size = 256 → v2.size = 256 → v3.size = 256 →
      B0.length = 34 → B1.length = 34 → B2.length = 34 → B3.length = 34 → HasBytes s0 0 B0 → HasBytes s1 0 B1 → HasBytes s2 0 B2 → HasBytes s3 0 B3 →
      OutOfBudget (gen_matrix_entry_x4 fuel ⟨v0, v1, v2, v3⟩ ⟨s0, s1, s2, s3⟩) ∨
        Ensures (gen_matrix_entry_x4 fuel ⟨v0, v1, v2, v3⟩ ⟨s0, s1, s2, s3⟩) fun r => ∀ p ∈ [r.x0, r.x1, r.x2, r.x3], p.size = 256 ∧ ArrayBound p 0 256 0 3328) := by
  have key : ∀ {p : Buf Int} {B : List UInt8}, (smp B (168 * (3 + fuel))).length = 256 → Holds p 256 (fun i => ((smp B (168 * (3 + fuel))).getD i 0 : Nat)) → p.size = 256 ∧ ArrayBound p 0 256 0 3328 := by
    intro p B hl hp
    refine ⟨hp.size, holds_arr hp (Nat.le_refl _) fun i _ hi => ?_⟩
    have := smp_lt B (168 * (3 + fuel)) ((smp B (168 * (3 + fuel))).getD i 0) (by simp [List.getD, hl, hi])
    omega
  constructor
  · intro entry seed B he hB hs
    have h := gen_matrix_entry_spec (fuel := fuel) he hB (seg_of hs hB)
    unfold PostF at h
    split at h
    · next x t e => exact Or.inr ⟨x, ⟨t, e⟩, key h.1 h.2⟩
    · next e => exact Or.inl e
    · exact h.elim
  · intro v0 v1 v2 v3 s0 s1 s2 s3 B0 B1 B2 B3 h0 h1 h2 h3 l0 l1 l2 l3 b0 b1 b2 b3
    have h := gen_matrix_entry_x4_spec (fuel := fuel) (vec := ⟨v0, v1, v2, v3⟩) (seed := ⟨s0, s1, s2, s3⟩)
      (B := fun w => [B0, B1, B2, B3].getD w []) ⟨h0, h1, h2, h3⟩ (by intro w hw; interval_cases w <;> assumption) ⟨seg_of b0 l0, seg_of b1 l1, seg_of b2 l2, seg_of b3 l3⟩
    unfold PostF at h
    split at h
    · next x t e =>
      refine Or.inr ⟨x, ⟨t, e⟩, ?_⟩
      simp only [List.forall_mem_cons]
      exact ⟨key (h.1 0 (by omega)) h.2.h0, key (h.1 1 (by omega)) h.2.h1, key (h.1 2 (by omega)) h.2.h2, key (h.1 3 (by omega)) h.2.h3, by simp⟩
    · next e => exact Or.inl e
    · exact h.elim

/-- **C67.** indcpa.c 380-392: `matvec_mul` for a cache as `polyvec_mulcache_compute` makes it, within the bounds of the debug checks of polyvec.c 100-102. -/
theorem C67_matvec_mul (K : Nat) (hK : IsParam K) (out a v x : Array (Buf Int)) (ho : VecOf K (fun p => p.size = 256) out)
    (ha : VecOf (K * K) (fun p => p.size = 256 ∧ ArrayAbsBound p 0 256 3328) a) (hv : VecOf K (fun p => p.size = 256 ∧ ArrayAbsBound p 0 256 (8 * 3329 - 1)) v)
    (hx : VecOf K (fun p => p.size = 128) x) :
    Ensures (do let vc ← polyvec_mulcache_compute K x v; matvec_mul K out a v vc) (VecOf K IsPoly) := by
  obtain ⟨fa, h1, h2⟩ := vec_contents ha
  obtain ⟨fv, h3, h4⟩ := vec_contents hv
  refine ens_of_post (Q := VecOf K IsPoly) ?_ fun _ h => h
  change PostF False _ _
  simp only [wp_bind]
  refine Post.use (polyvec_mulcache_spec hx h3 fun i c hi hc => by have := h4 i c hi hc; omega) fun vc hc => ?_
  refine Post.use (matvec_mul_spec (by unfold IsParam at hK; omega) ho h1 h3 hc (fun i n hi hn => by have := h2 i n hi hn; omega) (fun i n hi hn => by have := h4 i n hi hn; omega))
    fun r ⟨g, hg, hgb⟩ => vec_bound hg fun i c hi hc => ?_
  have := (hgb i hi c hc).1
  omega

/-- **C67.** polyvec.h 273-290: `polyvec_add`, whenever no sum leaves `int16_t`. -/
theorem C67_polyvec_add (K : Nat) (f g : Nat → Nat → Int) (h : ∀ i n, i < K → n < 256 → IsI16 (f i n + g i n)) :
    Returns (polyvec_add K (vec K f) (vec K g)) (vec K fun i n => f i n + g i n) :=
  ret_eq (polyvec_add_spec (vec_holds K f) (vec_holds K g) h) fun _ h => eq_vec h

/-- **C67.** symmetric.h 35-70: the pseudorandom functions. -/
theorem C67_prf (K : Nat) (hK : IsParam K) (out key : Buf UInt8) (ko : Nat) (k : List UInt8) (hk : k.length = 32) (hkey : HasBytes key ko k) :
    (∀ (n : Nat) (nonce : UInt8), n ≤ out.size → n < 2 ^ 64 → Ensures (prf out n key ko nonce) (Fills out 0 n)) ∧
    (∀ (input : Buf UInt8) (c : List UInt8), c.length = ctLen K → HasBytes input 0 c → 32 ≤ out.size → Ensures (rkprf K out key ko input) (Fills out 0 32)) := by
  refine ⟨fun n nonce h1 h2 => ens_of_post (prf_spec hk (seg_of hkey hk) h1 (by simpa using h2)) fun _ => fills_of, fun input c hc hi ho => ?_⟩
  have hl : c.length = MLKEM_CIPHERTEXTBYTES K ∧ c.length < 4294967296 := by
    rw [hc]; rcases hK with rfl | rfl | rfl <;> decide
  exact ens_of_post (rkprf_spec hk hl.1 hl.2 (seg_of hkey hk) (seg_of hi rfl) ho) fun _ => fills_of

/-! ## Objects that meet the hypotheses -/

/-- A polynomial at the limit of what `poly_ntt` accepts, ... -/
example : (poly fun n => if n % 2 = 0 then 3328 else -3328).size = 256 ∧ ArrayAbsBound (poly fun n => if n % 2 = 0 then 3328 else -3328) 0 256 3328 :=
  ⟨(poly_holds _).size, holds_arr (poly_holds _) (Nat.le_refl _) fun i _ _ => by split <;> omega⟩

/-- ... an arbitrary one with extreme coefficients, ... -/
example : IsPoly (poly fun n => if n % 2 = 0 then 32767 else -32768) :=
  ⟨(poly_holds _).size, holds_arr (poly_holds _) (Nat.le_refl _) fun i _ _ => by split <;> omega⟩

/-- ... the state in the middle of a layer: the blocks before `start = 64` have grown, the others not yet, ... -/
example : ArrayAbsBound (poly fun n => if n < 64 then 6657 else -3328) 0 64 ((3328 : Nat) + 3329) ∧ ArrayAbsBound (poly fun n => if n < 64 then 6657 else -3328) 64 256 (3328 : Nat) :=
  ⟨holds_arr (poly_holds _) (by omega) fun i _ hi => by rw [if_pos hi]; omega, holds_arr (poly_holds _) (by omega) fun i h _ => by rw [if_neg (by omega)]; omega⟩

/-- ... and a vector of reduced polynomials. -/
example : VecOf 3 (fun p => p.size = 256 ∧ ArrayBound p 0 256 0 3328) (vec 3 fun i n => (i + 13 * n : Nat)) :=
  vec_bound (vec_holds 3 _) fun i c _ _ => by constructor <;> omega

/-- Coefficients 4 and 5 of polynomials, for `basemul_cached`: bounds hold there and not elsewhere. -/
example : ArrayAbsBound (poly fun n => if n / 2 = 2 then 3328 else 32767) 4 (4 + 2) 3328 ∧ ¬ ArrayAbsBound (poly fun n => if n / 2 = 2 then 3328 else 32767) 0 256 3328 := by
  refine ⟨holds_arr (poly_holds _) (by omega) fun i h1 h2 => by rw [if_pos (by omega)]; omega, fun h => ?_⟩
  obtain ⟨x, hx, _, h2⟩ := h 0 (by omega) (by omega)
  have := (poly_holds fun n => if n / 2 = 2 then 3328 else 32767).get (i := 0) (by omega)
  rw [hx] at this
  simp at this
  omega

/-- Bytes in the middle of an object. -/
example : HasBytes (Buf.ofList [9, 1, 2, 3]) 1 [1, 2, 3] := by
  intro i h
  simp at h
  interval_cases i <;> rfl

end Verif.Props

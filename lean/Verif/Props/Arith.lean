import Verif.Proof.KeyCheck
import Verif.Proof.Basemul
import Verif.Proof.Polyvec
/-! # Properties of arithmetic, serialisation and compression (C17 - C23, C31, C32) -/
namespace Verif.Props
open Verif Verif.Model Verif.Spec Finset

theorem ret_of_post {α : Type} {p : M α} {Q : α → Prop} (h : Post p Q) : ∃ a, Returns p a ∧ Q a := by
  obtain ⟨a, t, e, q⟩ := h.elim; exact ⟨a, ⟨t, e⟩, q⟩

theorem ret_eq {α : Type} {p : M α} {Q : α → Prop} {b : α} (h : Post p Q) (hb : ∀ a, Q a → a = b) : Returns p b := by
  obtain ⟨a, h, q⟩ := ret_of_post h; rw [← hb a q]; exact h

theorem poly_holds (f : Nat → Int) : Holds (poly f) 256 f := by
  have h := (Holds.ofList ((List.range 256).map f) 0).congr (g := f) fun i hi => by
    simp only [List.length_map, List.length_range] at hi
    simp [List.getD, hi]
  simpa [poly] using h

theorem eq_poly {b : Buf Int} {f : Nat → Int} (h : Holds b 256 f) : b = poly f := h.eq_ofList

/-! ## C23: reductions -/

/-- **C23.** `barrett_reduce` maps every `int16_t` to the congruent value in [-1664, 1664]. -/
theorem C23_barrett (a : Int) (ha : IsI16 a) : ∃ r, Returns (barrett_reduce a) r ∧ (r : Zq) = a ∧ -1664 ≤ r ∧ r ≤ 1664 := by
  obtain ⟨r, h, h1, h2, h3⟩ := ret_of_post (barrett_reduce_spec a ha)
  exact ⟨r, h, zq_int_eq h1, h2, h3⟩

/-- ... and that value is unique. -/
theorem C23_barrett_unique (a r r' : Int) (h1 : (r : Zq) = a ∧ -1664 ≤ r ∧ r ≤ 1664) (h2 : (r' : Zq) = a ∧ -1664 ≤ r' ∧ r' ≤ 1664) : r = r' := by
  have : ((r : Int) : Zq) = (r' : Zq) := h1.1.trans h2.1.symm
  rw [ZMod.intCast_eq_intCast_iff] at this
  have := this.dvd
  omega

/-- **C23.** `montgomery_reduce` of every `a` with `|a| < 2 q 2^15`: result times `2^16` is congruent to `a`, `|result| < 3 (q+1) / 2`. -/
theorem C23_montgomery (a : Int) (ha : -(2 * 3329 * 2 ^ 15) < a ∧ a < 2 * 3329 * 2 ^ 15) :
    ∃ r, Returns (montgomery_reduce a) r ∧ (r : Zq) * 2 ^ 16 = a ∧ 2 * r < 3 * 3330 ∧ -(3 * 3330) < 2 * r := by
  obtain ⟨r, h, t, h1, h2, h3⟩ := ret_of_post (montgomery_reduce_spec a (by norm_num at ha; omega))
  refine ⟨r, h, ?_, by omega, by omega⟩
  have : ((65536 * r : Int) : Zq) = (a : Zq) := zq_int_eq (by omega)
  push_cast at this
  rw [← this]; ring

/-- **C23.** `fqmul(a, b)` for every `int16_t` `a` and `|b| ≤ 1664`: result times `2^16` is congruent to `a b`, `|result| < q`. -/
theorem C23_fqmul (a b : Int) (ha : IsI16 a) (hb : -1665 < b ∧ b < 1665) :
    ∃ r, Returns (fqmul a b) r ∧ (r : Zq) * 2 ^ 16 = a * b ∧ -3329 < r ∧ r < 3329 := by
  obtain ⟨r, h, t, h1, h2, h3⟩ := ret_of_post (fqmul_spec a b ha hb)
  have hp := mul_bound (A := 32768) (B := 1664) ⟨by have := ha.1; omega, by have := ha.2; omega⟩ (⟨by omega, by omega⟩ : -1664 ≤ b ∧ b ≤ 1664)
  refine ⟨r, h, ?_, by omega, by omega⟩
  have : ((65536 * r : Int) : Zq) = ((a * b : Int) : Zq) := zq_int_eq (by omega)
  push_cast at this
  rw [← this]; ring

/-- **C23.** `poly_reduce` replaces every `int16_t` coefficient by its representative in [0, q). -/
theorem C23_poly_reduce (f : Nat → Int) (hf : ∀ n, n < 256 → IsI16 (f n)) : Returns (poly_reduce (poly f)) (poly fun n => f n % 3329) :=
  ret_eq (poly_reduce_spec (poly_holds f) hf) fun _ h => eq_poly h

example : IsI16 32767 ∧ IsI16 (-32768) ∧ -(2 * 3329 * 2 ^ 15) < (218169343 : Int) := by unfold IsI16; omega

/-! ## C31: constant-time helpers -/

/-- Inputs of C31: strings that differ in the last byte only. -/
example : ([1, 2, 3] : List UInt8).length = [1, 2, 4].length ∧ ([1, 2, 3] : List UInt8) ≠ [1, 2, 4] ∧ ([1, 2, 3] : List UInt8).length < 2 ^ 31 := by decide

/-- **C31.** `ct_memcmp` returns 0 exactly when the two byte strings are equal, and 255 otherwise. -/
theorem C31_memcmp (a b : List UInt8) (h : a.length = b.length) (hn : a.length < 2 ^ 31) :
    Returns (ct_memcmp (Buf.ofList a) 0 (Buf.ofList b) 0 a.length) (if a = b then 0 else 255) := by
  refine ret_eq (ct_memcmp_spec (n := a.length) (by omega) (SegL_ofList a) ((SegL_ofList b).toN h.symm)) fun r hr => ?_
  rw [hr]
  by_cases e : a = b
  · rw [if_pos e, if_pos ((list_eq_iff rfl h.symm).2 e)]
  · rw [if_neg e, if_neg fun hh => e ((list_eq_iff rfl h.symm).1 hh)]

/-- **C31.** `ct_cmov_zero` copies all bytes if the flag is 0 and none otherwise. -/
theorem C31_cmov (r x : List UInt8) (h : r.length = x.length) (b : UInt8) :
    Returns (ct_cmov_zero (Buf.ofList r) 0 (Buf.ofList x) 0 r.length b) (Buf.ofList (if b = 0 then x else r)) := by
  refine ret_eq (ct_cmov_zero_spec (n := r.length) b (SegL_ofList r) ((SegL_ofList x).toN h.symm)) fun r' hr => ?_
  have hs : (if b = 0 then x else r).length = r.length := by split <;> simp [h]
  refine WrittenL.whole (L := if b = 0 then x else r) (b := Buf.ofList r) ?_ (by simp [Buf.ofList, hs])
  unfold WrittenL
  rw [hs]
  exact hr.congr fun j hj => by split <;> rfl

/-- **C31.** Masks and selections. -/
theorem C31_masks :
    (∀ x, x < 65536 → ct_cmask_nonzero_u16 x = if x = 0 then 0 else 65535) ∧
    (∀ x : UInt8, ct_cmask_nonzero_u8 x = if x = 0 then 0 else 255) ∧
    (∀ x, IsI16 x → ct_cmask_neg_i16 x = if x < 0 then 65535 else 0) ∧
    (∀ a b c, IsI16 a → IsI16 b → c < 65536 → ct_sel_int16 a b c = if c ≠ 0 then a else b) ∧
    (∀ a b c : UInt8, ct_sel_uint8 a b c = if c ≠ 0 then a else b) :=
  ⟨ct_cmask_nonzero_u16_eq, ct_cmask_nonzero_u8_eq, ct_cmask_neg_i16_eq, ct_sel_int16_eq, ct_sel_uint8_eq⟩

/-! ## C17: serialisation -/

theorem coeff12_decNum {B : List UInt8} {n : Nat} : coeff12 B n = decNum 12 (fun j => B.getD j 0) n := by
  unfold coeff12 decNum
  refine ofBits_congr (d := 12) fun j hj => ?_
  rw [Nat.mul_comm]; rfl

theorem coeff12_lt (B : List UInt8) (n : Nat) : coeff12 B n < 4096 := by rw [coeff12_decNum]; exact decNum_lt 12 _ n

theorem written_encode {d : Nat} {f : Nat → Nat} {r r' : Buf UInt8} (h : Written r r' 0 (32 * d) (encByte d f)) (hr : r.size = 32 * d) : r' = Buf.ofList (ByteEncode d f) := by
  rw [ByteEncode_eq_map]; exact (h.holds hr).eq_ofList

/-- **C17.** `poly_tobytes` of canonical coefficients is ByteEncode_12. -/
theorem C17_tobytes (f : Nat → Nat) (hf : ∀ n, n < 256 → f n < 3329) (r : Buf UInt8) (hr : r.size = 384) :
    Returns (poly_tobytes r 0 (poly fun n => (f n : Int))) (Buf.ofList (ByteEncode 12 f)) :=
  ret_eq (poly_tobytes_spec (poly_holds _) hf (by omega)) fun _ h => written_encode (d := 12) h hr

/-- **C17.** `poly_frombytes` of any 384 bytes delivers the 256 12-bit numbers they contain. -/
theorem C17_frombytes (B : List UInt8) (hB : B.length = 384) (r : Buf Int) (hr : r.size = 256) :
    Returns (poly_frombytes r (Buf.ofList B) 0) (poly fun n => (coeff12 B n : Int)) :=
  ret_eq (poly_frombytes_spec ((SegL_ofList B).toN hB) hr) fun _ h => eq_poly (h.congr fun n _ => by rw [coeff12_decNum])

theorem coeff12_encode (f : Nat → Nat) {n : Nat} (hn : n < 256) (hf : f n < 4096) : coeff12 (ByteEncode 12 f) n = f n := by
  rw [coeff12_decNum, ← decNum_encByte 12 (by omega) (f := f) (c := n) hf]
  exact decNum_congr (fun k hk => ByteEncode_getD' _ _ hk) hn

theorem encode_coeff12 (B : List UInt8) (hB : B.length = 384) : ByteEncode 12 (coeff12 B) = B := by
  refine ext_getD' (by rw [ByteEncode_length, hB]) fun j hj => ?_
  rw [ByteEncode_length] at hj
  rw [ByteEncode_getD' _ _ hj]
  rw [show coeff12 B = decNum 12 (fun j => B.getD j 0) from funext fun n => coeff12_decNum, encByte_decNum 12 (by omega)]

/-- **C17.** Serialising and deserialising gives the coefficients back. -/
theorem C17_roundtrip (f : Nat → Nat) (hf : ∀ n, n < 256 → f n < 3329) (r : Buf UInt8) (hr : r.size = 384) (p : Buf Int) (hp : p.size = 256) :
    ∃ b, Returns (poly_tobytes r 0 (poly fun n => (f n : Int))) b ∧ Returns (poly_frombytes p b 0) (poly fun n => (f n : Int)) := by
  refine ⟨_, C17_tobytes f hf r hr, ?_⟩
  have := C17_frombytes (ByteEncode 12 f) (ByteEncode_length 12 f) p hp
  rwa [eq_poly ((poly_holds fun n => (coeff12 (ByteEncode 12 f) n : Int)).congr fun n hn => by rw [coeff12_encode f hn (by have := hf n hn; omega)])] at this

/-- **C17.** Deserialising any 384 bytes gives values below 4096 whose 12-bit packing is the input; if they are all below `q`, serialising reproduces the bytes. -/
theorem C17_bijection (B : List UInt8) (hB : B.length = 384) (p : Buf Int) (hp : p.size = 256) (r : Buf UInt8) (hr : r.size = 384) :
    ∃ f : Nat → Nat, Returns (poly_frombytes p (Buf.ofList B) 0) (poly fun n => (f n : Int)) ∧ (∀ n, f n < 4096) ∧ ByteEncode 12 f = B ∧
      ((∀ n, n < 256 → f n < 3329) → Returns (poly_tobytes r 0 (poly fun n => (f n : Int))) (Buf.ofList B)) := by
  refine ⟨coeff12 B, C17_frombytes B hB p hp, coeff12_lt B, encode_coeff12 B hB, fun h => ?_⟩
  have := C17_tobytes (coeff12 B) h r hr
  rwa [encode_coeff12 B hB] at this

example : ∀ n, n < 256 → (fun n => 13 * n) n < 3329 := fun n hn => by dsimp only; omega

/-! ## C18: compression -/

theorem val_cast {u : Nat} (h : u < 3329) : ((u : Zq)).val = u := ZMod.val_cast_of_lt h

/-- **C18.** The code's compression of every coefficient is FIPS 203 `Compress_d`. -/
theorem C18_compress (u : Nat) (hu : u < 3329) :
    scalar_compress_d1 u = Compress 1 u ∧ scalar_compress_d4 u = Compress 4 u ∧ scalar_compress_d5 u = Compress 5 u ∧
    scalar_compress_d10 u = Compress 10 u ∧ scalar_compress_d11 u = Compress 11 u := by
  simp only [Compress_eq, val_cast hu]
  exact ⟨scalar_compress_d1_eq u hu, scalar_compress_d4_eq u hu, scalar_compress_d5_eq u hu, scalar_compress_d10_eq u hu, scalar_compress_d11_eq u hu⟩

/-- **C18.** The code's decompression of every value is FIPS 203 `Decompress_d` (as a number below `q`). -/
theorem C18_decompress (y : Nat) :
    (y < 2 ^ 4 → scalar_decompress_d4 y = (Decompress 4 y).val) ∧ (y < 2 ^ 5 → scalar_decompress_d5 y = (Decompress 5 y).val) ∧
    (y < 2 ^ 10 → scalar_decompress_d10 y = (Decompress 10 y).val) ∧ (y < 2 ^ 11 → scalar_decompress_d11 y = (Decompress 11 y).val) := by
  simp only [Decompress_eq]
  refine ⟨fun h => ?_, fun h => ?_, fun h => ?_, fun h => ?_⟩
  · rw [val_cast (decompNat_lt 4 y (by omega) (by omega) h)]; exact scalar_decompress_d4_eq y h
  · rw [val_cast (decompNat_lt 5 y (by omega) (by omega) h)]; exact scalar_decompress_d5_eq y h
  · rw [val_cast (decompNat_lt 10 y (by omega) (by omega) h)]; exact scalar_decompress_d10_eq y h
  · rw [val_cast (decompNat_lt 11 y (by omega) (by omega) h)]; exact scalar_decompress_d11_eq y h

/-- Compressing a decompressed number gives it back. -/
theorem compNat_decompNat {d : Nat} (_h0 : 0 < d) (hd : d ≤ 11) {y : Nat} (hy : y < 2 ^ d) : compNat d (decompNat d y) = y := by
  have hp : 2 ^ (d + 1) = 2 * 2 ^ d := by rw [pow_succ]; ring
  have hP : 0 < 2 ^ d := by positivity
  have hP2 : 2 ^ d ≤ 2048 := le_trans (Nat.pow_le_pow_right (by omega) hd) (by norm_num)
  unfold compNat decompNat
  rw [hp]
  generalize 2 ^ d = P at *
  generalize hx : (6658 * y + P) / (2 * P) = x
  have h1 : 2 * P * x ≤ 6658 * y + P := by rw [← hx]; exact Nat.mul_div_le _ _
  have h2 : 6658 * y + P < 2 * P * x + 2 * P := by
    rw [← hx]; have := Nat.lt_mul_div_succ (6658 * y + P) (b := 2 * P) (by omega)
    rwa [Nat.mul_add, Nat.mul_one] at this
  have : (2 * P * x + 3329) / 6658 = y := by
    generalize 2 * P * x = A at *
    omega
  rw [this, Nat.mod_eq_of_lt hy]

/-- **C18.** Compressing a decompressed value returns it. -/
theorem C18_roundtrip {d : Nat} (hd : d ∈ [1, 4, 5, 10, 11]) (y : Nat) (hy : y < 2 ^ d) : Compress d (Decompress d y) = y := by
  have h0 : 0 < d ∧ d ≤ 11 := by simp at hd; omega
  rw [Decompress_eq, Compress_eq, val_cast (decompNat_lt d y h0.1 h0.2 hy)]
  exact compNat_decompNat h0.1 h0.2 hy

/-- Compression loses information: 1000 and 1001 have the same 4-bit compression, which C18 maps back to the same 4 bits. -/
example : Compress 4 ((1000 : Nat) : Zq) = 5 ∧ Compress 4 ((1001 : Nat) : Zq) = 5 ∧ (1000 : Nat) < 3329 ∧ (5 : Nat) < 2 ^ 4 := by
  simp only [Compress_eq, val_cast (show 1000 < 3329 by decide), val_cast (show 1001 < 3329 by decide)]
  decide

/-- The largest compression error allowed by FIPS 203 Section 4.2.1: `round(q / 2^(d+1))`. -/
def maxErr (d : Nat) : Int := roundHalfUp ((3329 : ℚ) / 2 ^ (d + 1))

theorem maxErr_vals : maxErr 1 = 832 ∧ maxErr 4 = 104 ∧ maxErr 5 = 52 ∧ maxErr 10 = 2 ∧ maxErr 11 = 1 := by
  unfold maxErr roundHalfUp
  refine ⟨?_, ?_, ?_, ?_, ?_⟩ <;> (rw [Int.floor_eq_iff]; norm_num)

/-- Distance from `a` to `b` modulo `q` is at most `e`. -/
def Close (a b : Zq) (e : Int) : Prop := ∃ δ : Int, -e ≤ δ ∧ δ ≤ e ∧ a = b + δ

def errOK (d e u : Nat) : Bool := (decompNat d (compNat d u) + 3329 - u + e) % 3329 ≤ 2 * e

theorem errOK_1 : ∀ u, u < 3329 → errOK 1 832 u = true := grid (by decide +kernel)
theorem errOK_4 : ∀ u, u < 3329 → errOK 4 104 u = true := grid (by decide +kernel)
theorem errOK_5 : ∀ u, u < 3329 → errOK 5 52 u = true := grid (by decide +kernel)
theorem errOK_10 : ∀ u, u < 3329 → errOK 10 2 u = true := grid (by decide +kernel)
theorem errOK_11 : ∀ u, u < 3329 → errOK 11 1 u = true := grid (by decide +kernel)

theorem close_of_err {d e : Nat} (h : ∀ u, u < 3329 → errOK d e u = true) (x : Zq) : Close (Decompress d (Compress d x)) x e := by
  have hx : x.val < 3329 := ZMod.val_lt x
  have := h x.val hx
  unfold errOK at this
  rw [decide_eq_true_iff] at this
  rw [Compress_eq, Decompress_eq]
  generalize decompNat d (compNat d x.val) = w at *
  refine ⟨((w + 3329 - x.val + e) % 3329 : Nat) - (e : Int), by omega, by omega, ?_⟩
  have e1 : x = ((x.val : Int) : Zq) := by simp
  conv_rhs => lhs; rw [e1]
  rw [← Int.cast_add, show ((w : Zq)) = ((w : Int) : Zq) by simp]
  apply zq_int_eq
  omega

/-- **C18.** Decompressing a compressed value moves it by at most `round(q / 2^(d+1))` modulo `q`. -/
theorem C18_error {d : Nat} (hd : d ∈ [1, 4, 5, 10, 11]) (x : Zq) : Close (Decompress d (Compress d x)) x (maxErr d) := by
  obtain ⟨m1, m4, m5, m10, m11⟩ := maxErr_vals
  simp only [List.mem_cons, List.not_mem_nil, or_false] at hd
  rcases hd with rfl | rfl | rfl | rfl | rfl
  · rw [m1]; exact close_of_err errOK_1 x
  · rw [m4]; exact close_of_err errOK_4 x
  · rw [m5]; exact close_of_err errOK_5 x
  · rw [m10]; exact close_of_err errOK_10 x
  · rw [m11]; exact close_of_err errOK_11 x

/-! ## C19: compressed serialisation -/

theorem encode_decode {d : Nat} (hd : 0 < d) (B : List UInt8) (hB : B.length = 32 * d) : ByteEncode d (decNum d fun j => B.getD j 0) = B := by
  refine ext_getD' (by rw [ByteEncode_length, hB]) fun j hj => ?_
  rw [ByteEncode_length] at hj
  rw [ByteEncode_getD' _ _ hj, encByte_decNum d hd]

/-- **C19.** For every byte string of the compressed length of a polynomial of `u`, `poly_decompress_du` followed by `poly_compress_du` reproduces the byte string. -/
theorem C19_du (K : Nat) (B : List UInt8) (hB : B.length = 32 * d_u K) (p : Buf Int) (hp : p.size = 256) (r : Buf UInt8) (hr : r.size = 32 * d_u K) :
    ∃ f, Returns (poly_decompress_du K p (Buf.ofList B) 0) (poly f) ∧ (∀ n, n < 256 → 0 ≤ f n ∧ f n < 3329) ∧ Returns (poly_compress_du K r 0 (poly f)) (Buf.ofList B) := by
  have hd : 0 < d_u K ∧ d_u K ≤ 11 := by rcases d_u_cases K with h | h <;> omega
  have hlt : ∀ n, decompNat (d_u K) (decNum (d_u K) (fun j => B.getD j 0) n) < 3329 := fun n => decompNat_lt _ _ hd.1 hd.2 (decNum_lt _ _ _)
  refine ⟨fun n => (decompNat (d_u K) (decNum (d_u K) (fun j => B.getD j 0) n) : Int), ret_eq (poly_decompress_du_spec ((SegL_ofList B).toN hB) hp) fun _ h => eq_poly h,
    fun n _ => by have := hlt n; dsimp only; omega, ?_⟩
  refine ret_eq (poly_compress_du_spec (f := fun n => decompNat (d_u K) (decNum (d_u K) (fun j => B.getD j 0) n)) (poly_holds _) (fun n _ => hlt n) (by omega)) fun r' h => ?_
  rw [written_encode h hr]
  congr 1
  rw [show (fun i => compNat (d_u K) (decompNat (d_u K) (decNum (d_u K) (fun j => B.getD j 0) i))) = decNum (d_u K) (fun j => B.getD j 0) from
    funext fun i => compNat_decompNat hd.1 hd.2 (decNum_lt _ _ _), encode_decode hd.1 B hB]

/-- **C19.** The same for the polynomial `v`. -/
theorem C19_dv (K : Nat) (B : List UInt8) (hB : B.length = 32 * d_v K) (p : Buf Int) (hp : p.size = 256) (r : Buf UInt8) (hr : r.size = 32 * d_v K) :
    ∃ f, Returns (poly_decompress_dv K p (Buf.ofList B) 0) (poly f) ∧ (∀ n, n < 256 → 0 ≤ f n ∧ f n < 3329) ∧ Returns (poly_compress_dv K r 0 (poly f)) (Buf.ofList B) := by
  have hd : 0 < d_v K ∧ d_v K ≤ 11 := by rcases d_v_cases K with h | h <;> omega
  have hlt : ∀ n, decompNat (d_v K) (decNum (d_v K) (fun j => B.getD j 0) n) < 3329 := fun n => decompNat_lt _ _ hd.1 hd.2 (decNum_lt _ _ _)
  refine ⟨fun n => (decompNat (d_v K) (decNum (d_v K) (fun j => B.getD j 0) n) : Int), ret_eq (poly_decompress_dv_spec ((SegL_ofList B).toN hB) hp) fun _ h => eq_poly h,
    fun n _ => by have := hlt n; dsimp only; omega, ?_⟩
  refine ret_eq (poly_compress_dv_spec (f := fun n => decompNat (d_v K) (decNum (d_v K) (fun j => B.getD j 0) n)) (poly_holds _) (fun n _ => hlt n) (by omega)) fun r' h => ?_
  rw [written_encode h hr]
  congr 1
  rw [show (fun i => compNat (d_v K) (decompNat (d_v K) (decNum (d_v K) (fun j => B.getD j 0) i))) = decNum (d_v K) (fun j => B.getD j 0) from
    funext fun i => compNat_decompNat hd.1 hd.2 (decNum_lt _ _ _), encode_decode hd.1 B hB]

/-- Byte strings that meet the hypotheses of C19, for each of the widths in use. -/
example (K : Nat) : (List.replicate (32 * d_u K) (0xa5 : UInt8)).length = 32 * d_u K ∧ (List.replicate (32 * d_v K) (0x5a : UInt8)).length = 32 * d_v K := by simp

/-! ## C20, C21, C22: the NTT -/

/-- **C20.** `poly_ntt` computes the FIPS 203 NTT modulo `q`, with outputs below `8q` in absolute value. -/
theorem C20_ntt (f : Nat → Int) (hf : ∀ n, n < 256 → -3329 < f n ∧ f n < 3329) :
    ∃ g, Returns (poly_ntt (poly f)) (poly g) ∧ (∀ n, n < 256 → modq g n = NTT (modq f) n) ∧ ∀ n, n < 256 → -(8 * 3329) < g n ∧ g n < 8 * 3329 := by
  obtain ⟨r, h, g, h1, h2, h3⟩ := ret_of_post (poly_ntt_spec (poly_holds f) hf)
  rw [eq_poly h1] at h
  exact ⟨g, h, h3, fun n hn => by have := h2 n hn; omega⟩

/-- **C21.** For all `int16_t` inputs, `poly_invntt_tomont` computes `2^16` times the inverse of the FIPS 203 NTT, with outputs below `3q/4` in absolute value. -/
theorem C21_invntt (f : Nat → Int) (hf : ∀ n, n < 256 → IsI16 (f n)) :
    ∃ g, Returns (poly_invntt_tomont (poly f)) (poly g) ∧ (∀ n, n < 256 → modq g n = 2 ^ 16 * NTTInv (modq f) n) ∧ ∀ n, n < 256 → -(3 * 3329) < 4 * g n ∧ 4 * g n < 3 * 3329 := by
  obtain ⟨r, h, g, h1, h2, h3⟩ := ret_of_post (poly_invntt_tomont_spec (poly_holds f) hf)
  rw [eq_poly h1] at h
  exact ⟨g, h, fun n hn => by have := h3 n hn; norm_num; exact this, fun n hn => by have := h2 n hn; omega⟩

/-- **C21.** `poly_ntt` followed by `poly_invntt_tomont` multiplies every coefficient by `2^16` modulo `q`. -/
theorem C21_inverse (f : Nat → Int) (hf : ∀ n, n < 256 → -3329 < f n ∧ f n < 3329) :
    ∃ g h, Returns (poly_ntt (poly f)) (poly g) ∧ Returns (poly_invntt_tomont (poly g)) (poly h) ∧ ∀ n, n < 256 → modq h n = 2 ^ 16 * modq f n := by
  obtain ⟨g, hg, h1, h2⟩ := C20_ntt f hf
  obtain ⟨h, hh, h3, _⟩ := C21_invntt g fun n hn => by have := h2 n hn; unfold IsI16; omega
  refine ⟨g, h, hg, hh, fun n hn => ?_⟩
  rw [h3 n hn, NTTInv_congr h1 n, NTTInv_NTT _ hn]

example : ∀ n, n < 256 → -3329 < (fun n : Nat => (n : Int) * 26 - 3328) n ∧ (fun n : Nat => (n : Int) * 26 - 3328) n < 3329 := fun n hn => by
  dsimp only; omega

/-- **C22** for two polynomials: transforming both, reducing one to below `q`, multiplying with the cached base multiplication and transforming back gives the product in
`Z_q[X]/(X^256+1)`. -/
theorem C22_product (f g : Nat → Int) (hf : ∀ n, n < 256 → -3329 < f n ∧ f n < 3329) (hg : ∀ n, n < 256 → -3329 < g n ∧ g n < 3329)
    (cache r : Buf Int) (hc : cache.size = 128) (hr : r.size = 256) :
    ∃ p, Returns (do
        let a ← poly_ntt (poly f)
        let a ← poly_reduce a
        let b ← poly_ntt (poly g)
        let c ← poly_mulcache_compute cache b
        let s ← poly_basemul_montgomery_cached r a b c
        poly_invntt_tomont s) (poly p) ∧ ∀ n, n < 256 → modq p n = mulRq (modq f) (modq g) n := by
  have key : Post (do
        let a ← poly_ntt (poly f)
        let a ← poly_reduce a
        let b ← poly_ntt (poly g)
        let c ← poly_mulcache_compute cache b
        let s ← poly_basemul_montgomery_cached r a b c
        poly_invntt_tomont s) (fun x => ∃ p, x = poly p ∧ ∀ n, n < 256 → modq p n = mulRq (modq f) (modq g) n) := by
    change PostF False _ _
    simp only [wp_bind]
    refine Post.use (poly_ntt_spec (poly_holds f) hf) fun a ⟨fa, ha, ba, za⟩ => ?_
    refine Post.use (poly_reduce_spec ha fun n hn => by have := ba n hn; omega) fun a' ha' => ?_
    refine Post.use (poly_ntt_spec (poly_holds g) hg) fun b ⟨fb, hb, bb, zb⟩ => ?_
    refine Post.use (poly_mulcache_compute_spec hb (fun n hn => by have := bb n hn; omega) hc) fun c hc => ?_
    have bfb : ∀ n, n < 256 → -32768 ≤ fb n ∧ fb n ≤ 32767 := fun n hn => by have := bb n hn; omega
    have bmc : ∀ n, n < 128 → -3329 < mc fb n ∧ mc fb n < 3329 := fun n hn => by have := mc_bound bfb hn; omega
    have bfa : ∀ n, n < 256 → -3329 < fa n % 3329 ∧ fa n % 3329 < 3329 := fun n _ => by omega
    refine Post.use (poly_basemul_spec ha' hb hc bfa bfb bmc hr) fun s hs => ?_
    refine Post.use (poly_invntt_tomont_spec hs fun n hn => by have := bm_bound bfa bfb (c := mc fb) (fun n hn => by have := bmc n hn; omega) hn; omega) fun x ⟨p, hx, bp, zp⟩ => ?_
    refine ⟨p, eq_poly hx, fun n hn => ?_⟩
    have e1 : ∀ m, m < 256 → ((bm (fun i => fa i % 3329) fb (mc fb) m : Int) : Zq) = 169 * MultiplyNTTs (NTT (modq f)) (NTT (modq g)) m := fun m hm => by
      rw [bm_zq _ _ hm]
      refine congrArg (fun t : Zq => 169 * t) ?_
      exact MultiplyNTTs_congr (fun k hk => (zq_int_eq (by omega) : ((fa k % 3329 : Int) : Zq) = fa k).trans (za k hk)) (fun k hk => zb k hk) hm
    have e2 : modq p n = 65536 * NTTInv (fun i => ((bm (fun i => fa i % 3329) fb (mc fb) i : Int) : Zq)) n := zp n hn
    rw [e2, NTTInv_congr e1 n, NTTInv_smul, NTTInv_MultiplyNTTs _ _ hn, ← mul_assoc]
    rw [show (65536 * 169 : Zq) = 1 by decide, one_mul]
  obtain ⟨x, hx, p, rfl, hp⟩ := ret_of_post key
  exact ⟨p, hx, hp⟩

/-! ## C32: message encoding -/

theorem compNat_one_noise {b : Bool} {w : Int} (hw : -832 ≤ w ∧ w ≤ 831) : compNat 1 ((((if b then 1665 else 0 : Int) + w) % 3329).toNat) = if b then 1 else 0 := by
  unfold compNat
  cases b <;> simp only [Bool.false_eq_true, if_false, if_true] <;> norm_num <;> omega

theorem frommsg_bit (B : Nat → UInt8) (i : Nat) : decompNat 1 (decNum 1 B i) = if fbit B i then 1665 else 0 := by
  unfold decNum
  simp [ofBits]
  split <;> rfl

/-- The sequence of calls in C32: encode, add noise, reduce, decode. -/
def noisyMessage (m : List UInt8) (w : Nat → Int) (p : Buf Int) (out : Buf UInt8) : M (Buf UInt8) := do
  let a ← poly_frommsg p (Buf.ofList m) 0
  let a ← poly_add a (poly w)
  let a ← poly_reduce a
  poly_tomsg out 0 a

theorem noisyMessage_eq (m : List UInt8) (hm : m.length = 32) (w : Nat → Int) (hw : ∀ n, n < 256 → -30000 ≤ w n ∧ w n ≤ 30000) (p : Buf Int) (hp : p.size = 256) (out : Buf UInt8) (ho : out.size = 32) :
    Returns (noisyMessage m w p out) (Buf.ofList (ByteEncode 1 fun n => compNat 1 ((((if bitAt m n then 1665 else 0 : Int) + w n) % 3329).toNat))) := by
  have key : Post (noisyMessage m w p out) (fun x => x = Buf.ofList (ByteEncode 1 fun n => compNat 1 ((((if bitAt m n then 1665 else 0 : Int) + w n) % 3329).toNat))) := by
    unfold noisyMessage
    change PostF False _ _
    simp only [wp_bind]
    refine Post.use (poly_frommsg_spec ((SegL_ofList m).toN hm) hp) fun a ha => ?_
    have hbit : ∀ i, (decompNat 1 (decNum 1 (fun j => m.getD j 0) i) : Int) = if bitAt m i then 1665 else 0 := fun i => by
      rw [frommsg_bit]; change ((if bitAt m i then 1665 else 0 : Nat) : Int) = _
      split <;> rfl
    have ha := ha.congr (g := fun i => if bitAt m i then (1665 : Int) else 0) fun i _ => hbit i
    refine Post.use (poly_add_spec ha (poly_holds w) fun i hi => by have := hw i hi; split <;> omega) fun a2 ha2 => ?_
    refine Post.use (poly_reduce_spec ha2 fun i hi => by have := hw i hi; split <;> omega) fun a3 ha3 => ?_
    have ha3 := ha3.congr (g := fun i => (((((if bitAt m i then (1665 : Int) else 0) + w i) % 3329).toNat : Nat) : Int)) fun i _ => by omega
    refine Post.use (poly_tomsg_spec ha3 (fun i _ => by omega) (by omega)) fun o h => written_encode (d := 1) h ho
  obtain ⟨x, hx, rfl⟩ := ret_of_post key
  exact hx

/-- **C32.** A message encoded as a polynomial, with noise `w` that is congruent modulo `q` to a value in [-832, 831] in every coefficient, decodes to the same message. -/
theorem C32_message_survives (m : List UInt8) (hm : m.length = 32) (w : Nat → Int) (hw : ∀ n, n < 256 → -30000 ≤ w n ∧ w n ≤ 30000)
    (hsmall : ∀ n, n < 256 → ∃ δ : Int, -832 ≤ δ ∧ δ ≤ 831 ∧ modq w n = δ) (p : Buf Int) (hp : p.size = 256) (out : Buf UInt8) (ho : out.size = 32) :
    Returns (noisyMessage m w p out) (Buf.ofList m) := by
  have h := noisyMessage_eq m hm w hw p hp out ho
  have e : ByteEncode 1 (fun n => compNat 1 ((((if bitAt m n then 1665 else 0 : Int) + w n) % 3329).toNat)) = m := by
    refine ext_getD' (by rw [ByteEncode_length, hm]) fun j hj => ?_
    rw [ByteEncode_length] at hj
    rw [ByteEncode_getD' _ _ hj, ← encByte_decNum 1 (by omega) (fun j => m.getD j 0) j]
    refine encByte_congr (fun c hc => ?_) hj
    obtain ⟨δ, h1, h2, h3⟩ := hsmall c hc
    have h4 : (w c - δ) % 3329 = 0 := by
      have : ((w c : Int) : Zq) = (δ : Zq) := h3
      rw [ZMod.intCast_eq_intCast_iff] at this
      have := this.symm.dvd
      omega
    rw [show ((if bitAt m c then 1665 else 0 : Int) + w c) % 3329 = ((if bitAt m c then 1665 else 0 : Int) + δ) % 3329 by split <;> omega, compNat_one_noise ⟨h1, h2⟩]
    unfold decNum
    simp only [ofBits, Finset.sum_range_one, mul_one, add_zero, pow_zero]
    rfl
  rwa [e] at h

/-- Noise that meets the hypothesis of C32 and is not small as an integer: 3329 in one coefficient, -832 and 831 in others. -/
example : ∀ n, n < 256 → ∃ δ : Int, -832 ≤ δ ∧ δ ≤ 831 ∧ modq (fun n => if n = 0 then 3329 else if n = 1 then -832 else 831) n = δ := by
  intro n _
  by_cases h0 : n = 0
  · exact ⟨0, by decide, by decide, by subst h0; show (((3329 : Int) : Zq)) = _; decide⟩
  by_cases h1 : n = 1
  · exact ⟨-832, by decide, by decide, by subst h1; rfl⟩
  · exact ⟨831, by decide, by decide, by unfold modq; beta_reduce; rw [if_neg h0, if_neg h1]⟩

/-- **C32**, tightness: noise 832 in one coefficient changes the message of 32 bytes 0xFF, noise -833 the message of 32 bytes 0. -/
theorem C32_tight (p : Buf Int) (hp : p.size = 256) (out : Buf UInt8) (ho : out.size = 32) (i : Nat) (hi : i < 256) :
    (∃ m', m' ≠ List.replicate 32 255 ∧ Returns (noisyMessage (List.replicate 32 255) (fun n => if n = i then 832 else 0) p out) (Buf.ofList m')) ∧
    (∃ m', m' ≠ List.replicate 32 0 ∧ Returns (noisyMessage (List.replicate 32 0) (fun n => if n = i then -833 else 0) p out) (Buf.ofList m')) := by
  have bit1 : ∀ f : Nat → Nat, ∀ m : List UInt8, ByteEncode 1 f = m → ∀ c, c < 256 → (f c).testBit 0 = bitAt m c := by
    rintro f m rfl c hc
    unfold bitAt
    rw [ByteEncode_getD' _ _ (by omega)]
    unfold encByte
    rw [testBit_byteOf _ (by omega), show 8 * (c / 8) + c % 8 = c by omega, Nat.div_one, Nat.mod_one]
  have ones : ∀ c, c < 256 → bitAt (List.replicate 32 255) c = true := by decide +kernel
  have zeros : ∀ c, c < 256 → bitAt (List.replicate 32 0) c = false := by decide +kernel
  refine ⟨⟨_, ?_, noisyMessage_eq _ (by simp) _ (fun n _ => by split <;> omega) p hp out ho⟩, ⟨_, ?_, noisyMessage_eq _ (by simp) _ (fun n _ => by split <;> omega) p hp out ho⟩⟩
  · intro h
    have := bit1 _ _ h i hi
    rw [ones i hi] at this
    simp only [if_true] at this
    exact absurd this (by decide)
  · intro h
    have := bit1 _ _ h i hi
    rw [zeros i hi] at this
    simp only [if_true, Bool.false_eq_true, if_false] at this
    exact absurd this (by decide)

end Verif.Props

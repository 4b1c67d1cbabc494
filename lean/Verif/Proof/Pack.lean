import Verif.Proof.Poly
import Mathlib.Tactic.IntervalCases
/-! # Serialisation of polynomials -/
namespace Verif
open Model Spec

variable {F : Prop}

/-- Byte `k` of `ByteEncode d f`. -/
def encByte (d : Nat) (f : Nat → Nat) (k : Nat) : UInt8 := byteOf fun t => (f ((8 * k + t) / d)).testBit ((8 * k + t) % d)

theorem ByteEncode_eq_map (d : Nat) (f : Nat → Nat) : ByteEncode d f = (List.range (32 * d)).map (encByte d f) := rfl

/-- Bit `n` of a byte sequence. -/
def fbit (B : Nat → UInt8) (n : Nat) : Bool := (B (n / 8)).toNat.testBit (n % 8)

/-- The `i`-th `d`-bit number of a byte sequence. -/
def decNum (d : Nat) (B : Nat → UInt8) (i : Nat) : Nat := ofBits d fun j => fbit B (i * d + j)

theorem decNum_lt (d : Nat) (B : Nat → UInt8) (i : Nat) : decNum d B i < 2 ^ d := ofBits_lt _ _

theorem fbit_group {B : Nat → UInt8} {d m s i c j : Nat} (h : 8 * s = d * m) :
    fbit B ((m * i + c) * d + j) = (B (s * i + (c * d + j) / 8)).toNat.testBit ((c * d + j) % 8) := by
  unfold fbit
  have : (m * i + c) * d + j = 8 * (s * i) + (c * d + j) := by
    rw [← Nat.mul_assoc, h]; ring
  rw [this, Nat.mul_add_div (by omega), Nat.mul_add_mod]

/-- Introduction rule for byte packing: `m` numbers of `d` bits in `s` bytes. -/
theorem toU8_encByte {x d m s i c : Nat} {f : Nat → Nat} (h0 : 0 < d) (h : 8 * s = d * m)
    (hx : ∀ t, t < 8 → x.testBit t = (f (m * i + (8 * c + t) / d)).testBit ((8 * c + t) % d)) : toU8 x = encByte d f (s * i + c) := by
  unfold encByte
  apply toU8_eq_byteOf
  intro t ht
  rw [hx t ht]
  have : 8 * (s * i + c) + t = d * (m * i) + (8 * c + t) := by
    rw [← Nat.mul_assoc, ← h]; ring
  rw [this, Nat.mul_add_div h0, Nat.mul_add_mod]

/-- Introduction rule for unpacking. -/
theorem eq_decNum {x d m s i c : Nat} {B : Nat → UInt8} (h : 8 * s = d * m) (hlt : x < 2 ^ d)
    (hx : ∀ j, j < d → x.testBit j = (B (s * i + (c * d + j) / 8)).toNat.testBit ((c * d + j) % 8)) : x = decNum d B (m * i + c) := by
  apply eq_ofBits hlt
  intro j hj
  rw [hx j hj, fbit_group h]

open Lean Meta in
/-- Evaluates `Nat.testBit` on literals. -/
dsimproc_decl reduceTestBit (Nat.testBit _ _) := fun e => do
  let_expr Nat.testBit a b := e | return .continue
  let some a ← Nat.fromExpr? a | return .continue
  let some b ← Nat.fromExpr? b | return .continue
  return .done (toExpr (Nat.testBit a b))

/-- Closes the bit-level side conditions of packing and unpacking. -/
macro "pack_bits" : tactic => `(tactic| (
  intro t ht
  interval_cases t <;> simp [Nat.testBit_or, Nat.testBit_and, Nat.testBit_shiftLeft, Nat.testBit_shiftRight, uint8_testBit_ge, reduceTestBit, -Nat.testBit_zero, *]))

theorem u16_natCast {n : Nat} (h : n < 65536) : u16 (n : Int) = n := by unfold u16; omega

theorem poly_tobytes_spec {a : Model.Poly} {f : Nat → Nat} (ha : Holds a 256 (fun i => (f i : Int))) (hf : ∀ i, i < 256 → f i < 3329)
    {r : Buf UInt8} {ro : Nat} (hr : ro + 384 ≤ r.size) :
    Post (poly_tobytes r ro a) (fun r' => Written r r' ro 384 (encByte 12 f)) := by
  unfold poly_tobytes
  simp only [wp_bind, wp_pure]
  refine POLY_UBOUND_wp ha (fun i hi => by have := hf i hi; omega) ?_
  refine wp_forN (fun i r' => Written r r' ro (3 * i) (encByte 12 f)) (Written.refl _ _ _) ?_ (fun _ h => h)
  intro i r' hi hI
  simp only [wp_bind, wp_rd, wp_wr]
  refine ⟨_, ha.get (by omega), _, ha.get (by omega), ?_⟩
  have h0 := hf (2 * i) (by omega)
  have h1 := hf (2 * i + 1) (by omega)
  rw [u16_natCast (by omega), u16_natCast (by omega)]
  simp only [Array.size_setIfInBounds, hI.1]
  refine ⟨by omega, by omega, by omega, ?_⟩
  have hb0 : ∀ t, 12 ≤ t → (f (2 * i)).testBit t = false := fun t ht => testBit_of_lt (n := 12) (by omega) ht
  have hb1 : ∀ t, 12 ≤ t → (f (2 * i + 1)).testBit t = false := fun t ht => testBit_of_lt (n := 12) (by omega) ht
  refine Written.push (n := 3 * i + 2) (Written.push (n := 3 * i + 1) (Written.push hI ?_ ?_ ?_) ?_ ?_ ?_) ?_ ?_ ?_
  any_goals omega
  · exact toU8_encByte (m := 2) (c := 0) (by omega) rfl (by pack_bits)
  · exact toU8_encByte (m := 2) (c := 1) (by omega) rfl (by pack_bits)
  · exact toU8_encByte (m := 2) (c := 2) (by omega) rfl (by pack_bits)

theorem poly_frombytes_spec {a : Buf UInt8} {ao : Nat} {B : Nat → UInt8} (ha : Seg a ao 384 B) {r : Model.Poly} (hr : r.size = 256) :
    Post (poly_frombytes r a ao) (fun r' => Holds r' 256 (fun i => (decNum 12 B i : Int))) := by
  unfold poly_frombytes
  simp only [wp_bind, wp_pure]
  refine wp_forN (fun i r' => Written r r' 0 (2 * i) (fun i => (decNum 12 B i : Int))) (Written.refl _ _ _) ?_ ?_
  · intro i r' hi hI
    simp only [wp_bind, wp_rd, wp_wr, wp_i16]
    refine ⟨_, ha.get (by omega), _, ha.get (by omega), _, ha.get (by omega), ?_⟩
    simp only [Array.size_setIfInBounds, hI.1, hr]
    have h0 : ((B (3 * i + 0)).toNat ||| (B (3 * i + 1)).toNat <<< 8 &&& 4095) = decNum 12 B (2 * i + 0) := by
      refine eq_decNum (m := 2) (s := 3) rfl (Nat.or_lt_two_pow ?_ ?_) (by pack_bits)
      · exact lt_trans (UInt8.toNat_lt _) (by norm_num)
      · exact lt_of_le_of_lt Nat.and_le_right (by norm_num)
    have h1 : ((B (3 * i + 1)).toNat >>> 4 ||| (B (3 * i + 2)).toNat <<< 4) = decNum 12 B (2 * i + 1) := by
      refine eq_decNum (m := 2) (s := 3) rfl (Nat.or_lt_two_pow ?_ ?_) (by pack_bits)
      · have := UInt8.toNat_lt (B (3 * i + 1)); rw [Nat.shiftRight_eq_div_pow]; omega
      · have := UInt8.toNat_lt (B (3 * i + 2)); rw [Nat.shiftLeft_eq]; omega
    rw [h0, h1]
    have l0 := decNum_lt 12 B (2 * i + 0)
    have l1 := decNum_lt 12 B (2 * i + 1)
    refine ⟨by omega, by omega, by omega, by omega, ?_⟩
    exact (hI.push (by omega) (by omega) rfl).push (by omega) (by omega) rfl
  · intro r' hI
    have hI := hI.holds hr
    exact POLY_UBOUND_wp hI (fun i hi => by have := decNum_lt 12 B i; omega) hI

theorem compressLoop_spec {sc : Nat → Nat} {a : Model.Poly} {f : Nat → Nat} (ha : Holds a 256 (fun i => (f i : Int))) (hf : ∀ i, i < 256 → f i < 3329)
    {base n : Nat} (hn : base + n ≤ 256) :
    Post (compressLoop sc a base n) (fun t => Holds t n (fun k => sc (f (base + k)))) := by
  unfold compressLoop
  refine wp_forN (fun i t => Written (Buf.uninit Nat n) t 0 i (fun k => sc (f (base + k)))) (Written.refl _ _ _) ?_
    (fun _ h => h.holds (by simp))
  intro i t hi hI
  simp only [wp_bind, wp_rd, wp_wr]
  refine ⟨_, ha.get (by omega), by rw [hI.1]; simp; omega, hI.push (by simp; omega) (by omega) ?_⟩
  rw [u16_natCast (by have := hf (base + i) (by omega); omega)]

theorem fillLocal_spec (vals : List Nat) :
    Post (fillLocal vals) (fun t => Holds t vals.length (fun k => vals.getD k 0)) := by
  unfold fillLocal
  refine wp_forN (fun i t => Written (Buf.uninit Nat vals.length) t 0 i (fun k => vals.getD k 0)) (Written.refl _ _ _) ?_
    (fun _ h => h.holds (by simp))
  intro i t hi hI
  rw [List.getElem?_eq_getElem hi]
  simp only [wp_wr]
  refine ⟨by rw [hI.1]; simp; omega, hI.push (by simp; omega) (by omega) ?_⟩
  simp [List.getD, hi]

theorem decompressLoop_spec {sd : Nat → Nat} {r0 r : Model.Poly} {base n : Nat} {t : Buf Nat} {v : Nat → Nat} {g : Nat → Nat} (ht : Holds t n v)
    (hn : base + n ≤ 256) (hr : r0.size = 256) (hW : Written r0 r 0 base (fun i => (g i : Int)))
    (hg : ∀ k, k < n → sd (v k) = g (base + k)) (hg' : ∀ k, k < n → g (base + k) < 3329) :
    Post (decompressLoop sd r base n t) (fun r' => Written r0 r' 0 (base + n) (fun i => (g i : Int))) := by
  unfold decompressLoop
  refine wp_forN (fun i r' => Written r0 r' 0 (base + i) (fun i => (g i : Int))) hW ?_ (fun _ h => h)
  intro i r' hi hI
  simp only [wp_bind, wp_rd, wp_wr, wp_i16]
  have h1 := hg i hi
  have h2 := hg' i hi
  refine ⟨_, ht.get hi, by omega, by rw [hI.1]; omega, hI.push (by omega) (by omega) ?_⟩
  rw [h1]

theorem pack5_10 {r r' : Buf UInt8} {ro j : Nat} {f : Nat → Nat} (hf : ∀ i, f i < 1024) (hj : ro + 5 * j + 5 ≤ r.size) (hI : Written r r' ro (5 * j) (encByte 10 f))
    {t : Buf Nat} (ht : Holds t 4 (fun k => f (4 * j + k))) : Post (do
      let r ← wr r' (ro + (5 * j + 0)) (toU8 (((← rd t 0) >>> 0) &&& 0xFF))
      let r ← wr r (ro + (5 * j + 1)) (toU8 (((← rd t 0) >>> 8) ||| (((← rd t 1) <<< 2) &&& 0xFF)))
      let r ← wr r (ro + (5 * j + 2)) (toU8 (((← rd t 1) >>> 6) ||| (((← rd t 2) <<< 4) &&& 0xFF)))
      let r ← wr r (ro + (5 * j + 3)) (toU8 (((← rd t 2) >>> 4) ||| (((← rd t 3) <<< 6) &&& 0xFF)))
      wr r (ro + (5 * j + 4)) (toU8 ((← rd t 3) >>> 2))) (fun r' => Written r r' ro (5 * (j + 1)) (encByte 10 f)) := by
  simp only [wp_bind, wp_rd, wp_wr, Array.size_setIfInBounds, hI.1]
  have hb : ∀ i t, 10 ≤ t → (f i).testBit t = false := fun i t ht => testBit_of_lt (n := 10) (hf i) ht
  refine ⟨_, ht.get (by omega), by omega, _, ht.get (by omega), _, ht.get (by omega), by omega, _, ht.get (by omega), _, ht.get (by omega), by omega,
    _, ht.get (by omega), _, ht.get (by omega), by omega, _, ht.get (by omega), by omega, ?_⟩
  refine Written.push (n := 5 * j + 4) (Written.push (n := 5 * j + 3) (Written.push (n := 5 * j + 2) (Written.push (n := 5 * j + 1) (Written.push hI ?_ ?_ ?_) ?_ ?_ ?_) ?_ ?_ ?_) ?_ ?_ ?_) ?_ ?_ ?_
  any_goals omega
  · exact toU8_encByte (m := 4) (c := 0) (by omega) rfl (by pack_bits)
  · exact toU8_encByte (m := 4) (c := 1) (by omega) rfl (by pack_bits)
  · exact toU8_encByte (m := 4) (c := 2) (by omega) rfl (by pack_bits)
  · exact toU8_encByte (m := 4) (c := 3) (by omega) rfl (by pack_bits)
  · exact toU8_encByte (m := 4) (c := 4) (by omega) rfl (by pack_bits)

theorem pack11_11 {r r' : Buf UInt8} {ro j : Nat} {f : Nat → Nat} (hf : ∀ i, f i < 2048) (hj : ro + 11 * j + 11 ≤ r.size) (hI : Written r r' ro (11 * j) (encByte 11 f))
    {t : Buf Nat} (ht : Holds t 8 (fun k => f (8 * j + k))) : Post (do
      let r ← wr r' (ro + (11 * j + 0)) (toU8 (((← rd t 0) >>> 0) &&& 0xFF))
      let r ← wr r (ro + (11 * j + 1)) (toU8 (((← rd t 0) >>> 8) ||| (((← rd t 1) <<< 3) &&& 0xFF)))
      let r ← wr r (ro + (11 * j + 2)) (toU8 (((← rd t 1) >>> 5) ||| (((← rd t 2) <<< 6) &&& 0xFF)))
      let r ← wr r (ro + (11 * j + 3)) (toU8 (((← rd t 2) >>> 2) &&& 0xFF))
      let r ← wr r (ro + (11 * j + 4)) (toU8 (((← rd t 2) >>> 10) ||| (((← rd t 3) <<< 1) &&& 0xFF)))
      let r ← wr r (ro + (11 * j + 5)) (toU8 (((← rd t 3) >>> 7) ||| (((← rd t 4) <<< 4) &&& 0xFF)))
      let r ← wr r (ro + (11 * j + 6)) (toU8 (((← rd t 4) >>> 4) ||| (((← rd t 5) <<< 7) &&& 0xFF)))
      let r ← wr r (ro + (11 * j + 7)) (toU8 (((← rd t 5) >>> 1) &&& 0xFF))
      let r ← wr r (ro + (11 * j + 8)) (toU8 (((← rd t 5) >>> 9) ||| (((← rd t 6) <<< 2) &&& 0xFF)))
      let r ← wr r (ro + (11 * j + 9)) (toU8 (((← rd t 6) >>> 6) ||| (((← rd t 7) <<< 5) &&& 0xFF)))
      wr r (ro + (11 * j + 10)) (toU8 ((← rd t 7) >>> 3))) (fun r' => Written r r' ro (11 * (j + 1)) (encByte 11 f)) := by
  simp only [wp_bind, wp_rd, wp_wr, Array.size_setIfInBounds, hI.1]
  have hb : ∀ i t, 11 ≤ t → (f i).testBit t = false := fun i t ht => testBit_of_lt (n := 11) (hf i) ht
  refine ⟨_, ht.get (by omega), by omega, _, ht.get (by omega), _, ht.get (by omega), by omega, _, ht.get (by omega), _, ht.get (by omega), by omega,
    _, ht.get (by omega), by omega, _, ht.get (by omega), _, ht.get (by omega), by omega, _, ht.get (by omega), _, ht.get (by omega), by omega,
    _, ht.get (by omega), _, ht.get (by omega), by omega, _, ht.get (by omega), by omega, _, ht.get (by omega), _, ht.get (by omega), by omega,
    _, ht.get (by omega), _, ht.get (by omega), by omega, _, ht.get (by omega), by omega, ?_⟩
  refine Written.push (n := 11 * j + 10) (Written.push (n := 11 * j + 9) (Written.push (n := 11 * j + 8) (Written.push (n := 11 * j + 7) (Written.push (n := 11 * j + 6)
   (Written.push (n := 11 * j + 5) (Written.push (n := 11 * j + 4) (Written.push (n := 11 * j + 3) (Written.push (n := 11 * j + 2) (Written.push (n := 11 * j + 1)
    (Written.push hI ?_ ?_ ?_) ?_ ?_ ?_) ?_ ?_ ?_) ?_ ?_ ?_) ?_ ?_ ?_) ?_ ?_ ?_) ?_ ?_ ?_) ?_ ?_ ?_) ?_ ?_ ?_) ?_ ?_ ?_) ?_ ?_ ?_
  any_goals omega
  · exact toU8_encByte (m := 8) (c := 0) (by omega) rfl (by pack_bits)
  · exact toU8_encByte (m := 8) (c := 1) (by omega) rfl (by pack_bits)
  · exact toU8_encByte (m := 8) (c := 2) (by omega) rfl (by pack_bits)
  · exact toU8_encByte (m := 8) (c := 3) (by omega) rfl (by pack_bits)
  · exact toU8_encByte (m := 8) (c := 4) (by omega) rfl (by pack_bits)
  · exact toU8_encByte (m := 8) (c := 5) (by omega) rfl (by pack_bits)
  · exact toU8_encByte (m := 8) (c := 6) (by omega) rfl (by pack_bits)
  · exact toU8_encByte (m := 8) (c := 7) (by omega) rfl (by pack_bits)
  · exact toU8_encByte (m := 8) (c := 8) (by omega) rfl (by pack_bits)
  · exact toU8_encByte (m := 8) (c := 9) (by omega) rfl (by pack_bits)
  · exact toU8_encByte (m := 8) (c := 10) (by omega) rfl (by pack_bits)

theorem poly_compress_du_spec {K : Nat} {a : Model.Poly} {f : Nat → Nat} (ha : Holds a 256 (fun i => (f i : Int))) (hf : ∀ i, i < 256 → f i < 3329)
    {r : Buf UInt8} {ro : Nat} (hr : ro + 32 * d_u K ≤ r.size) :
    Post (poly_compress_du K r ro a) (fun r' => Written r r' ro (32 * d_u K) (encByte (d_u K) fun i => compNat (d_u K) (f i))) := by
  unfold poly_compress_du
  by_cases hK : K = 4
  · have hd : d_u K = 11 := by simp [d_u, hK]
    rw [hd] at hr ⊢
    rw [if_pos (by simp [MLKEM_POLYCOMPRESSEDBYTES_DU, hK])]
    refine wp_forN (fun j r' => Written r r' ro (11 * j) _) (Written.refl _ _ _) ?_ (fun _ h => h)
    intro j r' hj hI
    rw [wp_bind]
    refine Post.use (compressLoop_spec ha hf (by omega)) fun t ht => ?_
    refine Post.use (pack11_11 (fun i => compNat_lt 11 _) (by omega) hI (ht.congr fun k hk => ?_)) fun _ h => h
    exact scalar_compress_d11_eq _ (hf _ (by omega))
  · have hd : d_u K = 10 := by simp [d_u, hK]
    rw [hd] at hr ⊢
    rw [if_neg (by simp [MLKEM_POLYCOMPRESSEDBYTES_DU, hK])]
    refine wp_forN (fun j r' => Written r r' ro (5 * j) _) (Written.refl _ _ _) ?_ (fun _ h => h)
    intro j r' hj hI
    rw [wp_bind]
    refine Post.use (compressLoop_spec ha hf (by omega)) fun t ht => ?_
    refine Post.use (pack5_10 (fun i => compNat_lt 10 _) (by omega) hI (ht.congr fun k hk => ?_)) fun _ h => h
    exact scalar_compress_d10_eq _ (hf _ (by omega))

theorem unmask_lt {m x n : Nat} (h : m < n) : m &&& x < n := lt_of_le_of_lt Nat.and_le_left h

theorem unpack11 (B : Nat → UInt8) (j k : Nat) (hk : k < 8) : ([0x7FF &&& ((B (11 * j + 0)).toNat >>> 0 ||| (B (11 * j + 1)).toNat <<< 8), 0x7FF &&& ((B (11 * j + 1)).toNat >>> 3 ||| (B (11 * j + 2)).toNat <<< 5), 0x7FF &&& ((B (11 * j + 2)).toNat >>> 6 ||| (B (11 * j + 3)).toNat <<< 2 ||| (B (11 * j + 4)).toNat <<< 10), 0x7FF &&& ((B (11 * j + 4)).toNat >>> 1 ||| (B (11 * j + 5)).toNat <<< 7), 0x7FF &&& ((B (11 * j + 5)).toNat >>> 4 ||| (B (11 * j + 6)).toNat <<< 4), 0x7FF &&& ((B (11 * j + 6)).toNat >>> 7 ||| (B (11 * j + 7)).toNat <<< 1 ||| (B (11 * j + 8)).toNat <<< 9), 0x7FF &&& ((B (11 * j + 8)).toNat >>> 2 ||| (B (11 * j + 9)).toNat <<< 6), 0x7FF &&& ((B (11 * j + 9)).toNat >>> 5 ||| (B (11 * j + 10)).toNat <<< 3)]).getD k 0 = decNum 11 B (8 * j + k) := by
  interval_cases k
  · exact eq_decNum (m := 8) (s := 11) rfl (unmask_lt (by norm_num)) (by pack_bits)
  · exact eq_decNum (m := 8) (s := 11) rfl (unmask_lt (by norm_num)) (by pack_bits)
  · exact eq_decNum (m := 8) (s := 11) rfl (unmask_lt (by norm_num)) (by pack_bits)
  · exact eq_decNum (m := 8) (s := 11) rfl (unmask_lt (by norm_num)) (by pack_bits)
  · exact eq_decNum (m := 8) (s := 11) rfl (unmask_lt (by norm_num)) (by pack_bits)
  · exact eq_decNum (m := 8) (s := 11) rfl (unmask_lt (by norm_num)) (by pack_bits)
  · exact eq_decNum (m := 8) (s := 11) rfl (unmask_lt (by norm_num)) (by pack_bits)
  · exact eq_decNum (m := 8) (s := 11) rfl (unmask_lt (by norm_num)) (by pack_bits)

theorem unpack10 (B : Nat → UInt8) (j k : Nat) (hk : k < 4) : ([0x3FF &&& ((B (5 * j + 0)).toNat >>> 0 ||| (B (5 * j + 1)).toNat <<< 8), 0x3FF &&& ((B (5 * j + 1)).toNat >>> 2 ||| (B (5 * j + 2)).toNat <<< 6), 0x3FF &&& ((B (5 * j + 2)).toNat >>> 4 ||| (B (5 * j + 3)).toNat <<< 4), 0x3FF &&& ((B (5 * j + 3)).toNat >>> 6 ||| (B (5 * j + 4)).toNat <<< 2)]).getD k 0 = decNum 10 B (4 * j + k) := by
  interval_cases k
  · exact eq_decNum (m := 4) (s := 5) rfl (unmask_lt (by norm_num)) (by pack_bits)
  · exact eq_decNum (m := 4) (s := 5) rfl (unmask_lt (by norm_num)) (by pack_bits)
  · exact eq_decNum (m := 4) (s := 5) rfl (unmask_lt (by norm_num)) (by pack_bits)
  · exact eq_decNum (m := 4) (s := 5) rfl (unmask_lt (by norm_num)) (by pack_bits)

theorem unpack5 (B : Nat → UInt8) (j k : Nat) (hk : k < 8) : ([0x1F &&& (B (5 * j + 0)).toNat >>> 0, 0x1F &&& ((B (5 * j + 0)).toNat >>> 5 ||| (B (5 * j + 1)).toNat <<< 3), 0x1F &&& (B (5 * j + 1)).toNat >>> 2, 0x1F &&& ((B (5 * j + 1)).toNat >>> 7 ||| (B (5 * j + 2)).toNat <<< 1), 0x1F &&& ((B (5 * j + 2)).toNat >>> 4 ||| (B (5 * j + 3)).toNat <<< 4), 0x1F &&& (B (5 * j + 3)).toNat >>> 1, 0x1F &&& ((B (5 * j + 3)).toNat >>> 6 ||| (B (5 * j + 4)).toNat <<< 2), 0x1F &&& (B (5 * j + 4)).toNat >>> 3]).getD k 0 = decNum 5 B (8 * j + k) := by
  interval_cases k
  · exact eq_decNum (m := 8) (s := 5) rfl (unmask_lt (by norm_num)) (by pack_bits)
  · exact eq_decNum (m := 8) (s := 5) rfl (unmask_lt (by norm_num)) (by pack_bits)
  · exact eq_decNum (m := 8) (s := 5) rfl (unmask_lt (by norm_num)) (by pack_bits)
  · exact eq_decNum (m := 8) (s := 5) rfl (unmask_lt (by norm_num)) (by pack_bits)
  · exact eq_decNum (m := 8) (s := 5) rfl (unmask_lt (by norm_num)) (by pack_bits)
  · exact eq_decNum (m := 8) (s := 5) rfl (unmask_lt (by norm_num)) (by pack_bits)
  · exact eq_decNum (m := 8) (s := 5) rfl (unmask_lt (by norm_num)) (by pack_bits)
  · exact eq_decNum (m := 8) (s := 5) rfl (unmask_lt (by norm_num)) (by pack_bits)

theorem poly_decompress_du_spec {K : Nat} {a : Buf UInt8} {ao : Nat} {B : Nat → UInt8} (ha : Seg a ao (32 * d_u K) B)
    {r : Model.Poly} (hr : r.size = 256) :
    Post (poly_decompress_du K r a ao) (fun r' => Holds r' 256 (fun i => (decompNat (d_u K) (decNum (d_u K) B i) : Int))) := by
  unfold poly_decompress_du
  by_cases hK : K = 4
  · have hd : d_u K = 11 := by simp [d_u, hK]
    rw [hd] at ha ⊢
    rw [if_pos (by simp [MLKEM_POLYCOMPRESSEDBYTES_DU, hK])]
    refine wp_forN (fun i r' => Written r r' 0 (8 * i) _) (Written.refl _ _ _) ?_ (fun _ h => h.holds hr)
    intro j r' hj hI
    have hg : ∀ i, i < 11 → a[ao + 11 * j + i]? = some (some (B (11 * j + i))) := fun i hi => by
      rw [Nat.add_assoc]; exact ha.get (by omega)
    simp only [wp_bind, wp_rd, wp_pure]
    refine ⟨_, hg 0 (by omega), _, hg 1 (by omega), _, hg 1 (by omega), _, hg 2 (by omega), _, hg 2 (by omega), _, hg 3 (by omega), _, hg 4 (by omega),
      _, hg 4 (by omega), _, hg 5 (by omega), _, hg 5 (by omega), _, hg 6 (by omega), _, hg 6 (by omega), _, hg 7 (by omega), _, hg 8 (by omega),
      _, hg 8 (by omega), _, hg 9 (by omega), _, hg 9 (by omega), _, hg 10 (by omega), ?_⟩
    refine Post.use (fillLocal_spec _) fun t ht => ?_
    refine Post.use (decompressLoop_spec ht (by simp; omega) hr hI ?_ ?_) fun _ h => h
    · intro k hk
      have : ∀ x, x = decNum 11 B (8 * j + k) → scalar_decompress_d11 x = decompNat 11 (decNum 11 B (8 * j + k)) := by
        rintro x rfl; exact scalar_decompress_d11_eq _ (decNum_lt 11 B _)
      exact this _ (unpack11 B j k hk)
    · intro k _
      exact decompNat_lt 11 _ (by omega) (by omega) (decNum_lt 11 B _)
  · have hd : d_u K = 10 := by simp [d_u, hK]
    rw [hd] at ha ⊢
    rw [if_neg (by simp [MLKEM_POLYCOMPRESSEDBYTES_DU, hK])]
    refine wp_forN (fun i r' => Written r r' 0 (4 * i) _) (Written.refl _ _ _) ?_ (fun _ h => h.holds hr)
    intro j r' hj hI
    have hg : ∀ i, i < 5 → a[ao + 5 * j + i]? = some (some (B (5 * j + i))) := fun i hi => by
      rw [Nat.add_assoc]; exact ha.get (by omega)
    simp only [wp_bind, wp_rd, wp_pure]
    refine ⟨_, hg 0 (by omega), _, hg 1 (by omega), _, hg 1 (by omega), _, hg 2 (by omega), _, hg 2 (by omega), _, hg 3 (by omega), 
      _, hg 3 (by omega), _, hg 4 (by omega), ?_⟩
    refine Post.use (fillLocal_spec _) fun t ht => ?_
    refine Post.use (decompressLoop_spec ht (by simp; omega) hr hI ?_ ?_) fun _ h => h
    · intro k hk
      have : ∀ x, x = decNum 10 B (4 * j + k) → scalar_decompress_d10 x = decompNat 10 (decNum 10 B (4 * j + k)) := by
        rintro x rfl; exact scalar_decompress_d10_eq _ (decNum_lt 10 B _)
      exact this _ (unpack10 B j k hk)
    · intro k _
      exact decompNat_lt 10 _ (by omega) (by omega) (decNum_lt 10 B _)

theorem poly_compress_dv_spec {K : Nat} {a : Model.Poly} {f : Nat → Nat} (ha : Holds a 256 (fun i => (f i : Int))) (hf : ∀ i, i < 256 → f i < 3329)
    {r : Buf UInt8} {ro : Nat} (hr : ro + 32 * d_v K ≤ r.size) :
    Post (poly_compress_dv K r ro a) (fun r' => Written r r' ro (32 * d_v K) (encByte (d_v K) fun i => compNat (d_v K) (f i))) := by
  unfold poly_compress_dv
  simp only [wp_bind, wp_pure]
  refine POLY_UBOUND_wp ha (fun i hi => by have := hf i hi; omega) ?_
  by_cases hK : K = 4
  · have hd : d_v K = 5 := by simp [d_v, hK]
    rw [hd] at hr ⊢
    rw [if_neg (by simp [MLKEM_POLYCOMPRESSEDBYTES_DV, hK])]
    refine wp_forN (fun j r' => Written r r' ro (5 * j) _) (Written.refl _ _ _) ?_ (fun _ h => h)
    intro j r' hj hI
    simp only [wp_bind, wp_pure]
    refine Post.use (compressLoop_spec ha hf (by omega)) fun t ht => ?_
    have ht : Holds t 8 (fun k => compNat 5 (f (8 * j + k))) := ht.congr fun k hk => by
      simp only [scalar_compress_d5_eq _ (hf (8 * j + k) (by omega))]
      have := compNat_lt 5 (f (8 * j + k)); omega
    have hb : ∀ i t, 5 ≤ t → (compNat 5 (f i)).testBit t = false := fun i t ht => testBit_of_lt (n := 5) (compNat_lt _ _) ht
    have hz : ro + j * 5 = ro + (5 * j) := by omega
    simp only [wp_rd, wp_wr, Array.size_setIfInBounds, hI.1]
    refine ⟨_, ht.get (by omega), _, ht.get (by omega), by omega, _, ht.get (by omega), _, ht.get (by omega), _, ht.get (by omega), by omega,
      _, ht.get (by omega), _, ht.get (by omega), by omega, _, ht.get (by omega), _, ht.get (by omega), _, ht.get (by omega), by omega,
      _, ht.get (by omega), _, ht.get (by omega), by omega, ?_⟩
    refine Written.push (n := 5 * j + 4) (Written.push (n := 5 * j + 3) (Written.push (n := 5 * j + 2) (Written.push (n := 5 * j + 1) (Written.push hI ?_ ?_ ?_) ?_ ?_ ?_) ?_ ?_ ?_) ?_ ?_ ?_) ?_ ?_ ?_
    any_goals omega
    · exact toU8_encByte (m := 8) (c := 0) (by omega) rfl (by pack_bits)
    · exact toU8_encByte (m := 8) (c := 1) (by omega) rfl (by pack_bits)
    · exact toU8_encByte (m := 8) (c := 2) (by omega) rfl (by pack_bits)
    · exact toU8_encByte (m := 8) (c := 3) (by omega) rfl (by pack_bits)
    · exact toU8_encByte (m := 8) (c := 4) (by omega) rfl (by pack_bits)
  · have hd : d_v K = 4 := by simp [d_v, hK]
    rw [hd] at hr ⊢
    rw [if_pos (by simp [MLKEM_POLYCOMPRESSEDBYTES_DV, hK])]
    refine wp_forN (fun j r' => Written r r' ro (4 * j) _) (Written.refl _ _ _) ?_ (fun _ h => h)
    intro j r' hj hI
    simp only [wp_bind, wp_pure]
    refine Post.use (compressLoop_spec ha hf (by omega)) fun t ht => ?_
    have ht : Holds t 8 (fun k => compNat 4 (f (8 * j + k))) := ht.congr fun k hk => by
      simp only [scalar_compress_d4_eq _ (hf (8 * j + k) (by omega))]
      have := compNat_lt 4 (f (8 * j + k)); omega
    have hb : ∀ i t, 4 ≤ t → (compNat 4 (f i)).testBit t = false := fun i t ht => testBit_of_lt (n := 4) (compNat_lt _ _) ht
    simp only [wp_rd, wp_wr, Array.size_setIfInBounds, hI.1]
    refine ⟨_, ht.get (by omega), _, ht.get (by omega), by omega, _, ht.get (by omega), _, ht.get (by omega), by omega,
      _, ht.get (by omega), _, ht.get (by omega), by omega, _, ht.get (by omega), _, ht.get (by omega), by omega, ?_⟩
    refine Written.push (n := 4 * j + 3) (Written.push (n := 4 * j + 2) (Written.push (n := 4 * j + 1) (Written.push hI ?_ ?_ ?_) ?_ ?_ ?_) ?_ ?_ ?_) ?_ ?_ ?_
    any_goals omega
    · exact toU8_encByte (m := 8) (c := 0) (by omega) rfl (by pack_bits)
    · exact toU8_encByte (m := 8) (c := 1) (by omega) rfl (by pack_bits)
    · exact toU8_encByte (m := 8) (c := 2) (by omega) rfl (by pack_bits)
    · exact toU8_encByte (m := 8) (c := 3) (by omega) rfl (by pack_bits)

theorem poly_decompress_dv_spec {K : Nat} {a : Buf UInt8} {ao : Nat} {B : Nat → UInt8} (ha : Seg a ao (32 * d_v K) B)
    {r : Model.Poly} (hr : r.size = 256) :
    Post (poly_decompress_dv K r a ao) (fun r' => Holds r' 256 (fun i => (decompNat (d_v K) (decNum (d_v K) B i) : Int))) := by
  have key : ∀ r', Holds r' 256 (fun i => (decompNat (d_v K) (decNum (d_v K) B i) : Int)) →
      PostF False (POLY_UBOUND r' 3329) (fun _ => Holds r' 256 (fun i => (decompNat (d_v K) (decNum (d_v K) B i) : Int))) := by
    intro r' hr'
    refine POLY_UBOUND_wp hr' (fun i hi => ?_) hr'
    have : d_v K = 4 ∨ d_v K = 5 := by unfold d_v; split <;> simp
    have := decompNat_lt (d_v K) (decNum (d_v K) B i) (by omega) (by omega) (decNum_lt _ B _)
    omega
  unfold poly_decompress_dv
  by_cases hK : K = 4
  · have hd : d_v K = 5 := by simp [d_v, hK]
    rw [hd] at ha key ⊢
    rw [if_neg (by simp [MLKEM_POLYCOMPRESSEDBYTES_DV, hK])]
    simp only [wp_bind, wp_pure]
    refine wp_forN (fun i r' => Written r r' 0 (8 * i) _) (Written.refl _ _ _) ?_ (fun _ h => key _ (h.holds hr))
    intro j r' hj hI
    have hg : ∀ i, i < 5 → a[ao + (j * 5 + i)]? = some (some (B (5 * j + i))) := fun i hi => by
      rw [Nat.mul_comm j]; exact ha.get (by omega)
    simp only [wp_bind, wp_rd, wp_pure]
    refine ⟨_, hg 0 (by omega), _, hg 0 (by omega), _, hg 1 (by omega), _, hg 1 (by omega), _, hg 1 (by omega), _, hg 2 (by omega), _, hg 2 (by omega),
      _, hg 3 (by omega), _, hg 3 (by omega), _, hg 3 (by omega), _, hg 4 (by omega), _, hg 4 (by omega), ?_⟩
    refine Post.use (fillLocal_spec _) fun t ht => ?_
    refine Post.use (decompressLoop_spec ht (by simp; omega) hr hI ?_ ?_) fun _ h => h
    · intro k hk
      have : ∀ x, x = decNum 5 B (8 * j + k) → scalar_decompress_d5 x = decompNat 5 (decNum 5 B (8 * j + k)) := by
        rintro x rfl; exact scalar_decompress_d5_eq _ (decNum_lt 5 B _)
      exact this _ (unpack5 B j k hk)
    · intro k _
      exact decompNat_lt 5 _ (by omega) (by omega) (decNum_lt 5 B _)
  · have hd : d_v K = 4 := by simp [d_v, hK]
    rw [hd] at ha key ⊢
    rw [if_pos (by simp [MLKEM_POLYCOMPRESSEDBYTES_DV, hK])]
    simp only [wp_bind, wp_pure]
    refine wp_forN (fun i r' => Written r r' 0 (2 * i) _) (Written.refl _ _ _) ?_ (fun _ h => key _ (h.holds hr))
    intro i r' hi hI
    simp only [wp_bind, wp_rd, wp_wr, wp_i16, Array.size_setIfInBounds, hI.1, hr]
    have h0 : (B i).toNat >>> 0 &&& 15 = decNum 4 B (2 * i + 0) := by
      refine eq_decNum (m := 2) (s := 1) rfl (lt_of_le_of_lt Nat.and_le_right (by norm_num)) (by pack_bits)
    have h1 : (B i).toNat >>> 4 &&& 15 = decNum 4 B (2 * i + 1) := by
      refine eq_decNum (m := 2) (s := 1) rfl (lt_of_le_of_lt Nat.and_le_right (by norm_num)) (by pack_bits)
    have l0 := decNum_lt 4 B (2 * i + 0)
    have l1 := decNum_lt 4 B (2 * i + 1)
    refine ⟨_, ha.get (by omega), ?_⟩
    rw [h0, scalar_decompress_d4_eq _ l0]
    have b0 := decompNat_lt 4 _ (by omega) (by omega) l0
    have b1 := decompNat_lt 4 _ (by omega) (by omega) l1
    refine ⟨by omega, by omega, _, ha.get (by omega), ?_⟩
    rw [h1, scalar_decompress_d4_eq _ l1]
    exact ⟨by omega, by omega, (hI.push (by omega) (by omega) rfl).push (by omega) (by omega) rfl⟩

theorem Written.overwrite {α : Type} {b b' : Buf α} {off n : Nat} {g : Nat → α} (h : Written b b' off n g) (hb : off + n ≤ b.size)
    {i k : Nat} (hi : i = off + k) (hk : k < n) (v : α) : Written b (b'.setIfInBounds i (some v)) off n (upd g k v) := by
  subst hi
  refine ⟨by simp [h.1], fun j hj => ?_, fun j hj => ?_⟩
  · by_cases hjk : j = k
    · subst hjk; simp [h.1, show off + j < b.size by omega]
    · rw [Array.getElem?_setIfInBounds_ne (by omega), upd_ne hjk]; exact h.2.1 j hj
  · rw [Array.getElem?_setIfInBounds_ne (by omega)]; exact h.2.2 j hj

theorem poly_frommsg_spec {m : Buf UInt8} {mo : Nat} {B : Nat → UInt8} (hm : Seg m mo 32 B) {r : Model.Poly} (hr : r.size = 256) :
    Post (poly_frommsg r m mo) (fun r' => Holds r' 256 (fun i => (decompNat 1 (decNum 1 B i) : Int))) := by
  have hdec : ∀ i, decompNat 1 (decNum 1 B i) = if fbit B i then 1665 else 0 := by
    intro i
    unfold decNum ofBits decompNat
    simp
    split <;> rfl
  unfold poly_frommsg
  simp only [wp_bind, wp_pure]
  refine wp_forN (fun i r' => Written r r' 0 (8 * i) _) (Written.refl _ _ (fun i => (decompNat 1 (decNum 1 B i) : Int))) ?_ ?_
  · intro i r' hi hI
    refine wp_forN (fun j r' => Written r r' 0 (8 * i + j) (fun i => (decompNat 1 (decNum 1 B i) : Int))) hI ?_ (fun _ h => h)
    intro j r' hj hI
    simp only [wp_bind, wp_rd, wp_wr]
    refine ⟨_, hm.get (by omega), by rw [hI.1]; omega, hI.push (by omega) (by omega) ?_⟩
    have hmask : (value_barrier (toU8 (1 <<< j))).toNat = 2 ^ j := by
      unfold value_barrier; rw [toU8_toNat]; interval_cases j <;> rfl
    have hand : ((B i).toNat &&& 2 ^ j = 0) ↔ (B i).toNat.testBit j = false := by
      constructor
      · intro h
        have := congrArg (fun x => Nat.testBit x j) h
        simpa [Nat.testBit_and, Nat.testBit_two_pow] using this
      · intro h
        apply Nat.eq_of_testBit_eq
        intro t
        rw [Nat.testBit_and, Nat.testBit_two_pow]
        by_cases htj : j = t
        · subst htj; simp [h]
        · simp [htj]
    rw [hmask, ct_sel_int16_eq _ _ _ (by simp [HALF_Q]) (by omega)
      (lt_of_le_of_lt Nat.and_le_left (lt_trans (UInt8.toNat_lt _) (by norm_num))), hdec]
    unfold fbit
    rw [show (8 * i + j) / 8 = i by omega, show (8 * i + j) % 8 = j by omega]
    by_cases h : (B i).toNat.testBit j = true
    · rw [if_pos h, if_pos (by intro h0; rw [hand] at h0; simp [h0] at h)]; rfl
    · rw [if_neg h, if_neg (by simpa using hand.mpr (by simpa using h))]; rfl
  · intro r' hI
    have hI := hI.holds hr
    refine POLY_BOUND_wp hI (fun i hi => ?_) hI
    rw [hdec]; split <;> omega

theorem poly_tomsg_spec {a : Model.Poly} {f : Nat → Nat} (ha : Holds a 256 (fun i => (f i : Int))) (hf : ∀ i, i < 256 → f i < 3329)
    {m : Buf UInt8} {mo : Nat} (hm : mo + 32 ≤ m.size) :
    Post (poly_tomsg m mo a) (fun m' => Written m m' mo 32 (encByte 1 fun i => compNat 1 (f i))) := by
  unfold poly_tomsg
  simp only [wp_bind, wp_pure]
  refine POLY_UBOUND_wp ha (fun i hi => by have := hf i hi; omega) ?_
  refine wp_forN (fun i m' => Written m m' mo i _) (Written.refl _ _ _) ?_ (fun _ h => h)
  intro i m' hi hI
  simp only [wp_bind, wp_wr]
  refine ⟨by rw [hI.1]; omega, ?_⟩
  let low := fun j => byteOf fun t => decide (t < j) && (compNat 1 (f (8 * i + t))).testBit 0
  have hlow0 : low 0 = 0 := by simp only [low]; apply UInt8.toNat_inj.mp; rw [byteOf_toNat]; simp [ofBits]
  refine wp_forN (fun j m' => Written m m' mo (i + 1) (upd (encByte 1 fun i => compNat 1 (f i)) i (low j))) ?_ ?_ ?_
  · refine Written.push (hI.congr fun k hk => by rw [upd_ne (by omega)]) (by omega) rfl (by simp [hlow0])
  · intro j m' hj hI
    simp only [wp_bind, wp_rd, wp_wr]
    have hlt := hf (8 * i + j) (by omega)
    refine ⟨_, ha.get (by omega), _, hI.seg.get (by omega), by rw [hI.1]; omega, ?_⟩
    refine (hI.overwrite (by omega) rfl (by omega) _).congr fun k hk => ?_
    by_cases hki : k = i
    · subst hki
      simp only [upd_same]
      apply toU8_eq_byteOf
      intro t ht
      rw [u16_natCast (by omega), scalar_compress_d1_eq _ hlt]
      have h1 := compNat_lt 1 (f (8 * k + j))
      have h2 : u32 (compNat 1 (f (8 * k + j)) <<< j) = compNat 1 (f (8 * k + j)) <<< j := by
        unfold u32; rw [Nat.shiftLeft_eq, Nat.mod_eq_of_lt]
        calc compNat 1 (f (8 * k + j)) * 2 ^ j < 2 ^ 1 * 2 ^ j := Nat.mul_lt_mul_of_pos_right h1 (Nat.two_pow_pos _)
          _ = 2 ^ (1 + j) := by rw [pow_add]
          _ ≤ 2 ^ 8 := Nat.pow_le_pow_right (by omega) (by omega)
          _ ≤ _ := by norm_num
      rw [h2, Nat.testBit_or, Nat.testBit_shiftLeft]
      simp only [low]
      rw [testBit_byteOf _ ht]
      rcases Nat.lt_trichotomy t j with h | h | h
      · simp [h, show ¬ t ≥ j by omega, show t < j + 1 by omega]
      · subst h; simp
      · simp [show ¬ t < j by omega, show t ≥ j by omega, show ¬ t < j + 1 by omega]
        rw [testBit_of_lt (n := 1) h1 (by omega)]
    · rw [upd_ne hki, upd_ne hki, upd_ne hki]
  · intro m' hI
    refine hI.congr fun k hk => ?_
    by_cases hki : k = i
    · subst hki
      simp only [upd_same, low, encByte]
      apply byteOf_congr
      intro t ht
      simp [ht]
      rw [Nat.mod_one]; simp
    · rw [upd_ne hki]

end Verif

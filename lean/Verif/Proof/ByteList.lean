import Verif.Proof.Noise
import Verif.Proof.Pack
import Verif.Proof.Polyvec
/-! # Buffers holding byte strings given as lists -/
namespace Verif
open Model Spec

attribute [local irreducible] keccakF partialK finK blocksK sqByte SHAKE256 SHA3_256 SHA3_512 SHAKE128

/-- The bytes from `off` on are `L`. -/
abbrev SegL (b : Buf UInt8) (off : Nat) (L : List UInt8) : Prop := Seg b off L.length (fun j => L.getD j 0)
/-- `b'` is `b` with `L` written at `off`. -/
abbrev WrittenL (b b' : Buf UInt8) (off : Nat) (L : List UInt8) : Prop := Written b b' off L.length (fun j => L.getD j 0)

theorem getD_drop_take (L : List UInt8) (o m : Nat) {j : Nat} (hj : j < m) : ((L.drop o).take m).getD j 0 = L.getD (o + j) 0 := by
  rw [List.getD_eq_getElem?_getD, List.getD_eq_getElem?_getD, List.getElem?_take_of_lt hj, List.getElem?_drop]

theorem getD_take (L : List UInt8) (m : Nat) {j : Nat} (hj : j < m) : (L.take m).getD j 0 = L.getD j 0 := by
  rw [List.getD_eq_getElem?_getD, List.getD_eq_getElem?_getD, List.getElem?_take_of_lt hj]

theorem getD_drop' (L : List UInt8) (o j : Nat) : (L.drop o).getD j 0 = L.getD (o + j) 0 := by
  rw [List.getD_eq_getElem?_getD, List.getD_eq_getElem?_getD, List.getElem?_drop]

theorem ext_getD' {L L' : List UInt8} (hl : L.length = L'.length) (h : ∀ j, j < L.length → L.getD j 0 = L'.getD j 0) : L = L' := by
  apply List.ext_getElem hl
  intro j h1 h2
  have := h j h1
  rwa [List.getD_eq_getElem?_getD, List.getD_eq_getElem?_getD, List.getElem?_eq_getElem h1, List.getElem?_eq_getElem h2] at this

theorem SegL.sub {b : Buf UInt8} {off : Nat} {L : List UInt8} (h : SegL b off L) (o m : Nat) (hm : o + m ≤ L.length) : SegL b (off + o) ((L.drop o).take m) := by
  have hl : ((L.drop o).take m).length = m := by rw [List.length_take, List.length_drop]; omega
  unfold SegL
  rw [hl]
  exact (Seg.sub h o m hm).congr fun j hj => (getD_drop_take L o m hj).symm

theorem SegL.toN {b : Buf UInt8} {off n : Nat} {L : List UInt8} (h : SegL b off L) (hn : L.length = n) : Seg b off n (fun j => L.getD j 0) := hn ▸ h
theorem SegL.ofN {b : Buf UInt8} {off n : Nat} {L : List UInt8} (h : Seg b off n (fun j => L.getD j 0)) (hn : L.length = n) : SegL b off L := by subst hn; exact h
theorem WrittenL.ofN {b b' : Buf UInt8} {off n : Nat} {L : List UInt8} (h : Written b b' off n (fun j => L.getD j 0)) (hn : L.length = n) : WrittenL b b' off L := by subst hn; exact h

theorem SegL.take {b : Buf UInt8} {off : Nat} {L : List UInt8} (h : SegL b off L) (m : Nat) (hm : m ≤ L.length) : SegL b off (L.take m) := by
  have := h.sub 0 m (by omega)
  rwa [List.drop_zero, Nat.add_zero] at this

theorem SegL.append {b : Buf UInt8} {off off' : Nat} {L L' : List UInt8} (h : SegL b off L) (h' : SegL b off' L') (ho : off' = off + L.length) : SegL b off (L ++ L') := by
  subst ho
  intro j hj
  beta_reduce
  rw [List.length_append] at hj
  by_cases hlt : j < L.length
  · rw [getD_append_left' _ _ hlt]; exact h j hlt
  · have := h' (j - L.length) (by omega)
    rw [show off + L.length + (j - L.length) = off + j by omega] at this
    rw [this, getD_append, if_neg hlt]

theorem WrittenL.append {b b' b'' : Buf UInt8} {off off' : Nat} {L L' : List UInt8} (h : WrittenL b b' off L) (h' : WrittenL b' b'' off' L') (ho : off' = off + L.length) :
    WrittenL b b'' off (L ++ L') := by
  subst ho
  have := Written.trans h h'
  unfold WrittenL
  rw [List.length_append]
  refine this.congr fun j hj => ?_
  rw [getD_append]

theorem WrittenL.segL {b b' : Buf UInt8} {off : Nat} {L : List UInt8} (h : WrittenL b b' off L) : SegL b' off L := h.seg

theorem WrittenL.whole {b b' : Buf UInt8} {L : List UInt8} (h : WrittenL b b' 0 L) (hs : b.size = L.length) : b' = Buf.ofList L :=
  (Written.holds h hs).unique (Holds.ofList L 0)

theorem SegL_ofList (L : List UInt8) : SegL (Buf.ofList L) 0 L := (Holds.ofList L 0).seg

theorem flatMap_length {L k : Nat} {f : Nat → List UInt8} (hf : ∀ i, (f i).length = L) : ((List.range k).flatMap f).length = k * L := by
  induction k with
  | zero => simp
  | succ k ih => rw [List.range_succ, List.flatMap_append, List.length_append, ih]; simp [hf, Nat.succ_mul]

theorem flatMap_getD {L k : Nat} {f : Nat → List UInt8} (hf : ∀ i, (f i).length = L) {n : Nat} (hn : n < k * L) :
    ((List.range k).flatMap f).getD n 0 = (f (n / L)).getD (n % L) 0 := by
  induction k with
  | zero => omega
  | succ k ih =>
    rw [List.range_succ, List.flatMap_append, getD_append, flatMap_length hf]
    have hL : 0 < L := by
      rcases Nat.eq_zero_or_pos L with h | h
      · subst h; omega
      · exact h
    split
    · rename_i h; exact ih h
    · rename_i h
      rw [Nat.succ_mul] at hn
      have h1 : n / L = k := by
        apply Nat.div_eq_of_lt_le <;> rw [Nat.mul_comm] <;> [skip; rw [Nat.mul_succ]] <;> rw [Nat.mul_comm] <;> omega
      have h2 : n % L = n - k * L := by
        have := Nat.div_add_mod n L
        rw [h1, Nat.mul_comm] at this; omega
      rw [h1, h2]; simp

theorem encByte_congr {d : Nat} {f g : Nat → Nat} (h : ∀ c, c < 256 → f c = g c) {k : Nat} (hk : k < 32 * d) : encByte d f k = encByte d g k := by
  have := congrArg (fun L => List.getD L k 0) (ByteEncode_congr (d := d) h)
  rw [ByteEncode_eq_map, ByteEncode_eq_map, getD_map_range _ _ hk, getD_map_range _ _ hk] at this
  exact this

theorem ByteEncode_getD' (d : Nat) (F : Nat → Nat) {k : Nat} (hk : k < 32 * d) : (ByteEncode d F).getD k 0 = encByte d F k := by
  rw [ByteEncode_eq_map, getD_map_range _ _ hk]

theorem written_blocks {r r' : Buf UInt8} {ro K d : Nat} {f : Nat → Nat → Nat} (hd : 0 < d)
    (h : Written r r' ro (K * (32 * d)) (fun k => encByte d (f (k / (32 * d))) (k % (32 * d)))) {F : Nat → Nat → Nat} (hF : ∀ i c, i < K → c < 256 → f i c = F i c) :
    WrittenL r r' ro ((List.range K).flatMap fun i => ByteEncode d (F i)) := by
  refine WrittenL.ofN (n := K * (32 * d)) (h.congr fun j hj => ?_) (flatMap_length fun i => ByteEncode_length _ _)
  have hm : j % (32 * d) < 32 * d := Nat.mod_lt _ (by omega)
  rw [flatMap_getD (fun i => ByteEncode_length _ _) hj, ByteEncode_getD' _ _ hm]
  exact encByte_congr (fun c hc => hF _ c (by rw [Nat.div_lt_iff_lt_mul (by omega)]; exact hj) hc) hm

theorem encode12_length (K : Nat) (v : Nat → Spec.Poly) : (encode12 K v).length = K * 384 := flatMap_length fun i => ByteEncode_length _ _

theorem encode12_written {r r' : Buf UInt8} {ro K : Nat} {f : Nat → Nat → Nat} (h : Written r r' ro (K * 384) (fun k => encByte 12 (f (k / 384)) (k % 384)))
    {v : Nat → Spec.Poly} (hF : ∀ i c, i < K → c < 256 → f i c = (v i c).val) : WrittenL r r' ro (encode12 K v) :=
  written_blocks (d := 12) (by omega) h (F := fun i c => (v i c).val) hF

theorem decNum_congr {d : Nat} {B B' : Nat → UInt8} (h : ∀ k, k < 32 * d → B k = B' k) {i : Nat} (hi : i < 256) : decNum d B i = decNum d B' i := by
  unfold decNum
  apply ofBits_congr
  intro j hj
  unfold fbit
  have : i * d + d ≤ 256 * d := by rw [← Nat.succ_mul]; exact Nat.mul_le_mul_right _ hi
  rw [h ((i * d + j) / 8) (by omega)]

theorem ByteDecode_decNum (d : Nat) (B : List UInt8) (i : Nat) : ByteDecode d B i = decNum d (fun j => B.getD j 0) i % decodeMod d := rfl

theorem ByteDecode_block (d : Nat) (B : List UInt8) (o : Nat) {i : Nat} (hi : i < 256) :
    ByteDecode d ((B.drop o).take (32 * d)) i = decNum d (fun j => B.getD (o + j) 0) i % decodeMod d := by
  rw [ByteDecode_decNum, decNum_congr (fun k hk => getD_drop_take B o _ hk) hi]

theorem decode12_eq (B : List UInt8) (i : Nat) {c : Nat} (hc : c < 256) : decode12 B i c = (decNum 12 (fun j => B.getD (i * 384 + j) 0) c : Zq) := by
  unfold decode12
  rw [ByteDecode_block 12 B (384 * i) hc, Nat.mul_comm]
  exact ZMod.natCast_mod _ 3329

theorem val_eq_emod (x : Int) : ((x : Zq).val : Int) = x % 3329 := ZMod.val_intCast x

theorem ctU_eq {K : Nat} (B : List UInt8) (i : Nat) {c : Nat} (hc : c < 256) :
    ctU K B i c = (decompNat (d_u K) (decNum (d_u K) (fun j => B.getD (i * (32 * d_u K) + j) 0) c) : Zq) := by
  unfold ctU
  rw [ByteDecode_block _ B _ hc, Decompress_eq, Nat.mul_comm, Nat.mod_eq_of_lt]
  have := decNum_lt (d_u K) (fun j => B.getD (i * (32 * d_u K) + j) 0) c
  unfold decodeMod
  rwa [if_neg]
  rcases d_u_cases K with h | h <;> omega

theorem ctV_eq {K : Nat} (B : List UInt8) {c : Nat} (hc : c < 256) :
    ctV K B c = (decompNat (d_v K) (decNum (d_v K) (fun j => B.getD (K * (32 * d_u K) + j) 0) c) : Zq) := by
  unfold ctV
  rw [ByteDecode_block _ B _ hc, Decompress_eq, Nat.mul_comm, Nat.mod_eq_of_lt]
  have := decNum_lt (d_v K) (fun j => B.getD (K * (32 * d_u K) + j) 0) c
  unfold decodeMod
  rwa [if_neg]
  rcases d_v_cases K with h | h <;> omega

theorem hash_g_spec {out : Buf UInt8} {oo : Nat} {inp : Buf UInt8} {io n : Nat} {M : List UInt8} (hn : M.length = n)
    (hin : SegL inp io M) (hlen : n + 200 < 18446744073709551616) (ho : oo + 64 ≤ out.size) :
    Post (hash_g out oo inp io n) (fun o' => WrittenL out o' oo (SHA3_512 M)) := by
  subst hn
  exact Post.use (sha3_512_spec hin hlen ho) fun o h => WrittenL.ofN h (SHA3_512_length M)

theorem hash_h_spec {out : Buf UInt8} {oo : Nat} {inp : Buf UInt8} {io n : Nat} {M : List UInt8} (hn : M.length = n)
    (hin : SegL inp io M) (hlen : n + 200 < 18446744073709551616) (ho : oo + 32 ≤ out.size) :
    Post (hash_h out oo inp io n) (fun o' => WrittenL out o' oo (H M)) := by
  subst hn
  exact Post.use (sha3_256_spec hin hlen ho) fun o h => WrittenL.ofN h (SHA3_256_length M)

theorem H_length (M : List UInt8) : (H M).length = 32 := SHA3_256_length M
theorem G1_length (M : List UInt8) : (G M).1.length = 32 := by unfold G; simp [SHA3_512_length]
theorem G2_length (M : List UInt8) : (G M).2.length = 32 := by unfold G; simp [SHA3_512_length]
theorem J_length (M : List UInt8) : (J M).length = 32 := SHAKE256_length M 32

theorem G_seg {b : Buf UInt8} {M : List UInt8} (h : SegL b 0 (SHA3_512 M)) : SegL b 0 (G M).1 ∧ SegL b 32 (G M).2 := by
  refine ⟨h.take 32 (by rw [SHA3_512_length]; omega), ?_⟩
  have := h.sub 32 32 (by rw [SHA3_512_length])
  rw [List.take_of_length_le (by rw [List.length_drop, SHA3_512_length])] at this
  exact this

theorem memcpyL_spec {dst src : Buf UInt8} {dof sof n : Nat} {L : List UInt8} (hn : L.length = n) (hd : dof + n ≤ dst.size) (hs : SegL src sof L) :
    Post (memcpy dst dof src sof n) (fun d => WrittenL dst d dof L) := by
  subst hn
  exact memcpy_spec hd hs

end Verif

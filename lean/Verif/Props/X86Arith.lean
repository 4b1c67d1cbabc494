import Verif.Proof.X86Pack
import Verif.Props.Vec
/-! # Properties of the x86_64 (AVX2) arithmetic backend (C39 - C42)

`regs` is the contents of the vector registers when the assembly is entered: the theorems hold for all contents. -/
namespace Verif.Props
open Verif Verif.Model Verif.Spec Finset

/-- The coefficient that an x86_64 build keeps at position `p` of a polynomial in the NTT domain. -/
def x86Order (p : Nat) : Nat := 128 * (p / 128) + 8 * (p % 16) + p / 16 % 8

/-- It is a permutation of the 256 positions. -/
theorem x86Order_perm : ((List.range 256).map x86Order).Perm (List.range 256) := by decide +kernel

theorem x86Order_eq : x86Order = X86.cust := rfl

/-! ## C39: the forward NTT -/

/-- **C39.** For all inputs below `q` in absolute value, the AVX2 `poly_ntt` computes the FIPS 203 NTT modulo `q`, in the order `x86Order`, with outputs below `8 q` in absolute value. -/
theorem C39_ntt (regs : Nat → X86.Ymm) (f : Nat → Int) (hf : ∀ n, n < 256 → -3329 < f n ∧ f n < 3329) :
    ∃ g : Nat → Int, Returns (X86.poly_ntt regs (poly f)) (poly fun p => g (x86Order p)) ∧ (∀ n, n < 256 → modq g n = NTT (modq f) n) ∧
      ∀ n, n < 256 → -(8 * 3329) < g n ∧ g n < 8 * 3329 := by
  obtain ⟨r, h, g, h1, h2⟩ := ret_of_post (X86.poly_ntt_spec (poly_holds f) hf regs)
  rw [eq_poly h1] at h
  exact ⟨g, h, fun n hn => (h2 n hn).2, fun n hn => by have := (h2 n hn).1; omega⟩

/-- **C39.** The AVX2 and the portable transform of the same polynomial agree modulo `q`. -/
theorem C39_same_as_portable (regs : Nat → X86.Ymm) (f : Nat → Int) (hf : ∀ n, n < 256 → -3329 < f n ∧ f n < 3329) :
    ∃ g g' : Nat → Int, Returns (X86.poly_ntt regs (poly f)) (poly fun p => g (x86Order p)) ∧ Returns (poly_ntt (poly f)) (poly g') ∧ ∀ n, n < 256 → modq g n = modq g' n := by
  obtain ⟨g, h, h1, _⟩ := C39_ntt regs f hf
  obtain ⟨g', h', h1', _⟩ := C20_ntt f hf
  exact ⟨g, g', h, h', fun n hn => (h1 n hn).trans (h1' n hn).symm⟩

/-! ## C40: the inverse NTT -/

/-- **C40.** For all `int16_t` inputs in the order `x86Order`, the AVX2 `poly_invntt_tomont` computes `2^16` times the inverse NTT of FIPS 203 modulo `q`, in normal order,
with outputs below `8 q` in absolute value. -/
theorem C40_invntt (regs : Nat → X86.Ymm) (f : Nat → Int) (hf : ∀ n, n < 256 → IsI16 (f n)) :
    ∃ g, Returns (X86.poly_invntt_tomont regs (poly fun p => f (x86Order p))) (poly g) ∧ (∀ n, n < 256 → modq g n = 2 ^ 16 * NTTInv (modq f) n) ∧
      ∀ n, n < 256 → -(8 * 3329) < g n ∧ g n < 8 * 3329 := by
  obtain ⟨r, h, g, h1, h2⟩ := ret_of_post (X86.poly_invntt_tomont_spec (poly_holds _) hf regs)
  rw [eq_poly h1] at h
  exact ⟨g, h, fun n hn => by have := (h2 n hn).2; norm_num; exact this, fun n hn => by have := (h2 n hn).1; omega⟩

/-- **C40.** The AVX2 transform followed by the AVX2 inverse multiplies every coefficient by `2^16` modulo `q`. -/
theorem C40_inverse (regs regs' : Nat → X86.Ymm) (f : Nat → Int) (hf : ∀ n, n < 256 → -3329 < f n ∧ f n < 3329) :
    ∃ g h, Returns (X86.poly_ntt regs (poly f)) (poly g) ∧ Returns (X86.poly_invntt_tomont regs' (poly g)) (poly h) ∧ ∀ n, n < 256 → modq h n = 2 ^ 16 * modq f n := by
  obtain ⟨g, hg, h1, h2⟩ := C39_ntt regs f hf
  obtain ⟨h, hh, h3, _⟩ := C40_invntt regs' g fun n hn => by have := h2 n hn; unfold IsI16; omega
  refine ⟨_, h, hg, hh, fun n hn => ?_⟩
  rw [h3 n hn, NTTInv_congr h1 n, NTTInv_NTT _ hn]

/-! ## C41: multiplication -/

/-- **C41.** The AVX2 accumulated product of two vectors in the NTT domain, the first with coefficients below `q` and the second below `8 q` in absolute value:
`2^16` times the result is the sum of the products of FIPS 203, and the result is below `8 q` in absolute value. -/
theorem C41_basemul {K : Nat} (hK : IsParam K) (regs : Nat → Nat → X86.Ymm) (a b : Nat → Nat → Int) (ha : ∀ i n, i < K → n < 256 → -3329 < a i n ∧ a i n < 3329)
    (hb : ∀ i n, i < K → n < 256 → -(8 * 3329) < b i n ∧ b i n < 8 * 3329) (r : Buf Int) (hr : r.size = 256) (cache : Array (Buf Int)) :
    ∃ s : Nat → Int, Returns (X86.polyvec_basemul_acc_montgomery_cached K regs r (vec K fun i p => a i (x86Order p)) (vec K fun i p => b i (x86Order p)) cache)
        (poly fun p => s (x86Order p)) ∧
      (∀ n, n < 256 → 2 ^ 16 * modq s n = ∑ j ∈ range K, MultiplyNTTs (modq (a j)) (modq (b j)) n) ∧ ∀ n, n < 256 → -(8 * 3329) < s n ∧ s n < 8 * 3329 := by
  have hK' : K = 2 ∨ K = 3 ∨ K = 4 := hK
  obtain ⟨r', h, s, h1, h2⟩ := ret_of_post (X86.polyvec_basemul_acc_native_spec (K := K) (by omega) (fa := a) (fb := b) (c := cache) (vec_holds K fun i p => a i (X86.cust p))
    (vec_holds K fun i p => b i (X86.cust p)) ha (fun i n hi hn => by have := hb i n hi hn; omega) hr regs)
  rw [eq_poly h1] at h
  refine ⟨s, h, fun n hn => ?_, fun n hn => by have := (h2 n hn).1; omega⟩
  unfold modq
  rw [(h2 n hn).2, ← mul_assoc, show (2 ^ 16 * 169 : Zq) = 1 by decide, one_mul]

/-- **C41.** Transforming two vectors of polynomials, reducing the first, multiplying and transforming back, all with AVX2, gives their inner product in `Z_q[X]/(X^256 + 1)`. -/
theorem C41_inner_product {K : Nat} (hK : IsParam K) (r1 r2 r3 r5 : Nat → X86.Ymm) (r4 : Nat → Nat → X86.Ymm) (f g : Nat → Nat → Int)
    (hf : ∀ i n, i < K → n < 256 → -3329 < f i n ∧ f i n < 3329) (hg : ∀ i n, i < K → n < 256 → -3329 < g i n ∧ g i n < 3329)
    (r : Buf Int) (hr : r.size = 256) (cache : Array (Buf Int)) :
    ∃ a b s p, (∀ i, i < K → Returns (do
        let x ← X86.poly_ntt r1 (poly (f i))
        X86.poly_reduce r2 x) (poly (a i))) ∧
      (∀ i, i < K → Returns (X86.poly_ntt r3 (poly (g i))) (poly (b i))) ∧
      Returns (X86.polyvec_basemul_acc_montgomery_cached K r4 r (vec K a) (vec K b) cache) (poly s) ∧
      Returns (X86.poly_invntt_tomont r5 (poly s)) (poly p) ∧ ∀ n, n < 256 → modq p n = ∑ j ∈ range K, mulRq (modq (f j)) (modq (g j)) n := by
  have hA : ∀ i, ∃ a : Nat → Int, i < K → Returns (do
        let x ← X86.poly_ntt r1 (poly (f i))
        X86.poly_reduce r2 x) (poly fun p => a (x86Order p)) ∧ (∀ n, n < 256 → modq a n = NTT (modq (f i)) n) ∧ ∀ n, n < 256 → 0 ≤ a n ∧ a n < 3329 := by
    intro i
    by_cases hi : i < K
    · have key : Post (do
          let x ← X86.poly_ntt r1 (poly (f i))
          X86.poly_reduce r2 x) (fun x => ∃ a : Nat → Int, Holds x 256 (fun p => a (x86Order p)) ∧ (∀ n, n < 256 → modq a n = NTT (modq (f i)) n) ∧ ∀ n, n < 256 → 0 ≤ a n ∧ a n < 3329) := by
        simp only [wp_bind]
        refine Post.use (X86.poly_ntt_spec (poly_holds _) (fun n hn => hf i n hi hn) r1) fun x ⟨v, h1, h2⟩ => ?_
        refine Post.use (X86.poly_reduce_spec h1 (fun n hn => by have := (h2 _ (X86.cust_lt hn)).1; omega) r2) fun y hy => ?_
        refine ⟨fun n => v n % 3329, hy, fun n hn => ?_, fun n hn => by beta_reduce; omega⟩
        exact (zq_int_eq (by omega) : ((v n % 3329 : Int) : Zq) = v n).trans (h2 n hn).2
      obtain ⟨x, h, a, h1, h2⟩ := ret_of_post key
      rw [eq_poly h1] at h
      exact ⟨a, fun _ => ⟨h, h2⟩⟩
    · exact ⟨fun _ => 0, fun h => absurd h hi⟩
  have hB : ∀ i, ∃ b : Nat → Int, i < K → Returns (X86.poly_ntt r3 (poly (g i))) (poly fun p => b (x86Order p)) ∧ (∀ n, n < 256 → modq b n = NTT (modq (g i)) n) ∧
      ∀ n, n < 256 → -(8 * 3329) < b n ∧ b n < 8 * 3329 := by
    intro i
    by_cases hi : i < K
    · obtain ⟨b, hb⟩ := C39_ntt r3 (g i) fun n hn => hg i n hi hn
      exact ⟨b, fun _ => hb⟩
    · exact ⟨fun _ => 0, fun h => absurd h hi⟩
  choose a ha using hA
  choose b hb using hB
  obtain ⟨s, hs, s1, s2⟩ := C41_basemul hK r4 a b (fun i n hi hn => by have := (ha i hi).2.2 n hn; omega) (fun i n hi hn => (hb i hi).2.2 n hn) r hr cache
  obtain ⟨p, hp, p1, -⟩ := C40_invntt r5 s fun n hn => by have := s2 n hn; unfold IsI16; omega
  refine ⟨_, _, _, p, fun i hi => (ha i hi).1, fun i hi => (hb i hi).1, hs, hp, fun n hn => ?_⟩
  rw [p1 n hn]
  have e1 : ∀ m, m < 256 → modq s m = 169 * ∑ j ∈ range K, MultiplyNTTs (NTT (modq (f j))) (NTT (modq (g j))) m := fun m hm => by
    have h1 := s1 m hm
    have h2 : ∑ j ∈ range K, MultiplyNTTs (modq (a j)) (modq (b j)) m = ∑ j ∈ range K, MultiplyNTTs (NTT (modq (f j))) (NTT (modq (g j))) m :=
      Finset.sum_congr rfl fun j hj => MultiplyNTTs_congr (ha j (Finset.mem_range.mp hj)).2.1 (hb j (Finset.mem_range.mp hj)).2.1 hm
    rw [← h2, ← h1, ← mul_assoc, show (169 * 2 ^ 16 : Zq) = 1 by decide, one_mul]
  have e2 := invScale_congr e1 n
  norm_num at e2 ⊢
  rw [e2, NTTInv_sum K (fun j => MultiplyNTTs (NTT (modq (f j))) (NTT (modq (g j))))]
  exact sum_congr rfl fun j _ => NTTInv_MultiplyNTTs _ _ hn

/-- Cases of C39 - C41: coefficients from -3328 to 3302. -/
example : ∀ i n, i < 4 → n < 256 → -3329 < (fun i n : Nat => (n : Int) * 26 - 3328 + i) i n ∧ (fun i n : Nat => (n : Int) * 26 - 3328 + i) i n < 3329 := fun i n hi hn => by
  dsimp only; omega

/-! ## C42: reduction, Montgomery form, serialisation, change of order -/

/-- **C42.** The AVX2 `poly_reduce` replaces every `int16_t` coefficient by its representative in [0, q): exactly what the portable one does. -/
theorem C42_reduce (regs : Nat → X86.Ymm) (f : Nat → Int) (hf : ∀ n, n < 256 → IsI16 (f n)) :
    Returns (X86.poly_reduce regs (poly f)) (poly fun n => f n % 3329) ∧ Returns (poly_reduce (poly f)) (poly fun n => f n % 3329) :=
  ⟨ret_eq (X86.poly_reduce_spec (poly_holds f) hf regs) fun _ h => eq_poly h, C23_poly_reduce f hf⟩

/-- **C42.** The AVX2 `poly_tomont` multiplies every `int16_t` coefficient by `2^16` modulo `q`, with results below `q` in absolute value; the portable one returns the same integers. -/
theorem C42_tomont (regs : Nat → X86.Ymm) (f : Nat → Int) (hf : ∀ n, n < 256 → IsI16 (f n)) :
    ∃ g, Returns (X86.poly_tomont regs (poly f)) (poly g) ∧ Returns (poly_tomont (poly f)) (poly g) ∧ (∀ n, n < 256 → modq g n = 2 ^ 16 * modq f n) ∧
      ∀ n, n < 256 → -3329 < g n ∧ g n < 3329 := by
  refine ⟨fun n => montR (f n * 1353), ret_eq (X86.poly_tomont_spec (poly_holds f) hf regs) fun _ h => eq_poly h,
    ret_eq (poly_tomont_spec (poly_holds f) hf) fun _ h => eq_poly h, fun n hn => ?_, fun n hn => ?_⟩
  · unfold modq
    rw [montR_zq]
    push_cast
    rw [mul_assoc, show (1353 * 169 : Zq) = 2 ^ 16 by decide, mul_comm]
  · have := X86.mont_bound (a := f n) (z := 1353) (hf n hn).1 (hf n hn).2 (by omega) (by omega)
    beta_reduce; omega

/-- **C42.** The AVX2 `poly_tobytes` of a polynomial in the order `x86Order` delivers the FIPS 203 encoding of the polynomial, the bytes the portable code delivers for the
polynomial in normal order. -/
theorem C42_tobytes (regs : Nat → X86.Ymm) (f : Nat → Nat) (hf : ∀ n, n < 256 → f n < 3329) (r : Buf UInt8) (hr : r.size = 384) :
    Returns (X86.poly_tobytes regs r 0 (poly fun p => (f (x86Order p) : Int))) (Buf.ofList (ByteEncode 12 f)) ∧
      Returns (poly_tobytes r 0 (poly fun n => (f n : Int))) (Buf.ofList (ByteEncode 12 f)) :=
  ⟨ret_eq (X86.poly_tobytes_spec (f := f) (poly_holds _) hf (by omega) regs) fun _ h => written_encode (d := 12) h hr, C17_tobytes f hf r hr⟩

/-- **C42.** The AVX2 `poly_frombytes` of any 384 bytes delivers the 256 12-bit numbers they contain, in the order `x86Order`. -/
theorem C42_frombytes (regs : Nat → X86.Ymm) (B : List UInt8) (hB : B.length = 384) (r : Buf Int) (hr : r.size = 256) :
    Returns (X86.poly_frombytes regs r (Buf.ofList B) 0) (poly fun p => (coeff12 B (x86Order p) : Int)) ∧
      Returns (poly_frombytes r (Buf.ofList B) 0) (poly fun n => (coeff12 B n : Int)) :=
  ⟨ret_eq (X86.poly_frombytes_native_spec ((SegL_ofList B).toN hB) (by simp [Buf.ofList, hB]) hr regs) fun _ h => eq_poly (h.congr fun n _ => by rw [coeff12_decNum]; rfl),
    C17_frombytes B hB r hr⟩

/-- **C42.** Serialised inside a larger buffer, it changes the 384 bytes at the given offset and nothing else. -/
theorem C42_tobytes_frame (regs : Nat → X86.Ymm) (f : Nat → Nat) (hf : ∀ n, n < 256 → f n < 3329) (r : Buf UInt8) (o : Nat) (hr : o + 384 ≤ r.size) :
    ∃ r', Returns (X86.poly_tobytes regs r o (poly fun p => (f (x86Order p) : Int))) r' ∧ r'.size = r.size ∧
      (∀ i, i < 384 → r'[o + i]? = some (some ((ByteEncode 12 f).getD i 0))) ∧ ∀ j, (j < o ∨ o + 384 ≤ j) → r'[j]? = r[j]? := by
  obtain ⟨r', h, h1, h2, h3⟩ := ret_of_post (X86.poly_tobytes_spec (f := f) (poly_holds _) hf hr regs)
  exact ⟨r', h, h1, fun i hi => by rw [h2 i hi, ByteEncode_getD' _ _ hi], h3⟩

/-- **C42.** `poly_permute_bitrev_to_custom` puts a polynomial into the order `x86Order` and leaves the coefficients as they are. -/
theorem C42_permute (regs : Nat → X86.Ymm) (f : Nat → Int) (hf : ∀ n, n < 256 → IsI16 (f n)) :
    Returns (X86.poly_permute_bitrev_to_custom regs (poly f)) (poly fun p => f (x86Order p)) :=
  ret_eq (X86.permute_spec (poly_holds f) hf regs) fun _ h => eq_poly h

/-- **C42.** `nttpack_avx2`, which the header of the backend declares and the library does not call, works on 128 coefficients: it takes the first half of a polynomial in the order `x86Order` back to the order of the C code and leaves the second half alone. -/
theorem C42_nttpack (regs : Nat → X86.Ymm) (f : Nat → Int) (hf : ∀ n, n < 256 → IsI16 (f n)) :
    Returns (X86.runP X86.nttpack_avx2 regs (poly fun p => f (x86Order p))) (poly fun p => if p < 128 then f p else f (x86Order p)) :=
  ret_eq (X86.pack_spec (poly_holds _) hf regs) fun _ h => eq_poly h

example : ∀ n, n < 256 → IsI16 ((fun n : Nat => (n : Int) * 256 - 32768) n) := fun n hn => by dsimp only; unfold IsI16; omega
example : ∀ n, n < 256 → (fun n => 13 * n + 1) n < 3329 := fun n hn => by dsimp only; omega
example : (List.replicate 384 (0x5a : UInt8)).length = 384 := List.length_replicate

end Verif.Props

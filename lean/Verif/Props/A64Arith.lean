import Verif.Proof.A64Frame
import Verif.Props.Vec
import Verif.Props.Sampling
/-! # Properties of the AArch64 (Neon) arithmetic backend (C49 - C53)

`P` is one of the two profiles, `A64.clean` (profiles/clean.h) and `A64.opt` (profiles/opt.h), which call different assembly functions.  `regs` is the contents of the general-purpose and
vector registers, apart from the arguments and the stack pointer, when the assembly is entered: the theorems hold for all contents. -/
namespace Verif.Props
open Verif Verif.Model Verif.Spec Finset

/-- The profiles of the backend. -/
def IsProfile (P : A64.Profile) : Prop := P = A64.clean ∨ P = A64.opt

theorem IsProfile.good {P : A64.Profile} (h : IsProfile P) : A64.Good_ P := by rcases h with rfl | rfl; exacts [A64.clean_good, A64.opt_good]
theorem IsProfile.quiet {P : A64.Profile} (h : IsProfile P) : A64.QuietP P := by rcases h with rfl | rfl; exacts [A64.clean_quiet, A64.opt_quiet]
theorem IsProfile.frames {P : A64.Profile} (h : IsProfile P) : A64.FramesP P := by rcases h with rfl | rfl; exacts [A64.clean_frames, A64.opt_frames]

/-! ## C49: the transforms -/

/-- **C49.** For all inputs below `q` in absolute value, the AArch64 `poly_ntt` computes the FIPS 203 NTT modulo `q`, with outputs below `6 q` in absolute value. -/
theorem C49_ntt {P : A64.Profile} (hP : IsProfile P) (regs : A64.Entry) (f : Nat → Int) (hf : ∀ n, n < 256 → -3329 < f n ∧ f n < 3329) :
    ∃ g : Nat → Int, Returns (A64.poly_ntt P regs (poly f)) (poly g) ∧ (∀ n, n < 256 → modq g n = NTT (modq f) n) ∧ ∀ n, n < 256 → -(6 * 3329) < g n ∧ g n < 6 * 3329 := by
  obtain ⟨r, h, g, h1, h2⟩ := ret_of_post (A64.poly_ntt_spec hP.good regs (poly_holds f) hf)
  rw [eq_poly h1] at h
  exact ⟨g, h, fun n hn => (h2 n hn).2, fun n hn => by have := (h2 n hn).1; omega⟩

/-- **C49.** For all `int16_t` inputs, the AArch64 `poly_invntt_tomont` computes `2^16` times the inverse NTT of FIPS 203 modulo `q`, with outputs below `8 q` in absolute value. -/
theorem C49_invntt {P : A64.Profile} (hP : IsProfile P) (regs : A64.Entry) (f : Nat → Int) (hf : ∀ n, n < 256 → IsI16 (f n)) :
    ∃ g, Returns (A64.poly_invntt_tomont P regs (poly f)) (poly g) ∧ (∀ n, n < 256 → modq g n = 2 ^ 16 * NTTInv (modq f) n) ∧
      ∀ n, n < 256 → -(8 * 3329) < g n ∧ g n < 8 * 3329 := by
  obtain ⟨r, h, g, h1, h2⟩ := ret_of_post (A64.poly_invntt_tomont_spec hP.good regs (poly_holds _) hf)
  rw [eq_poly h1] at h
  exact ⟨g, h, fun n hn => by have := (h2 n hn).2; norm_num; exact this, fun n hn => by have := (h2 n hn).1; omega⟩

/-- **C49.** The transform followed by the inverse multiplies every coefficient by `2^16` modulo `q`, for any combination of the two profiles. -/
theorem C49_inverse {P P' : A64.Profile} (hP : IsProfile P) (hP' : IsProfile P') (regs regs' : A64.Entry) (f : Nat → Int) (hf : ∀ n, n < 256 → -3329 < f n ∧ f n < 3329) :
    ∃ g h, Returns (A64.poly_ntt P regs (poly f)) (poly g) ∧ Returns (A64.poly_invntt_tomont P' regs' (poly g)) (poly h) ∧ ∀ n, n < 256 → modq h n = 2 ^ 16 * modq f n := by
  obtain ⟨g, hg, h1, h2⟩ := C49_ntt hP regs f hf
  obtain ⟨h, hh, h3, _⟩ := C49_invntt hP' regs' g fun n hn => by have := h2 n hn; unfold IsI16; omega
  refine ⟨_, h, hg, hh, fun n hn => ?_⟩
  rw [h3 n hn, NTTInv_congr h1 n, NTTInv_NTT _ hn]

/-! ## C50: multiplication -/

/-- A vector of `K` multiplication caches. -/
def caches (K : Nat) (c : Nat → Buf Int) : Array (Buf Int) := Array.ofFn fun i : Fin K => c i.1

/-- **C50.** The AArch64 accumulated product of two vectors in the NTT domain, the first with coefficients below `q` and the second below `8 q` in absolute value, with the caches that
`poly_mulcache_compute` computes from the second: `2^16` times the result is the sum of the products of FIPS 203, and the result is below `8 q` in absolute value. -/
theorem C50_basemul {P : A64.Profile} (hP : IsProfile P) {K : Nat} (hK : IsParam K) (regs : A64.Entry) (regs' : Nat → A64.Entry) (a b : Nat → Nat → Int)
    (ha : ∀ i n, i < K → n < 256 → -3329 < a i n ∧ a i n < 3329) (hb : ∀ i n, i < K → n < 256 → -(8 * 3329) < b i n ∧ b i n < 8 * 3329) (r : Buf Int) (hr : r.size = 256)
    (x : Nat → Buf Int) (hx : ∀ i, i < K → (x i).size = 128) :
    ∃ (c : Nat → Buf Int) (s : Nat → Int), (∀ i, i < K → Returns (A64.poly_mulcache_compute P (regs' i) (x i) (poly (b i))) (c i)) ∧
      Returns (A64.polyvec_basemul_acc_montgomery_cached P K regs r (vec K a) (vec K b) (caches K c)) (poly s) ∧
      (∀ n, n < 256 → 2 ^ 16 * modq s n = ∑ j ∈ range K, MultiplyNTTs (modq (a j)) (modq (b j)) n) ∧ ∀ n, n < 256 → -(8 * 3329) < s n ∧ s n < 8 * 3329 := by
  have hK' : K = 2 ∨ K = 3 ∨ K = 4 := hK
  have hC : ∀ i, ∃ c : Buf Int, i < K → Returns (A64.poly_mulcache_compute P (regs' i) (x i) (poly (b i))) c ∧ A64.Cache c (b i) := by
    intro i
    by_cases hi : i < K
    · obtain ⟨c, h, h1⟩ := ret_of_post (A64.poly_mulcache_compute_spec hP.good (regs' i) (hx i hi) (poly_holds (b i)) fun n hn => by have := hb i n hi hn; omega)
      exact ⟨c, fun _ => ⟨h, h1⟩⟩
    · exact ⟨#[], fun h => absurd h hi⟩
  choose c hc using hC
  obtain ⟨r', h, s, h1, h2⟩ := ret_of_post (A64.polyvec_basemul_spec hP.good regs (K := K) (by omega) (fa := a) (fb := b) (c := caches K c) (vec_holds K a) (vec_holds K b)
    ⟨by simp [caches], fun i hi => ⟨c i, by simp [caches, hi], (hc i hi).2⟩⟩ ha (fun i n hi hn => by have := hb i n hi hn; omega) hr)
  rw [eq_poly h1] at h
  refine ⟨c, s, fun i hi => (hc i hi).1, h, fun n hn => ?_, fun n hn => by have := (h2 n hn).1; omega⟩
  unfold modq
  rw [(h2 n hn).2, ← mul_assoc, show (2 ^ 16 * 169 : Zq) = 1 by decide, one_mul]

/-- **C50.** Transforming two vectors of polynomials, reducing the first, computing the caches of the second, multiplying and transforming back, all with AArch64 code, gives their inner
product in `Z_q[X]/(X^256 + 1)`. -/
theorem C50_inner_product {P : A64.Profile} (hP : IsProfile P) {K : Nat} (hK : IsParam K) (r1 r2 r3 r4 r6 : A64.Entry) (r5 : Nat → A64.Entry) (f g : Nat → Nat → Int)
    (hf : ∀ i n, i < K → n < 256 → -3329 < f i n ∧ f i n < 3329) (hg : ∀ i n, i < K → n < 256 → -3329 < g i n ∧ g i n < 3329)
    (r : Buf Int) (hr : r.size = 256) (x : Nat → Buf Int) (hx : ∀ i, i < K → (x i).size = 128) :
    ∃ a b c s p, (∀ i, i < K → Returns (do
        let y ← A64.poly_ntt P r1 (poly (f i))
        A64.poly_reduce P r2 y) (poly (a i))) ∧
      (∀ i, i < K → Returns (A64.poly_ntt P r3 (poly (g i))) (poly (b i))) ∧
      (∀ i, i < K → Returns (A64.poly_mulcache_compute P (r5 i) (x i) (poly (b i))) (c i)) ∧
      Returns (A64.polyvec_basemul_acc_montgomery_cached P K r4 r (vec K a) (vec K b) (caches K c)) (poly s) ∧
      Returns (A64.poly_invntt_tomont P r6 (poly s)) (poly p) ∧ ∀ n, n < 256 → modq p n = ∑ j ∈ range K, mulRq (modq (f j)) (modq (g j)) n := by
  have hA : ∀ i, ∃ a : Nat → Int, i < K → Returns (do
        let y ← A64.poly_ntt P r1 (poly (f i))
        A64.poly_reduce P r2 y) (poly a) ∧ (∀ n, n < 256 → modq a n = NTT (modq (f i)) n) ∧ ∀ n, n < 256 → 0 ≤ a n ∧ a n < 3329 := by
    intro i
    by_cases hi : i < K
    · have key : Post (do
          let y ← A64.poly_ntt P r1 (poly (f i))
          A64.poly_reduce P r2 y) (fun x => ∃ a : Nat → Int, Holds x 256 a ∧ (∀ n, n < 256 → modq a n = NTT (modq (f i)) n) ∧ ∀ n, n < 256 → 0 ≤ a n ∧ a n < 3329) := by
        simp only [wp_bind]
        refine Post.use (A64.poly_ntt_spec hP.good r1 (poly_holds _) (fun n hn => hf i n hi hn)) fun x ⟨v, h1, h2⟩ => ?_
        refine Post.use (A64.poly_reduce_spec hP.good r2 h1 (fun n hn => by have := (h2 _ hn).1; omega)) fun y hy => ?_
        refine ⟨fun n => v n % 3329, hy, fun n hn => ?_, fun n hn => by beta_reduce; omega⟩
        exact (zq_int_eq (by omega) : ((v n % 3329 : Int) : Zq) = v n).trans (h2 n hn).2
      obtain ⟨x, h, a, h1, h2⟩ := ret_of_post key
      rw [eq_poly h1] at h
      exact ⟨a, fun _ => ⟨h, h2⟩⟩
    · exact ⟨fun _ => 0, fun h => absurd h hi⟩
  have hB : ∀ i, ∃ b : Nat → Int, i < K → Returns (A64.poly_ntt P r3 (poly (g i))) (poly b) ∧ (∀ n, n < 256 → modq b n = NTT (modq (g i)) n) ∧
      ∀ n, n < 256 → -(6 * 3329) < b n ∧ b n < 6 * 3329 := by
    intro i
    by_cases hi : i < K
    · obtain ⟨b, hb⟩ := C49_ntt hP r3 (g i) fun n hn => hg i n hi hn
      exact ⟨b, fun _ => hb⟩
    · exact ⟨fun _ => 0, fun h => absurd h hi⟩
  choose a ha using hA
  choose b hb using hB
  obtain ⟨c, s, hc, hs, s1, s2⟩ := C50_basemul hP hK r4 r5 a b (fun i n hi hn => by have := (ha i hi).2.2 n hn; omega) (fun i n hi hn => by have := (hb i hi).2.2 n hn; omega) r hr x hx
  obtain ⟨p, hp, p1, -⟩ := C49_invntt hP r6 s fun n hn => by have := s2 n hn; unfold IsI16; omega
  refine ⟨a, b, c, s, p, fun i hi => (ha i hi).1, fun i hi => (hb i hi).1, hc, hs, hp, fun n hn => ?_⟩
  rw [p1 n hn]
  have e1 : ∀ m, m < 256 → modq s m = 169 * ∑ j ∈ range K, MultiplyNTTs (NTT (modq (f j))) (NTT (modq (g j))) m := fun m hm => by
    have h1 := s1 m hm
    have h2 : ∑ j ∈ range K, MultiplyNTTs (modq (a j)) (modq (b j)) m = ∑ j ∈ range K, MultiplyNTTs (NTT (modq (f j))) (NTT (modq (g j))) m :=
      Finset.sum_congr rfl fun j hj => MultiplyNTTs_congr (ha j (Finset.mem_range.mp hj)).2.1 (hb j (Finset.mem_range.mp hj)).2.1 hm
    rw [← h2, ← h1, ← mul_assoc, show (169 * 2 ^ 16 : Zq) = 1 by decide, one_mul]
  have e2 := invScale_congr e1 n
  norm_num at e2 ⊢
  rw [e2, NTTInv_sum K (fun j => MultiplyNTTs (NTT (modq (f j))) (NTT (modq (g j))))]
  exact sum_congr rfl fun j _ => NTTInv_MultiplyNTTs _ _ hn

/-- Cases of C49 and C50: coefficients from -3328 to 3305. -/
example : ∀ i n, i < 4 → n < 256 → -3329 < (fun i n : Nat => (n : Int) * 26 - 3328 + i) i n ∧ (fun i n : Nat => (n : Int) * 26 - 3328 + i) i n < 3329 := fun i n hi hn => by
  dsimp only; omega
example : IsProfile A64.clean ∧ IsProfile A64.opt := ⟨Or.inl rfl, Or.inr rfl⟩

/-! ## C51: reduction, Montgomery form, serialisation -/

/-- **C51.** The AArch64 `poly_reduce` replaces every `int16_t` coefficient by its representative in [0, q): exactly what the portable one does. -/
theorem C51_reduce {P : A64.Profile} (hP : IsProfile P) (regs : A64.Entry) (f : Nat → Int) (hf : ∀ n, n < 256 → IsI16 (f n)) :
    Returns (A64.poly_reduce P regs (poly f)) (poly fun n => f n % 3329) ∧ Returns (poly_reduce (poly f)) (poly fun n => f n % 3329) :=
  ⟨ret_eq (A64.poly_reduce_spec hP.good regs (poly_holds f) hf) fun _ h => eq_poly h, C23_poly_reduce f hf⟩

/-- **C51.** The AArch64 `poly_tomont` multiplies every `int16_t` coefficient by `2^16` modulo `q`, with results below `q` in absolute value. -/
theorem C51_tomont {P : A64.Profile} (hP : IsProfile P) (regs : A64.Entry) (f : Nat → Int) (hf : ∀ n, n < 256 → IsI16 (f n)) :
    ∃ g, Returns (A64.poly_tomont P regs (poly f)) (poly g) ∧ (∀ n, n < 256 → modq g n = 2 ^ 16 * modq f n) ∧ ∀ n, n < 256 → -3329 < g n ∧ g n < 3329 := by
  obtain ⟨r, h, g, h1, h2⟩ := ret_of_post (A64.poly_tomont_spec hP.good regs (poly_holds f) hf)
  rw [eq_poly h1] at h
  exact ⟨g, h, fun n hn => by have := (h2 n hn).2; norm_num; exact this, fun n hn => (h2 n hn).1⟩

/-- **C51.** The AArch64 `poly_tobytes` delivers the FIPS 203 encoding of the polynomial, the bytes the portable code delivers. -/
theorem C51_tobytes {P : A64.Profile} (hP : IsProfile P) (regs : A64.Entry) (f : Nat → Nat) (hf : ∀ n, n < 256 → f n < 3329) (r : Buf UInt8) (hr : r.size = 384) :
    Returns (A64.poly_tobytes P regs r 0 (poly fun n => (f n : Int))) (Buf.ofList (ByteEncode 12 f)) ∧
      Returns (poly_tobytes r 0 (poly fun n => (f n : Int))) (Buf.ofList (ByteEncode 12 f)) :=
  ⟨ret_eq (A64.poly_tobytes_spec hP.good regs (f := f) (poly_holds _) hf (by omega)) fun _ h => written_encode (d := 12) h hr, C17_tobytes f hf r hr⟩

/-- **C51.** Serialised inside a larger buffer, it changes the 384 bytes at the given offset and nothing else. -/
theorem C51_tobytes_frame {P : A64.Profile} (hP : IsProfile P) (regs : A64.Entry) (f : Nat → Nat) (hf : ∀ n, n < 256 → f n < 3329) (r : Buf UInt8) (o : Nat) (hr : o + 384 ≤ r.size) :
    ∃ r', Returns (A64.poly_tobytes P regs r o (poly fun n => (f n : Int))) r' ∧ r'.size = r.size ∧
      (∀ i, i < 384 → r'[o + i]? = some (some ((ByteEncode 12 f).getD i 0))) ∧ ∀ j, (j < o ∨ o + 384 ≤ j) → r'[j]? = r[j]? := by
  obtain ⟨r', h, h1, h2, h3⟩ := ret_of_post (A64.poly_tobytes_spec hP.good regs (f := f) (poly_holds _) hf hr)
  exact ⟨r', h, h1, fun i hi => by rw [h2 i hi, ByteEncode_getD' _ _ hi], h3⟩

example : ∀ n, n < 256 → IsI16 ((fun n : Nat => (n : Int) * 256 - 32768) n) := fun n hn => by dsimp only; unfold IsI16; omega
example : ∀ n, n < 256 → (fun n => 13 * n + 1) n < 3329 := fun n hn => by dsimp only; omega

/-! ## C52: rejection sampling -/

/-- The stack memory that the sampler uses: 288 elements of any contents. -/
def stackMem (f : Nat → Int) : Model.Poly := Array.ofFn fun i : Fin 288 => some (f i.1)

theorem stackMem_ok (f : Nat → Int) : (stackMem f).size = 288 ∧ A64Rej.Full (stackMem f) := by
  refine ⟨by simp [stackMem], fun i hi => ⟨f i, ?_⟩⟩
  have : i < 288 := by simpa [stackMem] using hi
  simp [stackMem, this]

/-- **C52 (the vectorised sampler).**  Asked for 256 coefficients from a number of bytes that is a multiple of 24, it takes the accepted candidates in order, up to 256, puts them at
`r + o`, and changes nothing before `r + o` or after `r + o + 255`, whatever the stack holds.  Cells of that range after the accepted ones may be overwritten. -/
theorem C52_native (stack : Nat → Int) (r : Model.Poly) (o : Nat) (hr : o + 256 ≤ r.size) (L : List UInt8) (hL : L.length % 24 = 0) :
    ∃ r' a', Returns (A64Rej.rej_uniform_native r o 256 (stackMem stack) (Buf.ofList L) L.length) (r', some a'.length) ∧ a' = (accepted L).take 256 ∧ r'.size = r.size ∧
      (∀ i, i < a'.length → r'[o + i]? = some (some (nth a' i))) ∧ ∀ i, (i < o ∨ o + 256 ≤ i) → r'[i]? = r[i]? := by
  have hp : Post (A64Rej.rej_uniform_native r o 256 (stackMem stack) (Buf.ofList L) L.length) (fun x => x.2 = some (sN 256 L []).length ∧ x.1.size = r.size ∧
      HasAt x.1 o (sN 256 L []) ∧ ∀ j, (j < o ∨ o + 256 ≤ j) → x.1[j]? = r[j]?) := by
    unfold A64Rej.rej_uniform_native
    simp only [wp_bind, wp_orM, wp_branch, Bool.or_eq_true, Bool.or_eq_false_iff, decide_eq_true_eq, decide_eq_false_iff_not, wp_pure]
    refine ⟨fun h => by omega, fun _ => ?_⟩
    refine (A64Rej.rej_uniform_asm_clean_spec hr (stackMem_ok stack).1 (stackMem_ok stack).2 hL (Holds.ofList L 0).seg).mono ?_
    rintro ⟨r', c⟩ ⟨h1, h2, h3, h4⟩
    exact ⟨congrArg some h3, h1, h2, h4⟩
  obtain ⟨⟨r', c⟩, h, h1, h2, h3, h4⟩ := ret_of_post hp
  simp only at h1
  subst h1
  exact ⟨r', _, h, by simpa using sN_eq_accepted (T := 256) (L := L) (a := []) (by simp), h2, h3, h4⟩

/-- **C52 (other requests).**  For any other number of coefficients or bytes it does nothing and says so. -/
theorem C52_native_declines (stk r : Model.Poly) (o len : Nat) (buf : Buf UInt8) (n : Nat) (h : len ≠ 256 ∨ n % 24 ≠ 0) : Returns (A64Rej.rej_uniform_native r o len stk buf n) (r, none) := by
  refine ret_eq (Q := fun x => x = (r, none)) ?_ fun _ h => h
  unfold A64Rej.rej_uniform_native
  simp only [wp_bind, wp_orM, wp_branch, Bool.or_eq_true, Bool.or_eq_false_iff, decide_eq_true_eq, decide_eq_false_iff_not, wp_pure]
  exact ⟨fun _ => trivial, fun h' => by omega⟩

/-- **C52 (the sampler of an AArch64 build).**  It meets the specification of the portable sampler (`C25_rej_uniform`) word for word. -/
theorem C52_rej_uniform (stack : Nat → Int) (target : Nat) (r : Model.Poly) (ht : target ≤ r.size) (ht32 : target < 2 ^ 32) (a : List Nat) (ha : a.length ≤ target)
    (hra : ∀ i, i < a.length → r[i]? = some (some (nth a i))) (L : List UInt8) (hL : L.length + 3 < 2 ^ 32) :
    ∃ r' a', Returns (A64Rej.rej_uniform (stackMem stack) r target a.length (Buf.ofList L) L.length) (r', a'.length) ∧ a' = a ++ (accepted L).take (target - a.length) ∧
      r'.size = r.size ∧ (∀ i, i < a'.length → r'[i]? = some (some (nth a' i))) ∧ ∀ i, target ≤ i → r'[i]? = r[i]? := by
  obtain ⟨x, h, h1, h2, h3, h4⟩ := ret_of_post (A64Rej.rej_uniform_spec' (stackMem_ok stack).1 (stackMem_ok stack).2 (T := target) (L := L) ht ht32 hL ha hra (Holds.ofList L 0).seg)
  refine ⟨x.1, _, ?_, (sN_eq_accepted ha), h1, h2, h4⟩
  rw [← h3]; exact h

/-- A case of C52 that takes the vector path: 504 bytes, nothing sampled yet; 168 triples with one accepted candidate each (`0x8ab` and `0xfed`). -/
example : ((List.replicate 168 [0xab, 0xd8, 0xfe]).flatten : List UInt8).length % 24 = 0 ∧ (accepted ((List.replicate 168 [0xab, 0xd8, 0xfe]).flatten)).take 256 = List.replicate 168 0x8ab := by
  decide +kernel

/-! ## C53: the calling convention -/

/-- What a function that is called with the registers `g` and the objects `m`, `b` owes its caller: on return the stack pointer, the general-purpose registers 18 to 30 and the low halves
of the vector registers 8 to 15 are as they were, and it has changed no object but the first argument (and its own stack frame). -/
def KeepsCaller (g : A64.Entry) (m : A64.Obj → Buf Int) (b : A64.Obj → Buf UInt8) (p : M A64.St) : Prop :=
  ∃ s, Returns p s ∧ s.x 31 = .ptr .stk 64 ∧ (∀ r, 18 ≤ r → r ≤ 30 → s.x r = g.x r) ∧ (∀ i k, 8 ≤ i → i < 16 → k < 4 → s.v i k = X86.s16 (g.v i k)) ∧
    ∀ o, o ≠ .a0 → o ≠ .stk → s.m o = m o ∧ s.b o = b o

theorem keeps {prog : List A64.Block} (hf : A64.frames prog = true) {g : A64.Entry} {args : List A64.Reg} {m : A64.Obj → Buf Int} {b : A64.Obj → Buf UInt8}
    (ha : args.head? = some (.ptr .a0 0)) (hl : args.length ≤ 18) {Q : A64.St → Prop} (h : Post (A64.run prog (A64.call g args m b)) (fun s => A64.Saved g s ∧ Q s)) :
    KeepsCaller g m b (A64.run prog (A64.call g args m b)) := by
  obtain ⟨s, ⟨t, hs⟩, ⟨h1, h2⟩, -⟩ := ret_of_post h
  obtain ⟨h3, h4⟩ := A64.ends_call hf ha hl s t hs
  exact ⟨s, ⟨t, hs⟩, h1, h3, fun i k hi hi' hk => h2 i k ⟨hi, hi'⟩ hk, h4⟩

/-- **C53.** The transforms. -/
theorem C53_ntt {P : A64.Profile} (hP : IsProfile P) (g : A64.Entry) (m : A64.Obj → Buf Int) (b : A64.Obj → Buf UInt8) (f : Nat → Int) (hm : m .a0 = poly f) :
    ((∀ n, n < 256 → -3329 < f n ∧ f n < 3329) →
      KeepsCaller g m b (A64.run P.ntt (A64.call g [.ptr .a0 0, .ptr (.tab .aarch64_ntt_zetas_layer01234) 0, .ptr (.tab .aarch64_ntt_zetas_layer56) 0] m b))) ∧
    ((∀ n, n < 256 → IsI16 (f n)) →
      KeepsCaller g m b (A64.run P.intt (A64.call g [.ptr .a0 0, .ptr (.tab .aarch64_invntt_zetas_layer01234) 0, .ptr (.tab .aarch64_invntt_zetas_layer56) 0] m b))) :=
  ⟨fun hf => keeps hP.frames.ntt rfl (by decide) (A64.ntt_run hP.good.ntt (poly_holds f) hf g hm),
    fun hf => keeps hP.frames.intt rfl (by decide) (A64.intt_run hP.good.intt (poly_holds f) hf g hm)⟩

/-- **C53.** Reduction and Montgomery form. -/
theorem C53_reduce {P : A64.Profile} (hP : IsProfile P) (g : A64.Entry) (m : A64.Obj → Buf Int) (b : A64.Obj → Buf UInt8) (f : Nat → Int) (hm : m .a0 = poly f)
    (hf : ∀ n, n < 256 → IsI16 (f n)) :
    KeepsCaller g m b (A64.run P.reduce (A64.call g [.ptr .a0 0] m b)) ∧ KeepsCaller g m b (A64.run P.tomont (A64.call g [.ptr .a0 0] m b)) :=
  ⟨keeps hP.frames.reduce rfl (by decide) (A64.reduce_run hP.good.reduce (poly_holds f) hf g hm),
    keeps hP.frames.tomont rfl (by decide) (A64.tomont_run hP.good.tomont (poly_holds f) hf g hm)⟩

/-- **C53.** The cache for the multiplication. -/
theorem C53_mulcache {P : A64.Profile} (hP : IsProfile P) (g : A64.Entry) (m : A64.Obj → Buf Int) (b : A64.Obj → Buf UInt8) (f : Nat → Int) (hm : m .a1 = poly f)
    (hx : (m .a0).size = 128) (hf : ∀ n, n < 256 → IsI16 (f n)) :
    KeepsCaller g m b (A64.run P.mulcache (A64.call g [.ptr .a0 0, .ptr .a1 0, .ptr (.tab .aarch64_zetas_mulcache_native) 0, .ptr (.tab .aarch64_zetas_mulcache_twisted_native) 0] m b)) :=
  keeps hP.frames.mulcache rfl (by decide) (A64.mulcache_run hP.good.mulcache (poly_holds f) hf g hm hx)

/-- **C53.** Serialisation. -/
theorem C53_tobytes {P : A64.Profile} (hP : IsProfile P) (g : A64.Entry) (m : A64.Obj → Buf Int) (b : A64.Obj → Buf UInt8) (f : Nat → Nat) (hm : m .a1 = poly fun n => (f n : Int))
    (hb : (b .a0).size = 384) (hf : ∀ n, n < 256 → f n < 3329) :
    KeepsCaller g m b (A64.run P.tobytes (A64.call g [.ptr .a0 0, .ptr .a1 0] m b)) :=
  keeps hP.frames.tobytes rfl (by decide) (A64.tobytes_run hP.good.tobytes (poly_holds _) (fun n hn => by have := hf n hn; omega) g hm hb)

/-- **C53.** The accumulated product, on caches that `poly_mulcache_compute` computed. -/
theorem C53_basemul {P : A64.Profile} (hP : IsProfile P) {K : Nat} (hK : IsParam K) (g : A64.Entry) (g' : Nat → A64.Entry) (m : A64.Obj → Buf Int) (bytes : A64.Obj → Buf UInt8)
    (a b : Nat → Nat → Int) (c x : Nat → Buf Int) (ha : ∀ i n, i < K → n < 256 → -3329 < a i n ∧ a i n < 3329) (hb : ∀ i n, i < K → n < 256 → -(8 * 3329) < b i n ∧ b i n < 8 * 3329)
    (hx : ∀ i, i < K → (x i).size = 128) (hc : ∀ i, i < K → Returns (A64.poly_mulcache_compute P (g' i) (x i) (poly (b i))) (c i)) (h0 : (m .a0).size = 256)
    (h1 : m .a1 = A64.flat 256 K (vec K a)) (h2 : m .a2 = A64.flat 256 K (vec K b)) (h3 : m .a3 = A64.flat 128 K (caches K c)) :
    KeepsCaller g m bytes (A64.run (P.basemul K) (A64.call g [.ptr .a0 0, .ptr .a1 0, .ptr .a2 0, .ptr .a3 0] m bytes)) := by
  have hK' : K = 2 ∨ K = 3 ∨ K = 4 := hK
  have hcc : ∀ i, i < K → A64.Cache (c i) (b i) := fun i hi => by
    obtain ⟨c', h, h1⟩ := ret_of_post (A64.poly_mulcache_compute_spec hP.good (g' i) (hx i hi) (poly_holds (b i)) fun n hn => by have := hb i n hi hn; omega)
    rw [(hc i hi).unique h]; exact h1
  exact keeps (hP.frames.basemul K) rfl (by decide) (A64.basemul_run (by omega) (hP.good.basemul K (by omega) (by omega)) (vec_holds K a) (vec_holds K b)
    ⟨by simp [caches], fun i hi => ⟨c i, by simp [caches, hi], hcc i hi⟩⟩ ha (fun i n hi hn => by have := hb i n hi hn; omega) g h0 h1 h2 h3)

/-- A case of C53: a state with a polynomial of coefficients from -3328 to 3302 as the first argument. -/
example : ∃ m : A64.Obj → Buf Int, m .a0 = poly (fun n => (n : Int) * 26 - 3328) := ⟨fun _ => poly (fun n => (n : Int) * 26 - 3328), rfl⟩

end Verif.Props

import Verif.Props.A64Kem
import Verif.Props.X86Arith
/-! # Builds on an arbitrary native backend (C62 - C65)

A build of the library replaces a fixed set of functions by those of a backend (`Native.Backend`, after `/repo/mlkem/native/arith_native.h` and `/repo/fips202`).  `Contract` says what each of
them has to do; the theorems here say what the library then does, whatever the backend.  They apply to the backends in `/repo` and to any combination of its arithmetic and hashing backends. -/
namespace Verif.Props
open Verif Verif.Model Verif.Spec Finset

attribute [local irreducible] keccakF partialK finK blocksK sqByte SHAKE256 SHA3_256 SHA3_512 SHAKE128

/-- The contract of a backend.

`order` is the order in which its polynomials hold their coefficients in the NTT domain: position `n` holds coefficient `order n` of the bit-reversed order of FIPS 203.  (A backend that does not define
`MLKEM_USE_NATIVE_NTT_CUSTOM_ORDER` has `order n = n`.)  `IsCache c f` says that `c` is a multiplication cache for the polynomial `f`; its form is up to the backend. -/
structure Contract (bk : Native.Backend) (order : Nat → Nat) (IsCache : Buf Int → (Nat → Int) → Prop) : Prop where
  /-- `order` is an order of 256 coefficients. -/
  order_lt : ∀ n, n < 256 → order n < 256
  /-- `KeccakF1600_StatePermute` permutes the state it is given and leaves the memory around it alone. -/
  permutation : ∀ (pre post : Buf Model.W) (l : List Model.W), l.length = 25 →
    ∃ l', Permuted [l] [l'] ∧ Returns (bk.KeccakF1600_StatePermute (statesAt pre [l] post) pre.size) (statesAt pre [l'] post)
  /-- `KeccakF1600x4_StatePermute` permutes each of the four states. -/
  permutation_x4 : ∀ L : Fin 4 → List Model.W, (∀ w, (L w).length = 25) →
    ∃ L' : Fin 4 → List Model.W, (∀ w, (L' w).length = 25 ∧ stateOf (L' w) = keccakF (stateOf (L w))) ∧ Returns (bk.KeccakF1600x4_StatePermute (fourStates L)) (fourStates L')
  /-- `rej_uniform` appends the accepted 12-bit candidates to the coefficients `a` sampled so far, up to `target`, and returns their number.  As documented in rej_uniform.h, `target` and the length
  of the buffer are at most 4096 and the length is a multiple of three. -/
  rej_uniform : ∀ (target : Nat) (r : Buf Int), target ≤ r.size → target ≤ 4096 → ∀ a : List Nat, a.length ≤ target → (∀ i, i < a.length → r[i]? = some (some (nth a i))) →
    ∀ (L : List UInt8) (buf : Buf UInt8), L.length ≤ 4096 → L.length % 3 = 0 → (∀ i (h : i < L.length), buf[i]? = some (some L[i])) →
    ∃ r' a', Returns (bk.rej_uniform r target a.length buf L.length) (r', a'.length) ∧ a' = a ++ (accepted L).take (target - a.length) ∧
      r'.size = r.size ∧ (∀ i, i < a'.length → r'[i]? = some (some (nth a' i))) ∧ ∀ i, target ≤ i → r'[i]? = r[i]?
  /-- `poly_permute_bitrev_to_custom`, if there is one, puts a reduced polynomial into the order of the backend. -/
  to_order : match bk.poly_permute_bitrev_to_custom with
    | none => ∀ n, n < 256 → order n = n
    | some p => ∀ f : Nat → Int, (∀ n, n < 256 → 0 ≤ f n ∧ f n < 3329) → Returns (p (poly f)) (poly fun n => f (order n))
  /-- `poly_ntt` is the NTT of FIPS 203, with results below `8 q`. -/
  ntt : ∀ f : Nat → Int, (∀ n, n < 256 → -3329 < f n ∧ f n < 3329) →
    ∃ g, Returns (bk.poly_ntt (poly f)) (poly fun n => g (order n)) ∧ (∀ n, n < 256 → modq g n = NTT (modq f) n) ∧ ∀ n, n < 256 → -(8 * 3329) < g n ∧ g n < 8 * 3329
  /-- `poly_invntt_tomont` is `2^16` times the inverse NTT, on all `int16_t` coefficients, with results below `8 q`. -/
  invntt : ∀ f : Nat → Int, (∀ n, n < 256 → IsI16 (f n)) →
    ∃ g, Returns (bk.poly_invntt_tomont (poly fun n => f (order n))) (poly g) ∧ (∀ n, n < 256 → modq g n = 2 ^ 16 * NTTInv (modq f) n) ∧ ∀ n, n < 256 → -(8 * 3329) < g n ∧ g n < 8 * 3329
  /-- `poly_reduce` delivers the representatives in [0, q). -/
  reduce : ∀ f : Nat → Int, (∀ n, n < 256 → IsI16 (f n)) → Returns (bk.poly_reduce (poly f)) (poly fun n => f n % 3329)
  /-- `poly_tomont` multiplies by `2^16`, with results below `q`. -/
  tomont : ∀ f : Nat → Int, (∀ n, n < 256 → IsI16 (f n)) →
    ∃ g, Returns (bk.poly_tomont (poly fun n => f (order n))) (poly fun n => g (order n)) ∧ (∀ n, n < 256 → modq g n = 2 ^ 16 * modq f n) ∧ ∀ n, n < 256 → -3329 < g n ∧ g n < 3329
  /-- `poly_tobytes` writes `ByteEncode_12` of a reduced polynomial to the 384 bytes from `o`, and nothing else. -/
  tobytes : ∀ f : Nat → Nat, (∀ n, n < 256 → f n < 3329) → ∀ (r : Buf UInt8) (o : Nat), o + 384 ≤ r.size →
    ∃ r', Returns (bk.poly_tobytes r o (poly fun n => (f (order n) : Int))) r' ∧ r'.size = r.size ∧
      (∀ i, i < 384 → r'[o + i]? = some (some ((ByteEncode 12 f).getD i 0))) ∧ ∀ j, (j < o ∨ o + 384 ≤ j) → r'[j]? = r[j]?
  /-- `poly_frombytes` delivers the 256 12-bit numbers contained in the 384 bytes from `o`. -/
  frombytes : ∀ B : List UInt8, B.length = 384 → ∀ (a : Buf UInt8) (o : Nat), (∀ i (h : i < B.length), a[o + i]? = some (some B[i])) → ∀ r : Buf Int, r.size = 256 →
    Returns (bk.poly_frombytes r a o) (poly fun n => (coeff12 B (order n) : Int))
  /-- `poly_mulcache_compute` delivers a cache. -/
  mulcache : ∀ (c : Buf Int) (f : Nat → Int), c.size = 128 → (∀ n, n < 256 → -(8 * 3329) < f n ∧ f n < 8 * 3329) →
    ∃ c', Returns (bk.poly_mulcache_compute c (poly fun n => f (order n))) c' ∧ IsCache c' f
  /-- `polyvec_basemul_acc_montgomery_cached`, given caches for its second operand, delivers an `int16_t` polynomial which is `2^(-16)` times the inner product in the NTT domain. -/
  basemul : ∀ K, IsParam K → ∀ a b : Nat → Nat → Int, (∀ i n, i < K → n < 256 → -3329 < a i n ∧ a i n < 3329) → (∀ i n, i < K → n < 256 → -(8 * 3329) < b i n ∧ b i n < 8 * 3329) →
    ∀ cache : Array (Buf Int), cache.size = K → (∀ i (h : i < cache.size), IsCache cache[i] (b i)) → ∀ r : Buf Int, r.size = 256 →
    ∃ s, Returns (bk.polyvec_basemul_acc_montgomery_cached K r (vec K fun i n => a i (order n)) (vec K fun i n => b i (order n)) cache) (poly fun n => s (order n)) ∧
      (∀ n, n < 256 → 2 ^ 16 * modq s n = ∑ j ∈ range K, MultiplyNTTs (modq (a j)) (modq (b j)) n) ∧ ∀ n, n < 256 → IsI16 (s n)

/-! ## The contract and the one used in the proofs -/

variable {bk : Native.Backend} {order : Nat → Nat} {IsCache : Buf Int → (Nat → Int) → Prop}

theorem post_of_returns {α : Type} {p : M α} {a : α} {Q : α → Prop} (h : Returns p a) (hq : Q a) : Post p Q := by
  obtain ⟨t, rfl⟩ := h
  unfold Post PostF; exact hq

theorem zq_16_169 : (2 : Zq) ^ 16 * 169 = 1 := by decide

theorem mont_cancel {x y : Zq} : 2 ^ 16 * x = y ↔ x = 169 * y := by
  constructor
  · rintro rfl; rw [← mul_assoc, mul_comm 169, zq_16_169, one_mul]
  · rintro rfl; rw [← mul_assoc, zq_16_169, one_mul]

theorem two16 : (2 : Zq) ^ 16 = 65536 := by norm_num

theorem split_state {s : Buf Model.W} {so : Nat} {S : KState} (h : SegK s so S) :
    ∃ (pre post : Buf Model.W) (l : List Model.W), l.length = 25 ∧ stateOf l = S ∧ s = statesAt pre [l] post ∧ so = pre.size := by
  obtain ⟨l, h1, h2, h3⟩ := segK_list h
  have hsz : so + 25 ≤ s.size := by
    have := (Array.getElem?_eq_some_iff.1 (h2 24 (by omega))).1; omega
  have hl : ∀ m ∈ [l], m.length = 25 := by simp [h1]
  have hp : (s.extract 0 so).size = so := by simp; omega
  refine ⟨s.extract 0 so, s.extract (so + 25) s.size, l, h1, h3, ?_, hp.symm⟩
  have hf : (Buf.ofList [l].flatten).size = 25 := by simp [Buf.ofList, h1]
  apply Array.ext_getElem?
  intro i
  rcases Nat.lt_or_ge i so with hi | hi
  · unfold statesAt
    rw [Array.getElem?_append_left (by rw [Array.size_append]; omega), Array.getElem?_append_left (by omega), Array.getElem?_extract]
    simp; omega
  rcases Nat.lt_or_ge i (so + 25) with hi' | hi'
  · have e := statesAt_get (pre := s.extract 0 so) (post := s.extract (so + 25) s.size) hl (i := 0) (k := i - so) (by simp) (by omega)
    rw [hp, show so + 25 * 0 + (i - so) = i by omega] at e
    have e2 := h2 (i - so) (by omega)
    rw [Nat.add_sub_cancel' hi] at e2
    rw [e, e2]; rfl
  · unfold statesAt
    rw [Array.getElem?_append_right (by rw [Array.size_append]; omega), Array.size_append, hp, hf, Array.getElem?_extract]
    rw [Nat.add_sub_cancel' hi']
    by_cases h : i < s.size
    · rw [if_pos (by omega)]
    · rw [if_neg (by omega), Array.getElem?_eq_none (by omega)]

theorem getD_byte {L : List UInt8} {i : Nat} (h : i < L.length) : L.getD i 0 = L[i] := by simp [List.getD, h]

/-- A backend that keeps the contract meets the one used in the proofs. -/
theorem Contract.meets (h : Contract bk order IsCache) : Native.Meets bk order IsCache where
  lt := fun hn => h.order_lt _ hn
  perm1 := fun {s so S} hs => by
    obtain ⟨pre, post, l, h1, h2, rfl, rfl⟩ := split_state hs
    obtain ⟨l', hp, hr⟩ := h.permutation pre post l h1
    obtain ⟨⟨e1, e2⟩, -⟩ := List.forall₂_cons.1 hp
    have hl : ∀ m ∈ [l], m.length = 25 := by simp [h1]
    have hl' : ∀ m ∈ [l'], m.length = 25 := by simp [e1]
    have hf : (Buf.ofList [l].flatten).size = 25 := by simp [Buf.ofList, h1]
    have hf' : (Buf.ofList [l'].flatten).size = 25 := by simp [Buf.ofList, e1]
    refine post_of_returns hr ⟨⟨?_, fun j hj => ?_⟩, ?_⟩
    · unfold statesAt; simp only [Array.size_append, hf, hf']
    · unfold statesAt
      rcases hj with hj | hj
      · rw [Array.getElem?_append_left (by rw [Array.size_append]; omega), Array.getElem?_append_left (by omega),
          Array.getElem?_append_left (by rw [Array.size_append]; omega), Array.getElem?_append_left (by omega)]
      · rw [Array.getElem?_append_right (by rw [Array.size_append]; omega), Array.getElem?_append_right (by rw [Array.size_append]; omega)]
        simp only [Array.size_append, hf, hf']
    · have := segK_statesAt (pre := pre) (post := post) hl' (i := 0) (by simp)
      rw [← h2, ← e2]; exact this
  perm := fun {s S} hz hs => by
    obtain ⟨L, h1, rfl, h2⟩ := fourStates_of_state4 hz hs
    obtain ⟨L', h3, hr⟩ := h.permutation_x4 L h1
    refine post_of_returns hr ⟨?_, (state4_fourStates L' fun w => (h3 w).1).congr fun w hw => ?_⟩
    · unfold fourStates; simp [Buf.ofList, h1, (h3 _).1]
    · have e := (h3 ⟨w, hw⟩).2
      rw [h2] at e
      rw [← e]; interval_cases w <;> rfl
  rej := fun {r T a buf L} ht ht32 hL h3 ha hra hb => by
    obtain ⟨r', a', hr, e, h1, h2, h3⟩ := h.rej_uniform T r ht ht32 a ha hra L buf hL h3 (fun i hi => by have := hb i hi; beta_reduce at this; rwa [Nat.zero_add, getD_byte hi] at this)
    rw [← sN_eq_accepted ha] at e
    subst e
    exact post_of_returns hr ⟨h1, h2, rfl, h3⟩
  permute := by
    have := h.to_order
    split at this
    · next e => rw [e]; exact this
    · next e => rw [e]; exact fun {p g} hp hg => by rw [eq_poly hp]; exact post_of_returns (this _ hg) (poly_holds _)
  ntt := fun {p f} hp hf => by
    obtain ⟨g, hr, h1, h2⟩ := h.ntt f hf
    rw [eq_poly hp]
    exact post_of_returns hr ⟨g, poly_holds _, fun n hn => ⟨by have := h2 n hn; omega, h1 n hn⟩⟩
  intt := fun {p f} hp hf => by
    obtain ⟨g, hr, h1, h2⟩ := h.invntt f hf
    rw [eq_poly hp]
    exact post_of_returns hr ⟨g, poly_holds _, fun n hn => ⟨by have := h2 n hn; omega, by rw [← two16]; exact h1 n hn⟩⟩
  reduce := fun {p f} hp hf => by
    rw [eq_poly hp]
    exact post_of_returns (h.reduce f hf) (poly_holds _)
  tomont := fun {p f} hp hf => by
    obtain ⟨g, hr, h1, h2⟩ := h.tomont f hf
    rw [eq_poly hp]
    exact post_of_returns hr ⟨g, poly_holds _, fun n hn => ⟨h2 n hn, by rw [← two16]; exact h1 n hn⟩⟩
  tobytes := fun {a f} ha hf {r ro} hr => by
    obtain ⟨r', h0, h1, h2, h3⟩ := h.tobytes f hf r ro hr
    rw [eq_poly ha]
    exact post_of_returns h0 ⟨h1, fun i hi => by rw [h2 i hi, ByteEncode_getD' _ _ hi], h3⟩
  frombytes := fun {a ao B} hB {r} hr => by
    have h1 := h.frombytes ((List.range 384).map B) (by simp) a ao (fun i hi => by simp at hi ⊢; exact hB i hi) r hr
    refine post_of_returns h1 ((poly_holds _).congr fun n hn => ?_)
    rw [coeff12_decNum]
    exact congrArg _ (decNum_congr (fun k hk => getD_map_range _ _ hk) (h.order_lt n hn))
  mulcache := fun {x a f} hx ha hf => by
    obtain ⟨c, hr, hc⟩ := h.mulcache x f hx (fun n hn => by have := hf n hn; omega)
    rw [eq_poly ha]
    exact post_of_returns hr hc
  basemul := fun {K} hK {r a b c fa fb} ha hb hc hfa hfb hr => by
    obtain ⟨s, h0, h1, h2⟩ := h.basemul K (by unfold IsParam; omega) fa fb hfa (fun i n hi hn => by have := hfb i n hi hn; omega) c hc.1 (fun i hi => by
      obtain ⟨p, hp, hq⟩ := hc.2 i (hc.1 ▸ hi)
      rw [Array.getElem?_eq_getElem hi] at hp
      rw [Option.some.inj hp]; exact hq) r hr
    rw [eq_vec ha, eq_vec hb]
    exact post_of_returns h0 ⟨s, poly_holds _, fun n hn => ⟨h2 n hn, mont_cancel.1 (h1 n hn)⟩⟩

/-- A backend that meets the contract used in the proofs keeps this one. -/
theorem Contract.of_meets (h : Native.Meets bk order IsCache) : Contract bk order IsCache where
  order_lt := fun n hn => h.lt hn
  permutation := fun pre post l hl => by
    have hl' : ∀ m ∈ [l], m.length = 25 := by simp [hl]
    obtain ⟨s, hs, hf, hk⟩ := ret_of_post (h.perm1 (segK_statesAt (pre := pre) (post := post) hl' (i := 0) (by simp)))
    obtain ⟨L', hp, rfl⟩ := statesAt_of hl' (fun j hj => hf.2 j (by simpa using hj)) (fun i hi => by
      have : i = 0 := by simpa using hi
      subst this; exact hk)
    obtain ⟨l', L'', e, e', rfl⟩ : ∃ l' L'', (l'.length = 25 ∧ stateOf l' = keccakF (stateOf l)) ∧ Permuted [] L'' ∧ L' = l' :: L'' := by
      cases hp with
      | cons a b => exact ⟨_, _, a, b, rfl⟩
    cases e'
    exact ⟨l', hp, hs⟩
  permutation_x4 := fun L hL => by
    have hsz : (fourStates L).size = 100 := by unfold fourStates; simp [Buf.ofList, hL]
    obtain ⟨s, hs, h1, h2⟩ := ret_of_post (h.perm hsz (state4_fourStates L hL))
    obtain ⟨A, a1, rfl, a3⟩ := fourStates_of_state4 (h1.trans hsz) h2
    refine ⟨A, fun w => ⟨a1 w, ?_⟩, hs⟩
    rw [a3]; fin_cases w <;> rfl
  rej_uniform := fun T r ht ht32 a ha hra L buf hL h3' hb => by
    obtain ⟨x, h0, h1, h2, h3, h4⟩ := ret_of_post (h.rej (T := T) (L := L) ht ht32 hL h3' ha hra (buf := buf) (fun i hi => by beta_reduce; rw [Nat.zero_add, getD_byte hi]; exact hb i hi))
    refine ⟨x.1, _, ?_, (sN_eq_accepted ha), h1, h2, h4⟩
    rw [← h3]; exact h0
  to_order := by
    have := h.permute
    split at this
    · next e => rw [e]; exact this
    · next e => rw [e]; exact fun f hf => ret_eq (this (poly_holds f) hf) fun _ h => eq_poly h
  ntt := fun f hf => by
    obtain ⟨p, h0, g, h1, h2⟩ := ret_of_post (h.ntt (poly_holds f) hf)
    exact ⟨g, eq_poly h1 ▸ h0, fun n hn => (h2 n hn).2, fun n hn => by have := (h2 n hn).1; omega⟩
  invntt := fun f hf => by
    obtain ⟨p, h0, g, h1, h2⟩ := ret_of_post (h.intt (f := f) (poly_holds _) hf)
    exact ⟨g, eq_poly h1 ▸ h0, fun n hn => by rw [two16]; exact (h2 n hn).2, fun n hn => by have := (h2 n hn).1; omega⟩
  reduce := fun f hf => ret_eq (h.reduce (poly_holds f) hf) fun _ h => eq_poly h
  tomont := fun f hf => by
    obtain ⟨p, h0, g, h1, h2⟩ := ret_of_post (h.tomont (f := f) (poly_holds _) hf)
    exact ⟨g, eq_poly h1 ▸ h0, fun n hn => by rw [two16]; exact (h2 n hn).2, fun n hn => (h2 n hn).1⟩
  tobytes := fun f hf r o hr => by
    obtain ⟨r', h0, h1, h2, h3⟩ := ret_of_post (h.tobytes (f := f) (poly_holds _) hf hr)
    exact ⟨r', h0, h1, fun i hi => by rw [h2 i hi, ByteEncode_getD' _ _ hi], h3⟩
  frombytes := fun B hB a o ha r hr => by
    refine ret_eq (h.frombytes (B := fun i => B.getD i 0) (fun i hi => by beta_reduce; rw [getD_byte (by omega)]; exact ha i (by omega)) hr) fun _ h => eq_poly (h.congr fun n _ => ?_)
    rw [coeff12_decNum]
  mulcache := fun c f hc hf => by
    obtain ⟨c', h0, h1⟩ := ret_of_post (h.mulcache (f := f) hc (poly_holds _) fun n hn => by have := hf n hn; omega)
    exact ⟨c', h0, h1⟩
  basemul := fun K hK a b ha hb c hc hcc r hr => by
    have hK' : K = 2 ∨ K = 3 ∨ K = 4 := hK
    obtain ⟨p, h0, s, h1, h2⟩ := ret_of_post (h.basemul (K := K) (by omega) (fa := a) (fb := b) (vec_holds K fun i n => a i (order n)) (vec_holds K fun i n => b i (order n))
      (c := c) ⟨hc, fun i hi => ⟨c[i], Array.getElem?_eq_getElem (hc ▸ hi), hcc i (hc ▸ hi)⟩⟩ ha (fun i n hi hn => by have := hb i n hi hn; omega) hr)
    exact ⟨s, eq_poly h1 ▸ h0, fun n hn => mont_cancel.2 (h2 n hn).2, fun n hn => (h2 n hn).1⟩

/-! ## C62: what a build on a backend that keeps the contract does -/

/-- **C62.** Key generation: for all coins and all output objects (large enough, arbitrary contents), the two builds have the same outcome. -/
theorem C62_keypair (hb : Contract bk order IsCache) {K : Nat} (hK : IsParam K) (fuel : Nat) {coins pk sk : Buf UInt8} (hc : Init coins 64) (hpk : pkLen K ≤ pk.size) (hsk : skLen K ≤ sk.size) :
    SameOutcome (Native.crypto_kem_keypair_derand bk K fuel pk sk coins) (crypto_kem_keypair_derand K fuel pk sk coins) :=
  same_keypair hb.meets hK fuel hc hpk hsk

/-- **C62.** Encapsulation: for all public keys (well-formed or not), coins and output objects, the two builds have the same outcome, including rejection. -/
theorem C62_enc (hb : Contract bk order IsCache) {K : Nat} (hK : IsParam K) (fuel : Nat) {ct ss pk coins : Buf UInt8} (hpk : Init pk (pkLen K)) (hc : Init coins 32) (hct : ctLen K ≤ ct.size) (hss : 32 ≤ ss.size) :
    SameOutcome (Native.crypto_kem_enc_derand bk K fuel ct ss pk coins) (crypto_kem_enc_derand K fuel ct ss pk coins) :=
  same_enc hb.meets hK fuel hpk hc hct hss

/-- **C62.** Decapsulation: for all secret keys, ciphertexts (honest or not) and output objects, the two builds have the same outcome, including rejection. -/
theorem C62_dec (hb : Contract bk order IsCache) {K : Nat} (hK : IsParam K) (fuel : Nat) {ss ct sk : Buf UInt8} (hct : Init ct (ctLen K)) (hsk : Init sk (skLen K)) (hss : 32 ≤ ss.size) :
    SameOutcome (Native.crypto_kem_dec bk K fuel ss ct sk) (crypto_kem_dec K fuel ss ct sk) :=
  same_dec hb.meets hK fuel hct hsk hss

/-- **C62.** Key generation of a build on any such backend computes ML-KEM.KeyGen_internal (FIPS 203, Algorithm 16) and returns 0. -/
theorem C62_keygen (hb : Contract bk order IsCache) {K : Nat} (hK : IsParam K) (fuel : Nat) (d z : List UInt8) (hd : d.length = 32) (hz : z.length = 32)
    (pk sk : Buf UInt8) (hpk : pk.size = pkLen K) (hsk : sk.size = skLen K) :
    match KeyGen_internal K (xofBytes fuel) d z with
    | some (ek, dk) => Returns (Native.crypto_kem_keypair_derand bk K fuel pk sk (Buf.ofList (d ++ z))) (0, Buf.ofList ek, Buf.ofList dk)
    | none => OutOfBudget (Native.crypto_kem_keypair_derand bk K fuel pk sk (Buf.ofList (d ++ z))) := by
  have h := C01_keygen hK fuel d z hd hz pk sk hpk hsk
  have s := C62_keypair hb hK fuel (coins := Buf.ofList (d ++ z)) ⟨d ++ z, by simp [hd, hz], rfl⟩ (le_of_eq hpk.symm) (le_of_eq hsk.symm)
  split
  · next heq => rw [heq] at h; exact (s.returns_iff _).2 h
  · next heq => rw [heq] at h; exact s.out_iff.2 h

/-- **C62.** On every public key that passes the modulus check of FIPS 203, Section 7.2, encapsulation of a build on any such backend computes ML-KEM.Encaps_internal (Algorithm 17) and returns 0. -/
theorem C62_encaps (hb : Contract bk order IsCache) {K : Nat} (hK : IsParam K) (fuel : Nat) (ek m : List UInt8) (hek : ek.length = pkLen K) (hm : m.length = 32)
    (hcheck : modulusCheck K ek) (ct ss : Buf UInt8) (hct : ct.size = ctLen K) (hss : ss.size = 32) :
    match Encaps_internal K (xofBytes fuel) ek m with
    | some (k, c) => Returns (Native.crypto_kem_enc_derand bk K fuel ct ss (Buf.ofList ek) (Buf.ofList m)) (0, Buf.ofList c, Buf.ofList k)
    | none => OutOfBudget (Native.crypto_kem_enc_derand bk K fuel ct ss (Buf.ofList ek) (Buf.ofList m)) := by
  have h := C02_encaps hK fuel ek m hek hm hcheck ct ss hct hss
  have s := C62_enc hb hK fuel (pk := Buf.ofList ek) (coins := Buf.ofList m) ⟨ek, hek, rfl⟩ ⟨m, hm, rfl⟩ (le_of_eq hct.symm) (le_of_eq hss.symm)
  split
  · next heq => rw [heq] at h; exact (s.returns_iff _).2 h
  · next heq => rw [heq] at h; exact s.out_iff.2 h

/-- **C62.** On every other public key it returns -1 and leaves both output objects as they were. -/
theorem C62_encaps_rejects (hb : Contract bk order IsCache) {K : Nat} (hK : IsParam K) (fuel : Nat) (ek m : List UInt8) (hek : ek.length = pkLen K) (hm : m.length = 32)
    (ct ss : Buf UInt8) (hct : ctLen K ≤ ct.size) (hss : 32 ≤ ss.size) :
    (∃ n, n < 256 * K ∧ 3329 ≤ coeff12 ek n) ↔ Returns (Native.crypto_kem_enc_derand bk K fuel ct ss (Buf.ofList ek) (Buf.ofList m)) (-1, ct, ss) := by
  rw [(C62_enc hb hK fuel (pk := Buf.ofList ek) (coins := Buf.ofList m) ⟨ek, hek, rfl⟩ ⟨m, hm, rfl⟩ hct hss).returns_iff]
  have hiff := modulusCheck_iff (K := K) (ek := ek) (by rw [hek, pkLen_eq])
  have hneg : (∃ n, n < 256 * K ∧ 3329 ≤ coeff12 ek n) ↔ ¬ modulusCheck K ek := by
    rw [hiff]; constructor
    · rintro ⟨n, h1, h2⟩ h; exact absurd (h n h1) (by omega)
    · intro h; by_contra hc; apply h; intro n hn; by_contra hh; exact hc ⟨n, hn, by omega⟩
  rw [hneg]
  rcases enc_frame hK fuel ek m hek hm ct ss hct hss with ⟨hc, k, c, a, b, e, l1, l2, h, _⟩ | ⟨hc, e, h⟩ | ⟨hn, h⟩
  · exact ⟨fun h => absurd hc h, fun h' => absurd (congrArg Prod.fst (h.unique h')) (by simp)⟩
  · exact ⟨fun h => absurd hc h, fun h' => (h'.notOut h).elim⟩
  · exact ⟨fun _ => h, fun _ => hn⟩

/-- **C62.** On every secret key that passes the hash check of FIPS 203, Section 7.3, and every ciphertext, decapsulation of a build on any such backend computes ML-KEM.Decaps_internal
(Algorithm 18) and returns 0. -/
theorem C62_decaps (hb : Contract bk order IsCache) {K : Nat} (hK : IsParam K) (fuel : Nat) (dk c : List UInt8) (hdk : dk.length = skLen K) (hc : c.length = ctLen K)
    (hcheck : hashCheck K dk) (ss : Buf UInt8) (hss : ss.size = 32) :
    match Decaps_internal K (xofBytes fuel) dk c with
    | some k => Returns (Native.crypto_kem_dec bk K fuel ss (Buf.ofList c) (Buf.ofList dk)) (0, Buf.ofList k)
    | none => OutOfBudget (Native.crypto_kem_dec bk K fuel ss (Buf.ofList c) (Buf.ofList dk)) := by
  have h := C03_decaps hK fuel dk c hdk hc hcheck ss hss
  have s := C62_dec hb hK fuel (ct := Buf.ofList c) (sk := Buf.ofList dk) ⟨c, hc, rfl⟩ ⟨dk, hdk, rfl⟩ (le_of_eq hss.symm)
  split
  · next heq => rw [heq] at h; exact (s.returns_iff _).2 h
  · next heq => rw [heq] at h; exact s.out_iff.2 h

/-- **C62.** On every other secret key it returns -1 and leaves the output object as it was. -/
theorem C62_decaps_rejects (hb : Contract bk order IsCache) {K : Nat} (hK : IsParam K) (fuel : Nat) (dk c : List UInt8) (hdk : dk.length = skLen K) (hc : c.length = ctLen K)
    (ss : Buf UInt8) (hss : 32 ≤ ss.size) :
    SHA3_256 ((dk.drop (384 * K)).take (pkLen K)) ≠ (dk.drop (768 * K + 32)).take 32 ↔ Returns (Native.crypto_kem_dec bk K fuel ss (Buf.ofList c) (Buf.ofList dk)) (-1, ss) := by
  rw [(C62_dec hb hK fuel (ct := Buf.ofList c) (sk := Buf.ofList dk) ⟨c, hc, rfl⟩ ⟨dk, hdk, rfl⟩ hss).returns_iff]
  change ¬ hashCheck K dk ↔ _
  rcases dec_frame hK fuel dk c hdk hc ss hss with ⟨hh, k, a, e, l1, h, _⟩ | ⟨hh, e, h⟩ | ⟨hn, h⟩
  · exact ⟨fun h => absurd hh h, fun h' => absurd (congrArg Prod.fst (h.unique h')) (by simp)⟩
  · exact ⟨fun h => absurd hh h, fun h' => (h'.notOut h).elim⟩
  · exact ⟨fun _ => h, fun _ => hn⟩

/-- **C62.** With objects of the announced sizes no entry point of a build on any such backend accesses memory outside an object, reads uninitialised memory, overflows or narrows with a change
of value in C code, or violates a debug check. -/
theorem C62_safe (hb : Contract bk order IsCache) {K : Nat} (hK : IsParam K) (fuel : Nat) {coins64 coins32 pkOut skOut pkIn skIn ctOut ctIn ss : Buf UInt8}
    (h64 : Init coins64 64) (h32 : Init coins32 32) (hpk : Init pkIn (pkLen K)) (hsk : Init skIn (skLen K)) (hct : Init ctIn (ctLen K))
    (hpk' : pkLen K ≤ pkOut.size) (hsk' : skLen K ≤ skOut.size) (hct' : ctLen K ≤ ctOut.size) (hss : 32 ≤ ss.size) :
    (NoOob (Native.crypto_kem_keypair_derand bk K fuel pkOut skOut coins64) ∧ NoUninit (Native.crypto_kem_keypair_derand bk K fuel pkOut skOut coins64) ∧ NoArith (Native.crypto_kem_keypair_derand bk K fuel pkOut skOut coins64)) ∧
    (NoOob (Native.crypto_kem_enc_derand bk K fuel ctOut ss pkIn coins32) ∧ NoUninit (Native.crypto_kem_enc_derand bk K fuel ctOut ss pkIn coins32) ∧ NoArith (Native.crypto_kem_enc_derand bk K fuel ctOut ss pkIn coins32)) ∧
    (NoOob (Native.crypto_kem_dec bk K fuel ss ctIn skIn) ∧ NoUninit (Native.crypto_kem_dec bk K fuel ss ctIn skIn) ∧ NoArith (Native.crypto_kem_dec bk K fuel ss ctIn skIn)) :=
  ⟨(C62_keypair hb hK fuel h64 hpk' hsk').safe, (C62_enc hb hK fuel hpk h32 hct' hss).safe, (C62_dec hb hK fuel hct hsk hss).safe⟩

/-! ## The backends of the library keep the contract -/

/-- **C62.** The portable C functions keep it, in the order of FIPS 203. -/
theorem C62_portable : ∃ IsCache, Contract Native.portable (fun n => n) IsCache := ⟨_, .of_meets Native.portable_meets⟩

/-- **C62.** The AVX2 functions keep it, in the order `x86Order`. -/
theorem C62_x86_64 (g : Native.Regs) : ∃ IsCache, Contract (Native.x86_64 g) x86Order IsCache := ⟨_, .of_meets (x86Order_eq ▸ Native.x86_64_meets g)⟩

/-- **C62.** So do the AVX2 functions with the rejection sampler that uses bit scatter and gather (`BMI`). -/
theorem C62_x86_64_bmi (g : Native.Regs) : ∃ IsCache, Contract (Native.x86_64_bmi g) x86Order IsCache := ⟨_, .of_meets (x86Order_eq ▸ Native.x86_64_bmi_meets g)⟩

/-- **C62.** The AArch64 functions keep it, in the order of FIPS 203. -/
theorem C62_aarch64 {P : A64.Profile} {Q : A64K.Profile} (hP : IsProfile P) (hQ : IsKeccakProfile Q) (g : Native.Regs64) : ∃ IsCache, Contract (Native.aarch64 P Q g) (fun n => n) IsCache :=
  ⟨_, .of_meets (Native.aarch64_meets hP.good hQ.ok g)⟩

/-- The build with the arithmetic of one backend and the Keccak functions of another, as selected separately in `/repo` (`/repo/mlkem/native/profile.h` and
`/repo/fips202/native/fips202_native.h`). -/
def withKeccakOf (arith keccak : Native.Backend) : Native.Backend :=
  { arith with KeccakF1600_StatePermute := keccak.KeccakF1600_StatePermute, KeccakF1600x4_StatePermute := keccak.KeccakF1600x4_StatePermute }

/-- **C62.** The arithmetic of any backend that keeps the contract can be combined with the Keccak functions of any other. -/
theorem C62_combine {bk' : Native.Backend} {order' : Nat → Nat} {IsCache' : Buf Int → (Nat → Int) → Prop} (h : Contract bk order IsCache) (h' : Contract bk' order' IsCache') :
    Contract (withKeccakOf bk bk') order IsCache :=
  { h with permutation := h'.permutation, permutation_x4 := h'.permutation_x4 }

/-- Which functions to take from the first of two backends: the choice of `MLKEM_USE_NATIVE_*` macros in a profile ("Option 3" of `/repo/mlkem/native/profile.h`).  The multiplication and its
cache go together. -/
structure Choice where
  rej_uniform : Bool
  ntt : Bool
  invntt : Bool
  reduce : Bool
  tomont : Bool
  tobytes : Bool
  frombytes : Bool
  mul : Bool

/-- The build that takes the chosen arithmetic functions from `b` and the others from `b'`, as well as the Keccak functions. -/
def choose (c : Choice) (b b' : Native.Backend) : Native.Backend where
  KeccakF1600_StatePermute := b'.KeccakF1600_StatePermute
  KeccakF1600x4_StatePermute := b'.KeccakF1600x4_StatePermute
  rej_uniform := if c.rej_uniform then b.rej_uniform else b'.rej_uniform
  poly_permute_bitrev_to_custom := b'.poly_permute_bitrev_to_custom
  poly_ntt := if c.ntt then b.poly_ntt else b'.poly_ntt
  poly_invntt_tomont := if c.invntt then b.poly_invntt_tomont else b'.poly_invntt_tomont
  poly_reduce := if c.reduce then b.poly_reduce else b'.poly_reduce
  poly_tomont := if c.tomont then b.poly_tomont else b'.poly_tomont
  poly_tobytes := if c.tobytes then b.poly_tobytes else b'.poly_tobytes
  poly_frombytes := if c.frombytes then b.poly_frombytes else b'.poly_frombytes
  poly_mulcache_compute := if c.mul then b.poly_mulcache_compute else b'.poly_mulcache_compute
  polyvec_basemul_acc_montgomery_cached := if c.mul then b.polyvec_basemul_acc_montgomery_cached else b'.polyvec_basemul_acc_montgomery_cached

/-- **C62.** Two backends with the same order of coefficients can be combined function by function. -/
theorem C62_choose (c : Choice) {b b' : Native.Backend} {C C' : Buf Int → (Nat → Int) → Prop} (h : Contract b order C) (h' : Contract b' order C') :
    Contract (choose c b b') order (if c.mul then C else C') := by
  obtain ⟨c1, c2, c3, c4, c5, c6, c7, c8⟩ := c
  exact {
    order_lt := h.order_lt
    permutation := h'.permutation
    permutation_x4 := h'.permutation_x4
    rej_uniform := by cases c1; exact h'.rej_uniform; exact h.rej_uniform
    to_order := h'.to_order
    ntt := by cases c2; exact h'.ntt; exact h.ntt
    invntt := by cases c3; exact h'.invntt; exact h.invntt
    reduce := by cases c4; exact h'.reduce; exact h.reduce
    tomont := by cases c5; exact h'.tomont; exact h.tomont
    tobytes := by cases c6; exact h'.tobytes; exact h.tobytes
    frombytes := by cases c7; exact h'.frombytes; exact h.frombytes
    mulcache := by cases c8; exact h'.mulcache; exact h.mulcache
    basemul := by cases c8; exact h'.basemul; exact h.basemul }

/-- A profile with native NTTs only, on AArch64. -/
example {P : A64.Profile} {Q : A64K.Profile} (hP : IsProfile P) (hQ : IsKeccakProfile Q) (g : Native.Regs64) :
    ∃ IsCache, Contract (choose ⟨false, true, true, false, false, false, false, false⟩ (Native.aarch64 P Q g) Native.portable) (fun n => n) IsCache := by
  obtain ⟨C, h⟩ := C62_aarch64 hP hQ g
  obtain ⟨C', h'⟩ := C62_portable
  exact ⟨_, C62_choose _ h h'⟩

/-! ## C64: constant time on any backend -/

/-- Two calls that return make the same memory accesses and branches. -/
def SameTrace {α β : Type} (p : M α) (q : M β) : Prop := ∀ a t b t', ReturnsTr p a t → ReturnsTr q b t' → t = t'

/-- The functions of the backend that handle secrets take branches, access addresses and divide independently of the contents of the objects they work on.  (The rejection sampler and the
reordering of coefficients handle the public matrix only and are not required to.) -/
structure DataIndependent (bk : Native.Backend) : Prop where
  permutation : ∀ s s', SameTrace (bk.KeccakF1600_StatePermute s 0) (bk.KeccakF1600_StatePermute s' 0)
  /-- The word after the state, where the incremental functions keep the (public) position in the current block, is left alone. -/
  keeps_position : ∀ s s' w, Returns (bk.KeccakF1600_StatePermute s 0) s' → s'[25]? = some (some w) → s[25]? = some (some w)
  permutation_x4 : ∀ s s', SameTrace (bk.KeccakF1600x4_StatePermute s) (bk.KeccakF1600x4_StatePermute s')
  ntt : ∀ r r', SameTrace (bk.poly_ntt r) (bk.poly_ntt r')
  invntt : ∀ r r', SameTrace (bk.poly_invntt_tomont r) (bk.poly_invntt_tomont r')
  reduce : ∀ r r', SameTrace (bk.poly_reduce r) (bk.poly_reduce r')
  tomont : ∀ r r', SameTrace (bk.poly_tomont r) (bk.poly_tomont r')
  tobytes : ∀ r r' o a a', SameTrace (bk.poly_tobytes r o a) (bk.poly_tobytes r' o a')
  frombytes : ∀ r r' a a' o, SameTrace (bk.poly_frombytes r a o) (bk.poly_frombytes r' a' o)
  mulcache : ∀ c c' a a', SameTrace (bk.poly_mulcache_compute c a) (bk.poly_mulcache_compute c' a')
  basemul : ∀ K r r' a a' b b' c c', SameTrace (bk.polyvec_basemul_acc_montgomery_cached K r a b c) (bk.polyvec_basemul_acc_montgomery_cached K r' a' b' c')

theorem SameTrace.si {α β : Type} {p : M α} {q : M β} (h : SameTrace p q) : SI p q := fun a t b t' h1 h2 => ⟨h a t b t' h1 h2, trivial⟩
theorem SameTrace.of_si {α β : Type} {p : M α} {q : M β} (h : SI p q) : SameTrace p q := fun a t b t' h1 h2 => (h a t b t' h1 h2).1

theorem DataIndependent.quiet (h : DataIndependent bk) : Native.Quiet bk where
  perm1 := (h.permutation _ _).si
  perm25 := fun hc a t b t' h1 h2 => ⟨h.permutation _ _ a t b t' h1 h2, fun w hw => hc.1 w (h.keeps_position _ _ w ⟨t, h1⟩ hw), fun w hw => hc.2 w (h.keeps_position _ _ w ⟨t', h2⟩ hw)⟩
  perm := (h.permutation_x4 _ _).si
  ntt := (h.ntt _ _).si
  intt := (h.invntt _ _).si
  reduce := (h.reduce _ _).si
  tomont := (h.tomont _ _).si
  tobytes := (h.tobytes _ _ _ _ _).si
  frombytes := (h.frombytes _ _ _ _ _).si
  mulcache := (h.mulcache _ _ _ _).si
  basemul := (h.basemul _ _ _ _ _ _ _ _ _).si

theorem DataIndependent.of_quiet [h : Native.Quiet bk] : DataIndependent bk where
  permutation := fun _ _ => .of_si h.perm1
  keeps_position := fun s s' w ⟨t, hr⟩ hw => by
    have key : ∀ c, (∀ v, s[25]? = some (some v) → v = c) → w = c := fun c hc => (h.perm25 (c := c) ⟨hc, hc⟩ _ _ _ _ hr hr).2.1 w hw
    rcases hv : s[25]? with _ | v
    · exact absurd ((key 0 fun v h => by rw [hv] at h; cases h).symm.trans (key 1 fun v h => by rw [hv] at h; cases h)) (by decide)
    · rcases v with _ | v
      · exact absurd ((key 0 fun v h => by rw [hv] at h; cases h).symm.trans (key 1 fun v h => by rw [hv] at h; cases h)) (by decide)
      · rw [key v fun u h => by rw [hv] at h; cases h; rfl]
  permutation_x4 := fun _ _ => .of_si h.perm
  ntt := fun _ _ => .of_si h.ntt
  invntt := fun _ _ => .of_si h.intt
  reduce := fun _ _ => .of_si h.reduce
  tomont := fun _ _ => .of_si h.tomont
  tobytes := fun _ _ _ _ _ => .of_si h.tobytes
  frombytes := fun _ _ _ _ _ => .of_si h.frombytes
  mulcache := fun _ _ _ _ => .of_si h.mulcache
  basemul := fun _ _ _ _ _ _ _ _ _ => .of_si h.basemul

/-- **C64.** Encapsulating to one public key with two values of the coins takes the same branches and touches the same addresses. -/
theorem C64_enc_derand (hb : Contract bk order IsCache) (hq : DataIndependent bk) {K : Nat} (hK : IsParam K) (fuel : Nat) (ek m m' : List UInt8) (hek : ek.length = pkLen K) (hm : m.length = 32) (hm' : m'.length = 32)
    (ct ct' ss ss' : Buf UInt8) (hct : ctLen K ≤ ct.size) (hct' : ctLen K ≤ ct'.size) (hss : 32 ≤ ss.size) (hss' : 32 ≤ ss'.size) :
    LookAlike (Native.crypto_kem_enc_derand bk K fuel ct ss (Buf.ofList ek) (Buf.ofList m)) (Native.crypto_kem_enc_derand bk K fuel ct' ss' (Buf.ofList ek) (Buf.ofList m')) :=
  (C13_enc_derand hK fuel ek m m' hek hm hm' ct ct' ss ss' hct hct' hss hss').transfer (C62_enc hb hK fuel ⟨ek, hek, rfl⟩ ⟨m, hm, rfl⟩ hct hss)
    (C62_enc hb hK fuel ⟨ek, hek, rfl⟩ ⟨m', hm', rfl⟩ hct' hss') (have := hq.quiet; Native.si_enc_derand hb.meets hb.meets hK (by rw [hek, Nat.mul_comm]; rfl) (SegL_ofList ek))

/-- **C64.** Decapsulating two ciphertexts with two secret keys that agree in the embedded public key `ek` and the stored hash `h` takes the same branches and touches the same
addresses: nothing depends on the secret vectors, on the rejection secrets `z`, on the ciphertexts or on their validity. -/
theorem C64_dec (hb : Contract bk order IsCache) (hq : DataIndependent bk) {K : Nat} (hK : IsParam K) (fuel : Nat) (s s' ek h z z' c c' : List UInt8) (hs : s.length = 384 * K) (hs' : s'.length = 384 * K) (hek : ek.length = pkLen K)
    (hh : h.length = 32) (hz : z.length = 32) (hz' : z'.length = 32) (hc : c.length = ctLen K) (hc' : c'.length = ctLen K)
    (ss ss' : Buf UInt8) (hss : 32 ≤ ss.size) (hss' : 32 ≤ ss'.size) :
    LookAlike (Native.crypto_kem_dec bk K fuel ss (Buf.ofList c) (Buf.ofList (s ++ ek ++ h ++ z))) (Native.crypto_kem_dec bk K fuel ss' (Buf.ofList c') (Buf.ofList (s' ++ ek ++ h ++ z'))) := by
  have hpk : pkLen K = 384 * K + 32 := rfl
  have hl : ∀ s z : List UInt8, s.length = 384 * K → z.length = 32 → (s ++ ek ++ h ++ z).length = skLen K := by
    intro s z hs hz
    unfold skLen; simp only [List.length_append]; omega
  have g1 : ∀ s z : List UInt8, s.length = 384 * K → z.length = 32 → SegL (Buf.ofList (s ++ ek ++ h ++ z)) (MLKEM_INDCPA_SECRETKEYBYTES K) ek := by
    intro s z hs hz
    have := (SegL_ofList (s ++ ek ++ h ++ z)).sub (384 * K) (384 * K + 32) (by rw [hl s z hs hz]; unfold skLen; omega)
    rw [show ((s ++ ek ++ h ++ z).drop (384 * K)).take (384 * K + 32) = ek by
      rw [List.append_assoc, List.append_assoc, List.drop_left' hs, show 384 * K + 32 = pkLen K from rfl, List.take_left' hek]] at this
    have e : MLKEM_INDCPA_SECRETKEYBYTES K = 0 + 384 * K := by rcases hK with rfl | rfl | rfl <;> rfl
    rw [e]; exact this
  have g2 : ∀ s z : List UInt8, s.length = 384 * K → z.length = 32 → SegL (Buf.ofList (s ++ ek ++ h ++ z)) (MLKEM_SECRETKEYBYTES K - 2 * 32) h := by
    intro s z hs hz
    have := (SegL_ofList (s ++ ek ++ h ++ z)).sub (768 * K + 32) 32 (by rw [hl s z hs hz]; unfold skLen; omega)
    rw [show ((s ++ ek ++ h ++ z).drop (768 * K + 32)).take 32 = h by
      rw [List.append_assoc, List.drop_left' (by rw [List.length_append, hs, hek, hpk]; omega), List.take_left' hh]] at this
    have e : MLKEM_SECRETKEYBYTES K - 2 * 32 = 0 + (768 * K + 32) := by rcases hK with rfl | rfl | rfl <;> rfl
    rw [e]; exact this
  exact (C14_dec hK fuel s s' ek h z z' c c' hs hs' hek hh hz hz' hc hc' ss ss' hss hss').transfer (C62_dec hb hK fuel ⟨c, hc, rfl⟩ ⟨_, hl s z hs hz, rfl⟩ hss)
    (C62_dec hb hK fuel ⟨c', hc', rfl⟩ ⟨_, hl s' z' hs' hz', rfl⟩ hss')
    (have := hq.quiet; Native.si_dec hb.meets hb.meets hK (by rw [hek, Nat.mul_comm]; rfl) hh (g1 s z hs hz) (g1 s' z' hs' hz') (g2 s z hs hz) (g2 s' z' hs' hz'))

/-- **C64.** Generating keys from two coin strings with the same public matrix seed takes the same branches and touches the same addresses. -/
theorem C64_keypair_derand (hb : Contract bk order IsCache) (hq : DataIndependent bk) {K : Nat} (hK : IsParam K) (fuel : Nat) (d d' z z' : List UInt8) (hd : d.length = 32) (hd' : d'.length = 32) (hz : z.length = 32)
    (hz' : z'.length = 32) (hρ : (SHA3_512 (d ++ [UInt8.ofNat K])).take 32 = (SHA3_512 (d' ++ [UInt8.ofNat K])).take 32)
    (pk pk' sk sk' : Buf UInt8) (hpk : pkLen K ≤ pk.size) (hpk' : pkLen K ≤ pk'.size) (hsk : skLen K ≤ sk.size) (hsk' : skLen K ≤ sk'.size) :
    LookAlike (Native.crypto_kem_keypair_derand bk K fuel pk sk (Buf.ofList (d ++ z))) (Native.crypto_kem_keypair_derand bk K fuel pk' sk' (Buf.ofList (d' ++ z'))) := by
  have hh : ∀ d z : List UInt8, d.length = 32 → SegL (Buf.ofList (d ++ z)) 0 d := by
    intro d z hd
    have := (SegL_ofList (d ++ z)).take 32 (by rw [List.length_append]; omega)
    rwa [List.take_left' hd] at this
  exact (C15_keypair_derand hK fuel d d' z z' hd hd' hz hz' hρ pk pk' sk sk' hpk hpk' hsk hsk').transfer
    (C62_keypair hb hK fuel ⟨d ++ z, by simp [hd, hz], rfl⟩ hpk hsk) (C62_keypair hb hK fuel ⟨d' ++ z', by simp [hd', hz'], rfl⟩ hpk' hsk')
    (have := hq.quiet; Native.si_keypair_derand hb.meets hb.meets hK hd hd' (hh d z hd) (hh d' z' hd') hρ)

/-- **C64.** The portable functions, the AVX2 functions and the AArch64 functions are independent of data in this sense, and so is every combination of arithmetic and Keccak functions that are. -/
theorem C64_backends : DataIndependent Native.portable ∧ (∀ g, DataIndependent (Native.x86_64 g) ∧ DataIndependent (Native.x86_64_bmi g)) ∧
    (∀ {P : A64.Profile} {Q : A64K.Profile}, IsProfile P → IsKeccakProfile Q → ∀ g, DataIndependent (Native.aarch64 P Q g)) ∧
    ∀ {bk bk'}, DataIndependent bk → DataIndependent bk' → DataIndependent (withKeccakOf bk bk') :=
  ⟨.of_quiet, fun _ => ⟨.of_quiet, .of_quiet⟩, fun hP hQ g => have := Native.quiet_aarch64 hP.quiet hQ.ok g; .of_quiet,
    fun h h' => { h with permutation := h'.permutation, keeps_position := h'.keeps_position, permutation_x4 := h'.permutation_x4 }⟩

/-- **C64.** Combining two backends function by function (as in `C62_choose`) keeps the property. -/
theorem C64_choose (c : Choice) {b b' : Native.Backend} (h : DataIndependent b) (h' : DataIndependent b') : DataIndependent (choose c b b') := by
  obtain ⟨c1, c2, c3, c4, c5, c6, c7, c8⟩ := c
  exact {
    permutation := h'.permutation
    keeps_position := h'.keeps_position
    permutation_x4 := h'.permutation_x4
    ntt := by cases c2; exact h'.ntt; exact h.ntt
    invntt := by cases c3; exact h'.invntt; exact h.invntt
    reduce := by cases c4; exact h'.reduce; exact h.reduce
    tomont := by cases c5; exact h'.tomont; exact h.tomont
    tobytes := by cases c6; exact h'.tobytes; exact h.tobytes
    frombytes := by cases c7; exact h'.frombytes; exact h.frombytes
    mulcache := by cases c8; exact h'.mulcache; exact h.mulcache
    basemul := by cases c8; exact h'.basemul; exact h.basemul }

/-- A build with the native NTTs only, on AArch64. -/
example {P : A64.Profile} {Q : A64K.Profile} (hP : IsProfile P) (hQ : IsKeccakProfile Q) (g : Native.Regs64) :
    DataIndependent (choose ⟨false, true, true, false, false, false, false, false⟩ (Native.aarch64 P Q g) Native.portable) :=
  C64_choose _ (C64_backends.2.2.1 hP hQ g) C64_backends.1

/-- A combination met in practice: AVX2 arithmetic with portable Keccak functions. -/
example (g : Native.Regs) : (∃ IsCache, Contract (withKeccakOf (Native.x86_64 g) Native.portable) x86Order IsCache) ∧ DataIndependent (withKeccakOf (Native.x86_64 g) Native.portable) := by
  obtain ⟨C, h⟩ := C62_x86_64 g
  obtain ⟨C', h'⟩ := C62_portable
  exact ⟨⟨C, C62_combine h h'⟩, C64_backends.2.2.2 (C64_backends.2.1 g).1 C64_backends.1⟩

/-! ## C65: the randomised API on any backend -/

/-- **C65.** `crypto_kem_keypair` asks `randombytes` once, for 64 bytes, and then does exactly what the derandomised function of the same build does on these bytes; it returns 0. -/
theorem C65_keypair (bk : Native.Backend) {σ : Type} (rb : RandomBytes σ) (st : σ) (K fuel : Nat) (pk sk : Buf UInt8) (hrb : (rb st 64).1.length = 64) :
    Native.crypto_kem_keypair bk K fuel rb st pk sk =
      mapM (fun x => (0, x.2.1, x.2.2, (rb st 64).2)) (Native.crypto_kem_keypair_derand bk K fuel pk sk (Buf.ofList (rb st 64).1)) := by
  unfold Native.crypto_kem_keypair
  rw [randombytes_eq rb st (2 * 32) hrb]
  rfl

/-- **C65.** `crypto_kem_enc` asks `randombytes` once, for 32 bytes, and then does exactly what the derandomised function of the same build does on these bytes, including the return code. -/
theorem C65_enc (bk : Native.Backend) {σ : Type} (rb : RandomBytes σ) (st : σ) (K fuel : Nat) (ct ss pk : Buf UInt8) (hrb : (rb st 32).1.length = 32) :
    Native.crypto_kem_enc bk K fuel rb st ct ss pk =
      mapM (fun x => (x.1, x.2.1, x.2.2, (rb st 32).2)) (Native.crypto_kem_enc_derand bk K fuel ct ss pk (Buf.ofList (rb st 32).1)) := by
  unfold Native.crypto_kem_enc
  rw [randombytes_eq rb st 32 hrb]
  rfl

theorem SameOutcome.map {α β : Type} {p q : M α} (f : α → β) (h : SameOutcome p q) : SameOutcome (mapM f p) (mapM f q) := by
  rcases h with ⟨a, ⟨t, rfl⟩, ⟨t', rfl⟩⟩ | ⟨h1, h2⟩
  · exact Or.inl ⟨f a, ⟨_, rfl⟩, ⟨_, rfl⟩⟩
  · unfold OutOfBudget at h1 h2
    rw [h1, h2]; exact Or.inr ⟨rfl, rfl⟩

/-- **C65.** With the same source of randomness in the same state, two builds return the same keys and leave the source in the same state. -/
theorem C65_same_keypair (hb : Contract bk order IsCache) {σ : Type} (rb : RandomBytes σ) (st : σ) {K : Nat} (hK : IsParam K) (fuel : Nat) {pk sk : Buf UInt8} (hrb : (rb st 64).1.length = 64)
    (hpk : pkLen K ≤ pk.size) (hsk : skLen K ≤ sk.size) :
    SameOutcome (Native.crypto_kem_keypair bk K fuel rb st pk sk) (crypto_kem_keypair K fuel rb st pk sk) := by
  rw [C65_keypair bk rb st K fuel pk sk hrb, C16_keypair rb st K fuel pk sk hrb]
  exact (C62_keypair hb hK fuel ⟨_, hrb, rfl⟩ hpk hsk).map _

/-- **C65.** The same for encapsulation. -/
theorem C65_same_enc (hb : Contract bk order IsCache) {σ : Type} (rb : RandomBytes σ) (st : σ) {K : Nat} (hK : IsParam K) (fuel : Nat) {ct ss pk : Buf UInt8} (hrb : (rb st 32).1.length = 32)
    (hpk : Init pk (pkLen K)) (hct : ctLen K ≤ ct.size) (hss : 32 ≤ ss.size) :
    SameOutcome (Native.crypto_kem_enc bk K fuel rb st ct ss pk) (crypto_kem_enc K fuel rb st ct ss pk) := by
  rw [C65_enc bk rb st K fuel ct ss pk hrb, C16_enc rb st K fuel ct ss pk hrb]
  exact (C62_enc hb hK fuel hpk ⟨_, hrb, rfl⟩ hct hss).map _

/-- A source of randomness: a counter, each of whose calls delivers as many bytes as asked for. -/
example : ((fun (st : Nat) n => ((List.range n).map fun i => UInt8.ofNat (st + i), st + n) : RandomBytes Nat) 7 64).1.length = 64 := by simp

end Verif.Props

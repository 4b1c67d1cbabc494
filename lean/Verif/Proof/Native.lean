import Verif.Model.Native
import Verif.Proof.Kem
import Verif.Proof.X86Pack
import Verif.Proof.X86Keccak
import Verif.Proof.X86Rej
/-! # Backends: what the rest of the library needs from one, and that the two modelled backends provide it -/
namespace Verif.Native
open Model Spec Finset

attribute [local irreducible] keccakF partialK finK blocksK sqByte SHAKE256 SHA3_256 SHA3_512 SHAKE128

/-- The contract of a backend. `π` is its order of coefficients in the NTT domain: position `n` holds coefficient `π n`.  `C c f` says that the multiplication cache `c` belongs to the
polynomial `f`. -/
structure Meets (bk : Backend) (π : Nat → Nat) (C : Model.Poly → (Nat → Int) → Prop) : Prop where
  lt : ∀ {n}, n < 256 → π n < 256
  perm1 : ∀ {s : Buf Model.W} {so : Nat} {S : KState}, SegK s so S → Post (bk.KeccakF1600_StatePermute s so) (fun s' => FrameK s s' so ∧ SegK s' so (keccakF S))
  perm : ∀ {s : Buf Model.W} {S : Nat → KState}, s.size = 100 → State4 s S → Post (bk.KeccakF1600x4_StatePermute s) (fun s' => s'.size = s.size ∧ State4 s' (fun w => keccakF (S w)))
  rej : ∀ {r : Model.Poly} {T : Nat} {a : List Nat} {buf : Buf UInt8} {L : List UInt8}, T ≤ r.size → T ≤ 4096 → L.length ≤ 4096 → L.length % 3 = 0 → a.length ≤ T → HasList r a →
    Seg buf 0 L.length (fun i => L.getD i 0) →
    Post (bk.rej_uniform r T a.length buf L.length) (fun x => x.1.size = r.size ∧ HasList x.1 (sN T L a) ∧ x.2 = (sN T L a).length ∧ ∀ j, T ≤ j → x.1[j]? = r[j]?)
  permute : match bk.poly_permute_bitrev_to_custom with
    | none => ∀ n, n < 256 → π n = n
    | some f => ∀ {p : Model.Poly} {g : Nat → Int}, Holds p 256 g → (∀ n, n < 256 → 0 ≤ g n ∧ g n < 3329) → Post (f p) (fun p' => Holds p' 256 fun n => g (π n))
  ntt : ∀ {p : Model.Poly} {f : Nat → Int}, Holds p 256 f → (∀ n, n < 256 → -3329 < f n ∧ f n < 3329) →
    Post (bk.poly_ntt p) (fun p' => ∃ v : Nat → Int, Holds p' 256 (fun n => v (π n)) ∧ ∀ n, n < 256 → (-26632 < v n ∧ v n < 26632) ∧ (v n : Zq) = NTT (fun i => (f i : Zq)) n)
  intt : ∀ {p : Model.Poly} {f : Nat → Int}, Holds p 256 (fun n => f (π n)) → (∀ n, n < 256 → -32768 ≤ f n ∧ f n ≤ 32767) →
    Post (bk.poly_invntt_tomont p) (fun p' => ∃ v, Holds p' 256 v ∧ ∀ n, n < 256 → (-26632 < v n ∧ v n < 26632) ∧ (v n : Zq) = 65536 * NTTInv (fun i => (f i : Zq)) n)
  reduce : ∀ {p : Model.Poly} {f : Nat → Int}, Holds p 256 f → (∀ n, n < 256 → -32768 ≤ f n ∧ f n ≤ 32767) → Post (bk.poly_reduce p) (fun p' => Holds p' 256 fun n => f n % 3329)
  tomont : ∀ {p : Model.Poly} {f : Nat → Int}, Holds p 256 (fun n => f (π n)) → (∀ n, n < 256 → -32768 ≤ f n ∧ f n ≤ 32767) →
    Post (bk.poly_tomont p) (fun p' => ∃ v : Nat → Int, Holds p' 256 (fun n => v (π n)) ∧ ∀ n, n < 256 → (-3329 < v n ∧ v n < 3329) ∧ (v n : Zq) = 65536 * (f n : Zq))
  tobytes : ∀ {a : Model.Poly} {f : Nat → Nat}, Holds a 256 (fun n => (f (π n) : Int)) → (∀ n, n < 256 → f n < 3329) → ∀ {r : Buf UInt8} {ro : Nat}, ro + 384 ≤ r.size →
    Post (bk.poly_tobytes r ro a) (fun r' => Written r r' ro 384 (encByte 12 f))
  frombytes : ∀ {a : Buf UInt8} {ao : Nat} {B : Nat → UInt8}, Seg a ao 384 B → ∀ {r : Model.Poly}, r.size = 256 →
    Post (bk.poly_frombytes r a ao) (fun r' => Holds r' 256 (fun n => (decNum 12 B (π n) : Int)))
  mulcache : ∀ {x a : Model.Poly} {f : Nat → Int}, x.size = 128 → Holds a 256 (fun n => f (π n)) → (∀ n, n < 256 → -26632 < f n ∧ f n < 26632) →
    Post (bk.poly_mulcache_compute x a) (fun x' => C x' f)
  basemul : ∀ {K : Nat}, 2 ≤ K ∧ K ≤ 4 → ∀ {r : Model.Poly} {a b c : PolyVec} {fa fb : Nat → Nat → Int}, VHolds a K 256 (fun i n => fa i (π n)) → VHolds b K 256 (fun i n => fb i (π n)) →
    VAll c K (fun i p => C p (fb i)) → (∀ i n, i < K → n < 256 → -3329 < fa i n ∧ fa i n < 3329) → (∀ i n, i < K → n < 256 → -26632 < fb i n ∧ fb i n < 26632) → r.size = 256 →
    Post (bk.polyvec_basemul_acc_montgomery_cached K r a b c) (fun r' => ∃ v : Nat → Int, Holds r' 256 (fun n => v (π n)) ∧ ∀ n, n < 256 → (-32768 ≤ v n ∧ v n ≤ 32767) ∧
      (v n : Zq) = 169 * ∑ j ∈ range K, MultiplyNTTs (fun n => (fa j n : Zq)) (fun n => (fb j n : Zq)) n)

theorem seg_end {a : Buf UInt8} {ao : Nat} {B : Nat → UInt8} (h : Seg a ao 384 B) : ao + 384 ≤ a.size := by
  have := h 383 (by omega)
  have := (Array.getElem?_eq_some_iff.1 this).1
  omega

theorem tomont_val {x : Int} (h : -32768 ≤ x ∧ x ≤ 32767) : (-3329 < montR (x * 1353) ∧ montR (x * 1353) < 3329) ∧ ((montR (x * 1353) : Int) : Zq) = 65536 * (x : Zq) := by
  refine ⟨by have := montR_bound (x := x * 1353) (B := 32768 * 1353) (by omega); omega, ?_⟩
  rw [montR_zq, Int.cast_mul]
  have := zq_cast_eq (a := 1353 * 169) (b := 65536) (by norm_num)
  simp only [Nat.cast_mul, Nat.cast_ofNat] at this
  rw [show ((1353 : Int) : Zq) = 1353 by push_cast; rfl, mul_assoc, this, mul_comm]

theorem portable_meets : Meets portable (fun n => n) (fun c f => Holds c 128 (mc f)) where
  lt := fun h => h
  perm1 := fun h => KeccakF1600_StatePermute_spec h
  perm := fun _ h => KeccakF1600x4_StatePermute_spec h
  rej := fun h h0 hL _ h1 h2 h3 => rej_uniform_spec h (by omega) (by omega) h1 h2 h3
  permute := fun _ _ => rfl
  ntt := fun h hf => Post.use (poly_ntt_spec h hf) fun p' ⟨v, h1, h2, h3⟩ => ⟨v, h1, fun n hn => ⟨by have := h2 n hn; omega, h3 n hn⟩⟩
  intt := fun h hf => Post.use (poly_invntt_tomont_spec h hf) fun p' ⟨v, h1, h2, h3⟩ => ⟨v, h1, fun n hn => ⟨by have := h2 n hn; omega, h3 n hn⟩⟩
  reduce := fun h hf => poly_reduce_spec h hf
  tomont := fun h hf => Post.use (poly_tomont_spec h hf) fun _ h' => ⟨_, h', fun n hn => tomont_val (hf n hn)⟩
  tobytes := fun h hf _ _ hr => poly_tobytes_spec h hf hr
  frombytes := fun h _ hr => poly_frombytes_spec h hr
  mulcache := fun hx ha hf => poly_mulcache_compute_spec ha (fun n hn => by have := hf n hn; omega) hx
  basemul := fun hK _ _ _ _ _ _ ha hb hc hfa hfb hr => Post.use (polyvec_basemul_acc_spec (by omega) ha hb hc hfa hfb hr) fun p' ⟨v, h1, h2⟩ => ⟨v, h1, fun n hn => ⟨by have := (h2 n hn).1; omega, (h2 n hn).2⟩⟩

theorem x86_64_meets (g : Regs) : Meets (x86_64 g) X86.cust (fun c _ => c.size = 128) where
  lt := fun h => X86.cust_lt h
  perm1 := fun h => KeccakF1600_StatePermute_spec h
  perm := fun _ h => keccak_f1600_x4_native_spec h
  rej := fun h h0 hL _ h1 h2 h3 => rej_uniform_x86_spec h (by omega) (by omega) h1 h2 h3
  permute := fun h hb => X86.permute_spec h (fun n hn => by have := hb n hn; omega) _
  ntt := fun h hf => X86.poly_ntt_spec h hf _
  intt := fun h hf => X86.poly_invntt_tomont_spec h hf _
  reduce := fun h hf => X86.poly_reduce_spec h hf _
  tomont := fun {_ f} h hf => Post.use (X86.poly_tomont_spec h (fun n hn => hf _ (X86.cust_lt hn)) _) fun _ h' => ⟨fun n => montR (f n * 1353), h', fun n hn => tomont_val (hf n hn)⟩
  tobytes := fun h hf _ _ hr => X86.poly_tobytes_spec h hf hr _
  frombytes := fun h _ hr => X86.poly_frombytes_native_spec h (seg_end h) hr _
  mulcache := fun {x _ _} hx _ _ => by
    change Post (pure x) _
    simpa only [Post, wp_pure] using hx
  basemul := fun hK _ _ _ c _ _ ha hb _ hfa hfb hr => Post.use (X86.polyvec_basemul_acc_native_spec (c := c) (by omega) ha hb hfa hfb hr _) fun p' ⟨v, h1, h2⟩ => ⟨v, h1, fun n hn => ⟨by have := (h2 n hn).1; omega, (h2 n hn).2⟩⟩

theorem x86_64_bmi_meets (g : Regs) : Meets (x86_64_bmi g) X86.cust (fun c _ => c.size = 128) where
  lt := (x86_64_meets g).lt
  perm1 := (x86_64_meets g).perm1
  perm := (x86_64_meets g).perm
  rej := fun h h0 hL _ h1 h2 h3 => rej_uniform_x86_bmi_spec h (by omega) (by omega) h1 h2 h3
  permute := (x86_64_meets g).permute
  ntt := (x86_64_meets g).ntt
  intt := (x86_64_meets g).intt
  reduce := (x86_64_meets g).reduce
  tomont := (x86_64_meets g).tomont
  tobytes := (x86_64_meets g).tobytes
  frombytes := (x86_64_meets g).frombytes
  mulcache := (x86_64_meets g).mulcache
  basemul := (x86_64_meets g).basemul

/-- With the portable backend the functions are, by definition, those of the portable model. -/
theorem portable_keypair : crypto_kem_keypair_derand portable = Model.crypto_kem_keypair_derand := rfl
theorem portable_enc : crypto_kem_enc_derand portable = Model.crypto_kem_enc_derand := rfl
theorem portable_dec : crypto_kem_dec portable = Model.crypto_kem_dec := rfl

end Verif.Native

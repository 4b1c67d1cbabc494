import Verif.Proof.Basemul
import Verif.Proof.Pack
import Verif.Model.Polyvec
/-! # Vectors of polynomials -/
open Finset
namespace Verif
open Model Spec

variable {F : Prop}

/-- Every entry of the `K`-entry vector satisfies `R`. -/
def VAll {β : Type} (v : Array β) (K : Nat) (R : Nat → β → Prop) : Prop := v.size = K ∧ ∀ i, i < K → ∃ p, v[i]? = some p ∧ R i p

/-- The vector holds the polynomials `f 0, …, f (K-1)` with `n` coefficients. -/
def VHolds (v : PolyVec) (K n : Nat) (f : Nat → Nat → Int) : Prop := VAll v K (fun i p => Holds p n (f i))

theorem VAll.mono {β : Type} {v : Array β} {K : Nat} {R R' : Nat → β → Prop} (h : VAll v K R) (hm : ∀ i p, i < K → R i p → R' i p) : VAll v K R' :=
  ⟨h.1, fun i hi => let ⟨p, hp, hr⟩ := h.2 i hi; ⟨p, hp, hm i p hi hr⟩⟩

theorem VAll.choose {v : PolyVec} {K n : Nat} {P : Nat → (Nat → Int) → Prop} (h : VAll v K (fun i p => ∃ g, Holds p n g ∧ P i g)) :
    ∃ f, VHolds v K n f ∧ ∀ i, i < K → P i (f i) := by
  have : ∀ i, ∃ g : Nat → Int, i < K → ∃ p, v[i]? = some p ∧ Holds p n g ∧ P i g := by
    intro i
    by_cases hi : i < K
    · obtain ⟨p, hp, g, hg⟩ := h.2 i hi
      exact ⟨g, fun _ => ⟨p, hp, hg⟩⟩
    · exact ⟨fun _ => 0, fun h => absurd h hi⟩
  choose f hf using this
  exact ⟨f, ⟨h.1, fun i hi => let ⟨p, hp, hg, _⟩ := hf i hi; ⟨p, hp, hg⟩⟩, fun i hi => (hf i hi).choose_spec.2.2⟩

theorem VHolds.congr {v : PolyVec} {K n : Nat} {f g : Nat → Nat → Int} (h : VHolds v K n f) (hfg : ∀ i c, i < K → c < n → f i c = g i c) : VHolds v K n g :=
  VAll.mono h fun i _ hi hp => hp.congr fun c hc => hfg i c hi hc

theorem VHolds.get {v : PolyVec} {K n : Nat} {f : Nat → Nat → Int} (h : VHolds v K n f) {i : Nat} (hi : i < K) : ∃ p, v[i]? = some p ∧ Holds p n (f i) := h.2 i hi

theorem VAll.new (K : Nat) : VAll (newVec K) K (fun _ p => p.size = 256) := by
  refine ⟨by simp [newVec], fun i hi => ⟨newPoly, ?_, by simp [newPoly]⟩⟩
  simp [newVec, hi]

theorem VAll.newCache (K : Nat) : VAll (newCacheVec K) K (fun _ p => p.size = 128) := by
  refine ⟨by simp [newCacheVec], fun i hi => ⟨Model.newCache, ?_, by simp [Model.newCache]⟩⟩
  simp [newCacheVec, hi]

theorem VAll.set {β : Type} {v : Array β} {K : Nat} {R R' : Nat → β → Prop} {i : Nat} {p : β} (h : VAll v K R) (hi : i < K) (hp : R' i p)
    (hR : ∀ j q, j < K → j ≠ i → R j q → R' j q) : VAll (v.setIfInBounds i p) K R' := by
  refine ⟨by simp [h.1], fun j hj => ?_⟩
  by_cases hij : j = i
  · subst hij
    refine ⟨p, ?_, hp⟩
    rw [Array.getElem?_setIfInBounds_self, if_pos (by rw [h.1]; exact hj)]
  · obtain ⟨q, hq, hr⟩ := h.2 j hj
    refine ⟨q, ?_, hR j q hj hij hr⟩
    rw [Array.getElem?_setIfInBounds_ne (by omega), hq]

/-- In-place update of one entry. -/
theorem wp_vmod {β : Type} {v : Array β} {i : Nat} {f : β → M β} {Q : Array β → Prop} :
    PostF F (vmod v i f) Q ↔ ∃ b, v[i]? = some b ∧ PostF F (f b) (fun b' => i < v.size ∧ Q (v.setIfInBounds i b')) := by
  unfold vmod
  simp only [wp_bind, wp_vget, wp_vset]

/-- Loop updating each entry in place. -/
theorem wp_vloop {β : Type} {v : Array β} {K : Nat} {R R' : Nat → β → Prop} {body : Nat → Array β → M (Array β)} {Q : Array β → Prop}
    (h : VAll v K R)
    (hb : ∀ i v' p, i < K → v'.size = K → v'[i]? = some p → R i p → PostF F (body i v') (fun v'' => ∃ p', v'' = v'.setIfInBounds i p' ∧ R' i p'))
    (hQ : ∀ v', VAll v' K R' → Q v') : PostF F (forFrom 0 K v body) Q := by
  refine wp_forN (fun i v' => VAll v' K (fun j p => if j < i then R' j p else R j p)) ?_ ?_ ?_
  · exact h.mono fun i p _ hp => by simpa using hp
  · intro i v' hi hI
    obtain ⟨p, hp, hr⟩ := hI.2 i hi
    refine PostF.mono (hb i v' p hi hI.1 hp (by simpa using hr)) fun v'' ⟨p', e, hp'⟩ => ?_
    subst e
    refine VAll.set hI hi (by simpa using hp') fun j q hj hne hq => ?_
    by_cases hlt : j < i
    · simpa [hlt, Nat.lt_succ_of_lt hlt] using hq
    · simpa [hlt, show ¬ j < i + 1 by omega] using hq
  · intro v' hI
    exact hQ v' (hI.mono fun i p hi hp => by simpa [hi] using hp)

theorem wp_vmapLoop {β : Type} {v : Array β} {K : Nat} {R R' : Nat → β → Prop} {body : Nat → β → M β} {Q : Array β → Prop}
    (h : VAll v K R) (hb : ∀ i p, i < K → R i p → PostF F (body i p) (R' i))
    (hQ : ∀ v', VAll v' K R' → Q v') : PostF F (forFrom 0 K v (fun i v => vmod v i (body i))) Q := by
  refine wp_vloop h ?_ hQ
  intro i v' p hi hs hp hr
  rw [wp_vmod]
  exact ⟨p, hp, PostF.mono (hb i p hi hr) fun p' hp' => ⟨by omega, p', rfl, hp'⟩⟩

theorem vecBound {v : PolyVec} {K n : Nat} {f : Nat → Nat → Int} (h : VHolds v K n f) {lo hi : Int} (hb : ∀ i c, i < K → c < n → lo < f i c ∧ f i c < hi) :
    ((List.range K).all fun i => match v[i]? with
    | some b => boundChk b 0 n lo hi
    | none => false) = true := by
  rw [List.all_eq_true]
  intro i hi'
  have hi' := List.mem_range.1 hi'
  obtain ⟨p, hp, hh⟩ := h.2 i hi'
  simp only [hp]
  exact boundChk_eq hh.seg _ _ fun c hc => hb i c hi' hc

theorem POLYVEC_BOUND_wp {v : PolyVec} {K : Nat} {f : Nat → Nat → Int} (h : VHolds v K 256 f) {B : Nat} (hb : ∀ i c, i < K → c < 256 → -(B : Int) < f i c ∧ f i c < B)
    {Q : Unit → Prop} (hQ : Q ()) : PostF F (POLYVEC_BOUND K v B) Q := by
  unfold POLYVEC_BOUND; simp only [wp_assertM]; exact ⟨vecBound h hb, hQ⟩

theorem MULCACHEVEC_BOUND_wp {v : PolyVec} {K : Nat} {f : Nat → Nat → Int} (h : VHolds v K 128 f) {B : Nat} (hb : ∀ i c, i < K → c < 128 → -(B : Int) < f i c ∧ f i c < B)
    {Q : Unit → Prop} (hQ : Q ()) : PostF F (MULCACHEVEC_BOUND K v B) Q := by
  unfold MULCACHEVEC_BOUND; simp only [wp_assertM]; exact ⟨vecBound h hb, hQ⟩

theorem POLYVEC_UBOUND_wp {v : PolyVec} {K : Nat} {f : Nat → Nat → Int} (h : VHolds v K 256 f) {B : Nat} (hb : ∀ i c, i < K → c < 256 → 0 ≤ f i c ∧ f i c < B)
    {Q : Unit → Prop} (hQ : Q ()) : PostF F (POLYVEC_UBOUND K v B) Q := by
  unfold POLYVEC_UBOUND; simp only [wp_assertM]; exact ⟨vecBound h fun i c hi hc => ⟨by have := hb i c hi hc; omega, (hb i c hi hc).2⟩, hQ⟩

/-- Writing `K` consecutive blocks of `n` bytes. -/
theorem Written.blocks {r r' r'' : Buf UInt8} {ro n i : Nat} {g : Nat → Nat → UInt8} (hn : 0 < n)
    (h : Written r r' ro (i * n) (fun k => g (k / n) (k % n))) (h' : Written r' r'' (ro + i * n) n (g i)) :
    Written r r'' ro ((i + 1) * n) (fun k => g (k / n) (k % n)) := by
  have := h.trans h'
  rw [Nat.succ_mul]
  refine this.congr fun k hk => ?_
  beta_reduce
  split
  · rfl
  · rename_i hlt
    obtain ⟨e, rfl⟩ : ∃ e, k = i * n + e := ⟨k - i * n, by omega⟩
    rw [Nat.add_sub_cancel_left, Nat.add_comm (i * n), Nat.add_mul_div_right _ _ hn, Nat.add_mul_mod_self_right,
      Nat.mod_eq_of_lt (by omega), Nat.div_eq_of_lt (by omega), Nat.zero_add]

theorem polyvec_tobytes_spec {K : Nat} {a : PolyVec} {f : Nat → Nat → Nat} (ha : VHolds a K 256 (fun i c => (f i c : Int)))
    (hf : ∀ i c, i < K → c < 256 → f i c < 3329) {r : Buf UInt8} {ro : Nat} (hr : ro + K * 384 ≤ r.size) :
    Post (polyvec_tobytes K r ro a) (fun r' => Written r r' ro (K * 384) (fun k => encByte 12 (f (k / 384)) (k % 384))) := by
  unfold polyvec_tobytes
  refine wp_forN (fun i r' => Written r r' ro (i * 384) (fun k => encByte 12 (f (k / 384)) (k % 384))) (by rw [Nat.zero_mul]; exact Written.refl _ _ _) ?_ (fun _ h => h)
  intro i r' hi hI
  simp only [wp_bind, wp_vget]
  obtain ⟨p, hp, hh⟩ := ha.get hi
  refine ⟨p, hp, ?_⟩
  have : i * 384 + 384 ≤ K * 384 := by omega
  refine Post.use (poly_tobytes_spec hh (fun c hc => hf i c hi hc) (by rw [hI.1, MLKEM_POLYBYTES]; omega)) fun r'' h'' => ?_
  exact Written.blocks (g := fun i => encByte 12 (f i)) (by omega) hI h''

theorem du_bytes (K : Nat) : MLKEM_POLYCOMPRESSEDBYTES_DU K = 32 * d_u K := by
  unfold MLKEM_POLYCOMPRESSEDBYTES_DU d_u; split <;> simp_all

theorem dv_bytes (K : Nat) : MLKEM_POLYCOMPRESSEDBYTES_DV K = 32 * d_v K := by
  unfold MLKEM_POLYCOMPRESSEDBYTES_DV d_v; split <;> simp_all

theorem d_u_cases (K : Nat) : d_u K = 10 ∨ d_u K = 11 := by unfold d_u; split <;> simp
theorem d_v_cases (K : Nat) : d_v K = 4 ∨ d_v K = 5 := by unfold d_v; split <;> simp

theorem polyvec_compress_du_spec {K : Nat} {a : PolyVec} {f : Nat → Nat → Nat} (ha : VHolds a K 256 (fun i c => (f i c : Int)))
    (hf : ∀ i c, i < K → c < 256 → f i c < 3329) {r : Buf UInt8} {ro : Nat} (hr : ro + K * (32 * d_u K) ≤ r.size) :
    Post (polyvec_compress_du K r ro a) (fun r' => Written r r' ro (K * (32 * d_u K))
      (fun k => encByte (d_u K) (fun c => compNat (d_u K) (f (k / (32 * d_u K)) c)) (k % (32 * d_u K)))) := by
  unfold polyvec_compress_du
  simp only [wp_bind]
  refine POLYVEC_UBOUND_wp ha (fun i c hi hc => by have := hf i c hi hc; omega) ?_
  refine wp_forN (fun i r' => Written r r' ro (i * (32 * d_u K)) (fun k => encByte (d_u K) (fun c => compNat (d_u K) (f (k / (32 * d_u K)) c)) (k % (32 * d_u K)))) (by rw [Nat.zero_mul]; exact Written.refl _ _ _) ?_ (fun _ h => h)
  intro i r' hi hI
  simp only [wp_bind, wp_vget]
  obtain ⟨p, hp, hh⟩ := ha.get hi
  refine ⟨p, hp, ?_⟩
  rw [du_bytes]
  have : (i + 1) * (32 * d_u K) ≤ K * (32 * d_u K) := Nat.mul_le_mul_right _ hi
  rw [Nat.succ_mul] at this
  refine Post.use (poly_compress_du_spec hh (fun c hc => hf i c hi hc) (by rw [hI.1]; omega)) fun r'' h'' => ?_
  exact Written.blocks (g := fun i => encByte (d_u K) fun c => compNat (d_u K) (f i c)) (by have := d_u_cases K; omega) hI h''

theorem polyvec_frombytes_spec {K : Nat} {a : Buf UInt8} {ao : Nat} {B : Nat → UInt8} (ha : Seg a ao (K * 384) B) {r : PolyVec}
    (hr : VAll r K (fun _ p => p.size = 256)) :
    Post (polyvec_frombytes K r a ao) (fun r' => VHolds r' K 256 (fun i c => (decNum 12 (fun k => B (i * 384 + k)) c : Int))) := by
  unfold polyvec_frombytes
  refine wp_vmapLoop hr ?_ (fun _ h => h)
  intro i p hi hp
  exact poly_frombytes_spec (ha.sub (i * 384) 384 (by omega)) hp

theorem decompNat_du_lt (K : Nat) {y : Nat} (hy : y < 2 ^ d_u K) : decompNat (d_u K) y < 3329 :=
  decompNat_lt _ _ (by rcases d_u_cases K with h | h <;> omega) (by rcases d_u_cases K with h | h <;> omega) hy

theorem polyvec_decompress_du_spec {K : Nat} {a : Buf UInt8} {ao : Nat} {B : Nat → UInt8} (ha : Seg a ao (K * (32 * d_u K)) B) {r : PolyVec}
    (hr : VAll r K (fun _ p => p.size = 256)) :
    Post (polyvec_decompress_du K r a ao) (fun r' => VHolds r' K 256 (fun i c => (decompNat (d_u K) (decNum (d_u K) (fun k => B (i * (32 * d_u K) + k)) c) : Int))) := by
  unfold polyvec_decompress_du
  simp only [wp_bind, wp_pure]
  refine wp_vmapLoop (R' := fun i p => Holds p 256 (fun c => (decompNat (d_u K) (decNum (d_u K) (fun k => B (i * (32 * d_u K) + k)) c) : Int))) hr ?_ ?_
  · intro i p hi hp
    rw [du_bytes]
    have : (i + 1) * (32 * d_u K) ≤ K * (32 * d_u K) := Nat.mul_le_mul_right _ hi
    rw [Nat.succ_mul] at this
    exact poly_decompress_du_spec (ha.sub (i * (32 * d_u K)) (32 * d_u K) this) hp
  · intro v' hv
    refine POLYVEC_UBOUND_wp hv (fun i c hi hc => ?_) hv
    have := decompNat_du_lt K (decNum_lt (d_u K) (fun k => B (i * (32 * d_u K) + k)) c)
    beta_reduce; omega

theorem polyvec_ntt_spec {K : Nat} {r : PolyVec} {f : Nat → Nat → Int} (hr : VHolds r K 256 f) (hf : ∀ i c, i < K → c < 256 → -3329 < f i c ∧ f i c < 3329) :
    Post (polyvec_ntt K r) (fun r' => ∃ g, VHolds r' K 256 g ∧ ∀ i, i < K → ∀ c, c < 256 → (-20800 ≤ g i c ∧ g i c ≤ 20800) ∧ (g i c : Zq) = NTT (fun n => (f i n : Zq)) c) := by
  unfold polyvec_ntt
  refine wp_vmapLoop (R' := fun i (p : Model.Poly) => ∃ g : Nat → Int, Holds p 256 g ∧ ∀ c, c < 256 → (-20800 ≤ g c ∧ g c ≤ 20800) ∧ (g c : Zq) = NTT (fun n => (f i n : Zq)) c) hr ?_ (fun _ h => h.choose)
  intro i p hi hp
  exact Post.use (poly_ntt_spec hp fun c hc => hf i c hi hc) fun p' ⟨g, h1, h2, h3⟩ => ⟨g, h1, fun c hc => ⟨h2 c hc, h3 c hc⟩⟩

theorem polyvec_invntt_spec {K : Nat} {r : PolyVec} {f : Nat → Nat → Int} (hr : VHolds r K 256 f) (hf : ∀ i c, i < K → c < 256 → -32768 ≤ f i c ∧ f i c ≤ 32767) :
    Post (polyvec_invntt_tomont K r) (fun r' => ∃ g, VHolds r' K 256 g ∧ ∀ i, i < K → ∀ c, c < 256 → (-2385 ≤ g i c ∧ g i c ≤ 2385) ∧ (g i c : Zq) = 65536 * NTTInv (fun n => (f i n : Zq)) c) := by
  unfold polyvec_invntt_tomont
  refine wp_vmapLoop (R' := fun i (p : Model.Poly) => ∃ g : Nat → Int, Holds p 256 g ∧ ∀ c, c < 256 → (-2385 ≤ g c ∧ g c ≤ 2385) ∧ (g c : Zq) = 65536 * NTTInv (fun n => (f i n : Zq)) c) hr ?_ (fun _ h => h.choose)
  intro i p hi hp
  exact Post.use (poly_invntt_tomont_spec hp fun c hc => hf i c hi hc) fun p' ⟨g, h1, h2, h3⟩ => ⟨g, h1, fun c hc => ⟨h2 c hc, h3 c hc⟩⟩

theorem polyvec_reduce_spec {K : Nat} {r : PolyVec} {f : Nat → Nat → Int} (hr : VHolds r K 256 f) (hf : ∀ i c, i < K → c < 256 → -32768 ≤ f i c ∧ f i c ≤ 32767) :
    Post (polyvec_reduce K r) (fun r' => VHolds r' K 256 (fun i c => f i c % 3329)) := by
  unfold polyvec_reduce
  exact wp_vmapLoop hr (fun i p hi hp => poly_reduce_spec hp fun c hc => hf i c hi hc) (fun _ h => h)

theorem polyvec_tomont_spec {K : Nat} {r : PolyVec} {f : Nat → Nat → Int} (hr : VHolds r K 256 f) (hf : ∀ i c, i < K → c < 256 → -32768 ≤ f i c ∧ f i c ≤ 32767) :
    Post (polyvec_tomont K r) (fun r' => VHolds r' K 256 (fun i c => montR (f i c * 1353))) := by
  unfold polyvec_tomont
  exact wp_vmapLoop hr (fun i p hi hp => poly_tomont_spec hp fun c hc => hf i c hi hc) (fun _ h => h)

theorem polyvec_add_spec {K : Nat} {r b : PolyVec} {f g : Nat → Nat → Int} (hr : VHolds r K 256 f) (hb : VHolds b K 256 g)
    (hf : ∀ i c, i < K → c < 256 → -32768 ≤ f i c + g i c ∧ f i c + g i c ≤ 32767) :
    Post (polyvec_add K r b) (fun r' => VHolds r' K 256 (fun i c => f i c + g i c)) := by
  unfold polyvec_add
  refine wp_vloop hr ?_ (fun _ h => h)
  intro i v' p hi hs hp hr
  simp only [wp_bind, wp_vget, wp_vmod]
  obtain ⟨q, hq, hh⟩ := hb.get hi
  exact ⟨q, hq, p, hp, Post.use (poly_add_spec hr hh fun c hc => hf i c hi hc) fun p' hp' => ⟨by omega, p', rfl, hp'⟩⟩

theorem polyvec_mulcache_spec {K : Nat} {x a : PolyVec} {f : Nat → Nat → Int} (hx : VAll x K (fun _ p => p.size = 128)) (ha : VHolds a K 256 f)
    (hf : ∀ i c, i < K → c < 256 → -32768 ≤ f i c ∧ f i c ≤ 32767) :
    Post (polyvec_mulcache_compute K x a) (fun x' => VHolds x' K 128 (fun i => mc (f i))) := by
  unfold polyvec_mulcache_compute
  refine wp_vloop hx ?_ (fun _ h => h)
  intro i v' p hi hs hp hr
  simp only [wp_bind, wp_vget, wp_vmod]
  obtain ⟨q, hq, hh⟩ := ha.get hi
  exact ⟨q, hq, p, hp, Post.use (poly_mulcache_compute_spec hh (fun c hc => hf i c hi hc) hr) fun p' hp' => ⟨by omega, p', rfl, hp'⟩⟩

/-- Partial sums of products. -/
def accF (a b c : Nat → Nat → Int) (k n : Nat) : Int := ∑ i ∈ range k, bm (a i) (b i) (c i) n

theorem accF_succ (a b c : Nat → Nat → Int) (k n : Nat) : accF a b c (k + 1) n = accF a b c k n + bm (a k) (b k) (c k) n := Finset.sum_range_succ _ _

theorem polyvec_basemul_acc_cached_spec {K : Nat} (hK : 1 ≤ K ∧ K ≤ 4) {r : Model.Poly} {a b c : PolyVec} {fa fb fc : Nat → Nat → Int}
    (ha : VHolds a K 256 fa) (hb : VHolds b K 256 fb) (hc : VHolds c K 128 fc)
    (hfa : ∀ i n, i < K → n < 256 → -3329 < fa i n ∧ fa i n < 3329) (hfb : ∀ i n, i < K → n < 256 → -26632 < fb i n ∧ fb i n < 26632)
    (hfc : ∀ i n, i < K → n < 128 → -3329 < fc i n ∧ fc i n < 3329) (hr : r.size = 256) :
    Post (polyvec_basemul_acc_montgomery_cached K r a b c) (fun r' => Holds r' 256 (accF fa fb fc K) ∧ ∀ n, n < 256 → -(4992 * K : Int) ≤ accF fa fb fc K n ∧ accF fa fb fc K n ≤ 4992 * K) := by
  have bd : ∀ i n, i < K → n < 256 → -4992 ≤ bm (fa i) (fb i) (fc i) n ∧ bm (fa i) (fb i) (fc i) n ≤ 4992 := fun i n hi hn =>
    bm_bound (fun n hn => hfa i n hi hn) (fun n hn => by have := hfb i n hi hn; omega) (fun n hn => by have := hfc i n hi hn; omega) hn
  have abd : ∀ k, k ≤ K → ∀ n, n < 256 → -(4992 * k : Int) ≤ accF fa fb fc k n ∧ accF fa fb fc k n ≤ 4992 * k := by
    intro k
    induction k with
    | zero => intro _ n _; simp [accF]
    | succ k ih =>
      intro hk n hn
      have h1 := ih (by omega) n hn
      have h2 := bd k n (by omega) hn
      rw [accF_succ]; push_cast; omega
  unfold polyvec_basemul_acc_montgomery_cached
  simp only [wp_bind, wp_vget, wp_pure]
  refine POLYVEC_BOUND_wp ha (fun i n hi hn => hfa i n hi hn) ?_
  refine POLYVEC_BOUND_wp hb (fun i n hi hn => by have := hfb i n hi hn; simp only [NTT_BOUND, MLKEM_Q]; omega) ?_
  refine MULCACHEVEC_BOUND_wp hc (fun i n hi hn => hfc i n hi hn) ?_
  obtain ⟨a0, ha0, hha⟩ := ha.get (i := 0) (by omega)
  obtain ⟨b0, hb0, hhb⟩ := hb.get (i := 0) (by omega)
  obtain ⟨c0, hc0, hhc⟩ := hc.get (i := 0) (by omega)
  refine ⟨a0, ha0, b0, hb0, c0, hc0, ?_⟩
  refine Post.use (poly_basemul_spec hha hhb hhc (fun n hn => hfa 0 n (by omega) hn) (fun n hn => by have := hfb 0 n (by omega) hn; omega) (fun n hn => hfc 0 n (by omega) hn) hr) fun r0 hr0 => ?_
  refine wp_forFrom (fun i (s : Model.Poly × Model.Poly) => Holds s.1 256 (accF fa fb fc i) ∧ s.2.size = 256) ?_ ?_ ?_
  · refine ⟨hr0.congr fun n _ => by simp [accF], by simp [newPoly]⟩
  · rintro i ⟨r', t⟩ h1 h2 ⟨hI, ht⟩
    simp only [wp_bind, wp_vget, wp_pure]
    have hi : i < K := by omega
    obtain ⟨ai, hai, hha⟩ := ha.get hi
    obtain ⟨bi, hbi, hhb⟩ := hb.get hi
    obtain ⟨ci, hci, hhc⟩ := hc.get hi
    refine ⟨ai, hai, bi, hbi, ci, hci, ?_⟩
    refine Post.use (poly_basemul_spec hha hhb hhc (fun n hn => hfa i n (by omega) hn) (fun n hn => by have := hfb i n (by omega) hn; omega) (fun n hn => hfc i n (by omega) hn) ht) fun t' ht' => ?_
    refine Post.use (poly_add_spec hI ht' fun n hn => ?_) fun r'' h'' => ⟨h''.congr fun n _ => (accF_succ _ _ _ _ _).symm, ht'.size⟩
    have := abd i (by omega) n hn
    have := bd i n hi hn
    omega
  · rintro ⟨r', t⟩ ⟨hI, _⟩
    rw [show 1 + (K - 1) = K by omega] at hI
    have hb := abd K (Nat.le_refl _)
    simp only [HALF_Q, MLKEM_Q]
    refine POLY_BOUND_wp hI (fun n hn => by have := hb n hn; push_cast; omega) ?_
    exact POLY_BOUND_wp hI (fun n hn => by have := hb n hn; push_cast; omega) ⟨hI, hb⟩

theorem polyvec_basemul_acc_spec {K : Nat} (hK : 1 ≤ K ∧ K ≤ 4) {r : Model.Poly} {a b c : PolyVec} {fa fb : Nat → Nat → Int}
    (ha : VHolds a K 256 fa) (hb : VHolds b K 256 fb) (hc : VHolds c K 128 (fun i => mc (fb i)))
    (hfa : ∀ i n, i < K → n < 256 → -3329 < fa i n ∧ fa i n < 3329) (hfb : ∀ i n, i < K → n < 256 → -26632 < fb i n ∧ fb i n < 26632)
    (hr : r.size = 256) :
    Post (polyvec_basemul_acc_montgomery_cached K r a b c) (fun r' => ∃ g, Holds r' 256 g ∧ ∀ n, n < 256 → (-19968 ≤ g n ∧ g n ≤ 19968) ∧
      (g n : Zq) = 169 * ∑ j ∈ range K, MultiplyNTTs (fun n => (fa j n : Zq)) (fun n => (fb j n : Zq)) n) := by
  refine Post.use (polyvec_basemul_acc_cached_spec hK ha hb hc hfa hfb (fun i n hi hn => ?_) hr) fun r' ⟨h1, h2⟩ => ⟨_, h1, fun n hn => ⟨by have := h2 n hn; omega, ?_⟩⟩
  · have := mc_bound (b := fb i) (fun n hn => by have := hfb i n hi hn; omega) hn
    beta_reduce; omega
  · unfold accF
    push_cast
    rw [Finset.mul_sum]
    exact Finset.sum_congr rfl fun j _ => bm_zq _ _ hn

end Verif

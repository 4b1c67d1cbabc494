import Verif.Proof.Scalar
/-! # Coefficient-wise polynomial functions -/
namespace Verif
open Model Spec

variable {F : Prop}

/-- Loop that rewrites cell `i` in iteration `i`. -/
theorem wp_mapLoop {α : Type} {n : Nat} {r : Buf α} {f : Nat → α} {body : Nat → Buf α → M (Buf α)} {Q : Buf α → Prop} (g : Nat → α)
    (h : Holds r n f)
    (hbody : ∀ i r' f', i < n → Holds r' n f' → f' i = f i →
      PostF F (body i r') (fun r'' => r'' = r'.setIfInBounds i (some (g i))))
    (hQ : ∀ r', Holds r' n g → Q r') : PostF F (forFrom 0 n r body) Q := by
  refine wp_forN (fun i r' => Holds r' n (fun j => if j < i then g j else f j)) ?_ ?_ ?_
  · exact h.congr fun i _ => by simp
  · intro i r' hi hI
    refine PostF.mono (hbody i r' _ hi hI (by simp)) fun r'' hr => ?_
    subst hr
    refine (hI.set hi (g i)).congr fun j hj => ?_
    by_cases hij : j = i
    · subst hij; simp
    · rw [upd_ne hij]
      by_cases hlt : j < i
      · simp [hlt, Nat.lt_succ_of_lt hlt]
      · simp [hlt, show ¬ j < i + 1 by omega]
  · intro r' hI
    exact hQ r' (hI.congr fun i hi => by simp [hi])

theorem POLY_BOUND_wp {b : Model.Poly} {f : Nat → Int} (h : Holds b 256 f) {B : Nat} (hb : ∀ i, i < 256 → -(B : Int) < f i ∧ f i < B)
    {Q : Unit → Prop} (hQ : Q ()) : PostF F (POLY_BOUND b B) Q := by
  unfold POLY_BOUND
  simp only [wp_assertM]
  exact ⟨boundChk_eq h.seg _ _ hb, hQ⟩

theorem MULCACHE_BOUND_wp {b : Model.Poly} {f : Nat → Int} (h : Holds b 128 f) {B : Nat} (hb : ∀ i, i < 128 → -(B : Int) < f i ∧ f i < B)
    {Q : Unit → Prop} (hQ : Q ()) : PostF F (MULCACHE_BOUND b B) Q := by
  unfold MULCACHE_BOUND
  simp only [wp_assertM]
  exact ⟨boundChk_eq h.seg _ _ hb, hQ⟩

theorem POLY_UBOUND_wp {b : Model.Poly} {f : Nat → Int} (h : Holds b 256 f) {B : Nat} (hb : ∀ i, i < 256 → 0 ≤ f i ∧ f i < B)
    {Q : Unit → Prop} (hQ : Q ()) : PostF F (POLY_UBOUND b B) Q := by
  unfold POLY_UBOUND
  simp only [wp_assertM]
  exact ⟨boundChk_eq h.seg _ _ fun i hi => ⟨by have := hb i hi; omega, (hb i hi).2⟩, hQ⟩

/-- `poly_reduce`: canonical representatives, for all `int16_t` inputs. -/
theorem poly_reduce_spec {r : Model.Poly} {f : Nat → Int} (h : Holds r 256 f) (hf : ∀ i, i < 256 → -32768 ≤ f i ∧ f i ≤ 32767) :
    Post (poly_reduce r) (fun r' => Holds r' 256 (fun i => f i % 3329)) := by
  unfold poly_reduce
  simp only [wp_bind, wp_pure]
  refine wp_mapLoop (fun i => f i % 3329) h ?_ ?_
  · intro i r' f' hi hr' hfi
    simp only [wp_bind, wp_rd]
    refine ⟨f i, by rw [hr'.get hi, hfi], ?_⟩
    refine Post.use (barrett_reduce_spec (f i) (hf i hi)) fun t ⟨h1, h2, h3⟩ => ?_
    refine Post.use (signed_to_unsigned_spec t (by omega)) fun u hu => ?_
    simp only [wp_i16, wp_wr]
    refine ⟨by omega, by rw [hr'.size]; omega, ?_⟩
    rw [show (u : Int) = f i % 3329 by omega]
  · intro r' hr'
    exact POLY_UBOUND_wp hr' (fun i hi => by omega) hr'

theorem poly_add_spec {r b : Model.Poly} {f g : Nat → Int} (h : Holds r 256 f) (hb : Holds b 256 g)
    (hf : ∀ i, i < 256 → -32768 ≤ f i + g i ∧ f i + g i ≤ 32767) :
    Post (poly_add r b) (fun r' => Holds r' 256 (fun i => f i + g i)) := by
  unfold poly_add
  refine wp_mapLoop (fun i => f i + g i) h ?_ (fun _ h => h)
  intro i r' f' hi hr' hfi
  simp only [wp_bind, wp_rd, wp_i16, wp_wr]
  refine ⟨f i, by rw [hr'.get hi, hfi], g i, hb.get hi, hf i hi, by rw [hr'.size]; omega, rfl⟩

theorem poly_sub_spec {r b : Model.Poly} {f g : Nat → Int} (h : Holds r 256 f) (hb : Holds b 256 g)
    (hf : ∀ i, i < 256 → -32768 ≤ f i - g i ∧ f i - g i ≤ 32767) :
    Post (poly_sub r b) (fun r' => Holds r' 256 (fun i => f i - g i)) := by
  unfold poly_sub
  refine wp_mapLoop (fun i => f i - g i) h ?_ (fun _ h => h)
  intro i r' f' hi hr' hfi
  simp only [wp_bind, wp_rd, wp_i16, wp_wr]
  refine ⟨f i, by rw [hr'.get hi, hfi], g i, hb.get hi, hf i hi, by rw [hr'.size]; omega, rfl⟩

/-- `poly_tomont`: multiplication by `2^16` modulo `q`, for all `int16_t` inputs. -/
theorem poly_tomont_spec {r : Model.Poly} {f : Nat → Int} (h : Holds r 256 f) (hf : ∀ i, i < 256 → -32768 ≤ f i ∧ f i ≤ 32767) :
    Post (poly_tomont r) (fun r' => Holds r' 256 (fun i => montR (f i * 1353))) := by
  unfold poly_tomont
  rw [show (2 ^ 32 % 3329 : Int) = 1353 from rfl]
  simp only [wp_bind, wp_pure]
  refine wp_mapLoop (fun i => montR (f i * 1353)) h ?_ ?_
  · intro i r' f' hi hr' hfi
    simp only [wp_bind, wp_rd, wp_i16, wp_wr]
    refine ⟨f i, by rw [hr'.get hi, hfi], ?_⟩
    refine Post.use (fqmul_post (f i) 1353 (hf i hi) (by omega)) fun u hu => ?_
    subst hu
    exact ⟨by rw [hr'.size]; omega, rfl⟩
  · intro r' hr'
    refine POLY_BOUND_wp hr' (fun i hi => ?_) hr'
    have := montR_bound (x := f i * 1353) (B := 32768 * 1353) (by have := hf i hi; omega)
    omega

end Verif

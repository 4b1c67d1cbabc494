import Verif.Proof.X86Intt
import Verif.Proof.Pack
import Verif.Proof.Polyvec
/-! # The other functions of the AVX2 backend -/
namespace Verif.X86
open Verif Model Model.X86 Spec Finset

/-- No tags: expressions are kept as they are. -/
def noTags : TagOps where
  add _ _ := none
  sub _ _ := none
  mul _ _ := none
  red _ := none

theorem noTags_sound (Val : Nat → Zq) : noTags.Sound Val where
  add _ _ _ h := by cases h
  sub _ _ _ h := by cases h
  mul _ _ _ h := by cases h
  red _ _ h := by cases h

/-- Variable `i`. -/
def vv (i : Nat) : E := .v i i 32768

/-- A function of one polynomial, given by its expressions. -/
theorem runP_exact {prog : List Ins} {T : Nat → E} (hc : chkP noTags prog 256 vv (fun p x => decide (x = T p)) = true) {p : Model.Poly} {f : Nat → Int} (h : Holds p 256 f)
    (hf : ∀ i, i < 256 → -32768 ≤ f i ∧ f i ≤ 32767) (g : Nat → Ymm) {F : Nat → Int} (hT : ∀ e, (∀ i, i < 256 → e i = f i) → ∀ i, i < 256 → (T i).eval e = F i) :
    Post (runP prog g p) (fun p' => Holds p' 256 F) := by
  refine PostF.mono (runP_spec (e := f) (noTags_sound fun i => (f i : Zq)) hc h fun i hi => ⟨?_, rfl⟩) ?_
  · have := hf i hi
    exact ⟨hi, Nat.le_refl _, by push_cast; omega, by push_cast; omega, by omega, rfl⟩
  · rintro p' ⟨e', n', v, hx, hv, ho⟩
    refine hv.congr fun i hi => ?_
    obtain ⟨x, h1, h2, h3⟩ := ho i hi
    have h1 := of_decide_eq_true h1
    subst h1
    rw [← h3]; exact (hT e' hx.2 i hi)

/-! ## Unpacking -/

theorem unpack_chk : chkP noTags nttunpack_avx2 256 vv (fun p x => decide (x = vv (cust p))) = true := by decide +kernel

/-- `poly_permute_bitrev_to_custom` for the x86_64 backend. -/
theorem permute_spec {p : Model.Poly} {f : Nat → Int} (h : Holds p 256 f) (hf : ∀ i, i < 256 → -32768 ≤ f i ∧ f i ≤ 32767) (g : Nat → Ymm) :
    Post (poly_permute_bitrev_to_custom g p) (fun p' => Holds p' 256 fun i => f (cust i)) :=
  runP_exact unpack_chk h hf g fun _ he i hi => he _ (cust_lt hi)

theorem pack_chk : chkP noTags nttpack_avx2 256 vv (fun p x => decide (x = vv (if p < 128 then 16 * (p % 8) + p / 8 else p))) = true := by decide +kernel

/-- `nttpack_avx2` undoes the unpacking of the 128 coefficients it is given and leaves those after them. -/
theorem pack_spec {p : Model.Poly} {f : Nat → Int} (h : Holds p 256 fun i => f (cust i)) (hf : ∀ i, i < 256 → -32768 ≤ f i ∧ f i ≤ 32767) (g : Nat → Ymm) :
    Post (runP nttpack_avx2 g p) (fun p' => Holds p' 256 fun i => if i < 128 then f i else f (cust i)) := by
  refine runP_exact pack_chk h (fun i hi => hf _ (cust_lt hi)) g fun e he i hi => ?_
  split
  · next h1 =>
    have h2 := he (16 * (i % 8) + i / 8) (by omega)
    have h3 : cust (16 * (i % 8) + i / 8) = i := by
      have h4 : ∀ k, k < 128 → cust (16 * (k % 8) + k / 8) = k := by decide +kernel
      exact h4 i h1
    rw [h3] at h2
    exact h2
  · exact he i hi

/-! ## Reduction and conversion to Montgomery form -/

/-- Reduction of an expression. -/
def redE (x : E) : E :=
  .add (.sub (.sub x (.mullo (.sra 10 (.mulhi x (.c 20159))) (.c 3329))) (.c 3329))
    (.band (.sra 15 (.sub (.sub x (.mullo (.sra 10 (.mulhi x (.c 20159))) (.c 3329))) (.c 3329))) (.c 3329))

theorem reduce_chk : chkP noTags reduce_avx2 256 vv (fun p x => decide (x = redE (vv p))) = true := by decide +kernel

theorem redE_eval {e : Nat → Int} {i : Nat} (h : -32768 ≤ e i ∧ e i ≤ 32767) : (redE (vv i)).eval e = e i % 3329 := by
  obtain ⟨h1, h2, h3⟩ := barrett16 h.1 h.2
  simp only [redE, vv, E.eval]
  generalize s16 (e i - s16 (e i * 20159 / 65536 / 2 ^ 10 * 3329)) = r at *
  have h4 : (r - e i) % 3329 = 0 := by rw [h3]; omega
  have h5 : s16 (r - 3329) = r - 3329 := s16_id (by omega) (by omega)
  rw [h5]
  by_cases hr : r = 3329
  · subst hr
    norm_num [u16, s16]
    omega
  · have e1 : (r - 3329) / 2 ^ 15 = -1 := by omega
    rw [e1]
    have e2 : s16 (((u16 (-1) &&& u16 3329 : Nat)) : Int) = 3329 := by decide
    rw [e2, s16_id (by omega) (by omega)]
    have e3 : r % 3329 = r := Int.emod_eq_of_lt (by omega) (by omega)
    omega

/-- `poly_reduce_native` for the x86_64 backend, for all `int16_t` inputs. -/
theorem poly_reduce_native_spec {p : Model.Poly} {f : Nat → Int} (h : Holds p 256 f) (hf : ∀ i, i < 256 → -32768 ≤ f i ∧ f i ≤ 32767) (g : Nat → Ymm) :
    Post (poly_reduce_native g p) (fun p' => Holds p' 256 fun i => f i % 3329) :=
  runP_exact reduce_chk h hf g fun e he i hi => by
    have := hf i hi
    rw [redE_eval (by rw [he i hi]; exact this), he i hi]

/-- Montgomery product of an expression with a constant. -/
def mzE (x : E) (z : Int) : E := .sub (.mulhi x (.c z)) (.mulhi (.mullo x (.c (s16 (z * -3327)))) (.c 3329))

theorem mzE_eval {e : Nat → Int} {x : E} {z : Int} (h : -32768 ≤ x.eval e ∧ x.eval e ≤ 32767) (hz : -1665 < z ∧ z < 1665) : (mzE x z).eval e = montR (x.eval e * z) := by
  simp only [mzE, E.eval]
  rw [mont16]
  have := mont_bound h.1 h.2 hz.1 hz.2
  exact s16_id (by omega) (by omega)

theorem tomont_chk : chkP noTags tomont_avx2 256 vv (fun p x => decide (x = mzE (vv p) 1353)) = true := by decide +kernel

/-- `poly_tomont_native` for the x86_64 backend, for all `int16_t` inputs. -/
theorem poly_tomont_native_spec {p : Model.Poly} {f : Nat → Int} (h : Holds p 256 f) (hf : ∀ i, i < 256 → -32768 ≤ f i ∧ f i ≤ 32767) (g : Nat → Ymm) :
    Post (poly_tomont_native g p) (fun p' => Holds p' 256 fun i => montR (f i * 1353)) :=
  runP_exact tomont_chk h hf g fun e he i hi => by
    have e1 : (vv i).eval e = f i := he i hi
    rw [mzE_eval (by rw [e1]; exact hf i hi) (by omega), e1]

/-! ## Multiplication -/

/-- Montgomery product of two expressions. -/
def mmE (a b : E) : E := .sub (.mulhi a b) (.mulhi (.mullo (.mullo a (.c (-3327))) b) (.c 3329))
/-- Its negative. -/
def nmE (a b : E) : E := .sub (.mulhi (.mullo (.mullo a (.c (-3327))) b) (.c 3329)) (.mulhi a b)

theorem mont16' (a b : Int) : a * b / 65536 - s16 (s16 (a * -3327) * b) * 3329 / 65536 = montR (a * b) := by
  have h := montR_eq (a * b)
  have e : s16 (s16 (a * -3327) * b) = cmod16 (a * b * 62209) := by
    obtain ⟨k, hk⟩ := s16_exists (a * -3327)
    have : s16 (a * -3327) * b = a * b * 62209 + 65536 * (k * b - a * b) := by rw [hk]; ring
    rw [this, s16_add]; rfl
  rw [e]; omega

theorem mm_bound {a b : Int} (ha : -3329 < a ∧ a < 3329) (hb : -26632 < b ∧ b < 26632) : -3016 ≤ montR (a * b) ∧ montR (a * b) ≤ 3016 := by
  have := mul_bound (A := 3328) (B := 26631) (a := a) (b := b) ⟨by omega, by omega⟩ ⟨by omega, by omega⟩
  have := montR_bound this
  omega

theorem mmE_eval {e : Nat → Int} {a b : E} (ha : -3329 < a.eval e ∧ a.eval e < 3329) (hb : -26632 < b.eval e ∧ b.eval e < 26632) :
    (mmE a b).eval e = montR (a.eval e * b.eval e) ∧ (nmE a b).eval e = -montR (a.eval e * b.eval e) := by
  have h1 := mont16' (a.eval e) (b.eval e)
  have h2 := mm_bound ha hb
  simp only [mmE, nmE, E.eval]
  constructor
  · rw [h1]; exact s16_id (by omega) (by omega)
  · rw [← h1]; rw [← h1] at h2
    rw [s16_id (by omega) (by omega)]; omega

/-- Coefficient at position `p` of the product. -/
def bmE (p : Nat) : E :=
  if p / 16 % 2 = 1 then .add (mmE (vv (p - 16)) (vv (256 + p))) (mmE (vv p) (vv (256 + (p - 16))))
  else if p / 32 % 2 = 0 then .sub (mzE (mmE (vv (p + 16)) (vv (256 + (p + 16)))) (cgt zetasList (64 + cust p / 4))) (nmE (vv p) (vv (256 + p)))
  else .sub (mmE (vv p) (vv (256 + p))) (mzE (mmE (vv (p + 16)) (vv (256 + (p + 16)))) (cgt zetasList (64 + cust p / 4)))

/-- Run the multiplication and check its result. -/
noncomputable def mulChk : Bool :=
  match arun noTags basemul_avx2 512 regs0 [memNone 16, memOf vv 0 16, memOf (fun i => vv (256 + i)) 0 16, qvec, memNone 1] [] with
  | none => false
  | some r => chkM (fun p x => decide (x = bmE p)) 16 0 (mth r.W 0)

theorem mul_chk : mulChk = true := by decide +kernel

theorem bm_zetas {p : Nat} (hp : p < 256) : -1665 < cgt zetasList (64 + cust p / 4) ∧ cgt zetasList (64 + cust p / 4) < 1665 := by
  rw [cgt_eq]; exact Z_bound _ (by have := cust_lt hp; omega)

theorem bmE_eval {e fa fb : Nat → Int} (ha : ∀ i, i < 256 → e i = fa (cust i)) (hb : ∀ i, i < 256 → e (256 + i) = fb (cust i))
    (hfa : ∀ n, n < 256 → -3329 < fa n ∧ fa n < 3329) (hfb : ∀ n, n < 256 → -26632 < fb n ∧ fb n < 26632) {p : Nat} (hp : p < 256) :
    (-6032 ≤ (bmE p).eval e ∧ (bmE p).eval e ≤ 6032) ∧
    ((((bmE p).eval e : Int)) : Zq) = 169 * MultiplyNTTs (fun n => (fa n : Zq)) (fun n => (fb n : Zq)) (cust p) := by
  have A : ∀ i, i < 256 → -3329 < (vv i).eval e ∧ (vv i).eval e < 3329 := fun i hi => by
    show -3329 < e i ∧ e i < 3329; rw [ha i hi]; exact hfa _ (cust_lt hi)
  have B : ∀ i, i < 256 → -26632 < (vv (256 + i)).eval e ∧ (vv (256 + i)).eval e < 26632 := fun i hi => by
    show -26632 < e (256 + i) ∧ e (256 + i) < 26632; rw [hb i hi]; exact hfb _ (cust_lt hi)
  have va : ∀ i, i < 256 → (vv i).eval e = fa (cust i) := ha
  have vb : ∀ i, i < 256 → (vv (256 + i)).eval e = fb (cust i) := hb
  have hz := bm_zetas hp
  unfold bmE MultiplyNTTs
  by_cases h1 : p / 16 % 2 = 1
  · have hp' : p - 16 < 256 := by omega
    have c1 : ¬ cust p % 2 = 0 := by unfold cust; omega
    have c2 : cust (p - 16) = cust p - 1 := by unfold cust; omega
    rw [if_pos h1, if_neg c1]
    have m1 := mm_bound (A (p - 16) hp') (B p hp)
    have m2 := mm_bound (A p hp) (B (p - 16) hp')
    have e1 : E.eval e (.add (mmE (vv (p - 16)) (vv (256 + p))) (mmE (vv p) (vv (256 + (p - 16))))) =
        montR ((vv (p - 16)).eval e * (vv (256 + p)).eval e) + montR ((vv p).eval e * (vv (256 + (p - 16))).eval e) := by
      show s16 ((mmE (vv (p - 16)) (vv (256 + p))).eval e + (mmE (vv p) (vv (256 + (p - 16)))).eval e) = _
      rw [(mmE_eval (A (p - 16) hp') (B p hp)).1, (mmE_eval (A p hp) (B (p - 16) hp')).1]
      exact s16_id (by omega) (by omega)
    rw [e1]
    refine ⟨by omega, ?_⟩
    push_cast
    rw [montR_zq, montR_zq, va _ hp', va _ hp, vb _ hp', vb _ hp, c2]
    push_cast
    ring
  · have hp' : p + 16 < 256 := by omega
    have c1 : cust p % 2 = 0 := by unfold cust; omega
    have c2 : cust (p + 16) = cust p + 1 := by unfold cust; omega
    rw [if_neg h1, if_pos c1]
    have m1 := mm_bound (A p hp) (B p hp)
    have m2 := mm_bound (A (p + 16) hp') (B (p + 16) hp')
    have e1 := (mmE_eval (A (p + 16) hp') (B (p + 16) hp')).1
    have e2 := mzE_eval (e := e) (x := mmE (vv (p + 16)) (vv (256 + (p + 16)))) (z := cgt zetasList (64 + cust p / 4)) (by omega) hz
    rw [e1] at e2
    have m3 := mul_bound (A := 3016) (B := 1664) (a := montR ((vv (p + 16)).eval e * (vv (256 + (p + 16))).eval e)) (b := cgt zetasList (64 + cust p / 4)) ⟨by omega, by omega⟩ ⟨by omega, by omega⟩
    have m4 := montR_bound m3
    have hzz : ((cgt zetasList (64 + cust p / 4) : Int) : Zq) * 169 = y (64 + cust p / 4) := by rw [cgt_eq]; rfl
    by_cases h2 : p / 32 % 2 = 0
    · rw [if_pos h2]
      have e3 : E.eval e (.sub (mzE (mmE (vv (p + 16)) (vv (256 + (p + 16)))) (cgt zetasList (64 + cust p / 4))) (nmE (vv p) (vv (256 + p)))) =
          montR (montR ((vv (p + 16)).eval e * (vv (256 + (p + 16))).eval e) * cgt zetasList (64 + cust p / 4)) + montR ((vv p).eval e * (vv (256 + p)).eval e) := by
        show s16 ((mzE _ _).eval e - (nmE _ _).eval e) = _
        rw [e2, (mmE_eval (A p hp) (B p hp)).2, sub_neg_eq_add]
        exact s16_id (by omega) (by omega)
      rw [e3]
      refine ⟨by omega, ?_⟩
      rw [Int.cast_add, montR_zq, montR_zq, Int.cast_mul (montR _), montR_zq, va _ hp', va _ hp, vb _ hp', vb _ hp, c2]
      have hγ : γ (cust p / 2) = y (64 + cust p / 4) := by
        rw [← γ_even (b := cust p / 4) (by have := cust_lt hp; omega)]
        congr 1; unfold cust; omega
      rw [hγ, ← hzz]
      push_cast
      ring
    · rw [if_neg h2]
      have e3 : E.eval e (.sub (mmE (vv p) (vv (256 + p))) (mzE (mmE (vv (p + 16)) (vv (256 + (p + 16)))) (cgt zetasList (64 + cust p / 4)))) =
          montR ((vv p).eval e * (vv (256 + p)).eval e) - montR (montR ((vv (p + 16)).eval e * (vv (256 + (p + 16))).eval e) * cgt zetasList (64 + cust p / 4)) := by
        show s16 ((mmE _ _).eval e - (mzE _ _).eval e) = _
        rw [e2, (mmE_eval (A p hp) (B p hp)).1]
        exact s16_id (by omega) (by omega)
      rw [e3]
      refine ⟨by omega, ?_⟩
      rw [Int.cast_sub, montR_zq, montR_zq, Int.cast_mul (montR _), montR_zq, va _ hp', va _ hp, vb _ hp', vb _ hp, c2]
      have hγ : γ (cust p / 2) = -y (64 + cust p / 4) := by
        rw [← γ_odd (b := cust p / 4) (by have := cust_lt hp; omega)]
        congr 1; unfold cust; omega
      rw [hγ, ← hzz]
      push_cast
      ring

/-- `poly_basemul_montgomery_avx2`: position `i` holds coefficient `cust i`. -/
theorem poly_basemul_montgomery_avx2_spec {r a b : Model.Poly} {fa fb : Nat → Int} (hr : r.size = 256) (ha : Holds a 256 fun i => fa (cust i)) (hb : Holds b 256 fun i => fb (cust i))
    (hfa : ∀ n, n < 256 → -3329 < fa n ∧ fa n < 3329) (hfb : ∀ n, n < 256 → -26632 < fb n ∧ fb n < 26632) (g : Nat → Ymm) :
    Post (poly_basemul_montgomery_avx2 g r a b) (fun r' => ∃ v, Holds r' 256 v ∧ ∀ n, n < 256 → (-6032 ≤ v n ∧ v n ≤ 6032) ∧
      (v n : Zq) = 169 * MultiplyNTTs (fun n => (fa n : Zq)) (fun n => (fb n : Zq)) (cust n)) := by
  have hc := mul_chk
  unfold mulChk at hc
  split at hc
  · cases hc
  rename_i res hres
  let e : Nat → Int := fun i => if i < 256 then fa (cust i) else fb (cust (i - 256))
  have he : ∀ i, i < 256 → e i = fa (cust i) := fun i hi => if_pos hi
  have he' : ∀ i, i < 256 → e (256 + i) = fb (cust i) := fun i hi => by
    show (if 256 + i < 256 then _ else fb (cust (256 + i - 256))) = _
    rw [if_neg (by omega), Nat.add_sub_cancel_left]
  have hrel : Rel (fun i => (e i : Zq)) e 512 regs0 [memNone 16, memOf vv 0 16, memOf (fun i => vv (256 + i)) 0 16, qvec, memNone 1] [] (callMul g r a b) := by
    refine Rel.init (fun q => ?_) (fun q => by cases q <;> exact RelB.nil _)
    cases q with
    | rdi => exact RelW.memNone (by rw [show (callMul g r a b).w .rdi = r from rfl, hr])
    | rsi => exact RelW.memOf (by rw [show (callMul g r a b).w .rsi = a from rfl, ha.1]) (fun i hi => by
        have hi : i < 256 := hi
        have h1 := hfa _ (cust_lt hi)
        have h2 := he i hi
        refine ⟨⟨Nat.lt_of_lt_of_le hi (by decide), Nat.le_refl _, ?_, ?_, ?_, rfl⟩, ?_⟩
        · rw [h2]; push_cast; omega
        · rw [h2]; push_cast; omega
        · rw [h2]; omega
        · exact (ha.2 i hi).trans (congrArg (fun x => some (some x)) h2.symm))
    | rdx => exact RelW.memOf (by rw [show (callMul g r a b).w .rdx = b from rfl, hb.1]) (fun i hi => by
        have hi : i < 256 := hi
        have h1 := hfb _ (cust_lt hi)
        have h2 := he' i hi
        refine ⟨⟨?_, Nat.le_refl _, ?_, ?_, ?_, rfl⟩, ?_⟩
        · omega
        · rw [h2]; push_cast; omega
        · rw [h2]; push_cast; omega
        · rw [h2]; omega
        · exact (hb.2 i hi).trans (congrArg (fun x => some (some x)) h2.symm))
    | rcx => exact RelW.table
    | rsp => exact RelW.memNone (by simp [callMul])
  unfold poly_basemul_montgomery_avx2
  simp only [wp_bind, wp_pure]
  refine PostF.mono (arun_sound (noTags_sound _) hrel hres) fun s' ⟨e', hx, hr', hsz, _⟩ => ?_
  have ho := fun i (hi : i < 256) => hr'.out (p := .rdi) hc (i := i) hi
  refine ⟨fun i => (bmE i).eval e', ⟨by rw [hsz]; exact hr, fun i hi => ?_⟩, fun i hi => ?_⟩
  · obtain ⟨x, h1, -, h3⟩ := ho i hi
    have h1 := of_decide_eq_true h1
    rw [h3, h1]
  · exact bmE_eval (fun i hi => (hx.2 i (by omega)).trans (he i hi)) (fun i hi => (hx.2 _ (by omega)).trans (he' i hi)) hfa hfb hi

end Verif.X86

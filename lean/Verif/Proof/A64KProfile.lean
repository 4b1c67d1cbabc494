import Verif.Model.A64Fips202
import Verif.Proof.A64KChk4
import Verif.Proof.SpongeX4
import Verif.Proof.TraceHash
/-! # The AArch64 profiles provide the Keccak permutation -/
namespace Verif.A64K
open Model.A64K Spec

attribute [local irreducible] keccakF

/-- The function has been executed symbolically with the right result. -/
structure Ok (f : Fun) (n : Nat) : Prop where
  ways : f.ways = n
  pos : 0 < n
  run : correct f.prog n f.frame = true

theorem ok_x1_scalar : Ok fun_x1_scalar 1 := ⟨rfl, by omega, x1_scalar⟩
theorem ok_x1_v84a : Ok fun_x1_v84a 1 := ⟨rfl, by omega, x1_v84a⟩
theorem ok_x2_v84a : Ok fun_x2_v84a 2 := ⟨rfl, by omega, x2_v84a⟩
theorem ok_x2_v8a_v84a : Ok fun_x2_v8a_v84a 2 := ⟨rfl, by omega, x2_hybrid⟩
theorem ok_x4_v84a : Ok fun_x4_v84a 4 := ⟨rfl, by omega, x4_v84a⟩
theorem ok_x4_v8a : Ok fun_x4_v8a 4 := ⟨rfl, by omega, x4_v8a⟩
theorem ok_x4_v8a_v84a : Ok fun_x4_v8a_v84a 4 := ⟨rfl, by omega, x4_v8a_v84a⟩

/-- Every function of the profile is right. -/
structure OkP (P : Profile) : Prop where
  x1 : ∀ f, P.x1 = some f → Ok f 1
  x2 : ∀ f, P.x2 = some f → Ok f 2
  x4 : ∀ f, P.x4 = some f → Ok f 4

theorem ok_default (sha3 apple slow : Bool) : OkP (defaultProfile sha3 apple slow) := by
  refine ⟨fun f h => ?_, fun f h => ?_, fun f h => ?_⟩ <;> cases sha3 <;> cases apple <;> cases slow <;> simp [defaultProfile] at h <;> subst h
  all_goals first | exact ok_x1_scalar | exact ok_x1_v84a | exact ok_x2_v84a | exact ok_x4_v8a | exact ok_x4_v8a_v84a

theorem ok_cortex_a55 : OkP cortex_a55 := ⟨fun f h => Option.some.inj h ▸ ok_x1_scalar, fun _ h => (nomatch h), fun _ h => (nomatch h)⟩
theorem ok_no_backend : OkP no_backend := ⟨fun _ h => (nomatch h), fun _ h => (nomatch h), fun _ h => (nomatch h)⟩

theorem Ok.si {f : Fun} {n : Nat} (h : Ok f n) {g g' : Entry} {s s' : Buf Model.W} {so : Nat} : SI (f.call g s so) (f.call g' s' so) := call_si h.pos h.run

theorem Ok.spec {f : Fun} {n : Nat} (hf : Ok f n) {g : Entry} {s : Buf Model.W} {so : Nat} {Ss : Nat → KState} (h : ∀ i, i < n → SegK s (so + 25 * i) (Ss i)) :
    Post (f.call g s so) (fun s' => s'.size = s.size ∧ (∀ j, (j < so ∨ so + 25 * n ≤ j) → s'[j]? = s[j]?) ∧ ∀ i, i < n → SegK s' (so + 25 * i) (keccakF (Ss i))) :=
  call_spec hf.pos hf.run h

theorem permute_spec {P : Profile} (hP : OkP P) (g : Buf Model.W → Nat → Entry) {s : Buf Model.W} {so : Nat} {S : KState} (h : SegK s so S) :
    Post (KeccakF1600_StatePermute P g s so) (fun s' => FrameK s s' so ∧ SegK s' so (keccakF S)) := by
  unfold KeccakF1600_StatePermute
  split
  · rename_i f hf
    refine ((hP.x1 f hf).spec (Ss := fun _ => S) fun i hi => ?_).mono fun s' h' => ⟨⟨h'.1, h'.2.1⟩, h'.2.2 0 (by omega)⟩
    obtain rfl : i = 0 := by omega
    exact h
  · exact KeccakF1600_StatePermute_spec h

theorem segK_stay {s s' : Buf Model.W} {a b o : Nat} {S : KState} (hs : ∀ j, (j < a ∨ b ≤ j) → s'[j]? = s[j]?) (h : SegK s o S) (hd : o + 25 ≤ a ∨ b ≤ o) : SegK s' o S := by
  intro l hl
  obtain ⟨w, h1, h2⟩ := h l hl
  exact ⟨w, by rw [hs _ (by omega)]; exact h1, h2⟩

theorem permute4_spec {P : Profile} (hP : OkP P) (g : Buf Model.W → Nat → Entry) {s : Buf Model.W} {S : Nat → KState} (h : State4 s S) :
    Post (KeccakF1600x4_StatePermute P g s) (fun s' => s'.size = s.size ∧ State4 s' (fun w => keccakF (S w))) := by
  unfold KeccakF1600x4_StatePermute
  split
  · rename_i f hf
    refine ((hP.x4 f hf).spec (Ss := S) fun i hi => ?_).mono fun s' h' => ⟨h'.1, h'.2.2 0 (by omega), h'.2.2 1 (by omega), h'.2.2 2 (by omega), h'.2.2 3 (by omega)⟩
    match i, hi with
    | 0, _ => exact h.s0
    | 1, _ => exact h.s1
    | 2, _ => exact h.s2
    | 3, _ => exact h.s3
  · rename_i f _ hf
    simp only [wp_bind]
    refine Post.use ((hP.x2 f hf).spec (so := 0 * Model.KECCAK_LANES) (Ss := S) fun i hi => ?_) fun a ha => ?_
    · match i, hi with
      | 0, _ => exact h.s0
      | 1, _ => exact h.s1
    obtain ⟨a1, a2, a3⟩ := ha
    refine Post.use ((hP.x2 f hf).spec (so := 2 * Model.KECCAK_LANES) (Ss := fun i => S (2 + i)) fun i hi => ?_) fun b hb => ?_
    · match i, hi with
      | 0, _ => exact segK_stay a2 h.s2 (Or.inr (by decide))
      | 1, _ => exact segK_stay a2 h.s3 (Or.inr (by decide))
    obtain ⟨b1, b2, b3⟩ := hb
    exact ⟨b1.trans a1, segK_stay b2 (a3 0 (by omega)) (Or.inl (by decide)), segK_stay b2 (a3 1 (by omega)) (Or.inl (by decide)), b3 0 (by omega), b3 1 (by omega)⟩
  · exact four_spec (S' := fun w => keccakF (S w)) h (fun _ hs => permute_spec hP g hs) (fun _ hs => permute_spec hP g hs)
      (fun _ hs => permute_spec hP g hs) (fun _ hs => permute_spec hP g hs)

theorem permute_si {P : Profile} (hP : OkP P) {g g' : Buf Model.W → Nat → Entry} {s s' : Buf Model.W} {so : Nat} :
    SI (KeccakF1600_StatePermute P g s so) (KeccakF1600_StatePermute P g' s' so) := by
  unfold KeccakF1600_StatePermute
  split
  · rename_i f hf; exact (hP.x1 f hf).si
  · exact si_permute

theorem permute4_si {P : Profile} (hP : OkP P) {g g' : Buf Model.W → Nat → Entry} {s s' : Buf Model.W} :
    SI (KeccakF1600x4_StatePermute P g s) (KeccakF1600x4_StatePermute P g' s') := by
  unfold KeccakF1600x4_StatePermute
  split
  · rename_i f hf; exact (hP.x4 f hf).si
  · rename_i f _ hf
    exact SIR.bind (R := Any _ _) (hP.x2 f hf).si fun _ _ _ => (hP.x2 f hf).si
  · exact SIR.bind (R := Any _ _) (permute_si hP) fun _ _ _ => SIR.bind (R := Any _ _) (permute_si hP) fun _ _ _ => SIR.bind (R := Any _ _) (permute_si hP) fun _ _ _ => permute_si hP

/-- The cell after the state keeps its contents. -/
theorem permute_sir25 {P : Profile} (hP : OkP P) {g g' : Buf Model.W → Nat → Entry} {c : Model.W} {s s' : Buf Model.W} (h : At25 c s s') :
    SIR (KeccakF1600_StatePermute P g s 0) (KeccakF1600_StatePermute P g' s' 0) (At25 c) := by
  unfold KeccakF1600_StatePermute
  split
  · rename_i f hf
    have ho := hP.x1 f hf
    intro a t b t' e e'
    refine ⟨(ho.si a t b t' e e').1, ?_, ?_⟩
    · exact call_keeps (n := 1) ho.pos ho.run (.inr (by omega)) e h.1
    · exact call_keeps (n := 1) ho.pos ho.run (.inr (by omega)) e' h.2
  · exact sir_permute25 h

end Verif.A64K

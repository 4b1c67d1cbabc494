import Verif.Proof.Printed
import Verif.Proof.ByteList
/-! # K-PKE and ML-KEM as printed in FIPS 203 -/
open Finset
namespace Verif.Printed
open Spec
open Function (update)

attribute [local irreducible] Printed.NTT Printed.NTTInv Printed.MultiplyNTTs Printed.SamplePolyCBD Printed.ByteEncode Printed.ByteDecode Printed.SampleNTT

/-- A counting loop that may fail, with an invariant. -/
theorem for_opt {σ : Type} (I : Nat → σ → Prop) (bad : Prop) {n : Nat} {s : σ} {f : Nat → σ → Option (ForInStep σ)} (h0 : I 0 s)
    (hs : ∀ i s, i < n → I i s → (∃ s', f i s = some (ForInStep.yield s') ∧ I (i + 1) s') ∨ (f i s = none ∧ bad)) :
    (∃ r, (forIn (List.range n) s f : Option σ) = some r ∧ I n r) ∨ ((forIn (List.range n) s f : Option σ) = none ∧ bad) := by
  have key : ∀ m lo s, lo + m = n → I lo s → (∃ r, (forIn (List.range' lo m) s f : Option σ) = some r ∧ I n r) ∨ ((forIn (List.range' lo m) s f : Option σ) = none ∧ bad) := by
    intro m
    induction m with
    | zero => intro lo s h hI; simp only [Nat.add_zero] at h; subst h; left; exact ⟨s, rfl, hI⟩
    | succ m ih =>
      intro lo s h hI
      rw [List.range'_succ, List.forIn_cons]
      rcases hs lo s (by omega) hI with ⟨s', e, hI'⟩ | ⟨e, hb⟩
      · rw [e]
        exact ih (lo + 1) s' (by omega) hI'
      · rw [e]; right; exact ⟨rfl, hb⟩
  rw [List.range_eq_range']
  exact key n 0 s (by omega) h0

/-- The double loop that samples the matrix. -/
theorem matrix_cases (k n : Nat) (ρ : List UInt8) :
    (∃ A A', (forIn (List.range k) (fun _ _ _ => 0) fun i A => (do
        let A ← forIn (List.range k) A fun j A => (do
          let a ← Printed.SampleNTT n (ρ ++ [UInt8.ofNat j, UInt8.ofNat i])
          pure (ForInStep.yield (update A i (update (A i) j a))) : Option _)
        pure (ForInStep.yield A) : Option _) : Option (Nat → Nat → Nat → Zq)) = some A ∧ sampleA k (3 * n) ρ = some A' ∧ ∀ i, i < k → ∀ j, j < k → A i j = A' i j) ∨
    ((forIn (List.range k) (fun _ _ _ => 0) fun i A => (do
        let A ← forIn (List.range k) A fun j A => (do
          let a ← Printed.SampleNTT n (ρ ++ [UInt8.ofNat j, UInt8.ofNat i])
          pure (ForInStep.yield (update A i (update (A i) j a))) : Option _)
        pure (ForInStep.yield A) : Option _) : Option (Nat → Nat → Nat → Zq)) = none ∧ sampleA k (3 * n) ρ = none) := by
  set S : Nat → Nat → Option Spec.Poly := fun i j => Spec.SampleNTT (3 * n) (ρ ++ [UInt8.ofNat j, UInt8.ofNat i]) with hS
  have h := for_opt (σ := Nat → Nat → Nat → Zq) (fun i A => ∀ i', i' < i → ∀ j, j < k → S i' j = some (A i' j)) (sampleA k (3 * n) ρ = none) (n := k) (s := fun _ _ _ => 0)
    (f := fun i A => (do
        let A ← forIn (List.range k) A fun j A => (do
          let a ← Printed.SampleNTT n (ρ ++ [UInt8.ofNat j, UInt8.ofNat i])
          pure (ForInStep.yield (update A i (update (A i) j a))) : Option _)
        pure (ForInStep.yield A) : Option _)) (by intro i' h; omega) ?_
  · rcases h with ⟨A, e, h⟩ | h
    · left
      refine ⟨A, _, e, if_pos fun i hi j hj => ?_, fun i hi j hj => ?_⟩
      · rw [show Spec.SampleNTT (3 * n) (ρ ++ [UInt8.ofNat j, UInt8.ofNat i]) = some (A i j) from h i hi j hj]; rfl
      · rw [show Spec.SampleNTT (3 * n) (ρ ++ [UInt8.ofNat j, UInt8.ofNat i]) = some (A i j) from h i hi j hj]; rfl
    · exact Or.inr h
  · intro i A hi hA
    have h := for_opt (σ := Nat → Nat → Nat → Zq) (fun j A => (∀ i', i' < i → ∀ j, j < k → S i' j = some (A i' j)) ∧ ∀ j', j' < j → S i j' = some (A i j')) (sampleA k (3 * n) ρ = none) (n := k) (s := A)
      (f := fun j A => (do
          let a ← Printed.SampleNTT n (ρ ++ [UInt8.ofNat j, UInt8.ofNat i])
          pure (ForInStep.yield (update A i (update (A i) j a))) : Option _)) ⟨hA, by intro j' h; omega⟩ ?_
    · rcases h with ⟨A', e, h1, h2⟩ | ⟨e, h⟩
      · left
        refine ⟨A', by rw [e]; rfl, fun i' hi' j hj => ?_⟩
        by_cases c : i' = i
        · subst c; exact h2 j hj
        · exact h1 i' (by omega) j hj
      · right; exact ⟨by rw [e]; rfl, h⟩
    · rintro j A hj ⟨h1, h2⟩
      rw [SampleNTT_eq]
      rcases hs : Spec.SampleNTT (3 * n) (ρ ++ [UInt8.ofNat j, UInt8.ofNat i]) with _ | a
      · right
        refine ⟨rfl, ?_⟩
        unfold sampleA
        rw [if_neg]
        intro hc
        have := hc i hi j hj
        rw [hs] at this
        simp at this
      · left
        refine ⟨_, rfl, fun i' hi' j' hj' => ?_, fun j' hj' => ?_⟩
        · rw [upd_eq, if_neg (by omega)]; exact h1 i' hi' j' hj'
        · rw [upd_eq, if_pos rfl, upd_eq]
          by_cases c : j' = j
          · subst c; rw [if_pos rfl]; exact hs
          · rw [if_neg c]; exact h2 j' (by omega)

/-- A loop that samples a vector. -/
theorem vector (k N : Nat) (P : Nat → Nat → Zq) : ∃ v, (forIn (List.range k) (N, fun _ _ => 0) fun i s => (pure (ForInStep.yield (s.1 + 1, update s.2 i (P s.1))) : Option _) : Option (Nat × (Nat → Nat → Zq))) =
    some (N + k, v) ∧ ∀ i, i < k → v i = P (N + i) := by
  have h := for_opt (σ := Nat × (Nat → Nat → Zq)) (fun i s => s.1 = N + i ∧ ∀ i', i' < i → s.2 i' = P (N + i')) False (n := k) (s := (N, fun _ _ => 0))
    (f := fun i s => (pure (ForInStep.yield (s.1 + 1, update s.2 i (P s.1))) : Option _)) ⟨rfl, by intro i' h; omega⟩ ?_
  · rcases h with ⟨⟨m, v⟩, e, h1, h2⟩ | ⟨_, h⟩
    · simp only [] at h1
      subst h1
      exact ⟨v, e, h2⟩
    · exact h.elim
  · rintro i ⟨m, v⟩ hi ⟨h1, h2⟩
    simp only [] at h1 h2
    subst h1
    refine Or.inl ⟨_, rfl, ?_, fun i' hi' => ?_⟩
    · simp only []; omega
    · simp only [upd_eq]
      by_cases c : i' = i
      · subst c; rw [if_pos rfl]
      · rw [if_neg c]; exact h2 i' (by omega)

theorem string_ByteEncode {d : Nat} (hd : 0 < d) (F : Nat → Nat) : Printed.string (32 * d) (Printed.ByteEncode d F) = Spec.ByteEncode d F := by
  apply List.ext_getElem
  · simp [Printed.string]
  · intro i h1 h2
    have hi : i < 32 * d := by simpa using h2
    simp only [Printed.string, List.getElem_map, List.getElem_range]
    rw [ByteEncode_eq hd F hi, UInt8.ofNat_toNat, List.getD_eq_getElem _ _ h2]

theorem encodeVec_eq (k : Nat) {d : Nat} (hd : 0 < d) {v w : Nat → Nat → Nat} (h : ∀ i, i < k → ∀ c, c < 256 → v i c = w i c) :
    Printed.encodeVec k d v = (List.range k).flatMap fun i => Spec.ByteEncode d (w i) := by
  unfold Printed.encodeVec
  rw [List.flatMap_def, List.flatMap_def]
  congr 1
  refine List.map_congr_left fun i hi => ?_
  rw [string_ByteEncode hd]
  exact ByteEncode_congr (h i (List.mem_range.mp hi))

theorem dotP {k : Nat} {a a' b b' : Nat → Nat → Zq} (ha : ∀ j, j < k → ∀ n, n < 256 → a j n = a' j n) (hb : ∀ j, j < k → ∀ n, n < 256 → b j n = b' j n) {c : Nat} (hc : c < 256) :
    ∑ j ∈ range k, Printed.MultiplyNTTs (a j) (b j) c = ∑ j ∈ range k, Spec.MultiplyNTTs (a' j) (b' j) c := by
  refine sum_congr rfl fun j hj => ?_
  have hj := mem_range.mp hj
  rw [MultiplyNTTs_eq _ _ hc]
  exact MultiplyNTTs_congr (ha j hj) (hb j hj) hc

theorem NTT_eq' {f g : Nat → Zq} (h : ∀ n, n < 256 → f n = g n) {n : Nat} (hn : n < 256) : Printed.NTT f n = Spec.NTT g n := by
  rw [NTT_eq _ hn]; exact NTT_congr h n
theorem NTTInv_eq' {f g : Nat → Zq} (h : ∀ n, n < 256 → f n = g n) {n : Nat} (hn : n < 256) : Printed.NTTInv f n = Spec.NTTInv g n := by
  rw [NTTInv_eq _ hn]; exact NTTInv_congr h n

theorem kpkeKeyGen_eq (k n : Nat) (d : List UInt8) : Printed.kpkeKeyGen k n d = Spec.kpkeKeyGen k (3 * n) d := by
  unfold Printed.kpkeKeyGen Spec.kpkeKeyGen
  rcases hG : G (d ++ [UInt8.ofNat k]) with ⟨ρ, σ⟩
  simp only []
  rcases matrix_cases k n ρ with ⟨A, A', e, e', hA⟩ | ⟨e, e'⟩
  · rw [e, e']
    obtain ⟨s, hs, es⟩ := vector k 0 fun N => Printed.SamplePolyCBD (η₁ k) (Printed.bytes (PRF (η₁ k) σ N))
    obtain ⟨v, hv, ev⟩ := vector k (0 + k) fun N => Printed.SamplePolyCBD (η₁ k) (Printed.bytes (PRF (η₁ k) σ N))
    simp only [Option.bind_eq_bind, Option.bind_some, Option.map_some, Option.pure_def] at hs hv ⊢
    rw [hs, Option.bind_some, hv, Option.bind_some]
    simp only []
    have hs' : ∀ j, j < k → ∀ c, c < 256 → Printed.NTT (s j) c = Spec.NTT (Spec.SamplePolyCBD (η₁ k) (PRF (η₁ k) σ j)) c := by
      intro j hj c hc
      refine NTT_eq' (fun n hn => ?_) hc
      rw [es j hj, Nat.zero_add]; exact SamplePolyCBD_eq _ _ hn
    have hv' : ∀ j, j < k → ∀ c, c < 256 → Printed.NTT (v j) c = Spec.NTT (Spec.SamplePolyCBD (η₁ k) (PRF (η₁ k) σ (k + j))) c := by
      intro j hj c hc
      refine NTT_eq' (fun n hn => ?_) hc
      rw [ev j hj, Nat.zero_add]; exact SamplePolyCBD_eq _ _ hn
    refine congrArg some (Prod.ext (congrArg (· ++ ρ) ?_) ?_)
    · refine encodeVec_eq k (by omega) fun i hi c hc => ?_
      rw [hv' i hi c hc, dotP (fun j hj n _ => by rw [hA i hi j hj]) hs' hc]
    · refine encodeVec_eq k (by omega) fun i hi c hc => ?_
      rw [hs' i hi c hc]
  · rw [e, e']; rfl

theorem slice_slice (B : List UInt8) {k m i : Nat} (h : i < k) : Printed.slice (Printed.slice B 0 (m * k)) (m * i) (m * (i + 1)) = (B.drop (m * i)).take m := by
  unfold Printed.slice
  rw [List.drop_zero, Nat.sub_zero, List.drop_take, List.take_take, show m * (i + 1) - m * i = m by rw [Nat.mul_succ]; omega]
  congr 1
  have : m * i + m ≤ m * k := by rw [← Nat.mul_succ]; exact Nat.mul_le_mul_left _ h
  omega

theorem d_u_pos (k : Nat) : 0 < d_u k ∧ d_u k ≤ 12 := by unfold d_u; split <;> omega
theorem d_v_pos (k : Nat) : 0 < d_v k ∧ d_v k ≤ 12 := by unfold d_v; split <;> omega

theorem kpkeEncrypt_eq (k n : Nat) (ek m r : List UInt8) : Printed.kpkeEncrypt k n ek m r = Spec.kpkeEncrypt k (3 * n) ek m r := by
  unfold Printed.kpkeEncrypt Spec.kpkeEncrypt
  have hρ : Printed.slice ek (384 * k) (384 * k + 32) = (ek.drop (384 * k)).take 32 := by unfold Printed.slice; rw [Nat.add_sub_cancel_left]
  simp only [hρ]
  generalize (ek.drop (384 * k)).take 32 = ρ
  rcases matrix_cases k n ρ with ⟨A, A', e, e', hA⟩ | ⟨e, e'⟩
  · rw [e, e']
    obtain ⟨s, hs, es⟩ := vector k 0 fun N => Printed.SamplePolyCBD (η₁ k) (Printed.bytes (PRF (η₁ k) r N))
    obtain ⟨v, hv, ev⟩ := vector k (0 + k) fun N => Printed.SamplePolyCBD η₂ (Printed.bytes (PRF η₂ r N))
    simp only [Option.bind_eq_bind, Option.bind_some, Option.map_some, Option.pure_def] at hs hv ⊢
    rw [hs, Option.bind_some, hv, Option.bind_some]
    simp only []
    have hs' : ∀ j, j < k → ∀ c, c < 256 → Printed.NTT (s j) c = Spec.NTT (Spec.SamplePolyCBD (η₁ k) (PRF (η₁ k) r j)) c := by
      intro j hj c hc
      refine NTT_eq' (fun n hn => ?_) hc
      rw [es j hj, Nat.zero_add]; exact SamplePolyCBD_eq _ _ hn
    have ht : ∀ j, j < k → ∀ c, c < 256 → ((Printed.decodeVec 12 (Printed.slice ek 0 (384 * k)) j c : Nat) : Zq) = decode12 ek j c := by
      intro j hj c hc
      unfold Printed.decodeVec decode12
      rw [show 32 * 12 = 384 from rfl, slice_slice ek hj, ByteDecode_eq (by omega) _ hc]
    refine congrArg some (congrArg₂ (· ++ ·) ?_ ?_)
    · refine encodeVec_eq k (d_u_pos k).1 fun i hi c hc => ?_
      rw [ev i hi, Nat.zero_add, SamplePolyCBD_eq _ _ hc, NTTInv_eq' (fun n hn => dotP (fun j hj n _ => by rw [hA j hj i hi]) hs' hn) hc]
    · rw [string_ByteEncode (d_v_pos k).1]
      refine ByteEncode_congr fun c hc => ?_
      rw [SamplePolyCBD_eq _ _ hc, ByteDecode_eq (by omega) _ hc, show 0 + k + k = 2 * k by omega, NTTInv_eq' (fun n hn => dotP ht hs' hn) hc]
  · rw [e, e']; rfl

theorem kpkeDecrypt_eq (k : Nat) (dk c : List UInt8) : Printed.kpkeDecrypt k dk c = Spec.kpkeDecrypt k dk c := by
  unfold Printed.kpkeDecrypt Spec.kpkeDecrypt
  simp only [Id.run_pure]
  rw [show (32 : Nat) = 32 * 1 from rfl, string_ByteEncode (by omega)]
  refine ByteEncode_congr fun n hn => ?_
  unfold decryptW
  refine congrArg (Compress 1) (congrArg₂ (· - ·) ?_ ?_)
  · unfold ctV
    rw [ByteDecode_eq (d_v_pos k).2 _ hn]
    unfold Printed.slice
    rw [show 32 * 1 * (d_u k * k + d_v k) - 32 * 1 * d_u k * k = 32 * d_v k by rw [Nat.mul_add, ← Nat.mul_assoc, Nat.mul_one]; omega, Nat.mul_one]
  · refine NTTInv_eq' (fun p hp => dotP (fun j hj q hq => ?_) (fun j hj q hq => NTT_eq' (fun t ht => ?_) hq) hp) hn
    · unfold Printed.decodeVec decode12
      rw [ByteDecode_eq (by omega) _ hq]
      unfold Printed.slice
      rw [show 32 * 1 * 12 * (j + 1) - 32 * 1 * 12 * j = 384 by omega, show 32 * 1 * 12 * j = 384 * j by omega]
    · unfold ctU Printed.decodeVec
      rw [Nat.mul_one, slice_slice c hj, ByteDecode_eq (d_u_pos k).2 _ ht]

theorem KeyGen_internal_eq (k n : Nat) (d z : List UInt8) : Printed.KeyGen_internal k n d z = Spec.KeyGen_internal k (3 * n) d z := by
  unfold Printed.KeyGen_internal Spec.KeyGen_internal
  rw [kpkeKeyGen_eq]
  rcases Spec.kpkeKeyGen k (3 * n) d with _ | ⟨ek, dk⟩ <;> rfl

theorem Encaps_internal_eq (k n : Nat) (ek m : List UInt8) : Printed.Encaps_internal k n ek m = Spec.Encaps_internal k (3 * n) ek m := by
  unfold Printed.Encaps_internal Spec.Encaps_internal
  rcases G (m ++ H ek) with ⟨K, r⟩
  simp only []
  rw [kpkeEncrypt_eq]
  rcases Spec.kpkeEncrypt k (3 * n) ek m r with _ | c <;> rfl

theorem Decaps_internal_eq (k n : Nat) (dk c : List UInt8) : Printed.Decaps_internal k n dk c = Spec.Decaps_internal k (3 * n) dk c := by
  unfold Printed.Decaps_internal Spec.Decaps_internal
  simp only [kpkeDecrypt_eq, kpkeEncrypt_eq]
  have s1 : Printed.slice dk 0 (384 * k) = dk.take (384 * k) := rfl
  have s2 : Printed.slice dk (384 * k) (768 * k + 32) = (dk.drop (384 * k)).take (384 * k + 32) := by unfold Printed.slice; congr 1; omega
  have s3 : Printed.slice dk (768 * k + 32) (768 * k + 64) = (dk.drop (768 * k + 32)).take 32 := by unfold Printed.slice; congr 1; omega
  have s4 : Printed.slice dk (768 * k + 64) (768 * k + 96) = (dk.drop (768 * k + 64)).take 32 := by unfold Printed.slice; congr 1; omega
  rw [s1, s2, s3, s4]
  rcases G (Spec.kpkeDecrypt k (dk.take (384 * k)) c ++ (dk.drop (768 * k + 32)).take 32) with ⟨K, r⟩
  simp only []
  rcases Spec.kpkeEncrypt k (3 * n) ((dk.drop (384 * k)).take (384 * k + 32)) (Spec.kpkeDecrypt k (dk.take (384 * k)) c) r with _ | c' <;> rfl

theorem modulusCheck_iff (k : Nat) (ek : List UInt8) : Printed.modulusCheck k ek ↔ Spec.modulusCheck k ek := by
  unfold Printed.modulusCheck Spec.modulusCheck encode12
  rw [encodeVec_eq k (by omega) (w := fun i c => (decode12 ek i c).val) fun i hi c hc => ?_]
  · rfl
  · unfold Printed.decodeVec decode12
    rw [show 32 * 12 = 384 from rfl, slice_slice ek hi, ByteDecode_eq (by omega) _ hc, ZMod.val_natCast]
    refine (Nat.mod_eq_of_lt ?_).symm
    exact Nat.mod_lt _ (by decide)

theorem hashCheck_iff (k : Nat) (dk : List UInt8) : Printed.hashCheck k dk ↔ Spec.hashCheck k dk := by
  unfold Printed.hashCheck Spec.hashCheck Printed.slice
  rw [show 768 * k + 32 - 384 * k = 384 * k + 32 by omega, show 768 * k + 64 - (768 * k + 32) = 32 by omega]

end Verif.Printed

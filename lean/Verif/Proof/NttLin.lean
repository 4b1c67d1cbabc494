import Verif.Proof.NttAlg
import Verif.Proof.InvNtt
import Mathlib.Data.Fintype.Pi
import Mathlib.Data.Fintype.EquivFin
/-! # Linearity and bijectivity of the NTT -/
namespace Verif
open Spec Finset

theorem NTT_add (f g : Spec.Poly) (n : Nat) : NTT (fun i => f i + g i) n = NTT f n + NTT g n := by
  unfold NTT; rw [← sum_add_distrib]; exact sum_congr rfl fun _ _ => add_mul _ _ _

theorem c3303_add (a b : Zq) : 3303 * (a + b) = 3303 * a + 3303 * b := mul_add _ _ _

theorem NTTInv_add (f g : Spec.Poly) (n : Nat) : NTTInv (fun i => f i + g i) n = NTTInv f n + NTTInv g n := by
  unfold NTTInv; rw [← c3303_add, ← sum_add_distrib]
  exact congrArg (fun t : Zq => 3303 * t) (sum_congr rfl fun _ _ => add_mul _ _ _)

theorem NTTInv_zero (n : Nat) : NTTInv (fun _ => 0) n = 0 := by
  unfold NTTInv; simp only [zero_mul, sum_const_zero, mul_zero]

theorem NTTInv_sum (K : Nat) (f : Nat → Spec.Poly) (n : Nat) : NTTInv (fun i => ∑ j ∈ range K, f j i) n = ∑ j ∈ range K, NTTInv (f j) n := by
  induction K with
  | zero => simp only [range_zero, sum_empty]; exact NTTInv_zero n
  | succ K ih => rw [sum_range_succ, ← ih, ← NTTInv_add]; exact NTTInv_congr (fun i _ => sum_range_succ _ _) n

theorem NTTInv_sub (f g : Spec.Poly) (n : Nat) : NTTInv (fun i => f i - g i) n = NTTInv f n - NTTInv g n := by
  rw [eq_sub_iff_add_eq, ← NTTInv_add]
  exact NTTInv_congr (fun i _ => sub_add_cancel _ _) n

/-- Every element of the NTT domain is a transform. -/
theorem exists_NTT (g : Spec.Poly) : ∃ f : Spec.Poly, ∀ n, n < 256 → NTT f n = g n := by
  let ext : (Fin 256 → Zq) → Spec.Poly := fun v n => if h : n < 256 then v ⟨n, h⟩ else 0
  let φ : (Fin 256 → Zq) → (Fin 256 → Zq) := fun v i => NTT (ext v) i.val
  have hinj : Function.Injective φ := by
    intro v v' h
    funext i
    have h1 : ∀ n, n < 256 → NTT (ext v) n = NTT (ext v') n := fun n hn => congrFun h ⟨n, hn⟩
    have h2 := NTTInv_congr h1 i.val
    rw [NTTInv_NTT _ i.2, NTTInv_NTT _ i.2] at h2
    simpa [ext] using h2
  obtain ⟨v, hv⟩ := (Finite.injective_iff_surjective.1 hinj) (fun i => g i.val)
  exact ⟨ext v, fun n hn => congrFun hv ⟨n, hn⟩⟩

theorem NTT_NTTInv (g : Spec.Poly) {n : Nat} (hn : n < 256) : NTT (NTTInv g) n = g n := by
  obtain ⟨f, hf⟩ := exists_NTT g
  have h1 : ∀ m, m < 256 → NTTInv g m = f m := fun m hm => by rw [← NTTInv_congr hf m, NTTInv_NTT _ hm]
  rw [NTT_congr h1 n, hf n hn]

theorem MultiplyNTTs_comm (f g : Spec.Poly) (n : Nat) : MultiplyNTTs f g n = MultiplyNTTs g f n := by
  unfold MultiplyNTTs; split <;> ring

theorem MultiplyNTTs_add_left (f g h : Spec.Poly) (n : Nat) : MultiplyNTTs (fun i => f i + g i) h n = MultiplyNTTs f h n + MultiplyNTTs g h n := by
  unfold MultiplyNTTs; split <;> ring

theorem MultiplyNTTs_add_right (f g h : Spec.Poly) (n : Nat) : MultiplyNTTs h (fun i => f i + g i) n = MultiplyNTTs h f n + MultiplyNTTs h g n := by
  unfold MultiplyNTTs; split <;> ring

theorem MultiplyNTTs_zero_left (h : Spec.Poly) (n : Nat) : MultiplyNTTs (fun _ => 0) h n = 0 := by
  unfold MultiplyNTTs; split <;> ring

theorem MultiplyNTTs_sum_left (K : Nat) (f : Nat → Spec.Poly) (h : Spec.Poly) (n : Nat) :
    MultiplyNTTs (fun i => ∑ j ∈ range K, f j i) h n = ∑ j ∈ range K, MultiplyNTTs (f j) h n := by
  induction K with
  | zero => simp only [range_zero, sum_empty]; exact MultiplyNTTs_zero_left h n
  | succ K ih =>
    rw [sum_range_succ, ← ih, ← MultiplyNTTs_add_left]
    exact congrArg (fun p => MultiplyNTTs p h n) (funext fun i => sum_range_succ _ _)

theorem MultiplyNTTs_sum_right (K : Nat) (f : Nat → Spec.Poly) (h : Spec.Poly) (n : Nat) :
    MultiplyNTTs h (fun i => ∑ j ∈ range K, f j i) n = ∑ j ∈ range K, MultiplyNTTs h (f j) n := by
  rw [MultiplyNTTs_comm, MultiplyNTTs_sum_left]; exact sum_congr rfl fun j _ => MultiplyNTTs_comm _ _ _

theorem MultiplyNTTs_assoc (f g h : Spec.Poly) (n : Nat) : MultiplyNTTs (MultiplyNTTs f g) h n = MultiplyNTTs f (MultiplyNTTs g h) n := by
  rcases Nat.mod_two_eq_zero_or_one n with h0 | h1
  · have a1 : (n + 1) % 2 ≠ 0 := by omega
    have a2 : (n + 1) / 2 = n / 2 := by omega
    simp only [MultiplyNTTs, h0, if_true, if_neg a1, Nat.add_sub_cancel]; ring
  · obtain ⟨m, rfl⟩ : ∃ m, n = m + 1 := ⟨n - 1, by omega⟩
    have a1 : (m + 1) % 2 ≠ 0 := by omega
    have a2 : m % 2 = 0 := by omega
    simp only [MultiplyNTTs, if_neg a1, Nat.add_sub_cancel, a2, if_true]; ring

end Verif

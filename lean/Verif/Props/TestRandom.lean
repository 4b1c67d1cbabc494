import Verif.Props.Kat
import Verif.Proof.Surf
/-! # C71: the random bytes of the test programs -/
namespace Verif.Props
open Verif Verif.Model Verif.Model.Surf Verif.Spec

/-- The static variables `s` of the generator are those of a program that has asked for `n` bytes in total, in any number of calls with any buffers. -/
inductive SurfHistory : State → Nat → Prop
  | start : SurfHistory start 0
  | call {s s' : State} {n : Nat} {buf buf' : Buf UInt8} {bo m : Nat} : SurfHistory s n → bo + m ≤ buf.size → Returns (randombytes s buf bo m) (s', buf') → SurfHistory s' (n + m)

theorem surf_history_at {s : State} {n : Nat} (h : SurfHistory s n) : Surf.At s n := by
  induction h with
  | start => exact Surf.start_at
  | call _ hb hr ih =>
    obtain ⟨p, hp, h1, _⟩ := ret_of_post (Surf.randombytes_spec ih hb)
    have := hp.unique hr
    rw [this] at h1; exact h1

/-- **C71.**  After any history of calls that asked for `n` bytes in total, a call for `m` bytes returns, without undefined behaviour, and writes the bytes `n`, `n + 1`, …, `n + m - 1` of the fixed
stream of SURF (`surfByte`) to the given place and nothing else. -/
theorem C71_stream {s : State} {n : Nat} (h : SurfHistory s n) (pre old post : List (Option UInt8)) :
    ∃ s', Returns (randombytes s (pre ++ old ++ post).toArray pre.length old.length) (s', (pre ++ ((List.range old.length).map fun i => some (surfByte (n + i))) ++ post).toArray) ∧ SurfHistory s' (n + old.length) := by
  have hb : pre.length + old.length ≤ (pre ++ old ++ post).toArray.size := by simp
  obtain ⟨⟨s', b'⟩, hp, _, hw⟩ := ret_of_post (Surf.randombytes_spec (surf_history_at h) hb)
  have e : b' = (pre ++ ((List.range old.length).map fun i => some (surfByte (n + i))) ++ post).toArray := by
    apply Array.ext_getElem?
    intro i
    by_cases h1 : i < pre.length
    · rw [hw.2.2 i (Or.inl h1)]
      simp [List.getElem?_append, h1]
    · by_cases h2 : i < pre.length + old.length
      · have := hw.2.1 (i - pre.length) (by omega)
        rw [show pre.length + (i - pre.length) = i by omega] at this
        simp only at this
        rw [this]
        simp [List.getElem?_append, h1, h2, show i - pre.length < old.length by omega]
      · rw [hw.2.2 i (Or.inr (by omega))]
        simp only [List.getElem?_toArray]
        rw [List.getElem?_append_right (by simp; omega), List.getElem?_append_right (by simp; omega)]
        simp
  rw [e] at hp
  exact ⟨s', hp, SurfHistory.call h hb hp⟩

/-- **C71 (pieces).**  Asking for bytes in one call or in two gives the same bytes. -/
theorem C71_pieces {s : State} {n : Nat} (h : SurfHistory s n) (a b : Nat) (L : List UInt8) (s₀ : State)
    (hL : Returns (randombytes s (Buf.uninit UInt8 (a + b)) 0 (a + b)) (s₀, Buf.ofList L)) :
    ∃ s₁ s₂ A B, Returns (randombytes s (Buf.uninit UInt8 a) 0 a) (s₁, Buf.ofList A) ∧ Returns (randombytes s₁ (Buf.uninit UInt8 b) 0 b) (s₂, Buf.ofList B) ∧ L = A ++ B := by
  have key : ∀ {s : State} {n : Nat} (_ : SurfHistory s n) (m : Nat), ∃ s', Returns (randombytes s (Buf.uninit UInt8 m) 0 m) (s', Buf.ofList ((List.range m).map fun i => surfByte (n + i))) ∧ SurfHistory s' (n + m) := by
    intro s n h m
    obtain ⟨s', h1, h2⟩ := C71_stream h [] (List.replicate m none) []
    simp only [List.nil_append, List.append_nil, List.length_replicate, List.length_nil] at h1 h2
    refine ⟨s', ?_, h2⟩
    have e1 : (List.replicate m none).toArray = Buf.uninit UInt8 m := by simp [Buf.uninit]
    have e2 : (List.map (fun i => some (surfByte (n + i))) (List.range m)).toArray = Buf.ofList ((List.range m).map fun i => surfByte (n + i)) := by
      simp [Buf.ofList]
    rw [e1, e2] at h1; exact h1
  obtain ⟨s₁, h1, h1'⟩ := key h a
  obtain ⟨s₂, h2, _⟩ := key h1' b
  obtain ⟨s₃, h3, _⟩ := key h (a + b)
  refine ⟨s₁, s₂, _, _, h1, h2, ?_⟩
  have e := congrArg Prod.snd (hL.unique h3)
  simp only at e
  have e := congrArg Array.toList e
  simp only [Buf.ofList] at e
  have e := (List.map_injective_iff.2 (Option.some_injective UInt8)) e
  rw [e, List.range_add, List.map_append, List.map_map]
  congr 1
  refine List.map_congr_left fun i _ => ?_
  show surfByte (n + (a + i)) = surfByte (n + a + i)
  rw [Nat.add_assoc]

/-- There are histories: eleven bytes at once. -/
example : ∃ s, SurfHistory s 11 := by
  obtain ⟨s, _, h⟩ := C71_stream SurfHistory.start [] (List.replicate 11 none) []
  exact ⟨s, h⟩

end Verif.Props

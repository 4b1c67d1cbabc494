import Verif.Model.Surf
import Verif.Spec.Surf
import Verif.Proof.Calc
import Mathlib.Tactic.IntervalCases
import Mathlib.Tactic.Ring
/-! # The random bytes of the test programs -/
namespace Verif.Surf
open Verif Verif.Model Verif.Model.Aes Verif.Model.Surf Verif.Spec

theorem seed_holds : Holds seed 32 (fun i => surfSeed.getD i 0) := Holds.ofList _ 0

theorem surfSeq_low (inp : Nat → W32) {n : Nat} (h : n < 12) : surfSeq inp n = inp n ^^^ surfSeed.getD (12 + n) 0 := by
  rw [surfSeq, if_pos h]

theorem surfSeq_step (inp : Nat → W32) (n : Nat) : surfSeq inp (n + 12) = surfSeq inp n + (((surfSeq inp (n + 11) ^^^ surfSeed.getD (n % 12) 0) + BitVec.ofNat 32 ((n / 12 + 1) * 0x9e3779b9)) ^^^
    (surfSeq inp (n + 11)).rotateLeft (surfRot n)) := by
  rw [surfSeq, if_neg (by omega)]
  have e1 : n + 12 - 12 = n := by omega
  have e2 : n + 12 - 1 = n + 11 := by omega
  have e3 : (n + 12) % 12 = n % 12 := by omega
  have e4 : (n + 12) / 12 = n / 12 + 1 := by omega
  have e5 : surfRot (n + 12) = surfRot n := by unfold surfRot; rw [show (n + 12) % 4 = n % 4 by omega]
  rw [e1, e2, e3, e4, e5]

theorem ROTATE_eq (x : W32) {b : Nat} (h : b < 32) : ROTATE x b = x.rotateLeft b := by
  unfold ROTATE
  rw [BitVec.rotateLeft_def, Nat.mod_eq_of_lt h]

/-- The variables after `i` steps of round `r`. -/
def T (inp : Nat → W32) (r i : Nat) (s : Buf W32 × W32) : Prop :=
  Holds s.1 12 (fun k => surfSeq inp (12 * r + (if k < i then 12 else 0) + k)) ∧ s.2 = surfSeq inp (12 * r + i + 11)

theorem mush_spec {inp : Nat → W32} {r i b : Nat} {sum : W32} {s : Buf W32 × W32} (h : T inp r i s) (hi : i < 12) (hb : b = surfRot i) (hb' : b < 32)
    (hs : sum = BitVec.ofNat 32 ((r + 1) * 0x9e3779b9)) : Post (MUSH sum i b s) (fun s' => T inp r (i + 1) s') := by
  obtain ⟨t, x⟩ := s
  obtain ⟨h1, h2⟩ := h
  simp only at h1 h2
  unfold MUSH
  simp only [wp_bind, wp_rd, wp_wr, wp_pure]
  refine ⟨_, h1.2 i hi, _, seed_holds.2 i (by omega), by rw [h1.1]; exact hi, ?_⟩
  have hv : surfSeq inp (12 * r + (if i < i then 12 else 0) + i) + (((x ^^^ surfSeed.getD i 0) + sum) ^^^ ROTATE x b) = surfSeq inp (12 * r + i + 12) := by
    rw [surfSeq_step, if_neg (by omega), h2, ROTATE_eq _ hb', hb, hs]
    have e1 : (12 * r + i) % 12 = i := by omega
    have e2 : (12 * r + i) / 12 = r := by omega
    have e3 : surfRot (12 * r + i) = surfRot i := by unfold surfRot; rw [show (12 * r + i) % 4 = i % 4 by omega]
    rw [e1, e2, e3]; rfl
  rw [hv]
  refine ⟨(h1.set hi _).congr fun k hk => ?_, by show _ = surfSeq inp (12 * r + (i + 1) + 11); congr 1⟩
  unfold upd
  by_cases e : k = i
  · subst e
    rw [if_pos rfl, if_pos (by omega)]; congr 1; omega
  · rw [if_neg e]; beta_reduce
    by_cases e' : k < i
    · rw [if_pos e', if_pos (by omega)]
    · rw [if_neg e', if_neg (by omega)]

/-- At the start of round `r`. -/
def R (inp : Nat → W32) (r : Nat) (s : (Buf W32 × W32) × W32) : Prop := T inp r 0 s.1 ∧ s.2 = BitVec.ofNat 32 (r * 0x9e3779b9)

theorem round_spec {inp : Nat → W32} {r : Nat} {s : (Buf W32 × W32) × W32} (h : R inp r s) : Post (round s) (fun s' => R inp (r + 1) s') := by
  obtain ⟨s, sum⟩ := s
  obtain ⟨h1, h2⟩ := h
  simp only at h1 h2
  have hs : sum + 0x9e3779b9 = BitVec.ofNat 32 ((r + 1) * 0x9e3779b9) := by
    rw [h2, Nat.add_mul, Nat.one_mul, BitVec.ofNat_add]; rfl
  unfold round
  simp only [wp_bind, wp_pure]
  refine Post.use (mush_spec h1 (by omega) rfl (by omega) hs) fun s h => ?_
  refine Post.use (mush_spec h (by omega) rfl (by omega) hs) fun s h => ?_
  refine Post.use (mush_spec h (by omega) rfl (by omega) hs) fun s h => ?_
  refine Post.use (mush_spec h (by omega) rfl (by omega) hs) fun s h => ?_
  refine Post.use (mush_spec h (by omega) rfl (by omega) hs) fun s h => ?_
  refine Post.use (mush_spec h (by omega) rfl (by omega) hs) fun s h => ?_
  refine Post.use (mush_spec h (by omega) rfl (by omega) hs) fun s h => ?_
  refine Post.use (mush_spec h (by omega) rfl (by omega) hs) fun s h => ?_
  refine Post.use (mush_spec h (by omega) rfl (by omega) hs) fun s h => ?_
  refine Post.use (mush_spec h (by omega) rfl (by omega) hs) fun s h => ?_
  refine Post.use (mush_spec h (by omega) rfl (by omega) hs) fun s h => ?_
  refine Post.use (mush_spec h (by omega) rfl (by omega) hs) fun s h => ?_
  refine ⟨⟨h.1.congr fun k hk => ?_, ?_⟩, hs⟩
  · rw [if_pos (by omega), if_neg (by omega)]; congr 1
  · rw [h.2]; congr 1

/-- The words of output after `m` of the two passes. -/
def outAfter (inp : Nat → W32) (m i : Nat) : W32 :=
  if m = 0 then surfSeed.getD (24 + i) 0 else if m = 1 then surfSeed.getD (24 + i) 0 ^^^ surfSeq inp (196 + i) else surfOut inp i

theorem surf_spec {inb out : Buf W32} {inp : Nat → W32} (hi : Holds inb 12 inp) (ho : out.size = 8) : Post (surf inb out) (fun o => Holds o 8 (surfOut inp)) := by
  unfold surf
  simp only [wp_bind, wp_rd]
  refine wp_forN (fun i t => Written (Buf.uninit W32 12) t 0 i (surfSeq inp)) (Written.refl ..) (fun i t hi' h => ?_) fun t ht => ?_
  · simp only [wp_bind, wp_rd, wp_wr]
    refine ⟨_, hi.2 i hi', _, seed_holds.2 _ (by omega), by rw [h.1]; simpa using hi', ?_⟩
    exact h.push (by simpa using hi') (by omega) (surfSeq_low inp hi').symm
  have ht := ht.holds (by simp)
  refine wp_forN (fun i o => Written out o 0 i (fun i => surfSeed.getD (24 + i) 0)) (Written.refl ..) (fun i o hi' h => ?_) fun out ho' => ?_
  · simp only [wp_bind, wp_rd, wp_wr]
    exact ⟨_, seed_holds.2 _ (by omega), by rw [h.1]; omega, h.push (by omega) (by omega) rfl⟩
  have ho := ho'.holds ho
  refine ⟨_, ht.2 11 (by omega), ?_⟩
  refine wp_forN (fun m s => R inp (16 * m) s.1 ∧ Holds s.2 8 (outAfter inp m)) ⟨⟨⟨ht.congr fun k hk => ?_, congrArg (surfSeq inp) (by omega)⟩, by simp⟩, ho.congr fun k _ => by unfold outAfter; rw [if_pos rfl]⟩ (fun m s hm h => ?_) fun s h => ?_
  · rw [if_neg (by omega)]; congr 1; omega
  · obtain ⟨s, o⟩ := s
    obtain ⟨h1, h2⟩ := h
    simp only [wp_bind, wp_pure] at h1 h2 ⊢
    refine wp_forN (fun r s => R inp (16 * m + r) s) h1 (fun r s _ h => round_spec h) fun s hs => ?_
    refine wp_forN (fun i o => Holds o 8 (fun k => if k < i then outAfter inp (m + 1) k else outAfter inp m k)) (h2.congr fun k _ => by rw [if_neg (by omega)]) (fun i o hi' h => ?_) fun o ho => ?_
    · simp only [wp_bind, wp_rd, wp_wr]
      refine ⟨_, h.2 i hi', _, hs.1.1.2 (i + 4) (by omega), by rw [h.1]; exact hi', (h.set hi' _).congr fun k hk => ?_⟩
      unfold upd
      by_cases e : k = i
      · subst e
        beta_reduce
        rw [if_pos rfl, if_neg (lt_irrefl k), if_neg (Nat.not_lt_zero (k + 4)), if_pos (Nat.lt_succ_self k)]
        have : m = 0 ∨ m = 1 := by omega
        rcases this with rfl | rfl
        · unfold outAfter; simp only [↓reduceIte]
          rw [if_neg (by omega)]
          congr 2; omega
        · unfold outAfter; simp only [↓reduceIte]
          rw [if_neg (by omega), if_neg (by omega), if_neg (by omega)]
          unfold surfOut
          congr 2; omega
      · rw [if_neg e]; beta_reduce
        by_cases e' : k < i
        · rw [if_pos e', if_pos (by omega)]
        · rw [if_neg e', if_neg (by omega)]
    · refine ⟨by rw [show 16 * (m + 1) = 16 * m + 16 by ring]; exact hs, ho.congr fun k hk => by rw [if_pos hk]⟩
  · simp only [wp_pure]
    exact h.2.congr fun k hk => by unfold outAfter; rw [if_neg (by omega), if_neg (by omega)]

theorem ofNat_zero_iff (a : Nat) : (BitVec.ofNat 32 a == 0) = true ↔ a % 4294967296 = 0 := by
  rw [beq_iff_eq, ← BitVec.toNat_inj, BitVec.toNat_ofNat]; rfl

theorem inc_spec {b : Buf W32} {f : Nat → W32} (h : Holds b 12 f) {i : Nat} (hi : i < 12) : Post (inc b i) (fun p => Holds p.1 12 (upd f i (f i + 1)) ∧ p.2 = f i + 1) := by
  unfold inc
  simp only [wp_bind, wp_rd, wp_wr, wp_pure]
  exact ⟨_, h.2 i hi, by rw [h.1]; exact hi, h.set hi _, rfl⟩

theorem counter_word (c : Nat) {i : Nat} (hi : i < 4) (h : 2 ^ (32 * i) ∣ c + 1) : counterWords c i + 1 = counterWords (c + 1) i := by
  unfold counterWords
  rw [if_pos hi, if_pos hi, Nat.succ_div, if_pos h, BitVec.ofNat_add]; rfl

theorem counter_same (c : Nat) {i j : Nat} (hij : j ≤ i) (h : ¬ 2 ^ (32 * j) ∣ c + 1) : counterWords c i = counterWords (c + 1) i := by
  unfold counterWords
  split
  · rw [Nat.succ_div, if_neg fun h' => h (Dvd.dvd.trans (Nat.pow_dvd_pow 2 (by omega)) h'), Nat.add_zero]
  · rfl

theorem counter_zero (c : Nat) {i : Nat} (hi : i < 4) (h : 2 ^ (32 * i) ∣ c + 1) : (counterWords (c + 1) i == 0) = true ↔ 2 ^ (32 * (i + 1)) ∣ c + 1 := by
  unfold counterWords
  rw [if_pos hi, ofNat_zero_iff, Nat.mul_add, Nat.pow_add, Nat.mul_one, ← Nat.dvd_iff_mod_eq_zero, Nat.dvd_div_iff_mul_dvd h]

/-- The words below `i` have been increased. -/
def partCounter (c i k : Nat) : W32 := if k < i then counterWords (c + 1) k else counterWords c k

theorem part_step {b : Buf W32} {c i : Nat} (hi : i < 4) (hd : 2 ^ (32 * i) ∣ c + 1) (h : Holds b 12 (partCounter c i)) :
    Post (inc b i) (fun p => Holds p.1 12 (partCounter c (i + 1)) ∧ ((p.2 == 0) = true ↔ 2 ^ (32 * (i + 1)) ∣ c + 1)) := by
  refine Post.use (inc_spec h (by omega)) fun p hp => ?_
  have e : partCounter c i i + 1 = counterWords (c + 1) i := by
    unfold partCounter; rw [if_neg (by omega), counter_word c hi hd]
  rw [e] at hp
  refine ⟨hp.1.congr fun k _ => ?_, by rw [hp.2]; exact counter_zero c hi hd⟩
  unfold upd partCounter
  by_cases e : k = i
  · subst e; rw [if_pos rfl, if_pos (by omega)]
  · rw [if_neg e]
    by_cases e' : k < i
    · rw [if_pos e', if_pos (by omega)]
    · rw [if_neg e', if_neg (by omega)]

theorem part_done {b : Buf W32} {c i : Nat} (h : Holds b 12 (partCounter c i)) (hd : 4 ≤ i ∨ ¬ 2 ^ (32 * i) ∣ c + 1) : Holds b 12 (counterWords (c + 1)) := by
  refine h.congr fun k _ => ?_
  unfold partCounter
  by_cases e : k < i
  · rw [if_pos e]
  · rw [if_neg e]
    rcases hd with hd | hd
    · unfold counterWords; rw [if_neg (by omega), if_neg (by omega)]
    · exact counter_same c (by omega) hd

theorem next_spec {b : Buf W32} {c : Nat} (h : Holds b 12 (counterWords c)) : Post (next b) (fun b' => Holds b' 12 (counterWords (c + 1))) := by
  unfold next
  have h : Holds b 12 (partCounter c 0) := h.congr fun k _ => by unfold partCounter; rw [if_neg (by omega)]
  simp only [wp_bind, wp_branch, wp_pure]
  refine Post.use (part_step (by omega) (by simp) h) fun p h => ⟨fun e => ?_, fun e => part_done h.1 (Or.inr fun hd => by rw [h.2.2 hd] at e; exact absurd e (by simp))⟩
  refine Post.use (part_step (by omega) (h.2.1 e) h.1) fun p h => ⟨fun e => ?_, fun e => part_done h.1 (Or.inr fun hd => by rw [h.2.2 hd] at e; exact absurd e (by simp))⟩
  refine Post.use (part_step (by omega) (h.2.1 e) h.1) fun p h => ⟨fun e => ?_, fun e => part_done h.1 (Or.inr fun hd => by rw [h.2.2 hd] at e; exact absurd e (by simp))⟩
  refine Post.use (part_step (by omega) (h.2.1 e) h.1) fun p h => part_done h.1 (Or.inl (by omega))

/-- The static variables after `n` bytes. -/
structure At (s : State) (n : Nat) : Prop where
  inp : Holds s.inp 12 (counterWords ((n + 7) / 8))
  size : s.out.size = 8
  left : s.outleft = (8 - n % 8) % 8
  out : n % 8 ≠ 0 → Holds s.out 8 (surfOut (counterWords ((n + 7) / 8)))

theorem start_at : At start 0 where
  inp := (Holds.ofList (List.replicate 12 0) 0).congr fun i hi => by
    have h1 : counterWords ((0 + 7) / 8) i = 0 := by
      unfold counterWords; split
      · rw [show (0 + 7) / 8 = 0 by omega, Nat.zero_div]; rfl
      · rfl
    rw [h1]
    have hi : i < 12 := hi
    interval_cases i <;> rfl
  size := rfl
  left := rfl
  out := fun h => absurd rfl h

theorem randombytes_spec {s : State} {n : Nat} (h : At s n) {buf : Buf UInt8} {bo m : Nat} (hb : bo + m ≤ buf.size) :
    Post (randombytes s buf bo m) (fun p => At p.1 (n + m) ∧ Written buf p.2 bo m (fun i => surfByte (n + i))) := by
  unfold randombytes
  refine wp_forN (fun i p => At p.1 (n + i) ∧ Written buf p.2 bo i (fun i => surfByte (n + i))) ⟨h, Written.refl ..⟩ (fun i p hi h => ?_) fun _ h => h
  obtain ⟨s, b⟩ := p
  obtain ⟨h, hw⟩ := h
  simp only at h hw
  simp only [wp_bind, wp_branch, wp_pure, wp_rd, wp_wr]
  generalize hk : n + i = k at *
  have key : ∀ s' : State, Holds s'.inp 12 (counterWords (k / 8 + 1)) → Holds s'.out 8 (surfOut (counterWords (k / 8 + 1))) → s'.outleft = 8 - k % 8 →
      ∃ a, s'.out[s'.outleft - 1]? = some (some a) ∧ bo + i < Array.size b ∧ At ⟨s'.inp, s'.out, s'.outleft - 1⟩ (n + (i + 1)) ∧
        Written buf (b.setIfInBounds (bo + i) (some (toU8 a.toNat))) bo (i + 1) (fun i => surfByte (n + i)) := by
    intro s' h1 h2 h3
    have e7 : s'.outleft - 1 = 7 - k % 8 := by omega
    refine ⟨_, by rw [e7]; exact h2.2 _ (by omega), by rw [hw.1]; omega, ?_, hw.push (by omega) rfl (by rw [hk]; rfl)⟩
    rw [show n + (i + 1) = k + 1 by omega]
    refine ⟨?_, h2.1, ?_, fun _ => ?_⟩
    · rw [show (k + 1 + 7) / 8 = k / 8 + 1 by omega]; exact h1
    · show s'.outleft - 1 = _; omega
    · rw [show (k + 1 + 7) / 8 = k / 8 + 1 by omega]; exact h2
  refine ⟨fun e => ?_, fun e => ?_⟩
  · have h0 : s.outleft = 0 := by simpa using e
    have hm : k % 8 = 0 := by have := h.left; omega
    refine Post.use (next_spec h.inp) fun inp hi => Post.use (surf_spec hi h.size) fun out ho => ?_
    rw [show (k + 7) / 8 + 1 = k / 8 + 1 by omega] at hi ho
    exact key ⟨inp, out, 8⟩ hi ho (by show 8 = _; omega)
  · have h0 : s.outleft ≠ 0 := by simpa using e
    have hm : k % 8 ≠ 0 := by have := h.left; omega
    have e1 : (k + 7) / 8 = k / 8 + 1 := by omega
    have := h.left
    exact key s (e1 ▸ h.inp) (e1 ▸ h.out hm) (by omega)

end Verif.Surf

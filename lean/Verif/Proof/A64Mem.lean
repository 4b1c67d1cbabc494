import Verif.Proof.A64Sym
import Verif.Proof.Poly
import Verif.Model.A64Poly
/-! # From the state at a call to a description, and back -/
namespace Verif.A64
open Verif Model Model.A64 Spec
open Verif.Model.X86 (s16)
open Verif.X86 (nth mth Ext s16_bounds)

/-- The described vector number `j` of an array. -/
def vecOf (f : Nat → E) (j : Nat) : Vec := tab fun k => f (8 * j + k)
/-- The described vectors `j … j + n - 1` of an array. -/
def memOf (f : Nat → E) : Nat → Nat → List (Option Vec)
  | _, 0 => []
  | j, n + 1 => some (vecOf f j) :: memOf f (j + 1) n
/-- Uninitialised vectors. -/
def memNone : Nat → List (Option Vec)
  | 0 => []
  | n + 1 => none :: memNone n

/-- The general-purpose registers: `args`, unknown ones, the stack pointer. -/
def mkX : List Reg → Nat → List (Option Reg)
  | _, 0 => [some (.ptr .stk 64)]
  | [], k + 1 => none :: mkX [] k
  | a :: l, k + 1 => some a :: mkX l k
/-- The vector registers from `r` on: the variables from `b` on. -/
def mkR (b : Nat) : Nat → Nat → List (Option RV)
  | _, 0 => []
  | r, k + 1 => some (.h (tab fun j => .u (b + (8 * r + j)))) :: mkR b (r + 1) k

/-- Check the elements of a vector, the first at position `p`. -/
def chkL (f : Nat → E → Bool) : Nat → Vec → Bool
  | _, [] => true
  | p, x :: l => f p x && chkL f (p + 1) l
/-- Check the elements of `n` vectors of `c` elements, the first at position `p`. -/
def chkM (f : Nat → E → Bool) (c : Nat) : Nat → Nat → List (Option Vec) → Bool
  | 0, _, _ => true
  | n + 1, p, some x :: l => chkL f p x && chkM f c n (p + c) l
  | _ + 1, _, _ => false

/-- The registers that the calling convention preserves hold what they held: the stack pointer and the lower halves of `v8` to `v15`. -/
def chkSaved (n : Nat) (r : Res) : Bool :=
  (match nth r.X 31 with
    | some (.ptr .stk p) => decide (p = 64)
    | _ => false) && [8, 9, 10, 11, 12, 13, 14, 15].all fun i => match nth r.R i with
      | some (.h l) => [0, 1, 2, 3].all fun k => match gt l k with
        | .u j => Nat.beq j (n + (8 * i + k))
        | _ => false
      | _ => false

/-- Run a function from its call. -/
noncomputable def start (T : TagOps) (prog : List Block) (args : List Reg) (n : Nat) (w0 w1 w2 w3 b0 : List (Option Vec)) : Option Res :=
  arunB T prog 100 0 (n + 256) (mkX args 31) (mkR n 0 32) [w0, w1, w2, w3, memNone 4] [b0]

theorem nth_memOf (f : Nat → E) (n j0 j : Nat) : nth (memOf f j0 n) j = if j < n then some (vecOf f (j0 + j)) else none := by
  induction n generalizing j0 j with
  | zero => rfl
  | succ n ih =>
    cases j with
    | zero => rfl
    | succ j =>
      show nth (memOf f (j0 + 1) n) j = _
      rw [ih, show j0 + 1 + j = j0 + (j + 1) by omega]
      simp
theorem length_memOf (f : Nat → E) (n j0 : Nat) : (memOf f j0 n).length = n := by
  induction n generalizing j0 with
  | zero => rfl
  | succ n ih => simp [memOf, ih]
theorem nth_memNone (n j : Nat) : nth (memNone n) j = none := by
  induction n generalizing j with
  | zero => rfl
  | succ n ih => cases j with
    | zero => rfl
    | succ j => exact ih j
theorem length_memNone (n : Nat) : (memNone n).length = n := by
  induction n with
  | zero => rfl
  | succ n ih => simp [memNone, ih]

theorem nth_mkX {args : List Reg} {k r : Nat} {a : Reg} (h : nth (mkX args k) r = some a) : (r = k ∧ a = .ptr .stk 64) ∨ (r < k ∧ args[r]? = some a) := by
  induction k generalizing args r with
  | zero =>
    cases r with
    | zero => exact .inl ⟨rfl, (Option.some.inj (show some (Reg.ptr .stk 64) = some a by cases args <;> exact h)).symm⟩
    | succ r => cases args <;> simp [mkX, nth] at h
  | succ k ih =>
    cases args with
    | nil =>
      cases r with
      | zero => simp [mkX, nth] at h
      | succ r => rcases ih (r := r) (args := []) h with h | h
                  · exact .inl ⟨by omega, h.2⟩
                  · simp at h
    | cons b l =>
      cases r with
      | zero => exact .inr ⟨by omega, h⟩
      | succ r => rcases ih (r := r) (args := l) h with h | h
                  · exact .inl ⟨by omega, h.2⟩
                  · exact .inr ⟨by omega, by simpa using h.2⟩
theorem nth_mkR {b r0 k r : Nat} {l : RV} (h : nth (mkR b r0 k) r = some l) : r < k ∧ l = .h (tab fun j => .u (b + (8 * (r0 + r) + j))) := by
  induction k generalizing r0 r with
  | zero => simp [mkR, nth] at h
  | succ k ih =>
    cases r with
    | zero => exact ⟨by omega, (Option.some.inj h).symm⟩
    | succ r =>
      obtain ⟨h1, h2⟩ := ih (r0 := r0 + 1) (r := r) h
      exact ⟨by omega, by rw [h2, show r0 + 1 + r = r0 + (r + 1) by omega]⟩

theorem chkL_get {f : Nat → E → Bool} {p : Nat} {l : Vec} (h : chkL f p l = true) {k : Nat} (hk : k < l.length) : f (p + k) (gt l k) = true := by
  induction l generalizing p k with
  | nil => simp at hk
  | cons x l ih =>
    simp only [chkL, Bool.and_eq_true] at h
    cases k with
    | zero => exact h.1
    | succ k =>
      have := ih h.2 (k := k) (by simpa using hk)
      rwa [show p + 1 + k = p + (k + 1) by omega] at this

theorem chkM_get {f : Nat → E → Bool} {c n p : Nat} {l : List (Option Vec)} (h : chkM f c n p l = true) {j : Nat} (hj : j < n) : ∃ x, nth l j = some x ∧ chkL f (p + c * j) x = true := by
  induction n generalizing p l j with
  | zero => omega
  | succ n ih =>
    match l with
    | [] => simp [chkM] at h
    | none :: l => simp [chkM] at h
    | some x :: l =>
      simp only [chkM, Bool.and_eq_true] at h
      cases j with
      | zero => exact ⟨x, rfl, h.1⟩
      | succ j =>
        obtain ⟨y, h1, h2⟩ := ih h.2 (j := j) (by omega)
        exact ⟨y, h1, by rwa [show p + c + c * j = p + c * (j + 1) by ring] at h2⟩

variable {Val : Nat → Zq} {e e' : Nat → Int} {n n' : Nat} {F : Prop}

/-- An object fits a list of described vectors. -/
def RelO (Val : Nat → Zq) (e : Nat → Int) (n : Nat) (b : Buf Int) (w : List (Option Vec)) : Prop :=
  8 * w.length ≤ b.size ∧ ∀ j l, nth w j = some l → ∃ f, RelH Val e n l f ∧ ∀ k, k < 8 → b[8 * j + k]? = some (some (f k))

theorem RelO.ext {b : Buf Int} {w : List (Option Vec)} (h : RelO Val e n b w) (hx : Ext n n' e e') : RelO Val e' n' b w :=
  ⟨h.1, fun j l hl => by obtain ⟨f, h1, h2⟩ := h.2 j l hl; exact ⟨f, h1.ext hx, h2⟩⟩
theorem RelO.none {b : Buf Int} {c : Nat} (h : 8 * c ≤ b.size) : RelO Val e n b (memNone c) :=
  ⟨by rw [length_memNone]; exact h, fun j l hl => by rw [nth_memNone] at hl; cases hl⟩
theorem RelO.nil {b : Buf Int} : RelO Val e n b [] := ⟨by simp, fun j l hl => by simp [nth] at hl⟩
theorem RelO.of {b : Buf Int} {c : Nat} {f : Nat → E} (hs : b.size = 8 * c)
    (h : ∀ i, i < 8 * c → Good Val e n (f i) ∧ b[i]? = some (some ((f i).eval e)) ∧ -32768 ≤ (f i).eval e ∧ (f i).eval e ≤ 32767) : RelO Val e n b (memOf f 0 c) := by
  refine ⟨by rw [length_memOf, hs], fun j l hl => ?_⟩
  rw [nth_memOf] at hl
  split at hl <;> [skip; cases hl]
  rename_i hj
  cases Option.some.inj hl
  refine ⟨fun k => (f (8 * j + k)).eval e, relH_tab fun k hk => ?_, fun k hk => (h (8 * j + k) (by omega)).2.1⟩
  rw [Nat.zero_add]
  exact ⟨(h _ (by omega)).1, rfl, (h _ (by omega)).2.2⟩

theorem run_spec {T : TagOps} (hT : T.Sound Val) {prog : List Block} {args : List Reg} {w0 w1 w2 w3 b0 : List (Option Vec)} {r : Res} (hr : start T prog args n w0 w1 w2 w3 b0 = some r)
    (hargs : args.length ≤ 31) {g : Entry} {m : Obj → Buf Int} {b : Obj → Buf UInt8} (h0 : RelO Val e n (m .a0) w0) (h1 : RelO Val e n (m .a1) w1) (h2 : RelO Val e n (m .a2) w2)
    (h3 : RelO Val e n (m .a3) w3) {c : Nat} (hb0 : b0 = memNone c) (hb : 24 * c ≤ (b .a0).size) :
    PostF F (run prog (call g args m b)) (fun s' => ∃ e', Ext n r.n e e' ∧ Rel Val e' r.n (fun o => ((call g args m b).m o).size) (fun o => (b o).size) r.X r.R r.W r.B s' ∧
      (chkSaved n r = true → s'.x 31 = .ptr .stk 64 ∧ ∀ i k, 8 ≤ i ∧ i < 16 → k < 4 → s'.v i k = s16 (g.v i k))) := by
  let e2 : Nat → Int := fun i => if i < n then e i else s16 (g.v ((i - n) / 8) ((i - n) % 8))
  have hx : Ext n (n + 256) e e2 := ⟨by omega, fun i hi => if_pos hi⟩
  have hrel : Rel Val e2 (n + 256) (fun o => ((call g args m b).m o).size) (fun o => (b o).size) (mkX args 31) (mkR n 0 32) [w0, w1, w2, w3, memNone 4] [b0] (call g args m b) := by
    have hn : RelO Val e2 (n + 256) ((call g args m b).m .stk) (memNone 4) := RelO.none (by simp [call])
    refine ⟨fun i a hi => ?_, fun i l hl => ?_, fun o => ?_, fun o => rfl, fun o => ?_, fun o j l hl => ?_, fun o => rfl, fun o => ?_⟩
    · rcases nth_mkX hi with ⟨rfl, rfl⟩ | ⟨hi, ha⟩
      · rfl
      · show (if i = 31 then _ else _) = _
        rw [if_neg (by omega), ha]; rfl
    · obtain ⟨hi, rfl⟩ := nth_mkR hl
      refine relH_tab fun k hk => ⟨(show n + (8 * (0 + i) + k) < n + 256 by omega), ?_, s16_bounds _⟩
      show (if n + (8 * (0 + i) + k) < n then _ else s16 (g.v ((n + (8 * (0 + i) + k) - n) / 8) ((n + (8 * (0 + i) + k) - n) % 8))) = s16 (g.v i k)
      rw [if_neg (by omega), show (n + (8 * (0 + i) + k) - n) / 8 = i by omega, show (n + (8 * (0 + i) + k) - n) % 8 = k by omega]
    · cases o with
      | a0 => exact (h0.ext hx).2
      | a1 => exact (h1.ext hx).2
      | a2 => exact (h2.ext hx).2
      | a3 => exact (h3.ext hx).2
      | stk => exact hn.2
      | tab t => intro j l hl; simp [idx, mth, nth] at hl
    · cases o with
      | a0 => exact (h0.ext hx).1
      | a1 => exact (h1.ext hx).1
      | a2 => exact (h2.ext hx).1
      | a3 => exact (h3.ext hx).1
      | stk => exact hn.1
      | tab t => simp [idx, mth]
    · subst hb0
      cases o with
      | a0 => rw [show mth [memNone c] (idx .a0) = memNone c from rfl, nth_memNone] at hl; cases hl
      | _ => simp [idx, mth, nth] at hl
    · subst hb0
      cases o with
      | a0 => rw [show mth [memNone c] (idx .a0) = memNone c from rfl, length_memNone]; exact hb
      | _ => simp [idx, mth]
  refine PostF.mono (arunB_sound hT hrel hr) fun s' ⟨e', g1, g2⟩ => ⟨e', hx.trans g1, g2, fun hs => ?_⟩
  simp only [chkSaved, Bool.and_eq_true, List.all_eq_true] at hs
  refine ⟨?_, fun i k hi hk => ?_⟩
  · have := hs.1
    split at this <;> [skip; cases this]
    rename_i p hp
    rw [g2.x _ _ hp, of_decide_eq_true this]
  · have hi' := hs.2 i (by simp; omega)
    split at hi' <;> [skip; cases hi']
    rename_i l hl
    have hk' := (List.all_eq_true.mp hi') k (by simp; omega)
    split at hk' <;> [skip; cases hk']
    rename_i j hj
    obtain rfl := Nat.eq_of_beq_eq_true hk'
    have := ((g2.reg _ _ hl).2 k (by omega)).2.1
    rw [hj] at this
    rw [← this]
    show e' (n + (8 * i + k)) = _
    rw [g1.2 _ (by omega)]
    show (if n + (8 * i + k) < n then _ else s16 (g.v ((n + (8 * i + k) - n) / 8) ((n + (8 * i + k) - n) % 8))) = s16 (g.v i k)
    rw [if_neg (by omega), show (n + (8 * i + k) - n) / 8 = i by omega, show (n + (8 * i + k) - n) % 8 = k by omega]

theorem Rel.out {sz bz : Obj → Nat} {X : List (Option Reg)} {R : List (Option RV)} {W B : List (List (Option Vec))} {s : St} (h : Rel Val e n sz bz X R W B s) {o : Obj} {c : Nat}
    {f : Nat → E → Bool} (hc : chkM f 8 c 0 (mth W (idx o)) = true) {i : Nat} (hi : i < 8 * c) :
    ∃ x, f i x = true ∧ Good Val e n x ∧ (s.m o)[i]? = some (some (x.eval e)) ∧ -32768 ≤ x.eval e ∧ x.eval e ≤ 32767 := by
  obtain ⟨x, h1, h2⟩ := chkM_get hc (j := i / 8) (by omega)
  obtain ⟨g, h3, h4⟩ := h.m o _ _ h1
  have h5 := h3.2 (i % 8) (by omega)
  refine ⟨gt x (i % 8), ?_, h5.1, ?_, ?_⟩
  · have := chkL_get h2 (k := i % 8) (by rw [h3.1]; omega)
    rwa [show 0 + 8 * (i / 8) + i % 8 = i by omega] at this
  · rw [h5.2.1]
    have := h4 (i % 8) (by omega)
    rwa [show 8 * (i / 8) + i % 8 = i by omega] at this
  · rw [h5.2.1]; exact h5.2.2

theorem Rel.outB {sz bz : Obj → Nat} {X : List (Option Reg)} {R : List (Option RV)} {W B : List (List (Option Vec))} {s : St} (h : Rel Val e n sz bz X R W B s) {o : Obj} {c : Nat}
    {f : Nat → E → Bool} (hc : chkM f 24 c 0 (mth B (idx o)) = true) {i : Nat} (hi : i < 24 * c) :
    ∃ x, f i x = true ∧ Good Val e n x ∧ ∃ y : UInt8, (s.b o)[i]? = some (some y) ∧ x.eval e = y.toNat := by
  obtain ⟨x, h1, h2⟩ := chkM_get hc (j := i / 24) (by omega)
  obtain ⟨h3, h4⟩ := h.b o _ _ h1
  have h5 := h4 (i % 24) (by omega)
  refine ⟨gt x (i % 24), ?_, h5.1, ?_⟩
  · have := chkL_get h2 (k := i % 24) (by rw [h3]; omega)
    rwa [show 0 + 24 * (i / 24) + i % 24 = i by omega] at this
  · have := h5.2
    rwa [show 24 * (i / 24) + i % 24 = i by omega] at this

end Verif.A64

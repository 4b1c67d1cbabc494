import Verif.Proof.X86Sym
import Verif.Proof.Poly
import Verif.Model.X86Poly
/-! # From memory to descriptions and back -/
namespace Verif.X86
open Verif Model Model.X86 Spec

/-- The described vector number `j` of an array. -/
def vecOf (f : Nat → E) (j : Nat) : Vec := tab fun k => f (16 * j + k)
/-- The described vectors `j … j + n - 1` of an array. -/
def memOf (f : Nat → E) : Nat → Nat → List (Option Vec)
  | _, 0 => []
  | j, n + 1 => some (vecOf f j) :: memOf f (j + 1) n
/-- Uninitialised vectors. -/
def memNone : Nat → List (Option Vec)
  | 0 => []
  | n + 1 => none :: memNone n
/-- A table of constants. -/
def qv : List Int → List (Option Vec)
  | a0 :: a1 :: a2 :: a3 :: a4 :: a5 :: a6 :: a7 :: a8 :: a9 :: a10 :: a11 :: a12 :: a13 :: a14 :: a15 :: l =>
    some [.c a0, .c a1, .c a2, .c a3, .c a4, .c a5, .c a6, .c a7, .c a8, .c a9, .c a10, .c a11, .c a12, .c a13, .c a14, .c a15] :: qv l
  | _ => []
/-- The described table `qdata`. -/
def qvec : List (Option Vec) := qv qdataList
/-- Unknown registers. -/
def regs0 : List (Option Vec) := [none, none, none, none, none, none, none, none, none, none, none, none, none, none, none, none]

/-- Check the elements of a vector, the first at position `p`. -/
def chkL (f : Nat → E → Bool) : Nat → Vec → Bool
  | _, [] => true
  | p, x :: l => f p x && chkL f (p + 1) l
/-- Check the elements of `n` vectors, the first at position `p`. -/
def chkM (f : Nat → E → Bool) : Nat → Nat → List (Option Vec) → Bool
  | 0, _, _ => true
  | n + 1, p, some x :: l => chkL f p x && chkM f n (p + 16) l
  | _ + 1, _, _ => false

theorem nth_memOf (f : Nat → E) (n j0 j : Nat) : nth (memOf f j0 n) j = if j < n then some (vecOf f (j0 + j)) else none := by
  induction n generalizing j0 j with
  | zero => rfl
  | succ n ih =>
    cases j with
    | zero => rfl
    | succ j =>
      show nth (memOf f (j0 + 1) n) j = _
      rw [ih, show j0 + 1 + j = j0 + (j + 1) by omega]
      simp
theorem length_memOf (f : Nat → E) (n j0 : Nat) : (memOf f j0 n).length = n := by
  induction n generalizing j0 with
  | zero => rfl
  | succ n ih => simp [memOf, ih]
theorem nth_memNone (n j : Nat) : nth (memNone n) j = none := by
  induction n generalizing j with
  | zero => rfl
  | succ n ih => cases j with
    | zero => rfl
    | succ j => exact ih j
theorem length_memNone (n : Nat) : (memNone n).length = n := by
  induction n with
  | zero => rfl
  | succ n ih => simp [memNone, ih]
theorem nth_regs0 (r : Nat) : nth regs0 r = none := by
  rcases r with _ | _ | _ | _ | _ | _ | _ | _ | _ | _ | _ | _ | _ | _ | _ | _ | r <;> rfl

/-- The table has only constants in range. -/
def tableOk : List Int → Nat → List (Option Vec) → Bool
  | _, _, [] => true
  | q, p, none :: l => tableOk q (p + 16) l
  | q, p, some x :: l => Nat.beq x.length 16 && chkL (fun i x => match x with
    | .c v => decide (q[i]? = some v) && decide (-32768 ≤ v) && decide (v ≤ 32767)
    | _ => false) p x && tableOk q (p + 16) l

theorem chkL_get {f : Nat → E → Bool} {p : Nat} {l : Vec} (h : chkL f p l = true) {k : Nat} (hk : k < l.length) : f (p + k) (gt l k) = true := by
  induction l generalizing p k with
  | nil => simp at hk
  | cons x l ih =>
    simp only [chkL, Bool.and_eq_true] at h
    cases k with
    | zero => exact h.1
    | succ k =>
      have := ih h.2 (k := k) (by simpa using hk)
      rwa [show p + 1 + k = p + (k + 1) by omega] at this

theorem chkM_get {f : Nat → E → Bool} {n p : Nat} {l : List (Option Vec)} (h : chkM f n p l = true) {j : Nat} (hj : j < n) : ∃ x, nth l j = some x ∧ chkL f (p + 16 * j) x = true := by
  induction n generalizing p l j with
  | zero => omega
  | succ n ih =>
    match l with
    | [] => simp [chkM] at h
    | none :: l => simp [chkM] at h
    | some x :: l =>
      simp only [chkM, Bool.and_eq_true] at h
      cases j with
      | zero => exact ⟨x, rfl, h.1⟩
      | succ j =>
        obtain ⟨y, h1, h2⟩ := ih h.2 (j := j) (by omega)
        exact ⟨y, h1, by rwa [show p + 16 + 16 * j = p + 16 * (j + 1) by omega] at h2⟩

theorem tableOk_get {q : List Int} {p : Nat} {l : List (Option Vec)} (h : tableOk q p l = true) {j : Nat} {x : Vec} (hx : nth l j = some x) :
    x.length = 16 ∧ ∀ k, k < 16 → ∃ v, gt x k = .c v ∧ q[p + 16 * j + k]? = some v ∧ -32768 ≤ v ∧ v ≤ 32767 := by
  induction l generalizing p j with
  | nil => simp [nth] at hx
  | cons y l ih =>
    cases j with
    | zero =>
      cases y with
      | none => simp [nth] at hx
      | some y =>
        cases Option.some.inj (show some y = some x from hx)
        simp only [tableOk, Bool.and_eq_true] at h
        have hl := Nat.eq_of_beq_eq_true h.1.1
        refine ⟨hl, fun k hk => ?_⟩
        have := chkL_get h.1.2 (k := k) (by omega)
        split at this
        · rename_i v hv
          simp only [Bool.and_eq_true, decide_eq_true_eq] at this
          exact ⟨v, hv, by simpa using this.1.1, this.1.2, this.2⟩
        · cases this
    | succ j =>
      have h' : tableOk q (p + 16) l = true := by
        cases y with
        | none => exact h
        | some y => simp only [tableOk, Bool.and_eq_true] at h; exact h.2
      obtain ⟨h1, h2⟩ := ih h' (j := j) hx
      refine ⟨h1, fun k hk => ?_⟩
      rw [show p + 16 * (j + 1) + k = p + 16 + 16 * j + k by omega]
      exact h2 k hk

theorem qvec_ok : tableOk qdataList 0 qvec = true := by decide +kernel
theorem qvec_length : qvec.length = 40 := by decide +kernel
theorem qdata_size : qdata.size = 640 := by decide +kernel

variable {Val : Nat → Zq} {e : Nat → Int} {n : Nat}

/-- An object of 16-bit elements fits its description. -/
def RelW (Val : Nat → Zq) (e : Nat → Int) (n : Nat) (D : List (Option Vec)) (b : Buf Int) : Prop :=
  (∀ j l, nth D j = some l → ∃ f, RelV Val e n l f ∧ ∀ k, k < 16 → b[16 * j + k]? = some (some (f k))) ∧ 16 * D.length ≤ b.size
/-- An object of bytes fits its description. -/
def RelB (Val : Nat → Zq) (e : Nat → Int) (n : Nat) (D : List (Option Vec)) (b : Buf UInt8) : Prop :=
  (∀ j l, nth D j = some l → ∃ f, RelV Val e n l f ∧ ∀ k, k < 16 → ∃ x y,
    b[32 * j + 2 * k]? = some (some x) ∧ b[32 * j + 2 * k + 1]? = some (some y) ∧ f k = s16 (x.toNat + 256 * y.toNat)) ∧ 32 * D.length ≤ b.size

theorem RelW.nil (b : Buf Int) : RelW Val e n [] b := ⟨fun j l h => (by cases j <;> cases h), (by simp)⟩
theorem RelB.nil (b : Buf UInt8) : RelB Val e n [] b := ⟨fun j l h => (by cases j <;> cases h), (by simp)⟩

theorem RelW.memNone {m : Nat} {b : Buf Int} (h : 16 * m ≤ b.size) : RelW Val e n (X86.memNone m) b :=
  ⟨fun j l h => (by rw [nth_memNone] at h; cases h), (by rw [length_memNone]; exact h)⟩
theorem RelB.memNone {m : Nat} {b : Buf UInt8} (h : 32 * m ≤ b.size) : RelB Val e n (X86.memNone m) b :=
  ⟨fun j l h => (by rw [nth_memNone] at h; cases h), (by rw [length_memNone]; exact h)⟩

theorem RelW.table : RelW Val e n qvec qdata := by
  refine ⟨fun j l hl => ?_, by rw [qvec_length, qdata_size]⟩
  obtain ⟨h1, h2⟩ := tableOk_get qvec_ok hl
  refine ⟨fun k => (gt l k).eval e, ⟨h1, fun k hk => ⟨?_, rfl⟩⟩, fun k hk => ?_⟩
  · obtain ⟨v, h3, -, h4, h5⟩ := h2 k hk
    rw [h3]; exact ⟨h4, h5⟩
  · obtain ⟨v, h3, h6, -, -⟩ := h2 k hk
    beta_reduce
    rw [h3]
    show qdata[_]? = some (some v)
    unfold qdata Buf.ofList
    rw [Nat.zero_add] at h6
    simp [h6]

theorem RelW.memOf {g : Nat → E} {m : Nat} {b : Buf Int} (hsz : 16 * m ≤ b.size)
    (h : ∀ i, i < 16 * m → Good Val e n (g i) ∧ b[i]? = some (some ((g i).eval e))) : RelW Val e n (memOf g 0 m) b := by
  refine ⟨fun j l hl => ?_, by rw [length_memOf]; exact hsz⟩
  rw [nth_memOf, Nat.zero_add] at hl
  split at hl <;> [skip; cases hl]
  rename_i hj
  cases Option.some.inj hl
  exact ⟨fun k => (g (16 * j + k)).eval e, RelV.tab fun k hk => ⟨(h _ (by omega)).1, rfl⟩, fun k hk => (h _ (by omega)).2⟩

theorem RelB.memOf {g : Nat → E} {m : Nat} {b : Buf UInt8} (hsz : 32 * m ≤ b.size)
    (h : ∀ i, i < 16 * m → Good Val e n (g i) ∧ ∃ x y, b[2 * i]? = some (some x) ∧ b[2 * i + 1]? = some (some y) ∧ (g i).eval e = s16 (x.toNat + 256 * y.toNat)) :
    RelB Val e n (X86.memOf g 0 m) b := by
  refine ⟨fun j l hl => ?_, by rw [length_memOf]; exact hsz⟩
  rw [nth_memOf, Nat.zero_add] at hl
  split at hl <;> [skip; cases hl]
  rename_i hj
  cases Option.some.inj hl
  refine ⟨fun k => (g (16 * j + k)).eval e, RelV.tab fun k hk => ⟨(h _ (by omega)).1, rfl⟩, fun k hk => ?_⟩
  have := (h (16 * j + k) (by omega)).2
  rwa [show 2 * (16 * j + k) = 32 * j + 2 * k by omega] at this

/-- The state at a call fits the descriptions of its objects. -/
theorem Rel.init {W B : List (List (Option Vec))} {s : St} (hW : ∀ p, RelW Val e n (mth W (idx p)) (s.w p)) (hB : ∀ p, RelB Val e n (mth B (idx p)) (s.b p)) :
    Rel Val e n regs0 W B s where
  reg r l hl := by rw [nth_regs0] at hl; cases hl
  w p := (hW p).1
  wsz p := (hW p).2
  b p := (hB p).1
  bsz p := (hB p).2

/-- Read the result in an object of 16-bit elements. -/
theorem Rel.out {R : List (Option Vec)} {W B : List (List (Option Vec))} {s : St} (h : Rel Val e n R W B s) {f : Nat → E → Bool} {m : Nat} {p : Ptr}
    (hc : chkM f m 0 (mth W (idx p)) = true) {i : Nat} (hi : i < 16 * m) : ∃ x, f i x = true ∧ Good Val e n x ∧ (s.w p)[i]? = some (some (x.eval e)) := by
  obtain ⟨l, h1, h2⟩ := chkM_get hc (j := i / 16) (by omega)
  obtain ⟨g, h3, h4⟩ := h.w p _ _ h1
  refine ⟨gt l (i % 16), ?_, (h3.2 _ (by omega)).1, ?_⟩
  · have := chkL_get h2 (k := i % 16) (by rw [h3.1]; omega)
    rwa [show 0 + 16 * (i / 16) + i % 16 = i by omega] at this
  · rw [(h3.2 _ (by omega)).2]
    have := h4 (i % 16) (by omega)
    rwa [show 16 * (i / 16) + i % 16 = i by omega] at this

/-- Read the result in an object of bytes. -/
theorem Rel.outB {R : List (Option Vec)} {W B : List (List (Option Vec))} {s : St} (h : Rel Val e n R W B s) {f : Nat → E → Bool} {m : Nat} {p : Ptr}
    (hc : chkM f m 0 (mth B (idx p)) = true) {i : Nat} (hi : i < 16 * m) : ∃ x, f i x = true ∧ Good Val e n x ∧ ∃ u v,
      (s.b p)[2 * i]? = some (some u) ∧ (s.b p)[2 * i + 1]? = some (some v) ∧ x.eval e = s16 (u.toNat + 256 * v.toNat) := by
  obtain ⟨l, h1, h2⟩ := chkM_get hc (j := i / 16) (by omega)
  obtain ⟨g, h3, h4⟩ := h.b p _ _ h1
  refine ⟨gt l (i % 16), ?_, (h3.2 _ (by omega)).1, ?_⟩
  · have := chkL_get h2 (k := i % 16) (by rw [h3.1]; omega)
    rwa [show 0 + 16 * (i / 16) + i % 16 = i by omega] at this
  · rw [(h3.2 _ (by omega)).2]
    have := h4 (i % 16) (by omega)
    rwa [show 32 * (i / 16) + 2 * (i % 16) = 2 * i by omega] at this

instance : Inhabited E := ⟨.c 0⟩

/-! ## Functions of one polynomial -/

/-- Run a function on the polynomial described by `g` and check the result. -/
noncomputable def chkP (T : TagOps) (prog : List Ins) (n : Nat) (g : Nat → E) (f : Nat → E → Bool) : Bool :=
  match arun T prog n regs0 [memOf g 0 16, qvec] [] with
  | none => false
  | some r => chkM f 16 0 (mth r.W 0)

theorem runP_spec {T : TagOps} (hT : T.Sound Val) {prog : List Ins} {g : Nat → E} {f : Nat → E → Bool} (hc : chkP T prog n g f = true) {ymm : Nat → Ymm} {p : Model.Poly}
    {u : Nat → Int} (h : Holds p 256 u) (hg : ∀ i, i < 256 → Good Val e n (g i) ∧ (g i).eval e = u i) :
    Post (runP prog ymm p) (fun p' => ∃ e' n' v, Ext n n' e e' ∧ Holds p' 256 v ∧ ∀ i, i < 256 → ∃ x, f i x = true ∧ Good Val e' n' x ∧ x.eval e' = v i) := by
  unfold chkP at hc
  split at hc
  · cases hc
  rename_i r hr
  have hrel : Rel Val e n regs0 [memOf g 0 16, qvec] [] (callP ymm p) := by
    refine Rel.init (fun q => ?_) (fun q => by cases q <;> exact RelB.nil _)
    cases q with
    | rdi => exact RelW.memOf (by rw [show (callP ymm p).w .rdi = p from rfl, h.1]) fun i hi => ⟨(hg i hi).1, (by rw [(hg i hi).2]; exact h.2 i hi)⟩
    | rsi => exact RelW.table
    | _ => exact RelW.nil _
  unfold runP
  simp only [wp_bind, wp_pure]
  refine PostF.mono (arun_sound hT hrel hr) fun s' ⟨e', hx, hr', hsz, _⟩ => ?_
  have ho := fun i (hi : i < 256) => hr'.out (p := .rdi) hc (i := i) hi
  choose! x h1 h2 h3 using ho
  exact ⟨e', r.n, fun i => E.eval e' (x i), hx, ⟨(by rw [hsz]; exact h.1), h3⟩, fun i hi => ⟨x i, h1 i hi, h2 i hi, rfl⟩⟩

end Verif.X86

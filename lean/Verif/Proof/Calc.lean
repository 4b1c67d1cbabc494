import Verif.Sem
/-! # Program calculus: weakest preconditions for `M` -/
namespace Verif

/-- `PostF F p Q`: the run `p` ends normally with a value satisfying `Q`, or it runs out of loop budget and `F` holds.
Every other error is excluded. -/
def PostF {α : Type} (F : Prop) (p : M α) (Q : α → Prop) : Prop :=
  match p with
  | .ok (a, _) => Q a
  | .error .fuel => F
  | .error _ => False

/-- The run ends normally with a value satisfying `Q`. -/
abbrev Post {α : Type} (p : M α) (Q : α → Prop) : Prop := PostF False p Q

variable {α β σ : Type} {F : Prop} {Q : α → Prop}

theorem Post.elim {p : M α} (h : Post p Q) : ∃ a t, p = Except.ok (a, t) ∧ Q a := by
  unfold Post PostF at h
  split at h
  · exact ⟨_, _, rfl, h⟩
  · exact h.elim
  · exact h.elim

theorem Post.intro {p : M α} {a : α} {t : List Ev} (h : p = Except.ok (a, t)) (hq : Q a) : PostF F p Q := by
  subst h; exact hq

theorem PostF.mono {p : M α} {Q' : α → Prop} (h : PostF F p Q) (hm : ∀ a, Q a → Q' a) : PostF F p Q' := by
  unfold PostF at *
  split at h <;> simp_all

theorem PostF.monoF {p : M α} {F' : Prop} (h : PostF F p Q) (hf : F → F') : PostF F' p Q := by
  unfold PostF at *
  split at h <;> simp_all

theorem Post.toF {p : M α} (h : Post p Q) : PostF F p Q := PostF.monoF h False.elim

/-- Use a specification of the callee. -/
theorem Post.use {p : M α} {Q' : α → Prop} (h : Post p Q) (hm : ∀ a, Q a → Q' a) : PostF F p Q' :=
  PostF.mono h.toF hm

@[simp] theorem wp_bind {p : M β} {f : β → M α} :
    PostF F (p >>= f) Q ↔ PostF F p (fun a => PostF F (f a) Q) := by
  show PostF F (M.bnd p f) Q ↔ _
  unfold M.bnd PostF
  cases p with
  | error e => cases e <;> simp
  | ok v =>
    obtain ⟨a, t⟩ := v
    simp only
    cases f a with
    | error e => cases e <;> simp
    | ok w => simp

@[simp] theorem wp_pure {a : α} : PostF F (pure a : M α) Q ↔ Q a := Iff.rfl
@[simp] theorem wp_ret {a : α} : PostF F (M.ret a) Q ↔ Q a := Iff.rfl
@[simp] theorem wp_emit {e : Ev} {Q : Unit → Prop} : PostF F (M.emit e) Q ↔ Q () := Iff.rfl

@[simp] theorem wp_rd {b : Buf α} {i : Nat} : PostF F (rd b i) Q ↔ ∃ v, b[i]? = some (some v) ∧ Q v := by
  unfold rd
  split <;> rename_i h <;> simp [h, PostF, M.fail]

@[simp] theorem wp_wr {b : Buf β} {i : Nat} {v : β} {Q : Buf β → Prop} :
    PostF F (wr b i v) Q ↔ i < b.size ∧ Q (b.setIfInBounds i (some v)) := by
  unfold wr
  by_cases h : i < b.size <;> simp [h, PostF, M.fail]

@[simp] theorem wp_branch {c : Bool} {p q : M α} :
    PostF F (branch c p q) Q ↔ ((c = true → PostF F p Q) ∧ (c = false → PostF F q Q)) := by
  unfold branch
  cases c <;> simp

@[simp] theorem wp_andM {a b : Bool} {Q : Bool → Prop} : PostF F (andM a b) Q ↔ Q (a && b) := by
  unfold andM; cases a <;> simp

@[simp] theorem wp_assertM {c : Bool} {Q : Unit → Prop} : PostF F (assertM c) Q ↔ c = true ∧ Q () := by
  unfold assertM; cases c <;> simp [PostF, M.fail, M.ret]

@[simp] theorem wp_divM {a b : Nat} {Q : Nat → Prop} : PostF F (divM a b) Q ↔ b ≠ 0 ∧ Q (a / b) := by
  unfold divM; by_cases h : b = 0 <;> simp [h, PostF, M.fail]

@[simp] theorem wp_modM {a b : Nat} {Q : Nat → Prop} : PostF F (modM a b) Q ↔ b ≠ 0 ∧ Q (a % b) := by
  unfold modM; by_cases h : b = 0 <;> simp [h, PostF, M.fail]

@[simp] theorem wp_i16 {x : Int} {Q : Int → Prop} :
    PostF F (i16 x) Q ↔ (-32768 ≤ x ∧ x ≤ 32767) ∧ Q x := by
  unfold i16; split <;> rename_i h
  · simp [h]
  · simp [PostF, M.fail, h]

@[simp] theorem wp_i32 {x : Int} {Q : Int → Prop} :
    PostF F (i32 x) Q ↔ (-2147483648 ≤ x ∧ x ≤ 2147483647) ∧ Q x := by
  unfold i32; split <;> rename_i h
  · simp [h]
  · simp [PostF, M.fail, h]

@[simp] theorem wp_vget {v : Array α} {i : Nat} : PostF F (vget v i) Q ↔ ∃ b, v[i]? = some b ∧ Q b := by
  unfold vget; split <;> rename_i h <;> simp [h, PostF, M.fail, M.ret]

@[simp] theorem wp_vset {v : Array β} {i : Nat} {b : β} {Q : Array β → Prop} :
    PostF F (vset v i b) Q ↔ i < v.size ∧ Q (v.setIfInBounds i b) := by
  unfold vset; split <;> rename_i h <;> simp [h, PostF, M.fail, M.ret]

/-- Loop rule for `for`. -/
theorem wp_forFrom {lo n : Nat} {s : σ} {body : Nat → σ → M σ} {Q : σ → Prop} (I : Nat → σ → Prop)
    (h0 : I lo s)
    (hs : ∀ i s, lo ≤ i → i < lo + n → I i s → PostF F (body i s) (I (i + 1)))
    (hQ : ∀ s, I (lo + n) s → Q s) : PostF F (forFrom lo n s body) Q := by
  induction n generalizing lo s with
  | zero => unfold forFrom; simp; exact hQ s h0
  | succ n ih =>
    unfold forFrom
    simp only [wp_bind, wp_emit]
    refine PostF.mono (hs lo s (Nat.le_refl _) (by omega) h0) fun s' h' => ?_
    exact ih h' (fun i s hi hn => hs i s (by omega) (by omega)) (fun s h => hQ s (by rw [show lo + (n+1) = lo + 1 + n by omega]; exact h))

theorem wp_forN {n : Nat} {s : σ} {body : Nat → σ → M σ} {Q : σ → Prop} (I : Nat → σ → Prop)
    (h0 : I 0 s)
    (hs : ∀ i s, i < n → I i s → PostF F (body i s) (I (i + 1)))
    (hQ : ∀ s, I n s → Q s) : PostF F (forFrom 0 n s body) Q :=
  wp_forFrom I h0 (fun i s _ hi => hs i s (by omega)) (fun s h => hQ s (by simpa using h))

/-- Loop rule for `while` loops whose budget is provably sufficient. -/
theorem wp_while {fuel : Nat} {s : σ} {cond : σ → M Bool} {body : σ → M σ} {Q : σ → Prop}
    (I : σ → Prop) (μ : σ → Nat) (C : σ → Bool)
    (h0 : I s) (hμ : μ s ≤ fuel)
    (hc : ∀ s, I s → PostF F (cond s) (fun c => c = C s))
    (hs : ∀ s, I s → C s = true → 0 < μ s ∧ PostF F (body s) (fun s' => I s' ∧ μ s' < μ s))
    (hQ : ∀ s, I s → C s = false → Q s) : PostF F (whileM fuel cond body s) Q := by
  induction fuel generalizing s with
  | zero =>
    unfold whileM
    simp only [wp_bind]
    refine PostF.mono (hc s h0) fun c hcc => ?_
    subst hcc
    simp only [wp_branch, wp_pure]
    refine ⟨fun h => ?_, fun h => hQ s h0 h⟩
    have := (hs s h0 h).1
    omega
  | succ f ih =>
    unfold whileM
    simp only [wp_bind]
    refine PostF.mono (hc s h0) fun c hcc => ?_
    subst hcc
    simp only [wp_branch, wp_pure, wp_bind]
    refine ⟨fun h => ?_, fun h => hQ s h0 h⟩
    refine PostF.mono (hs s h0 h).2 fun s' hs' => ih hs'.1 (by omega)

/-- Loop rule for `while` loops with an external budget: exhausting it must imply `F`. `k` counts completed iterations. -/
theorem wp_while_fuel {fuel k0 : Nat} {s : σ} {cond : σ → M Bool} {body : σ → M σ} {Q : σ → Prop}
    (I : Nat → σ → Prop) (C : σ → Bool)
    (h0 : I k0 s)
    (hc : ∀ k s, I k s → PostF F (cond s) (fun c => c = C s))
    (hs : ∀ k s, k < k0 + fuel → I k s → C s = true → PostF F (body s) (I (k + 1)))
    (hF : ∀ s, I (k0 + fuel) s → C s = true → F)
    (hQ : ∀ k s, k ≤ k0 + fuel → I k s → C s = false → Q s) : PostF F (whileM fuel cond body s) Q := by
  induction fuel generalizing s k0 with
  | zero =>
    unfold whileM
    simp only [wp_bind]
    refine PostF.mono (hc k0 s h0) fun c hcc => ?_
    subst hcc
    simp only [wp_branch, wp_pure]
    refine ⟨fun h => ?_, fun h => hQ k0 s (Nat.le_refl _) h0 h⟩
    exact hF s h0 h
  | succ f ih =>
    unfold whileM
    simp only [wp_bind]
    refine PostF.mono (hc k0 s h0) fun c hcc => ?_
    subst hcc
    simp only [wp_branch, wp_pure, wp_bind]
    refine ⟨fun h => ?_, fun h => hQ k0 s (by omega) h0 h⟩
    refine PostF.mono (hs k0 s (by omega) h0 h) fun s' hs' => ?_
    refine ih (k0 := k0 + 1) hs' (fun k s hk => hs k s (by omega)) (fun s h => hF s ?_) (fun k s hk => hQ k s (by omega))
    rw [show k0 + (f + 1) = k0 + 1 + f by omega]; exact h

/-! ## Representation predicates -/

/-- The buffer has exactly `n` cells, all initialised, with contents `f`. -/
def Holds (b : Buf α) (n : Nat) (f : Nat → α) : Prop := b.size = n ∧ ∀ i, i < n → b[i]? = some (some (f i))

/-- The `n` cells starting at `off` are initialised with contents `f`. -/
def Seg (b : Buf α) (off n : Nat) (f : Nat → α) : Prop := ∀ i, i < n → b[off + i]? = some (some (f i))

/-- `b'` is `b` with exactly the `n` cells from `off` overwritten by `g`. -/
def Written (b b' : Buf α) (off n : Nat) (g : Nat → α) : Prop :=
  b'.size = b.size ∧ (∀ i, i < n → b'[off + i]? = some (some (g i))) ∧
    ∀ j, (j < off ∨ off + n ≤ j) → b'[j]? = b[j]?

theorem Holds.size {b : Buf α} {n f} (h : Holds b n f) : b.size = n := h.1
theorem Holds.get {b : Buf α} {n f} (h : Holds b n f) {i : Nat} (hi : i < n) : b[i]? = some (some (f i)) := h.2 i hi
theorem Holds.seg {b : Buf α} {n f} (h : Holds b n f) : Seg b 0 n f := fun i hi => by
  rw [Nat.zero_add]; exact h.2 i hi
theorem Holds.congr {b : Buf α} {n f g} (h : Holds b n f) (hfg : ∀ i, i < n → f i = g i) : Holds b n g :=
  ⟨h.1, fun i hi => by rw [h.2 i hi, hfg i hi]⟩
theorem Seg.congr {b : Buf α} {off n f g} (h : Seg b off n f) (hfg : ∀ i, i < n → f i = g i) : Seg b off n g :=
  fun i hi => by rw [h i hi, hfg i hi]
theorem Seg.get {b : Buf α} {off n f} (h : Seg b off n f) {i : Nat} (hi : i < n) : b[off + i]? = some (some (f i)) := h i hi
theorem Seg.sub {b : Buf α} {off n f} (h : Seg b off n f) (o m : Nat) (hm : o + m ≤ n) : Seg b (off + o) m (fun i => f (o + i)) :=
  fun i hi => by rw [Nat.add_assoc]; exact h (o + i) (by omega)
theorem Seg.le_size {b : Buf α} {off n f} (h : Seg b off n f) (hn : 0 < n) : off + n ≤ b.size := by
  have := h (n - 1) (by omega)
  have := (Array.getElem?_eq_some_iff.mp this).1
  omega

theorem Holds.eq_ofFn {b : Buf α} {n f} (h : Holds b n f) : b = Array.ofFn (n := n) (fun i => some (f i)) := by
  apply Array.ext_getElem?
  intro i
  by_cases hi : i < n
  · rw [h.2 i hi]; simp [hi]
  · rw [Array.getElem?_eq_none (by have := h.1; omega), Array.getElem?_eq_none (by simp; omega)]

theorem Holds.unique {b b' : Buf α} {n f} (h : Holds b n f) (h' : Holds b' n f) : b = b' :=
  h.eq_ofFn.trans h'.eq_ofFn.symm

theorem Holds.inj {b : Buf α} {n f g} (h : Holds b n f) (h' : Holds b n g) : ∀ i, i < n → f i = g i := by
  intro i hi
  have h1 := h.2 i hi
  rw [h'.2 i hi] at h1
  simpa using h1.symm

/-- One cell of a function changed. -/
def upd (f : Nat → α) (i : Nat) (v : α) : Nat → α := fun j => if j = i then v else f j

@[simp] theorem upd_same {f : Nat → α} {i v} : upd f i v i = v := by simp [upd]
theorem upd_ne {f : Nat → α} {i j v} (h : j ≠ i) : upd f i v j = f j := by simp [upd, h]

theorem Holds.set {b : Buf α} {n f} (h : Holds b n f) {i : Nat} (hi : i < n) (v : α) :
    Holds (b.setIfInBounds i (some v)) n (upd f i v) := by
  refine ⟨by simp [h.1], fun j hj => ?_⟩
  by_cases hij : j = i
  · subst hij; simp [h.1, hi]
  · rw [Array.getElem?_setIfInBounds_ne (by omega), upd_ne hij, h.2 j hj]

theorem Written.refl (b : Buf α) (off : Nat) (g : Nat → α) : Written b b off 0 g :=
  ⟨rfl, fun i hi => by omega, fun j _ => rfl⟩

theorem Written.push {b b' : Buf α} {off n : Nat} {g : Nat → α} (h : Written b b' off n g) (hb : off + n < b.size)
    {i : Nat} (hi : i = off + n) {v : α} (hv : v = g n) : Written b (b'.setIfInBounds i (some v)) off (n + 1) g := by
  subst hi hv
  refine ⟨by simp [h.1], fun j hj => ?_, fun j hj => ?_⟩
  · by_cases hjn : j = n
    · subst hjn; simp [h.1, hb]
    · rw [Array.getElem?_setIfInBounds_ne (by omega)]; exact h.2.1 j (by omega)
  · rw [Array.getElem?_setIfInBounds_ne (by omega)]; exact h.2.2 j (by omega)

theorem Written.seg {b b' : Buf α} {off n : Nat} {g : Nat → α} (h : Written b b' off n g) : Seg b' off n g := h.2.1

theorem Written.congr {b b' : Buf α} {off n : Nat} {g g' : Nat → α} (h : Written b b' off n g)
    (hg : ∀ i, i < n → g i = g' i) : Written b b' off n g' :=
  ⟨h.1, fun i hi => by rw [h.2.1 i hi, hg i hi], h.2.2⟩

/-- Consecutive writes compose. -/
theorem Written.trans {b b' b'' : Buf α} {off m n : Nat} {g g' : Nat → α} (h : Written b b' off m g)
    (h' : Written b' b'' (off + m) n g') :
    Written b b'' off (m + n) (fun i => if i < m then g i else g' (i - m)) := by
  refine ⟨h'.1.trans h.1, fun i hi => ?_, fun j hj => ?_⟩
  · by_cases him : i < m
    · rw [h'.2.2 _ (by omega)]; simp only [him, if_true]; exact h.2.1 i him
    · have := h'.2.1 (i - m) (by omega)
      rw [show off + m + (i - m) = off + i by omega] at this
      simp only [him, if_false]; exact this
  · rw [h'.2.2 _ (by omega), h.2.2 _ (by omega)]

/-- A segment outside the written range is preserved. -/
theorem Written.frame_seg {b b' : Buf α} {off n o m : Nat} {g f : Nat → α} (h : Written b b' off n g) (hf : Seg b o m f)
    (hd : o + m ≤ off ∨ off + n ≤ o) : Seg b' o m f := fun i hi => by
  rw [h.2.2 _ (by omega)]; exact hf i hi

theorem Written.holds {b b' : Buf α} {n : Nat} {g : Nat → α} (h : Written b b' 0 n g) (hs : b.size = n) : Holds b' n g :=
  ⟨h.1.trans hs, fun i hi => by have := h.2.1 i hi; rwa [Nat.zero_add] at this⟩

theorem Seg.holds {b : Buf α} {n : Nat} {g : Nat → α} (h : Seg b 0 n g) (hs : b.size = n) : Holds b n g :=
  ⟨hs, fun i hi => by have := h i hi; rwa [Nat.zero_add] at this⟩

theorem Holds.ofList (l : List α) (d : α) : Holds (Buf.ofList l) l.length (fun i => l.getD i d) := by
  refine ⟨by simp [Buf.ofList], fun i hi => ?_⟩
  simp [Buf.ofList, hi, List.getD]

/-- A fully initialised buffer is the image of a list. -/
theorem Holds.eq_ofList {b : Buf α} {n : Nat} {f : Nat → α} (h : Holds b n f) : b = Buf.ofList ((List.range n).map f) := by
  apply Array.ext_getElem?
  intro i
  by_cases hi : i < n
  · rw [h.2 i hi]; simp [Buf.ofList, hi]
  · rw [Array.getElem?_eq_none (by have := h.1; omega), Array.getElem?_eq_none (by simp [Buf.ofList]; omega)]

@[simp] theorem Buf.size_uninit (n : Nat) : (Buf.uninit α n).size = n := by simp [Buf.uninit]
@[simp] theorem Buf.size_ofList (l : List α) : (Buf.ofList l).size = l.length := by simp [Buf.ofList]

/-- `boundChk` on a buffer with known contents. -/
theorem boundChk_eq {b : Buf Int} {off n : Nat} {f : Nat → Int} (h : Seg b off n f) (lo hi : Int)
    (hb : ∀ i, i < n → lo < f i ∧ f i < hi) : boundChk b off n lo hi = true := by
  unfold boundChk
  rw [List.all_eq_true]
  intro i hi'
  rw [List.mem_range] at hi'
  rw [h i hi']
  simpa using hb i hi'

theorem memcpy_spec {dst src : Buf UInt8} {dof sof n : Nat} {f : Nat → UInt8} (hd : dof + n ≤ dst.size) (hs : Seg src sof n f) :
    Post (memcpy dst dof src sof n) (fun d => Written dst d dof n f) := by
  unfold memcpy
  refine wp_forN (fun i d => Written dst d dof i f) (Written.refl _ _ _) ?_ (fun _ h => h)
  intro i d hi hI
  simp only [wp_bind, wp_rd, wp_wr]
  exact ⟨_, hs i hi, by rw [hI.1]; omega, hI.push (by omega) rfl rfl⟩

attribute [irreducible] PostF

end Verif

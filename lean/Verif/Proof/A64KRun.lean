import Verif.Proof.A64KSound
/-! # The AArch64 Keccak assembly follows its symbolic execution -/
namespace Verif.A64K
open Verif Model Model.A64K
open Verif.Eval (force force_eq)

/-- A run succeeds with this trace, and its result satisfies `Q`. -/
def Runs {α : Type} (p : M α) (tr : List Ev) (Q : α → Prop) : Prop := ∃ a, p = .ok (a, tr) ∧ Q a

theorem okb {α β : Type} {p : M α} {a : α} {t : List Ev} {f : α → M β} {b : β} {t' : List Ev} (hp : p = .ok (a, t)) (h : f a = .ok (b, t')) : p >>= f = .ok (b, t ++ t') := by
  subst hp
  show M.bnd _ f = _
  unfold M.bnd
  simp only [h]
  rfl
theorem pb {α β : Type} (a : α) (f : α → M β) : ((pure a : M α) >>= f) = f a := by
  show M.bnd (M.ret a) f = _
  unfold M.bnd M.ret
  cases h : f a with
  | error e => simp only [h]; rfl
  | ok x => simp only [h]; rfl
theorem wr_eq {α : Type} {b : Buf α} {i : Nat} (h : i < b.size) (v : α) : wr b i v = .ok (b.setIfInBounds i (some v), [.st i]) := if_pos h

theorem Runs.bind {α β : Type} {p : M α} {f : α → M β} {t t' : List Ev} {Q : α → Prop} {R : β → Prop} (h : Runs p t Q) (hf : ∀ a, Q a → Runs (f a) t' R) :
    Runs (p >>= f) (t ++ t') R := by
  obtain ⟨a, hp, ha⟩ := h
  obtain ⟨b, hb, hR⟩ := hf a ha
  exact ⟨b, okb hp hb, hR⟩
theorem Runs.pure {α : Type} {a : α} {Q : α → Prop} (h : Q a) : Runs (Pure.pure a : M α) [] Q := ⟨a, rfl, h⟩
theorem Runs.mono {α : Type} {p : M α} {t : List Ev} {Q R : α → Prop} (h : Runs p t Q) (hR : ∀ a, Q a → R a) : Runs p t R := by
  obtain ⟨a, h1, h2⟩ := h
  exact ⟨a, h1, hR a h2⟩

/-- The data of a run: the meaning of the symbols, the registers on entry, the memory on entry. -/
structure Cx where
  e : Nat → W
  good : Good e
  g : Nat → Reg
  m : Buf W

/-- The contents of a described register; `so` is the position of the Keccak states. -/
def XD.val (so : Nat) (c : Cx) : XD → Reg
  | .ptr .st off => .ptr .st (8 * so + off : Nat)
  | .ptr .rc off => .ptr .rc off
  | .ptr .stk off => .ptr .stk off
  | .w x => .num (x.eval c.e)
  | .r i => c.g i

/-- The machine fits a description. -/
structure Fits (so : Nat) (c : Cx) (X : List (Option XD)) (V : List P) (F : Option (Nat × Nat)) (S : List (Option E)) (K : List (Option XD)) (s : St) : Prop where
  x : ∀ i d, nth X i = some d → s.x i = d.val so c
  v0 : ∀ r y, (nthP V r).1 = some y → s.v r 0 = y.eval c.e
  v1 : ∀ r y, (nthP V r).2 = some y → s.v r 1 = y.eval c.e
  f : ∀ a b, F = some (a, b) → a ≤ 65535 ∧ b ≤ 65535 ∧ s.f = some (BitVec.ofNat 64 a, BitVec.ofNat 64 b)
  st : ∀ i y, nth S i = some y → s.st[so + i]? = some (some (y.eval c.e))
  sz : s.st.size = c.m.size
  le : so + S.length ≤ c.m.size
  out : ∀ j, (j < so ∨ so + S.length ≤ j) → s.st[j]? = c.m[j]?
  stk : ∀ i d, nth K i = some d → s.stk[i]? = some (some (d.val so c))
  ksz : K.length = s.stk.size

/-- The cell of an object in memory. -/
def pos (so : Nat) (o : Obj) (i : Nat) : Nat := match o with | .st => so + i | .rc => i | .stk => i

theorem aaddr_sound {so : Nat} {X : List (Option XD)} {n off : Nat} {o : Obj} {i : Nat} (h : aaddr X n off = some (o, i)) {c : Cx} {a : Reg}
    (ha : ∀ d, nth X n = some d → a = d.val so c) : a.addr off = pure (o, pos so o i) := by
  unfold aaddr at h
  split at h
  · rename_i o' p hp
    have ha := ha _ hp
    subst ha
    simp only [Bool.cond_eq_ite, Nat.beq_eq, Option.ite_none_right_eq_some, Option.some.injEq, Prod.mk.injEq, nmod, ndiv, Nat.add_eq] at h
    obtain ⟨h1, rfl, rfl⟩ := h
    cases o' <;> simp only [XD.val, Reg.addr, pos] <;> rw [if_pos (by push_cast; omega)] <;> congr 2 <;> push_cast <;> omega
  · cases h

theorem rc_eq {i : Nat} (h : i ≤ 23) : (Buf.ofList round_constants)[i]? = some (some (BitVec.ofNat 64 (nn rcL i))) := by
  interval_cases i <;> rfl

theorem ald_sound {so : Nat} {X : List (Option XD)} {S : List (Option E)} {K : List (Option XD)} {n off : Nat} {v : XD} (h : ald X S K n off = some v) :
    ∃ tr, ∀ {c : Cx} {V : List P} {F : Option (Nat × Nat)} {s : St} {a : Reg}, Fits so c X V F S K s → (∀ d, nth X n = some d → a = d.val so c) →
      s.ld a off = .ok (v.val so c, tr) := by
  unfold ald at h
  split at h
  · rename_i i hi
    split at h
    · rename_i y hy
      cases h
      refine ⟨[.ld (so + i)], fun {c V F s a} hs ha => ?_⟩
      unfold St.ld
      rw [aaddr_sound hi ha, pb]
      have := hs.st i y hy
      show rd s.st (so + i) >>= _ = _
      unfold rd
      rw [this]
      rfl
    · cases h
  · rename_i i hi
    cases hc : Nat.ble i 23
    · rw [hc] at h; cases h
    · rw [hc] at h; cases h
      refine ⟨[.ld i], fun {c V F s a} hs ha => ?_⟩
      unfold St.ld
      rw [aaddr_sound hi ha, pb]
      show rd (Buf.ofList round_constants) i >>= _ = _
      unfold rd
      rw [rc_eq (by simpa using hc)]
      rfl
  · rename_i i hi
    refine ⟨[.ld i], fun {c V F s a} hs ha => ?_⟩
    unfold St.ld
    rw [aaddr_sound hi ha, pb]
    show rd s.stk i = _
    unfold rd
    rw [hs.stk i v h]
  · cases h

theorem aldw_sound {so : Nat} {X : List (Option XD)} {S : List (Option E)} {K : List (Option XD)} {n off : Nat} {v : E} (h : aldw X S K n off = some v) :
    ∃ tr, ∀ {c : Cx} {V : List P} {F : Option (Nat × Nat)} {s : St} {a : Reg}, Fits so c X V F S K s → (∀ d, nth X n = some d → a = d.val so c) →
      s.ldw a off = .ok (v.eval c.e, tr) := by
  unfold aldw at h
  split at h
  · rename_i y hy
    cases h
    obtain ⟨tr, htr⟩ := ald_sound (so := so) hy
    refine ⟨tr, fun {c V F s a} hs ha => ?_⟩
    unfold St.ldw
    rw [okb (htr hs ha) (b := v.eval c.e) (t' := []) rfl, List.append_nil]
  · cases h

theorem asto_sound {so : Nat} {X : List (Option XD)} {S : List (Option E)} {K : List (Option XD)} {n off : Nat} {v : XD} {k : List (Option E) → List (Option XD) → Option D} {d : D}
    (h : asto X S K n off v k = some d) :
    ∃ S' K' tr, k S' K' = some d ∧ ∀ {c : Cx} {V : List P} {F : Option (Nat × Nat)} {s : St} {a b : Reg}, Fits so c X V F S K s →
      (∀ d, nth X n = some d → a = d.val so c) → b = v.val so c → Runs (s.sto a off b) tr (fun s' => s'.x = s.x ∧ s'.v = s.v ∧ Fits so c X V F S' K' s') := by
  unfold asto at h
  split at h
  · rename_i i hi
    split at h
    · rename_i y
      obtain ⟨h1, h2⟩ := setF_some h
      refine ⟨_, _, [.st (so + i)], h2, fun {c V F s a b} hs ha hb => ?_⟩
      subst hb
      unfold St.sto
      rw [aaddr_sound hi ha, pb]
      have hlt : so + i < s.st.size := by have := hs.sz; have := hs.le; omega
      show Runs (pure (y.eval c.e) >>= fun w => wr s.st (so + i) w >>= _) _ _
      rw [pb]
      refine ⟨_, okb (wr_eq hlt _) rfl, rfl, rfl, ⟨hs.x, hs.v0, hs.v1, hs.f, fun j z hz => ?_, ?_, ?_, fun j hj => ?_, hs.stk, hs.ksz⟩⟩
      · rw [nth_set h1] at hz
        rw [Array.getElem?_setIfInBounds]
        by_cases hji : j = i
        · subst hji
          rw [if_pos rfl] at hz
          rw [if_pos rfl, if_pos hlt]
          cases hz; rfl
        · rw [if_neg hji] at hz
          rw [if_neg (by omega)]
          exact hs.st j z hz
      · rw [Array.size_setIfInBounds]; exact hs.sz
      · rw [List.length_set]; exact hs.le
      · rw [List.length_set] at hj
        rw [Array.getElem?_setIfInBounds, if_neg (by omega)]
        exact hs.out j hj
    · cases h
  · cases h
  · rename_i i hi
    obtain ⟨h1, h2⟩ := setF_some h
    refine ⟨_, _, [.st i], h2, fun {c V F s a b} hs ha hb => ?_⟩
    subst hb
    unfold St.sto
    rw [aaddr_sound hi ha, pb]
    have hlt : i < s.stk.size := by have := hs.ksz; omega
    show Runs (wr s.stk i (v.val so c) >>= _) _ _
    refine ⟨_, okb (wr_eq hlt _) rfl, rfl, rfl, ⟨hs.x, hs.v0, hs.v1, hs.f, hs.st, hs.sz, hs.le, hs.out, fun j z hz => ?_, ?_⟩⟩
    · rw [nth_set h1] at hz
      rw [Array.getElem?_setIfInBounds]
      by_cases hji : j = i
      · subst hji
        rw [if_pos rfl] at hz
        rw [if_pos rfl, if_pos hlt]
        cases hz; rfl
      · rw [if_neg hji] at hz
        rw [if_neg (by omega)]
        exact hs.stk j z hz
    · rw [Array.size_setIfInBounds, List.length_set]; exact hs.ksz
  · cases h

theorem aputx_sound {X : List (Option XD)} {d : Nat} {v : XD} {k : List (Option XD) → Option D} {r : D} (h : aputx X d v k = some r) :
    ∃ X', k X' = some r ∧ ∀ {so : Nat} {c : Cx} {V : List P} {F : Option (Nat × Nat)} {S : List (Option E)} {K : List (Option XD)} {s : St} {a : Reg},
      Fits so c X V F S K s → a = v.val so c → Fits so c X' V F S K (s.putx d a) := by
  unfold aputx at h
  rw [fX_eq] at h
  obtain ⟨h1, h2⟩ := setF_some h
  refine ⟨_, h2, fun {so c V F S K s a} hs ha => ⟨fun i y hy => ?_, hs.v0, hs.v1, hs.f, hs.st, hs.sz, hs.le, hs.out, hs.stk, hs.ksz⟩⟩
  rw [nth_set h1] at hy
  show (if i = d then a else s.x i) = _
  by_cases hi : i = d
  · rw [if_pos hi] at hy ⊢
    cases hy; exact ha
  · rw [if_neg hi] at hy ⊢
    exact hs.x i y hy

theorem nthP_eq (l : List P) (n : Nat) : nthP l n = l[n]?.getD (none, none) := by
  induction l generalizing n with
  | nil => rfl
  | cons a l ih => cases n with
    | zero => rfl
    | succ n => exact ih n
theorem nthP_set {l : List P} {i : Nat} (h : i < l.length) (a : P) (j : Nat) : nthP (l.set i a) j = if j = i then a else nthP l j := by
  rw [nthP_eq, nthP_eq, List.getElem?_set]
  by_cases hj : i = j
  · subst hj; simp [h]
  · simp [hj, Ne.symm hj]

theorem aput_sound {V : List P} {d : Nat} {v w : Option E} {k : List P → Option D} {r : D} (h : aput V d v w k = some r) :
    ∃ V', k V' = some r ∧ ∀ {so : Nat} {c : Cx} {X : List (Option XD)} {F : Option (Nat × Nat)} {S : List (Option E)} {K : List (Option XD)} {s : St} {f : Model.A64K.V},
      Fits so c X V F S K s → (∀ y, v = some y → f 0 = y.eval c.e) → (∀ y, w = some y → f 1 = y.eval c.e) → Fits so c X V' F S K (s.put d f) := by
  unfold aput at h
  rw [fO_eq, fO_eq] at h
  obtain ⟨h1, h2⟩ := setF_some h
  refine ⟨_, h2, fun {so c X F S K s f} hs hv hw => ⟨hs.x, fun i y hy => ?_, fun i y hy => ?_, hs.f, hs.st, hs.sz, hs.le, hs.out, hs.stk, hs.ksz⟩⟩
  · rw [nthP_set h1] at hy
    show (if i = d then f else s.v i) 0 = _
    by_cases hi : i = d
    · rw [if_pos hi] at hy ⊢
      exact hv y hy
    · rw [if_neg hi] at hy ⊢
      exact hs.v0 i y hy
  · rw [nthP_set h1] at hy
    show (if i = d then f else s.v i) 1 = _
    by_cases hi : i = d
    · rw [if_pos hi] at hy ⊢
      exact hw y hy
    · rw [if_neg hi] at hy ⊢
      exact hs.v1 i y hy

theorem apute_sound {V : List P} {d e : Nat} {v : Option E} {k : List P → Option D} {r : D} (he : e ≤ 1) (h : apute V d e v k = some r) :
    ∃ V', k V' = some r ∧ ∀ {so : Nat} {c : Cx} {X : List (Option XD)} {F : Option (Nat × Nat)} {S : List (Option E)} {K : List (Option XD)} {s : St} {w : W},
      Fits so c X V F S K s → (∀ y, v = some y → w = y.eval c.e) → Fits so c X V' F S K (s.pute d e w) := by
  obtain rfl | rfl : e = 0 ∨ e = 1 := by omega
  · obtain ⟨V', h1, h2⟩ := aput_sound (show aput V d v (nthP V d).2 k = some r from h)
    exact ⟨V', h1, fun hs hv => h2 hs hv (hs.v1 d)⟩
  · obtain ⟨V', h1, h2⟩ := aput_sound (show aput V d (nthP V d).1 v k = some r from h)
    exact ⟨V', h1, fun hs hv => h2 hs (hs.v0 d) hv⟩

theorem aplus_sound {v v' : XD} {i : Nat} (h : aplus v i = some v') (so : Nat) (c : Cx) : (v.val so c).plus i = v'.val so c := by
  unfold aplus at h
  split at h
  · rename_i o p
    cases h
    cases o <;> simp only [XD.val, Reg.plus] <;> congr 1 <;> push_cast <;> omega
  · cases h
    simp only [XD.val, Reg.plus, E.eval]
    congr 1
    apply BitVec.eq_of_toNat_eq
    simp
  · cases h

theorem aminus_sound {v v' : XD} {i : Nat} (h : aminus v i = some v') (so : Nat) (c : Cx) : (v.val so c).plus (-(i : Int)) = v'.val so c := by
  unfold aminus at h
  split at h
  · rename_i o p
    simp only [Nat.ble_eq, Option.ite_none_right_eq_some, Option.some.injEq] at h
    obtain ⟨h1, rfl⟩ := h
    cases o <;> simp only [XD.val, Reg.plus] <;> congr 1 <;> omega
  · rename_i w
    simp only [Nat.ble_eq, Option.ite_none_right_eq_some, Option.some.injEq] at h
    obtain ⟨h1, rfl⟩ := h
    simp only [XD.val, Reg.plus, E.eval]
    congr 1
    rw [show w = (w - i) + i by omega, BitVec.ofNat_add, Nat.add_sub_cancel]
    rw [show BitVec.ofInt 64 (-(i : Int)) = -BitVec.ofNat 64 i by rw [BitVec.ofInt_neg]; rfl]
    rw [← BitVec.sub_eq_add_neg, BitVec.add_sub_cancel]
  · cases h

theorem abump_sound {X : List (Option XD)} {n inc : Nat} {k : List (Option XD) → Option D} {r : D} (h : abump X n inc k = some r) :
    ∃ X', k X' = some r ∧ ∀ {so : Nat} {c : Cx} {V : List P} {F : Option (Nat × Nat)} {S : List (Option E)} {K : List (Option XD)} {s : St},
      Fits so c X V F S K s → Fits so c X' V F S K (s.bump n inc) := by
  unfold abump at h
  split at h
  · rename_i v hv
    rw [Option.bind_eq_some_iff] at h
    obtain ⟨v', h1, h2⟩ := h
    obtain ⟨X', h3, h4⟩ := aputx_sound h2
    refine ⟨X', h3, fun {so c V F S K s} hs => h4 hs ?_⟩
    rw [hs.x n v hv]
    exact aplus_sound h1 so c
  · cases h

theorem wOf_sound {so : Nat} {c : Cx} {X : List (Option XD)} {V : List P} {F : Option (Nat × Nat)} {S : List (Option E)} {K : List (Option XD)} {s : St} {n : Nat} {y : E}
    (h : wOf X n = some y) (hs : Fits so c X V F S K s) : (s.x n).word = .ok (y.eval c.e, []) := by
  unfold wOf at h
  split at h
  · rename_i z hz
    cases h
    rw [hs.x n _ hz]; rfl
  · cases h
theorem kOf_wOf {X : List (Option XD)} {n w : Nat} (h : kOf X n = some w) : wOf X n = some (.k w) := by
  unfold kOf at h
  split at h
  · rename_i z hz
    cases h
    unfold wOf
    rw [hz]
  · cases h

theorem vOf_sound {so : Nat} {c : Cx} {X : List (Option XD)} {V : List P} {F : Option (Nat × Nat)} {S : List (Option E)} {K : List (Option XD)} {s : St}
    (hs : Fits so c X V F S K s) {r e : Nat} {y : E} (he : e ≤ 1) (h : vOf V r e = some y) : s.v r e = y.eval c.e := by
  obtain rfl | rfl : e = 0 ∨ e = 1 := by omega
  · exact hs.v0 r y h
  · exact hs.v1 r y h

theorem op2_some {f : E → E → Option E} {x y : Option E} {z : E} (h : op2 f x y = some z) : ∃ a b, x = some a ∧ y = some b ∧ f a b = some z := by
  unfold op2 at h
  simp only [Option.bind_eq_some_iff] at h
  obtain ⟨a, h1, b, h2, h3⟩ := h
  exact ⟨a, b, h1, h2, h3⟩

theorem Runs.ok {α β : Type} {p : M α} {a : α} {t : List Ev} {f : α → M β} {t' : List Ev} {Q : β → Prop} (hp : p = .ok (a, t)) (h : Runs (f a) t' Q) : Runs (p >>= f) (t ++ t') Q :=
  Runs.bind (Q := fun b => b = a) ⟨a, hp, rfl⟩ fun _ hb => hb ▸ h

/-- A description of a step: the trace does not depend on the data. -/
def Step (so : Nat) (f : St → M St) (X : List (Option XD)) (V : List P) (F : Option (Nat × Nat)) (S : List (Option E)) (K : List (Option XD)) (k : Cont) (d : D) : Prop :=
  ∃ X' V' F' S' K' tr, k X' V' F' S' K' = some d ∧ ∀ {c : Cx} {s : St}, Fits so c X V F S K s → Runs (f s) tr (Fits so c X' V' F' S' K')

section
variable {so : Nat} {X : List (Option XD)} {V : List P} {F : Option (Nat × Nat)} {S : List (Option E)} {K : List (Option XD)} {k : Cont} {d : D}

/-- A register is written silently. -/
theorem step_putx {n : Nat} {v : XD} {f : St → M St} (h : aputx X n v (fun X => k X V F S K) = some d)
    (hf : ∃ tr, ∀ {c : Cx} {s : St}, Fits so c X V F S K s → Runs (f s) tr (fun s' => s' = s.putx n (v.val so c))) : Step so f X V F S K k d := by
  obtain ⟨X', h1, h2⟩ := aputx_sound h
  obtain ⟨tr, htr⟩ := hf
  exact ⟨X', V, F, S, K, tr, h1, fun hs => (htr hs).mono fun s' hs' => hs' ▸ h2 hs rfl⟩

/-- A vector register is written silently. -/
theorem step_put {n : Nat} {v w : Option E} {f : St → Model.A64K.V} (h : aput V n v w (fun V => k X V F S K) = some d)
    (h0 : ∀ {c : Cx} {s : St}, Fits so c X V F S K s → ∀ y, v = some y → f s 0 = y.eval c.e)
    (h1 : ∀ {c : Cx} {s : St}, Fits so c X V F S K s → ∀ y, w = some y → f s 1 = y.eval c.e) : Step so (fun s => pure (s.put n (f s))) X V F S K k d := by
  obtain ⟨V', h2, h3⟩ := aput_sound h
  exact ⟨X, V', F, S, K, [], h2, fun hs => Runs.pure (h3 hs (h0 hs) (h1 hs))⟩

theorem arun1_sound {i : Ins} (h : arun1 i X V F S K k = some d) : Step so i.step X V F S K k d := by
  cases i with
  | adr n => exact step_putx h ⟨[], fun hs => Runs.pure rfl⟩
  | mov_i n i =>
    simp only [arun1, Nat.ble_eq, Option.ite_none_right_eq_some] at h
    exact step_putx h.2 ⟨[], fun hs => Runs.pure rfl⟩
  | add_i n a i =>
    simp only [arun1, Option.bind_eq_some_iff] at h
    obtain ⟨v, h1, v', h2, h3⟩ := h
    exact step_putx h3 ⟨[], fun {c s} hs => Runs.pure (by rw [hs.x a v h1, aplus_sound h2])⟩
  | sub_i n a i =>
    simp only [arun1, Option.bind_eq_some_iff] at h
    obtain ⟨v, h1, v', h2, h3⟩ := h
    exact step_putx h3 ⟨[], fun {c s} hs => Runs.pure (by rw [hs.x a v h1, aminus_sound h2])⟩
  | cmp_i a i =>
    simp only [arun1, Option.bind_eq_some_iff, force_eq, Bool.and_eq_true, Nat.ble_eq, Option.ite_none_right_eq_some] at h
    obtain ⟨w, h1, ⟨h2, h2'⟩, h3⟩ := h
    refine ⟨X, V, some (w, i), S, K, [] ++ [], h3, fun {c s} hs => Runs.ok (wOf_sound (kOf_wOf h1) hs) (Runs.pure ?_)⟩
    refine ⟨hs.x, hs.v0, hs.v1, fun a b hab => ?_, hs.st, hs.sz, hs.le, hs.out, hs.stk, hs.ksz⟩
    cases hab
    exact ⟨h2, h2', rfl⟩
  | ldr n m off =>
    simp only [arun1, Option.bind_eq_some_iff] at h
    obtain ⟨v, h1, h2⟩ := h
    obtain ⟨tr, h3⟩ := ald_sound (so := so) h1
    exact step_putx h2 ⟨tr ++ [], fun {c s} hs => Runs.ok (h3 hs (hs.x m)) (Runs.pure rfl)⟩
  | str r n off =>
    simp only [arun1, Option.bind_eq_some_iff] at h
    obtain ⟨v, h1, h2⟩ := h
    obtain ⟨S', K', tr, h3, h4⟩ := asto_sound (so := so) h2
    exact ⟨X, V, F, S', K', tr, h3, fun {c s} hs => (h4 hs (hs.x n) (hs.x r v h1)).mono fun s' h => h.2.2⟩
  | ldr_w n m r =>
    simp only [arun1, Option.bind_eq_some_iff, Nat.ble_eq, Option.ite_none_right_eq_some] at h
    obtain ⟨w, h1, h2, v, h3, h4⟩ := h
    obtain ⟨tr, h5⟩ := ald_sound (so := so) h3
    refine step_putx h4 ⟨[] ++ (tr ++ []), fun {c s} hs => Runs.ok (wOf_sound (kOf_wOf h1) hs) (Runs.ok (a := v.val so c) ?_ (Runs.pure rfl))⟩
    rw [show (E.eval c.e (.k w)).toNat % 4294967296 = w by simp only [E.eval, BitVec.toNat_ofNat]; omega]
    exact h5 hs (hs.x m)
  | ldp d0 d1 n off =>
    simp only [arun1, Option.bind_eq_some_iff] at h
    obtain ⟨v0, h1, v1, h2, h3⟩ := h
    obtain ⟨X1, h4, h5⟩ := aputx_sound h3
    obtain ⟨X2, h6, h7⟩ := aputx_sound h4
    obtain ⟨t0, h8⟩ := ald_sound (so := so) h1
    obtain ⟨t1, h9⟩ := ald_sound (so := so) h2
    exact ⟨X2, V, F, S, K, t0 ++ (t1 ++ []), h6, fun {c s} hs => Runs.ok (h8 hs (hs.x n)) (Runs.ok (h9 hs (hs.x n)) (Runs.pure (h7 (h5 hs rfl) rfl)))⟩
  | stp r0 r1 n off =>
    simp only [arun1, Option.bind_eq_some_iff] at h
    obtain ⟨v0, h1, v1, h2, h3⟩ := h
    obtain ⟨S1, K1, t1, h4, h5⟩ := asto_sound (so := so) h3
    obtain ⟨S2, K2, t2, h6, h7⟩ := asto_sound (so := so) h4
    exact ⟨X, V, F, S2, K2, t1 ++ t2, h6, fun {c s} hs => Runs.bind (h5 hs (hs.x n) (hs.x r0 v0 h1)) fun s' hs' =>
      (h7 hs'.2.2 (hs.x n) (hs.x r1 v1 h2)).mono fun s'' h => h.2.2⟩
  | ldp_d d0 d1 n off =>
    simp only [arun1, Option.bind_eq_some_iff] at h
    obtain ⟨v0, h1, v1, h2, h3⟩ := h
    obtain ⟨V1, h4, h5⟩ := aput_sound h3
    obtain ⟨V2, h6, h7⟩ := aput_sound h4
    obtain ⟨t0, h8⟩ := aldw_sound (so := so) h1
    obtain ⟨t1, h9⟩ := aldw_sound (so := so) h2
    exact ⟨X, V2, F, S, K, t0 ++ (t1 ++ []), h6, fun {c s} hs => Runs.ok (h8 hs (hs.x n)) (Runs.ok (h9 hs (hs.x n)) (Runs.pure
      (h7 (h5 hs (fun y hy => by cases hy; rfl) (fun y hy => by cases hy)) (fun y hy => by cases hy; rfl) (fun y hy => by cases hy))))⟩
  | stp_d r0 r1 n off =>
    simp only [arun1, Option.bind_eq_some_iff] at h
    obtain ⟨v0, h1, v1, h2, h3⟩ := h
    obtain ⟨S1, K1, t1, h4, h5⟩ := asto_sound (so := so) h3
    obtain ⟨S2, K2, t2, h6, h7⟩ := asto_sound (so := so) h4
    exact ⟨X, V, F, S2, K2, t1 ++ t2, h6, fun {c s} hs => Runs.bind (h5 hs (hs.x n) (by rw [vOf_sound hs (by omega) h1]; rfl)) fun s' hs' =>
      (h7 hs'.2.2 (hs.x n) (by rw [vOf_sound hs (by omega) h2]; rfl)).mono fun s'' h => h.2.2⟩
  | ror n a r =>
    simp only [arun1, Option.bind_eq_some_iff] at h
    obtain ⟨x, h1, y, h2, h3⟩ := h
    exact step_putx h3 ⟨[] ++ [], fun {c s} hs => Runs.ok (wOf_sound h1 hs) (Runs.pure (by simp only [XD.val, rorE_sound h2]))⟩
  | eor n a b r =>
    simp only [arun1, Option.bind_eq_some_iff] at h
    obtain ⟨x, h1, y, h2, z, h3, u, h4, h5⟩ := h
    exact step_putx h5 ⟨[] ++ ([] ++ []), fun {c s} hs => Runs.ok (wOf_sound h1 hs) (Runs.ok (wOf_sound h2 hs) (Runs.pure (by
      simp only [XD.val, xorE_sound c.good h4, rorE_sound h3])))⟩
  | bic n a b r =>
    simp only [arun1, Option.bind_eq_some_iff] at h
    obtain ⟨x, h1, y, h2, z, h3, u, h4, h5⟩ := h
    exact step_putx h5 ⟨[] ++ ([] ++ []), fun {c s} hs => Runs.ok (wOf_sound h1 hs) (Runs.ok (wOf_sound h2 hs) (Runs.pure (by
      simp only [XD.val, bicE_sound h4, rorE_sound h3])))⟩
  | ld1 r e n inc =>
    simp only [arun1, Nat.ble_eq, Option.ite_none_right_eq_some, Option.bind_eq_some_iff] at h
    obtain ⟨he, v, h1, h2⟩ := h
    obtain ⟨V1, h3, h4⟩ := apute_sound he h2
    obtain ⟨X1, h5, h6⟩ := abump_sound h3
    obtain ⟨t, h7⟩ := aldw_sound (so := so) h1
    exact ⟨X1, V1, F, S, K, t ++ [], h5, fun {c s} hs => Runs.ok (h7 hs (hs.x n)) (Runs.pure (h6 (h4 hs fun y hy => by cases hy; rfl)))⟩
  | ld2 r0 r1 e n inc =>
    simp only [arun1, Nat.ble_eq, Option.ite_none_right_eq_some, Option.bind_eq_some_iff] at h
    obtain ⟨he, v, h1, v', h1', h2⟩ := h
    obtain ⟨V1, h3, h4⟩ := apute_sound he h2
    obtain ⟨V2, h3', h4'⟩ := apute_sound he h3
    obtain ⟨X1, h5, h6⟩ := abump_sound h3'
    obtain ⟨t, h7⟩ := aldw_sound (so := so) h1
    obtain ⟨t', h7'⟩ := aldw_sound (so := so) h1'
    exact ⟨X1, V2, F, S, K, t ++ (t' ++ []), h5, fun {c s} hs => Runs.ok (h7 hs (hs.x n)) (Runs.ok (h7' hs (hs.x n)) (Runs.pure
      (h6 (h4' (h4 hs fun y hy => by cases hy; rfl) fun y hy => by cases hy; rfl))))⟩
  | st1 r e n inc =>
    simp only [arun1, Nat.ble_eq, Option.ite_none_right_eq_some, Option.bind_eq_some_iff] at h
    obtain ⟨he, v, h1, h2⟩ := h
    obtain ⟨S1, K1, t1, h4, h5⟩ := asto_sound (so := so) h2
    obtain ⟨X1, h6, h7⟩ := abump_sound h4
    exact ⟨X1, V, F, S1, K1, t1 ++ [], h6, fun {c s} hs => Runs.bind (h5 hs (hs.x n) (by rw [vOf_sound hs he h1]; rfl)) fun s' hs' => Runs.pure (h7 hs'.2.2)⟩
  | st2 r0 r1 e n inc =>
    simp only [arun1, Nat.ble_eq, Option.ite_none_right_eq_some, Option.bind_eq_some_iff] at h
    obtain ⟨he, v0, h1, v1, h1', h2⟩ := h
    obtain ⟨S1, K1, t1, h4, h5⟩ := asto_sound (so := so) h2
    obtain ⟨S2, K2, t2, h4', h5'⟩ := asto_sound (so := so) h4
    obtain ⟨X1, h6, h7⟩ := abump_sound h4'
    exact ⟨X1, V, F, S2, K2, t1 ++ (t2 ++ []), h6, fun {c s} hs => Runs.bind (h5 hs (hs.x n) (by rw [vOf_sound hs he h1]; rfl)) fun s' hs' =>
      Runs.bind (h5' hs'.2.2 (hs.x n) (by rw [vOf_sound hs he h1']; rfl)) fun s'' hs'' => Runs.pure (h7 hs''.2.2)⟩
  | ld1r r n inc =>
    simp only [arun1, Option.bind_eq_some_iff] at h
    obtain ⟨v, h1, h2⟩ := h
    obtain ⟨V1, h3, h4⟩ := aput_sound h2
    obtain ⟨X1, h5, h6⟩ := abump_sound h3
    obtain ⟨t, h7⟩ := aldw_sound (so := so) h1
    exact ⟨X1, V1, F, S, K, t ++ [], h5, fun {c s} hs => Runs.ok (h7 hs (hs.x n)) (Runs.pure (h6 (h4 hs (fun y hy => by cases hy; rfl) (fun y hy => by cases hy; rfl))))⟩
  | veor r a b =>
    refine step_put h (fun {c s} hs y hy => ?_) (fun {c s} hs y hy => ?_) <;>
    · obtain ⟨p, q, h1, h2, h3⟩ := op2_some hy
      rw [xorE_sound c.good h3, vOf_sound hs (by omega) h1, vOf_sound hs (by omega) h2]
  | vbic r a b =>
    refine step_put h (fun {c s} hs y hy => ?_) (fun {c s} hs y hy => ?_) <;>
    · obtain ⟨p, q, h1, h2, h3⟩ := op2_some hy
      rw [bicE_sound h3, vOf_sound hs (by omega) h1, vOf_sound hs (by omega) h2]
  | vadd r a b =>
    refine step_put h (fun {c s} hs y hy => ?_) (fun {c s} hs y hy => ?_) <;>
    · obtain ⟨p, q, h1, h2, h3⟩ := op2_some hy
      rw [addE_sound h3, vOf_sound hs (by omega) h1, vOf_sound hs (by omega) h2]
  | shl r a i =>
    simp only [arun1, Nat.ble_eq, Option.ite_none_right_eq_some] at h
    refine step_put h.2 (fun {c s} hs y hy => ?_) (fun {c s} hs y hy => ?_) <;>
    · rw [Option.bind_eq_some_iff] at hy
      obtain ⟨p, h1, h2⟩ := hy
      rw [shlE_sound h2, vOf_sound hs (by omega) h1]
  | sri r a i =>
    refine step_put h (fun {c s} hs y hy => ?_) (fun {c s} hs y hy => ?_) <;>
    · obtain ⟨p, q, h1, h2, h3⟩ := op2_some hy
      rw [sriE_sound h3, vOf_sound hs (by omega) h1, vOf_sound hs (by omega) h2]
  | eor3 r a b c =>
    refine step_put h (fun {c s} hs y hy => ?_) (fun {c s} hs y hy => ?_) <;>
    · obtain ⟨p, q, h1, h2, h3⟩ := op2_some hy
      obtain ⟨p', q', h1', h2', h3'⟩ := op2_some h1
      rw [xorE_sound c.good h3, xorE_sound c.good h3', vOf_sound hs (by omega) h1', vOf_sound hs (by omega) h2', vOf_sound hs (by omega) h2]
  | rax1 r a b =>
    refine step_put h (fun {c s} hs y hy => ?_) (fun {c s} hs y hy => ?_) <;>
    · obtain ⟨p, q, h1, h2, h3⟩ := op2_some hy
      rw [Option.bind_eq_some_iff] at h2
      obtain ⟨p', h1', h2'⟩ := h2
      rw [xorE_sound c.good h3, rotE_sound h2', vOf_sound hs (by omega) h1, vOf_sound hs (by omega) h1']
  | xar r a b i =>
    refine step_put h (fun {c s} hs y hy => ?_) (fun {c s} hs y hy => ?_) <;>
    · rw [Option.bind_eq_some_iff] at hy
      obtain ⟨p', h1', h2'⟩ := hy
      obtain ⟨p, q, h1, h2, h3⟩ := op2_some h1'
      rw [rorE_sound h2', xorE_sound c.good h3, vOf_sound hs (by omega) h1, vOf_sound hs (by omega) h2]
  | bcax r a b c =>
    refine step_put h (fun {c s} hs y hy => ?_) (fun {c s} hs y hy => ?_) <;>
    · obtain ⟨p, q, h1, h2, h3⟩ := op2_some hy
      obtain ⟨p', q', h1', h2', h3'⟩ := op2_some h1
      rw [xorE_sound c.good h3, bicE_sound h3', vOf_sound hs (by omega) h1', vOf_sound hs (by omega) h2', vOf_sound hs (by omega) h2]
      exact BitVec.xor_comm _ _
end

theorem arunI_sound {so : Nat} {X : List (Option XD)} {V : List P} {F : Option (Nat × Nat)} {S : List (Option E)} {K : List (Option XD)} {k : Cont} {d : D} {l : List Ins}
    (h : arunI l X V F S K k = some d) : Step so (runI l) X V F S K k d := by
  induction l generalizing X V F S K with
  | nil => exact ⟨X, V, F, S, K, [], h, fun hs => Runs.pure hs⟩
  | cons i l ih =>
    obtain ⟨X1, V1, F1, S1, K1, t1, h1, h2⟩ := arun1_sound (so := so) (show arun1 i X V F S K _ = some d from h)
    obtain ⟨X2, V2, F2, S2, K2, t2, h3, h4⟩ := ih h1
    exact ⟨X2, V2, F2, S2, K2, t1 ++ t2, h3, fun hs => Runs.bind (h2 hs) fun s' hs' => h4 hs'⟩

theorem Runs.br {α : Type} {b : Bool} {p q : M α} {t : List Ev} {Q : α → Prop} (h : Runs (if b then p else q) t Q) : Runs (branch b p q) ([.br b] ++ t) Q :=
  Runs.ok (show M.emit (.br b) = .ok ((), [.br b]) from rfl) h

theorem sle_small {a b : Nat} (ha : a ≤ 65535) (hb : b ≤ 65535) : BitVec.sle (BitVec.ofNat 64 a) (BitVec.ofNat 64 b) = decide (a ≤ b) := by
  unfold BitVec.sle
  rw [show (BitVec.ofNat 64 a).toInt = a by rw [BitVec.toInt_eq_toNat_cond, BitVec.toNat_ofNat]; omega,
    show (BitVec.ofNat 64 b).toInt = b by rw [BitVec.toInt_eq_toNat_cond, BitVec.toNat_ofNat]; omega]
  simp

/-- A run of a function fits its description; its trace does not depend on the data. -/
theorem arunB_sound {so : Nat} {prog : List Block} {f pc : Nat} {X : List (Option XD)} {V : List P} {F : Option (Nat × Nat)} {S : List (Option E)} {K : List (Option XD)} {d : D}
    (h : arunB prog f pc X V F S K = some d) : ∃ tr, ∀ {c : Cx} {s : St}, Fits so c X V F S K s → Runs (runB prog f pc s) tr (Fits so c d.X d.V d.F d.S d.K) := by
  induction f generalizing pc X V F S K with
  | zero => cases h
  | succ f ih =>
    unfold arunB at h
    unfold runB
    cases hb : prog[pc]? with
    | none => rw [hb] at h; cases h
    | some b =>
      rw [hb] at h
      obtain ⟨X1, V1, F1, S1, K1, t1, h1, h2⟩ := arunI_sound (so := so) h
      cases hfin : b.fin with
      | next =>
        rw [hfin] at h1
        obtain ⟨t, ht⟩ := ih h1
        exact ⟨t1 ++ t, fun hs => Runs.bind (h2 hs) fun s' hs' => by rw [hfin]; exact ht hs'⟩
      | b t =>
        rw [hfin] at h1
        obtain ⟨t, ht⟩ := ih h1
        exact ⟨t1 ++ t, fun hs => Runs.bind (h2 hs) fun s' hs' => by rw [hfin]; exact ht hs'⟩
      | ret =>
        rw [hfin] at h1
        cases h1
        exact ⟨t1 ++ [], fun hs => Runs.bind (h2 hs) fun s' hs' => by rw [hfin]; exact Runs.pure hs'⟩
      | cbnz r t =>
        rw [hfin] at h1
        dsimp only at h1
        cases hw : kOf X1 r with
        | none => rw [hw] at h1; cases h1
        | some w =>
          rw [hw] at h1
          dsimp only at h1
          rw [Option.ite_none_left_eq_some, Nat.ble_eq] at h1
          obtain ⟨hlt, h1⟩ := h1
          by_cases hz : w = 0
          · rw [if_pos (by simpa using hz)] at h1
            obtain ⟨t, ht⟩ := ih h1
            refine ⟨t1 ++ ([] ++ ([.br false] ++ t)), fun {c s} hs => Runs.bind (h2 hs) fun s' hs' => ?_⟩
            rw [hfin]
            refine Runs.ok (wOf_sound (kOf_wOf hw) hs') ?_
            rw [show decide (E.eval c.e (.k w) ≠ 0) = false by subst hz; simp [E.eval]]
            exact Runs.br (ht hs')
          · rw [if_neg (by simpa using hz)] at h1
            obtain ⟨t, ht⟩ := ih h1
            refine ⟨t1 ++ ([] ++ ([.br true] ++ t)), fun {c s} hs => Runs.bind (h2 hs) fun s' hs' => ?_⟩
            rw [hfin]
            refine Runs.ok (wOf_sound (kOf_wOf hw) hs') ?_
            rw [show decide (E.eval c.e (.k w) ≠ 0) = true by
              rw [decide_eq_true_eq]
              intro h
              have : (BitVec.ofNat 64 w).toNat = (0#64).toNat := congrArg BitVec.toNat h
              simp only [BitVec.toNat_ofNat] at this
              omega]
            exact Runs.br (ht hs')
      | ble t =>
        rw [hfin] at h1
        dsimp only at h1
        cases hF : F1 with
        | none => rw [hF] at h1; cases h1
        | some ab =>
          obtain ⟨a, b'⟩ := ab
          rw [hF] at h1
          dsimp only at h1
          by_cases hz : a ≤ b'
          · rw [if_pos (by simpa using hz)] at h1
            obtain ⟨t, ht⟩ := ih h1
            refine ⟨t1 ++ ([.br true] ++ t), fun {c s} hs => Runs.bind (h2 hs) fun s' hs' => ?_⟩
            obtain ⟨ha, hb', hf⟩ := hs'.f a b' hF
            rw [hfin]
            dsimp only
            rw [hf]
            dsimp only
            rw [show BitVec.sle (BitVec.ofNat 64 a) (BitVec.ofNat 64 b') = true by rw [sle_small ha hb', decide_eq_true_eq]; exact hz]
            exact Runs.br (ht (hF ▸ hs'))
          · rw [if_neg (by simpa using hz)] at h1
            obtain ⟨t, ht⟩ := ih h1
            refine ⟨t1 ++ ([.br false] ++ t), fun {c s} hs => Runs.bind (h2 hs) fun s' hs' => ?_⟩
            obtain ⟨ha, hb', hf⟩ := hs'.f a b' hF
            rw [hfin]
            dsimp only
            rw [hf]
            dsimp only
            rw [show BitVec.sle (BitVec.ofNat 64 a) (BitVec.ofNat 64 b') = false by rw [sle_small ha hb', decide_eq_false_iff_not]; exact hz]
            exact Runs.br (ht (hF ▸ hs'))
      | beq t =>
        rw [hfin] at h1
        dsimp only at h1
        cases hF : F1 with
        | none => rw [hF] at h1; cases h1
        | some ab =>
          obtain ⟨a, b'⟩ := ab
          rw [hF] at h1
          dsimp only at h1
          by_cases hz : a = b'
          · rw [if_pos (by simpa using hz)] at h1
            obtain ⟨t, ht⟩ := ih h1
            refine ⟨t1 ++ ([.br true] ++ t), fun {c s} hs => Runs.bind (h2 hs) fun s' hs' => ?_⟩
            obtain ⟨ha, hb', hf⟩ := hs'.f a b' hF
            rw [hfin]
            dsimp only
            rw [hf]
            dsimp only
            rw [show decide (BitVec.ofNat 64 a = BitVec.ofNat 64 b') = true by rw [hz]; simp]
            exact Runs.br (ht (hF ▸ hs'))
          · rw [if_neg (by simpa using hz)] at h1
            obtain ⟨t, ht⟩ := ih h1
            refine ⟨t1 ++ ([.br false] ++ t), fun {c s} hs => Runs.bind (h2 hs) fun s' hs' => ?_⟩
            obtain ⟨ha, hb', hf⟩ := hs'.f a b' hF
            rw [hfin]
            dsimp only
            rw [hf]
            dsimp only
            rw [show decide (BitVec.ofNat 64 a = BitVec.ofNat 64 b') = false by
              rw [decide_eq_false_iff_not]
              intro h
              have := congrArg BitVec.toNat h
              simp only [BitVec.toNat_ofNat] at this
              omega]
            exact Runs.br (ht (hF ▸ hs'))

end Verif.A64K

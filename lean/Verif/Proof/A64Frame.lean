import Verif.Proof.A64Trace
/-! # What the AArch64 functions leave unchanged

A syntactic check, in the manner of `Verif.Proof.A64Trace`: every store goes through a register that points to the first argument or to the stack frame, and no general-purpose
register that belongs to the caller is written. -/
namespace Verif.A64
open Model Model.A64

/-- If `p` returns, its result satisfies `Q`. -/
def Ends {α : Type} (p : M α) (Q : α → Prop) : Prop := ∀ x t, p = .ok (x, t) → Q x

theorem Ends.pure {α : Type} {a : α} {Q : α → Prop} (h : Q a) : Ends (Pure.pure a : M α) Q := fun _ _ e => by cases e; exact h
theorem Ends.fail {α : Type} {e : Err} {Q : α → Prop} : Ends (M.fail e : M α) Q := fun _ _ h => nomatch h
theorem Ends.any {α : Type} (p : M α) : Ends p fun _ => True := fun _ _ _ => trivial
theorem Ends.bind {α β : Type} {p : M α} {k : α → M β} {P : α → Prop} {Q : β → Prop} (h : Ends p P) (hk : ∀ a, P a → Ends (k a) Q) : Ends (p >>= k) Q := by
  intro x t e
  obtain ⟨a, t1, t2, h1, h2, _⟩ := bnd_ok e
  exact hk a (h a t1 h1) x t2 h2

/-- A callee may not change the general-purpose registers 18 to 30. -/
def mayWrite (d : Nat) : Bool := Nat.ble d 17 || Nat.beq d 31

/-- The object a register is known to point to. -/
def Pts (D : List (Nat × Obj)) (s : St) : Prop := ∀ r o, (r, o) ∈ D → ∃ i, s.x r = .ptr o i

/-- `t` has the registers of the caller, and all objects but the first argument and the stack frame, as `s`. -/
def Fr (s t : St) : Prop := (∀ r, mayWrite r = false → t.x r = s.x r) ∧ ∀ o, o ≠ .a0 → o ≠ .stk → t.m o = s.m o ∧ t.b o = s.b o

theorem Fr.refl (s : St) : Fr s s := ⟨fun _ _ => rfl, fun _ _ _ => ⟨rfl, rfl⟩⟩
theorem Fr.trans {s t u : St} (h : Fr s t) (h' : Fr t u) : Fr s u :=
  ⟨fun r hr => (h'.1 r hr).trans (h.1 r hr), fun o h0 h1 => ⟨(h'.2 o h0 h1).1.trans (h.2 o h0 h1).1, (h'.2 o h0 h1).2.trans (h.2 o h0 h1).2⟩⟩

/-- Forget a register. -/
def drop (d : Nat) (D : List (Nat × Obj)) : List (Nat × Obj) := D.filter fun a => !Nat.beq a.1 d
/-- What is known about register `a` becomes known about `d`. -/
def copy (d a : Nat) (D : List (Nat × Obj)) : List (Nat × Obj) := (D.filter fun p => Nat.beq p.1 a).map (fun p => (d, p.2)) ++ drop d D
/-- The register points to an object that may be written. -/
def stOk (n : Nat) (D : List (Nat × Obj)) : Bool := D.contains (n, .a0) || D.contains (n, .stk)

/-- Scan one instruction. -/
def wscan1 (i : Ins) (D : List (Nat × Obj)) : Option (List (Nat × Obj)) :=
  match i with
  | .adr d _ | .mov_i d _ | .ldrsh d _ _ | .ldrh d _ _ => if mayWrite d then some (drop d D) else none
  | .mov_r d a | .add_i d a _ | .sub_i d a _ | .subs_i d a _ => if mayWrite d then some (copy d a D) else none
  | .ldr_post _ n _ | .ld1 _ n _ | .ld1r _ n _ | .ld2 _ _ n _ => if mayWrite n then some D else none
  | .str _ n _ | .stp_d _ _ n _ => if stOk n D then some D else none
  | .str_post _ n _ | .st2 _ _ n _ | .st3 _ _ _ n _ | .st4 _ _ _ _ n _ => if mayWrite n && stOk n D then some D else none
  | _ => some D

/-- `wscan1` along a list. -/
def wscan : List Ins → List (Nat × Obj) → Option (List (Nat × Obj))
  | [], D => some D
  | i :: l, D => (wscan1 i D).bind (wscan l)

theorem mem_drop {d r : Nat} {o : Obj} {D : List (Nat × Obj)} : (r, o) ∈ drop d D ↔ (r, o) ∈ D ∧ r ≠ d := by
  unfold drop
  rw [List.mem_filter]
  cases h : Nat.beq r d
  · simp [Nat.ne_of_beq_eq_false h]
  · simp [Nat.eq_of_beq_eq_true h]

theorem Pts.drop {D : List (Nat × Obj)} {s : St} {d : Nat} {a : Reg} (h : Pts D s) : Pts (drop d D) (s.putx d a) := by
  intro r o hr
  obtain ⟨h1, h2⟩ := mem_drop.1 hr
  simp only [St.putx, if_neg h2]
  exact h r o h1

theorem Pts.copy {D : List (Nat × Obj)} {s : St} {d a : Nat} {i : Int} (h : Pts D s) : Pts (copy d a D) (s.putx d ((s.x a).plus i)) := by
  intro r o hr
  rcases List.mem_append.1 hr with hr | hr
  · obtain ⟨⟨r', o'⟩, h1, h2⟩ := List.mem_map.1 hr
    cases h2
    obtain ⟨h3, h4⟩ := List.mem_filter.1 h1
    have := Nat.eq_of_beq_eq_true h4
    simp only at this; subst this
    obtain ⟨j, hj⟩ := h _ _ h3
    exact ⟨j + i, by simp [St.putx, hj, Reg.plus]⟩
  · obtain ⟨h1, h2⟩ := mem_drop.1 hr
    simp only [St.putx, if_neg h2]
    exact h r o h1

theorem Pts.mov {D : List (Nat × Obj)} {s : St} {d a : Nat} (h : Pts D s) : Pts (A64.copy d a D) (s.putx d (s.x a)) := by
  intro r o hr
  rcases List.mem_append.1 hr with hr | hr
  · obtain ⟨⟨r', o'⟩, h1, h2⟩ := List.mem_map.1 hr
    cases h2
    obtain ⟨h3, h4⟩ := List.mem_filter.1 h1
    have := Nat.eq_of_beq_eq_true h4
    simp only at this; subst this
    obtain ⟨j, hj⟩ := h _ _ h3
    exact ⟨j, by simp [St.putx, hj]⟩
  · obtain ⟨h1, h2⟩ := mem_drop.1 hr
    simp only [St.putx, if_neg h2]
    exact h r o h1

theorem Pts.bump {D : List (Nat × Obj)} {s : St} {n : Nat} {inc : Int} (h : Pts D s) : Pts D (s.bump n inc) := by
  intro r o hr
  obtain ⟨j, hj⟩ := h r o hr
  unfold St.bump St.putx
  by_cases c : r = n
  · subst c; exact ⟨j + inc, by simp [hj, Reg.plus]⟩
  · exact ⟨j, by simp [c, hj]⟩

theorem Pts.put {D : List (Nat × Obj)} {s : St} {d : Nat} {f : V} (h : Pts D s) : Pts D (s.put d f) := h

theorem Fr.putx {s : St} {d : Nat} {a : Reg} (h : mayWrite d = true) : Fr s (s.putx d a) := by
  refine ⟨fun r hr => ?_, fun _ _ _ => ⟨rfl, rfl⟩⟩
  have : r ≠ d := fun e => by rw [e, h] at hr; cases hr
  simp [St.putx, this]

theorem Fr.bump {s t : St} {n : Nat} {inc : Int} (h : mayWrite n = true) (hf : Fr s t) : Fr s (t.bump n inc) := hf.trans (Fr.putx h)

theorem Fr.put {s : St} {d : Nat} {f : V} : Fr s (s.put d f) := ⟨fun _ _ => rfl, fun _ _ _ => ⟨rfl, rfl⟩⟩

/-- The registers are kept and only the first argument and the stack are written. -/
def FrM (s t : St) : Prop := t.x = s.x ∧ Fr s t

theorem Pts.frm {D : List (Nat × Obj)} {s t : St} (h : Pts D s) (k : FrM s t) : Pts D t := fun r o hr => by rw [k.1]; exact h r o hr

theorem stOk_pts {D : List (Nat × Obj)} {s : St} {n : Nat} (h : Pts D s) (hn : stOk n D = true) : (∃ i, s.x n = .ptr .a0 i) ∨ ∃ i, s.x n = .ptr .stk i := by
  unfold stOk at hn
  rw [Bool.or_eq_true] at hn
  rcases hn with hn | hn
  · exact Or.inl (h n _ (by simpa using hn))
  · exact Or.inr (h n _ (by simpa using hn))

theorem ends_addr {s : St} {n : Nat} {off i : Int} {o : Obj} (h : s.x n = .ptr o i) : Ends (s.addr n off) fun p => p.1 = o := by
  unfold St.addr
  rw [h]
  dsimp only
  split
  · exact Ends.pure rfl
  · exact Ends.fail

theorem frm_putm {s : St} {o : Obj} {b : Buf Int} (ho : o = .a0 ∨ o = .stk) : FrM s (s.putm o b) := by
  refine ⟨rfl, fun _ _ => rfl, fun o' h0 h1 => ⟨?_, rfl⟩⟩
  have : o' ≠ o := by rintro rfl; rcases ho with rfl | rfl <;> contradiction
  simp [St.putm, this]

theorem frm_putb {s : St} {o : Obj} {b : Buf UInt8} (ho : o = .a0 ∨ o = .stk) : FrM s (s.putb o b) := by
  refine ⟨rfl, fun _ _ => rfl, fun o' h0 h1 => ⟨rfl, ?_⟩⟩
  have : o' ≠ o := by rintro rfl; rcases ho with rfl | rfl <;> contradiction
  simp [St.putb, this]

theorem ends_st {D : List (Nat × Obj)} {s : St} {n : Nat} {off : Int} {f : V} (h : Pts D s) (hn : stOk n D = true) : Ends (s.st n off f) (FrM s) := by
  have : ∃ o, (o = .a0 ∨ o = .stk) ∧ ∃ i, s.x n = .ptr o i := by
    rcases stOk_pts h hn with h | h
    exacts [⟨_, Or.inl rfl, h⟩, ⟨_, Or.inr rfl, h⟩]
  obtain ⟨o, ho, i, hi⟩ := this
  unfold St.st
  refine Ends.bind (ends_addr hi) ?_
  rintro ⟨o', p⟩ rfl
  rcases ho with rfl | rfl <;> dsimp only <;> split
  · exact Ends.bind (Ends.any _) fun _ _ => Ends.pure (frm_putm (Or.inl rfl))
  · exact Ends.fail
  · exact Ends.bind (Ends.any _) fun _ _ => Ends.pure (frm_putm (Or.inr rfl))
  · exact Ends.fail

theorem ends_st24 {D : List (Nat × Obj)} {s : St} {n : Nat} {g : Nat → Nat} (h : Pts D s) (hn : stOk n D = true) : Ends (s.st24 n g) (FrM s) := by
  have : ∃ o, (o = .a0 ∨ o = .stk) ∧ ∃ i, s.x n = .ptr o i := by
    rcases stOk_pts h hn with h | h
    exacts [⟨_, Or.inl rfl, h⟩, ⟨_, Or.inr rfl, h⟩]
  obtain ⟨o, ho, i, hi⟩ := this
  unfold St.st24
  refine Ends.bind (ends_addr hi) ?_
  rintro ⟨o', p⟩ rfl
  exact Ends.bind (Ends.any _) fun _ _ => Ends.pure (frm_putb ho)

theorem ends_step {D D' : List (Nat × Obj)} (i : Ins) {s : St} (h : Pts D s) (hs : wscan1 i D = some D') : Ends (i.step s) (fun t => Pts D' t ∧ Fr s t) := by
  cases i <;> simp only [wscan1, Option.some.injEq, Option.ite_none_right_eq_some, Bool.and_eq_true] at hs <;> unfold Ins.step <;> dsimp only
  case adr => obtain ⟨ha, rfl⟩ := hs; exact Ends.pure ⟨h.drop, Fr.putx ha⟩
  case mov_i => obtain ⟨ha, rfl⟩ := hs; exact Ends.pure ⟨h.drop, Fr.putx ha⟩
  case mov_r => obtain ⟨ha, rfl⟩ := hs; exact Ends.pure ⟨h.mov, Fr.putx ha⟩
  case add_i => obtain ⟨ha, rfl⟩ := hs; exact Ends.pure ⟨h.copy, Fr.putx ha⟩
  case sub_i => obtain ⟨ha, rfl⟩ := hs; exact Ends.pure ⟨h.copy, Fr.putx ha⟩
  case subs_i => obtain ⟨ha, rfl⟩ := hs; exact Ends.pure ⟨h.copy, Fr.putx ha⟩
  case ldrsh => obtain ⟨ha, rfl⟩ := hs; exact Ends.bind (Ends.any _) fun _ _ => Ends.pure ⟨h.drop, Fr.putx ha⟩
  case ldrh => obtain ⟨ha, rfl⟩ := hs; exact Ends.bind (Ends.any _) fun _ _ => Ends.pure ⟨h.drop, Fr.putx ha⟩
  case ldr => subst hs; exact Ends.bind (Ends.any _) fun _ _ => Ends.pure ⟨h.put, Fr.put⟩
  case ldp_d => subst hs; exact Ends.bind (Ends.any _) fun _ _ => Ends.pure ⟨h.put.put, Fr.put.trans Fr.put⟩
  case ldr_post => obtain ⟨ha, rfl⟩ := hs; exact Ends.bind (Ends.any _) fun _ _ => Ends.pure ⟨Pts.bump h.put, Fr.bump ha Fr.put⟩
  case ld1 => obtain ⟨ha, rfl⟩ := hs; exact Ends.bind (Ends.any _) fun _ _ => Ends.pure ⟨Pts.bump h.put, Fr.bump ha Fr.put⟩
  case ld1r => obtain ⟨ha, rfl⟩ := hs; exact Ends.bind (Ends.any _) fun _ _ => Ends.pure ⟨Pts.bump h.put, Fr.bump ha Fr.put⟩
  case ld2 =>
    obtain ⟨ha, rfl⟩ := hs
    exact Ends.bind (Ends.any _) fun _ _ => Ends.bind (Ends.any _) fun _ _ => Ends.pure ⟨Pts.bump (Pts.put h.put), Fr.bump ha (Fr.put.trans Fr.put)⟩
  case str => obtain ⟨ha, rfl⟩ := hs; exact fun x t e => have k := ends_st h ha x t e; ⟨h.frm k, k.2⟩
  case stp_d => obtain ⟨ha, rfl⟩ := hs; exact fun x t e => have k := ends_st h ha x t e; ⟨h.frm k, k.2⟩
  case str_post => obtain ⟨⟨ha, hb⟩, rfl⟩ := hs; exact Ends.bind (ends_st h hb) fun _ k => Ends.pure ⟨(h.frm k).bump, Fr.bump ha k.2⟩
  case st2 =>
    obtain ⟨⟨ha, hb⟩, rfl⟩ := hs
    exact Ends.bind (ends_st h hb) fun _ k => Ends.bind (ends_st (h.frm k) hb) fun _ k' => Ends.pure ⟨((h.frm k).frm k').bump, Fr.bump ha (k.2.trans k'.2)⟩
  case st3 => obtain ⟨⟨ha, hb⟩, rfl⟩ := hs; exact Ends.bind (ends_st24 h hb) fun _ k => Ends.pure ⟨(h.frm k).bump, Fr.bump ha k.2⟩
  case st4 =>
    obtain ⟨⟨ha, hb⟩, rfl⟩ := hs
    exact Ends.bind (ends_st h hb) fun _ k => Ends.bind (ends_st (h.frm k) hb) fun _ k1 => Ends.bind (ends_st ((h.frm k).frm k1) hb) fun _ k2 =>
      Ends.bind (ends_st (((h.frm k).frm k1).frm k2) hb) fun _ k3 => Ends.pure ⟨((((h.frm k).frm k1).frm k2).frm k3).bump, Fr.bump ha (((k.2.trans k1.2).trans k2.2).trans k3.2)⟩
  case dup d a =>
    subst hs
    cases s.x a
    · exact Ends.pure ⟨h.put, Fr.put⟩
    · exact Ends.fail
  all_goals subst hs; exact Ends.pure ⟨h.put, Fr.put⟩

theorem ends_runI {l : List Ins} {D D' : List (Nat × Obj)} {s : St} (h : Pts D s) (hs : wscan l D = some D') : Ends (runI l s) (fun t => Pts D' t ∧ Fr s t) := by
  induction l generalizing D s with
  | nil => simp only [wscan, Option.some.injEq] at hs; subst hs; exact Ends.pure ⟨h, Fr.refl s⟩
  | cons i l ih =>
    simp only [wscan, Option.bind_eq_some_iff] at hs
    obtain ⟨D1, h1, h2⟩ := hs
    exact Ends.bind (ends_step i h h1) fun t ht x tr e => have := ih ht.1 h2 x tr e; ⟨this.1, ht.2.trans this.2⟩

/-- `Ds` is what is known at the entry of each block. -/
def wscanB (prog : List Block) (Ds : List (List (Nat × Obj))) : Bool :=
  (List.range prog.length).all fun pc => match prog[pc]? with
    | none => false
    | some b => match wscan b.ins (Ds.getD pc []) with
      | none => false
      | some D => match b.fin with
        | .next => (Ds.getD (pc + 1) []).all fun r => D.contains r
        | .ret => true
        | .cbnz _ t => ((Ds.getD t []).all fun r => D.contains r) && ((Ds.getD (pc + 1) []).all fun r => D.contains r)

theorem Pts.mono {D D' : List (Nat × Obj)} {s : St} (h : Pts D s) (hD : (D'.all fun r => D.contains r) = true) : Pts D' s :=
  fun r o hr => h r o (by simpa using List.all_eq_true.1 hD _ hr)

theorem ends_runB {prog : List Block} {Ds : List (List (Nat × Obj))} (hB : wscanB prog Ds = true) : ∀ (f pc : Nat) {s : St}, Pts (Ds.getD pc []) s → Ends (runB prog f pc s) (Fr s)
  | 0, _, _, _ => Ends.fail
  | f + 1, pc, s, h => by
    unfold runB
    cases hb : prog[pc]? with
    | none => exact Ends.fail
    | some b =>
      have hlt : pc < prog.length := (List.getElem?_eq_some_iff.1 hb).1
      have := List.all_eq_true.1 hB pc (List.mem_range.2 hlt)
      rw [hb] at this
      simp only at this
      cases hD : wscan b.ins (Ds.getD pc []) with
      | none => rw [hD] at this; simp at this
      | some D =>
        rw [hD] at this
        simp only at this
        refine Ends.bind (ends_runI h hD) fun t ht => ?_
        cases hf : b.fin with
        | next =>
          rw [hf] at this
          exact fun x tr e => ht.2.trans (ends_runB hB f (pc + 1) (ht.1.mono this) x tr e)
        | ret => exact Ends.pure ht.2
        | cbnz r u =>
          rw [hf] at this
          simp only [Bool.and_eq_true] at this
          simp only
          cases t.x r with
          | ptr => exact Ends.fail
          | num z =>
            have h1 : Ends (runB prog f u t) (Fr s) := fun x tr e => ht.2.trans (ends_runB hB f u (ht.1.mono this.1) x tr e)
            have h2 : Ends (runB prog f (pc + 1) t) (Fr s) := fun x tr e => ht.2.trans (ends_runB hB f (pc + 1) (ht.1.mono this.2) x tr e)
            unfold branch
            refine Ends.bind (Ends.any _) fun _ _ => ?_
            split
            · exact h1
            · exact h2

/-- What is known at the entry of each block: scan the blocks in order. -/
def wentries : List Block → List (Nat × Obj) → List (List (Nat × Obj))
  | [], _ => []
  | b :: l, D => D :: wentries l ((wscan b.ins D).getD [])

/-- The check. -/
def frames (prog : List Block) : Bool := prog.isEmpty || wscanB prog (wentries prog [(0, .a0), (31, .stk)])

/-- A function that passes the check leaves the registers 18 to 30 of the caller and all objects but the first argument as they are. -/
theorem ends_call {prog : List Block} {g : Entry} {args : List Reg} {m : Obj → Buf Int} {b : Obj → Buf UInt8} (h : frames prog = true) (ha : args.head? = some (.ptr .a0 0))
    (hl : args.length ≤ 18) :
    Ends (run prog (call g args m b)) fun t => (∀ r, 18 ≤ r → r ≤ 30 → t.x r = g.x r) ∧ ∀ o, o ≠ .a0 → o ≠ .stk → t.m o = m o ∧ t.b o = b o := by
  cases prog with
  | nil => exact Ends.fail
  | cons c l =>
    have hB : wscanB (c :: l) (wentries (c :: l) [(0, .a0), (31, .stk)]) = true := by simpa [frames] using h
    have hp : Pts [(0, .a0), (31, .stk)] (call g args m b) := by
      intro r o hr
      simp only [List.mem_cons, Prod.mk.injEq, List.not_mem_nil, or_false] at hr
      rcases hr with ⟨rfl, rfl⟩ | ⟨rfl, rfl⟩
      · cases args with
        | nil => cases ha
        | cons a l => simp only [List.head?_cons, Option.some.injEq] at ha; subst ha; exact ⟨0, rfl⟩
      · exact ⟨64, rfl⟩
    intro t tr e
    obtain ⟨h1, h2⟩ := ends_runB hB 100 0 (show Pts ((wentries (c :: l) [(0, .a0), (31, .stk)]).getD 0 []) _ from hp) t tr e
    refine ⟨fun r hr hr' => ?_, fun o h0 h3 => ?_⟩
    · have hm : mayWrite r = false := by
        unfold mayWrite
        rw [Bool.or_eq_false_iff]
        exact ⟨by rw [← Bool.not_eq_true]; intro h; have := Nat.le_of_ble_eq_true h; omega, by rw [← Bool.not_eq_true]; intro h; have := Nat.eq_of_beq_eq_true h; omega⟩
      rw [h1 r hm]
      unfold call
      simp only [show r ≠ 31 by omega, if_false]
      rw [List.getElem?_eq_none (by omega)]; rfl
    · obtain ⟨h4, h5⟩ := h2 o h0 h3
      refine ⟨?_, h5⟩
      rw [h4]
      unfold call
      cases o <;> first | rfl | contradiction

/-- All functions of a profile pass the check. -/
structure FramesP (P : Profile) : Prop where
  ntt : frames P.ntt = true
  intt : frames P.intt = true
  reduce : frames P.reduce = true
  tomont : frames P.tomont = true
  mulcache : frames P.mulcache = true
  basemul : ∀ K, frames (P.basemul K) = true
  tobytes : frames P.tobytes = true

theorem clean_frames : FramesP clean where
  ntt := by decide +kernel
  intt := by decide +kernel
  reduce := by decide +kernel
  tomont := by decide +kernel
  mulcache := by decide +kernel
  basemul := fun K => match K with
    | 0 | 1 | 2 | 3 | 4 => by decide +kernel
    | _ + 5 => rfl
  tobytes := by decide +kernel

theorem opt_frames : FramesP opt where
  ntt := by decide +kernel
  intt := by decide +kernel
  reduce := by decide +kernel
  tomont := by decide +kernel
  mulcache := by decide +kernel
  basemul := fun K => match K with
    | 0 | 1 | 2 | 3 | 4 => by decide +kernel
    | _ + 5 => rfl
  tobytes := by decide +kernel

end Verif.A64

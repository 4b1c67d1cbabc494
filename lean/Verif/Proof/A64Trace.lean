import Verif.Proof.NativeTrace
import Verif.Proof.NativeA64
/-! # Traces of the AArch64 functions

The trace of an assembly function depends on the general-purpose registers it uses as addresses and loop counters.  A syntactic check shows that these are set before they are read, from
the arguments, immediates and constant tables only; so two runs with the same arguments have the same trace whatever the memory, the vector registers and the other registers hold. -/
namespace Verif.A64
open Model Model.A64

/-- The two states have the same contents in the registers `D`. -/
def Agree (D : List Nat) (s s' : St) : Prop := ∀ r, r ∈ D → s.x r = s'.x r

theorem Agree.mono {D D' : List Nat} {s s' : St} (h : Agree D s s') (hD : ∀ r, r ∈ D' → r ∈ D) : Agree D' s s' := fun r hr => h r (hD r hr)

/-- Scan straight-line code; `D` are the registers known so far.  `none`: an unknown register is used. -/
def scan1 (i : Ins) (D : List Nat) : Option (List Nat) :=
  match i with
  | .adr d _ | .mov_i d _ => some (d :: D)
  | .mov_r d a | .add_i d a _ | .sub_i d a _ | .subs_i d a _ => if a ∈ D then some (d :: D) else none
  | .ldrsh d n _ | .ldrh d n _ => if n ∈ D then some (d :: D) else none
  | .ldr _ n _ | .ldr_post _ n _ | .str _ n _ | .str_post _ n _ | .ld1 _ n _ | .ld1r _ n _ | .ld2 _ _ n _ | .st2 _ _ n _ | .st3 _ _ _ n _ | .st4 _ _ _ _ n _
  | .stp_d _ _ n _ | .ldp_d _ _ n _ => if n ∈ D then some D else none
  | _ => some D

/-- `scan1` along a list. -/
def scan : List Ins → List Nat → Option (List Nat)
  | [], D => some D
  | i :: l, D => (scan1 i D).bind (scan l)

theorem Agree.putx {D : List Nat} {s s' : St} {d : Nat} {a a' : Reg} (h : Agree D s s') (e : a = a') : Agree (d :: D) (s.putx d a) (s'.putx d a') := by
  intro r hr
  unfold St.putx
  by_cases c : r = d
  · simp [c, e]
  · simp only [c, if_false]
    exact h r (by simpa [c] using hr)

theorem Agree.put {D : List Nat} {s s' : St} {d : Nat} {f f' : V} (h : Agree D s s') : Agree D (s.put d f) (s'.put d f') := h

theorem Agree.bump {D : List Nat} {s s' : St} {n : Nat} {inc : Int} (h : Agree D s s') : Agree D (s.bump n inc) (s'.bump n inc) := by
  intro r hr
  unfold St.bump St.putx
  by_cases c : r = n
  · subst c; simp [h r hr]
  · simp only [c, if_false]; exact h r hr

/-- The registers of both states are kept. -/
def Kept (s s' t t' : St) : Prop := t.x = s.x ∧ t'.x = s'.x

theorem Agree.kept {D : List Nat} {s s' t t' : St} (h : Agree D s s') (k : Kept s s' t t') : Agree D t t' := fun r hr => by rw [k.1, k.2]; exact h r hr

theorem si_addr {s s' : St} {n : Nat} {off : Int} (h : s.x n = s'.x n) : SIR (s.addr n off) (s'.addr n off) Eq := SIR.of_eq (by unfold St.addr; rw [h])

theorem si_ld {s s' : St} {n : Nat} {off : Int} {c : Nat} (h : s.x n = s'.x n) : SI (s.ld n off c) (s'.ld n off c) := by
  unfold St.ld
  refine SIR.bind (si_addr h) ?_
  rintro ⟨o, p⟩ _ rfl
  exact SIR.ite (Native.si_ldw _) SI.fail

theorem si_st {s s' : St} {n : Nat} {off : Int} {f f' : V} (h : s.x n = s'.x n) : SIR (s.st n off f) (s'.st n off f') (Kept s s') := by
  unfold St.st
  refine SIR.bind (si_addr h) ?_
  rintro ⟨o, p⟩ _ rfl
  cases o <;> first
    | exact SI.fail
    | exact SIR.ite (SIR.bind (Native.si_stw _) fun _ _ _ => SIR.pure ⟨rfl, rfl⟩) SI.fail

theorem si_stby {b b' : Buf UInt8} {p : Nat} {g g' : Nat → Nat} : ∀ c, SI (stby b p g c) (stby b' p g' c)
  | 0 => SI.pure
  | c + 1 => by
    unfold stby
    exact SIR.bind (si_stby c) fun _ _ _ => SI.wr

theorem si_st24 {s s' : St} {n : Nat} {g g' : Nat → Nat} (h : s.x n = s'.x n) : SIR (s.st24 n g) (s'.st24 n g') (Kept s s') := by
  unfold St.st24
  refine SIR.bind (si_addr h) ?_
  rintro ⟨o, p⟩ _ rfl
  exact SIR.bind (si_stby _) fun _ _ _ => SIR.pure ⟨rfl, rfl⟩

theorem si_ldt {s s' : St} {n : Nat} {off : Int} (h : s.x n = s'.x n) : SIR (s.ldt n off) (s'.ldt n off) Eq := by
  unfold St.ldt
  refine SIR.bind (si_addr h) ?_
  rintro ⟨o, p⟩ _ rfl
  exact SIR.refl _

theorem si_step {D D' : List Nat} (i : Ins) {s s' : St} (h : Agree D s s') (hs : scan1 i D = some D') : SIR (i.step s) (i.step s') (Agree D') := by
  cases i <;> simp only [scan1, Option.some.injEq, Option.ite_none_right_eq_some] at hs <;> unfold Ins.step <;> dsimp only
  case adr => subst hs; exact SIR.pure (h.putx rfl)
  case mov_i => subst hs; exact SIR.pure (h.putx rfl)
  case mov_r => obtain ⟨ha, rfl⟩ := hs; exact SIR.pure (h.putx (h _ ha))
  case add_i => obtain ⟨ha, rfl⟩ := hs; exact SIR.pure (h.putx (by rw [h _ ha]))
  case sub_i => obtain ⟨ha, rfl⟩ := hs; exact SIR.pure (h.putx (by rw [h _ ha]))
  case subs_i => obtain ⟨ha, rfl⟩ := hs; exact SIR.pure (h.putx (by rw [h _ ha]))
  case ldrsh => obtain ⟨ha, rfl⟩ := hs; exact SIR.bind (si_ldt (h _ ha)) fun _ _ e => SIR.pure (h.putx (by rw [e]))
  case ldrh => obtain ⟨ha, rfl⟩ := hs; exact SIR.bind (si_ldt (h _ ha)) fun _ _ e => SIR.pure (h.putx (by rw [e]))
  case ldr => obtain ⟨ha, rfl⟩ := hs; exact SIR.bind (si_ld (h _ ha)) fun _ _ _ => SIR.pure h.put
  case ldr_post => obtain ⟨ha, rfl⟩ := hs; exact SIR.bind (si_ld (h _ ha)) fun _ _ _ => SIR.pure (Agree.bump h.put)
  case ld1 => obtain ⟨ha, rfl⟩ := hs; exact SIR.bind (si_ld (h _ ha)) fun _ _ _ => SIR.pure (Agree.bump h.put)
  case ld1r => obtain ⟨ha, rfl⟩ := hs; exact SIR.bind (si_ld (h _ ha)) fun _ _ _ => SIR.pure (Agree.bump h.put)
  case ld2 => obtain ⟨ha, rfl⟩ := hs; exact SIR.bind (si_ld (h _ ha)) fun _ _ _ => SIR.bind (si_ld (h _ ha)) fun _ _ _ => SIR.pure (Agree.bump (Agree.put h.put))
  case ldp_d => obtain ⟨ha, rfl⟩ := hs; exact SIR.bind (si_ld (h _ ha)) fun _ _ _ => SIR.pure (Agree.put h.put)
  case str => obtain ⟨ha, rfl⟩ := hs; exact (si_st (h _ ha)).mono fun _ _ k => h.kept k
  case stp_d => obtain ⟨ha, rfl⟩ := hs; exact (si_st (h _ ha)).mono fun _ _ k => h.kept k
  case str_post => obtain ⟨ha, rfl⟩ := hs; exact SIR.bind (si_st (h _ ha)) fun _ _ k => SIR.pure (h.kept k).bump
  case st2 =>
    obtain ⟨ha, rfl⟩ := hs
    exact SIR.bind (si_st (h _ ha)) fun _ _ k => SIR.bind (si_st (h.kept k _ ha)) fun _ _ k' => SIR.pure ((h.kept k).kept k').bump
  case st3 => obtain ⟨ha, rfl⟩ := hs; exact SIR.bind (si_st24 (h _ ha)) fun _ _ k => SIR.pure (h.kept k).bump
  case st4 =>
    obtain ⟨ha, rfl⟩ := hs
    exact SIR.bind (si_st (h _ ha)) fun _ _ k => SIR.bind (si_st (h.kept k _ ha)) fun _ _ k' => SIR.bind (si_st ((h.kept k).kept k' _ ha)) fun _ _ k2 =>
      SIR.bind (si_st (((h.kept k).kept k').kept k2 _ ha)) fun _ _ k3 => SIR.pure (((h.kept k).kept k').kept k2 |>.kept k3).bump
  case dup d a =>
    subst hs
    cases s.x a <;> cases s'.x a <;> first
      | exact SIR.pure h.put
      | exact SI.fail
      | exact fun _ _ _ _ _ h => nomatch h
  all_goals subst hs; exact SIR.pure h.put

theorem si_runI {l : List Ins} {D D' : List Nat} {s s' : St} (h : Agree D s s') (hs : scan l D = some D') : SIR (runI l s) (runI l s') (Agree D') := by
  induction l generalizing D s s' with
  | nil => simp only [scan, Option.some.injEq] at hs; subst hs; exact SIR.pure h
  | cons i l ih =>
    simp only [scan, Option.bind_eq_some_iff] at hs
    obtain ⟨D1, h1, h2⟩ := hs
    exact SIR.bind (si_step i h h1) fun _ _ h' => ih h' h2

/-- `Ds` are registers known at the entry of each block. -/
def scanB (prog : List Block) (Ds : List (List Nat)) : Bool :=
  (List.range prog.length).all fun pc => match prog[pc]? with
    | none => false
    | some b => match scan b.ins (Ds.getD pc []) with
      | none => false
      | some D => match b.fin with
        | .next => (Ds.getD (pc + 1) []).all fun r => D.contains r
        | .ret => true
        | .cbnz r t => D.contains r && ((Ds.getD t []).all fun r => D.contains r) && ((Ds.getD (pc + 1) []).all fun r => D.contains r)

theorem si_runB {prog : List Block} {Ds : List (List Nat)} (hB : scanB prog Ds = true) : ∀ (f pc : Nat) {s s' : St}, Agree (Ds.getD pc []) s s' → SI (runB prog f pc s) (runB prog f pc s')
  | 0, _, _, _, _ => SI.fail
  | f + 1, pc, s, s', h => by
    unfold runB
    cases hb : prog[pc]? with
    | none => exact SI.fail
    | some b =>
      have hlt : pc < prog.length := (List.getElem?_eq_some_iff.1 hb).1
      have := List.all_eq_true.1 hB pc (List.mem_range.2 hlt)
      rw [hb] at this
      simp only at this
      cases hD : scan b.ins (Ds.getD pc []) with
      | none => rw [hD] at this; simp at this
      | some D =>
        rw [hD] at this
        simp only at this
        refine SIR.bind (si_runI h hD) fun t t' ht => ?_
        cases hf : b.fin with
        | next =>
          rw [hf] at this
          exact si_runB hB f (pc + 1) (ht.mono fun r hr => by simpa using List.all_eq_true.1 this r hr)
        | ret => exact SI.pure
        | cbnz r u =>
          rw [hf] at this
          simp only [Bool.and_eq_true] at this
          have e := ht r (by simpa using this.1.1)
          simp only
          rw [e]
          cases t'.x r with
          | ptr => exact SI.fail
          | num z =>
            exact SIR.branch (si_runB hB f u (ht.mono fun r hr => by simpa using List.all_eq_true.1 this.1.2 r hr))
              (si_runB hB f (pc + 1) (ht.mono fun r hr => by simpa using List.all_eq_true.1 this.2 r hr))

/-- The registers known at the entry of each block when those in `D` are known at the entry of the first: scan the blocks in order. -/
def entries : List Block → List Nat → List (List Nat)
  | [], _ => []
  | b :: l, D => D :: entries l ((scan b.ins D).getD [])

theorem si_run {prog : List Block} {D : List Nat} (hB : scanB prog (entries prog D) = true) (hD : (entries prog D).getD 0 [] = D) {s s' : St} (h : Agree D s s') :
    SI (run prog s) (run prog s') := si_runB hB 100 0 (by rw [hD]; exact h)

theorem agree_call {g g' : Entry} {args : List Reg} {m m' : Obj → Buf Int} {b b' : Obj → Buf UInt8} : Agree (31 :: List.range args.length) (call g args m b) (call g' args m' b') := by
  intro r hr
  unfold call
  rcases List.mem_cons.1 hr with rfl | hr
  · rfl
  · have := List.mem_range.1 hr
    simp [this]

/-- The check for a function with `n` arguments. -/
def quiet (prog : List Block) (n : Nat) : Bool := prog.isEmpty || scanB prog (entries prog (31 :: List.range n))

theorem si_call {prog : List Block} {g g' : Entry} {args : List Reg} {m m' : Obj → Buf Int} {b b' : Obj → Buf UInt8} (h : quiet prog args.length = true) :
    SI (run prog (call g args m b)) (run prog (call g' args m' b')) := by
  cases prog with
  | nil => exact SI.fail
  | cons c l => exact si_run (by simpa [quiet] using h) rfl agree_call

/-- The functions of a profile pass the check. -/
structure QuietP (P : Profile) : Prop where
  ntt : quiet P.ntt 3 = true
  intt : quiet P.intt 3 = true
  reduce : quiet P.reduce 1 = true
  tomont : quiet P.tomont 1 = true
  mulcache : quiet P.mulcache 4 = true
  basemul : ∀ K, quiet (P.basemul K) 4 = true
  tobytes : quiet P.tobytes 2 = true

theorem clean_quiet : QuietP clean where
  ntt := by decide +kernel
  intt := by decide +kernel
  reduce := by decide +kernel
  tomont := by decide +kernel
  mulcache := by decide +kernel
  basemul := fun K => match K with
    | 0 | 1 | 2 | 3 | 4 => by decide +kernel
    | _ + 5 => rfl
  tobytes := by decide +kernel

theorem opt_quiet : QuietP opt where
  ntt := by decide +kernel
  intt := by decide +kernel
  reduce := by decide +kernel
  tomont := by decide +kernel
  mulcache := by decide +kernel
  basemul := fun K => match K with
    | 0 | 1 | 2 | 3 | 4 => by decide +kernel
    | _ + 5 => rfl
  tobytes := by decide +kernel

end Verif.A64

namespace Verif.Native
open Model

theorem quiet2_aarch64 {P : A64.Profile} {Q : A64K.Profile} (h : A64.QuietP P) (hQ : Verif.A64K.OkP Q) (g g' : Regs64) : Quiet2 (aarch64 P Q g) (aarch64 P Q g') where
  perm1 := Verif.A64K.permute_si hQ
  perm25 := Verif.A64K.permute_sir25 hQ
  perm := Verif.A64K.permute4_si hQ
  ntt := @fun _ _ => by
    show SI (A64.poly_ntt P _ _) (A64.poly_ntt P _ _)
    unfold A64.poly_ntt A64.ntt_native A64.runT
    exact SIR.bind (R := Any _ _) (by si) fun _ _ _ => SIR.bind (SIR.bind (A64.si_call h.ntt) fun _ _ _ => SI.pure) fun _ _ _ => by si
  intt := @fun _ _ => by
    show SI (A64.poly_invntt_tomont P _ _) (A64.poly_invntt_tomont P _ _)
    unfold A64.poly_invntt_tomont A64.intt_native A64.runT
    exact SIR.bind (SIR.bind (A64.si_call h.intt) fun _ _ _ => SI.pure) fun _ _ _ => by si
  reduce := @fun _ _ => by
    show SI (A64.poly_reduce P _ _) (A64.poly_reduce P _ _)
    unfold A64.poly_reduce A64.poly_reduce_native A64.runP
    exact SIR.bind (SIR.bind (A64.si_call h.reduce) fun _ _ _ => SI.pure) fun _ _ _ => by si
  tomont := @fun _ _ => by
    show SI (A64.poly_tomont P _ _) (A64.poly_tomont P _ _)
    unfold A64.poly_tomont A64.poly_tomont_native A64.runP
    exact SIR.bind (SIR.bind (A64.si_call h.tomont) fun _ _ _ => SI.pure) fun _ _ _ => by si
  tobytes := @fun _ _ _ _ _ => by
    show SI (A64.poly_tobytes P _ _ _ _) (A64.poly_tobytes P _ _ _ _)
    unfold A64.poly_tobytes A64.poly_tobytes_native
    refine SIR.bind (R := Any _ _) (by si) fun _ _ _ => SIR.bind si_window fun _ _ _ => SIR.bind (A64.si_call h.tobytes) fun _ _ _ => SI.pure
  frombytes := si_poly_frombytes
  mulcache := @fun _ _ _ _ => SIR.bind (A64.si_call h.mulcache) fun _ _ _ => SI.pure
  basemul := @fun K _ _ _ _ _ _ _ _ => by
    show SI (A64.polyvec_basemul_acc_montgomery_cached P K _ _ _ _ _) (A64.polyvec_basemul_acc_montgomery_cached P K _ _ _ _ _)
    unfold A64.polyvec_basemul_acc_montgomery_cached
    exact SIR.bind (R := Any _ _) (by si) fun _ _ _ => SIR.bind (R := Any _ _) (by si) fun _ _ _ => SIR.bind (A64.si_call (h.basemul K)) fun _ _ _ => SI.pure

theorem quiet_aarch64 {P : A64.Profile} {Q : A64K.Profile} (h : A64.QuietP P) (hQ : Verif.A64K.OkP Q) (g : Regs64) : Quiet (aarch64 P Q g) :=
  have h := quiet2_aarch64 h hQ g g
  { perm1 := h.perm1, perm25 := h.perm25, perm := h.perm, ntt := h.ntt, intt := h.intt, reduce := h.reduce, tomont := h.tomont, tobytes := h.tobytes, frombytes := h.frombytes,
    mulcache := h.mulcache, basemul := h.basemul }

/-! ## Rejection sampling: the trace and the count depend on the bytes only -/

theorem si_storeu128 {r r' : Model.Poly} {o : Nat} {v v' : VB} : ∀ n, SI (storeu128 r o v n) (storeu128 r' o v' n)
  | 0 => SI.pure
  | n + 1 => by
    unfold storeu128
    exact SIR.bind (si_storeu128 n) fun _ _ _ => SI.wr

theorem si_copy8 {r r' s s' : Model.Poly} {o i : Nat} : ∀ n, SI (A64Rej.copy8 r o s i n) (A64Rej.copy8 r' o s' i n)
  | 0 => SI.pure
  | n + 1 => by
    unfold A64Rej.copy8
    exact SIR.bind (si_copy8 n) fun _ _ _ => SIR.bind SI.rd fun _ _ _ => SI.wr

/-- The two loop states agree except in the buffer on the stack. -/
def RejSt (s s' : A64Rej.St) : Prop := s.ot = s'.ot ∧ s.count = s'.count ∧ s.pos = s'.pos ∧ s.buflen = s'.buflen

theorem sir_round48 {buf : Buf UInt8} {s s' : A64Rej.St} (h : RejSt s s') : SIR (A64Rej.round48 buf s) (A64Rej.round48 buf s') RejSt := by
  obtain ⟨k, o, c, p, l⟩ := s
  obtain ⟨k', o', c', p', l'⟩ := s'
  obtain ⟨h1, h2, h3, h4⟩ := h
  dsimp only at h1 h2 h3 h4
  subst h1; subst h2; subst h3; subst h4
  unfold A64Rej.round48
  refine SIR.bind (SIR.refl _) fun x y e => ?_
  subst e
  iterate 4 refine SIR.bind (SIR.refl _) fun x y e => ?_; subst e
  iterate 4 refine SIR.bind (si_storeu128 _) fun _ _ _ => ?_
  exact SIR.pure ⟨rfl, rfl, rfl, rfl⟩

theorem sir_round24 {buf : Buf UInt8} {s s' : A64Rej.St} (h : RejSt s s') : SIR (A64Rej.round24 buf s) (A64Rej.round24 buf s') RejSt := by
  obtain ⟨k, o, c, p, l⟩ := s
  obtain ⟨k', o', c', p', l'⟩ := s'
  obtain ⟨h1, h2, h3, h4⟩ := h
  dsimp only at h1 h2 h3 h4
  subst h1; subst h2; subst h3; subst h4
  unfold A64Rej.round24
  refine SIR.bind (SIR.refl _) fun x y e => ?_
  subst e
  iterate 2 refine SIR.bind (SIR.refl _) fun x y e => ?_; subst e
  iterate 2 refine SIR.bind (si_storeu128 _) fun _ _ _ => ?_
  exact SIR.pure ⟨rfl, rfl, rfl, rfl⟩

theorem sir_rej_asm {r r' k k' : Model.Poly} {ro len : Nat} {buf : Buf UInt8} :
    SIR (A64Rej.rej_uniform_asm_clean r ro k buf len) (A64Rej.rej_uniform_asm_clean r' ro k' buf len) (fun a b => a.2 = b.2) := by
  unfold A64Rej.rej_uniform_asm_clean
  refine SIR.bind (SIR.whileM (I := RejSt) ?_ (fun _ _ h => sir_round48 h) _ _ _ ⟨rfl, rfl, rfl, rfl⟩) fun s s' h => ?_
  · rintro s s' ⟨h1, h2, h3, h4⟩
    rw [h2, h4]; exact SIR.refl _
  · have fin : ∀ s s', RejSt s s' → SIR (do
        let r ← forN 8 r fun i r => do
          let r ← A64Rej.copy8 r (ro + 32 * i) s.stk (32 * i) 8
          let r ← A64Rej.copy8 r (ro + 32 * i + 8) s.stk (32 * i + 8) 8
          let r ← A64Rej.copy8 r (ro + 32 * i + 16) s.stk (32 * i + 16) 8
          A64Rej.copy8 r (ro + 32 * i + 24) s.stk (32 * i + 24) 8
        pure (r, if s.count < 256 then s.count else 256)) (do
        let r ← forN 8 r' fun i r => do
          let r ← A64Rej.copy8 r (ro + 32 * i) s'.stk (32 * i) 8
          let r ← A64Rej.copy8 r (ro + 32 * i + 8) s'.stk (32 * i + 8) 8
          let r ← A64Rej.copy8 r (ro + 32 * i + 16) s'.stk (32 * i + 16) 8
          A64Rej.copy8 r (ro + 32 * i + 24) s'.stk (32 * i + 24) 8
        pure (r, if s'.count < 256 then s'.count else 256)) (fun a b => a.2 = b.2) := by
      intro s s' h
      refine SIR.bind (R := Any _ _) ?_ fun _ _ _ => SIR.pure ?_
      · unfold forN
        exact SI.forFrom fun i r r' => SIR.bind (si_copy8 _) fun _ _ _ => SIR.bind (si_copy8 _) fun _ _ _ => SIR.bind (si_copy8 _) fun _ _ _ => si_copy8 _
      · dsimp only; rw [h.2.1]
    dsimp only
    rw [← h.2.2.2, ← h.2.1]
    exact SIR.ite (SIR.bind (SIR.pure h) fin) (SIR.bind (SIR.branch (SIR.pure h) (SIR.branch (SIR.pure h) (sir_round24 h))) fin)

theorem sir_rej_scalar {r r' : Model.Poly} {t o len : Nat} {buf : Buf UInt8} :
    SIR (rej_uniform_scalar r t o buf len) (rej_uniform_scalar r' t o buf len) (fun a b => a.2 = b.2) := by
  unfold rej_uniform_scalar
  refine SIR.bind3 (R := fun a b => a.2 = b.2) (SIR.whileM (I := fun (a b : Model.Poly × Nat × Nat) => a.2 = b.2) ?_ ?_ _ _ _ rfl) fun a b c a' b' c' e => SIR.pure (Prod.mk.inj e).1
  · rintro ⟨r, c, p⟩ ⟨r', c', p'⟩ e
    obtain ⟨rfl, rfl⟩ := Prod.mk.inj e
    exact SIR.refl _
  · rintro ⟨r, c, p⟩ ⟨r', c', p'⟩ e
    obtain ⟨rfl, rfl⟩ := Prod.mk.inj e
    dsimp only
    iterate 4 refine SIR.bind (SIR.refl _) fun x y e => ?_; subst e
    refine SIR.bind2 (R := fun a b => a.2 = b.2) (SIR.branch (SIR.bind SI.wr fun _ _ _ => SIR.pure rfl) (SIR.pure rfl)) fun r c r' c' e => ?_
    dsimp only at e ⊢
    subst e
    refine SIR.bind (SIR.refl _) fun x y e => ?_
    subst e
    refine SIR.bind2 (R := fun a b => a.2 = b.2) (SIR.branch (SIR.bind SI.wr fun _ _ _ => SIR.pure rfl) (SIR.pure rfl)) fun r c r' c' e => ?_
    dsimp only at e ⊢
    subst e
    exact SIR.pure rfl

theorem rejAlike_aarch64 {P : A64.Profile} {Q : A64K.Profile} (g g' : Regs64) : RejAlike (aarch64 P Q g) (aarch64 P Q g') := by
  intro v v' n buf len
  show SIR (A64Rej.rej_uniform _ v 256 n buf len) (A64Rej.rej_uniform _ v' 256 n buf len) _
  unfold A64Rej.rej_uniform A64Rej.rej_uniform_native
  refine SIR.bind2 (R := fun a b => a.2 = b.2) ?_ fun r c r' c' e => ?_
  · refine SIR.bind (SIR.refl _) fun x y e => ?_
    subst e
    exact SIR.branch (SIR.pure rfl) (SIR.bind2 sir_rej_asm fun r c r' c' e => SIR.pure (congrArg some e))
  · dsimp only at e ⊢
    subst e
    exact SIR.branch (SIR.pure rfl) sir_rej_scalar

theorem quietM_aarch64 {P : A64.Profile} {Q : A64K.Profile} (h : A64.QuietP P) (hQ : Verif.A64K.OkP Q) (hP : A64.Good_ P) (g g' : Regs64) : QuietM (aarch64 P Q g) (aarch64 P Q g') :=
  have := quiet2_aarch64 h hQ g g'
  si_gen_matrix (aarch64_meets hP hQ g) (aarch64_meets hP hQ g') (rejAlike_aarch64 g g') rfl rfl

end Verif.Native

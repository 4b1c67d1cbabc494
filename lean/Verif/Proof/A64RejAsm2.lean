import Verif.Proof.A64RejAsm
/-! # The instructions of the AArch64 rejection sampler: control flow, copying of the result, the whole call -/
namespace Verif.A64RejAsm
open Model Spec Model.A64RejAsm
open Model.A64Rej (round48 round24 copy8)
open Verif.A64Rej (Inv Full round48_spec round24_spec)

theorem u16_sgn {y : Int} (h : -32768 ≤ y ∧ y ≤ 32767) : sgn16 (u16 y) = y := by
  unfold sgn16 u16
  split <;> omega

theorem u16_lt' (y : Int) : u16 y < 65536 := by unfold u16; omega

/-- A copied vector. -/
theorem copy_ret {src : Model.Poly} {o i : Nat} (hi : I16 src) : ∀ (n : Nat) {dst d : Model.Poly}, Ret (copy8 dst o src i n) d →
    ∃ f, Ret (ldh src i n) f ∧ ∀ g : Nat → Nat, (∀ k, k < n → g k = f k) → Ret (storeu128 dst o (of16 g) n) d
  | 0, dst, d, h => by
    rw [copy8, ret_pure] at h
    subst h
    exact ⟨_, Ret.pure _, fun g _ => Ret.pure _⟩
  | n + 1, dst, d, h => by
    simp only [copy8, ret_bind] at h
    obtain ⟨d1, h1, y, hy, hw⟩ := h
    obtain ⟨f, hf, hg⟩ := copy_ret hi n h1
    refine ⟨fun k => if k = n then u16 y else f k, ?_, fun g hgf => ?_⟩
    · rw [ldh]
      exact Ret.bind hf (Ret.bind hy (Ret.pure _))
    · rw [storeu128]
      refine Ret.bind (hg g fun k hk => by rw [hgf k (by omega)]; exact if_neg (by omega)) ?_
      have e : sgn16 (lane16 (of16 g) n) = y := by
        have e1 : g n = u16 y := by rw [hgf n (by omega)]; exact if_pos rfl
        rw [lane16_of16 _ _ (by rw [e1]; exact u16_lt' y), e1]
        exact u16_sgn (hi (i + n) y (ret_rd.1 hy))
      rw [e]
      exact hw

theorem copy_vec {src dst d : Model.Poly} {o i : Nat} (hi : I16 src) (h : Ret (copy8 dst o src i 8) d) : ∃ a, (∀ p : Nat, p = 2 * i → Ret (ldq src p) a) ∧ Ret (storeu128 dst o a 8) d := by
  obtain ⟨f, hf, hg⟩ := copy_ret hi 8 h
  refine ⟨of16 f, fun p hp => ?_, hg f fun _ _ => rfl⟩
  subst hp
  unfold ldq
  rw [if_pos (by omega), show 2 * i / 2 = i by omega]
  exact Ret.bind hf (Ret.pure _)

theorem ret_ldr_stk {s : St} {d n : Nat} {p off : Int} {k : Nat} {a : VB} (h : s.x n = .ptr .stk p) (hk : p + off = (k : Int)) (ha : Ret (ldq s.stk k) a) : Ret (step (.ldr d n off) s) (s.putv d a) := by
  simp only [step]
  exact Ret.bind (ret_addr h hk) (Ret.bind (a := a) (by exact ha) (Ret.pure _))

theorem ret_ldrp_stk {s : St} {d n : Nat} {p inc : Int} {k : Nat} {a : VB} (h : s.x n = .ptr .stk p) (hk : p + 0 = (k : Int)) (ha : Ret (ldq s.stk k) a) :
    Ret (step (.ldr_post d n inc) s) ((s.putv d a).putx n (.ptr .stk (p + inc))) := by
  simp only [step]
  refine Ret.bind (ret_addr h hk) (Ret.bind (a := a) (by exact ha) ?_)
  rw [h]
  exact Ret.pure _

theorem ret_st_out {s : St} {o k : Nat} {v : VB} {b : Model.Poly} (hk : k = 2 * o) (hb : Ret (storeu128 s.out o v 8) b) : Ret (s.store .out k v) { s with out := b } := by
  subst hk
  unfold St.store
  simp only
  rw [if_pos (by omega), show 2 * o / 2 = o by omega]
  exact Ret.bind hb (Ret.pure _)

theorem ret_str_out {s : St} {k n o : Nat} {p off : Int} {b : Model.Poly} (h : s.x n = .ptr .out p) (hk : p + off = ((2 * o : Nat) : Int)) (hb : Ret (storeu128 s.out o (s.v k) 8) b) :
    Ret (step (.str k n off) s) { s with out := b } := by
  simp only [step]
  exact Ret.bind (ret_addr h hk) (ret_st_out rfl hb)

theorem ret_strp_out {s : St} {k n o : Nat} {p inc : Int} {b : Model.Poly} (h : s.x n = .ptr .out p) (hk : p + 0 = ((2 * o : Nat) : Int)) (hb : Ret (storeu128 s.out o (s.v k) 8) b) :
    Ret (step (.str_post k n inc) s) (St.putx { s with out := b } n (.ptr .out (p + inc))) := by
  simp only [step]
  refine Ret.bind (ret_addr h hk) (Ret.bind (ret_st_out rfl hb) ?_)
  rw [h]
  exact Ret.pure _

theorem run_bc {f pc t : Nat} {b : Block} {c : Cond} {s s1 s' : St} {fl : Flags} (hb : prog[pc]? = some b) (he : b.fin = .bc c t) (h : Ret (exec b.ins s) s1) (hf : s1.fl = some fl)
    (h' : Ret (runB prog f (if c.holds fl then t else pc + 1) s1) s') : Ret (runB prog (f + 1) pc s) s' := by
  rw [runB, hb]
  refine Ret.bind h ?_
  rw [he]
  simp only
  rw [hf]
  simp only
  rw [ret_branch]
  split
  · next e => rwa [if_pos e] at h'
  · next e => rwa [if_neg e] at h'

theorem run_next {f pc : Nat} {b : Block} {s s1 s' : St} (hb : prog[pc]? = some b) (he : b.fin = .next) (h : Ret (exec b.ins s) s1)
    (h' : Ret (runB prog f (pc + 1) s1) s') : Ret (runB prog (f + 1) pc s) s' := by
  rw [runB, hb]
  refine Ret.bind h ?_
  rw [he]
  exact h'

theorem run_b {f pc t : Nat} {b : Block} {s s1 s' : St} (hb : prog[pc]? = some b) (he : b.fin = .b t) (h : Ret (exec b.ins s) s1)
    (h' : Ret (runB prog f t s1) s') : Ret (runB prog (f + 1) pc s) s' := by
  rw [runB, hb]
  refine Ret.bind h ?_
  rw [he]
  exact h'

theorem run_ret {f pc : Nat} {b : Block} {s s1 : St} (hb : prog[pc]? = some b) (he : b.fin = .ret) (h : Ret (exec b.ins s) s1) : Ret (runB prog (f + 1) pc s) s1 := by
  rw [runB, hb]
  refine Ret.bind h ?_
  rw [he]
  exact Ret.pure _

/-- A block of register instructions. -/
theorem exec_regs {l : List Ins} {s : St} (h : l.all isReg = true) : Ret (exec l s) (effs l s) := by
  have := ret_regs l [] s (effs l s) h (Ret.pure _)
  rwa [List.append_nil] at this

theorem hs_t {a b : Nat} (h : b ≤ a) : Cond.hs.holds (flags a b) = true := decide_eq_true h
theorem hs_f {a b : Nat} (h : a < b) : Cond.hs.holds (flags a b) = false := decide_eq_false (by omega)
theorem lo_t {a b : Nat} (h : a < b) : Cond.lo.holds (flags a b) = true := by
  show (!decide (a ≥ b)) = true
  rw [decide_eq_false (by omega)]; rfl
theorem lo_f {a b : Nat} (h : b ≤ a) : Cond.lo.holds (flags a b) = false := by
  show (!decide (a ≥ b)) = false
  rw [decide_eq_true h]; rfl

/-- The state while the result is copied. -/
structure FRel (gx : Nat → Reg) (gv : Nat → VB) (ro : Nat) (buf : Buf UInt8) (stk : Model.Poly) (c j : Nat) (s : St) (rj : Model.Poly) : Prop where
  x0 : s.x 0 = .ptr .out (2 * (ro : Int) + 64 * (j : Int))
  x7 : s.x 7 = .ptr .stk (64 * (j : Int))
  x9 : s.x 9 = .num c
  x11 : s.x 11 = .num (32 * j)
  sp : s.x 31 = .ptr .stk 0
  out : s.out = rj
  stk : s.stk = stk
  buf : s.buf = buf
  kx : ∀ i, 18 ≤ i → i ≤ 30 → s.x i = gx i
  kv : ∀ i, 8 ≤ i → i < 16 → s.v i = gv i

section
variable {gx : Nat → Reg} {gv : Nat → VB} {ro : Nat} {buf : Buf UInt8}

theorem final_step {stk rj r' : Model.Poly} {c j : Nat} {s : St} (hi : I16 stk) (hj : j < 8) (h : FRel gx gv ro buf stk c j s rj)
    (hr : Ret (do
      let r ← copy8 rj (ro + 32 * j) stk (32 * j) 8
      let r ← copy8 r (ro + 32 * j + 8) stk (32 * j + 8) 8
      let r ← copy8 r (ro + 32 * j + 16) stk (32 * j + 16) 8
      copy8 r (ro + 32 * j + 24) stk (32 * j + 24) 8) r') :
    ∃ s', Ret (exec final_copy.ins s) s' ∧ FRel gx gv ro buf stk c (j + 1) s' r' ∧ s'.fl = some (flags (32 * (j + 1)) 256) := by
  simp only [ret_bind] at hr
  obtain ⟨r1, h1, r2, h2, r3, h3, h4⟩ := hr
  obtain ⟨a0, l0, w0⟩ := copy_vec hi h1
  obtain ⟨a1, l1, w1⟩ := copy_vec hi h2
  obtain ⟨a2, l2, w2⟩ := copy_vec hi h3
  obtain ⟨a3, l3, w3⟩ := copy_vec hi h4
  have e : final_copy.ins = .ldr_post 16 7 64 :: .ldr 17 7 (-48) :: .ldr 18 7 (-32) :: .ldr 19 7 (-16) :: .str_post 16 0 64 :: .str 17 0 (-48) :: .str 18 0 (-32) :: .str 19 0 (-16) ::
    ([.add_wi 11 11 32, .cmp_i 11 256] ++ []) := rfl
  rw [e]
  obtain ⟨s1, e1⟩ : ∃ s1, s1 = (s.putv 16 a0).putx 7 (.ptr .stk (64 * (j : Int) + 64)) := ⟨_, rfl⟩
  have g1 : Ret (step (.ldr_post 16 7 64) s) s1 := by
    rw [e1]; exact ret_ldrp_stk (k := 64 * j) h.x7 (by push_cast; ring) (by rw [h.stk]; exact l0 _ (by omega))
  have y7 : s1.x 7 = .ptr .stk (64 * (j : Int) + 64) := by rw [e1]; rfl
  have k1 : s1.stk = stk := by rw [e1]; exact h.stk
  obtain ⟨s4, e4⟩ : ∃ s4, s4 = ((s1.putv 17 a1).putv 18 a2).putv 19 a3 := ⟨_, rfl⟩
  have v4 : s4.v 16 = a0 ∧ s4.v 17 = a1 ∧ s4.v 18 = a2 ∧ s4.v 19 = a3 := by rw [e4, e1]; exact ⟨rfl, rfl, rfl, rfl⟩
  have o4 : s4.out = rj := by rw [e4, e1]; exact h.out
  have x40 : s4.x 0 = .ptr .out (2 * (ro : Int) + 64 * (j : Int)) := by rw [e4, e1]; exact h.x0
  obtain ⟨s5, e5⟩ : ∃ s5, s5 = St.putx { s4 with out := r1 } 0 (.ptr .out (2 * (ro : Int) + 64 * (j : Int) + 64)) := ⟨_, rfl⟩
  have g5 : Ret (step (.str_post 16 0 64) s4) s5 := by
    rw [e5]; exact ret_strp_out (o := ro + 32 * j) x40 (by push_cast; ring) (by rw [o4, v4.1]; exact w0)
  have x50 : s5.x 0 = .ptr .out (2 * (ro : Int) + 64 * (j : Int) + 64) := by rw [e5]; rfl
  have v5 : s5.v = s4.v := by rw [e5]; rfl
  have o5 : s5.out = r1 := by rw [e5]; rfl
  obtain ⟨s8, e8⟩ : ∃ s8 : St, s8 = { s5 with out := r' } := ⟨_, rfl⟩
  have x8 : s8.x = s5.x := by rw [e8]
  have z8 : ∀ i, i ≠ 0 → i ≠ 7 → s8.x i = s.x i := fun i a b => by
    rw [x8, e5, putx_ne a, e4]
    show s1.x i = s.x i
    rw [e1, putx_ne b]; rfl
  have v8 : ∀ i, i < 16 → s8.v i = s.v i := fun i a => by
    rw [e8]
    show s5.v i = _
    rw [v5, e4, e1]
    show (if i = 19 then a3 else if i = 18 then a2 else if i = 17 then a1 else if i = 16 then a0 else s.v i) = _
    rw [if_neg (by omega), if_neg (by omega), if_neg (by omega), if_neg (by omega)]
  have w11 : (s8.x 11).w = some (32 * j) := by rw [z8 11 (by omega) (by omega), h.x11, w_num (by omega)]
  have f9 := effs_frame [.add_wi 11 11 32, .cmp_i 11 256] s8 rfl
  have d11 : (effs [.add_wi 11 11 32, .cmp_i 11 256] s8).x 11 = .num (32 * (j + 1)) := by
    show Reg.ofw ((s8.x 11).w.map (· + 32)) = _
    rw [w11]
    simp only [Option.map_some, Reg.ofw, u32]
    congr 1; omega
  have dn : ∀ i, i ≠ 11 → (effs [.add_wi 11 11 32, .cmp_i 11 256] s8).x i = s8.x i := fun i a => by
    simp only [effs, List.foldl, eff, St.putx, if_neg a]
  refine ⟨effs [.add_wi 11 11 32, .cmp_i 11 256] s8, ?_, ?_, ?_⟩
  · refine ret_step g1 (ret_step (ret_ldr_stk (k := 64 * j + 16) y7 (by push_cast; ring) (by rw [k1]; exact l1 _ (by omega)))
      (ret_step (ret_ldr_stk (s := s1.putv 17 a1) (k := 64 * j + 32) y7 (by push_cast; ring) (by show Ret (ldq s1.stk _) _; rw [k1]; exact l2 _ (by omega)))
      (ret_step (ret_ldr_stk (s := (s1.putv 17 a1).putv 18 a2) (k := 64 * j + 48) y7 (by push_cast; ring) (by show Ret (ldq s1.stk _) _; rw [k1]; exact l3 _ (by omega))) ?_)))
    rw [← e4]
    refine ret_step g5 (ret_step (ret_str_out (o := ro + 32 * j + 8) (b := r2) x50 (by push_cast; ring) (by rw [o5, v5, v4.2.1]; exact w1))
      (ret_step (ret_str_out (s := { s5 with out := r2 }) (o := ro + 32 * j + 16) (b := r3) x50 (by push_cast; ring) (by show Ret (storeu128 r2 _ (s5.v 18) 8) _; rw [v5, v4.2.2.1]; exact w2))
      (ret_step (ret_str_out (s := { s5 with out := r3 }) (o := ro + 32 * j + 24) (b := r') x50 (by push_cast; ring) (by show Ret (storeu128 r3 _ (s5.v 19) 8) _; rw [v5, v4.2.2.2]; exact w3)) ?_)))
    show Ret (exec _ { s5 with out := r' }) _
    rw [← e8]
    exact ret_regs _ _ _ _ rfl (Ret.pure _)
  · exact {
      x0 := by rw [dn 0 (by omega), x8, x50]; congr 1 <;> (push_cast; ring)
      x7 := by rw [dn 7 (by omega), x8, e5, putx_ne (by omega), e4]; show s1.x 7 = _; rw [y7]; congr 1
      x9 := by rw [dn 9 (by omega), z8 9 (by omega) (by omega)]; exact h.x9
      x11 := d11
      sp := by rw [dn 31 (by omega), z8 31 (by omega) (by omega)]; exact h.sp
      out := by rw [f9.2.2.1, e8]
      stk := by rw [f9.2.2.2.1, e8, e5, e4]; exact k1
      buf := by rw [f9.2.2.2.2, e8, e5, e4, e1]; exact h.buf
      kx := fun i a b => by rw [dn i (by omega), z8 i (by omega) (by omega)]; exact h.kx i a b
      kv := fun i a b => by rw [f9.2.1 i a b, v8 i (by omega)]; exact h.kv i a b }
  · show cmpFlags (Reg.ofw ((s8.x 11).w.map (· + 32))).w (some 256) = _
    rw [w11]
    simp only [Option.map_some, Reg.ofw, Reg.w, cmpFlags, u32]
    congr 2; omega

theorem lt_flags {j : Nat} (hj : j < 8) : Cond.lt.holds (flags (32 * (j + 1)) 256) = decide (j + 1 < 8) := by
  rcases j with _|_|_|_|_|_|_|_|_ <;> first | decide +kernel | omega

/-- The copying loop. -/
theorem final_loop {stk : Model.Poly} {c : Nat} (hi : I16 stk) : ∀ (n j f : Nat) (s : St) (rj rf : Model.Poly), j + (n + 1) = 8 → FRel gx gv ro buf stk c j s rj →
    Ret (forFrom j (n + 1) rj fun i r => do
      let r ← copy8 r (ro + 32 * i) stk (32 * i) 8
      let r ← copy8 r (ro + 32 * i + 8) stk (32 * i + 8) 8
      let r ← copy8 r (ro + 32 * i + 16) stk (32 * i + 16) 8
      copy8 r (ro + 32 * i + 24) stk (32 * i + 24) 8) rf →
    ∃ s', FRel gx gv ro buf stk c 8 s' rf ∧ ∀ s'', Ret (runB prog f 8 s') s'' → Ret (runB prog (f + (n + 1)) 7 s) s'' := by
  intro n
  induction n with
  | zero =>
    intro j f s rj rf hj h hr
    rw [forFrom, ret_bind] at hr
    obtain ⟨_, _, hr⟩ := hr
    rw [ret_bind] at hr
    obtain ⟨r1, h1, hr⟩ := hr
    rw [forFrom, ret_bind] at hr
    obtain ⟨_, _, hr⟩ := hr
    rw [ret_pure] at hr
    subst hr
    obtain ⟨s', g, hs, hf⟩ := final_step hi (by omega) h h1
    refine ⟨s', by rwa [show j + 1 = 8 by omega] at hs, fun s'' h'' => run_bc (b := final_copy) rfl rfl g hf ?_⟩
    rw [lt_flags (by omega), decide_eq_false (by omega)]
    exact h''
  | succ n ih =>
    intro j f s rj rf hj h hr
    rw [forFrom, ret_bind] at hr
    obtain ⟨_, _, hr⟩ := hr
    rw [ret_bind] at hr
    obtain ⟨r1, h1, hr⟩ := hr
    obtain ⟨s1, g, hs, hf⟩ := final_step hi (by omega) h h1
    obtain ⟨s', h', hk⟩ := ih (j + 1) f s1 r1 rf (by omega) hs hr
    refine ⟨s', h', fun s'' h'' => run_bc (b := final_copy) (f := f + (n + 1)) rfl rfl g hf ?_⟩
    rw [lt_flags (by omega), decide_eq_true (by omega), if_pos rfl]
    exact hk s'' h''

variable {r : Model.Poly}

/-- What holds at the return. -/
structure Done (gx : Nat → Reg) (gv : Nat → VB) (buf : Buf UInt8) (rf : Model.Poly) (c : Nat) (s : St) : Prop where
  x0 : s.x 0 = .num c
  sp : s.x 31 = .ptr .stk 576
  out : s.out = rf
  buf : s.buf = buf
  kx : ∀ i, 18 ≤ i → i ≤ 30 → s.x i = gx i
  kv : ∀ i, 8 ≤ i → i < 16 → s.v i = gv i

/-- From `memory_copy` to the end. -/
theorem tail_sim {s : St} {st : Model.A64Rej.St} {rf : Model.Poly} {f : Nat} (h : Rel gx gv r ro buf s st) (hc : st.count < 4294967296)
    (hr : Ret (forN 8 r fun i r => do
      let r ← copy8 r (ro + 32 * i) st.stk (32 * i) 8
      let r ← copy8 r (ro + 32 * i + 8) st.stk (32 * i + 8) 8
      let r ← copy8 r (ro + 32 * i + 16) st.stk (32 * i + 16) 8
      copy8 r (ro + 32 * i + 24) st.stk (32 * i + 24) 8) rf) :
    ∃ s', Ret (runB prog (f + 11) 6 s) s' ∧ Done gx gv buf rf (if st.count < 256 then st.count else 256) s' := by
  obtain ⟨c, ec⟩ : ∃ c, c = if st.count < 256 then st.count else 256 := ⟨_, rfl⟩
  have hc2 : c < 4294967296 := by rw [ec]; split <;> omega
  rw [← ec]
  obtain ⟨s1, e1⟩ : ∃ s1, s1 = effs memory_copy.ins s := ⟨_, rfl⟩
  have f1 := effs_frame memory_copy.ins s rfl
  rw [← e1] at f1
  have n1 : ∀ i, i ≠ 7 → i ≠ 9 → i ≠ 11 → s1.x i = s.x i := fun i a b d => by
    rw [e1]; simp only [memory_copy, effs, List.foldl, eff, St.putx, if_neg a, if_neg b, if_neg d]
  have h9 : s1.x 9 = .num c := by
    rw [e1]
    show (match cmpFlags (s.x 9).w (s.x 3).w with | some f => Reg.ofw (if Cond.lo.holds f then (s.x 9).w else (s.x 3).w) | none => .bad) = _
    rw [h.x9, h.x3, w_num hc, w_num (by omega)]
    simp only [cmpFlags]
    by_cases hk : st.count < 256
    · rw [lo_t hk]
      rw [if_pos hk] at ec
      simp only [if_true, Reg.ofw, u32]
      rw [ec]; congr 1; omega
    · rw [lo_f (by omega)]
      rw [if_neg hk] at ec
      rw [ec]
      rfl
  have F1 : FRel gx gv ro buf st.stk c 0 s1 r := {
    x0 := by rw [n1 0 (by omega) (by omega) (by omega), h.x0]; congr 1
    x7 := by rw [e1]; show s.x 8 = _; rw [h.x8]; congr 1
    x9 := h9
    x11 := by rw [e1]; rfl
    sp := by rw [n1 31 (by omega) (by omega) (by omega)]; exact h.sp
    out := by rw [f1.2.2.1]; exact h.out
    stk := by rw [f1.2.2.2.1]; exact h.stk
    buf := by rw [f1.2.2.2.2]; exact h.buf
    kx := fun i a b => by rw [f1.1 i a b]; exact h.kx i a b
    kv := fun i a b => by rw [f1.2.1 i a b]; exact h.kv i a b }
  obtain ⟨s2, F2, k2⟩ := final_loop (gx := gx) (gv := gv) (buf := buf) h.i16 7 0 (f + 2) s1 r rf (by omega) F1 hr
  obtain ⟨s3, e3⟩ : ∃ s3, s3 = effs end_.ins s2 := ⟨_, rfl⟩
  obtain ⟨s4, e4⟩ : ∃ s4, s4 = effs return_.ins s3 := ⟨_, rfl⟩
  have f3 := effs_frame end_.ins s2 rfl
  have f4 := effs_frame return_.ins s3 rfl
  rw [← e3] at f3
  rw [← e4] at f4
  refine ⟨s4, run_next (b := memory_copy) rfl rfl (exec_regs rfl) ?_, ?_⟩
  · rw [← e1]
    refine k2 s4 (run_b (b := end_) rfl rfl (exec_regs rfl) ?_)
    rw [← e3]
    refine run_ret (b := return_) rfl rfl ?_
    rw [e4]
    exact exec_regs rfl
  · exact {
      x0 := by
        rw [e4, e3]
        show Reg.ofw (s2.x 9).w = _
        rw [F2.x9, w_num hc2]
        simp only [Reg.ofw, u32]
        congr 1; omega
      sp := by
        rw [e4, e3]
        show (s2.x 31).plus 576 = _
        rw [F2.sp]
        rfl
      out := by rw [f4.2.2.1, f3.2.2.1]; exact F2.out
      buf := by rw [f4.2.2.2.2, f3.2.2.2.2]; exact F2.buf
      kx := fun i a b => by rw [f4.1 i a b, f3.1 i a b]; exact F2.kx i a b
      kv := fun i a b => by rw [f4.2.1 i a b, f3.2.1 i a b]; exact F2.kv i a b }

theorem ret_andM {a b c : Bool} (h : Ret (andM a b) c) : c = (a && b) := by
  unfold andM at h
  rw [ret_branch] at h
  cases a
  · exact (ret_pure.1 h).symm
  · exact (ret_pure.1 h).symm

/-- A comparison leaves everything but the flags. -/
theorem Rel.cmp {s : St} {st : Model.A64Rej.St} {fl : Option Flags} (h : Rel gx gv r ro buf s st) : Rel gx gv r ro buf { s with fl := fl } st :=
  ⟨h.x0, h.x1, h.w2, h.x3, h.x5, h.x7, h.x8, h.x9, h.sp, h.q, h.bits, h.out, h.stk, h.buf, h.kx, h.kv, h.i16⟩

/-- `cmp count, len`. -/
theorem cmp_count {s : St} {st : Model.A64Rej.St} (h : Rel gx gv r ro buf s st) (hc : st.count < 4294967296) :
    Ret (exec [.cmp 9 3] s) { s with fl := some (flags st.count 256) } := by
  have e : effs [.cmp 9 3] s = { s with fl := some (flags st.count 256) } := by
    show { s with fl := cmpFlags (s.x 9).w (s.x 3).w } = _
    rw [h.x9, h.x3, w_num hc, w_num (by omega)]
    rfl
  rw [← e]
  exact exec_regs rfl

/-- The loop: from its test on `buflen` to the block after it. -/
theorem loop_sim {L : List UInt8} (hb : Seg buf 0 L.length (fun i => L.getD i 0)) (hL : L.length < 4294967296) : ∀ (n f : Nat) (s : St) (st stf : Model.A64Rej.St), Rel gx gv r ro buf s st →
    (∃ b, Inv L 288 st b ∧ b.length < 288) →
    Ret (whileM n (fun s => andM (decide (s.buflen ≥ 48)) (decide (s.count < 256))) (fun s => round48 buf s) st) stf →
    ∃ s' f', f ≤ f' ∧ Rel gx gv r ro buf s' stf ∧ (∃ b, Inv L 288 stf b ∧ b.length < 288) ∧
      ∀ s'', Ret (runB prog f' (if 48 ≤ stf.buflen then 6 else 3) s') s'' → Ret (runB prog (f + 2 * n + 1) (if 48 ≤ st.buflen then 1 else 3) s) s'' := by
  intro n
  induction n with
  | zero =>
    intro f s st stf h hI hr
    rw [whileM, ret_bind] at hr
    obtain ⟨c, h1, hr⟩ := hr
    have hc := ret_andM h1
    rw [ret_branch] at hr
    have hc' : c = false := by
      cases c
      · rfl
      · exact (ret_fail hr).elim
    subst hc'
    have e : st = stf := ret_pure.1 hr
    subst e
    obtain ⟨b, hI, hbl⟩ := hI
    have hcl : st.count < 4294967296 := by rw [hI.count]; omega
    by_cases h48 : 48 ≤ st.buflen
    · refine ⟨{ s with fl := some (flags st.count 256) }, f, Nat.le_refl _, h.cmp, ⟨b, hI, hbl⟩, fun s'' h'' => ?_⟩
      rw [if_pos h48] at h'' ⊢
      refine run_bc (b := loop48) rfl rfl (cmp_count h hcl) rfl ?_
      have : ¬ st.count < 256 := fun hh => by simp [h48, hh] at hc
      rw [hs_t (by omega)]
      exact h''
    · refine ⟨s, f + 2 * 0 + 1, by omega, h, ⟨b, hI, hbl⟩, fun s'' h'' => by rwa [if_neg h48] at h'' ⊢⟩
  | succ n ih =>
    intro f s st stf h hI hr
    rw [whileM, ret_bind] at hr
    obtain ⟨c, h1, hr⟩ := hr
    have hc := ret_andM h1
    rw [ret_branch] at hr
    obtain ⟨b, hI, hbl⟩ := hI
    have hcl : st.count < 4294967296 := by rw [hI.count]; omega
    have hp := hI.pos
    cases c with
    | false =>
      have e : st = stf := ret_pure.1 hr
      subst e
      by_cases h48 : 48 ≤ st.buflen
      · refine ⟨{ s with fl := some (flags st.count 256) }, f + 2 * (n + 1), by omega, h.cmp, ⟨b, hI, hbl⟩, fun s'' h'' => ?_⟩
        rw [if_pos h48] at h'' ⊢
        refine run_bc (b := loop48) rfl rfl (cmp_count h hcl) rfl ?_
        have : ¬ st.count < 256 := fun hh => by simp [h48, hh] at hc
        rw [hs_t (by omega)]
        exact h''
      · exact ⟨s, f + 2 * (n + 1) + 1, by omega, h, ⟨b, hI, hbl⟩, fun s'' h'' => by rwa [if_neg h48] at h'' ⊢⟩
    | true =>
      have hc' : (decide (st.buflen ≥ 48) && decide (st.count < 256)) = true := hc.symm
      simp only [Bool.and_eq_true, decide_eq_true_eq] at hc'
      obtain ⟨h48, h256⟩ := hc'
      rw [if_pos rfl, ret_bind] at hr
      obtain ⟨st1, h2, hr⟩ := hr
      obtain ⟨st1', h2', b', hI', _, hl'⟩ := Post.ret (round48_spec hb hI h48 h256 (Nat.le_refl _))
      have e := Ret.unique h2 h2'
      subst e
      have hb256 : b.length < 256 := by rw [← hI.count]; exact h256
      obtain ⟨s1, g1, R1, F1⟩ := body48_sim (h.cmp (fl := some (flags st.count 256))) h48 (by omega) h2 (by rw [hI'.count]; omega)
      obtain ⟨s', f', hf', R', I', k'⟩ := ih f s1 st1 stf R1 ⟨b', hI', by omega⟩ hr
      refine ⟨s', f', hf', R', I', fun s'' h'' => ?_⟩
      rw [if_pos h48]
      show Ret (runB prog (f + 2 * n + 1 + 1 + 1) 1 s) s''
      refine run_bc (b := loop48) rfl rfl (cmp_count h hcl) rfl ?_
      rw [hs_f h256]
      refine run_bc (b := body48) rfl rfl g1 F1 ?_
      have hk := k' s'' h''
      by_cases h48' : 48 ≤ st1.buflen
      · rw [if_pos h48'] at hk
        rw [hs_t h48']
        exact hk
      · rw [if_neg h48'] at hk
        rw [hs_f (by omega)]
        exact hk

/-- The state after the prologue. -/
theorem prologue_sim {gf : Option Flags} {hi buflen : Nat} {stk : Model.Poly} (hl : buflen < 4294967296) (h16 : I16 stk) :
    ∃ s', Ret (exec prologue.ins (entry gx gv gf hi r ro stk buf buflen)) s' ∧ Rel gx gv r ro buf s' ⟨stk, 0, 0, 0, buflen⟩ ∧ s'.fl = some (flags buflen 48) := by
  have e : prologue.ins = [.sub_xi 31 31 576, .adr 6 .bits, .adr 5 .tab] ++ (.ldr 31 6 0 :: ([.mov_wi 11 3329] ++ (.dup 30 11 :: ([.add_xi 8 31 0, .mov_x 7 8, .mov_wi 9 0, .mov_wi 3 256, .cmp_i 2 48] ++ [])))) := rfl
  rw [e]
  obtain ⟨s0, e0⟩ : ∃ s0, s0 = entry gx gv gf hi r ro stk buf buflen := ⟨_, rfl⟩
  rw [← e0]
  obtain ⟨s1, e1⟩ : ∃ s1, s1 = effs [.sub_xi 31 31 576, .adr 6 .bits, .adr 5 .tab] s0 := ⟨_, rfl⟩
  have hbits : Ret (ldq (Buf.ofList bitTable) 0) Model.A64Rej.bits := by
    have e2 : ∃ f, Ret (ldh (Buf.ofList bitTable) 0 8) f ∧ f = fun k => [0x1, 0x2, 0x4, 0x8, 0x10, 0x20, 0x40, 0x80].getD k 0 := by
      refine ⟨_, ⟨_, rfl⟩, ?_⟩
      funext k
      rcases k with _|_|_|_|_|_|_|_|k <;> simp [u16]
    obtain ⟨f, h1, rfl⟩ := e2
    unfold ldq
    rw [if_pos (by omega)]
    exact Ret.bind h1 (Ret.pure _)
  have g2 : Ret (step (.ldr 31 6 0) s1) (s1.putv 31 Model.A64Rej.bits) := by
    simp only [step]
    refine Ret.bind (ret_addr (o := .bits) (p := 0) (k := 0) (by rw [e1]; rfl) (by simp)) (Ret.bind (a := Model.A64Rej.bits) (by exact hbits) (Ret.pure _))
  obtain ⟨s3, e3⟩ : ∃ s3, s3 = effs [.mov_wi 11 3329] (s1.putv 31 Model.A64Rej.bits) := ⟨_, rfl⟩
  have g4 : Ret (step (.dup 30 11) s3) (s3.putv 30 Model.A64Rej.mlkem_q) := by
    simp only [step]
    rw [e3]
    exact Ret.pure _
  obtain ⟨s5, e5⟩ : ∃ s5, s5 = effs [.add_xi 8 31 0, .mov_x 7 8, .mov_wi 9 0, .mov_wi 3 256, .cmp_i 2 48] (s3.putv 30 Model.A64Rej.mlkem_q) := ⟨_, rfl⟩
  have w2 : (Reg.num (4294967296 * hi + buflen)).w = some buflen := by
    simp only [Reg.w, u32]; congr 1; omega
  have kx : ∀ i, 18 ≤ i → i ≤ 30 → s5.x i = gx i := fun i a b => by
    rw [e5, e3, e1, e0]
    simp only [effs, List.foldl, eff, St.putx, St.putv, entry]
    repeat rw [if_neg (by omega)]
  have kv : ∀ i, 8 ≤ i → i < 16 → s5.v i = gv i := fun i a b => by
    rw [e5, e3, e1, e0]
    simp only [effs, List.foldl, eff, St.putx, St.putv, entry]
    repeat rw [if_neg (by omega)]
  refine ⟨s5, ?_, ?_, ?_⟩
  · refine ret_regs _ _ _ _ rfl ?_
    rw [← e1]
    refine ret_step g2 (ret_regs _ _ _ _ rfl ?_)
    rw [← e3]
    refine ret_step g4 (ret_regs _ _ _ _ rfl ?_)
    rw [← e5]
    exact Ret.pure _
  · exact {
      x0 := by rw [e5, e3, e1, e0]; rfl
      x1 := by rw [e5, e3, e1, e0]; rfl
      w2 := by rw [e5, e3, e1, e0]; exact w2
      x3 := by rw [e5]; rfl
      x5 := by rw [e5, e3, e1]; rfl
      x7 := by rw [e5, e3, e1, e0]; rfl
      x8 := by rw [e5, e3, e1, e0]; rfl
      x9 := by rw [e5]; rfl
      sp := by rw [e5, e3, e1, e0]; rfl
      q := by rw [e5]; rfl
      bits := by rw [e5, e3]; rfl
      out := by rw [e5, e3, e1, e0]; rfl
      stk := by rw [e5, e3, e1, e0]; rfl
      buf := by rw [e5, e3, e1, e0]; rfl
      kx := kx
      kv := kv
      i16 := h16 }
  · rw [e5, e3, e1, e0]
    show cmpFlags (Reg.num (4294967296 * hi + buflen)).w (some 48) = _
    rw [w2]
    rfl

/-- A call executes the transcription. -/
theorem call_sim {gf : Option Flags} {hi : Nat} {stk rf : Model.Poly} {n : Nat} {L : List UInt8} (hL : L.length < 4294967296) (hst : stk.size = 288) (hfull : Full stk) (h16 : I16 stk)
    (hb : Seg buf 0 L.length (fun i => L.getD i 0)) (hr : Ret (Model.A64Rej.rej_uniform_asm_clean r ro stk buf L.length) (rf, n)) :
    ∃ s', Ret (call gx gv gf hi r ro stk buf L.length) s' ∧ Done gx gv buf rf n s' := by
  unfold Model.A64Rej.rej_uniform_asm_clean at hr
  rw [ret_bind] at hr
  obtain ⟨st1, h1, hr⟩ := hr
  have hr' : ∃ st2, Ret (if st1.buflen ≥ 48 then pure st1 else branch (decide (st1.count ≥ 256)) (pure st1) (branch (decide (st1.buflen < 24)) (pure st1) (round24 buf st1))) st2 ∧
      Ret (forN 8 r fun i r => do
        let r ← copy8 r (ro + 32 * i) st2.stk (32 * i) 8
        let r ← copy8 r (ro + 32 * i + 8) st2.stk (32 * i + 8) 8
        let r ← copy8 r (ro + 32 * i + 16) st2.stk (32 * i + 16) 8
        copy8 r (ro + 32 * i + 24) st2.stk (32 * i + 24) 8) rf ∧ n = if st2.count < 256 then st2.count else 256 := by
    by_cases h48 : st1.buflen ≥ 48
    · simp only [if_pos h48] at hr ⊢
      rw [ret_bind] at hr
      obtain ⟨st2, h2, hr⟩ := hr
      rw [ret_bind] at hr
      obtain ⟨rf', h3, hr⟩ := hr
      rw [ret_pure] at hr
      cases hr
      exact ⟨st2, h2, h3, rfl⟩
    · simp only [if_neg h48] at hr ⊢
      rw [ret_bind] at hr
      obtain ⟨st2, h2, hr⟩ := hr
      rw [ret_bind] at hr
      obtain ⟨rf', h3, hr⟩ := hr
      rw [ret_pure] at hr
      cases hr
      exact ⟨st2, h2, h3, rfl⟩
  obtain ⟨st2, h2, h3, rfl⟩ := hr'
  clear hr
  obtain ⟨s1, g1, R1, F1⟩ := prologue_sim (gx := gx) (gv := gv) (r := r) (ro := ro) (buf := buf) (gf := gf) (hi := hi) hL h16
  obtain ⟨s2, f2, hf2, R2, ⟨b2, I2, hb2⟩, k2⟩ := loop_sim hb hL L.length 18 s1 _ st1 R1
    ⟨[], ⟨hst, hfull, fun i hi => by simp at hi, rfl, rfl, by simp, rfl⟩, by simp⟩ h1
  have hc1 : st1.count < 4294967296 := by rw [I2.count]; omega
  have hp1 := I2.pos
  -- it suffices to run from the end of the loop
  suffices hs : ∃ s', Ret (runB prog f2 (if 48 ≤ st1.buflen then 6 else 3) s2) s' ∧ Done gx gv buf rf (if st2.count < 256 then st2.count else 256) s' by
    obtain ⟨s', hs1, hs2⟩ := hs
    refine ⟨s', ?_, hs2⟩
    unfold call
    rw [show 2 * L.length + 20 = 18 + 2 * L.length + 1 + 1 by omega]
    refine run_bc (b := prologue) rfl rfl g1 F1 ?_
    have := k2 s' hs1
    by_cases h48 : 48 ≤ L.length
    · rw [if_pos h48] at this
      rw [lo_f h48]
      exact this
    · rw [if_neg h48] at this
      rw [lo_t (by omega)]
      exact this
  by_cases h48 : 48 ≤ st1.buflen
  · rw [if_pos h48] at h2 ⊢
    have e := ret_pure.1 h2
    subst e
    obtain ⟨f, rfl⟩ : ∃ f, f2 = f + 11 := ⟨f2 - 11, by omega⟩
    exact tail_sim R2 hc1 h3
  · rw [if_neg h48] at h2 ⊢
    rw [ret_branch] at h2
    obtain ⟨f, rfl⟩ : ∃ f, f2 = f + 11 + 1 + 1 + 1 := ⟨f2 - 14, by omega⟩
    by_cases h256 : st1.count ≥ 256
    · rw [decide_eq_true h256, if_pos rfl] at h2
      have e := ret_pure.1 h2
      subst e
      obtain ⟨s', q1, q2⟩ := tail_sim (f := f + 1 + 1) R2.cmp hc1 h3
      refine ⟨s', run_bc (b := loop48_end) rfl rfl (cmp_count R2 hc1) rfl ?_, q2⟩
      rw [hs_t h256]
      exact q1
    · rw [decide_eq_false h256] at h2
      have h2' : Ret (branch (decide (st1.buflen < 24)) (pure st1) (round24 buf st1)) st2 := h2
      rw [ret_branch] at h2'
      have g24 : ∀ s : St, Rel gx gv r ro buf s st1 → Ret (exec [.cmp_i 2 24] s) { s with fl := some (flags st1.buflen 24) } := fun s R => by
        have e : effs [.cmp_i 2 24] s = { s with fl := some (flags st1.buflen 24) } := by
          show { s with fl := cmpFlags (s.x 2).w (some 24) } = _
          rw [R.w2]
          rfl
        rw [← e]
        exact exec_regs rfl
      have R3 := R2.cmp (fl := some (flags st1.count 256))
      by_cases h24 : st1.buflen < 24
      · rw [decide_eq_true h24, if_pos rfl] at h2'
        have e := ret_pure.1 h2'
        subst e
        obtain ⟨s', q1, q2⟩ := tail_sim (f := f + 1) (R3.cmp (fl := some (flags st1.buflen 24))) hc1 h3
        refine ⟨s', run_bc (b := loop48_end) rfl rfl (cmp_count R2 hc1) rfl ?_, q2⟩
        rw [hs_f (by omega)]
        refine run_bc (b := check24) rfl rfl (g24 _ R3) rfl ?_
        rw [lo_t h24]
        exact q1
      · rw [decide_eq_false h24] at h2'
        have h2'' : Ret (round24 buf st1) st2 := h2'
        obtain ⟨st2', h5, b', hI', _⟩ := Post.ret (round24_spec hb I2 (by omega) (by omega) (Nat.le_refl _))
        have e := Ret.unique h2'' h5
        subst e
        have hc2 : st2.count < 4294967296 := by
          rw [hI'.count]
          have hle : b'.length ≤ 288 := by
            by_contra hgt
            have := hI'.has 288 (by omega)
            rw [Array.getElem?_eq_none (by rw [hI'.size])] at this
            cases this
          omega
        obtain ⟨s4, g4, R4⟩ := body24_sim (R3.cmp (fl := some (flags st1.buflen 24))) (by omega) (by omega) h2'' hc2
        obtain ⟨s', q1, q2⟩ := tail_sim (f := f) R4 hc2 h3
        refine ⟨s', run_bc (b := loop48_end) rfl rfl (cmp_count R2 hc1) rfl ?_, q2⟩
        rw [hs_f (by omega)]
        refine run_bc (b := check24) rfl rfl (g24 _ R3) rfl ?_
        rw [lo_f (by omega)]
        exact run_next (b := body24) rfl rfl g4 q1

end

end Verif.A64RejAsm

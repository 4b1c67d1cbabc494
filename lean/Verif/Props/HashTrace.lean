import Verif.Props.ConstantTime
import Verif.Props.Hash
/-! # C36 as a function: the trace of a hash computation is determined by the lengths

Together with C26 and C28 this says that the calls return, with the digest of the standard, and with a sequence of branches and addresses that is a function of the lengths alone. -/
namespace Verif.Props
open Verif Verif.Model Verif.Spec

attribute [local irreducible] keccakF partialK finK blocksK sqByte SHAKE256 SHA3_256 SHA3_512 SHAKE128

/-- If runs with equal keys return with equal traces, the trace is a function of the key. -/
theorem trace_function {ι κ α : Type} (f : ι → M α) (r : ι → α) (k : ι → κ) (hr : ∀ i, Returns (f i) (r i))
    (h : ∀ i j t t', k i = k j → ReturnsTr (f i) (r i) t → ReturnsTr (f j) (r j) t' → t = t') : ∃ T : κ → List Ev, ∀ i, ReturnsTr (f i) (r i) (T (k i)) := by
  classical
  refine ⟨fun x => if hx : ∃ t i, k i = x ∧ ReturnsTr (f i) (r i) t then hx.choose else [], fun i => ?_⟩
  obtain ⟨t, ht⟩ := hr i
  have hx : ∃ t j, k j = k i ∧ ReturnsTr (f j) (r j) t := ⟨t, i, rfl, ht⟩
  dsimp only
  rw [dif_pos hx]
  obtain ⟨j, hk, hj⟩ := hx.choose_spec
  rw [h j i _ _ hk hj ht]
  exact ht

/-- **C36 (SHA3-256).** -/
theorem C36_sha3_256_trace : ∃ T : Nat → List Ev, ∀ (m : List UInt8) (out : Buf UInt8), m.length + 200 < 2 ^ 64 → out.size = 32 →
    ReturnsTr (sha3_256 out 0 (Buf.ofList m) 0 m.length) (Buf.ofList (SHA3_256 m)) (T m.length) := by
  obtain ⟨T, h⟩ := trace_function (ι := { x : List UInt8 × Buf UInt8 // x.1.length + 200 < 2 ^ 64 ∧ x.2.size = 32 })
    (fun x => sha3_256 x.1.2 0 (Buf.ofList x.1.1) 0 x.1.1.length) (fun x => Buf.ofList (SHA3_256 x.1.1)) (fun x => x.1.1.length)
    (fun x => C26_sha3_256 x.1.1 x.2.1 x.1.2 x.2.2) (fun x y t t' e h h' => by
      rw [← e] at h'
      exact C36_sha3_256 x.2.1 h h')
  exact ⟨T, fun m out hm ho => h ⟨(m, out), hm, ho⟩⟩

/-- **C36 (SHA3-512).** -/
theorem C36_sha3_512_trace : ∃ T : Nat → List Ev, ∀ (m : List UInt8) (out : Buf UInt8), m.length + 200 < 2 ^ 64 → out.size = 64 →
    ReturnsTr (sha3_512 out 0 (Buf.ofList m) 0 m.length) (Buf.ofList (SHA3_512 m)) (T m.length) := by
  obtain ⟨T, h⟩ := trace_function (ι := { x : List UInt8 × Buf UInt8 // x.1.length + 200 < 2 ^ 64 ∧ x.2.size = 64 })
    (fun x => sha3_512 x.1.2 0 (Buf.ofList x.1.1) 0 x.1.1.length) (fun x => Buf.ofList (SHA3_512 x.1.1)) (fun x => x.1.1.length)
    (fun x => C26_sha3_512 x.1.1 x.2.1 x.1.2 x.2.2) (fun x y t t' e h h' => by
      rw [← e] at h'
      exact C36_sha3_512 x.2.1 h h')
  exact ⟨T, fun m out hm ho => h ⟨(m, out), hm, ho⟩⟩

/-- **C36 (SHAKE256).**  The trace depends on the length of the message and the number of bytes asked for. -/
theorem C36_shake256_trace : ∃ T : Nat × Nat → List Ev, ∀ (m : List UInt8) (n : Nat) (out : Buf UInt8), m.length + 200 < 2 ^ 64 → n < 2 ^ 64 → out.size = n →
    ReturnsTr (shake256 out 0 n (Buf.ofList m) 0 m.length) (Buf.ofList (SHAKE256 m n)) (T (m.length, n)) := by
  obtain ⟨T, h⟩ := trace_function (ι := { x : List UInt8 × Nat × Buf UInt8 // x.1.length + 200 < 2 ^ 64 ∧ x.2.1 < 2 ^ 64 ∧ x.2.2.size = x.2.1 })
    (fun x => shake256 x.1.2.2 0 x.1.2.1 (Buf.ofList x.1.1) 0 x.1.1.length) (fun x => Buf.ofList (SHAKE256 x.1.1 x.1.2.1)) (fun x => (x.1.1.length, x.1.2.1))
    (fun x => C26_shake256 x.1.1 x.2.1 x.1.2.1 x.2.2.1 x.1.2.2 x.2.2.2) (fun x y t t' e h h' => by
      obtain ⟨e1, e2⟩ := Prod.mk.inj e
      rw [← e1, ← e2] at h'
      exact C36_shake256 x.2.1 h h')
  exact ⟨T, fun m n out hm hn ho => h ⟨(m, n, out), hm, hn, ho⟩⟩

/-- **C36 (four-way SHAKE256).** -/
theorem C36_shake256x4_trace : ∃ T : Nat × Nat → List Ev, ∀ (m : Fin 4 → List UInt8) (k n : Nat) (out : Fin 4 → Buf UInt8), (∀ w, (m w).length = k) → k + 200 < 2 ^ 64 → n < 2 ^ 64 →
    (∀ w, (out w).size = n) → ReturnsTr (shake256x4 (fourOf out) n (fourOf fun w => Buf.ofList (m w)) 0 k) (fourOf fun w => Buf.ofList (SHAKE256 (m w) n)) (T (k, n)) := by
  obtain ⟨T, h⟩ := trace_function (ι := { x : (Fin 4 → List UInt8) × Nat × Nat × (Fin 4 → Buf UInt8) // (∀ w, (x.1 w).length = x.2.1) ∧ x.2.1 + 200 < 2 ^ 64 ∧ x.2.2.1 < 2 ^ 64 ∧
      ∀ w, (x.2.2.2 w).size = x.2.2.1 })
    (fun x => shake256x4 (fourOf x.1.2.2.2) x.1.2.2.1 (fourOf fun w => Buf.ofList (x.1.1 w)) 0 x.1.2.1) (fun x => fourOf fun w => Buf.ofList (SHAKE256 (x.1.1 w) x.1.2.2.1))
    (fun x => (x.1.2.1, x.1.2.2.1)) (fun x => (C28_shake256x4 x.1.1 x.1.2.1 x.2.1 x.2.2.1 x.1.2.2.1 x.2.2.2.1 x.1.2.2.2 x.2.2.2.2).1) (fun x y t t' e h h' => by
      obtain ⟨e1, e2⟩ := Prod.mk.inj e
      rw [← e1, ← e2] at h'
      exact C36_shake256x4 h h')
  exact ⟨T, fun m k n out hm hk hn ho => h ⟨(m, k, n, out), hm, hk, hn, ho⟩⟩

/-- Squeezing leaves both states at the same position. -/
theorem sir_inc_squeeze_pos {s s' : Buf Model.W} {r : Nat} {h h' : Buf UInt8} {ho n : Nat} (hp : ∃ c, At25 c s s') :
    SIR (keccak_inc_squeeze h ho n s r) (keccak_inc_squeeze h' ho n s' r) (fun a b => ∃ c, At25 c a.2 b.2) := by
  unfold keccak_inc_squeeze
  obtain ⟨c, h1⟩ := hp
  refine SIR.bind (sir_rd25 h1) fun x y ⟨hx, hy⟩ => ?_
  subst hx; subst hy
  refine SIR.bind (R := Eq) (SIR.refl _) fun l l' e => ?_
  subst e
  refine SIR.bind si_extract fun _ _ _ => SIR.bind sir_wr25 fun u v h => ?_
  refine SIR.bind4 (SIR.whileM (I := fun a b => a.2.2 = b.2.2 ∧ ∃ c, At25 c a.2.1 b.2.1) ?_ ?_ _ _ _ ⟨rfl, _, h⟩) fun _ _ _ _ _ _ _ _ h => SIR.pure h.2
  · rintro ⟨_, _, o, n⟩ ⟨_, _, o', n'⟩ ⟨e, _⟩
    obtain ⟨rfl, rfl⟩ : o = o' ∧ n = n' := by simpa using e
    exact SIR.refl _
  · rintro ⟨_, _, o, n⟩ ⟨_, _, o', n'⟩ ⟨e, _⟩
    obtain ⟨rfl, rfl⟩ : o = o' ∧ n = n' := by simpa using e
    dsimp only
    refine SIR.bind si_permute fun _ _ _ => SIR.bind (SIR.refl _) fun l l' e => ?_
    subst e
    exact SIR.bind si_extract fun _ _ _ => SIR.bind sir_wr25 fun _ _ h => SIR.pure ⟨rfl, _, h⟩

theorem sir_absorbAll : ∀ (cs cs' : List (List UInt8)), cs.map List.length = cs'.map List.length → (∀ c ∈ cs, c.length + 200 < 2 ^ 64) → ∀ {s s' : Buf Model.W}, Pos 136 s s' →
    SIR (absorbAll cs s) (absorbAll cs' s') (Pos 136)
  | [], [], _, _, _, _, h => SIR.pure h
  | [], _ :: _, e, _, _, _, _ => nomatch e
  | _ :: _, [], e, _, _, _, _ => nomatch e
  | c :: cs, c' :: cs', e, hl, s, s', h => by
    simp only [List.map_cons, List.cons.injEq] at e
    unfold absorbAll
    rw [← e.1]
    exact SIR.bind (sir_inc_absorb (r := 136) (by decide) (hl c List.mem_cons_self) h) fun _ _ h => sir_absorbAll cs cs' e.2 (fun x hx => hl x (List.mem_cons_of_mem _ hx)) h

theorem si_squeezeAll : ∀ (ns : List Nat) {s s' : Buf Model.W}, (∃ c, At25 c s s') → SI (squeezeAll ns s) (squeezeAll ns s')
  | [], _, _, _ => SI.pure
  | n :: ns, s, s', h => by
    unfold squeezeAll
    exact SIR.bind2 (sir_inc_squeeze_pos h) fun _ _ _ _ h => SIR.bind (si_squeezeAll ns h) fun _ _ _ => SI.pure

/-- **C36 (incremental SHAKE256).**  The trace of a whole session is a function of the lengths of the chunks and of the amounts asked for. -/
theorem C36_incremental_trace : ∃ T : List Nat × List Nat → List Ev, ∀ (chunks : List (List UInt8)) (lens : List Nat), (∀ c ∈ chunks, c.length + 200 < 2 ^ 64) → (∀ n ∈ lens, n < 2 ^ 64) →
    ∃ outs : List (List UInt8), ReturnsTr (session chunks lens) (outs.map Buf.ofList) (T (chunks.map List.length, lens)) ∧ outs.map List.length = lens ∧
      outs.flatten = SHAKE256 chunks.flatten lens.sum := by
  have hex := fun x : { x : List (List UInt8) × List Nat // (∀ c ∈ x.1, c.length + 200 < 2 ^ 64) ∧ ∀ n ∈ x.2, n < 2 ^ 64 } => C27_incremental x.1.1 x.1.2 x.2.1 x.2.2
  obtain ⟨T, h⟩ := trace_function (fun x : { x : List (List UInt8) × List Nat // (∀ c ∈ x.1, c.length + 200 < 2 ^ 64) ∧ ∀ n ∈ x.2, n < 2 ^ 64 } => session x.1.1 x.1.2)
    (fun x => (hex x).choose.map Buf.ofList) (fun x => (x.1.1.map List.length, x.1.2)) (fun x => (hex x).choose_spec.1) (fun x y t t' e h h' => by
      obtain ⟨e1, e2⟩ := Prod.mk.inj e
      have : SI (session x.1.1 x.1.2) (session y.1.1 y.1.2) := by
        rw [← e2]
        unfold session
        exact SIR.bind (sir_inc_init (r := 136) (by decide)) fun _ _ h => SIR.bind (sir_absorbAll _ _ e1 x.2.1 h) fun _ _ h =>
          SIR.bind (sir_inc_finalize (r := 136) (by decide) h) fun _ _ h => si_squeezeAll _ (h.imp fun _ h => h.1)
      exact (this _ _ _ _ h h').1)
  exact ⟨T, fun chunks lens hc hl => ⟨_, h ⟨(chunks, lens), hc, hl⟩, (hex ⟨(chunks, lens), hc, hl⟩).choose_spec.2⟩⟩

/-- **C36 (SHAKE128, absorb once, squeeze blocks).** -/
theorem C36_shake128_trace : ∃ T : Nat × Nat × Nat → List Ev, ∀ (m : List UInt8) (a b : Nat),
    ReturnsTr (shake128_ab (Buf.ofList m) m.length a b) (Buf.ofList (SHAKE128 m (168 * a)), Buf.ofList ((SHAKE128 m (168 * (a + b))).drop (168 * a))) (T (m.length, a, b)) := by
  obtain ⟨T, h⟩ := trace_function (fun x : List UInt8 × Nat × Nat => shake128_ab (Buf.ofList x.1) x.1.length x.2.1 x.2.2)
    (fun x => (Buf.ofList (SHAKE128 x.1 (168 * x.2.1)), Buf.ofList ((SHAKE128 x.1 (168 * (x.2.1 + x.2.2))).drop (168 * x.2.1)))) (fun x => (x.1.length, x.2.1, x.2.2))
    (fun x => (C28_shake128x4 (fun _ => x.1) x.1.length (fun _ => rfl) x.2.1 x.2.2).2 0) (fun x y t t' e h h' => by
      obtain ⟨e1, e2⟩ := Prod.mk.inj e
      obtain ⟨e2, e3⟩ := Prod.mk.inj e2
      have : SI (shake128_ab (Buf.ofList x.1) x.1.length x.2.1 x.2.2) (shake128_ab (Buf.ofList y.1) y.1.length y.2.1 y.2.2) := by
        rw [← e1, ← e2, ← e3]
        unfold shake128_ab
        exact SIR.bind si_shake128_absorb fun _ _ _ => SIR.bind2 (R := Any _ _) si_shake128_squeezeblocks fun _ _ _ _ _ => SIR.bind2 (R := Any _ _) si_shake128_squeezeblocks fun _ _ _ _ _ => SI.pure
      exact (this _ _ _ _ h h').1)
  exact ⟨T, fun m a b => h (m, a, b)⟩

/-- **C36 (four-way SHAKE128).** -/
theorem C36_shake128x4_trace : ∃ T : Nat × Nat × Nat → List Ev, ∀ (m : Fin 4 → List UInt8) (k : Nat), (∀ w, (m w).length = k) → ∀ a b : Nat,
    ReturnsTr (shake128x4_ab (fourOf fun w => Buf.ofList (m w)) k a b)
      (fourOf (fun w => Buf.ofList (SHAKE128 (m w) (168 * a))), fourOf fun w => Buf.ofList ((SHAKE128 (m w) (168 * (a + b))).drop (168 * a))) (T (k, a, b)) := by
  obtain ⟨T, h⟩ := trace_function (ι := { x : (Fin 4 → List UInt8) × Nat × Nat × Nat // ∀ w, (x.1 w).length = x.2.1 })
    (fun x => shake128x4_ab (fourOf fun w => Buf.ofList (x.1.1 w)) x.1.2.1 x.1.2.2.1 x.1.2.2.2)
    (fun x => (fourOf (fun w => Buf.ofList (SHAKE128 (x.1.1 w) (168 * x.1.2.2.1))), fourOf fun w => Buf.ofList ((SHAKE128 (x.1.1 w) (168 * (x.1.2.2.1 + x.1.2.2.2))).drop (168 * x.1.2.2.1))))
    (fun x => x.1.2) (fun x => (C28_shake128x4 x.1.1 x.1.2.1 x.2 x.1.2.2.1 x.1.2.2.2).1) (fun x y t t' e h h' => by
      have : SI (shake128x4_ab (fourOf fun w => Buf.ofList (x.1.1 w)) x.1.2.1 x.1.2.2.1 x.1.2.2.2) (shake128x4_ab (fourOf fun w => Buf.ofList (y.1.1 w)) y.1.2.1 y.1.2.2.1 y.1.2.2.2) := by
        rw [← e]
        unfold shake128x4_ab
        exact SIR.bind si_shake128x4_absorb fun _ _ _ => SIR.bind2 (R := Any _ _) si_shake128x4_squeezeblocks fun _ _ _ _ _ => SIR.bind2 (R := Any _ _) si_shake128x4_squeezeblocks fun _ _ _ _ _ =>
          SI.pure
      exact (this _ _ _ _ h h').1)
  exact ⟨T, fun m k hm a b => h ⟨(m, k, a, b), hm⟩⟩

/-- The premises are met: hashing `01 02 03` and hashing `ff 00 ff` return with the same trace. -/
example : ∃ t, ReturnsTr (sha3_256 (Buf.uninit UInt8 32) 0 (Buf.ofList [1, 2, 3]) 0 3) (Buf.ofList (SHA3_256 [1, 2, 3])) t ∧
    ReturnsTr (sha3_256 (Buf.uninit UInt8 32) 0 (Buf.ofList [255, 0, 255]) 0 3) (Buf.ofList (SHA3_256 [255, 0, 255])) t := by
  obtain ⟨T, h⟩ := C36_sha3_256_trace
  exact ⟨T 3, h [1, 2, 3] _ (by decide) (by simp), h [255, 0, 255] _ (by decide) (by simp)⟩

end Verif.Props

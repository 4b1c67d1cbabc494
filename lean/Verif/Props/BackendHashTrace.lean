import Verif.Props.BackendHash
import Verif.Props.HashTrace
/-! # The hash functions of a build on any backend are constant time (C64)

As C36: on every backend that keeps the contract and is data independent, a hash call returns the value of the standard with a sequence of branches, addresses and divisions that is a
function of the lengths alone.  C62 and C64 supply the premises for the portable, the AVX2 and the AArch64 build and for combinations of them. -/
namespace Verif.Props
open Verif Verif.Model Verif.Spec

attribute [local irreducible] keccakF partialK finK blocksK sqByte SHAKE256 SHA3_256 SHA3_512 SHAKE128

variable {bk : Native.Backend} {order : Nat → Nat} {IsCache : Buf Int → (Nat → Int) → Prop}

/-- **C64 (SHA3-256).** -/
theorem C64_sha3_256 (hb : Contract bk order IsCache) (hq : DataIndependent bk) : ∃ T : Nat → List Ev, ∀ (m : List UInt8) (out : Buf UInt8), m.length + 200 < 2 ^ 64 → out.size = 32 →
    ReturnsTr (Native.sha3_256 bk out 0 (Buf.ofList m) 0 m.length) (Buf.ofList (SHA3_256 m)) (T m.length) := by
  have := hq.quiet
  obtain ⟨T, h⟩ := trace_function (ι := { x : List UInt8 × Buf UInt8 // x.1.length + 200 < 2 ^ 64 ∧ x.2.size = 32 })
    (fun x => Native.sha3_256 bk x.1.2 0 (Buf.ofList x.1.1) 0 x.1.1.length) (fun x => Buf.ofList (SHA3_256 x.1.1)) (fun x => x.1.1.length)
    (fun x => C63_sha3_256 hb x.1.1 x.2.1 x.1.2 x.2.2) (fun x y t t' e h h' => by
      rw [← e] at h'
      exact (Native.si_sha3_256 x.2.1 _ _ _ _ h h').1)
  exact ⟨T, fun m out hm ho => h ⟨(m, out), hm, ho⟩⟩

/-- **C64 (SHA3-512).** -/
theorem C64_sha3_512 (hb : Contract bk order IsCache) (hq : DataIndependent bk) : ∃ T : Nat → List Ev, ∀ (m : List UInt8) (out : Buf UInt8), m.length + 200 < 2 ^ 64 → out.size = 64 →
    ReturnsTr (Native.sha3_512 bk out 0 (Buf.ofList m) 0 m.length) (Buf.ofList (SHA3_512 m)) (T m.length) := by
  have := hq.quiet
  obtain ⟨T, h⟩ := trace_function (ι := { x : List UInt8 × Buf UInt8 // x.1.length + 200 < 2 ^ 64 ∧ x.2.size = 64 })
    (fun x => Native.sha3_512 bk x.1.2 0 (Buf.ofList x.1.1) 0 x.1.1.length) (fun x => Buf.ofList (SHA3_512 x.1.1)) (fun x => x.1.1.length)
    (fun x => C63_sha3_512 hb x.1.1 x.2.1 x.1.2 x.2.2) (fun x y t t' e h h' => by
      rw [← e] at h'
      exact (Native.si_sha3_512 x.2.1 _ _ _ _ h h').1)
  exact ⟨T, fun m out hm ho => h ⟨(m, out), hm, ho⟩⟩

/-- **C64 (SHAKE256).**  The trace depends on the length of the message and the number of bytes asked for. -/
theorem C64_shake256 (hb : Contract bk order IsCache) (hq : DataIndependent bk) : ∃ T : Nat × Nat → List Ev, ∀ (m : List UInt8) (n : Nat) (out : Buf UInt8), m.length + 200 < 2 ^ 64 → n < 2 ^ 64 → out.size = n →
    ReturnsTr (Native.shake256 bk out 0 n (Buf.ofList m) 0 m.length) (Buf.ofList (SHAKE256 m n)) (T (m.length, n)) := by
  have := hq.quiet
  obtain ⟨T, h⟩ := trace_function (ι := { x : List UInt8 × Nat × Buf UInt8 // x.1.length + 200 < 2 ^ 64 ∧ x.2.1 < 2 ^ 64 ∧ x.2.2.size = x.2.1 })
    (fun x => Native.shake256 bk x.1.2.2 0 x.1.2.1 (Buf.ofList x.1.1) 0 x.1.1.length) (fun x => Buf.ofList (SHAKE256 x.1.1 x.1.2.1)) (fun x => (x.1.1.length, x.1.2.1))
    (fun x => C63_shake256 hb x.1.1 x.2.1 x.1.2.1 x.2.2.1 x.1.2.2 x.2.2.2) (fun x y t t' e h h' => by
      obtain ⟨e1, e2⟩ := Prod.mk.inj e
      rw [← e1, ← e2] at h'
      exact (Native.si_shake256 x.2.1 _ _ _ _ h h').1)
  exact ⟨T, fun m n out hm hn ho => h ⟨(m, n, out), hm, hn, ho⟩⟩

/-- **C64 (four-way SHAKE256).** -/
theorem C64_shake256x4 (hb : Contract bk order IsCache) (hq : DataIndependent bk) : ∃ T : Nat × Nat → List Ev, ∀ (m : Fin 4 → List UInt8) (k n : Nat) (out : Fin 4 → Buf UInt8), (∀ w, (m w).length = k) → k + 200 < 2 ^ 64 → n < 2 ^ 64 →
    (∀ w, (out w).size = n) → ReturnsTr (Native.shake256x4 bk (fourOf out) n (fourOf fun w => Buf.ofList (m w)) 0 k) (fourOf fun w => Buf.ofList (SHAKE256 (m w) n)) (T (k, n)) := by
  have := hq.quiet
  obtain ⟨T, h⟩ := trace_function (ι := { x : (Fin 4 → List UInt8) × Nat × Nat × (Fin 4 → Buf UInt8) // (∀ w, (x.1 w).length = x.2.1) ∧ x.2.1 + 200 < 2 ^ 64 ∧ x.2.2.1 < 2 ^ 64 ∧
      ∀ w, (x.2.2.2 w).size = x.2.2.1 })
    (fun x => Native.shake256x4 bk (fourOf x.1.2.2.2) x.1.2.2.1 (fourOf fun w => Buf.ofList (x.1.1 w)) 0 x.1.2.1) (fun x => fourOf fun w => Buf.ofList (SHAKE256 (x.1.1 w) x.1.2.2.1))
    (fun x => (x.1.2.1, x.1.2.2.1)) (fun x => (C63_shake256x4 hb x.1.1 x.1.2.1 x.2.1 x.2.2.1 x.1.2.2.1 x.2.2.2.1 x.1.2.2.2 x.2.2.2.2).1) (fun x y t t' e h h' => by
      obtain ⟨e1, e2⟩ := Prod.mk.inj e
      rw [← e1, ← e2] at h'
      exact (Native.si_shake256x4 _ _ _ _ h h').1)
  exact ⟨T, fun m k n out hm hk hn ho => h ⟨(m, k, n, out), hm, hk, hn, ho⟩⟩

/-- Squeezing leaves both states at the same position. -/
theorem sir_native_inc_squeeze_pos [Native.Quiet bk] {s s' : Buf Model.W} {r : Nat} {h h' : Buf UInt8} {ho n : Nat} (hp : ∃ c, At25 c s s') :
    SIR (Native.keccak_inc_squeeze bk h ho n s r) (Native.keccak_inc_squeeze bk h' ho n s' r) (fun a b => ∃ c, At25 c a.2 b.2) := by
  unfold Native.keccak_inc_squeeze
  obtain ⟨c, h1⟩ := hp
  refine SIR.bind (sir_rd25 h1) fun x y ⟨hx, hy⟩ => ?_
  subst hx; subst hy
  refine SIR.bind (R := Eq) (SIR.refl _) fun l l' e => ?_
  subst e
  refine SIR.bind si_extract fun _ _ _ => SIR.bind sir_wr25 fun u v h => ?_
  refine SIR.bind4 (SIR.whileM (I := fun a b => a.2.2 = b.2.2 ∧ ∃ c, At25 c a.2.1 b.2.1) ?_ ?_ _ _ _ ⟨rfl, _, h⟩) fun _ _ _ _ _ _ _ _ h => SIR.pure h.2
  · rintro ⟨_, _, o, n⟩ ⟨_, _, o', n'⟩ ⟨e, _⟩
    obtain ⟨rfl, rfl⟩ : o = o' ∧ n = n' := by simpa using e
    exact SIR.refl _
  · rintro ⟨_, _, o, n⟩ ⟨_, _, o', n'⟩ ⟨e, _⟩
    obtain ⟨rfl, rfl⟩ : o = o' ∧ n = n' := by simpa using e
    dsimp only
    refine SIR.bind (Native.Quiet.perm1 (bk := bk)) fun _ _ _ => SIR.bind (SIR.refl _) fun l l' e => ?_
    subst e
    exact SIR.bind si_extract fun _ _ _ => SIR.bind sir_wr25 fun _ _ h => SIR.pure ⟨rfl, _, h⟩

theorem sir_nativeAbsorbAll [Native.Quiet bk] : ∀ (cs cs' : List (List UInt8)), cs.map List.length = cs'.map List.length → (∀ c ∈ cs, c.length + 200 < 2 ^ 64) → ∀ {s s' : Buf Model.W}, Pos 136 s s' →
    SIR (nativeAbsorbAll bk cs s) (nativeAbsorbAll bk cs' s') (Pos 136)
  | [], [], _, _, _, _, h => SIR.pure h
  | [], _ :: _, e, _, _, _, _ => nomatch e
  | _ :: _, [], e, _, _, _, _ => nomatch e
  | c :: cs, c' :: cs', e, hl, s, s', h => by
    simp only [List.map_cons, List.cons.injEq] at e
    unfold nativeAbsorbAll Native.shake256_inc_absorb
    rw [← e.1]
    exact SIR.bind (Native.sir_inc_absorb (r := 136) (by decide) (hl c List.mem_cons_self) h) fun _ _ h => sir_nativeAbsorbAll cs cs' e.2 (fun x hx => hl x (List.mem_cons_of_mem _ hx)) h

theorem si_nativeSqueezeAll [Native.Quiet bk] : ∀ (ns : List Nat) {s s' : Buf Model.W}, (∃ c, At25 c s s') → SI (nativeSqueezeAll bk ns s) (nativeSqueezeAll bk ns s')
  | [], _, _, _ => SI.pure
  | n :: ns, s, s', h => by
    unfold nativeSqueezeAll Native.shake256_inc_squeeze
    exact SIR.bind2 (sir_native_inc_squeeze_pos h) fun _ _ _ _ h => SIR.bind (si_nativeSqueezeAll ns h) fun _ _ _ => SI.pure

/-- **C64 (incremental SHAKE256).**  The trace of a whole session is a function of the lengths of the chunks and of the amounts asked for. -/
theorem C64_incremental (hb : Contract bk order IsCache) (hq : DataIndependent bk) : ∃ T : List Nat × List Nat → List Ev, ∀ (chunks : List (List UInt8)) (lens : List Nat), (∀ c ∈ chunks, c.length + 200 < 2 ^ 64) → (∀ n ∈ lens, n < 2 ^ 64) →
    ∃ outs : List (List UInt8), ReturnsTr (nativeSession bk chunks lens) (outs.map Buf.ofList) (T (chunks.map List.length, lens)) ∧ outs.map List.length = lens ∧
      outs.flatten = SHAKE256 chunks.flatten lens.sum := by
  have := hq.quiet
  have hex := fun x : { x : List (List UInt8) × List Nat // (∀ c ∈ x.1, c.length + 200 < 2 ^ 64) ∧ ∀ n ∈ x.2, n < 2 ^ 64 } => C63_incremental hb x.1.1 x.1.2 x.2.1 x.2.2
  obtain ⟨T, h⟩ := trace_function (fun x : { x : List (List UInt8) × List Nat // (∀ c ∈ x.1, c.length + 200 < 2 ^ 64) ∧ ∀ n ∈ x.2, n < 2 ^ 64 } => nativeSession bk x.1.1 x.1.2)
    (fun x => (hex x).choose.map Buf.ofList) (fun x => (x.1.1.map List.length, x.1.2)) (fun x => (hex x).choose_spec.1) (fun x y t t' e h h' => by
      obtain ⟨e1, e2⟩ := Prod.mk.inj e
      have : SI (nativeSession bk x.1.1 x.1.2) (nativeSession bk y.1.1 y.1.2) := by
        rw [← e2]
        unfold nativeSession shake256_inc_init shake256_inc_finalize
        exact SIR.bind (sir_inc_init (r := 136) (by decide)) fun _ _ h => SIR.bind (sir_nativeAbsorbAll _ _ e1 x.2.1 h) fun _ _ h =>
          SIR.bind (sir_inc_finalize (r := 136) (by decide) h) fun _ _ h => si_nativeSqueezeAll _ (h.imp fun _ h => h.1)
      exact (this _ _ _ _ h h').1)
  exact ⟨T, fun chunks lens hc hl => ⟨_, h ⟨(chunks, lens), hc, hl⟩, (hex ⟨(chunks, lens), hc, hl⟩).choose_spec.2⟩⟩

/-- **C64 (SHAKE128, absorb once, squeeze blocks).** -/
theorem C64_shake128 (hb : Contract bk order IsCache) (hq : DataIndependent bk) : ∃ T : Nat × Nat × Nat → List Ev, ∀ (m : List UInt8) (a b : Nat),
    ReturnsTr (nativeShake128_ab bk (Buf.ofList m) m.length a b) (Buf.ofList (SHAKE128 m (168 * a)), Buf.ofList ((SHAKE128 m (168 * (a + b))).drop (168 * a))) (T (m.length, a, b)) := by
  have := hq.quiet
  obtain ⟨T, h⟩ := trace_function (fun x : List UInt8 × Nat × Nat => nativeShake128_ab bk (Buf.ofList x.1) x.1.length x.2.1 x.2.2)
    (fun x => (Buf.ofList (SHAKE128 x.1 (168 * x.2.1)), Buf.ofList ((SHAKE128 x.1 (168 * (x.2.1 + x.2.2))).drop (168 * x.2.1)))) (fun x => (x.1.length, x.2.1, x.2.2))
    (fun x => (C63_shake128x4 hb (fun _ => x.1) x.1.length (fun _ => rfl) x.2.1 x.2.2).2 0) (fun x y t t' e h h' => by
      obtain ⟨e1, e2⟩ := Prod.mk.inj e
      obtain ⟨e2, e3⟩ := Prod.mk.inj e2
      have : SI (nativeShake128_ab bk (Buf.ofList x.1) x.1.length x.2.1 x.2.2) (nativeShake128_ab bk (Buf.ofList y.1) y.1.length y.2.1 y.2.2) := by
        rw [← e1, ← e2, ← e3]
        unfold nativeShake128_ab
        exact SIR.bind Native.si_shake128_absorb fun _ _ _ => SIR.bind2 (R := Any _ _) Native.si_shake128_squeezeblocks fun _ _ _ _ _ => SIR.bind2 (R := Any _ _) Native.si_shake128_squeezeblocks fun _ _ _ _ _ => SI.pure
      exact (this _ _ _ _ h h').1)
  exact ⟨T, fun m a b => h (m, a, b)⟩

/-- **C64 (four-way SHAKE128).** -/
theorem C64_shake128x4 (hb : Contract bk order IsCache) (hq : DataIndependent bk) : ∃ T : Nat × Nat × Nat → List Ev, ∀ (m : Fin 4 → List UInt8) (k : Nat), (∀ w, (m w).length = k) → ∀ a b : Nat,
    ReturnsTr (nativeShake128x4_ab bk (fourOf fun w => Buf.ofList (m w)) k a b)
      (fourOf (fun w => Buf.ofList (SHAKE128 (m w) (168 * a))), fourOf fun w => Buf.ofList ((SHAKE128 (m w) (168 * (a + b))).drop (168 * a))) (T (k, a, b)) := by
  have := hq.quiet
  obtain ⟨T, h⟩ := trace_function (ι := { x : (Fin 4 → List UInt8) × Nat × Nat × Nat // ∀ w, (x.1 w).length = x.2.1 })
    (fun x => nativeShake128x4_ab bk (fourOf fun w => Buf.ofList (x.1.1 w)) x.1.2.1 x.1.2.2.1 x.1.2.2.2)
    (fun x => (fourOf (fun w => Buf.ofList (SHAKE128 (x.1.1 w) (168 * x.1.2.2.1))), fourOf fun w => Buf.ofList ((SHAKE128 (x.1.1 w) (168 * (x.1.2.2.1 + x.1.2.2.2))).drop (168 * x.1.2.2.1))))
    (fun x => x.1.2) (fun x => (C63_shake128x4 hb x.1.1 x.1.2.1 x.2 x.1.2.2.1 x.1.2.2.2).1) (fun x y t t' e h h' => by
      have : SI (nativeShake128x4_ab bk (fourOf fun w => Buf.ofList (x.1.1 w)) x.1.2.1 x.1.2.2.1 x.1.2.2.2) (nativeShake128x4_ab bk (fourOf fun w => Buf.ofList (y.1.1 w)) y.1.2.1 y.1.2.2.1 y.1.2.2.2) := by
        rw [← e]
        unfold nativeShake128x4_ab
        exact SIR.bind Native.si_shake128x4_absorb fun _ _ _ => SIR.bind2 (R := Any _ _) Native.si_shake128x4_squeezeblocks fun _ _ _ _ _ => SIR.bind2 (R := Any _ _) Native.si_shake128x4_squeezeblocks fun _ _ _ _ _ =>
          SI.pure
      exact (this _ _ _ _ h h').1)
  exact ⟨T, fun m k hm a b => h ⟨(m, k, a, b), hm⟩⟩

/-- The premises are met on x86_64 and on AArch64: hashing `01 02 03` and hashing `ff 00 ff` return with the same trace. -/
example {P : A64.Profile} {Q : A64K.Profile} (hP : IsProfile P) (hQ : IsKeccakProfile Q) (g : Native.Regs64) (r : Native.Regs) :
    (∃ t, ReturnsTr (Native.sha3_256 (Native.x86_64 r) (blank 32) 0 (Buf.ofList [1, 2, 3]) 0 3) (Buf.ofList (SHA3_256 [1, 2, 3])) t ∧
      ReturnsTr (Native.sha3_256 (Native.x86_64 r) (blank 32) 0 (Buf.ofList [255, 0, 255]) 0 3) (Buf.ofList (SHA3_256 [255, 0, 255])) t) ∧
    ∃ t, ReturnsTr (Native.sha3_256 (Native.aarch64 P Q g) (blank 32) 0 (Buf.ofList [1, 2, 3]) 0 3) (Buf.ofList (SHA3_256 [1, 2, 3])) t ∧
      ReturnsTr (Native.sha3_256 (Native.aarch64 P Q g) (blank 32) 0 (Buf.ofList [255, 0, 255]) 0 3) (Buf.ofList (SHA3_256 [255, 0, 255])) t := by
  obtain ⟨C, h⟩ := C62_aarch64 hP hQ g
  obtain ⟨C', h'⟩ := C62_x86_64 r
  obtain ⟨T, k⟩ := C64_sha3_256 h' (C64_backends.2.1 r).1
  obtain ⟨T', k'⟩ := C64_sha3_256 h (C64_backends.2.2.1 hP hQ g)
  exact ⟨⟨T 3, k [1, 2, 3] _ (by decide) (blank_size _), k [255, 0, 255] _ (by decide) (blank_size _)⟩, T' 3, k' [1, 2, 3] _ (by decide) (blank_size _),
    k' [255, 0, 255] _ (by decide) (blank_size _)⟩

end Verif.Props

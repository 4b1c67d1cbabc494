import Verif.Model.NativeGp
import Verif.Props.X86Gp
import Verif.Props.Interop
/-! # The AVX2 build with its assembly as instructions (C82)

`X86Gp.x86_64 e` is the AVX2 build in which the assembly is run instruction by instruction, with its general-purpose registers, inner calls and stack, from the machine states `e` at the calls. -/
namespace Verif.Props
open Verif Verif.Model Verif.Spec

/-- At each call the stack has room below the stack pointer and the return address at it (`AtCall`). -/
structure GoodSites (e : X86Gp.Sites) : Prop where
  permute : ∀ p, AtCall (e.permute p).lo (e.permute p).j (e.permute p).ra (e.permute p).stk
  ntt : ∀ p, AtCall (e.ntt p).lo (e.ntt p).j (e.ntt p).ra (e.ntt p).stk
  intt : ∀ p, AtCall (e.intt p).lo (e.intt p).j (e.intt p).ra (e.intt p).stk
  reduce : ∀ p, AtCall (e.reduce p).lo (e.reduce p).j (e.reduce p).ra (e.reduce p).stk
  tomont : ∀ p, AtCall (e.tomont p).lo (e.tomont p).j (e.tomont p).ra (e.tomont p).stk
  tobytes : ∀ p, AtCall (e.tobytes p).lo (e.tobytes p).j (e.tobytes p).ra (e.tobytes p).stk
  frombytes : ∀ p, AtCall (e.frombytes p).lo (e.frombytes p).j (e.frombytes p).ra (e.frombytes p).stk
  basemul : ∀ p i, AtCall (e.basemul p i).lo (e.basemul p i).j (e.basemul p i).ra (e.basemul p i).stk

/-- The place of the stack and the stack pointer at the calls do not depend on data. -/
structure FixedStack (e : X86Gp.Sites) : Prop where
  ntt : ∀ p p', (e.ntt p).lo = (e.ntt p').lo ∧ (e.ntt p).j = (e.ntt p').j
  intt : ∀ p p', (e.intt p).lo = (e.intt p').lo ∧ (e.intt p).j = (e.intt p').j
  reduce : ∀ p p', (e.reduce p).lo = (e.reduce p').lo ∧ (e.reduce p).j = (e.reduce p').j
  tomont : ∀ p p', (e.tomont p).lo = (e.tomont p').lo ∧ (e.tomont p).j = (e.tomont p').j
  tobytes : ∀ p p', (e.tobytes p).lo = (e.tobytes p').lo ∧ (e.tobytes p).j = (e.tobytes p').j
  frombytes : ∀ p p', (e.frombytes p).lo = (e.frombytes p').lo ∧ (e.frombytes p).j = (e.frombytes p').j
  basemul : ∀ p p' i, (e.basemul p i).lo = (e.basemul p' i).lo ∧ (e.basemul p i).j = (e.basemul p' i).j

/-! ## Whatever the transcription returns, the instructions return -/

/-- `q` returns what `p` returns. -/
def Le {α : Type} (p q : M α) : Prop := ∀ a, Returns p a → Returns q a

theorem Le.refl {α : Type} (p : M α) : Le p p := fun _ h => h
theorem Le.bind {α β : Type} {p q : M α} {f g : α → M β} (h : Le p q) (hf : ∀ a, Le (f a) (g a)) : Le (p >>= f) (q >>= g) := fun b hb => by
  obtain ⟨a, h1, h2⟩ := A64RejAsm.ret_bind.1 hb
  exact A64RejAsm.ret_bind.2 ⟨a, h a h1, hf a b h2⟩
theorem Le.forFrom {σ : Type} {f g : Nat → σ → M σ} (h : ∀ i s, Le (f i s) (g i s)) : ∀ (n lo : Nat) (s : σ), Le (Verif.forFrom lo n s f) (Verif.forFrom lo n s g) := by
  intro n
  induction n with
  | zero => exact fun lo s => .refl _
  | succ n ih => exact fun lo s => .bind (.refl _) fun _ => .bind (h lo s) fun s => ih (lo + 1) s

/-- The program goes on after the call, with the memory of the first argument as the transcription leaves it. -/
theorem site_call {slot : Bool} {prog : List X86Gp.G} {flat : List X86.Ins} (hc : X86Gp.chk slot prog flat = true) (hf : ([.rsi, .rdx, .rcx] : List X86.Ptr).all (fun p => flat.all fun i => !X86.stores p i) = true)
    {e : X86Gp.Site} (h : AtCall e.lo e.j e.ra e.stk) {v v' : X86.St} (hs : slot = true → v.w .rsp = Array.replicate 16 none) (hr : Returns (X86.run flat v) v') :
    ∃ s, Returns (e.call prog v) s ∧ s.w .rdi = v'.w .rdi ∧ s.b .rdi = v'.b .rdi := by
  obtain ⟨s, h1, _, h2, h3⟩ := respects_of hc hf (g := e.g) h hs hr
  refine ⟨s.v, A64RejAsm.ret_bind.2 ⟨_, h1, ?_⟩, h2, h3⟩
  have e1 : (if e.ra = e.ra then (pure s.v : M X86.St) else M.fail .oob) = pure s.v := if_pos rfl
  show A64RejAsm.Ret (if e.ra = e.ra then (pure s.v : M X86.St) else M.fail .oob) s.v
  rw [e1]
  exact A64RejAsm.ret_pure.2 rfl

theorem le_word {slot : Bool} {prog : List X86Gp.G} {flat : List X86.Ins} (hc : X86Gp.chk slot prog flat = true) (hf : ([.rsi, .rdx, .rcx] : List X86.Ptr).all (fun p => flat.all fun i => !X86.stores p i) = true)
    {e : X86Gp.Site} (h : AtCall e.lo e.j e.ra e.stk) {v : X86.St} (hs : slot = true → v.w .rsp = Array.replicate 16 none) :
    Le (do let s ← X86.run flat v; pure (s.w .rdi)) (do let s ← e.call prog v; pure (s.w .rdi)) := fun a ha => by
  obtain ⟨v', h1, h2⟩ := A64RejAsm.ret_bind.1 ha
  obtain ⟨s, h3, h4, _⟩ := site_call hc hf h hs h1
  exact A64RejAsm.ret_bind.2 ⟨s, h3, A64RejAsm.ret_pure.2 (h4.trans (A64RejAsm.ret_pure.1 h2))⟩

theorem le_byte {slot : Bool} {prog : List X86Gp.G} {flat : List X86.Ins} (hc : X86Gp.chk slot prog flat = true) (hf : ([.rsi, .rdx, .rcx] : List X86.Ptr).all (fun p => flat.all fun i => !X86.stores p i) = true)
    {e : X86Gp.Site} (h : AtCall e.lo e.j e.ra e.stk) {v : X86.St} (hs : slot = true → v.w .rsp = Array.replicate 16 none) (f : Buf UInt8 → Buf UInt8) :
    Le (do let s ← X86.run flat v; pure (f (s.b .rdi))) (do let s ← e.call prog v; pure (f (s.b .rdi))) := fun a ha => by
  obtain ⟨v', h1, h2⟩ := A64RejAsm.ret_bind.1 ha
  obtain ⟨s, h3, _, h4⟩ := site_call hc hf h hs h1
  exact A64RejAsm.ret_bind.2 ⟨s, h3, A64RejAsm.ret_pure.2 ((congrArg f h4).trans (A64RejAsm.ret_pure.1 h2))⟩

theorem le_mul {e : X86Gp.Site} (h : AtCall e.lo e.j e.ra e.stk) (r a b : Model.Poly) : Le (X86.poly_basemul_montgomery_avx2 e.regs r a b) (X86Gp.poly_basemul_montgomery_avx2 e r a b) :=
  le_word X86Gp.basemul_chk (by decide +kernel) h fun _ => rfl

/-- **C82.** The functions of this build keep the contract of the backend interface (C62), from any registers and stack contents. -/
theorem C82_contract {e : X86Gp.Sites} (he : GoodSites e) : ∃ IsCache, Contract (X86Gp.x86_64 e) x86Order IsCache := by
  obtain ⟨C, h⟩ := C62_x86_64 e.regs
  refine ⟨C, { h with to_order := ?_, ntt := ?_, invntt := ?_, reduce := ?_, tomont := ?_, tobytes := ?_, frombytes := ?_, basemul := ?_ }⟩
  · intro f hf
    exact le_word (slot := false) X86Gp.nttunpack_chk (by decide +kernel) (he.permute (poly f)) (by simp) _ (h.to_order f hf)
  · intro f hf
    obtain ⟨g, h1, h2⟩ := h.ntt f hf
    exact ⟨g, (Le.bind (.refl _) fun _ => .bind (le_word (slot := false) X86Gp.ntt_chk (by decide +kernel) (he.ntt (poly f)) (by simp)) fun _ => .refl _) _ h1, h2⟩
  · intro f hf
    obtain ⟨g, h1, h2⟩ := h.invntt f hf
    exact ⟨g, (Le.bind (le_word (slot := false) X86Gp.invntt_chk (by decide +kernel) (he.intt _) (by simp)) fun _ => .refl _) _ h1, h2⟩
  · intro f hf
    exact (Le.bind (le_word (slot := false) X86Gp.reduce_chk (by decide +kernel) (he.reduce _) (by simp)) fun _ => .refl _) _ (h.reduce f hf)
  · intro f hf
    obtain ⟨g, h1, h2⟩ := h.tomont f hf
    exact ⟨g, (Le.bind (le_word (slot := false) X86Gp.tomont_chk (by decide +kernel) (he.tomont _) (by simp)) fun _ => .refl _) _ h1, h2⟩
  · intro f hf r o hr
    obtain ⟨r', h1, h2⟩ := h.tobytes f hf r o hr
    exact ⟨r', (Le.bind (.refl _) fun _ => .bind (.refl _) fun w => le_byte (slot := false) X86Gp.ntttobytes_chk (by decide +kernel) (he.tobytes _) (by simp) (X86.putBack r o)) _ h1, h2⟩
  · intro B hB a o ha r hr
    exact (Le.bind (.refl _) fun w => le_word (slot := false) X86Gp.nttfrombytes_chk (by decide +kernel) (he.frombytes _) (by simp)) _ (h.frombytes B hB a o ha r hr)
  · intro K hK a b ha hb cache hc1 hc2 r hr
    obtain ⟨s, h1, h2⟩ := h.basemul K hK a b ha hb cache hc1 hc2 r hr
    refine ⟨s, (Le.bind (.refl _) fun _ => .bind (.refl _) fun _ => .bind (.refl _) fun _ => .bind (.refl _) fun _ => .bind (le_mul (he.basemul r 0) _ _ _) fun _ =>
      .bind (Le.forFrom (fun i x => .bind (.refl _) fun _ => .bind (.refl _) fun _ => .bind (le_mul (he.basemul r i) _ _ _) fun _ => .refl _) _ _ _) fun _ => .refl _) _ h1, h2⟩

/-! ## Data independence -/

theorem si_call {slot : Bool} {prog : List X86Gp.G} {flat : List X86.Ins} (hc : X86Gp.chk slot prog flat = true) {e e' : X86Gp.Site} (h : e.lo = e'.lo ∧ e.j = e'.j) {v v' : X86.St} :
    SI (e.call prog v) (e'.call prog v') := by
  obtain ⟨regs, g, lo, stk, j, ra⟩ := e
  obtain ⟨regs', g', lo', stk', j', ra'⟩ := e'
  obtain ⟨rfl, rfl⟩ : lo = lo' ∧ j = j' := h
  unfold X86Gp.Site.call
  refine SIR.bind (X86Gp.chk_si hc) fun a b _ => ?_
  obtain ⟨s, r⟩ := a
  obtain ⟨s', r'⟩ := b
  show SI (if r = ra then (pure s.v : M X86.St) else M.fail .oob) (if r' = ra' then (pure s'.v : M X86.St) else M.fail .oob)
  by_cases h1 : r = ra
  · by_cases h2 : r' = ra'
    · have e1 : (if r = ra then (pure s.v : M X86.St) else M.fail .oob) = pure s.v := if_pos h1
      have e2 : (if r' = ra' then (pure s'.v : M X86.St) else M.fail .oob) = pure s'.v := if_pos h2
      rw [e1, e2]; exact SI.pure
    · have e2 : (if r' = ra' then (pure s'.v : M X86.St) else M.fail .oob) = M.fail .oob := if_neg h2
      rw [e2]; exact X86Gp.fail_right
  · have e1 : (if r = ra then (pure s.v : M X86.St) else M.fail .oob) = M.fail .oob := if_neg h1
    rw [e1]; exact SI.fail

theorem si_mul_of {e e' : Nat → X86Gp.Site} (H : ∀ i, (e i).lo = (e' i).lo ∧ (e i).j = (e' i).j) {i : Nat} {r r' a a' b b' : Model.Poly} :
    SI (X86Gp.poly_basemul_montgomery_avx2 (e i) r a b) (X86Gp.poly_basemul_montgomery_avx2 (e' i) r' a' b') :=
  SIR.bind (si_call X86Gp.basemul_chk (H i)) fun _ _ _ => SI.pure
macro_rules | `(tactic| si_leaf) => `(tactic| with_reducible exact si_mul_of (by assumption))

theorem si_mul_vec {e e' : Nat → X86Gp.Site} (H : ∀ i, (e i).lo = (e' i).lo ∧ (e i).j = (e' i).j) {K : Nat} {r r' : Model.Poly} {a a' b b' c c' : PolyVec} :
    SI (X86Gp.polyvec_basemul_acc_montgomery_cached K e r a b c) (X86Gp.polyvec_basemul_acc_montgomery_cached K e' r' a' b' c') := by
  unfold X86Gp.polyvec_basemul_acc_montgomery_cached X86Gp.polyvec_basemul_acc_montgomery_cached_avx2; si

theorem si_runP {slot : Bool} {prog : List X86Gp.G} {flat : List X86.Ins} (hc : X86Gp.chk slot prog flat = true) {e e' : X86Gp.Site} (h : e.lo = e'.lo ∧ e.j = e'.j) {p p' : Model.Poly} :
    SI (X86Gp.runP prog e p) (X86Gp.runP prog e' p') := SIR.bind (si_call hc h) fun _ _ _ => SI.pure

/-- **C82.** The functions of this build that handle secrets access memory, stack included, independently of data (C64), if the stack pointer at their calls does not depend on data. -/
theorem C82_data_independent {e : X86Gp.Sites} (hf : FixedStack e) : DataIndependent (X86Gp.x86_64 e) where
  permutation := (C64_backends.2.1 e.regs).1.permutation
  keeps_position := (C64_backends.2.1 e.regs).1.keeps_position
  permutation_x4 := (C64_backends.2.1 e.regs).1.permutation_x4
  ntt := fun r r' => .of_si (SIR.bind si_POLY_BOUND fun _ _ _ => SIR.bind (si_runP X86Gp.ntt_chk (hf.ntt r r')) fun _ _ _ => SIR.bind si_POLY_BOUND fun _ _ _ => SI.pure)
  invntt := fun r r' => .of_si (SIR.bind (si_runP X86Gp.invntt_chk (hf.intt r r')) fun _ _ _ => SIR.bind si_POLY_BOUND fun _ _ _ => SI.pure)
  reduce := fun r r' => .of_si (SIR.bind (si_runP X86Gp.reduce_chk (hf.reduce r r')) fun _ _ _ => SIR.bind si_POLY_UBOUND fun _ _ _ => SI.pure)
  tomont := fun r r' => .of_si (SIR.bind (si_runP X86Gp.tomont_chk (hf.tomont r r')) fun _ _ _ => SIR.bind si_POLY_BOUND fun _ _ _ => SI.pure)
  tobytes := fun _ _ _ a a' => .of_si (SIR.bind si_POLY_UBOUND fun _ _ _ => SIR.bind Native.si_window fun _ _ _ => SIR.bind (si_call X86Gp.ntttobytes_chk (hf.tobytes a a')) fun _ _ _ => SI.pure)
  frombytes := fun r r' _ _ _ => .of_si (SIR.bind Native.si_window fun _ _ _ => SIR.bind (si_call X86Gp.nttfrombytes_chk (hf.frombytes r r')) fun _ _ _ => SI.pure)
  mulcache := (C64_backends.2.1 e.regs).1.mulcache
  basemul := fun _ r r' _ _ _ _ _ _ => .of_si (si_mul_vec (c := #[]) (c' := #[]) (hf.basemul r r'))

/-! ## The entry points of the build -/

variable {e : X86Gp.Sites} {K : Nat}

/-- **C82.** Key generation computes ML-KEM.KeyGen_internal (FIPS 203, Algorithm 16) and returns 0. -/
theorem C82_keygen (he : GoodSites e) (hK : IsParam K) (fuel : Nat) (d z : List UInt8) (hd : d.length = 32) (hz : z.length = 32) (pk sk : Buf UInt8) (hpk : pk.size = pkLen K) (hsk : sk.size = skLen K) :
    match KeyGen_internal K (xofBytes fuel) d z with
    | some (ek, dk) => Returns (Native.crypto_kem_keypair_derand (X86Gp.x86_64 e) K fuel pk sk (Buf.ofList (d ++ z))) (0, Buf.ofList ek, Buf.ofList dk)
    | none => OutOfBudget (Native.crypto_kem_keypair_derand (X86Gp.x86_64 e) K fuel pk sk (Buf.ofList (d ++ z))) :=
  (C82_contract he).elim fun _ h => C62_keygen h hK fuel d z hd hz pk sk hpk hsk

/-- **C82.** Encapsulation to a public key that passes the modulus check computes ML-KEM.Encaps_internal (Algorithm 17) and returns 0. -/
theorem C82_encaps (he : GoodSites e) (hK : IsParam K) (fuel : Nat) (ek m : List UInt8) (hek : ek.length = pkLen K) (hm : m.length = 32) (hcheck : modulusCheck K ek) (ct ss : Buf UInt8) (hct : ct.size = ctLen K)
    (hss : ss.size = 32) :
    match Encaps_internal K (xofBytes fuel) ek m with
    | some (k, c) => Returns (Native.crypto_kem_enc_derand (X86Gp.x86_64 e) K fuel ct ss (Buf.ofList ek) (Buf.ofList m)) (0, Buf.ofList c, Buf.ofList k)
    | none => OutOfBudget (Native.crypto_kem_enc_derand (X86Gp.x86_64 e) K fuel ct ss (Buf.ofList ek) (Buf.ofList m)) :=
  (C82_contract he).elim fun _ h => C62_encaps h hK fuel ek m hek hm hcheck ct ss hct hss

/-- **C82.** Encapsulation returns -1, with the outputs as they were, exactly for the other public keys. -/
theorem C82_encaps_rejects (he : GoodSites e) (hK : IsParam K) (fuel : Nat) (ek m : List UInt8) (hek : ek.length = pkLen K) (hm : m.length = 32) (ct ss : Buf UInt8) (hct : ctLen K ≤ ct.size) (hss : 32 ≤ ss.size) :
    (∃ n, n < 256 * K ∧ 3329 ≤ coeff12 ek n) ↔ Returns (Native.crypto_kem_enc_derand (X86Gp.x86_64 e) K fuel ct ss (Buf.ofList ek) (Buf.ofList m)) (-1, ct, ss) :=
  (C82_contract he).elim fun _ h => C62_encaps_rejects h hK fuel ek m hek hm ct ss hct hss

/-- **C82.** Decapsulation with a secret key that passes the hash check computes ML-KEM.Decaps_internal (Algorithm 18) and returns 0. -/
theorem C82_decaps (he : GoodSites e) (hK : IsParam K) (fuel : Nat) (dk c : List UInt8) (hdk : dk.length = skLen K) (hc : c.length = ctLen K) (hcheck : hashCheck K dk) (ss : Buf UInt8) (hss : ss.size = 32) :
    match Decaps_internal K (xofBytes fuel) dk c with
    | some k => Returns (Native.crypto_kem_dec (X86Gp.x86_64 e) K fuel ss (Buf.ofList c) (Buf.ofList dk)) (0, Buf.ofList k)
    | none => OutOfBudget (Native.crypto_kem_dec (X86Gp.x86_64 e) K fuel ss (Buf.ofList c) (Buf.ofList dk)) :=
  (C82_contract he).elim fun _ h => C62_decaps h hK fuel dk c hdk hc hcheck ss hss

/-- **C82.** Decapsulation returns -1, with the output as it was, exactly for the other secret keys. -/
theorem C82_decaps_rejects (he : GoodSites e) (hK : IsParam K) (fuel : Nat) (dk c : List UInt8) (hdk : dk.length = skLen K) (hc : c.length = ctLen K) (ss : Buf UInt8) (hss : 32 ≤ ss.size) :
    SHA3_256 ((dk.drop (384 * K)).take (pkLen K)) ≠ (dk.drop (768 * K + 32)).take 32 ↔ Returns (Native.crypto_kem_dec (X86Gp.x86_64 e) K fuel ss (Buf.ofList c) (Buf.ofList dk)) (-1, ss) :=
  (C82_contract he).elim fun _ h => C62_decaps_rejects h hK fuel dk c hdk hc ss hss

/-- **C82.** Decapsulating two ciphertexts with two secret keys that agree in the embedded public key and its stored hash takes the same branches and accesses the same addresses, in the stack frames of the assembly too. -/
theorem C82_dec_constant_time (he : GoodSites e) (hf : FixedStack e) (hK : IsParam K) (fuel : Nat) (s s' ek h z z' c c' : List UInt8) (hs : s.length = 384 * K) (hs' : s'.length = 384 * K) (hek : ek.length = pkLen K)
    (hh : h.length = 32) (hz : z.length = 32) (hz' : z'.length = 32) (hc : c.length = ctLen K) (hc' : c'.length = ctLen K) (ss ss' : Buf UInt8) (hss : 32 ≤ ss.size) (hss' : 32 ≤ ss'.size) :
    LookAlike (Native.crypto_kem_dec (X86Gp.x86_64 e) K fuel ss (Buf.ofList c) (Buf.ofList (s ++ ek ++ h ++ z)))
      (Native.crypto_kem_dec (X86Gp.x86_64 e) K fuel ss' (Buf.ofList c') (Buf.ofList (s' ++ ek ++ h ++ z'))) :=
  (C82_contract he).elim fun _ k => C64_dec k (C82_data_independent hf) hK fuel s s' ek h z z' c c' hs hs' hek hh hz hz' hc hc' ss ss' hss hss'

/-- **C82.** Encapsulating to one public key with two values of the coins. -/
theorem C82_enc_constant_time (he : GoodSites e) (hf : FixedStack e) (hK : IsParam K) (fuel : Nat) (ek m m' : List UInt8) (hek : ek.length = pkLen K) (hm : m.length = 32) (hm' : m'.length = 32)
    (ct ct' ss ss' : Buf UInt8) (hct : ctLen K ≤ ct.size) (hct' : ctLen K ≤ ct'.size) (hss : 32 ≤ ss.size) (hss' : 32 ≤ ss'.size) :
    LookAlike (Native.crypto_kem_enc_derand (X86Gp.x86_64 e) K fuel ct ss (Buf.ofList ek) (Buf.ofList m)) (Native.crypto_kem_enc_derand (X86Gp.x86_64 e) K fuel ct' ss' (Buf.ofList ek) (Buf.ofList m')) :=
  (C82_contract he).elim fun _ k => C64_enc_derand k (C82_data_independent hf) hK fuel ek m m' hek hm hm' ct ct' ss ss' hct hct' hss hss'

/-- **C82.** Generating keys from two coin strings with the same public matrix seed. -/
theorem C82_keypair_constant_time (he : GoodSites e) (hf : FixedStack e) (hK : IsParam K) (fuel : Nat) (d d' z z' : List UInt8) (hd : d.length = 32) (hd' : d'.length = 32) (hz : z.length = 32) (hz' : z'.length = 32)
    (hρ : (SHA3_512 (d ++ [UInt8.ofNat K])).take 32 = (SHA3_512 (d' ++ [UInt8.ofNat K])).take 32)
    (pk pk' sk sk' : Buf UInt8) (hpk : pkLen K ≤ pk.size) (hpk' : pkLen K ≤ pk'.size) (hsk : skLen K ≤ sk.size) (hsk' : skLen K ≤ sk'.size) :
    LookAlike (Native.crypto_kem_keypair_derand (X86Gp.x86_64 e) K fuel pk sk (Buf.ofList (d ++ z))) (Native.crypto_kem_keypair_derand (X86Gp.x86_64 e) K fuel pk' sk' (Buf.ofList (d' ++ z'))) :=
  (C82_contract he).elim fun _ k => C64_keypair_derand k (C82_data_independent hf) hK fuel d d' z z' hd hd' hz hz' hρ pk pk' sk sk' hpk hpk' hsk hsk'

/-- A stack with a return address. -/
def someStack : Buf Int := (Array.replicate 128 (some 7)) |>.set! 100 (some 0x5678) |>.set! 101 (some 0x1234) |>.set! 102 (some (-2)) |>.set! 103 (some (-32767))

theorem someStack_ok : AtCall 4096 100 0x8001fffe12345678 someStack :=
  ⟨by norm_num, by norm_num, by norm_num, by norm_num, fun k hk => by
    have : k = 0 ∨ k = 1 ∨ k = 2 ∨ k = 3 := by omega
    rcases this with rfl | rfl | rfl | rfl
    · exact ⟨0x5678, by decide +kernel, by constructor <;> decide, by norm_num⟩
    · exact ⟨0x1234, by decide +kernel, by constructor <;> decide, by norm_num⟩
    · exact ⟨-2, by decide +kernel, by constructor <;> decide, by norm_num⟩
    · exact ⟨-32767, by decide +kernel, by constructor <;> decide, by norm_num⟩⟩

/-- Machine states that the hypotheses admit, with vector registers and other general-purpose registers that depend on the polynomial. -/
def someSite (p : Model.Poly) : X86Gp.Site := ⟨fun r k => (r + k + p.size : Nat), fun r => .num (r + p.size), 4096, someStack, 100, 0x8001fffe12345678⟩

theorem someSite_ok (p : Model.Poly) : AtCall (someSite p).lo (someSite p).j (someSite p).ra (someSite p).stk := by
  simp only [someSite]
  exact someStack_ok

/-- The machine at each call is `someSite`. -/
def someSites : X86Gp.Sites := ⟨someSite, someSite, someSite, someSite, someSite, someSite, someSite, fun p _ => someSite p⟩

example : GoodSites someSites ∧ FixedStack someSites :=
  ⟨⟨someSite_ok, someSite_ok, someSite_ok, someSite_ok, someSite_ok, someSite_ok, someSite_ok, fun p _ => someSite_ok p⟩,
    ⟨fun _ _ => ⟨rfl, rfl⟩, fun _ _ => ⟨rfl, rfl⟩, fun _ _ => ⟨rfl, rfl⟩, fun _ _ => ⟨rfl, rfl⟩, fun _ _ => ⟨rfl, rfl⟩, fun _ _ => ⟨rfl, rfl⟩, fun _ _ _ => ⟨rfl, rfl⟩⟩⟩

end Verif.Props

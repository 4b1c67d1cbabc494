import Verif.Model.NativeA64Gp
import Verif.Props.A64RejAsm
import Verif.Props.X86GpKem
/-! # The AArch64 build with all its assembly as instructions (C83) -/
namespace Verif.Props
open Verif Verif.Model Verif.Spec

theorem regs_stk_i16 (g : Native.Regs64) (p : Model.Poly) : A64RejAsm.I16 (g.stk p) := by
  intro i x h
  unfold Native.Regs64.stk at h
  rw [Array.getElem?_ofFn] at h
  split at h
  · cases h
    unfold X86.s16
    constructor <;> omega
  · cases h

theorem asm_count {r r' : Model.Poly} {ro n l : Nat} {stk : Model.Poly} {buf : Buf UInt8} (h : A64RejAsm.Ret (Model.A64Rej.rej_uniform_asm_clean r ro stk buf l) (r', n)) : n ≤ 256 := by
  unfold Model.A64Rej.rej_uniform_asm_clean at h
  obtain ⟨_, _, h⟩ := A64RejAsm.ret_bind.1 h
  have key : ∀ (p : M Model.A64Rej.St) (f : Model.A64Rej.St → M Model.Poly), A64RejAsm.Ret (p >>= fun s => f s >>= fun r => pure (r, if s.count < 256 then s.count else 256)) (r', n) → n ≤ 256 := by
    intro p f h
    obtain ⟨s, _, h⟩ := A64RejAsm.ret_bind.1 h
    obtain ⟨_, _, h⟩ := A64RejAsm.ret_bind.1 h
    have e := congrArg Prod.snd (A64RejAsm.ret_pure.1 h)
    simp only at e
    rw [← e]
    split <;> omega
  simp only at h
  split at h
  · exact key _ _ h
  · exact key _ _ h

theorem le_asm (e : A64RejAsm.Site) (g : Native.Regs64) (q : Model.Poly) (r : Model.Poly) (o : Nat) (L : List UInt8) (buf : Buf UInt8) (hl : L.length < 4294967296) (hb : ∀ i (h : i < L.length), buf[i]? = some (some L[i])) :
    Le (do let (r, ctr) ← Model.A64Rej.rej_uniform_asm_clean r o (g.stk q) buf L.length; pure (r, some ctr))
      (do let s ← A64RejAsm.call e.gx e.gv e.gf e.hi r o (g.stk q) buf L.length
          match (s.x 0).w with
          | some ctr => pure (s.out, some ctr)
          | none => M.fail .uninit) := fun a ha => by
  obtain ⟨⟨rf, n⟩, h1, h2⟩ := A64RejAsm.ret_bind.1 ha
  have h2 := A64RejAsm.ret_pure.1 h2
  have hn := asm_count h1
  obtain ⟨s, k1, k2⟩ := A64RejAsm.call_sim (gx := e.gx) (gv := e.gv) (gf := e.gf) (hi := e.hi) (L := L) hl (by simp [Native.Regs64.stk]) (fun i hi => by
    unfold Native.Regs64.stk at hi ⊢
    rw [Array.getElem?_ofFn, dif_pos (by simpa using hi)]
    exact ⟨_, rfl⟩) (regs_stk_i16 g q) (fun i hi => by
      show buf[0 + i]? = some (some (L.getD i 0))
      rw [Nat.zero_add, hb i hi, List.getD_eq_getElem?_getD, List.getElem?_eq_getElem hi]; rfl) h1
  refine A64RejAsm.ret_bind.2 ⟨s, k1, ?_⟩
  have e1 : (s.x 0).w = some n := by
    rw [k2.x0]
    show some (u32 n) = some n
    unfold u32
    rw [Nat.mod_eq_of_lt (by omega)]
  rw [e1, k2.out]
  exact A64RejAsm.ret_pure.2 h2

/-- **C83.** With the instructions of the rejection sampler in place of its transcription, from any registers, the AArch64 functions keep the contract of the backend interface (C62). -/
theorem C83_contract {P : A64.Profile} {Q : A64K.Profile} (hP : IsProfile P) (hQ : IsKeccakProfile Q) (g : Native.Regs64) (e : Model.Poly → A64RejAsm.Site) :
    ∃ IsCache, Contract (A64RejAsm.aarch64 P Q g e) (fun n => n) IsCache := by
  obtain ⟨C, h⟩ := C62_aarch64 hP hQ g
  refine ⟨C, { h with rej_uniform := ?_ }⟩
  intro target r h1 h2 a h3 h4 L buf h5 h6 h7
  obtain ⟨r', a', k1, k2⟩ := h.rej_uniform target r h1 h2 a h3 h4 L buf h5 h6 h7
  refine ⟨r', a', ?_, k2⟩
  refine (Le.bind (.bind (.refl _) fun c => ?_) fun _ => .refl _) _ k1
  exact .bind (.refl _) fun _ => by
    cases c
    · exact le_asm (e r) g r r a.length L buf (by omega) h7
    · exact .refl _

/-- **C83.** The functions of this build that handle secrets are independent of data (C64). -/
theorem C83_data_independent {P : A64.Profile} {Q : A64K.Profile} (hP : IsProfile P) (hQ : IsKeccakProfile Q) (g : Native.Regs64) (e : Model.Poly → A64RejAsm.Site) : DataIndependent (A64RejAsm.aarch64 P Q g e) :=
  { C64_backends.2.2.1 hP hQ g with }

/-! ## The entry points of the build -/

variable {P : A64.Profile} {Q : A64K.Profile} {K : Nat}

/-- **C83.** Key generation computes ML-KEM.KeyGen_internal (FIPS 203, Algorithm 16) and returns 0. -/
theorem C83_keygen (hP : IsProfile P) (hQ : IsKeccakProfile Q) (g : Native.Regs64) (e : Model.Poly → A64RejAsm.Site) (hK : IsParam K) (fuel : Nat) (d z : List UInt8) (hd : d.length = 32) (hz : z.length = 32) (pk sk : Buf UInt8) (hpk : pk.size = pkLen K) (hsk : sk.size = skLen K) :
    match KeyGen_internal K (xofBytes fuel) d z with
    | some (ek, dk) => Returns (Native.crypto_kem_keypair_derand (A64RejAsm.aarch64 P Q g e) K fuel pk sk (Buf.ofList (d ++ z))) (0, Buf.ofList ek, Buf.ofList dk)
    | none => OutOfBudget (Native.crypto_kem_keypair_derand (A64RejAsm.aarch64 P Q g e) K fuel pk sk (Buf.ofList (d ++ z))) :=
  (C83_contract hP hQ g e).elim fun _ h => C62_keygen h hK fuel d z hd hz pk sk hpk hsk

/-- **C83.** Encapsulation to a public key that passes the modulus check computes ML-KEM.Encaps_internal (Algorithm 17) and returns 0. -/
theorem C83_encaps (hP : IsProfile P) (hQ : IsKeccakProfile Q) (g : Native.Regs64) (e : Model.Poly → A64RejAsm.Site) (hK : IsParam K) (fuel : Nat) (ek m : List UInt8) (hek : ek.length = pkLen K) (hm : m.length = 32) (hcheck : modulusCheck K ek) (ct ss : Buf UInt8) (hct : ct.size = ctLen K)
    (hss : ss.size = 32) :
    match Encaps_internal K (xofBytes fuel) ek m with
    | some (k, c) => Returns (Native.crypto_kem_enc_derand (A64RejAsm.aarch64 P Q g e) K fuel ct ss (Buf.ofList ek) (Buf.ofList m)) (0, Buf.ofList c, Buf.ofList k)
    | none => OutOfBudget (Native.crypto_kem_enc_derand (A64RejAsm.aarch64 P Q g e) K fuel ct ss (Buf.ofList ek) (Buf.ofList m)) :=
  (C83_contract hP hQ g e).elim fun _ h => C62_encaps h hK fuel ek m hek hm hcheck ct ss hct hss

/-- **C83.** Encapsulation returns -1, with the outputs as they were, exactly for the other public keys. -/
theorem C83_encaps_rejects (hP : IsProfile P) (hQ : IsKeccakProfile Q) (g : Native.Regs64) (e : Model.Poly → A64RejAsm.Site) (hK : IsParam K) (fuel : Nat) (ek m : List UInt8) (hek : ek.length = pkLen K) (hm : m.length = 32) (ct ss : Buf UInt8) (hct : ctLen K ≤ ct.size) (hss : 32 ≤ ss.size) :
    (∃ n, n < 256 * K ∧ 3329 ≤ coeff12 ek n) ↔ Returns (Native.crypto_kem_enc_derand (A64RejAsm.aarch64 P Q g e) K fuel ct ss (Buf.ofList ek) (Buf.ofList m)) (-1, ct, ss) :=
  (C83_contract hP hQ g e).elim fun _ h => C62_encaps_rejects h hK fuel ek m hek hm ct ss hct hss

/-- **C83.** Decapsulation with a secret key that passes the hash check computes ML-KEM.Decaps_internal (Algorithm 18) and returns 0. -/
theorem C83_decaps (hP : IsProfile P) (hQ : IsKeccakProfile Q) (g : Native.Regs64) (e : Model.Poly → A64RejAsm.Site) (hK : IsParam K) (fuel : Nat) (dk c : List UInt8) (hdk : dk.length = skLen K) (hc : c.length = ctLen K) (hcheck : hashCheck K dk) (ss : Buf UInt8) (hss : ss.size = 32) :
    match Decaps_internal K (xofBytes fuel) dk c with
    | some k => Returns (Native.crypto_kem_dec (A64RejAsm.aarch64 P Q g e) K fuel ss (Buf.ofList c) (Buf.ofList dk)) (0, Buf.ofList k)
    | none => OutOfBudget (Native.crypto_kem_dec (A64RejAsm.aarch64 P Q g e) K fuel ss (Buf.ofList c) (Buf.ofList dk)) :=
  (C83_contract hP hQ g e).elim fun _ h => C62_decaps h hK fuel dk c hdk hc hcheck ss hss

/-- **C83.** Decapsulation returns -1, with the output as it was, exactly for the other secret keys. -/
theorem C83_decaps_rejects (hP : IsProfile P) (hQ : IsKeccakProfile Q) (g : Native.Regs64) (e : Model.Poly → A64RejAsm.Site) (hK : IsParam K) (fuel : Nat) (dk c : List UInt8) (hdk : dk.length = skLen K) (hc : c.length = ctLen K) (ss : Buf UInt8) (hss : 32 ≤ ss.size) :
    SHA3_256 ((dk.drop (384 * K)).take (pkLen K)) ≠ (dk.drop (768 * K + 32)).take 32 ↔ Returns (Native.crypto_kem_dec (A64RejAsm.aarch64 P Q g e) K fuel ss (Buf.ofList c) (Buf.ofList dk)) (-1, ss) :=
  (C83_contract hP hQ g e).elim fun _ h => C62_decaps_rejects h hK fuel dk c hdk hc ss hss

/-- **C83.** Decapsulating two ciphertexts with two secret keys that agree in the embedded public key and its stored hash takes the same branches and accesses the same addresses. -/
theorem C83_dec_constant_time (hP : IsProfile P) (hQ : IsKeccakProfile Q) (g : Native.Regs64) (e : Model.Poly → A64RejAsm.Site) (hK : IsParam K) (fuel : Nat) (s s' ek h z z' c c' : List UInt8) (hs : s.length = 384 * K) (hs' : s'.length = 384 * K) (hek : ek.length = pkLen K)
    (hh : h.length = 32) (hz : z.length = 32) (hz' : z'.length = 32) (hc : c.length = ctLen K) (hc' : c'.length = ctLen K) (ss ss' : Buf UInt8) (hss : 32 ≤ ss.size) (hss' : 32 ≤ ss'.size) :
    LookAlike (Native.crypto_kem_dec (A64RejAsm.aarch64 P Q g e) K fuel ss (Buf.ofList c) (Buf.ofList (s ++ ek ++ h ++ z)))
      (Native.crypto_kem_dec (A64RejAsm.aarch64 P Q g e) K fuel ss' (Buf.ofList c') (Buf.ofList (s' ++ ek ++ h ++ z'))) :=
  (C83_contract hP hQ g e).elim fun _ k => C64_dec k (C83_data_independent hP hQ g e) hK fuel s s' ek h z z' c c' hs hs' hek hh hz hz' hc hc' ss ss' hss hss'

/-- **C83.** Encapsulating to one public key with two values of the coins. -/
theorem C83_enc_constant_time (hP : IsProfile P) (hQ : IsKeccakProfile Q) (g : Native.Regs64) (e : Model.Poly → A64RejAsm.Site) (hK : IsParam K) (fuel : Nat) (ek m m' : List UInt8) (hek : ek.length = pkLen K) (hm : m.length = 32) (hm' : m'.length = 32)
    (ct ct' ss ss' : Buf UInt8) (hct : ctLen K ≤ ct.size) (hct' : ctLen K ≤ ct'.size) (hss : 32 ≤ ss.size) (hss' : 32 ≤ ss'.size) :
    LookAlike (Native.crypto_kem_enc_derand (A64RejAsm.aarch64 P Q g e) K fuel ct ss (Buf.ofList ek) (Buf.ofList m)) (Native.crypto_kem_enc_derand (A64RejAsm.aarch64 P Q g e) K fuel ct' ss' (Buf.ofList ek) (Buf.ofList m')) :=
  (C83_contract hP hQ g e).elim fun _ k => C64_enc_derand k (C83_data_independent hP hQ g e) hK fuel ek m m' hek hm hm' ct ct' ss ss' hct hct' hss hss'

/-- **C83.** Generating keys from two coin strings with the same public matrix seed. -/
theorem C83_keypair_constant_time (hP : IsProfile P) (hQ : IsKeccakProfile Q) (g : Native.Regs64) (e : Model.Poly → A64RejAsm.Site) (hK : IsParam K) (fuel : Nat) (d d' z z' : List UInt8) (hd : d.length = 32) (hd' : d'.length = 32) (hz : z.length = 32) (hz' : z'.length = 32)
    (hρ : (SHA3_512 (d ++ [UInt8.ofNat K])).take 32 = (SHA3_512 (d' ++ [UInt8.ofNat K])).take 32)
    (pk pk' sk sk' : Buf UInt8) (hpk : pkLen K ≤ pk.size) (hpk' : pkLen K ≤ pk'.size) (hsk : skLen K ≤ sk.size) (hsk' : skLen K ≤ sk'.size) :
    LookAlike (Native.crypto_kem_keypair_derand (A64RejAsm.aarch64 P Q g e) K fuel pk sk (Buf.ofList (d ++ z))) (Native.crypto_kem_keypair_derand (A64RejAsm.aarch64 P Q g e) K fuel pk' sk' (Buf.ofList (d' ++ z'))) :=
  (C83_contract hP hQ g e).elim fun _ k => C64_keypair_derand k (C83_data_independent hP hQ g e) hK fuel d d' z z' hd hd' hz hz' hρ pk pk' sk sk' hpk hpk' hsk hsk'

/-- A case that the hypotheses admit: the profile `clean` with the default Keccak functions, from registers whose contents depend on the polynomial. -/
example (g : Native.Regs64) : ∃ IsCache, Contract (A64RejAsm.aarch64 A64.clean (A64K.defaultProfile true false true) g fun p => ⟨fun r => .num (r + p.size), fun r k => UInt8.ofNat (r + k), none, p.size⟩) (fun n => n) IsCache :=
  C83_contract (.inl rfl) (.inr (.inr ⟨true, false, true, rfl⟩)) g _

end Verif.Props

import Verif.Props.Kem
import Verif.Props.Arith
import Verif.Proof.NistRng
/-! # C68: the generator behind the NIST known-answer tests -/
namespace Verif.Props
open Verif Verif.Model.Aes Verif.Model.NistRng Verif.Spec Verif.NistRng

/-- The local array of sixteen words that the block-cipher code declares without initialising it holds some words. -/
def SomeWords (stk : Buf W32) : Prop := ∃ L : List W32, L.length = 16 ∧ stk = Buf.ofList L

theorem SomeWords.holds {stk : Buf W32} (h : SomeWords stk) : ∃ F, Holds stk 16 F := by
  obtain ⟨L, hl, rfl⟩ := h
  exact ⟨_, by have := Holds.ofList L 0#32; rwa [hl] at this⟩

theorem seg_ofList {L : List UInt8} {n : Nat} (h : L.length = n) : Seg (Buf.ofList L) 0 n fun i => L.getD i 0 := by
  subst h; exact (Holds.ofList L 0).seg

theorem holds_ofList {L : List UInt8} {n : Nat} (h : L.length = n) : Holds (Buf.ofList L) n fun i => L.getD i 0 := by
  subst h; exact Holds.ofList L 0

theorem ecb_getD {Nk n : Nat} {key msg : List UInt8} (hm : msg.length = 16 * n) {m : Nat} (h : m < 16 * n) :
    (AES Nk key (Verif.Aes.blockOf (fun i => msg.getD i 0) (m / 16))).getD (m % 16) 0 = (ecb Nk key msg).getD m 0 := by
  unfold ecb
  rw [flat_getD _ (fun _ => Verif.Aes.AES_length _ _ _) 0 _ m (by rw [hm]; omega)]
  congr 2
  refine list_eq_of_getD (n := 16) (by simp [Verif.Aes.blockOf]) (by simp; omega) fun i hi => ?_
  rw [Verif.Aes.blockOf_getD _ _ hi, take_getD _ hi, drop_getD]

theorem ecb_length {Nk n : Nat} {key msg : List UInt8} (hm : msg.length = 16 * n) : (ecb Nk key msg).length = 16 * n := by
  unfold ecb
  rw [flat_length _ (fun _ => Verif.Aes.AES_length _ _ _), hm]; omega

theorem ctr_getD {Nk n : Nat} {key iv : List UInt8} (hi : iv.length = 12) {m : Nat} (h : m < n) :
    (AES Nk key (Verif.Aes.ctrBlock (fun i => iv.getD i 0) (m / 16))).getD (m % 16) 0 = (ctrStream Nk key iv n).getD m 0 := by
  unfold ctrStream Verif.Aes.ctrBlock
  rw [take_getD _ h, flat_getD _ (fun _ => Verif.Aes.AES_length _ _ _) 0 _ m (by omega), ← list_as_map hi]

theorem ctr_length {Nk n : Nat} {key iv : List UInt8} : (ctrStream Nk key iv n).length = n := by
  unfold ctrStream
  rw [List.length_take, flat_length _ (fun _ => Verif.Aes.AES_length _ _ _)]; omega

theorem buf_of_written {b b' : Buf UInt8} {n : Nat} {f : Nat → UInt8} {L : List UInt8} (h : Written b b' 0 n f) (hb : b.size = n) (hL : L.length = n) (hf : ∀ i, i < n → f i = L.getD i 0) : b' = Buf.ofList L :=
  ((h.holds hb).congr hf).unique (holds_ofList hL)

/-! ## The block cipher -/

theorem ecb_gen {Nk : Nat} {key msg : List UInt8} {n : Nat} {stk : Buf W32} {out : Buf UInt8} {kexp : M (Buf Model.W)} (hk : Post kexp (Verif.Aes.KeyOk Nk key)) (hm : msg.length = 16 * n) (hs : SomeWords stk) (ho : out.size = 16 * n) :
    Returns (do let ctx ← kexp; aes_ecb stk out 0 (Buf.ofList msg) 0 n ctx (numRounds Nk)) (Buf.ofList (ecb Nk key msg)) := by
  obtain ⟨F, hF⟩ := hs.holds
  have key' : Post (do let ctx ← kexp; aes_ecb stk out 0 (Buf.ofList msg) 0 n ctx (numRounds Nk)) (fun o => o = Buf.ofList (ecb Nk key msg)) := by
    rw [show Post _ _ = PostF False _ _ from rfl, wp_bind]
    refine PostF.mono hk fun sk hsk => PostF.mono (Verif.Aes.ecb_spec hsk hF (seg_ofList hm) (by omega)) fun o hw => ?_
    exact buf_of_written hw ho (ecb_length hm) fun i hi => ecb_getD hm hi
  obtain ⟨o, h, rfl⟩ := ret_of_post key'
  exact h

theorem ctr_gen {Nk : Nat} {key iv : List UInt8} {n : Nat} {out : Buf UInt8} {kexp : M (Buf Model.W)} (hk : Post kexp (Verif.Aes.KeyOk Nk key)) (hi : iv.length = 12) (ho : out.size = n) :
    Returns (do let ctx ← kexp; aes_ctr out n (Buf.ofList iv) ctx (numRounds Nk)) (Buf.ofList (ctrStream Nk key iv n)) := by
  have key' : Post (do let ctx ← kexp; aes_ctr out n (Buf.ofList iv) ctx (numRounds Nk)) (fun o => o = Buf.ofList (ctrStream Nk key iv n)) := by
    rw [show Post _ _ = PostF False _ _ from rfl, wp_bind]
    refine PostF.mono hk fun sk hsk => PostF.mono (Verif.Aes.ctr_spec hsk (seg_ofList hi) (by omega)) fun o hw => ?_
    exact buf_of_written hw ho ctr_length fun i hi' => ctr_getD hi hi'
  obtain ⟨o, h, rfl⟩ := ret_of_post key'
  exact h

/-- **C68.** `aes128_ecb` after `aes128_ecb_keyexp` encrypts every block with AES-128 of FIPS 197, for every key and any number of blocks, whatever the uninitialised local array held. -/
theorem C68_aes128_ecb {key msg : List UInt8} {n : Nat} (hk : key.length = 16) (hm : msg.length = 16 * n) {stk : Buf W32} (hs : SomeWords stk) {out : Buf UInt8} (ho : out.size = 16 * n) :
    Returns (do let ctx ← aes128_ecb_keyexp (Buf.ofList key) 0; aes128_ecb stk out (Buf.ofList msg) n ctx) (Buf.ofList (ecb 4 key msg)) :=
  ecb_gen (Verif.Aes.aes128_keyexp_spec (seg_ofList hk)) hm hs ho

/-- **C68.** The same for AES-192. -/
theorem C68_aes192_ecb {key msg : List UInt8} {n : Nat} (hk : key.length = 24) (hm : msg.length = 16 * n) {stk : Buf W32} (hs : SomeWords stk) {out : Buf UInt8} (ho : out.size = 16 * n) :
    Returns (do let ctx ← aes192_ecb_keyexp (Buf.ofList key) 0; aes192_ecb stk out (Buf.ofList msg) n ctx) (Buf.ofList (ecb 6 key msg)) :=
  ecb_gen (Verif.Aes.aes192_keyexp_spec (seg_ofList hk)) hm hs ho

/-- **C68.** The same for AES-256. -/
theorem C68_aes256_ecb {key msg : List UInt8} {n : Nat} (hk : key.length = 32) (hm : msg.length = 16 * n) {stk : Buf W32} (hs : SomeWords stk) {out : Buf UInt8} (ho : out.size = 16 * n) :
    Returns (do let ctx ← aes256_ecb_keyexp (Buf.ofList key) 0; aes256_ecb stk out (Buf.ofList msg) n ctx) (Buf.ofList (ecb 8 key msg)) :=
  ecb_gen (Verif.Aes.aes256_keyexp_spec (seg_ofList hk)) hm hs ho

/-- **C68.** `aes128_ctr` delivers the key stream of counter mode, for every key, nonce and length. -/
theorem C68_aes128_ctr {key iv : List UInt8} {n : Nat} (hk : key.length = 16) (hi : iv.length = 12) {out : Buf UInt8} (ho : out.size = n) :
    Returns (do let ctx ← aes128_ecb_keyexp (Buf.ofList key) 0; aes128_ctr out n (Buf.ofList iv) ctx) (Buf.ofList (ctrStream 4 key iv n)) :=
  ctr_gen (Verif.Aes.aes128_keyexp_spec (seg_ofList hk)) hi ho

/-- **C68.** The same for AES-192. -/
theorem C68_aes192_ctr {key iv : List UInt8} {n : Nat} (hk : key.length = 24) (hi : iv.length = 12) {out : Buf UInt8} (ho : out.size = n) :
    Returns (do let ctx ← aes192_ecb_keyexp (Buf.ofList key) 0; aes192_ctr out n (Buf.ofList iv) ctx) (Buf.ofList (ctrStream 6 key iv n)) :=
  ctr_gen (Verif.Aes.aes192_keyexp_spec (seg_ofList hk)) hi ho

/-- **C68.** The same for AES-256. -/
theorem C68_aes256_ctr {key iv : List UInt8} {n : Nat} (hk : key.length = 32) (hi : iv.length = 12) {out : Buf UInt8} (ho : out.size = n) :
    Returns (do let ctx ← aes256_ecb_keyexp (Buf.ofList key) 0; aes256_ctr out n (Buf.ofList iv) ctx) (Buf.ofList (ctrStream 8 key iv n)) :=
  ctr_gen (Verif.Aes.aes256_keyexp_spec (seg_ofList hk)) hi ho

/-- The specification's inverse is one: the S-box of the specification is built on the field's inversion. -/
theorem C68_spec_inverse : ∀ b : Byte, b ≠ 0#8 → gmul b (ginv b) = 1#8 := by
  have : ∀ n, n < 256 → n ≠ 0 → gmul (BitVec.ofNat 8 n) (ginv (BitVec.ofNat 8 n)) = 1#8 := by decide +kernel
  intro b hb
  have := this b.toNat b.isLt (fun h => hb (by apply BitVec.eq_of_toNat_eq; simpa using h))
  simpa using this

/-- The example of FIPS 197, Appendix C.1. -/
example : AES 4 [0x00, 0x01, 0x02, 0x03, 0x04, 0x05, 0x06, 0x07, 0x08, 0x09, 0x0a, 0x0b, 0x0c, 0x0d, 0x0e, 0x0f]
    [0x00, 0x11, 0x22, 0x33, 0x44, 0x55, 0x66, 0x77, 0x88, 0x99, 0xaa, 0xbb, 0xcc, 0xdd, 0xee, 0xff] =
    [0x69, 0xc4, 0xe0, 0xd8, 0x6a, 0x7b, 0x04, 0x30, 0xd8, 0xcd, 0xb7, 0x80, 0x70, 0xb4, 0xc5, 0x5a] := by decide +kernel

/-- The hypotheses of the theorems on the block cipher can be met: five blocks. -/
example : (List.replicate 32 (7 : UInt8)).length = 32 ∧ (List.replicate 80 (1 : UInt8)).length = 16 * 5 ∧ SomeWords (Buf.ofList (List.replicate 16 0xdeadbeef#32)) ∧ (Buf.uninit UInt8 80).size = 16 * 5 :=
  ⟨by simp, by simp, ⟨_, by simp, rfl⟩, by simp [Buf.uninit]⟩

/-! ## The generator -/

/-- The static variable of the generator holding a state of CTR_DRBG. -/
def ctxOf (s : DrbgState) : Ctx := ⟨Buf.ofList s.key, Buf.ofList s.v⟩

/-- A state with a key of 32 and a counter of 16 bytes. -/
def IsState (s : DrbgState) : Prop := s.key.length = 32 ∧ s.v.length = 16

theorem ctxOk_of {s : DrbgState} (h : IsState s) : CtxOk (ctxOf s) s := ⟨holds_ofList h.1, holds_ofList h.2, h.1, h.2⟩

theorem of_ctxOk {c : Ctx} {s : DrbgState} (h : CtxOk c s) : c = ctxOf s := by
  obtain ⟨h1, h2, l1, l2⟩ := h
  obtain ⟨k, v⟩ := c
  have e1 : k = Buf.ofList s.key := h1.unique (holds_ofList l1)
  have e2 : v = Buf.ofList s.v := h2.unique (holds_ofList l2)
  unfold ctxOf
  rw [← e1, ← e2]

theorem filled_of {stk : Buf UInt8 → Buf UInt8 → Buf W32} (h : ∀ k c, SomeWords (stk k c)) : Filled stk := fun k c => (h k c).holds

theorem generate_length (s : DrbgState) (n : Nat) : (CTR_DRBG_Generate s n).1.length = n := by
  unfold CTR_DRBG_Generate
  rw [List.length_take, ks_length]; omega

theorem update_isState {p : List UInt8} (hp : p.length = 48) (s : DrbgState) : IsState (CTR_DRBG_Update p s) := by
  have := xor_length (ks_length s 3) hp
  unfold CTR_DRBG_Update IsState
  simp [this]

theorem generate_isState (s : DrbgState) (n : Nat) : IsState (CTR_DRBG_Generate s n).2 := update_isState (by simp) _

theorem instantiate_isState {e p : List UInt8} (he : e.length = 48) (hp : p.length = 48) : IsState (CTR_DRBG_Instantiate e p) := update_isState (xor_length he hp) _

/-- **C68.** `nist_kat_init` puts the generator into the state that CTR_DRBG with AES-256 is instantiated with, whatever state it was in; a missing personalization string counts as zeros. -/
theorem C68_init {stk : Buf UInt8 → Buf UInt8 → Buf W32} (hs : ∀ k c, SomeWords (stk k c)) {c : Ctx} (hk : c.key.size = 32) (hc : c.ctr.size = 16) {e : List UInt8} (he : e.length = 48) :
    Returns (nist_kat_init stk c (Buf.ofList e) none) (ctxOf (CTR_DRBG_Instantiate e (List.replicate 48 0))) ∧
    ∀ p : List UInt8, p.length = 48 → Returns (nist_kat_init stk c (Buf.ofList e) (some (Buf.ofList p))) (ctxOf (CTR_DRBG_Instantiate e p)) := by
  refine ⟨?_, fun p hp => ?_⟩
  · obtain ⟨c', h, h'⟩ := ret_of_post (init_spec (filled_of hs) hk hc (seg_ofList he) he (pers := none) (p := List.replicate 48 0) (by simp) rfl)
    rwa [of_ctxOk h'] at h
  · obtain ⟨c', h, h'⟩ := ret_of_post (init_spec (filled_of hs) hk hc (seg_ofList he) he (pers := some (Buf.ofList p)) hp (seg_ofList hp))
    rwa [of_ctxOk h'] at h

/-- **C68.** `randombytes` delivers the bytes of CTR_DRBG and leaves its next state, for every state and every length. -/
theorem C68_randombytes {stk : Buf UInt8 → Buf UInt8 → Buf W32} (hs : ∀ k c, SomeWords (stk k c)) {s : DrbgState} (h : IsState s) {n : Nat} {buf : Buf UInt8} (hb : buf.size = n) :
    Returns (randombytes stk (ctxOf s) buf n) (ctxOf (CTR_DRBG_Generate s n).2, Buf.ofList (CTR_DRBG_Generate s n).1) := by
  obtain ⟨⟨c, b⟩, hr, h1, h2⟩ := ret_of_post (randombytes_spec (filled_of hs) (ctxOk_of h) (n := n) (le_of_eq hb.symm))
  dsimp only at h1 h2
  rw [of_ctxOk h1, buf_of_written h2 hb (generate_length s n) fun _ _ => rfl] at hr
  exact hr

/-- Calls of `randombytes` one after the other, each with a fresh buffer of the length asked for. -/
def calls (stk : Buf UInt8 → Buf UInt8 → Buf W32) : Ctx → List Nat → M (List (Buf UInt8))
  | _, [] => pure []
  | c, n :: ns => do
    let (c, b) ← randombytes stk c (Buf.uninit UInt8 n) n
    let bs ← calls stk c ns
    pure (b :: bs)

/-- The outputs of CTR_DRBG for requests one after the other. -/
def outputs : DrbgState → List Nat → List (List UInt8)
  | _, [] => []
  | s, n :: ns => (CTR_DRBG_Generate s n).1 :: outputs (CTR_DRBG_Generate s n).2 ns

/-- **C68.** After seeding, every history of requests is answered as CTR_DRBG answers it. -/
theorem C68_history {stk : Buf UInt8 → Buf UInt8 → Buf W32} (hs : ∀ k c, SomeWords (stk k c)) {c : Ctx} (hk : c.key.size = 32) (hc : c.ctr.size = 16) {e : List UInt8} (he : e.length = 48) (ns : List Nat) :
    Returns (do let c ← nist_kat_init stk c (Buf.ofList e) none; calls stk c ns) ((outputs (CTR_DRBG_Instantiate e (List.replicate 48 0)) ns).map Buf.ofList) := by
  have key : ∀ (ns : List Nat) (s : DrbgState), IsState s → Returns (calls stk (ctxOf s) ns) ((outputs s ns).map Buf.ofList) := by
    intro ns
    induction ns with
    | nil => intro s _; exact ⟨_, rfl⟩
    | cons n ns ih =>
      intro s hs'
      obtain ⟨t1, h1⟩ := C68_randombytes hs hs' (n := n) (buf := Buf.uninit UInt8 n) (by simp [Buf.uninit])
      obtain ⟨t2, h2⟩ := ih _ (generate_isState s n)
      refine ⟨t1 ++ (t2 ++ []), ?_⟩
      rw [calls, h1]
      show M.bnd (.ok (_, t1)) _ = _
      rw [M.bnd]
      simp only
      rw [h2]
      rfl
  obtain ⟨t1, h1⟩ := (C68_init hs hk hc he).1
  obtain ⟨t2, h2⟩ := key ns _ (instantiate_isState he (p := List.replicate 48 0) (by simp))
  refine ⟨t1 ++ t2, ?_⟩
  rw [h1]
  show M.bnd (.ok (_, t1)) _ = _
  rw [M.bnd, h2]

/-- The hypotheses of the theorems on the generator can be met. -/
example : IsState ⟨List.replicate 32 1, List.replicate 16 255⟩ ∧ (∀ k c : Buf UInt8, SomeWords ((fun _ _ => Buf.ofList (List.replicate 16 1#32)) k c)) ∧
    incV (List.replicate 16 255) 1 = List.replicate 16 0 := ⟨⟨by simp, by simp⟩, fun _ _ => ⟨_, by simp, rfl⟩, by decide +kernel⟩

end Verif.Props

import Verif.Props.Drbg
import Verif.Props.Interop
import Verif.Model.KatGen
import Verif.Spec.Kat
/-! # C69: the generators of known-answer files

The programs are linked with a build of the library on any backend that keeps the contract of C62 (`C66_backends`: the portable code, AVX2 and AArch64 do). -/
namespace Verif.Props
open Verif Verif.Model Verif.Spec Verif.Model.KatGen

attribute [local irreducible] keccakF partialK finK blocksK sqByte SHAKE256 SHA3_256 SHA3_512 SHAKE128 KeyGen_internal Encaps_internal Decaps_internal
  Native.crypto_kem_keypair_derand Native.crypto_kem_enc_derand Native.crypto_kem_dec CTR_DRBG_Generate CTR_DRBG_Instantiate NistRng.randombytes NistRng.nist_kat_init

/-- The program `p` ends as described: with the value given, or out of budget if none is given. -/
def Ends {α : Type} (p : M α) (o : Option α) : Prop :=
  match o with
  | some a => Returns p a
  | none => OutOfBudget p

namespace Kat

theorem seq {α β : Type} {p : M α} {f : α → M β} {a : α} {b : β} (h : Returns p a) (h' : Returns (f a) b) : Returns (p >>= f) b := by
  obtain ⟨t, e⟩ := h; obtain ⟨t', e'⟩ := h'
  refine ⟨t ++ t', ?_⟩
  rw [e]; show M.bnd _ _ = _
  simp only [M.bnd, e']; rfl

theorem seqOut {α β : Type} {p : M α} {f : α → M β} {a : α} (h : Returns p a) (h' : OutOfBudget (f a)) : OutOfBudget (p >>= f) := by
  obtain ⟨t, e⟩ := h
  unfold OutOfBudget at *
  rw [e]; show M.bnd _ _ = _
  simp only [M.bnd, h']; rfl

theorem seqE {α β : Type} {p : M α} {f : α → M β} {a : α} {o : Option β} (h : Returns p a) (h' : Ends (f a) o) : Ends (p >>= f) o := by
  cases o with
  | none => exact seqOut h h'
  | some b => exact seq h h'

theorem outBind {α β : Type} {p : M α} {f : α → M β} (h : OutOfBudget p) : OutOfBudget (p >>= f) := by
  unfold OutOfBudget at *; rw [h]; rfl

theorem ret {α : Type} (a : α) : Returns (pure a : M α) a := ⟨[], rfl⟩

theorem brT {α : Type} {p q : M α} {o : Option α} (h : Ends p o) : Ends (branch true p q) o :=
  seqE (p := M.emit (.br true)) (a := ()) ⟨_, rfl⟩ h

theorem brF {α : Type} {p q : M α} {o : Option α} (h : Ends q o) : Ends (branch false p q) o :=
  seqE (p := M.emit (.br false)) (a := ()) ⟨_, rfl⟩ h

theorem for_ret {σ : Type} {body : Nat → σ → M σ} (f : Nat → σ) : ∀ (n lo : Nat), (∀ i, lo ≤ i → i < lo + n → Returns (body i (f i)) (f (i + 1))) → Returns (forFrom lo n (f lo) body) (f (lo + n))
  | 0, lo, _ => by unfold forFrom; exact seq (a := ()) ⟨_, rfl⟩ (ret _)
  | n + 1, lo, h => by
    unfold forFrom
    refine seq (a := ()) ⟨_, rfl⟩ (seq (h lo (le_refl _) (by omega)) ?_)
    have := for_ret f n (lo + 1) (fun i h1 h2 => h i (by omega) (by omega))
    rwa [show lo + 1 + n = lo + (n + 1) by omega] at this

/-! ## Printing -/

theorem hex02_eq (up : Bool) (b : UInt8) : hex02 up b = hexText (if up then upperHex else lowerHex) [b] := by
  have h : ∀ (up : Bool) (n : Fin 16), hexDigit up n.val = (if up then upperHex else lowerHex).getD n.val '0' := by decide +kernel
  have hb := b.toNat_lt
  unfold hex02 hexText hexText
  rw [h up ⟨b.toNat / 16, by omega⟩, h up ⟨b.toNat % 16, by omega⟩]
  simp

theorem hexText_append (ds : List Char) (a b : List UInt8) : hexText ds (a ++ b) = hexText ds a ++ hexText ds b := by
  induction a with
  | nil => simp [hexText]
  | cons x a ih => simp [hexText, ih, String.append_assoc]

theorem rd_ofList {L : List UInt8} {i : Nat} (h : i < L.length) : Returns (rd (Buf.ofList L) i) L[i] := by
  unfold rd
  have : (Buf.ofList L)[i]? = some (some L[i]) := by simp [Buf.ofList, h]
  rw [this]; exact ⟨_, rfl⟩

theorem hexLoop {up : Bool} {L : List UInt8} {n : Nat} (hn : L.length = n) (out : String) :
    Returns (forN n out fun i out => do let a ← rd (Buf.ofList L) i; pure (out ++ hex02 up a)) (out ++ hexText (if up then upperHex else lowerHex) L) := by
  have := for_ret (body := fun i out => do let a ← rd (Buf.ofList L) i; pure (out ++ hex02 up a)) (fun i => out ++ hexText (if up then upperHex else lowerHex) (L.take i)) n 0 (fun i _ hi => by
    have hi' : i < L.length := by omega
    refine seq (rd_ofList hi') ?_
    have e : L.take (i + 1) = L.take i ++ [L[i]] := by rw [List.take_add_one, List.getElem?_eq_getElem hi']; rfl
    rw [e, hexText_append, hex02_eq, String.append_assoc]; exact ret _)
  rw [Nat.zero_add, List.take_of_length_le (le_of_eq hn)] at this
  simpa [hexText] using this

theorem fprintBstr_ret {L : List UInt8} {n : Nat} (hn : L.length = n) (h0 : n ≠ 0) (out S : String) : Returns (fprintBstr out S (Buf.ofList L) n) (out ++ S ++ hexText upperHex L ++ "\n") := by
  unfold fprintBstr
  refine seq (hexLoop (up := true) hn _) ?_
  have : (n == 0) = false := by simpa using h0
  rw [this]
  exact seq (brF (o := some _) (ret _)) (ret _)

theorem print_hex_ret {L : List UInt8} {n : Nat} (hn : L.length = n) (out S : String) : Returns (print_hex out S (Buf.ofList L) n) (out ++ S ++ " = " ++ hexText lowerHex L ++ "\n") := by
  unfold print_hex
  exact seq (hexLoop (up := false) hn _) (ret _)

theorem memcmp_ret {a b : List UInt8} {n : Nat} (ha : a.length = n) (hb : b.length = n) : ∃ r : Int, Returns (memcmp (Buf.ofList a) 0 (Buf.ofList b) 0 n) r ∧ (r = 0 ↔ a = b) := by
  obtain ⟨r, hr, h⟩ := ret_of_post (memcmp_spec (seg_ofList ha) (seg_ofList hb))
  exact ⟨r, hr, h.trans ⟨fun e => NistRng.list_eq_of_getD ha hb e, fun e _ _ => by rw [e]⟩⟩

theorem enc_frame {bk : Native.Backend} (hb : KeepsContract bk) {K : Nat} (hK : IsParam K) (fuel : Nat) (ek m : List UInt8) (hek : ek.length = pkLen K) (hm : m.length = 32)
    (ct ss : Buf UInt8) (hct : ctLen K ≤ ct.size) (hss : 32 ≤ ss.size) :
    (modulusCheck K ek ∧ ∃ k c ct' ss', Encaps_internal K (xofBytes fuel) ek m = some (k, c) ∧ k.length = 32 ∧ c.length = ctLen K ∧
      Returns (Native.crypto_kem_enc_derand bk K fuel ct ss (Buf.ofList ek) (Buf.ofList m)) (0, ct', ss') ∧
      (ct.size = ctLen K → ct' = Buf.ofList c) ∧ (ss.size = 32 → ss' = Buf.ofList k)) ∨
    (modulusCheck K ek ∧ Encaps_internal K (xofBytes fuel) ek m = none ∧ OutOfBudget (Native.crypto_kem_enc_derand bk K fuel ct ss (Buf.ofList ek) (Buf.ofList m))) ∨
    (¬ modulusCheck K ek ∧ Returns (Native.crypto_kem_enc_derand bk K fuel ct ss (Buf.ofList ek) (Buf.ofList m)) (-1, ct, ss)) := by
  obtain ⟨_, _, hb⟩ := hb
  have s := C62_enc hb hK fuel (ct := ct) (ss := ss) (pk := Buf.ofList ek) (coins := Buf.ofList m) ⟨ek, hek, rfl⟩ ⟨m, hm, rfl⟩ hct hss
  rcases Props.enc_frame hK fuel ek m hek hm ct ss hct hss with ⟨hc, k, c, a, b, e, l1, l2, h, _, _, w1, w2⟩ | ⟨hc, e, h⟩ | ⟨hn, h⟩
  · exact Or.inl ⟨hc, k, c, a, b, e, l1, l2, (s.returns_iff _).2 h, w1, w2⟩
  · exact Or.inr (Or.inl ⟨hc, e, s.out_iff.2 h⟩)
  · exact Or.inr (Or.inr ⟨hn, (s.returns_iff _).2 h⟩)

theorem dec_frame {bk : Native.Backend} (hb : KeepsContract bk) {K : Nat} (hK : IsParam K) (fuel : Nat) (dk c : List UInt8) (hdk : dk.length = skLen K) (hc : c.length = ctLen K)
    (ss : Buf UInt8) (hss : 32 ≤ ss.size) :
    (hashCheck K dk ∧ ∃ k ss', Decaps_internal K (xofBytes fuel) dk c = some k ∧ k.length = 32 ∧
      Returns (Native.crypto_kem_dec bk K fuel ss (Buf.ofList c) (Buf.ofList dk)) (0, ss') ∧ (ss.size = 32 → ss' = Buf.ofList k)) ∨
    (hashCheck K dk ∧ Decaps_internal K (xofBytes fuel) dk c = none ∧ OutOfBudget (Native.crypto_kem_dec bk K fuel ss (Buf.ofList c) (Buf.ofList dk))) ∨
    (¬ hashCheck K dk ∧ Returns (Native.crypto_kem_dec bk K fuel ss (Buf.ofList c) (Buf.ofList dk)) (-1, ss)) := by
  obtain ⟨_, _, hb⟩ := hb
  have s := C62_dec hb hK fuel (ss := ss) (ct := Buf.ofList c) (sk := Buf.ofList dk) ⟨c, hc, rfl⟩ ⟨dk, hdk, rfl⟩ hss
  rcases Props.dec_frame hK fuel dk c hdk hc ss hss with ⟨hh, k, a, e, l1, h, _, w⟩ | ⟨hh, e, h⟩ | ⟨hn, h⟩
  · exact Or.inl ⟨hh, k, a, e, l1, (s.returns_iff _).2 h, w⟩
  · exact Or.inr (Or.inl ⟨hh, e, s.out_iff.2 h⟩)
  · exact Or.inr (Or.inr ⟨hn, (s.returns_iff _).2 h⟩)

/-! ## One case -/

theorem keygen_ends {bk : Native.Backend} (hb : KeepsContract bk) {K : Nat} (hK : IsParam K) (fuel : Nat) {d z : List UInt8} (hd : d.length = 32) (hz : z.length = 32) {coins pk sk : Buf UInt8} (hc : SegL coins 0 (d ++ z))
    (hpk : pk.size = pkLen K) (hsk : sk.size = skLen K) :
    Ends (Native.crypto_kem_keypair_derand bk K fuel pk sk coins) ((KeyGen_internal K (xofBytes fuel) d z).map fun p => (0, Buf.ofList p.1, Buf.ofList p.2)) := by
  rw [pkLen_eq] at hpk; rw [skLen_eq] at hsk
  rcases outcome (Native.keypair_derand_spec hb.choose_spec.choose_spec.meets (fuel := fuel) hK hd hz hc (le_of_eq hpk.symm) (le_of_eq hsk.symm)) with ⟨⟨r, a, b⟩, h, ek, dk, e, l1, l2, h0, w1, w2⟩ | ⟨h, e⟩
  · unfold xofBytes; rw [e]
    simp only at h0 w1 w2
    rw [h0, w1.whole (hpk.trans l1.symm), w2.whole (hsk.trans l2.symm)] at h
    exact h
  · unfold xofBytes; rw [e]; exact h

/-- What is known about a case of the specification. -/
theorem keygen_good {K n : Nat} {d z ek dk : List UInt8} (hz : z.length = 32) (h : KeyGen_internal K n d z = some (ek, dk)) :
    ek.length = pkLen K ∧ dk.length = skLen K ∧ modulusCheck K ek ∧ hashCheck K dk := by
  obtain ⟨hm, s, _, _, he, _⟩ := KeyGen_layout h
  obtain ⟨hl, p1, p2, _⟩ := KeyGen_parts hz h
  refine ⟨he, hl, hm, ?_⟩
  unfold hashCheck
  rw [show 384 * K + 32 = pkLen K from rfl, p1, p2]; rfl

theorem enc_ends {bk : Native.Backend} (hb : KeepsContract bk) {K : Nat} (hK : IsParam K) (fuel : Nat) {ek m : List UInt8} (hek : ek.length = pkLen K) (hm : m.length = 32) (hc : modulusCheck K ek) {ct ss : Buf UInt8} (hct : ct.size = ctLen K) (hss : ss.size = 32) :
    (∃ k c, Encaps_internal K (xofBytes fuel) ek m = some (k, c) ∧ k.length = 32 ∧ c.length = ctLen K ∧
      Returns (Native.crypto_kem_enc_derand bk K fuel ct ss (Buf.ofList ek) (Buf.ofList m)) (0, Buf.ofList c, Buf.ofList k)) ∨
    (Encaps_internal K (xofBytes fuel) ek m = none ∧ OutOfBudget (Native.crypto_kem_enc_derand bk K fuel ct ss (Buf.ofList ek) (Buf.ofList m))) := by
  rcases enc_frame hb hK fuel ek m hek hm ct ss (le_of_eq hct.symm) (le_of_eq hss.symm) with ⟨_, k, c, a, b, e, l1, l2, h, w1, w2⟩ | ⟨_, e, h⟩ | ⟨hn, _⟩
  · rw [w1 hct, w2 hss] at h; exact Or.inl ⟨k, c, e, l1, l2, h⟩
  · exact Or.inr ⟨e, h⟩
  · exact absurd hc hn

theorem dec_ends {bk : Native.Backend} (hb : KeepsContract bk) {K : Nat} (hK : IsParam K) (fuel : Nat) {dk c : List UInt8} (hdk : dk.length = skLen K) (hc : c.length = ctLen K) (hh : hashCheck K dk) {ss : Buf UInt8} (hss : ss.size = 32) :
    (∃ k, Decaps_internal K (xofBytes fuel) dk c = some k ∧ k.length = 32 ∧ Returns (Native.crypto_kem_dec bk K fuel ss (Buf.ofList c) (Buf.ofList dk)) (0, Buf.ofList k)) ∨
    (Decaps_internal K (xofBytes fuel) dk c = none ∧ OutOfBudget (Native.crypto_kem_dec bk K fuel ss (Buf.ofList c) (Buf.ofList dk))) := by
  rcases dec_frame hb hK fuel dk c hdk hc ss (le_of_eq hss.symm) with ⟨_, k, a, e, l1, h, w⟩ | ⟨_, e, h⟩ | ⟨hn, _⟩
  · rw [w hss] at h; exact Or.inl ⟨k, e, l1, h⟩
  · exact Or.inr ⟨e, h⟩
  · exact absurd hh hn

theorem pk_bytes (K : Nat) : MLKEM_PUBLICKEYBYTES K = pkLen K := by unfold pkLen MLKEM_PUBLICKEYBYTES MLKEM_INDCPA_PUBLICKEYBYTES MLKEM_POLYVECBYTES MLKEM_POLYBYTES MLKEM_SYMBYTES; omega
theorem sk_bytes (K : Nat) : MLKEM_SECRETKEYBYTES K = skLen K := by
  unfold skLen MLKEM_SECRETKEYBYTES MLKEM_INDCPA_SECRETKEYBYTES MLKEM_INDCPA_PUBLICKEYBYTES MLKEM_POLYVECBYTES MLKEM_POLYBYTES MLKEM_SYMBYTES; omega


/-! ## gen_NISTKAT.c -/

section nist
open Verif.Model.NistRng Verif.Model.Aes

variable {stk : Buf UInt8 → Buf UInt8 → Buf W32} (hs : ∀ k c, SomeWords (stk k c))
include hs

omit hs in
theorem nthOutput_length (s : DrbgState) (n i : Nat) : (nthOutput s n i).length = n := by
  induction i generalizing s with
  | zero => exact generate_length s n
  | succ i ih => exact ih _

omit hs in
/-- The state after `i` requests of `n` bytes. -/
def after (s : DrbgState) (n : Nat) : Nat → DrbgState
  | 0 => s
  | i + 1 => (CTR_DRBG_Generate (after s n i) n).2

omit hs in
theorem nth_after (s : DrbgState) (n i : Nat) : nthOutput s n i = (CTR_DRBG_Generate (after s n i) n).1 := by
  have h : ∀ i s, after (CTR_DRBG_Generate s n).2 n i = after s n (i + 1) := by
    intro i
    induction i with
    | zero => intro s; rfl
    | succ i ih => intro s; rw [after, ih]; rfl
  induction i generalizing s with
  | zero => rfl
  | succ i ih => rw [nthOutput, ih, h]

omit hs in
theorem after_isState {s : DrbgState} (h : IsState s) (n i : Nat) : IsState (after s n i) := by
  cases i with
  | zero => exact h
  | succ i => exact generate_isState _ _

theorem nth_ret {c : Ctx} (hk : c.key.size = 32) (hc : c.ctr.size = 16) {seed : Buf UInt8} (hsd : seed.size = 48) (i : Nat) :
    ∃ s, IsState s ∧ Returns (randombytes_nth stk c seed i 48) (ctxOf s, Buf.ofList (nistSeed i)) := by
  unfold randombytes_nth
  set s0 := CTR_DRBG_Instantiate (bytesFrom 0 48) (List.replicate 48 0) with h0
  have hst : IsState s0 := instantiate_isState (by simp [bytesFrom]) (by simp)
  refine ⟨_, after_isState hst 48 (i + 1), ?_⟩
  have h1 := (C68_init hs hk hc (e := bytesFrom 0 48) (by simp [bytesFrom])).1
  rw [show bytesFrom 0 48 = ([0, 1, 2, 3, 4, 5, 6, 7, 8, 9, 10, 11, 12, 13, 14, 15, 16, 17, 18, 19, 20, 21, 22, 23, 24, 25, 26, 27, 28, 29, 30, 31, 32, 33, 34, 35,
    36, 37, 38, 39, 40, 41, 42, 43, 44, 45, 46, 47] : List UInt8) by decide +kernel] at h1 h0
  refine seq h1 ?_
  rw [← h0]
  have := for_ret (body := fun _ (x : Ctx × Buf UInt8) => NistRng.randombytes stk x.1 x.2 48)
    (fun j => (ctxOf (after s0 48 j), if j = 0 then seed else Buf.ofList (nthOutput s0 48 (j - 1)))) (i + 1) 0 (fun j _ hj => by
      have hsz : (if j = 0 then seed else Buf.ofList (nthOutput s0 48 (j - 1))).size = 48 := by
        split
        · exact hsd
        · rw [Buf.size_ofList, nthOutput_length]
      have := C68_randombytes hs (after_isState hst 48 j) hsz
      beta_reduce
      rw [if_neg (Nat.succ_ne_zero j), Nat.add_sub_cancel, nth_after s0 48 j]
      exact this)
  rw [Nat.zero_add] at this
  exact this

/-- The variables have the sizes declared. -/
structure Good (K : Nat) (v : Vars) : Prop where
  key : v.ctx.key.size = 32
  ctr : v.ctx.ctr.size = 16
  seed : v.seed.size = 48
  pk : v.public_key.size = pkLen K
  sk : v.secret_key.size = skLen K
  ct : v.ciphertext.size = ctLen K
  sse : v.shared_secret_e.size = 32
  ssd : v.shared_secret_d.size = 32

omit hs in
theorem text_assoc (o c0 c n s0 s p0 p k0 k t0 t h0 h : String) : o ++ c0 ++ c ++ n ++ s0 ++ s ++ n ++ p0 ++ p ++ n ++ k0 ++ k ++ n ++ t0 ++ t ++ n ++ h0 ++ h ++ n ++ n =
    o ++ (c0 ++ c ++ n ++ s0 ++ s ++ n ++ p0 ++ p ++ n ++ k0 ++ k ++ n ++ t0 ++ t ++ n ++ h0 ++ h ++ n ++ n) := by
  simp only [String.append_assoc]

theorem body_spec {bk : Native.Backend} (hb : KeepsContract bk) {K : Nat} (hK : IsParam K) (fuel i : Nat) {v : Vars} (h : Good K v) (out : String) :
    match nistCase K (xofBytes fuel) i with
    | none => OutOfBudget (body bk K fuel stk i v out)
    | some x => ∃ v', Good K v' ∧ Returns (body bk K fuel stk i v out) (if x.ssE = x.ssD then none else some (-4), v', out ++ nistCaseText i (nistSeed i) x) := by
  have hsl : (nistSeed i).length = 48 := nthOutput_length _ _ _
  obtain ⟨s, hst, h1⟩ := nth_ret hs h.key h.ctr h.seed i
  have h2 := fprintBstr_ret hsl (by decide) (out ++ "count = " ++ toString i ++ "\n") "seed = "
  have h3 := (C68_init hs (c := ctxOf s) (by simp [ctxOf, hst.1]) (by simp [ctxOf, hst.2]) hsl).1
  unfold nistCase katCase
  set s0 := CTR_DRBG_Instantiate (nistSeed i) (List.replicate 48 0)
  have hs0 : IsState s0 := instantiate_isState hsl (by simp)
  have h4 := C68_randombytes hs hs0 (n := 64) (buf := Buf.uninit UInt8 64) (by simp)
  have h5 := C68_randombytes hs (generate_isState s0 64) (n := 32) (buf := Buf.uninit UInt8 32) (by simp)
  have l4 := generate_length s0 64
  have l5 := generate_length (CTR_DRBG_Generate s0 64).2 32
  have hs2 := generate_isState (CTR_DRBG_Generate s0 64).2 32
  dsimp only
  generalize (CTR_DRBG_Generate (CTR_DRBG_Generate s0 64).2 32).2 = s2 at *
  generalize (CTR_DRBG_Generate (CTR_DRBG_Generate s0 64).2 32).1 = m at *
  generalize (CTR_DRBG_Generate s0 64).2 = s1 at *
  generalize (CTR_DRBG_Generate s0 64).1 = dz at *
  have hz : (dz.drop 32).length = 32 := by rw [List.length_drop]; omega
  have hkg := keygen_ends hb hK fuel (d := dz.take 32) (z := dz.drop 32) (by rw [List.length_take]; omega) hz (coins := Buf.ofList dz) (by rw [List.take_append_drop]; exact SegL_ofList dz) h.pk h.sk
  cases e1 : KeyGen_internal K (xofBytes fuel) (dz.take 32) (dz.drop 32) with
  | none =>
    rw [e1] at hkg
    refine seqOut h1 (seqOut h2 (seqOut h3 (outBind ?_)))
    exact seqOut h4 (outBind hkg)
  | some p =>
    obtain ⟨ek, dk⟩ := p
    rw [e1] at hkg
    obtain ⟨lek, ldk, hmc, hhc⟩ := keygen_good hz e1
    have hkp : Returns (keypair bk K fuel stk (ctxOf s0) v.public_key v.secret_key) (0, Buf.ofList ek, Buf.ofList dk, ctxOf s1) := seq h4 (seq hkg (ret _))
    have d0 : decide ((0 : Int) ≠ 0) = false := rfl
    have hpn : pkLen K ≠ 0 := by unfold pkLen; omega
    have hsn : skLen K ≠ 0 := by unfold skLen; omega
    have hcn : ctLen K ≠ 0 := by rcases hK with rfl | rfl | rfl <;> decide
    rcases enc_ends hb hK fuel (ct := v.ciphertext) (ss := v.shared_secret_e) lek l5 hmc h.ct h.sse with ⟨k, c, e2, lk, lc, he⟩ | ⟨e2, he⟩
    · rcases dec_ends hb hK fuel (ss := v.shared_secret_d) ldk lc hhc h.ssd with ⟨k', e3, lk', hd⟩ | ⟨e3, hd⟩
      · simp only [Option.bind_eq_bind, Option.bind_some, e2, e3]
        obtain ⟨r, hr, hr0⟩ := memcmp_ret lk lk'
        have hen : Returns (KatGen.enc bk K fuel stk (ctxOf s1) v.ciphertext v.shared_secret_e (Buf.ofList ek)) (0, Buf.ofList c, Buf.ofList k, ctxOf s2) := seq h5 (seq he (ret _))
        have fin : ∀ v' : Vars, Returns (branch (decide (r ≠ 0)) (pure (some (-4 : Int), v, out ++ nistCaseText i (nistSeed i) ⟨ek, dk, c, k, k'⟩)) (pure (none, v', out ++ nistCaseText i (nistSeed i) ⟨ek, dk, c, k, k'⟩)))
            (if k = k' then none else some (-4), if k = k' then v' else v, out ++ nistCaseText i (nistSeed i) ⟨ek, dk, c, k, k'⟩) := by
          intro v'
          by_cases hkk : k = k'
          · rw [if_pos hkk, if_pos hkk, hr0.2 hkk]; exact brF (o := some _) (ret _)
          · rw [if_neg hkk, if_neg hkk, show decide (r ≠ 0) = true by simpa using fun e => hkk (hr0.1 e)]; exact brT (o := some _) (ret _)
        refine ⟨if k = k' then ⟨ctxOf s2, Buf.ofList (nistSeed i), Buf.ofList ek, Buf.ofList dk, Buf.ofList c, Buf.ofList k, Buf.ofList k'⟩ else v, ?_, ?_⟩
        · split
          · exact ⟨by simp [ctxOf, hs2.1], by simp [ctxOf, hs2.2], by simp [hsl], by simp [lek], by simp [ldk], by simp [lc], by simp [lk], by simp [lk']⟩
          · exact h
        · unfold body
          refine seq h1 ?_
          dsimp only
          refine seq h2 (seq h3 (seq hkp ?_))
          dsimp only
          rw [d0]
          refine brF (o := some _) (seq (fprintBstr_ret (by rw [lek, pk_bytes]) (by rw [pk_bytes]; exact hpn) _ _) (seq (fprintBstr_ret (by rw [ldk, sk_bytes]) (by rw [sk_bytes]; exact hsn) _ _) (seq hen ?_)))
          dsimp only
          rw [d0]
          refine brF (o := some _) (seq (fprintBstr_ret (by rw [lc, ctLen_eq]) (by rw [← ctLen_eq]; exact hcn) _ _) (seq (fprintBstr_ret lk (by decide) _ _) ?_))
          refine seq hd ?_
          dsimp only
          rw [d0]
          refine brF (o := some _) (seq hr ?_)
          rw [text_assoc]
          exact fin ⟨ctxOf s2, Buf.ofList (nistSeed i), Buf.ofList ek, Buf.ofList dk, Buf.ofList c, Buf.ofList k, Buf.ofList k'⟩
      · simp only [Option.bind_eq_bind, Option.bind_some, e2, e3, Option.bind_none]
        have hen : Returns (KatGen.enc bk K fuel stk (ctxOf s1) v.ciphertext v.shared_secret_e (Buf.ofList ek)) (0, Buf.ofList c, Buf.ofList k, ctxOf s2) := seq h5 (seq he (ret _))
        unfold body
        refine seqOut h1 ?_
        dsimp only
        refine seqOut h2 (seqOut h3 (seqOut hkp ?_))
        dsimp only
        rw [d0]
        refine brF (o := none) (seqOut (fprintBstr_ret (by rw [lek, pk_bytes]) (by rw [pk_bytes]; exact hpn) _ _) (seqOut (fprintBstr_ret (by rw [ldk, sk_bytes]) (by rw [sk_bytes]; exact hsn) _ _) (seqOut hen ?_)))
        dsimp only
        rw [d0]
        refine brF (o := none) (seqOut (fprintBstr_ret (by rw [lc, ctLen_eq]) (by rw [← ctLen_eq]; exact hcn) _ _) (seqOut (fprintBstr_ret lk (by decide) _ _) ?_))
        exact outBind hd
    · simp only [Option.bind_eq_bind, Option.bind_some, e2, Option.bind_none]
      unfold body
      refine seqOut h1 ?_
      dsimp only
      refine seqOut h2 (seqOut h3 (seqOut hkp ?_))
      dsimp only
      rw [d0]
      refine brF (o := none) (seqOut (fprintBstr_ret (by rw [lek, pk_bytes]) (by rw [pk_bytes]; exact hpn) _ _) (seqOut (fprintBstr_ret (by rw [ldk, sk_bytes]) (by rw [sk_bytes]; exact hsn) _ _) ?_))
      exact outBind (seqOut h5 (outBind he))

theorem loop_spec {bk : Native.Backend} (hb : KeepsContract bk) {K : Nat} (hK : IsParam K) (fuel N : Nat) : ∀ (r i : Nat) {v : Vars} (_ : Good K v) (out : String), i + r + 1 = N →
    Ends (loop bk K fuel stk N (r + 1) i v out) ((nistText K (xofBytes fuel) (List.range' i (r + 1))).map fun x => (x.1, out ++ x.2)) := by
  intro r
  induction r with
  | zero =>
    intro i v h out hN
    have hb := body_spec hs hb hK fuel i h out
    rw [show List.range' i (0 + 1) = [i] from rfl]
    unfold loop nistText nistText
    cases e : nistCase K (xofBytes fuel) i with
    | none => rw [e] at hb; exact outBind hb
    | some x =>
      rw [e] at hb
      obtain ⟨v', hv', hb⟩ := hb
      refine seqE hb ?_
      by_cases hx : x.ssE = x.ssD
      · simp only [hx, if_true, Option.bind_eq_bind, Option.bind_some, Option.map_some, String.append_empty]
        rw [show decide (i + 1 < N) = false by simpa using by omega]
        exact brF (o := some _) (ret _)
      · simp only [hx, if_false, Option.bind_eq_bind, Option.bind_some, Option.map_some]
        exact ret _
  | succ r ih =>
    intro i v h out hN
    have hb := body_spec hs hb hK fuel i h out
    rw [show List.range' i (r + 1 + 1) = i :: List.range' (i + 1) (r + 1) from rfl]
    unfold loop
    rw [nistText]
    cases e : nistCase K (xofBytes fuel) i with
    | none => rw [e] at hb; exact outBind hb
    | some x =>
      rw [e] at hb
      obtain ⟨v', hv', hb⟩ := hb
      refine seqE hb ?_
      by_cases hx : x.ssE = x.ssD
      · simp only [hx, if_true, Option.bind_eq_bind, Option.bind_some]
        rw [show decide (i + 1 < N) = true by simpa using by omega]
        have := ih (i + 1) hv' (out ++ nistCaseText i (nistSeed i) x) (by omega)
        refine brT ?_
        cases e' : nistText K (xofBytes fuel) (List.range' (i + 1) (r + 1)) with
        | none => rw [e'] at this; exact this
        | some y =>
          rw [e'] at this
          simp only [Option.map_some, String.append_assoc] at this
          exact this
      · simp only [hx, if_false, Option.bind_eq_bind, Option.bind_some, Option.map_some]
        exact ret _

end nist

/-! ## gen_KAT.c -/

theorem shakeText_take (i : Nat) : shakeCoins i = (List.range 96).map fun j => sqByte 136 (finK 136 (fun j => (bytesFrom 32 64).getD j 0) 64 0x1F) (96 * i + j) := by
  unfold shakeCoins
  rw [SHAKE256_eq, ← List.map_drop, show (bytesFrom 32 64).length = 64 by simp [bytesFrom]]
  rw [Nat.mul_add, Nat.mul_one, List.range_add, List.drop_left' (by simp), List.map_map]
  rfl

theorem extract_ofList (L : List UInt8) (a b : Nat) : (Buf.ofList L).extract a b = Buf.ofList ((L.drop a).take (b - a)) := by
  unfold Buf.ofList
  apply Array.toList_inj.1
  simp [List.map_take, List.map_drop, List.extract_eq_take_drop]

theorem text_assoc3 (o p0 p n k0 k t0 t s0 s r : String) : o ++ p0 ++ p ++ n ++ k0 ++ k ++ n ++ t0 ++ t ++ n ++ s0 ++ s ++ n ++ r = o ++ (p0 ++ p ++ n ++ k0 ++ k ++ n ++ t0 ++ t ++ n ++ s0 ++ s ++ n ++ r) := by
  simp only [String.append_assoc]

theorem text_assoc2 (o p0 p n k0 k t0 t : String) : o ++ p0 ++ p ++ n ++ k0 ++ k ++ n ++ t0 ++ t ++ n = o ++ (p0 ++ p ++ n ++ k0 ++ k ++ n ++ t0 ++ t ++ n) := by
  simp only [String.append_assoc]

theorem print_hex_ret' {L : List UInt8} {n : Nat} (hn : L.length = n) (out S S' : String) (hS : S ++ " = " = S') : Returns (print_hex out S (Buf.ofList L) n) (out ++ S' ++ hexText lowerHex L ++ "\n") := by
  have := print_hex_ret hn out S
  rwa [show out ++ S ++ " = " = out ++ S' by rw [String.append_assoc, hS]] at this

theorem katLoop_spec {bk : Native.Backend} (hb : KeepsContract bk) {K : Nat} (hK : IsParam K) (fuel : Nat) : ∀ (r i : Nat) {coins pk sk ct ss1 ss2 : Buf UInt8} {state : Buf Model.W} (_ : coins.size = 96) (_ : pk.size = pkLen K) (_ : sk.size = skLen K)
    (_ : ct.size = ctLen K) (_ : ss1.size = 32) (_ : ss2.size = 32) (_ : IncSq state 136 (finK 136 (fun j => (bytesFrom 32 64).getD j 0) 64 0x1F) (96 * i)) (out : String),
    Ends (katLoop bk K fuel r coins pk sk ct ss1 ss2 state out) ((shakeText K (xofBytes fuel) (List.range' i r)).map fun x => (x.1, out ++ x.2)) := by
  intro r
  induction r with
  | zero =>
    intro i coins pk sk ct ss1 ss2 state _ _ _ _ _ _ _ out
    simp only [List.range'_zero, shakeText, Option.map_some, String.append_empty]
    exact seq (a := ()) ⟨_, rfl⟩ (ret _)
  | succ r ih =>
    intro i coins pk sk ct ss1 ss2 state hco hpk hsk hct hs1 hs2 hst out
    rw [show List.range' i (r + 1) = i :: List.range' (i + 1) r from rfl, shakeText, katLoop]
    refine seqE (a := ()) ⟨_, rfl⟩ ?_
    obtain ⟨⟨co, st'⟩, h1, h2, h3⟩ := ret_of_post (Native.keccak_inc_squeeze_spec hb.choose_spec.choose_spec.meets (rb := 136) (by decide) (by decide) hst (h := coins) (ho := 0) (outlen := 96) (by omega) (by decide))
    dsimp only at h2 h3
    have e0 : co = Buf.ofList (shakeCoins i) := by rw [shakeText_take]; exact (h2.holds hco).eq_ofList
    have l0 : (shakeCoins i).length = 96 := by rw [shakeText_take]; simp
    have hst' : IncSq st' 136 (finK 136 (fun j => (bytesFrom 32 64).getD j 0) 64 0x1F) (96 * (i + 1)) := by rw [Nat.mul_add, Nat.mul_one]; exact h3
    subst e0
    refine seqE h1 ?_
    dsimp only
    rw [extract_ofList]
    unfold shakeCase katCase
    generalize shakeCoins i = cs at *
    have hm : (cs.drop 64).length = 32 := by rw [List.length_drop]; omega
    have hz : ((cs.drop 32).take 32).length = 32 := by rw [List.length_take, List.length_drop]; omega
    have hkg := keygen_ends hb hK fuel (d := cs.take 32) (z := (cs.drop 32).take 32) (by rw [List.length_take]; omega) hz (coins := Buf.ofList cs)
      (by
        have : SegL (Buf.ofList cs) 0 (cs.take 64) := (SegL_ofList cs).take 64 (by omega)
        rwa [show 64 = 32 + 32 from rfl, List.take_add] at this) hpk hsk
    rw [show 3 * 32 - 2 * 32 = 32 from rfl, show 2 * 32 = 64 from rfl, List.take_of_length_le (le_of_eq hm)]
    cases e1 : KeyGen_internal K (xofBytes fuel) (cs.take 32) ((cs.drop 32).take 32) with
    | none => rw [e1] at hkg; exact outBind hkg
    | some p =>
      obtain ⟨ek, dk⟩ := p
      rw [e1] at hkg
      obtain ⟨lek, ldk, hmc, hhc⟩ := keygen_good hz e1
      refine seqE hkg ?_
      dsimp only
      refine seqE (print_hex_ret' (by rw [lek, pk_bytes]) _ "pk" "pk = " rfl) ?_
      refine seqE (print_hex_ret' (by rw [ldk, sk_bytes]) _ "sk" "sk = " rfl) ?_
      rcases enc_ends hb hK fuel (ct := ct) (ss := ss1) lek hm hmc hct hs1 with ⟨k, c, e2, lk, lc, he⟩ | ⟨e2, he⟩
      · refine seqE he ?_
        dsimp only
        refine seqE (print_hex_ret' (by rw [lc, ctLen_eq]) _ "ct" "ct = " rfl) ?_
        rcases dec_ends hb hK fuel (ss := ss2) ldk lc hhc hs2 with ⟨k', e3, lk', hd⟩ | ⟨e3, hd⟩
        · refine seqE hd ?_
          dsimp only
          obtain ⟨rc, hr, hr0⟩ := memcmp_ret lk lk'
          refine seqE hr ?_
          simp only [Option.bind_eq_bind, Option.bind_some, e2, e3]
          by_cases hkk : k = k'
          · rw [if_pos hkk, show decide (rc ≠ 0) = false by simpa using hr0.2 hkk]
            refine brF (seqE (print_hex_ret' lk _ "ss" "ss = " rfl) ?_)
            have := ih (i + 1) (coins := Buf.ofList cs) (pk := Buf.ofList ek) (sk := Buf.ofList dk) (ct := Buf.ofList c) (ss1 := Buf.ofList k) (ss2 := Buf.ofList k') (by simp [l0]) (by simp [lek])
              (by simp [ldk]) (by simp [lc]) (by simp [lk]) (by simp [lk']) hst'
              (out ++ "pk = " ++ hexText lowerHex ek ++ "\n" ++ "sk = " ++ hexText lowerHex dk ++ "\n" ++ "ct = " ++ hexText lowerHex c ++ "\n" ++ "ss = " ++ hexText lowerHex k ++ "\n")
            cases e' : shakeText K (xofBytes fuel) (List.range' (i + 1) r) with
            | none => rw [e'] at this; exact this
            | some y =>
              rw [e'] at this
              rw [Option.map_some, text_assoc3] at this
              exact this
          · rw [if_neg hkk, show decide (rc ≠ 0) = true by simpa using fun e => hkk (hr0.1 e)]
            refine brT (o := some _) ?_
            rw [text_assoc2]
            exact ret _
        · simp only [Option.bind_eq_bind, Option.bind_some, e2, e3, Option.bind_none]
          exact outBind hd
      · simp only [Option.bind_eq_bind, Option.bind_some, e2, Option.bind_none]
        exact outBind he

end Kat

open Verif.Model.Aes Verif.Model.NistRng in
/-- **C69.** The program `gen_NISTKAT`, on every backend that keeps the contract, for every parameter set and every positive number of cases (100 in the code), prints the file specified, from whatever initial state of
its generator and whatever the stack held, and its exit code is the one specified. -/
theorem C69_nistkat {bk : Native.Backend} (hb : KeepsContract bk) {K : Nat} (hK : IsParam K) (fuel : Nat) {stk : Buf UInt8 → Buf UInt8 → Buf W32} (hs : ∀ k c, SomeWords (stk k c)) {ctx : Ctx} (hk : ctx.key.size = 32) (hc : ctx.ctr.size = 16)
    {N : Nat} (hN : 0 < N) : Ends (nistkat_main bk K fuel stk ctx N) (nistFile K (xofBytes fuel) N) := by
  obtain ⟨r, rfl⟩ : ∃ r, N = r + 1 := ⟨N - 1, by omega⟩
  have := Kat.loop_spec hs hb hK fuel (r + 1) r 0 (v := ⟨ctx, Buf.uninit UInt8 48, Buf.uninit UInt8 (MLKEM_PUBLICKEYBYTES K), Buf.uninit UInt8 (MLKEM_SECRETKEYBYTES K),
    Buf.uninit UInt8 (MLKEM_CIPHERTEXTBYTES K), Buf.uninit UInt8 32, Buf.uninit UInt8 32⟩)
    ⟨hk, hc, by simp, by simp [Kat.pk_bytes], by simp [Kat.sk_bytes], by simp [ctLen_eq], by simp, by simp⟩ ("" ++ "# " ++ CRYPTO_ALGNAME K ++ "\n\n") (by omega)
  unfold nistkat_main nistFile
  rw [List.range_eq_range', show algName K = CRYPTO_ALGNAME K from rfl]
  cases e : nistText K (xofBytes fuel) (List.range' 0 (r + 1)) with
  | none => rw [e] at this; exact this
  | some y => rw [e] at this; rw [String.empty_append] at this; exact this
theorem nistText_code {k n : Nat} : ∀ (is : List Nat) {code : Int} {t : String}, nistText k n is = some (code, t) →
    (code = 0 ∧ ∀ i ∈ is, ∃ x, nistCase k n i = some x ∧ x.ssE = x.ssD) ∨ (code = -4 ∧ ∃ i ∈ is, ∃ x, nistCase k n i = some x ∧ x.ssE ≠ x.ssD)
  | [], code, t, h => by
    simp only [nistText, Option.some.injEq, Prod.mk.injEq] at h
    exact Or.inl ⟨h.1.symm, by simp⟩
  | i :: is, code, t, h => by
    rw [nistText] at h
    cases e : nistCase k n i with
    | none => rw [e] at h; simp at h
    | some x =>
      rw [e] at h
      simp only [Option.bind_eq_bind, Option.bind_some] at h
      by_cases hx : x.ssE = x.ssD
      · rw [if_pos hx] at h
        cases e' : nistText k n is with
        | none => rw [e'] at h; simp at h
        | some y =>
          obtain ⟨c', t'⟩ := y
          rw [e'] at h
          simp only [Option.bind_some, Option.some.injEq, Prod.mk.injEq] at h
          rcases nistText_code is e' with ⟨h0, h1⟩ | ⟨h0, j, hj, h1⟩
          · exact Or.inl ⟨h.1.symm.trans h0, List.forall_mem_cons.2 ⟨⟨x, e, hx⟩, h1⟩⟩
          · exact Or.inr ⟨h.1.symm.trans h0, j, List.mem_cons_of_mem _ hj, h1⟩
      · rw [if_neg hx] at h
        simp only [Option.some.injEq, Prod.mk.injEq] at h
        exact Or.inr ⟨h.1.symm, i, List.mem_cons_self, x, e, hx⟩

open Verif.Model.Aes Verif.Model.NistRng in
/-- **C69.** A run of `gen_NISTKAT`, on every such backend, that ends has exit code 0 if in every case the two shared secrets agree, and -4 if in some case they differ; the exits -1, -2 and -3 are never taken. -/
theorem C69_exit {bk : Native.Backend} (hb : KeepsContract bk) {K : Nat} (hK : IsParam K) (fuel : Nat) {stk : Buf UInt8 → Buf UInt8 → Buf W32} (hs : ∀ k c, SomeWords (stk k c)) {ctx : Ctx} (hk : ctx.key.size = 32) (hc : ctx.ctr.size = 16)
    {N : Nat} (hN : 0 < N) {code : Int} {text : String} (h : Returns (nistkat_main bk K fuel stk ctx N) (code, text)) :
    (code = 0 ∧ ∀ i, i < N → ∃ x, nistCase K (xofBytes fuel) i = some x ∧ x.ssE = x.ssD) ∨ (code = -4 ∧ ∃ i, i < N ∧ ∃ x, nistCase K (xofBytes fuel) i = some x ∧ x.ssE ≠ x.ssD) := by
  have h1 := C69_nistkat hb hK fuel hs hk hc hN
  unfold nistFile at h1
  cases e : nistText K (xofBytes fuel) (List.range N) with
  | none => rw [e] at h1; exact (h.notOut h1).elim
  | some y =>
    rw [e] at h1
    have e2 := congrArg Prod.fst (h.unique h1)
    obtain ⟨c, t⟩ := y
    change code = c at e2
    subst e2
    rcases nistText_code _ e with ⟨h0, h1⟩ | ⟨h0, j, hj, h1⟩
    · exact Or.inl ⟨h0, fun i hi => h1 i (List.mem_range.2 hi)⟩
    · exact Or.inr ⟨h0, j, List.mem_range.1 hj, h1⟩

/-- **C69.** The program `gen_KAT`, on every backend that keeps the contract, for every parameter set and every number of cases (1000 in the code), prints the file specified, and its exit code is the one specified. -/
theorem C69_kat {bk : Native.Backend} (hb : KeepsContract bk) {K : Nat} (hK : IsParam K) (fuel N : Nat) : Ends (kat_main bk K fuel N) (shakeText K (xofBytes fuel) (List.range N)) := by
  have key : Post (KatGen.shake256_absorb bk (Buf.uninit Model.W 26) (Buf.ofList (bytesFrom 32 64)) 64) (fun s => IncSq s 136 (finK 136 (fun j => (bytesFrom 32 64).getD j 0) 64 0x1F) 0) := by
    unfold KatGen.shake256_absorb shake256_inc_init Native.shake256_inc_absorb shake256_inc_finalize
    change PostF False _ _
    simp only [wp_bind]
    refine Post.use (keccak_inc_init_spec (by simp) 136 (fun j => (bytesFrom 32 64).getD j 0)) fun s1 h1 => ?_
    refine Post.use (Native.keccak_inc_absorb_spec hb.choose_spec.choose_spec.meets (rb := 136) (by decide) (by decide) h1 (mlen := 64) (fun j hj => ?_) (by decide)) fun s2 h2 => ?_
    · beta_reduce; rw [Nat.zero_add (n := j)]; have := (seg_ofList (L := bytesFrom 32 64) (by simp [bytesFrom])) j hj; rwa [Nat.zero_add] at this
    · exact Post.use (keccak_inc_finalize_spec (rb := 136) (by decide) (by decide) (by decide) h2) fun s3 h3 => by rwa [Nat.zero_add] at h3
  rw [show bytesFrom 32 64 = ([32, 33, 34, 35, 36, 37, 38, 39, 40, 41, 42, 43, 44, 45, 46, 47, 48, 49, 50, 51, 52, 53, 54, 55, 56, 57, 58, 59, 60, 61, 62, 63,
    64, 65, 66, 67, 68, 69, 70, 71, 72, 73, 74, 75, 76, 77, 78, 79, 80, 81, 82, 83, 84, 85, 86, 87, 88, 89, 90, 91, 92, 93, 94, 95] : List UInt8) by decide +kernel] at key
  obtain ⟨st, h1, h2⟩ := ret_of_post key
  unfold kat_main
  refine Kat.seqE h1 ?_
  have := Kat.katLoop_spec hb hK fuel N 0 (coins := Buf.uninit UInt8 96) (pk := Buf.uninit UInt8 (MLKEM_PUBLICKEYBYTES K)) (sk := Buf.uninit UInt8 (MLKEM_SECRETKEYBYTES K))
    (ct := Buf.uninit UInt8 (MLKEM_CIPHERTEXTBYTES K)) (ss1 := Buf.uninit UInt8 32) (ss2 := Buf.uninit UInt8 32) (state := st) (by simp) (by simp [Kat.pk_bytes]) (by simp [Kat.sk_bytes])
    (by simp [ctLen_eq]) (by simp) (by simp) h2 ""
  rw [List.range_eq_range']
  cases e : shakeText K (xofBytes fuel) (List.range' 0 N) with
  | none => rw [e] at this; exact this
  | some y => rw [e] at this; rw [Option.map_some, String.empty_append] at this; exact this

/-- The hypotheses of C69 can be met. -/
example (g : Native.Regs) : KeepsContract (Native.x86_64 g) ∧ KeepsContract Native.portable ∧ IsParam 3 ∧ (∀ k c : Buf UInt8, SomeWords ((fun _ _ => Buf.ofList (List.replicate 16 0xdeadbeef#32) : Buf UInt8 → Buf UInt8 → Buf Aes.W32) k c)) ∧ (Buf.uninit UInt8 32).size = 32 ∧ (0 < 100) :=
  ⟨(C66_backends.2.1 g).1, C66_backends.1, Or.inr (Or.inl rfl), fun _ _ => ⟨_, by simp, rfl⟩, by simp, by decide⟩

end Verif.Props

import Verif.Props.Acvp
import Verif.Props.TestRandom
import Verif.Props.Examples
import Verif.Model.TestMlkem
import Verif.Spec.TestMlkem
import Mathlib.Tactic.IntervalCases
/-! # C72: the functional test program -/
namespace Verif.Props
open Verif Verif.Model Verif.Spec

attribute [local irreducible] keccakF partialK finK blocksK sqByte SHAKE256 SHA3_256 SHA3_512 SHAKE128 KeyGen_internal Encaps_internal Decaps_internal
  Native.crypto_kem_keypair_derand Native.crypto_kem_enc_derand Native.crypto_kem_dec

namespace TestMlkem
open Verif.Model.TestMlkem Acvp

theorem leads_ends {α : Type} {p q : M α} {o : Option α} (h : Leads p q) (hq : Ends q o) : Ends p o := by
  cases o with
  | none => exact h.out hq
  | some a => exact h.ret hq

theorem ends_bind {α β γ : Type} {p : M α} {f : α → M β} {o : Option γ} {g : γ → α} {h : γ → Option β} (hp : Ends p (o.map g)) (hf : ∀ c, o = some c → Ends (f (g c)) (h c)) : Ends (p >>= f) (o.bind h) := by
  cases o with
  | none => exact Kat.outBind hp
  | some c => exact Kat.seqE hp (hf c rfl)

theorem br_ret {α : Type} {c : Bool} {a b r : α} (h : r = if c then a else b) : Returns (branch c (pure a) (pure b)) r := by
  subst h
  cases c
  · exact (Leads.brF rfl).ret (Kat.ret _)
  · exact (Leads.brT rfl).ret (Kat.ret _)

/-! ## Buffers -/

theorem wr_ret {L : List UInt8} {i : Nat} (hi : i < L.length) (v : UInt8) : Returns (wr (Buf.ofList L) i v) (Buf.ofList (L.set i v)) := by
  obtain ⟨b, hb, h⟩ := ret_of_post (p := wr (Buf.ofList L) i v) (Q := fun b => b = (Buf.ofList L).setIfInBounds i (some v)) (by
    rw [Post, wp_wr]; exact ⟨by simpa [Buf.ofList] using hi, rfl⟩)
  rw [h] at hb
  have e : (Buf.ofList L).setIfInBounds i (some v) = Buf.ofList (L.set i v) := by
    simp [Buf.ofList]
  rw [e] at hb; exact hb

theorem memcpy_into {L r : List UInt8} {off n : Nat} (hr : r.length = n) (h : off + n ≤ L.length) :
    Returns (memcpy (Buf.ofList L) off (Buf.ofList r) 0 n) (Buf.ofList (L.take off ++ r ++ L.drop (off + n))) := by
  obtain ⟨b, hb, hw⟩ := ret_of_post (memcpy_spec (dst := Buf.ofList L) (dof := off) (by simpa [Buf.ofList] using h) (seg_ofList hr))
  have e : b = Buf.ofList (L.take off ++ r ++ L.drop (off + n)) := by
    apply Array.ext_getElem?
    intro i
    by_cases h1 : i < off
    · rw [hw.2.2 i (Or.inl h1)]
      simp [Buf.ofList, List.getElem?_append, h1, show i < L.length by omega]
    · by_cases h2 : i < off + n
      · have := hw.2.1 (i - off) (by omega)
        rw [show off + (i - off) = i by omega] at this
        rw [this]
        simp [Buf.ofList, List.getElem?_append, List.getD, show min off L.length = off by omega, h1, show i < off + r.length by omega, show i - off < r.length by omega]
      · rw [hw.2.2 i (Or.inr (by omega))]
        simp only [Buf.ofList, List.getElem?_toArray, List.getElem?_map]
        rw [List.getElem?_append_right (by simp; omega), List.getElem?_drop]
        congr 2
        simp; omega
  rw [e] at hb; exact hb

theorem ct_size (K : Nat) : (Buf.uninit UInt8 (MLKEM_CIPHERTEXTBYTES K)).size = ctLen K := by rw [Buf.size_uninit, ctLen_eq]

section
variable {σ : Type} {rb : RandomBytes σ} (hrb : ∀ s n, (rb s n).1.length = n)
include hrb

theorem into_ret {L : List UInt8} {off n : Nat} (s : σ) (h : off + n ≤ L.length) :
    Returns (randombytesInto rb s (Buf.ofList L) off n) (Buf.ofList (L.take off ++ (rb s n).1 ++ L.drop (off + n)), (rb s n).2) := by
  unfold randombytesInto
  rw [randombytes_eq rb s n (hrb s n)]
  exact Kat.seq (memcpy_into (hrb s n) h) (Kat.ret _)

omit hrb in
/-- With the first coefficient set to 4095 a key does not pass the modulus check. -/
theorem spoilt {K : Nat} (hK : IsParam K) {ek : List UInt8} (hek : ek.length = pkLen K) (a : UInt8) : ¬ modulusCheck K ((ek.set 0 0xFF).set 1 (a ||| 0x0F)) := by
  have hp : 1 < ek.length := by rw [hek]; unfold pkLen; omega
  rw [modulusCheck_iff (by rw [List.length_set, List.length_set, hek, pkLen_eq])]
  intro h
  have := h 0 (by rcases hK with rfl | rfl | rfl <;> omega)
  have e : coeff12 ((ek.set 0 0xFF).set 1 (a ||| 0x0F)) 0 = 4095 := by
    unfold coeff12
    have h0 : ((ek.set 0 0xFF).set 1 (a ||| 0x0F)).getD 0 0 = 0xFF := by
      simp [List.getD, show 0 < ek.length by omega]
    have h1 : ((ek.set 0 0xFF).set 1 (a ||| 0x0F)).getD 1 0 = a ||| 0x0F := by
      simp [List.getD, hp]
    rw [Finset.sum_congr rfl (g := fun j => 2 ^ j) fun j hj => if_pos ?_]
    · rfl
    · have hj := Finset.mem_range.1 hj
      unfold bitAt
      by_cases h8 : j < 8
      · rw [show (12 * 0 + j) / 8 = 0 by omega, show (12 * 0 + j) % 8 = j by omega, h0]
        interval_cases j <;> rfl
      · rw [show (12 * 0 + j) / 8 = 1 by omega, show (12 * 0 + j) % 8 = j - 8 by omega, h1, UInt8.toNat_or, Nat.testBit_or]
        have : (0x0F : UInt8).toNat.testBit (j - 8) = true := by interval_cases j <;> rfl
        rw [this, Bool.or_true]
  omega

/-! ## A key pair and an encapsulation -/

/-- What is known about a session. -/
structure Session (K n : Nat) (ek dk k c : List UInt8) : Prop where
  gen : ∃ d z : List UInt8, z.length = 32 ∧ KeyGen_internal K n d z = some (ek, dk)
  lek : ek.length = pkLen K
  ldk : dk.length = skLen K
  modulus : modulusCheck K ek
  hash : hashCheck K dk
  lk : k.length = 32
  lc : c.length = ctLen K

theorem keypair_cases {bk : Native.Backend} (hb : KeepsContract bk) {K : Nat} (hK : IsParam K) (fuel : Nat) (s : σ) :
    (∃ ek dk, KeyGen_internal K (xofBytes fuel) ((rb s 64).1.take 32) ((rb s 64).1.drop 32) = some (ek, dk) ∧
      Returns (Native.crypto_kem_keypair bk K fuel rb s (Buf.uninit UInt8 (MLKEM_PUBLICKEYBYTES K)) (Buf.uninit UInt8 (MLKEM_SECRETKEYBYTES K))) (0, Buf.ofList ek, Buf.ofList dk, (rb s 64).2)) ∨
    (KeyGen_internal K (xofBytes fuel) ((rb s 64).1.take 32) ((rb s 64).1.drop 32) = none ∧
      OutOfBudget (Native.crypto_kem_keypair bk K fuel rb s (Buf.uninit UInt8 (MLKEM_PUBLICKEYBYTES K)) (Buf.uninit UInt8 (MLKEM_SECRETKEYBYTES K)))) := by
  have hl := hrb s 64
  have h := Kat.keygen_ends hb hK fuel (d := (rb s 64).1.take 32) (z := (rb s 64).1.drop 32) (by simp [hl]) (by simp [hl]) (coins := Buf.ofList (rb s 64).1)
    (pk := Buf.uninit UInt8 (MLKEM_PUBLICKEYBYTES K)) (sk := Buf.uninit UInt8 (MLKEM_SECRETKEYBYTES K)) (by rw [List.take_append_drop]; exact SegL_ofList _)
    (by rw [Buf.size_uninit, Kat.pk_bytes]) (by rw [Buf.size_uninit, Kat.sk_bytes])
  rw [C65_keypair bk rb s K fuel _ _ hl]
  cases e : KeyGen_internal K (xofBytes fuel) ((rb s 64).1.take 32) ((rb s 64).1.drop 32) with
  | none => rw [e] at h; exact Or.inr ⟨rfl, Kat.outBind h⟩
  | some p => rw [e] at h; exact Or.inl ⟨p.1, p.2, rfl, Kat.seq h (Kat.ret _)⟩

theorem enc_cases {bk : Native.Backend} (hb : KeepsContract bk) {K : Nat} (hK : IsParam K) (fuel : Nat) (s : σ) {ek : List UInt8} (hek : ek.length = pkLen K) (hc : modulusCheck K ek) {ct ss : Buf UInt8} (hct : ct.size = ctLen K) (hss : ss.size = 32) :
    (∃ k c, Encaps_internal K (xofBytes fuel) ek (rb s 32).1 = some (k, c) ∧ k.length = 32 ∧ c.length = ctLen K ∧
      Returns (Native.crypto_kem_enc bk K fuel rb s ct ss (Buf.ofList ek)) (0, Buf.ofList c, Buf.ofList k, (rb s 32).2)) ∨
    (Encaps_internal K (xofBytes fuel) ek (rb s 32).1 = none ∧ OutOfBudget (Native.crypto_kem_enc bk K fuel rb s ct ss (Buf.ofList ek))) := by
  rw [C65_enc bk rb s K fuel _ _ _ (hrb s 32)]
  rcases Kat.enc_ends hb hK fuel hek (hrb s 32) hc hct hss with ⟨k, c, e, l1, l2, h⟩ | ⟨e, h⟩
  · exact Or.inl ⟨k, c, e, l1, l2, Kat.seq h (Kat.ret _)⟩
  · exact Or.inr ⟨e, Kat.outBind h⟩

/-- A session: either both calls return, or the first or the second runs out of budget. -/
theorem session_cases {bk : Native.Backend} (hb : KeepsContract bk) {K : Nat} (hK : IsParam K) (fuel : Nat) (s : σ) {α : Type} (f : Buf UInt8 → Buf UInt8 → Buf UInt8 → Buf UInt8 → Int → σ → M α)
    {p : M α} (hp : p = (Native.crypto_kem_keypair bk K fuel rb s (Buf.uninit UInt8 (MLKEM_PUBLICKEYBYTES K)) (Buf.uninit UInt8 (MLKEM_SECRETKEYBYTES K)) >>= fun x =>
      Native.crypto_kem_enc bk K fuel rb x.2.2.2 (Buf.uninit UInt8 (MLKEM_CIPHERTEXTBYTES K)) (Buf.uninit UInt8 32) x.2.1 >>= fun y => f x.2.1 x.2.2.1 y.2.1 y.2.2.1 y.1 y.2.2.2))
    (q : (List UInt8 × List UInt8 × List UInt8 × List UInt8) × σ → Option α)
    (h : ∀ ek dk k c s', Session K (xofBytes fuel) ek dk k c → Ends (f (Buf.ofList ek) (Buf.ofList dk) (Buf.ofList c) (Buf.ofList k) 0 s') (q ((ek, dk, k, c), s'))) :
    Ends p ((honestRun K (xofBytes fuel) rb s).bind q) := by
  subst hp
  unfold honestRun
  simp only
  rcases keypair_cases hrb hb hK fuel s with ⟨ek, dk, e, hk⟩ | ⟨e, hk⟩
  · rw [e]
    have hz : ((rb s 64).1.drop 32).length = 32 := by simp [hrb]
    obtain ⟨g1, g2, g3, g4⟩ := Kat.keygen_good hz e
    rcases enc_cases hrb hb hK fuel (rb s 64).2 g1 g3 (ct := Buf.uninit UInt8 (MLKEM_CIPHERTEXTBYTES K)) (ss := Buf.uninit UInt8 32) (ct_size K) (Buf.size_uninit ..) with ⟨k, c, e', l1, l2, he⟩ | ⟨e', he⟩
    · simp only [Option.bind_some, e', Option.map_some]
      exact Kat.seqE hk (Kat.seqE he (h ek dk k c _ ⟨⟨_, _, hz, e⟩, g1, g2, g3, g4, l1, l2⟩))
    · simp only [Option.bind_some, e', Option.map_none, Option.bind_none]
      exact Kat.seqOut hk (Kat.outBind he)
  · rw [e]
    exact Kat.outBind hk

/-! ## The tests -/

theorem keys_ends {bk : Native.Backend} (hb : KeepsContract bk) {K : Nat} (hK : IsParam K) (fuel : Nat) (s : σ) (out : String) :
    Ends (test_keys bk K fuel rb s out) ((keysTest K (xofBytes fuel) rb s).map fun p => (if p.1 then 0 else 1, p.2, out ++ complain p.1 "ERROR keys\n")) := by
  unfold keysTest
  rw [Option.map_bind]
  refine session_cases hrb hb hK fuel s (fun _ sk ct kb _ st => Native.crypto_kem_dec bk K fuel (Buf.uninit UInt8 32) ct sk >>= fun x => memcmp x.2 0 kb 0 32 >>= fun d =>
    branch (decide (d ≠ 0)) (pure (1, st, out ++ "ERROR keys\n")) (pure (0, st, out))) rfl _ fun ek dk k c s' h => ?_
  simp only [Function.comp, Option.map_map]
  rcases Kat.dec_ends hb hK fuel h.ldk h.lc h.hash (ss := Buf.uninit UInt8 32) (Buf.size_uninit ..) with ⟨k', e, l, hd⟩ | ⟨e, hd⟩
  · rw [e]
    refine Kat.seqE hd ?_
    obtain ⟨d, h1, h2⟩ := Kat.memcmp_ret l h.lk
    refine Kat.seqE h1 ?_
    by_cases hkk : k' = k
    · have : d = 0 := h2.2 hkk
      subst this
      simpa [complain, hkk] using Kat.brF (q := (pure (0, s', out) : M _)) (o := some _) (Kat.ret _)
    · have : d ≠ 0 := fun e => hkk (h2.1 e)
      rw [decide_eq_true this]
      simpa [complain, hkk] using Kat.brT (p := (pure (1, s', out ++ "ERROR keys\n") : M _)) (o := some _) (Kat.ret _)
  · rw [e]; exact Kat.outBind hd

theorem pk_ends {bk : Native.Backend} (hb : KeepsContract bk) {K : Nat} (hK : IsParam K) (fuel : Nat) (s : σ) (out : String) :
    Ends (test_invalid_pk bk K fuel rb s out) ((invalidPkTest K (xofBytes fuel) rb s).map fun p => (if p.1 then 0 else 1, p.2, out)) := by
  unfold invalidPkTest
  rw [Option.map_map, Option.map_eq_bind]
  refine session_cases hrb hb hK fuel s (fun pk _ ct kb rc st => branch (decide (rc ≠ 0)) (pure (1, st, out ++ "ERROR test_invalid_pk\n")) (do
    let pk ← wr pk 0 0xFF
    let a ← rd pk 1
    let pk ← wr pk 1 (a ||| 0x0F)
    let (rc, _, _, st) ← Native.crypto_kem_enc bk K fuel rb st ct kb pk
    branch (decide (rc = 0)) (pure (1, st, out ++ "ERROR test_invalid_pk\n")) (pure (0, st, out)))) rfl _ fun ek dk k c s' h => ?_
  refine leads_ends (Leads.brF (by simp)) ?_
  have hp : 1 < ek.length := by rw [h.lek]; unfold pkLen; omega
  refine Kat.seqE (wr_ret (show 0 < ek.length by omega) _) (Kat.seqE (Kat.rd_ofList (L := ek.set 0 0xFF) (i := 1) (by rw [List.length_set]; exact hp)) (Kat.seqE (wr_ret (by rw [List.length_set]; exact hp) _) ?_))
  generalize (ek.set 0 0xFF)[1]'(by rw [List.length_set]; exact hp) = a
  have hn := spoilt hK h.lek a
  rw [C65_enc bk rb s' K fuel _ _ _ (hrb s' 32)]
  have hl : ((ek.set 0 0xFF).set 1 (a ||| 0x0F)).length = pkLen K := by rw [List.length_set, List.length_set, h.lek]
  rcases Kat.enc_frame hb hK fuel _ (rb s' 32).1 hl (hrb s' 32) (Buf.ofList c) (Buf.ofList k) (by simp [Buf.ofList, h.lc]) (by simp [Buf.ofList, h.lk]) with ⟨hm, _⟩ | ⟨hm, _⟩ | ⟨_, he⟩
  · exact absurd hm hn
  · exact absurd hm hn
  · refine Kat.seqE (Kat.seq he (Kat.ret _)) (br_ret ?_)
    simp

theorem skA_ends {bk : Native.Backend} (hb : KeepsContract bk) {K : Nat} (hK : IsParam K) (fuel : Nat) (s : σ) (out : String) :
    Ends (test_invalid_sk_a bk K fuel rb s out) ((invalidSkATest K (xofBytes fuel) rb s).map fun p => (if p.1 then 0 else 1, p.2, out ++ complain p.1 "ERROR invalid sk\n")) := by
  unfold invalidSkATest
  rw [Option.map_bind]
  refine session_cases hrb hb hK fuel s (fun _ sk ct kb _ st => do
    let (sk, st) ← randombytesInto rb st sk 0 10
    let (rc, key_a) ← Native.crypto_kem_dec bk K fuel (Buf.uninit UInt8 32) ct sk
    branch (decide (rc ≠ 0)) (pure (1, st, out ++ "ERROR test_invalid_sk_a\n")) (do
      let d ← memcmp key_a 0 kb 0 32
      branch (decide (d = 0)) (pure (1, st, out ++ "ERROR invalid sk\n")) (pure (0, st, out)))) rfl _ fun ek dk k c s' h => ?_
  simp only [Function.comp, Option.map_map]
  have h384 : 10 ≤ 384 * K := by rcases hK with rfl | rfl | rfl <;> omega
  have hdl := h.ldk
  unfold skLen at hdl
  refine Kat.seqE (into_ret hrb s' (by omega)) ?_
  rw [List.take_zero, List.nil_append, Nat.zero_add]
  generalize hr : (rb s' 10).1 = r
  have hrl : r.length = 10 := by rw [← hr]; exact hrb ..
  have hl : (r ++ dk.drop 10).length = skLen K := by rw [List.length_append, List.length_drop, hrl]; unfold skLen; omega
  have hdrop : ∀ m, 10 ≤ m → (r ++ dk.drop 10).drop m = dk.drop m := fun m hm => by
    rw [List.drop_append, List.drop_eq_nil_of_le (by omega), List.nil_append, List.drop_drop, hrl]
    congr 1; omega
  have hh : hashCheck K (r ++ dk.drop 10) := by
    unfold hashCheck
    rw [hdrop _ h384, hdrop _ (by omega)]
    exact h.hash
  rcases Kat.dec_ends hb hK fuel hl h.lc hh (ss := Buf.uninit UInt8 32) (Buf.size_uninit ..) with ⟨k', e, l, hd⟩ | ⟨e, hd⟩
  · rw [e]
    refine Kat.seqE hd (leads_ends (Leads.brF (by simp)) ?_)
    obtain ⟨d, h1, h2⟩ := Kat.memcmp_ret l h.lk
    refine Kat.seqE h1 (br_ret ?_)
    by_cases hkk : k' = k
    · simp [h2.2 hkk, hkk, complain]
    · have : d ≠ 0 := fun e => hkk (h2.1 e)
      simp [this, hkk, complain]
  · rw [e]; exact Kat.outBind hd

theorem skB_ends {bk : Native.Backend} (hb : KeepsContract bk) {K : Nat} (hK : IsParam K) (fuel : Nat) (s : σ) (out : String) :
    Ends (test_invalid_sk_b bk K fuel rb s out) ((invalidSkBTest K (xofBytes fuel) rb s).map fun p => (if p.1 then 0 else 1, p.2, out ++ complain p.1 "ERROR test_invalid_sk_b\n")) := by
  unfold invalidSkBTest
  rw [Option.map_bind]
  refine session_cases hrb hb hK fuel s (fun _ sk ct _ _ st => do
    let (sk, st) ← randombytesInto rb st sk (MLKEM_SECRETKEYBYTES K - 64) 32
    let (rc, _) ← Native.crypto_kem_dec bk K fuel (Buf.uninit UInt8 32) ct sk
    branch (decide (rc = 0)) (pure (1, st, out ++ "ERROR test_invalid_sk_b\n")) (pure (0, st, out))) rfl _ fun ek dk k c s' h => ?_
  simp only [Function.comp]
  have hdl := h.ldk
  obtain ⟨d, z, hz, hg⟩ := h.gen
  obtain ⟨_, sv, hsl, hdk, hel, _⟩ := KeyGen_layout hg
  have hH : (SHA3_256 ek).length = 32 := H_length ek
  have hoff : MLKEM_SECRETKEYBYTES K - 64 = (sv ++ ek).length := by
    rw [Kat.sk_bytes, List.length_append, hsl, hel]; unfold skLen pkLen; omega
  have hoff' : (sv ++ ek).length = 768 * K + 32 := by rw [List.length_append, hsl, hel]; unfold pkLen; omega
  refine Kat.seqE (into_ret hrb s' (by rw [hoff, hdk]; simp only [List.length_append]; omega)) ?_
  rw [hoff]
  generalize hr : (rb s' 32).1 = r
  have hrl : r.length = 32 := by rw [← hr]; exact hrb ..
  have e1 : dk.take (sv ++ ek).length = sv ++ ek := by rw [hdk, List.append_assoc (sv ++ ek), List.take_left]
  have e2 : dk.drop ((sv ++ ek).length + 32) = z := by
    rw [hdk, List.drop_left' (by simp only [List.length_append]; omega)]
  rw [e1, e2]
  have hl : (sv ++ ek ++ r ++ z).length = skLen K := by simp only [List.length_append] at hoff' ⊢; unfold skLen; omega
  have hc : hashCheck K (sv ++ ek ++ r ++ z) ↔ r = H ek := by
    unfold hashCheck
    rw [← hoff', List.append_assoc (sv ++ ek) r z, List.drop_left, List.take_left' hrl, List.append_assoc sv, ← hsl, List.drop_left, hsl, show 384 * K + 32 = pkLen K from rfl, List.take_left' hel]
    exact eq_comm
  by_cases hrH : r = H ek
  · rw [if_pos hrH]
    have hdk' : sv ++ ek ++ r ++ z = dk := by rw [hdk, hrH]; rfl
    rcases Kat.dec_ends hb hK fuel hl h.lc (hc.2 hrH) (ss := Buf.uninit UInt8 32) (Buf.size_uninit ..) with ⟨k', e, l, hd⟩ | ⟨e, hd⟩
    · rw [hdk'] at e hd ⊢; rw [e]
      exact Kat.seqE hd (br_ret (by simp [complain]))
    · rw [hdk'] at e hd ⊢; rw [e]; exact Kat.outBind hd
  · rw [if_neg hrH]
    rcases Kat.dec_frame hb hK fuel _ c hl h.lc (Buf.uninit UInt8 32) (le_of_eq (Buf.size_uninit ..).symm) with ⟨hm, _⟩ | ⟨hm, _⟩ | ⟨_, hd⟩
    · exact absurd (hc.1 hm) hrH
    · exact absurd (hc.1 hm) hrH
    · exact Kat.seqE hd (br_ret (by simp [complain]))

theorem draw_ends : ∀ (tries : Nat) (s : σ), Ends (drawByte rb tries s) (nonzeroByte rb tries s)
  | 0, s => rfl
  | tries + 1, s => by
    unfold drawByte nonzeroByte
    simp only
    rw [randombytes_eq rb s 1 (hrb s 1)]
    have hl := hrb s 1
    have e : (rb s 1).1.getD 0 0 = (rb s 1).1[0]'(by omega) := by simp [List.getD, hl]
    refine Kat.seqE (Kat.rd_ofList (by omega)) ?_
    rw [e]
    by_cases h : (rb s 1).1[0]'(by omega) = 0
    · rw [if_pos h]
      exact leads_ends (Leads.brT (by simp [h])) (draw_ends tries _)
    · rw [if_neg h]
      exact leads_ends (Leads.brF (by simp [h])) (Kat.ret _)

omit hrb in
theorem readSize_ret (T : SizeT) {l : List UInt8} (hl : l.length = T.size) : Returns (readSize T (Buf.ofList l)) (T.val l) := by
  unfold readSize
  have h := Kat.for_ret (body := fun i l' => do let x ← rd (Buf.ofList l) i; pure (l' ++ [x])) (fun i => l.take i) T.size 0 fun i _ hi => by
    refine Kat.seq (Kat.rd_ofList (by omega)) ?_
    rw [List.take_concat_get' l i (by omega)]
    exact Kat.ret _
  rw [Nat.zero_add, ← hl, List.take_length, List.take_zero, hl] at h
  exact Kat.seq h (Kat.ret _)

theorem ct_ends {bk : Native.Backend} (hb : KeepsContract bk) {K : Nat} (hK : IsParam K) (fuel tries : Nat) (T : SizeT) (s : σ) (out : String) :
    Ends (test_invalid_ciphertext bk K fuel tries T rb s out)
      ((invalidCtTest K (xofBytes fuel) tries T.size T.val rb s).map fun p => (if p.1 then 0 else 1, p.2, out ++ complain p.1 "ERROR invalid ciphertext\n")) := by
  unfold invalidCtTest test_invalid_ciphertext
  have hd := draw_ends hrb tries s
  cases e : nonzeroByte rb tries s with
  | none => rw [e] at hd; exact Kat.outBind hd
  | some p =>
    obtain ⟨b, s⟩ := p
    rw [e] at hd
    refine Kat.seqE hd ?_
    simp only [Option.bind_some]
    rw [randombytes_eq rb s T.size (hrb s T.size)]
    refine Kat.seqE (readSize_ret T (hrb s T.size)) ?_
    generalize T.val (rb s T.size).1 = pos
    generalize (rb s T.size).2 = s
    rw [Option.map_bind]
    refine session_cases hrb hb hK fuel s (fun _ sk ct kb _ st => do
      let a ← rd ct (pos % MLKEM_CIPHERTEXTBYTES K)
      let ct ← wr ct (pos % MLKEM_CIPHERTEXTBYTES K) (a ^^^ b)
      let (_, key_a) ← Native.crypto_kem_dec bk K fuel (Buf.uninit UInt8 32) ct sk
      let d ← memcmp key_a 0 kb 0 32
      branch (decide (d = 0)) (pure (1, st, out ++ "ERROR invalid ciphertext\n")) (pure (0, st, out))) rfl _ fun ek dk k c s' h => ?_
    simp only [Function.comp, Option.map_map]
    have hcl : MLKEM_CIPHERTEXTBYTES K = c.length := by rw [h.lc, ctLen_eq]
    have hpos : 0 < c.length := by
      rw [h.lc]; unfold ctLen; rcases hK with rfl | rfl | rfl <;> decide
    have hi : pos % c.length < c.length := Nat.mod_lt _ hpos
    rw [hcl]
    refine Kat.seqE (Kat.rd_ofList hi) (Kat.seqE (wr_ret hi _) ?_)
    have em : c.modify (pos % c.length) (· ^^^ b) = c.set (pos % c.length) (c[pos % c.length] ^^^ b) := by
      rw [List.modify_eq_set_getElem?]; simp [hi]
    rw [em]
    generalize hc' : c.set (pos % c.length) (c[pos % c.length] ^^^ b) = c'
    have hl' : c'.length = ctLen K := by rw [← hc', List.length_set]; exact h.lc
    rcases Kat.dec_ends hb hK fuel h.ldk hl' h.hash (ss := Buf.uninit UInt8 32) (Buf.size_uninit ..) with ⟨k', e, l, hd⟩ | ⟨e, hd⟩
    · rw [e]
      refine Kat.seqE hd ?_
      obtain ⟨d, h1, h2⟩ := Kat.memcmp_ret l h.lk
      refine Kat.seqE h1 (br_ret ?_)
      by_cases hkk : k' = k
      · simp [h2.2 hkk, hkk, complain]
      · have : d ≠ 0 := fun e => hkk (h2.1 e)
        simp [this, hkk, complain]
    · rw [e]; exact Kat.outBind hd

omit hrb in
theorem text5 (o a b c d : String) : o ++ a ++ b ++ c ++ d = o ++ (a ++ b ++ c ++ d) := by simp only [String.append_assoc]

omit hrb in
theorem codes (a b c d e : Bool) : ((((if a then 0 else 1) ||| (if b then 0 else 1)) ||| (if c then 0 else 1)) ||| (if d then 0 else 1)) ||| (if e then 0 else 1) = if (a && b && c && d && e) then 0 else (1 : Nat) := by
  cases a <;> cases b <;> cases c <;> cases d <;> cases e <;> rfl

theorem body_ends {bk : Native.Backend} (hb : KeepsContract bk) {K : Nat} (hK : IsParam K) (fuel tries : Nat) (T : SizeT) (s : σ) (out : String) :
    Ends (TestMlkem.body bk K fuel tries T rb s out) ((testRound K (xofBytes fuel) tries T.size T.val rb s).map fun p => (if p.1 then 0 else 1, p.2.2, out ++ p.2.1)) := by
  unfold TestMlkem.body testRound
  rw [Option.map_bind]
  refine ends_bind (keys_ends hrb hb hK fuel s out) fun a _ => ?_
  rw [Function.comp, Option.map_bind]
  refine ends_bind (pk_ends hrb hb hK fuel _ _) fun b _ => ?_
  rw [Function.comp, Option.map_bind]
  refine ends_bind (skA_ends hrb hb hK fuel _ _) fun c _ => ?_
  rw [Function.comp, Option.map_bind]
  refine ends_bind (skB_ends hrb hb hK fuel _ _) fun d _ => ?_
  rw [Function.comp, Option.map_map, Option.map_eq_bind]
  refine ends_bind (ct_ends hrb hb hK fuel tries T _ _) fun e _ => ?_
  simp only [Function.comp]
  rw [codes, text5]
  exact Kat.ret _

omit hrb in
theorem sizes_text {K : Nat} (out : String) : out ++ "CRYPTO_SECRETKEYBYTES:  " ++ toString (MLKEM_SECRETKEYBYTES K) ++ "\n" ++ "CRYPTO_PUBLICKEYBYTES:  " ++ toString (MLKEM_PUBLICKEYBYTES K) ++ "\n" ++
    "CRYPTO_CIPHERTEXTBYTES: " ++ toString (MLKEM_CIPHERTEXTBYTES K) ++ "\n" = out ++ sizesText K := by
  rw [Kat.sk_bytes, Kat.pk_bytes, ← ctLen_eq]
  unfold sizesText skLen pkLen ctLen
  generalize "CRYPTO_SECRETKEYBYTES:  " = a
  generalize "CRYPTO_PUBLICKEYBYTES:  " = b
  generalize "CRYPTO_CIPHERTEXTBYTES: " = c
  generalize "\n" = d
  simp only [String.append_assoc]

theorem loop_ends {bk : Native.Backend} (hb : KeepsContract bk) {K : Nat} (hK : IsParam K) (fuel tries : Nat) (T : SizeT) : ∀ (r : Nat) (s : σ) (out : String),
    Ends (TestMlkem.loop bk K fuel tries T rb r s out) ((testProgram K (xofBytes fuel) tries T.size T.val rb r s).map fun p => (p.1, p.2.1, out ++ p.2.2))
  | 0, s, out => by
    unfold TestMlkem.loop testProgram
    simp only [sizes_text]
    exact Kat.seqE (p := M.emit (.br false)) (a := ()) ⟨_, rfl⟩ (Kat.ret _)
  | r + 1, s, out => by
    unfold TestMlkem.loop testProgram
    refine Kat.seqE (p := M.emit (.br true)) (a := ()) ⟨_, rfl⟩ ?_
    rw [Option.map_bind]
    refine ends_bind (body_ends hrb hb hK fuel tries T s out) fun p _ => ?_
    obtain ⟨ok, t, s⟩ := p
    simp only [Function.comp]
    cases ok
    · exact leads_ends (Leads.brT (by simp)) (Kat.ret _)
    · refine leads_ends (Leads.brF (by simp)) ?_
      have := loop_ends hb hK fuel tries T r s (out ++ t)
      simp only [↓reduceIte, Option.map_map]
      simpa only [Function.comp_def, String.append_assoc] using this

end

end TestMlkem

open TestMlkem

/-- **C72.**  Linked with a build of the library on any backend that keeps the contract of C62 (`C66_backends`) and with any source of randomness that delivers what it is asked for, the functional test program ends, without undefined behaviour, with the exit code and the text that `testProgram`
describes in terms of FIPS 203, or with the sampling budget exhausted when `testProgram` says so.  In particular the test with an invalid public key never fails, and the test with a replaced hash fails
only when the random bytes are the hash. -/
theorem C72_test_program {bk : Native.Backend} (hb : KeepsContract bk) {K : Nat} (hK : IsParam K) (fuel tries : Nat) (T : Model.TestMlkem.SizeT) {σ : Type} {rb : RandomBytes σ} (hrb : ∀ s n, (rb s n).1.length = n) (N : Nat) (s : σ) :
    Ends (Model.TestMlkem.main bk K fuel tries T rb N s) (testProgram K (xofBytes fuel) tries T.size T.val rb N s) := by
  have h := loop_ends hrb hb hK fuel tries T N s ""
  have e : (fun p : Nat × σ × String => (p.1, p.2.1, "" ++ p.2.2)) = id := by funext p; simp
  rw [e, Option.map_id] at h
  exact h

/-- The source of randomness of the test programs of the repository (C71). -/
def surfSource : RandomBytes Nat := fun n m => ((List.range m).map fun i => surfByte (n + i), n + m)

/-- **C72 (as built).**  The test program linked with the generator of C71; it prints the same on every backend. -/
theorem C72_as_built {bk : Native.Backend} (hb : KeepsContract bk) {K : Nat} (hK : IsParam K) (fuel tries : Nat) (T : Model.TestMlkem.SizeT) :
    Ends (Model.TestMlkem.main bk K fuel tries T surfSource 1000 0) (testProgram K (xofBytes fuel) tries T.size T.val surfSource 1000 0) :=
  C72_test_program hb hK fuel tries T (fun s n => by simp [surfSource]) 1000 0

/-- The budget can be enough: with a source that always gives the byte 1, a thousand rounds (or the rounds up to the first that fails) end for each parameter set. -/
theorem TestMlkem.budget_enough {K : Nat} (hK : IsParam K) : ∃ r, testProgram K (xofBytes 0) 1 8 (fun _ => 5) (fun _ n => (List.replicate n 1, ())) 1000 () = some r := by
  obtain ⟨ek, s, c, e1, e2, _⟩ := run_facts hK
  have hen : Enough K (xofBytes 0) ((ek.drop (384 * K)).take 32) := by
    rw [← encrypt_some_iff K (xofBytes 0) ek ffs ((SHA3_512 (ffs ++ SHA3_256 ek)).drop 32), e2]; rfl
  have hgen : KeyGen_internal K (xofBytes 0) ones ones = some (ek, s ++ ek ++ H ek ++ ones) := by unfold KeyGen_internal; rw [e1]; rfl
  obtain ⟨g1, g2, g3, g4⟩ := Kat.keygen_good (n := xofBytes 0) ones_length hgen
  obtain ⟨_, p1, _⟩ := KeyGen_parts ones_length hgen
  generalize s ++ ek ++ H ek ++ ones = dk at *
  obtain ⟨⟨k, c⟩, henc⟩ := Option.isSome_iff_exists.1 ((encaps_some_iff K (xofBytes 0) ek ones).2 hen)
  have h384 : 10 ≤ 384 * K := by rcases hK with rfl | rfl | rfl <;> omega
  have hdec : ∀ c, ∃ k', Decaps_internal K (xofBytes 0) dk c = some k' := fun c =>
    Option.isSome_iff_exists.1 ((decaps_some_iff K (xofBytes 0) dk c).2 (by rw [show 384 * K + 32 = pkLen K from rfl, p1]; exact hen))
  have hdec' : ∃ k', Decaps_internal K (xofBytes 0) (List.replicate 10 1 ++ dk.drop 10) c = some k' :=
    Option.isSome_iff_exists.1 ((decaps_some_iff K (xofBytes 0) _ c).2 (by
      rw [List.drop_append, List.drop_eq_nil_of_le (as := List.replicate 10 1) (by rw [List.length_replicate]; exact h384), List.nil_append, List.drop_drop, List.length_replicate,
        show 10 + (384 * K - 10) = 384 * K by omega, show 384 * K + 32 = pkLen K from rfl, p1]; exact hen))
  have hrun : honestRun K (xofBytes 0) (fun _ n => (List.replicate n 1, ())) () = some ((ek, dk, k, c), ()) := by
    unfold honestRun
    simp only
    rw [show (List.replicate 64 (1 : UInt8)).take 32 = ones from rfl, show (List.replicate 64 (1 : UInt8)).drop 32 = ones from rfl, hgen, Option.bind_some]
    simp only
    rw [show List.replicate 32 (1 : UInt8) = ones from rfl, henc]; rfl
  obtain ⟨k1, h1⟩ := hdec c
  obtain ⟨k2, h2⟩ := hdec'
  obtain ⟨k3, h3⟩ := hdec (c.modify (5 % c.length) (· ^^^ 1))
  have hb : ∃ b, invalidSkBTest K (xofBytes 0) (fun _ n => (List.replicate n 1, ())) () = some (b, ()) := by
    unfold invalidSkBTest
    simp only [hrun, Option.bind_some]
    split
    · exact ⟨_, by rw [h1]; rfl⟩
    · exact ⟨_, rfl⟩
  obtain ⟨b, hb⟩ := hb
  have hround : ∃ ok t, testRound K (xofBytes 0) 1 8 (fun _ => 5) (fun _ n => (List.replicate n 1, ())) () = some (ok, t, ()) := by
    unfold testRound
    rw [show keysTest K (xofBytes 0) (fun _ n => (List.replicate n 1, ())) () = some (decide (k1 = k), ()) by unfold keysTest; rw [hrun, Option.bind_some]; simp only; rw [h1]; rfl, Option.bind_some]
    simp only
    rw [show invalidPkTest K (xofBytes 0) (fun _ n => (List.replicate n 1, ())) () = some (true, ()) by unfold invalidPkTest; rw [hrun]; rfl, Option.bind_some]
    simp only
    rw [show invalidSkATest K (xofBytes 0) (fun _ n => (List.replicate n 1, ())) () = some (decide (k2 ≠ k), ()) by unfold invalidSkATest; rw [hrun, Option.bind_some]; simp only; rw [h2]; rfl, Option.bind_some]
    simp only
    rw [hb, Option.bind_some]
    simp only
    rw [show invalidCtTest K (xofBytes 0) 1 8 (fun _ => 5) (fun _ n => (List.replicate n 1, ())) () = some (decide (k3 ≠ k), ()) by
      unfold invalidCtTest
      rw [show nonzeroByte (fun _ n => (List.replicate n 1, ())) 1 () = some (1, ()) from rfl, Option.bind_some]
      simp only
      rw [hrun, Option.bind_some]; simp only; rw [h3]; rfl]
    exact ⟨_, _, rfl⟩
  obtain ⟨ok, t, hround⟩ := hround
  have key : ∀ N, ∃ r, testProgram K (xofBytes 0) 1 8 (fun _ => 5) (fun _ n => (List.replicate n 1, ())) N () = some r := by
    intro N
    induction N with
    | zero => exact ⟨_, rfl⟩
    | succ N ih =>
      obtain ⟨r, ih⟩ := ih
      unfold testProgram
      rw [hround, Option.bind_some]
      simp only
      cases ok
      · exact ⟨_, rfl⟩
      · rw [ih]; exact ⟨_, rfl⟩
  exact key 1000

end Verif.Props

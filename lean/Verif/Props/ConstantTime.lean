import Verif.Props.Budget
import Verif.Proof.TraceKem
/-! # C13, C14, C15: which branches are taken and which addresses are accessed does not depend on secrets

A trace is the list of all branch outcomes, all accessed offsets and all operands of divisions and remainders, in program order (`Verif.Ev`).  Two runs *look alike* if both run out of budget, or both return, with the same
return code and the same trace.  `Verif.Props.Examples` shows for each of C13, C14 and C15 two concrete runs with different secrets that return with the same trace; `Verif.Props.HashTrace`
does so for C36. -/
namespace Verif.Props
open Verif Spec Model

attribute [local irreducible] SHAKE256 SHA3_256 SHA3_512 SHAKE128

/-- Both calls use up the budget, or both return, with the same return code and with the same sequence of branch outcomes, accessed addresses and operands of divisions. -/
def LookAlike {α β : Type} (p : M (Int × α)) (q : M (Int × β)) : Prop :=
  (OutOfBudget p ∧ OutOfBudget q) ∨ ∃ r a b t, ReturnsTr p (r, a) t ∧ ReturnsTr q (r, b) t

theorem LookAlike.of {α β : Type} {p : M (Int × α)} {q : M (Int × β)} {r : Int} {a : α} {b : β} (h : Returns p (r, a)) (h' : Returns q (r, b)) (hs : SI p q) : LookAlike p q := by
  obtain ⟨t, e⟩ := h
  obtain ⟨t', e'⟩ := h'
  have := (hs _ _ _ _ e e').1
  subst this
  exact Or.inr ⟨r, a, b, t, e, e'⟩

theorem pk_lt {K : Nat} (hK : IsParam K) : MLKEM_PUBLICKEYBYTES K + 200 < 2 ^ 64 := by rcases hK with rfl | rfl | rfl <;> decide
theorem ct_lt {K : Nat} (hK : IsParam K) : MLKEM_CIPHERTEXTBYTES K + 200 < 2 ^ 64 := by rcases hK with rfl | rfl | rfl <;> decide

theorem encaps_some_iff (K n : Nat) (ek m : List UInt8) : (Encaps_internal K n ek m).isSome ↔ Enough K n ((ek.drop (384 * K)).take 32) := by
  rw [← encrypt_some_iff]
  unfold Encaps_internal
  rw [Option.isSome_map]

theorem decaps_some_iff (K n : Nat) (dk c : List UInt8) : (Decaps_internal K n dk c).isSome ↔ Enough K n ((((dk.drop (384 * K)).take (384 * K + 32)).drop (384 * K)).take 32) := by
  rw [← encrypt_some_iff]
  unfold Decaps_internal
  dsimp only
  rw [Option.isSome_map]

theorem keygen_some_iff (K n : Nat) (d z : List UInt8) : (KeyGen_internal K n d z).isSome ↔ Enough K n ((SHA3_512 (d ++ [UInt8.ofNat K])).take 32) := by
  rw [← sampleA_some_iff]
  unfold KeyGen_internal kpkeKeyGen
  dsimp only
  rw [Option.isSome_map, Option.isSome_map]; rfl

/-- **C13.** Encapsulating to one public key with two values of the coins takes the same branches and touches the same addresses. -/
theorem C13_enc_derand {K : Nat} (hK : IsParam K) (fuel : Nat) (ek m m' : List UInt8) (hek : ek.length = pkLen K) (hm : m.length = 32) (hm' : m'.length = 32)
    (ct ct' ss ss' : Buf UInt8) (hct : ctLen K ≤ ct.size) (hct' : ctLen K ≤ ct'.size) (hss : 32 ≤ ss.size) (hss' : 32 ≤ ss'.size) :
    LookAlike (crypto_kem_enc_derand K fuel ct ss (Buf.ofList ek) (Buf.ofList m)) (crypto_kem_enc_derand K fuel ct' ss' (Buf.ofList ek) (Buf.ofList m')) := by
  have hs : SI (crypto_kem_enc_derand K fuel ct ss (Buf.ofList ek) (Buf.ofList m)) (crypto_kem_enc_derand K fuel ct' ss' (Buf.ofList ek) (Buf.ofList m')) := si_enc_derand (pk_lt hK)
  have i := encaps_some_iff K (xofBytes fuel) ek m
  have i' := encaps_some_iff K (xofBytes fuel) ek m'
  rcases enc_frame hK fuel ek m hek hm ct ss hct hss with ⟨hc, _, _, _, _, e, _, _, h, _⟩ | ⟨hc, e, h⟩ | ⟨hc, h⟩ <;>
  rcases enc_frame hK fuel ek m' hek hm' ct' ss' hct' hss' with ⟨hc', _, _, _, _, e', _, _, h', _⟩ | ⟨hc', e', h'⟩ | ⟨hc', h'⟩
  · exact LookAlike.of h h' hs
  · rw [e] at i; rw [e', ← i] at i'; simp at i'
  · exact (hc' hc).elim
  · rw [e'] at i'; rw [e, ← i'] at i; simp at i
  · exact Or.inl ⟨h, h'⟩
  · exact (hc' hc).elim
  · exact (hc hc').elim
  · exact (hc hc').elim
  · exact LookAlike.of h h' hs

/-- **C14.** Decapsulating two ciphertexts with two secret keys that agree in the embedded public key `ek` and the stored hash `h` takes the same branches and touches the same
addresses: nothing depends on the secret vectors, on the rejection secrets `z`, on the ciphertexts or on their validity. -/
theorem C14_dec {K : Nat} (hK : IsParam K) (fuel : Nat) (s s' ek h z z' c c' : List UInt8) (hs : s.length = 384 * K) (hs' : s'.length = 384 * K) (hek : ek.length = pkLen K)
    (hh : h.length = 32) (hz : z.length = 32) (hz' : z'.length = 32) (hc : c.length = ctLen K) (hc' : c'.length = ctLen K)
    (ss ss' : Buf UInt8) (hss : 32 ≤ ss.size) (hss' : 32 ≤ ss'.size) :
    LookAlike (crypto_kem_dec K fuel ss (Buf.ofList c) (Buf.ofList (s ++ ek ++ h ++ z))) (crypto_kem_dec K fuel ss' (Buf.ofList c') (Buf.ofList (s' ++ ek ++ h ++ z'))) := by
  have hpk : pkLen K = 384 * K + 32 := rfl
  have e1 : ∀ s z : List UInt8, s.length = 384 * K → ((s ++ ek ++ h ++ z).drop (384 * K)).take (384 * K + 32) = ek := by
    intro s z hs
    rw [List.append_assoc, List.append_assoc, List.drop_left' hs, show 384 * K + 32 = pkLen K from rfl, List.take_left' hek]
  have e2 : ∀ s z : List UInt8, s.length = 384 * K → ((s ++ ek ++ h ++ z).drop (768 * K + 32)).take 32 = h := by
    intro s z hs
    rw [List.append_assoc, List.drop_left' (by rw [List.length_append, hs, hek, hpk]; omega), List.take_left' hh]
  have hl : ∀ s z : List UInt8, s.length = 384 * K → z.length = 32 → (s ++ ek ++ h ++ z).length = skLen K := by
    intro s z hs hz
    unfold skLen; simp only [List.length_append]; omega
  have g1 : ∀ s z : List UInt8, s.length = 384 * K → z.length = 32 → SegL (Buf.ofList (s ++ ek ++ h ++ z)) (MLKEM_INDCPA_SECRETKEYBYTES K) ek := by
    intro s z hs hz
    have := (SegL_ofList (s ++ ek ++ h ++ z)).sub (384 * K) (384 * K + 32) (by rw [hl s z hs hz]; unfold skLen; omega)
    rw [e1 s z hs] at this
    have e : MLKEM_INDCPA_SECRETKEYBYTES K = 0 + 384 * K := by rcases hK with rfl | rfl | rfl <;> rfl
    rw [e]; exact this
  have g2 : ∀ s z : List UInt8, s.length = 384 * K → z.length = 32 → SegL (Buf.ofList (s ++ ek ++ h ++ z)) (MLKEM_SECRETKEYBYTES K - 2 * 32) h := by
    intro s z hs hz
    have := (SegL_ofList (s ++ ek ++ h ++ z)).sub (768 * K + 32) 32 (by rw [hl s z hs hz]; unfold skLen; omega)
    rw [e2 s z hs] at this
    have e : MLKEM_SECRETKEYBYTES K - 2 * 32 = 0 + (768 * K + 32) := by rcases hK with rfl | rfl | rfl <;> rfl
    rw [e]; exact this
  have hsi : SI (crypto_kem_dec K fuel ss (Buf.ofList c) (Buf.ofList (s ++ ek ++ h ++ z))) (crypto_kem_dec K fuel ss' (Buf.ofList c') (Buf.ofList (s' ++ ek ++ h ++ z'))) :=
    si_dec (pk_lt hK) (ct_lt hK) (by rw [hek]; rcases hK with rfl | rfl | rfl <;> rfl) hh (g1 s z hs hz) (g1 s' z' hs' hz') (g2 s z hs hz) (g2 s' z' hs' hz')
  have i := decaps_some_iff K (xofBytes fuel) (s ++ ek ++ h ++ z) c
  have i' := decaps_some_iff K (xofBytes fuel) (s' ++ ek ++ h ++ z') c'
  rw [e1 s z hs] at i
  rw [e1 s' z' hs'] at i'
  have k : hashCheck K (s ++ ek ++ h ++ z) ↔ hashCheck K (s' ++ ek ++ h ++ z') := by
    unfold hashCheck
    rw [e1 s z hs, e2 s z hs, e1 s' z' hs', e2 s' z' hs']
  rcases dec_frame hK fuel _ c (hl s z hs hz) hc ss hss with ⟨hx, _, _, e, _, r, _⟩ | ⟨hx, e, r⟩ | ⟨hx, r⟩ <;>
  rcases dec_frame hK fuel _ c' (hl s' z' hs' hz') hc' ss' hss' with ⟨hx', _, _, e', _, r', _⟩ | ⟨hx', e', r'⟩ | ⟨hx', r'⟩
  · exact LookAlike.of r r' hsi
  · rw [e] at i; rw [e', ← i] at i'; simp at i'
  · exact (hx' (k.1 hx)).elim
  · rw [e'] at i'; rw [e, ← i'] at i; simp at i
  · exact Or.inl ⟨r, r'⟩
  · exact (hx' (k.1 hx)).elim
  · exact (hx (k.2 hx')).elim
  · exact (hx (k.2 hx')).elim
  · exact LookAlike.of r r' hsi

/-- **C15.** Generating keys from two coin strings with the same public matrix seed takes the same branches and touches the same addresses. -/
theorem C15_keypair_derand {K : Nat} (hK : IsParam K) (fuel : Nat) (d d' z z' : List UInt8) (hd : d.length = 32) (hd' : d'.length = 32) (hz : z.length = 32) (hz' : z'.length = 32)
    (hρ : (SHA3_512 (d ++ [UInt8.ofNat K])).take 32 = (SHA3_512 (d' ++ [UInt8.ofNat K])).take 32)
    (pk pk' sk sk' : Buf UInt8) (hpk : pkLen K ≤ pk.size) (hpk' : pkLen K ≤ pk'.size) (hsk : skLen K ≤ sk.size) (hsk' : skLen K ≤ sk'.size) :
    LookAlike (crypto_kem_keypair_derand K fuel pk sk (Buf.ofList (d ++ z))) (crypto_kem_keypair_derand K fuel pk' sk' (Buf.ofList (d' ++ z'))) := by
  have g : ∀ d z : List UInt8, d.length = 32 → SegL (Buf.ofList (d ++ z)) 0 d := by
    intro d z hd
    have := (SegL_ofList (d ++ z)).take 32 (by rw [List.length_append]; omega)
    rwa [List.take_left' hd] at this
  have hsi : SI (crypto_kem_keypair_derand K fuel pk sk (Buf.ofList (d ++ z))) (crypto_kem_keypair_derand K fuel pk' sk' (Buf.ofList (d' ++ z'))) :=
    si_keypair_derand (pk_lt hK) hd hd' (g d z hd) (g d' z' hd') hρ
  have i := keygen_some_iff K (xofBytes fuel) d z
  have i' := keygen_some_iff K (xofBytes fuel) d' z'
  rw [← hρ] at i'
  rcases keygen_frame hK fuel d z hd hz pk sk hpk hsk with ⟨_, _, _, _, e, _, _, h, _⟩ | ⟨e, h⟩ <;>
  rcases keygen_frame hK fuel d' z' hd' hz' pk' sk' hpk' hsk' with ⟨_, _, _, _, e', _, _, h', _⟩ | ⟨e', h'⟩
  · exact LookAlike.of h h' hsi
  · rw [e] at i; rw [e', ← i] at i'; simp at i'
  · rw [e'] at i'; rw [e, ← i'] at i; simp at i
  · exact Or.inl ⟨h, h'⟩

theorem LookAlike.map {α β γ δ : Type} {p : M (Int × α)} {q : M (Int × β)} (h : LookAlike p q) (f : Int → Int) (g : α → γ) (g' : β → δ) :
    LookAlike (mapM (fun x => (f x.1, g x.2)) p) (mapM (fun x => (f x.1, g' x.2)) q) := by
  have key : ∀ {α γ : Type} (g : α → γ) (r : Int) (a : α) (t : List Ev), mapM (fun x => (f x.1, g x.2)) (.ok ((r, a), t) : M (Int × α)) = .ok ((f r, g a), t) := by
    intro α γ g r a t
    show Except.ok (_, t ++ []) = _
    rw [List.append_nil]
  rcases h with ⟨h, h'⟩ | ⟨r, a, b, t, h, h'⟩
  · refine Or.inl ⟨?_, ?_⟩
    · rw [show p = _ from h]; rfl
    · rw [show q = _ from h']; rfl
  · refine Or.inr ⟨f r, g a, g' b, t, ?_, ?_⟩
    · rw [show p = _ from h]; exact key g r a t
    · rw [show q = _ from h']; exact key g' r b t

/-- **C13** for the randomised function: whatever the two random sources deliver. -/
theorem C13_enc {σ σ' : Type} {K : Nat} (hK : IsParam K) (fuel : Nat) (rb : RandomBytes σ) (rb' : RandomBytes σ') (st : σ) (st' : σ')
    (hrb : (rb st 32).1.length = 32) (hrb' : (rb' st' 32).1.length = 32) (ek : List UInt8) (hek : ek.length = pkLen K)
    (ct ct' ss ss' : Buf UInt8) (hct : ctLen K ≤ ct.size) (hct' : ctLen K ≤ ct'.size) (hss : 32 ≤ ss.size) (hss' : 32 ≤ ss'.size) :
    LookAlike (crypto_kem_enc K fuel rb st ct ss (Buf.ofList ek)) (crypto_kem_enc K fuel rb' st' ct' ss' (Buf.ofList ek)) := by
  rw [C16_enc rb st K fuel ct ss _ hrb, C16_enc rb' st' K fuel ct' ss' _ hrb']
  exact (C13_enc_derand hK fuel ek _ _ hek hrb hrb' ct ct' ss ss' hct hct' hss hss').map id (fun x => (x.1, x.2, (rb st 32).2)) (fun x => (x.1, x.2, (rb' st' 32).2))

/-- **C15** for the randomised function: two random sources whose bytes give the same public matrix seed. -/
theorem C15_keypair {σ σ' : Type} {K : Nat} (hK : IsParam K) (fuel : Nat) (rb : RandomBytes σ) (rb' : RandomBytes σ') (st : σ) (st' : σ')
    (hrb : (rb st 64).1.length = 64) (hrb' : (rb' st' 64).1.length = 64)
    (hρ : (SHA3_512 ((rb st 64).1.take 32 ++ [UInt8.ofNat K])).take 32 = (SHA3_512 ((rb' st' 64).1.take 32 ++ [UInt8.ofNat K])).take 32)
    (pk pk' sk sk' : Buf UInt8) (hpk : pkLen K ≤ pk.size) (hpk' : pkLen K ≤ pk'.size) (hsk : skLen K ≤ sk.size) (hsk' : skLen K ≤ sk'.size) :
    LookAlike (crypto_kem_keypair K fuel rb st pk sk) (crypto_kem_keypair K fuel rb' st' pk' sk') := by
  rw [C16_keypair rb st K fuel pk sk hrb, C16_keypair rb' st' K fuel pk' sk' hrb']
  have l : ∀ x : List UInt8, x.length = 64 → (x.take 32).length = 32 ∧ (x.drop 32).length = 32 := fun x h => by simp [h]
  have h := C15_keypair_derand hK fuel ((rb st 64).1.take 32) ((rb' st' 64).1.take 32) ((rb st 64).1.drop 32) ((rb' st' 64).1.drop 32)
    (l _ hrb).1 (l _ hrb').1 (l _ hrb).2 (l _ hrb').2 hρ pk pk' sk sk' hpk hpk' hsk hsk'
  rw [List.take_append_drop, List.take_append_drop] at h
  exact h.map (fun _ => 0) (fun x => (x.1, x.2, (rb st 64).2)) (fun x => (x.1, x.2, (rb' st' 64).2))

/-- If runs with equal keys look alike, return code and trace are a function of the key. -/
theorem LookAlike.function {ι κ α : Type} (f : ι → M (Int × α)) (k : ι → κ) (h : ∀ i j, k i = k j → LookAlike (f i) (f j)) :
    ∃ T : κ → Option (Int × List Ev), ∀ i, match T (k i) with
      | none => OutOfBudget (f i)
      | some (r, t) => ∃ a, ReturnsTr (f i) (r, a) t := by
  classical
  refine ⟨fun x => if hx : ∃ p : Int × List Ev, ∃ i a, k i = x ∧ ReturnsTr (f i) (p.1, a) p.2 then some hx.choose else none, fun i => ?_⟩
  dsimp only
  by_cases hx : ∃ p : Int × List Ev, ∃ j a, k j = k i ∧ ReturnsTr (f j) (p.1, a) p.2
  · rw [dif_pos hx]
    obtain ⟨j, a, hk, hr⟩ := hx.choose_spec
    generalize hx.choose = p at hr ⊢
    obtain ⟨r, t⟩ := p
    rcases h _ _ hk with ⟨h1, _⟩ | ⟨r', a', b, t', h1, h2⟩
    · exact nomatch hr.symm.trans h1
    · have e := Except.ok.inj (hr.symm.trans h1)
      obtain ⟨e1, rfl⟩ := Prod.mk.inj e
      obtain ⟨rfl, _⟩ := Prod.mk.inj e1
      exact ⟨b, h2⟩
  · rw [dif_neg hx]
    rcases h i i rfl with ⟨h1, _⟩ | ⟨r, a, b, t, h1, _⟩
    · exact h1
    · exact (hx ⟨(r, t), i, a, rfl, h1⟩).elim

/-- **C13** as a function: return code and trace of encapsulation are determined by the public key alone. -/
theorem C13_trace_of_pk {K : Nat} (hK : IsParam K) (fuel : Nat) : ∃ T : List UInt8 → Option (Int × List Ev),
    ∀ ek m : List UInt8, ek.length = pkLen K → m.length = 32 → ∀ ct ss : Buf UInt8, ctLen K ≤ ct.size → 32 ≤ ss.size →
      match T ek with
      | none => OutOfBudget (crypto_kem_enc_derand K fuel ct ss (Buf.ofList ek) (Buf.ofList m))
      | some (r, t) => ∃ out, ReturnsTr (crypto_kem_enc_derand K fuel ct ss (Buf.ofList ek) (Buf.ofList m)) (r, out) t := by
  obtain ⟨T, h⟩ := LookAlike.function
    (ι := { x : List UInt8 × List UInt8 × Buf UInt8 × Buf UInt8 // x.1.length = pkLen K ∧ x.2.1.length = 32 ∧ ctLen K ≤ x.2.2.1.size ∧ 32 ≤ x.2.2.2.size })
    (fun x => crypto_kem_enc_derand K fuel x.1.2.2.1 x.1.2.2.2 (Buf.ofList x.1.1) (Buf.ofList x.1.2.1)) (fun x => x.1.1) (by
      rintro ⟨⟨ek, m, ct, ss⟩, h1, h2, h3, h4⟩ ⟨⟨ek', m', ct', ss'⟩, h1', h2', h3', h4'⟩ hk
      obtain rfl : ek = ek' := hk
      exact C13_enc_derand hK fuel ek m m' h1 h2 h2' ct ct' ss ss' h3 h3' h4 h4')
  exact ⟨T, fun ek m h1 h2 ct ss h3 h4 => h ⟨(ek, m, ct, ss), h1, h2, h3, h4⟩⟩

/-- **C14** as a function: return code and trace of decapsulation are determined by the embedded public key and the stored hash alone. -/
theorem C14_trace_of_pk {K : Nat} (hK : IsParam K) (fuel : Nat) : ∃ T : List UInt8 × List UInt8 → Option (Int × List Ev),
    ∀ s ek h z c : List UInt8, s.length = 384 * K → ek.length = pkLen K → h.length = 32 → z.length = 32 → c.length = ctLen K → ∀ ss : Buf UInt8, 32 ≤ ss.size →
      match T (ek, h) with
      | none => OutOfBudget (crypto_kem_dec K fuel ss (Buf.ofList c) (Buf.ofList (s ++ ek ++ h ++ z)))
      | some (r, t) => ∃ out, ReturnsTr (crypto_kem_dec K fuel ss (Buf.ofList c) (Buf.ofList (s ++ ek ++ h ++ z))) (r, out) t := by
  obtain ⟨T, h⟩ := LookAlike.function
    (ι := { x : List UInt8 × List UInt8 × List UInt8 × List UInt8 × List UInt8 × Buf UInt8 //
      x.1.length = 384 * K ∧ x.2.1.length = pkLen K ∧ x.2.2.1.length = 32 ∧ x.2.2.2.1.length = 32 ∧ x.2.2.2.2.1.length = ctLen K ∧ 32 ≤ x.2.2.2.2.2.size })
    (fun x => crypto_kem_dec K fuel x.1.2.2.2.2.2 (Buf.ofList x.1.2.2.2.2.1) (Buf.ofList (x.1.1 ++ x.1.2.1 ++ x.1.2.2.1 ++ x.1.2.2.2.1))) (fun x => (x.1.2.1, x.1.2.2.1)) (by
      rintro ⟨⟨s, ek, h, z, c, ss⟩, h1, h2, h3, h4, h5, h6⟩ ⟨⟨s', ek', h', z', c', ss'⟩, h1', h2', h3', h4', h5', h6'⟩ hk
      obtain ⟨rfl, rfl⟩ : ek = ek' ∧ h = h' := Prod.mk.inj hk
      exact C14_dec hK fuel s s' ek h z z' c c' h1 h1' h2 h3 h4 h4' h5 h5' ss ss' h6 h6')
  exact ⟨T, fun s ek hh z c h1 h2 h3 h4 h5 ss h6 => h ⟨(s, ek, hh, z, c, ss), h1, h2, h3, h4, h5, h6⟩⟩

/-- **C15** as a function: the trace of key generation is determined by the public matrix seed alone. -/
theorem C15_trace_of_rho {K : Nat} (hK : IsParam K) (fuel : Nat) : ∃ T : List UInt8 → Option (Int × List Ev),
    ∀ d z : List UInt8, d.length = 32 → z.length = 32 → ∀ pk sk : Buf UInt8, pkLen K ≤ pk.size → skLen K ≤ sk.size →
      match T ((SHA3_512 (d ++ [UInt8.ofNat K])).take 32) with
      | none => OutOfBudget (crypto_kem_keypair_derand K fuel pk sk (Buf.ofList (d ++ z)))
      | some (r, t) => ∃ out, ReturnsTr (crypto_kem_keypair_derand K fuel pk sk (Buf.ofList (d ++ z))) (r, out) t := by
  obtain ⟨T, h⟩ := LookAlike.function
    (ι := { x : List UInt8 × List UInt8 × Buf UInt8 × Buf UInt8 // x.1.length = 32 ∧ x.2.1.length = 32 ∧ pkLen K ≤ x.2.2.1.size ∧ skLen K ≤ x.2.2.2.size })
    (fun x => crypto_kem_keypair_derand K fuel x.1.2.2.1 x.1.2.2.2 (Buf.ofList (x.1.1 ++ x.1.2.1))) (fun x => (SHA3_512 (x.1.1 ++ [UInt8.ofNat K])).take 32) (by
      rintro ⟨⟨d, z, pk, sk⟩, h1, h2, h3, h4⟩ ⟨⟨d', z', pk', sk'⟩, h1', h2', h3', h4'⟩ hk
      exact C15_keypair_derand hK fuel d d' z z' h1 h1' h2 h2' hk pk pk' sk sk' h3 h3' h4 h4')
  exact ⟨T, fun d z h1 h2 pk sk h3 h4 => h ⟨(d, z, pk, sk), h1, h2, h3, h4⟩⟩

/-- **C36.** The hash functions take branches and touch addresses that depend only on the lengths, never on the hashed bytes. -/
theorem C36_sha3_256 {o o' i i' : Buf UInt8} {oo io l : Nat} (hl : l + 200 < 2 ^ 64) {a a' : Buf UInt8} {t t' : List Ev}
    (h : ReturnsTr (sha3_256 o oo i io l) a t) (h' : ReturnsTr (sha3_256 o' oo i' io l) a' t') : t = t' := (si_sha3_256 hl _ _ _ _ h h').1

theorem C36_sha3_512 {o o' i i' : Buf UInt8} {oo io l : Nat} (hl : l + 200 < 2 ^ 64) {a a' : Buf UInt8} {t t' : List Ev}
    (h : ReturnsTr (sha3_512 o oo i io l) a t) (h' : ReturnsTr (sha3_512 o' oo i' io l) a' t') : t = t' := (si_sha3_512 hl _ _ _ _ h h').1

theorem C36_shake256 {o o' i i' : Buf UInt8} {oo n io l : Nat} (hl : l + 200 < 2 ^ 64) {a a' : Buf UInt8} {t t' : List Ev}
    (h : ReturnsTr (shake256 o oo n i io l) a t) (h' : ReturnsTr (shake256 o' oo n i' io l) a' t') : t = t' := (si_shake256 hl _ _ _ _ h h').1

theorem C36_shake256x4 {o o' i i' : Four (Buf UInt8)} {n io l : Nat} {a a' : Four (Buf UInt8)} {t t' : List Ev}
    (h : ReturnsTr (shake256x4 o n i io l) a t) (h' : ReturnsTr (shake256x4 o' n i' io l) a' t') : t = t' := (si_shake256x4 _ _ _ _ h h').1

theorem C36_shake128_absorb {s s' : Buf Model.W} {i i' : Buf UInt8} {io l : Nat} {a a' : Buf Model.W} {t t' : List Ev}
    (h : ReturnsTr (shake128_absorb s i io l) a t) (h' : ReturnsTr (shake128_absorb s' i' io l) a' t') : t = t' := (si_shake128_absorb _ _ _ _ h h').1

theorem C36_shake128_squeezeblocks {s s' : Buf Model.W} {o o' : Buf UInt8} {oo n : Nat} {a a' : Buf UInt8 × Buf Model.W} {t t' : List Ev}
    (h : ReturnsTr (shake128_squeezeblocks o oo n s) a t) (h' : ReturnsTr (shake128_squeezeblocks o' oo n s') a' t') : t = t' := (si_shake128_squeezeblocks _ _ _ _ h h').1

end Verif.Props

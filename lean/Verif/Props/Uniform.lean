import Verif.Props.Sampling
import Mathlib.Data.List.GetD

/-! # C25: rejection sampling of uniform bytes is uniform

If the bytes given to the sampler are uniformly random, then all polynomials with coefficients in `0 … q-1` are equally likely results: as many buffers lead to one as to any other.
-/

namespace Verif.Props
open Verif Verif.Model

/-- Exchange the numbers `v` and `w`. -/
def swapVal (v w c : Nat) : Nat := if c = v then w else if c = w then v else c

/-- In a list of candidates exchange, at the `k`-th accepted one, the `k`-th number of `vs` with the `k`-th number of `ws`. -/
def exchange : List Nat → List Nat → List Nat → List Nat
  | v :: vs, w :: ws, c :: cs => if c < 3329 then swapVal v w c :: exchange vs ws cs else c :: exchange (v :: vs) (w :: ws) cs
  | _, _, cs => cs

theorem swapVal_lt {v w c : Nat} (hv : v < 3329) (hw : w < 3329) (hc : c < 3329) : swapVal v w c < 3329 := by
  unfold swapVal; split <;> [exact hw; (split <;> assumption)]

theorem swapVal_swapVal (v w c : Nat) : swapVal w v (swapVal v w c) = c := by
  unfold swapVal; split <;> split <;> simp_all <;> omega

theorem exchange_length (vs ws cs : List Nat) : (exchange vs ws cs).length = cs.length := by
  induction vs, ws, cs using exchange.induct with
  | case1 v vs w ws c cs h ih => rw [exchange, if_pos h]; simp [ih]
  | case2 v vs w ws c cs h ih => rw [exchange, if_neg h]; simp [ih]
  | case3 vs ws cs h => rw [exchange]; exact h

theorem exchange_lt (vs ws cs : List Nat) (hv : ∀ x ∈ vs, x < 3329) (hw : ∀ x ∈ ws, x < 3329) (hc : ∀ x ∈ cs, x < 4096) : ∀ x ∈ exchange vs ws cs, x < 4096 := by
  induction vs, ws, cs using exchange.induct with
  | case1 v vs w ws c cs h ih =>
    rw [exchange, if_pos h]
    intro x hx
    rcases List.mem_cons.1 hx with rfl | hx
    · have := swapVal_lt (hv v (by simp)) (hw w (by simp)) h; omega
    · exact ih (fun x hx => hv x (by simp [hx])) (fun x hx => hw x (by simp [hx])) (fun x hx => hc x (by simp [hx])) x hx
  | case2 v vs w ws c cs h ih =>
    rw [exchange, if_neg h]
    intro x hx
    rcases List.mem_cons.1 hx with rfl | hx
    · exact hc x (by simp)
    · exact ih hv hw (fun x hx => hc x (by simp [hx])) x hx
  | case3 vs ws cs h => rw [exchange]; exact hc; exact h

theorem exchange_exchange (vs ws cs : List Nat) (hv : ∀ x ∈ vs, x < 3329) (hw : ∀ x ∈ ws, x < 3329) : exchange ws vs (exchange vs ws cs) = cs := by
  induction vs, ws, cs using exchange.induct with
  | case1 v vs w ws c cs h ih =>
    rw [exchange, if_pos h, exchange, if_pos (swapVal_lt (hv v (by simp)) (hw w (by simp)) h), swapVal_swapVal,
      ih (fun x hx => hv x (by simp [hx])) (fun x hx => hw x (by simp [hx]))]
  | case2 v vs w ws c cs h ih => rw [exchange, if_neg h, exchange, if_neg h, ih hv hw]
  | case3 vs ws cs h =>
    have e : exchange vs ws cs = cs := by rw [exchange]; exact h
    rw [e, exchange]
    rintro v vs' w ws' c cs' rfl rfl rfl
    exact h _ _ _ _ _ _ rfl rfl rfl

theorem exchange_accepted (vs ws cs : List Nat) (hl : vs.length = ws.length) (hv : ∀ x ∈ vs, x < 3329) (hw : ∀ x ∈ ws, x < 3329)
    (h : (cs.filter (· < 3329)).take vs.length = vs) : ((exchange vs ws cs).filter (· < 3329)).take ws.length = ws := by
  induction vs, ws, cs using exchange.induct with
  | case1 v vs w ws c cs hc ih =>
    rw [exchange, if_pos hc, List.filter_cons_of_pos (by simpa using swapVal_lt (hv v (by simp)) (hw w (by simp)) hc)]
    rw [List.filter_cons_of_pos (by simpa using hc)] at h
    simp only [List.length_cons, List.take_succ_cons, List.cons.injEq] at h ⊢
    refine ⟨by rw [h.1]; simp [swapVal], ih (by simpa using hl) (fun x hx => hv x (by simp [hx])) (fun x hx => hw x (by simp [hx])) h.2⟩
  | case2 v vs w ws c cs hc ih =>
    rw [exchange, if_neg hc, List.filter_cons_of_neg (by simpa using hc)]
    rw [List.filter_cons_of_neg (by simpa using hc)] at h
    exact ih hl hv hw h
  | case3 vs ws cs hn =>
    rw [exchange]
    · match vs, ws, cs, hn with
      | [], [], cs, _ => simp
      | v :: vs, w :: ws, [], _ => simp at h
      | v :: vs, w :: ws, c :: cs, hn => exact (hn _ _ _ _ _ _ rfl rfl rfl).elim
    · exact hn

/-- The bytes of a list of candidates. -/
def fromCandidates : List Nat → List UInt8
  | d1 :: d2 :: rest => UInt8.ofNat (d1 % 256) :: UInt8.ofNat (d1 / 256 + 16 * (d2 % 16)) :: UInt8.ofNat (d2 / 16) :: fromCandidates rest
  | _ => []

theorem fromCandidates_candidates (n : Nat) (L : List UInt8) (h : L.length = 3 * n) : fromCandidates (candidates L) = L := by
  induction n generalizing L with
  | zero => rw [List.length_eq_zero_iff.1 (by omega : L.length = 0)]; rfl
  | succ n ih =>
    match L, h with
    | c0 :: c1 :: c2 :: rest, h =>
      rw [candidates, fromCandidates, ih rest (by simp at h; omega)]
      have := c0.toNat_lt; have := c1.toNat_lt; have := c2.toNat_lt
      refine congrArg₂ _ ?_ (congrArg₂ _ ?_ (congrArg₂ _ ?_ rfl)) <;> apply UInt8.toNat_inj.mp <;> simp only [UInt8.toNat_ofNat'] <;> omega

theorem candidates_fromCandidates (n : Nat) (cs : List Nat) (h : cs.length = 2 * n) (hc : ∀ x ∈ cs, x < 4096) :
    candidates (fromCandidates cs) = cs ∧ (fromCandidates cs).length = 3 * n := by
  induction n generalizing cs with
  | zero => rw [List.length_eq_zero_iff.1 (by omega : cs.length = 0)]; exact ⟨rfl, rfl⟩
  | succ n ih =>
    match cs, h with
    | d1 :: d2 :: rest, h =>
      obtain ⟨h1, h2⟩ := ih rest (by simp at h; omega) fun x hx => hc x (by simp [hx])
      have e1 := hc d1 (by simp); have e2 := hc d2 (by simp)
      rw [fromCandidates, candidates, h1]
      refine ⟨?_, by simp [h2]; omega⟩
      simp only [UInt8.toNat_ofNat']
      refine congrArg₂ _ (by omega) (congrArg₂ _ (by omega) rfl)

theorem candidates_length (n : Nat) (L : List UInt8) (h : L.length = 3 * n) : (candidates L).length = 2 * n ∧ ∀ x ∈ candidates L, x < 4096 := by
  induction n generalizing L with
  | zero => rw [List.length_eq_zero_iff.1 (by omega : L.length = 0)]; simp [candidates]
  | succ n ih =>
    match L, h with
    | c0 :: c1 :: c2 :: rest, h =>
      obtain ⟨h1, h2⟩ := ih rest (by simp at h; omega)
      have := c0.toNat_lt; have := c1.toNat_lt; have := c2.toNat_lt
      rw [candidates]
      refine ⟨by simp [h1]; omega, fun x hx => ?_⟩
      simp only [List.mem_cons] at hx
      rcases hx with rfl | rfl | hx
      · omega
      · omega
      · exact h2 x hx

/-- The exchange on byte strings. -/
def exchangeBytes (vs ws : List Nat) (L : List UInt8) : List UInt8 := fromCandidates (exchange vs ws (candidates L))

theorem exchangeBytes_spec (n : Nat) (vs ws : List Nat) (hl : vs.length = ws.length) (hv : ∀ x ∈ vs, x < 3329) (hw : ∀ x ∈ ws, x < 3329) (L : List UInt8) (h : L.length = 3 * n) :
    (exchangeBytes vs ws L).length = 3 * n ∧ exchangeBytes ws vs (exchangeBytes vs ws L) = L ∧
      ((accepted L).take vs.length = vs → (accepted (exchangeBytes vs ws L)).take ws.length = ws) := by
  obtain ⟨h1, h2⟩ := candidates_length n L h
  obtain ⟨h3, h4⟩ := candidates_fromCandidates n (exchange vs ws (candidates L)) (by rw [exchange_length, h1]) (exchange_lt _ _ _ hv hw h2)
  refine ⟨h4, ?_, fun ha => ?_⟩
  · unfold exchangeBytes
    rw [h3, exchange_exchange _ _ _ hv hw, fromCandidates_candidates n L h]
  · unfold accepted exchangeBytes
    rw [h3]
    exact exchange_accepted _ _ _ hl hv hw ha

/-- Byte strings of a fixed length as functions and as lists. -/
def ofFnEquiv (n : Nat) (P : List UInt8 → Prop) : {B : Fin n → UInt8 // P (List.ofFn B)} ≃ {L : List UInt8 // L.length = n ∧ P L} where
  toFun B := ⟨List.ofFn B.1, by simp, B.2⟩
  invFun L := ⟨fun i => L.1.get (i.cast L.2.1.symm), by
    have : List.ofFn (fun i : Fin n => L.1.get (i.cast L.2.1.symm)) = L.1 := by
      apply List.ext_get (by simp [L.2.1]); intro i h1 h2; simp
    rw [this]; exact L.2.2⟩
  left_inv B := by apply Subtype.ext; funext i; simp
  right_inv L := by apply Subtype.ext; apply List.ext_get (by simp [L.2.1]); intro i h1 h2; simp

theorem count_accepted (n : Nat) (vs ws : List Nat) (hl : vs.length = ws.length) (hv : ∀ x ∈ vs, x < 3329) (hw : ∀ x ∈ ws, x < 3329) :
    Nat.card {B : Fin (3 * n) → UInt8 // (accepted (List.ofFn B)).take vs.length = vs} = Nat.card {B : Fin (3 * n) → UInt8 // (accepted (List.ofFn B)).take ws.length = ws} := by
  rw [Nat.card_congr (ofFnEquiv (3 * n) fun L => (accepted L).take vs.length = vs), Nat.card_congr (ofFnEquiv (3 * n) fun L => (accepted L).take ws.length = ws)]
  refine Nat.card_congr ⟨fun L => ⟨exchangeBytes vs ws L.1, ?_⟩, fun L => ⟨exchangeBytes ws vs L.1, ?_⟩, fun L => ?_, fun L => ?_⟩
  · obtain ⟨h1, _, h3⟩ := exchangeBytes_spec n vs ws hl hv hw L.1 L.2.1
    exact ⟨h1, h3 L.2.2⟩
  · obtain ⟨h1, _, h3⟩ := exchangeBytes_spec n ws vs hl.symm hw hv L.1 L.2.1
    exact ⟨h1, h3 L.2.2⟩
  · exact Subtype.ext (exchangeBytes_spec n vs ws hl hv hw L.1 L.2.1).2.1
  · exact Subtype.ext (exchangeBytes_spec n ws vs hl.symm hw hv L.1 L.2.1).2.1

/-- The sampler returns a full polynomial exactly if the first 256 accepted candidates are its coefficients. -/
theorem rej_full_iff (r : Model.Poly) (hr : r.size = 256) (L : List UInt8) (hL : L.length + 3 < 2 ^ 32) (vs : List Nat) (hl : vs.length = 256) (f : Nat → Int) (hf : ∀ i, i < 256 → f i = nth vs i) :
    Returns (rej_uniform r 256 0 (Buf.ofList L) L.length) (poly f, 256) ↔ (accepted L).take vs.length = vs := by
  obtain ⟨r', a', h, ha, hs, hr', _⟩ := C25_rej_uniform 256 r (by omega) (by omega) [] (by simp) (by simp) L hL
  simp only [List.nil_append, List.length_nil, Nat.sub_zero] at ha h
  rw [hl, ← ha]
  constructor
  · intro h'
    have e := h.unique h'
    obtain ⟨e1, e2⟩ := Prod.mk.injEq .. ▸ e
    refine List.ext_getElem (by rw [e2, hl]) fun i h1 h2 => ?_
    have h3 := hr' i h1
    have hi : i < 256 := by omega
    rw [e1, (poly_holds f).2 i hi, hf i hi] at h3
    have h4 : ((vs.getD i 0 : Nat) : Int) = ((a'.getD i 0 : Nat) : Int) := Option.some.inj (Option.some.inj h3)
    rw [← List.getD_eq_getElem a' 0 h1, ← List.getD_eq_getElem vs 0 h2]
    exact_mod_cast h4.symm
  · intro h'
    have e2 : a'.length = 256 := by rw [h', hl]
    have e1 : r' = poly f := eq_poly ⟨by omega, fun i hi => by rw [hr' i (by omega), hf i hi, h']⟩
    rw [e1, e2] at h
    exact h

theorem coeffs_list (f : Nat → Int) (hf : ∀ i, i < 256 → 0 ≤ f i ∧ f i < 3329) :
    ∃ vs : List Nat, vs.length = 256 ∧ (∀ x ∈ vs, x < 3329) ∧ ∀ i, i < 256 → f i = nth vs i := by
  refine ⟨(List.range 256).map fun i => (f i).toNat, by rw [List.length_map, List.length_range], fun x hx => ?_, fun i hi => ?_⟩
  · obtain ⟨i, hi, rfl⟩ := List.mem_map.1 hx
    have := hf i (List.mem_range.1 hi); omega
  · have := hf i hi
    unfold nth
    rw [List.getD_eq_getElem _ _ (by rw [List.length_map, List.length_range]; exact hi), List.getElem_map, List.getElem_range]
    omega

/-- **C25 (uniform results).**  Fix a number of bytes, a multiple of three (in the range of an `unsigned int`), and any two polynomials with coefficients in `0 … q-1`.  Exactly as many buffers of that size make
`rej_uniform` fill its output with the one as with the other: with uniformly random bytes, all polynomials are equally likely. -/
theorem C25_equally_likely (n : Nat) (hn : 3 * n + 3 < 2 ^ 32) (r : Model.Poly) (hr : r.size = 256) (f g : Nat → Int) (hf : ∀ i, i < 256 → 0 ≤ f i ∧ f i < 3329) (hg : ∀ i, i < 256 → 0 ≤ g i ∧ g i < 3329) :
    Nat.card {B : Fin (3 * n) → UInt8 // Returns (rej_uniform r 256 0 (Buf.ofList (List.ofFn B)) (3 * n)) (poly f, 256)} =
    Nat.card {B : Fin (3 * n) → UInt8 // Returns (rej_uniform r 256 0 (Buf.ofList (List.ofFn B)) (3 * n)) (poly g, 256)} := by
  obtain ⟨vs, lv, bv, hv⟩ := coeffs_list f hf
  obtain ⟨ws, lw, bw, hw⟩ := coeffs_list g hg
  have conv : ∀ (f : Nat → Int) (vs : List Nat), vs.length = 256 → (∀ i, i < 256 → f i = nth vs i) → ∀ B : Fin (3 * n) → UInt8,
      Returns (rej_uniform r 256 0 (Buf.ofList (List.ofFn B)) (3 * n)) (poly f, 256) ↔ (accepted (List.ofFn B)).take vs.length = vs := fun f vs lv hv B => by
    have := rej_full_iff r hr (List.ofFn B) (by rw [List.length_ofFn]; exact hn) vs lv f hv
    rwa [List.length_ofFn (n := 3 * n)] at this
  rw [Nat.card_congr (Equiv.subtypeEquivRight (conv f vs lv hv)), Nat.card_congr (Equiv.subtypeEquivRight (conv g ws lw hw))]
  exact count_accepted n vs ws (lv.trans lw.symm) bv bw

/-- **C25 (every result occurs).**  The numbers compared in `C25_equally_likely` are positive as soon as the buffer has room for 256 candidates; with less room the output is never filled. -/
theorem C25_every_result (n : Nat) (hn : 3 * n + 3 < 2 ^ 32) (r : Model.Poly) (hr : r.size = 256) (f : Nat → Int) (hf : ∀ i, i < 256 → 0 ≤ f i ∧ f i < 3329) :
    (∃ B : Fin (3 * n) → UInt8, Returns (rej_uniform r 256 0 (Buf.ofList (List.ofFn B)) (3 * n)) (poly f, 256)) ↔ 128 ≤ n := by
  obtain ⟨vs, lv, bv, hv⟩ := coeffs_list f hf
  constructor
  · rintro ⟨B, h⟩
    have h := (rej_full_iff r hr (List.ofFn B) (by rw [List.length_ofFn]; exact hn) vs lv f hv).1 (by rwa [List.length_ofFn (n := 3 * n)])
    have h1 := congrArg List.length h
    rw [List.length_take, lv] at h1
    have h2 := (candidates_length n (List.ofFn B) List.length_ofFn).1
    have h3 : (accepted (List.ofFn B)).length ≤ (candidates (List.ofFn B)).length := List.length_filter_le ..
    omega
  · intro hn128
    obtain ⟨h3, h4⟩ := candidates_fromCandidates n (vs ++ List.replicate (2 * n - 256) 0) (by rw [List.length_append, List.length_replicate, lv]; omega)
      (by
        intro x hx
        rcases List.mem_append.1 hx with hx | hx
        · have := bv x hx; omega
        · rw [List.eq_of_mem_replicate hx]; omega)
    have h5 := (rej_full_iff r hr (fromCandidates (vs ++ List.replicate (2 * n - 256) 0)) (by rw [h4]; exact hn) vs lv f hv).2 (by
      unfold accepted
      rw [h3, List.filter_append, List.filter_eq_self.2 (fun x hx => by simpa using bv x hx), List.take_left' rfl])
    generalize fromCandidates (vs ++ List.replicate (2 * n - 256) 0) = L at h4 h5
    refine ⟨fun i => L.get (i.cast h4.symm), ?_⟩
    have e : List.ofFn (fun i : Fin (3 * n) => L.get (i.cast h4.symm)) = L := by
      apply List.ext_get (by rw [List.length_ofFn, h4]); intro i h1 h2; simp
    rw [e]
    rwa [h4] at h5

/-- Polynomials as the theorems want them. -/
example : ∀ i, i < 256 → (0 : Int) ≤ (fun i : Nat => (i : Int) * 13) i ∧ (fun i : Nat => (i : Int) * 13) i < 3329 := fun i hi => by
  show (0 : Int) ≤ (i : Int) * 13 ∧ (i : Int) * 13 < 3329; omega

end Verif.Props

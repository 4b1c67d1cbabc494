import Verif.Props.Kat
import Verif.Model.Acvp
import Verif.Spec.Acvp
/-! # C70: the ACVP test program

It is linked with a build of the library on any backend that keeps the contract of C62 (`C66_backends`: the portable code, AVX2 and AArch64 do). -/
namespace Verif.Props
open Verif Verif.Model Verif.Spec

attribute [local irreducible] keccakF partialK finK blocksK sqByte SHAKE256 SHA3_256 SHA3_512 SHAKE128 KeyGen_internal Encaps_internal Decaps_internal
  Native.crypto_kem_keypair_derand Native.crypto_kem_enc_derand Native.crypto_kem_dec

/-- The C string with the given characters. -/
def cstr (s : List UInt8) : Buf UInt8 := Buf.ofList (s ++ [0])

namespace Acvp
open Verif.Model.Acvp

/-- `p` does something and goes on as `q`. -/
def Leads {α : Type} (p q : M α) : Prop := ∃ t : List Ev, p = M.bnd (Except.ok ((), t)) fun _ => q

theorem Leads.ret {α : Type} {p q : M α} {a : α} (h : Leads p q) (hq : Returns q a) : Returns p a := by
  obtain ⟨t, rfl⟩ := h; exact Kat.seq (p := (Except.ok ((), t) : M Unit)) ⟨t, rfl⟩ hq

theorem Leads.out {α : Type} {p q : M α} (h : Leads p q) (hq : OutOfBudget q) : OutOfBudget p := by
  obtain ⟨t, rfl⟩ := h; exact Kat.seqOut (p := (Except.ok ((), t) : M Unit)) ⟨t, rfl⟩ hq

theorem Leads.err {α : Type} {p q : M α} {e : Err} (h : Leads p q) (hq : q = .error e) : p = .error e := by
  obtain ⟨t, rfl⟩ := h; rw [hq]; rfl

theorem Leads.trans {α : Type} {p q r : M α} (h : Leads p q) (h' : Leads q r) : Leads p r := by
  obtain ⟨t, rfl⟩ := h; obtain ⟨t', rfl⟩ := h'
  refine ⟨t ++ t', ?_⟩
  cases r with
  | error e => rfl
  | ok x => simp only [M.bnd, List.append_assoc]; rfl

theorem Leads.bind {α β : Type} {p : M α} {f : α → M β} {a : α} (h : Returns p a) : Leads (p >>= f) (f a) := by
  obtain ⟨t, e⟩ := h; exact ⟨t, by rw [e]; rfl⟩

theorem Leads.brT {α : Type} {c : Bool} {p q : M α} (h : c = true) : Leads (branch c p q) p := by subst h; exact ⟨[.br true], rfl⟩
theorem Leads.brF {α : Type} {c : Bool} {p q : M α} (h : c = false) : Leads (branch c p q) q := by subst h; exact ⟨[.br false], rfl⟩

theorem rd_at {α : Type} {h t : List α} {x : α} {i : Nat} (hi : i = h.length) : Returns (rd (Buf.ofList (h ++ x :: t)) i) x := by
  subst hi
  unfold rd
  have : (Buf.ofList (h ++ x :: t))[h.length]? = some (some x) := by simp [Buf.ofList]
  rw [this]; exact ⟨_, rfl⟩

theorem strlenLoop_ret (s : List UInt8) (hs : 0 ∉ s) : ∀ (h : List UInt8) (r : Nat), s.length < r → Returns (strlenLoop (Buf.ofList (h ++ (s ++ [0]))) r h.length) (h.length + s.length) := by
  induction s with
  | nil =>
    intro h r hr
    obtain ⟨r, rfl⟩ : ∃ r', r = r' + 1 := ⟨r - 1, by simp at hr; omega⟩
    unfold strlenLoop
    exact (Leads.bind (rd_at rfl)).ret ((Leads.brT rfl).ret (Kat.ret _))
  | cons x s ih =>
    intro h r hr
    obtain ⟨r, rfl⟩ : ∃ r', r = r' + 1 := ⟨r - 1, by simp at hr; omega⟩
    unfold strlenLoop
    refine (Leads.bind (rd_at (x := x) rfl)).ret ((Leads.brF ?_).ret ?_)
    · have : x ≠ 0 := fun e => hs (by simp [e])
      simpa using this
    · have := ih (fun e => hs (by simp [e])) (h ++ [x]) r (by simp at hr; omega)
      simpa [Nat.add_assoc, Nat.add_comm 1] using this

theorem strlen_ret {s : List UInt8} (hs : 0 ∉ s) : Returns (strlen (cstr s)) s.length := by
  have := strlenLoop_ret s hs [] (s ++ [0]).length (by simp)
  unfold strlen cstr
  simpa using this

theorem strcmpLoop_ret (a : List UInt8) (ha : 0 ∉ a) : ∀ (b : List UInt8) (_ : 0 ∉ b) (h : List UInt8) (r : Nat), a.length < r →
    ∃ d : Int, Returns (strcmpLoop (Buf.ofList (h ++ (a ++ [0]))) (Buf.ofList (h ++ (b ++ [0]))) r h.length) d ∧ (d = 0 ↔ a = b) := by
  have sub : ∀ x y : UInt8, x ≠ y → ((x.toNat : Int) - y.toNat) ≠ 0 := by
    intro x y h e; exact h (UInt8.toNat.inj (by omega))
  induction a with
  | nil =>
    intro b hb h r hr
    obtain ⟨r, rfl⟩ : ∃ r', r = r' + 1 := ⟨r - 1, by simp at hr; omega⟩
    unfold strcmpLoop
    cases b with
    | nil => exact ⟨0, (Leads.bind (rd_at rfl)).ret ((Leads.bind (rd_at rfl)).ret ((Leads.brT rfl).ret ((Leads.brT rfl).ret (Kat.ret _)))), by simp⟩
    | cons y b =>
      have hy : (0 : UInt8) ≠ y := fun e => hb (by simp [e])
      refine ⟨_, (Leads.bind (rd_at rfl)).ret ((Leads.bind (rd_at (x := y) rfl)).ret ((Leads.brF ?_).ret (Kat.ret _))), ?_⟩
      · simpa using hy
      · simpa using sub 0 y hy
  | cons x a ih =>
    intro b hb h r hr
    obtain ⟨r, rfl⟩ : ∃ r', r = r' + 1 := ⟨r - 1, by simp at hr; omega⟩
    have hx : x ≠ 0 := fun e => ha (by simp [e])
    unfold strcmpLoop
    cases b with
    | nil =>
      refine ⟨_, (Leads.bind (rd_at rfl)).ret ((Leads.bind (rd_at rfl)).ret ((Leads.brF ?_).ret (Kat.ret _))), ?_⟩
      · simpa using hx
      · simpa using sub x 0 hx
    | cons y b =>
      by_cases hxy : x = y
      · subst hxy
        obtain ⟨d, hd, hd'⟩ := ih (fun e => ha (by simp [e])) b (fun e => hb (by simp [e])) (h ++ [x]) r (by simp at hr; omega)
        refine ⟨d, (Leads.bind (rd_at (x := x) rfl)).ret ((Leads.bind (rd_at (x := x) rfl)).ret ((Leads.brT (by simp)).ret ((Leads.brF (by simpa using hx)).ret ?_))), by simpa using hd'⟩
        simpa using hd
      · refine ⟨_, (Leads.bind (rd_at (x := x) rfl)).ret ((Leads.bind (rd_at (x := y) rfl)).ret ((Leads.brF (by simpa using hxy)).ret (Kat.ret _))), ?_⟩
        simpa [hxy] using sub x y hxy

theorem lit_eq (s : String) : lit s = cstr (ascii s) := rfl

theorem strcmp_ret {a : List UInt8} (ha : 0 ∉ a) (s : String) (hs : 0 ∉ ascii s) : ∃ d : Int, Returns (strcmp (cstr a) (lit s)) d ∧ (d = 0 ↔ a = ascii s) := by
  obtain ⟨d, h, h'⟩ := strcmpLoop_ret a ha (ascii s) hs [] (a ++ [0]).length (by simp)
  refine ⟨d, ?_, h'⟩
  rw [lit_eq]
  unfold strcmp cstr
  simpa using h

/-! ## Hexadecimal arguments -/

/-- The value of `decode_hex_char`. -/
def hexv (c : UInt8) : UInt8 := if 48 ≤ c ∧ c ≤ 57 then c - 48 else if 65 ≤ c ∧ c ≤ 70 then 10 + (c - 65) else if 97 ≤ c ∧ c ≤ 102 then 10 + (c - 97) else 0xFF

theorem andM_ret (a b : Bool) : Returns (andM a b) (a && b) := by
  unfold andM
  cases a
  · exact (Leads.brF rfl).ret (Kat.ret _)
  · exact (Leads.brT rfl).ret (Kat.ret _)

theorem orM_ret (a b : Bool) : Returns (orM a b) (a || b) := by
  unfold orM
  cases a
  · exact (Leads.brF rfl).ret (Kat.ret _)
  · exact (Leads.brT rfl).ret (Kat.ret _)

theorem br_ret {α : Type} {c : Bool} {p q : M α} {a : α} (h : c = true → Returns p a) (h' : c = false → Returns q a) : Returns (branch c p q) a := by
  cases c
  · exact (Leads.brF rfl).ret (h' rfl)
  · exact (Leads.brT rfl).ret (h rfl)

theorem char_ret (c : UInt8) : Returns (decode_hex_char c) (hexv c) := by
  unfold decode_hex_char hexv
  refine (Leads.bind (andM_ret _ _)).ret (br_ret (fun h => ?_) fun h => ?_)
  · rw [if_pos (by simpa using h)]; exact Kat.ret _
  · rw [if_neg (by simpa using h)]
    refine (Leads.bind (andM_ret _ _)).ret (br_ret (fun h => ?_) fun h => ?_)
    · rw [if_pos (by simpa using h)]; exact Kat.ret _
    · rw [if_neg (by simpa using h)]
      refine (Leads.bind (andM_ret _ _)).ret (br_ret (fun h => ?_) fun h => ?_)
      · rw [if_pos (by simpa using h)]; exact Kat.ret _
      · rw [if_neg (by simpa using h)]; exact Kat.ret _

instance (a : UInt8) (x : Nat) : Decidable (IsHexDigit a x) := by unfold IsHexDigit; infer_instance

theorem hexv_table : ∀ n : Fin 256, ∀ x : Fin 16, (IsHexDigit (UInt8.ofNat n.val) x.val ↔ hexv (UInt8.ofNat n.val) = UInt8.ofNat x.val) := by decide +kernel
theorem hexv_other : ∀ n : Fin 256, hexv (UInt8.ofNat n.val) = 0xFF ∨ ∃ x : Fin 16, hexv (UInt8.ofNat n.val) = UInt8.ofNat x.val := by decide +kernel

theorem hexv_digit {c : UInt8} {x : Nat} : IsHexDigit c x ↔ x < 16 ∧ hexv c = UInt8.ofNat x := by
  have e : UInt8.ofNat c.toNat = c := by simp
  constructor
  · intro h
    have := (hexv_table ⟨c.toNat, c.toNat_lt⟩ ⟨x, h.1⟩).1 (by simpa only [e] using h)
    exact ⟨h.1, by simpa only [e] using this⟩
  · rintro ⟨h, h'⟩
    have := (hexv_table ⟨c.toNat, c.toNat_lt⟩ ⟨x, h⟩).2 (by simpa only [e] using h')
    simpa only [e] using this

theorem hexv_bad {c : UInt8} : hexv c = 0xFF ↔ ∀ x, ¬ IsHexDigit c x := by
  have e : UInt8.ofNat c.toNat = c := by simp
  constructor
  · intro h x hx
    have h2 := hexv_digit.1 hx
    have : ∀ x : Fin 16, (0xFF : UInt8) ≠ UInt8.ofNat x.val := by decide +kernel
    exact this ⟨x, h2.1⟩ (h.symm.trans h2.2)
  · intro h
    rcases hexv_other ⟨c.toNat, c.toNat_lt⟩ with h' | ⟨x, h'⟩
    · simpa only [e] using h'
    · exact absurd (hexv_digit.2 ⟨x.2, by simpa only [e] using h'⟩) (h x.val)

theorem hex_join : ∀ x y : Fin 16, (UInt8.ofNat x.val <<< 4) ||| UInt8.ofNat y.val = UInt8.ofNat (16 * x.val + y.val) := by decide +kernel

/-- A buffer of which the first bytes are known and the others have not been written. -/
def part (pre : List UInt8) (r : Nat) : Buf UInt8 := (pre.map some ++ List.replicate r none).toArray

theorem part_wr (pre : List UInt8) (r : Nat) (v : UInt8) : Returns (wr (part pre (r + 1)) pre.length v) (part (pre ++ [v]) r) := by
  refine ⟨[.st pre.length], ?_⟩
  unfold wr
  have : pre.length < (part pre (r + 1)).size := by simp [part]
  simp only [this, ↓reduceIte]
  congr 2
  unfold part
  rw [List.setIfInBounds_toArray]
  congr 1
  rw [List.set_append_right _ _ (by simp)]
  simp [List.replicate_succ]

theorem part_full (pre : List UInt8) : part pre 0 = Buf.ofList pre := by simp [part, Buf.ofList]

theorem part_empty (n : Nat) : part [] n = Buf.uninit UInt8 n := by simp [part, Buf.uninit]

theorem spells_length {t bs : List UInt8} (h : Spells t bs) : t.length = 2 * bs.length := by
  induction h with
  | nil => rfl
  | cons _ _ _ ih => simp [ih]; omega

theorem decodeLoop_ret : ∀ (r : Nat) (t h pre : List UInt8) (off : Nat), t.length = 2 * r → h.length = off + 2 * pre.length →
    (∃ bs, bs.length = r ∧ Spells t bs ∧ Returns (decodeLoop (Buf.ofList (h ++ (t ++ [0]))) off r pre.length (part pre r)) (0, Buf.ofList (pre ++ bs))) ∨
    ((¬ ∃ bs, Spells t bs) ∧ ∃ out, Returns (decodeLoop (Buf.ofList (h ++ (t ++ [0]))) off r pre.length (part pre r)) (1, out)) := by
  intro r
  induction r with
  | zero =>
    intro t h pre off ht hh
    obtain rfl : t = [] := List.length_eq_zero_iff.1 (by omega)
    refine Or.inl ⟨[], rfl, .nil, ?_⟩
    unfold decodeLoop
    rw [part_full, List.append_nil]
    exact (Leads.bind (a := ()) ⟨_, rfl⟩).ret (Kat.ret _)
  | succ r ih =>
    intro t h pre off ht hh
    match t, ht with
    | [], ht => simp at ht
    | [_], ht => simp at ht; omega
    | a :: b :: t, ht =>
      have main : ∀ {res : Int × Buf UInt8}, Returns (branch (hexv a == 0xFF || hexv b == 0xFF) (pure ((1 : Int), part pre (r + 1))) (do
          let out ← wr (part pre (r + 1)) pre.length ((hexv a <<< 4) ||| hexv b)
          decodeLoop (Buf.ofList (h ++ (a :: b :: t ++ [0]))) off r (pre.length + 1) out)) res →
          Returns (decodeLoop (Buf.ofList (h ++ (a :: b :: t ++ [0]))) off (r + 1) pre.length (part pre (r + 1))) res := by
        intro res hres
        rw [decodeLoop]
        refine (Leads.bind (a := ()) ⟨_, rfl⟩).ret ?_
        refine (Leads.bind (rd_at (x := a) hh.symm)).ret ((Leads.bind (char_ret a)).ret ?_)
        have h1 : Returns (rd (Buf.ofList (h ++ (a :: b :: t ++ [0]))) (off + 2 * pre.length + 1)) b := by
          have := rd_at (h := h ++ [a]) (t := t ++ [0]) (x := b) (i := off + 2 * pre.length + 1) (by simp; omega)
          simpa using this
        exact (Leads.bind h1).ret ((Leads.bind (char_ret b)).ret ((Leads.bind (orM_ret _ _)).ret hres))
      by_cases hbad : hexv a = 0xFF ∨ hexv b = 0xFF
      · right
        refine ⟨?_, _, main ((Leads.brT (by simpa using hbad)).ret (Kat.ret _))⟩
        rintro ⟨bs, hs⟩
        cases hs with
        | cons ha hb _ =>
          rcases hbad with h' | h'
          · exact hexv_bad.1 h' _ ha
          · exact hexv_bad.1 h' _ hb
      · have hna : ¬ ∀ x, ¬ IsHexDigit a x := fun e => hbad (Or.inl (hexv_bad.2 e))
        have hnb : ¬ ∀ x, ¬ IsHexDigit b x := fun e => hbad (Or.inr (hexv_bad.2 e))
        push Not at hna hnb
        obtain ⟨x, hx⟩ := hna; obtain ⟨y, hy⟩ := hnb
        have ex := hexv_digit.1 hx; have ey := hexv_digit.1 hy
        have ev : (hexv a <<< 4) ||| hexv b = UInt8.ofNat (16 * x + y) := by rw [ex.2, ey.2]; exact hex_join ⟨x, ex.1⟩ ⟨y, ey.1⟩
        have step : ∀ {res}, Returns (decodeLoop (Buf.ofList (h ++ (a :: b :: t ++ [0]))) off r (pre.length + 1) (part (pre ++ [UInt8.ofNat (16 * x + y)]) r)) res →
            Returns (decodeLoop (Buf.ofList (h ++ (a :: b :: t ++ [0]))) off (r + 1) pre.length (part pre (r + 1))) res := by
          intro res hres
          refine main ((Leads.brF (by simpa using hbad)).ret ?_)
          rw [ev]
          exact (Leads.bind (part_wr _ _ _)).ret hres
        have := ih t (h ++ [a, b]) (pre ++ [UInt8.ofNat (16 * x + y)]) off (by simp at ht; omega) (by simp; omega)
        simp only [List.length_append, List.length_singleton, List.append_assoc, List.cons_append, List.nil_append] at this
        rcases this with ⟨bs, hl, hsp, hr⟩ | ⟨hn, out, hr⟩
        · refine Or.inl ⟨UInt8.ofNat (16 * x + y) :: bs, by simp [hl], .cons hx hy hsp, step ?_⟩
          simpa using hr
        · refine Or.inr ⟨?_, out, step (by simpa using hr)⟩
          rintro ⟨bs, hs⟩
          cases hs with
          | cons _ _ hs => exact hn ⟨_, hs⟩

theorem seg_cstr {s : List UInt8} : Seg (cstr s) 0 s.length fun i => s.getD i 0 := by
  intro i hi
  simp only [cstr, Buf.ofList]
  rw [List.getElem?_toArray, List.map_append, List.getElem?_append_left (by simpa using hi)]
  simp [hi]

theorem decode_ret {name : String} (hname : 0 ∉ ascii name) {a : List UInt8} (ha : 0 ∉ a) (n : Nat) :
    (∃ bs, bs.length = n ∧ NamedHex name bs a ∧ Returns (decode_hex (lit name) (Buf.uninit UInt8 n) n (cstr a)) (0, Buf.ofList bs)) ∨
    ((¬ ∃ bs, bs.length = n ∧ NamedHex name bs a) ∧ ∃ out, Returns (decode_hex (lit name) (Buf.uninit UInt8 n) n (cstr a)) (1, out)) := by
  rw [lit_eq]
  generalize hP : ascii name = P at *
  have pre : ∀ bs, NamedHex name bs a → ∃ t, a = P ++ 61 :: t ∧ Spells t bs := by
    rintro bs ⟨t, h, hs⟩
    refine ⟨t, ?_, hs⟩
    rw [h, hP]; simp [ascii]
  by_cases h1 : a.length < P.length + 1
  · refine Or.inr ⟨?_, _, by unfold decode_hex; exact (Leads.bind (strlen_ret ha)).ret ((Leads.bind (strlen_ret hname)).ret ((Leads.bind ((Leads.brT (by simpa using h1)).ret (Kat.ret _))).ret ((Leads.brT rfl).ret (Kat.ret _))))⟩
    rintro ⟨bs, _, hb⟩
    obtain ⟨t, e, _⟩ := pre bs hb
    rw [e] at h1; simp at h1
  · have hle : P.length ≤ a.length := by omega
    obtain ⟨d, hd, hd'⟩ := ret_of_post (memcmp_spec (seg_cstr (s := P)) (fun i hi => seg_cstr (s := a) i (Nat.lt_of_lt_of_le hi hle)))
    by_cases h2 : d = 0
    · have hpre : a.take P.length = P := by
        apply List.ext_getElem
        · simp; omega
        · intro i h1 h2
          have := hd'.1 ‹_› i h2
          rw [List.getElem_take]
          simpa [List.getD_eq_getElem?_getD, h2, Nat.lt_of_lt_of_le h2 hle] using this.symm
      obtain ⟨e, t, hat⟩ : ∃ e t, a = P ++ e :: t := by
        have h3 := List.take_append_drop P.length a
        rw [hpre] at h3
        cases hdr : a.drop P.length with
        | nil => rw [List.drop_eq_nil_iff] at hdr; omega
        | cons e t => exact ⟨e, t, by rw [← h3, hdr]⟩
      have hrd : Returns (rd (cstr a) P.length) e := by
        unfold cstr; rw [hat, List.append_assoc]; exact rd_at rfl
      have e1 : ∀ {res : Int × Buf UInt8}, Returns (branch (decide (e ≠ 61)) (pure (1, Buf.uninit UInt8 n)) (branch (decide (a.length - (P.length + 1) ≠ 2 * n)) (pure (1, Buf.uninit UInt8 n)) (decodeLoop (cstr a) (P.length + 1) n 0 (Buf.uninit UInt8 n)))) res → Returns (decode_hex (cstr P) (Buf.uninit UInt8 n) n (cstr a)) res := fun hres => by
        unfold decode_hex
        refine (Leads.bind (strlen_ret ha)).ret ((Leads.bind (strlen_ret hname)).ret ((Leads.bind (a := decide (e ≠ 61)) ?_).ret hres))
        refine (Leads.brF (by simpa using h1)).ret ((Leads.bind hd).ret ((Leads.brF ?_).ret ((Leads.bind hrd).ret (Kat.ret _))))
        simpa using h2
      by_cases h4 : e = 61
      · by_cases h5 : a.length - (P.length + 1) = 2 * n
        · have hlen : t.length = 2 * n := by rw [hat] at h5; simp at h5; omega
          have e2 : ∀ {res}, Returns (decodeLoop (cstr a) (P.length + 1) n 0 (Buf.uninit UInt8 n)) res → Returns (decode_hex (cstr P) (Buf.uninit UInt8 n) n (cstr a)) res := fun hres => e1 ((Leads.brF (by simpa using h4)).ret ((Leads.brF (by simpa using h5)).ret hres))
          have := decodeLoop_ret n t (P ++ [61]) [] (P.length + 1) hlen (by simp)
          rw [part_empty, List.length_nil] at this
          have eq : cstr a = Buf.ofList (P ++ [61] ++ (t ++ [0])) := by unfold cstr; rw [hat, h4]; simp
          rw [← eq] at this
          rcases this with ⟨bs, hl, hsp, hr⟩ | ⟨hn, out, hr⟩
          · refine Or.inl ⟨bs, hl, ⟨t, ?_, hsp⟩, e2 (by simpa using hr)⟩
            rw [hP, hat, h4]; simp [ascii]
          · refine Or.inr ⟨?_, out, e2 hr⟩
            rintro ⟨bs, _, hb⟩
            obtain ⟨t', e', hs⟩ := pre bs hb
            rw [hat, h4] at e'
            have : t = t' := by simpa using e'
            exact hn ⟨bs, this ▸ hs⟩
        · refine Or.inr ⟨?_, _, e1 ((Leads.brF (by simpa using h4)).ret ((Leads.brT (by simpa using h5)).ret (Kat.ret _)))⟩
          rintro ⟨bs, hl, hb⟩
          obtain ⟨t', e', hs⟩ := pre bs hb
          have := spells_length hs
          rw [e'] at h5; simp at h5; omega
      · refine Or.inr ⟨?_, _, e1 ((Leads.brT (by simpa using h4)).ret (Kat.ret _))⟩
        rintro ⟨bs, hl, hb⟩
        obtain ⟨t', e', hs⟩ := pre bs hb
        rw [hat] at e'
        have : e = 61 ∧ t = t' := by simpa using e'
        exact h4 this.1
    · refine Or.inr ⟨?_, _, by unfold decode_hex; exact (Leads.bind (strlen_ret ha)).ret ((Leads.bind (strlen_ret hname)).ret ((Leads.bind ((Leads.brF (by simpa using h1)).ret ((Leads.bind hd).ret ((Leads.brT (by simpa using h2)).ret (Kat.ret _))))).ret ((Leads.brT rfl).ret (Kat.ret _))))⟩
      rintro ⟨bs, _, hb⟩
      obtain ⟨t, e, _⟩ := pre bs hb
      refine h2 (hd'.2 fun j hj => ?_)
      rw [e, List.getD_append _ _ _ _ hj]

/-! ## The command line -/

theorem hexArgument_leads {name : String} (hname : 0 ∉ ascii name) {args : List (List UInt8)} (ha : ∀ a ∈ args, 0 ∉ a) (n : Nat) (usage : M (Int × String)) (k : Buf UInt8 → List (Buf UInt8) → M (Int × String)) :
    (∃ a rest bs, args = a :: rest ∧ bs.length = n ∧ NamedHex name bs a ∧ Leads (hexArgument name n (args.map cstr) usage k) (k (Buf.ofList bs) (rest.map cstr))) ∨
    ((∀ a rest bs, args = a :: rest → bs.length = n → ¬ NamedHex name bs a) ∧ Leads (hexArgument name n (args.map cstr) usage k) usage) := by
  cases args with
  | nil => exact Or.inr ⟨fun _ _ _ e => by simp at e, Leads.brT rfl⟩
  | cons a rest =>
    rcases decode_ret hname (ha a (by simp)) n with ⟨bs, hl, hn, hr⟩ | ⟨hn, out, hr⟩
    · exact Or.inl ⟨a, rest, bs, rfl, hl, hn, (Leads.brF rfl).trans ((Leads.bind hr).trans (Leads.brF rfl))⟩
    · refine Or.inr ⟨fun a' rest' bs e hl h => ?_, (Leads.brF rfl).trans ((Leads.bind hr).trans (Leads.brT rfl))⟩
      obtain ⟨rfl, rfl⟩ : a = a' ∧ rest = rest' := by simpa using e
      exact hn ⟨bs, hl, h⟩

/-- What is done for a request. -/
def perform (bk : Native.Backend) (K fuel : Nat) : AcvpRequest → M (Int × String)
  | .encaps ek m => do let out ← encapsulation bk K fuel (Buf.ofList ek) (Buf.ofList m); pure (0, out)
  | .decaps dk c => do let out ← decapsulation bk K fuel (Buf.ofList dk) (Buf.ofList c); pure (0, out)
  | .keyGen z d => do let out ← keyGen bk K fuel (Buf.ofList z) (Buf.ofList d); pure (0, out)

theorem next_leads (args : List (List UInt8)) (usage : M (Int × String)) (k : Buf UInt8 → List (Buf UInt8) → M (Int × String)) :
    (args = [] ∧ Leads (next (args.map cstr) usage k) usage) ∨ ∃ a rest, args = a :: rest ∧ Leads (next (args.map cstr) usage k) (k (cstr a) (rest.map cstr)) := by
  cases args with
  | nil => exact Or.inl ⟨rfl, Leads.brT rfl⟩
  | cons a rest => exact Or.inr ⟨a, rest, rfl, Leads.brF rfl⟩

theorem w_encapDecap : 0 ∉ ascii "encapDecap" := by decide +kernel
theorem w_keyGen : 0 ∉ ascii "keyGen" := by decide +kernel
theorem w_AFT : 0 ∉ ascii "AFT" := by decide +kernel
theorem w_VAL : 0 ∉ ascii "VAL" := by decide +kernel
theorem w_enc : 0 ∉ ascii "encapsulation" := by decide +kernel
theorem w_dec : 0 ∉ ascii "decapsulation" := by decide +kernel
theorem n1 : ascii "keyGen" ≠ ascii "encapDecap" := by decide +kernel
theorem n2 : ascii "VAL" ≠ ascii "AFT" := by decide +kernel
theorem n3 : ascii "decapsulation" ≠ ascii "encapsulation" := by decide +kernel

attribute [local irreducible] ascii


/-- The two outcomes of reading a command line: the arguments ask for something and it is done, or they do not and the exit code is 1. -/
def Parsed (bk : Native.Backend) (K fuel : Nat) (args : List (List UInt8)) (p : M (Int × String)) : Prop :=
  (∃ r, Asks K args r ∧ Leads p (perform bk K fuel r)) ∨ ((¬ ∃ r, Asks K args r) ∧ Leads p (pure (1, "")))

theorem Parsed.of_leads {bk : Native.Backend} {K fuel : Nat} {args : List (List UInt8)} {p q : M (Int × String)} (h : Leads p q) (hq : Parsed bk K fuel args q) : Parsed bk K fuel args p := by
  rcases hq with ⟨r, h1, h2⟩ | ⟨h1, h2⟩
  · exact Or.inl ⟨r, h1, h.trans h2⟩
  · exact Or.inr ⟨h1, h.trans h2⟩

theorem Leads.rfl' {α : Type} (p : M α) : Leads p p := ⟨[], by cases p <;> rfl⟩

theorem Parsed.usage {bk : Native.Backend} {K fuel : Nat} {args : List (List UInt8)} (h : ¬ ∃ r, Asks K args r) : Parsed bk K fuel args (pure (1, "")) := Or.inr ⟨h, Leads.rfl' _⟩

theorem two_args {bk : Native.Backend} {K fuel : Nat} {n1 n2 : String} (h1 : 0 ∉ ascii n1) (h2 : 0 ∉ ascii n2) {l1 l2 : Nat} {full args : List (List UInt8)} (ha : ∀ a ∈ args, 0 ∉ a)
    (mk : List UInt8 → List UInt8 → AcvpRequest) (act : Buf UInt8 → Buf UInt8 → M (Int × String)) (hact : ∀ x y, act (Buf.ofList x) (Buf.ofList y) = perform bk K fuel (mk x y))
    (hmk : ∀ r, Asks K full r → ∃ a b rest x y, args = a :: b :: rest ∧ x.length = l1 ∧ y.length = l2 ∧ NamedHex n1 x a ∧ NamedHex n2 y b)
    (hmk' : ∀ a b rest x y, args = a :: b :: rest → x.length = l1 → y.length = l2 → NamedHex n1 x a → NamedHex n2 y b → Asks K full (mk x y)) :
    Parsed bk K fuel full (hexArgument n1 l1 (args.map cstr) (pure (1, "")) fun x argv => hexArgument n2 l2 argv (pure (1, "")) fun y _ => act x y) := by
  rcases hexArgument_leads h1 ha l1 (pure (1, "")) (fun x argv => hexArgument n2 l2 argv (pure (1, "")) fun y _ => act x y) with ⟨a, rest, x, e, hl, hx, h⟩ | ⟨hn, h⟩
  · refine Parsed.of_leads h ?_
    rcases hexArgument_leads h2 (args := rest) (fun a' h' => ha a' (by rw [e]; simp [h'])) l2 (pure (1, "")) (fun y _ => act (Buf.ofList x) y) with ⟨b, rest', y, e', hl', hy, h'⟩ | ⟨hn, h'⟩
    · exact Or.inl ⟨mk x y, hmk' a b rest' x y (by rw [e, e']) hl hl' hx hy, hact x y ▸ h'⟩
    · refine Or.inr ⟨?_, h'⟩
      rintro ⟨r, hr⟩
      obtain ⟨a', b, rest', x', y, e', _, hy, _, hb⟩ := hmk r hr
      rw [e] at e'
      exact hn b rest' y (by simpa using (List.cons.inj e').2) hy hb
  · refine Or.inr ⟨?_, h⟩
    rintro ⟨r, hr⟩
    obtain ⟨a', b, rest', x', y, e', hx, _, ha', _⟩ := hmk r hr
    exact hn a' _ x' e' hx ha'

theorem switch_parsed {bk : Native.Backend} {K : Nat} (fuel : Nat) (e t : Bool) {args : List (List UInt8)} (ha : ∀ a ∈ args, 0 ∉ a) :
    Parsed bk K fuel ((if e then ascii "encapDecap" else ascii "keyGen") :: (if t then ascii "AFT" else ascii "VAL") :: args) (switchMode bk K fuel e t (args.map cstr)) := by
  have hpk : MLKEM_INDCPA_PUBLICKEYBYTES K = 384 * K + 32 := Kat.pk_bytes K
  have hsk : MLKEM_SECRETKEYBYTES K = 768 * K + 96 := Kat.sk_bytes K
  have hct : MLKEM_CIPHERTEXTBYTES K = 32 * (d_u K * K + d_v K) := (ctLen_eq K).symm
  have a1 := n1; have a2 := n2; have a3 := n3
  unfold switchMode
  cases e
  · refine Parsed.of_leads (Leads.brF rfl) ?_
    cases t
    · refine Parsed.of_leads (Leads.brT rfl) (Parsed.usage ?_)
      rintro ⟨r, hr⟩
      cases r <;> obtain ⟨_, _, a, b, rest, h, _⟩ := hr <;> simp [a1, a2, a1.symm, a2.symm] at h
    · refine Parsed.of_leads (Leads.brF rfl) ?_
      refine two_args (by decide +kernel) (by decide +kernel) ha AcvpRequest.keyGen (fun z d => do let out ← keyGen bk K fuel z d; pure (0, out)) (fun _ _ => rfl) ?_ ?_
      · intro r hr
        cases r with
        | encaps => obtain ⟨_, _, a, b, rest, h, _⟩ := hr; simp [a1] at h
        | decaps => obtain ⟨_, _, a, b, rest, h, _⟩ := hr; simp [a1] at h
        | keyGen z d =>
          obtain ⟨h1, h2, a, b, rest, h, h3, h4⟩ := hr
          exact ⟨a, b, rest, z, d, by simpa using h, h1, h2, h3, h4⟩
      · intro a b rest x y h h1 h2 h3 h4
        exact ⟨h1, h2, a, b, rest, by simp [h], h3, h4⟩
  · refine Parsed.of_leads (Leads.brT rfl) ?_
    rcases next_leads args (pure (1, "")) (fun function argv => do
      let enc ← strcmp function (lit "encapsulation")
      branch (decide (enc = 0))
        (branch (!t) (pure (1, "")) (
          hexArgument "ek" (MLKEM_INDCPA_PUBLICKEYBYTES K) argv (pure (1, "")) fun ek argv =>
          hexArgument "m" 32 argv (pure (1, "")) fun m _ => do
            let out ← encapsulation bk K fuel ek m
            pure (0, out)))
        (do
          let dec ← strcmp function (lit "decapsulation")
          branch (decide (dec = 0))
            (branch t (pure (1, "")) (
              hexArgument "dk" (MLKEM_SECRETKEYBYTES K) argv (pure (1, "")) fun dk argv =>
              hexArgument "c" (MLKEM_CIPHERTEXTBYTES K) argv (pure (1, "")) fun c _ => do
                let out ← decapsulation bk K fuel dk c
                pure (0, out)))
            (pure (1, "")))) with ⟨rfl, h⟩ | ⟨f, rest, rfl, h⟩
    · refine Parsed.of_leads h (Parsed.usage ?_)
      rintro ⟨r, hr⟩
      cases r <;> obtain ⟨_, _, a, b, rest, h, _⟩ := hr <;> simp [a1.symm] at h
    · refine Parsed.of_leads h ?_
      have hf := ha f (by simp)
      have ha' : ∀ a ∈ rest, 0 ∉ a := fun a h => ha a (by simp [h])
      obtain ⟨d, hd, hd'⟩ := strcmp_ret hf "encapsulation" w_enc
      refine Parsed.of_leads (Leads.bind hd) ?_
      by_cases c1 : f = ascii "encapsulation"
      · refine Parsed.of_leads (Leads.brT (by simpa using hd'.2 c1)) ?_
        cases t
        · refine Parsed.of_leads (Leads.brT rfl) (Parsed.usage ?_)
          rintro ⟨r, hr⟩
          cases r <;> obtain ⟨_, _, a, b, rest, h, _⟩ := hr <;> simp [a1.symm, a2, a3.symm, c1] at h
        · refine Parsed.of_leads (Leads.brF rfl) ?_
          refine two_args (by decide +kernel) (by decide +kernel) ha' AcvpRequest.encaps (fun ek m => do let out ← encapsulation bk K fuel ek m; pure (0, out)) (fun _ _ => rfl) ?_ ?_
          · intro r hr
            cases r with
            | encaps ek m =>
              obtain ⟨h1, h2, a, b, rest, h, h3, h4⟩ := hr
              exact ⟨a, b, rest, ek, m, by simpa [c1] using h, h1.trans hpk.symm, h2, h3, h4⟩
            | decaps => obtain ⟨_, _, a, b, rest, h, _⟩ := hr; simp [a2.symm] at h
            | keyGen => obtain ⟨_, _, a, b, rest, h, _⟩ := hr; simp [a1.symm] at h
          · intro a b rest x y h h1 h2 h3 h4
            exact ⟨h1.trans hpk, h2, a, b, rest, by simp [h, c1], h3, h4⟩
      · refine Parsed.of_leads (Leads.brF (by simpa using fun e => c1 (hd'.1 e))) ?_
        obtain ⟨d2, hd2, hd2'⟩ := strcmp_ret hf "decapsulation" w_dec
        refine Parsed.of_leads (Leads.bind hd2) ?_
        by_cases c2 : f = ascii "decapsulation"
        · refine Parsed.of_leads (Leads.brT (by simpa using hd2'.2 c2)) ?_
          cases t
          · refine Parsed.of_leads (Leads.brF rfl) ?_
            refine two_args (by decide +kernel) (by decide +kernel) ha' AcvpRequest.decaps (fun dk c => do let out ← decapsulation bk K fuel dk c; pure (0, out)) (fun _ _ => rfl) ?_ ?_
            · intro r hr
              cases r with
              | decaps dk c =>
                obtain ⟨h1, h2, a, b, rest, h, h3, h4⟩ := hr
                exact ⟨a, b, rest, dk, c, by simpa [c2] using h, h1.trans hsk.symm, h2.trans hct.symm, h3, h4⟩
              | encaps => obtain ⟨_, _, a, b, rest, h, _⟩ := hr; simp [a2] at h
              | keyGen => obtain ⟨_, _, a, b, rest, h, _⟩ := hr; simp [a1.symm] at h
            · intro a b rest x y h h1 h2 h3 h4
              exact ⟨h1.trans hsk, h2.trans hct, a, b, rest, by simp [h, c2], h3, h4⟩
          · refine Parsed.of_leads (Leads.brT rfl) (Parsed.usage ?_)
            rintro ⟨r, hr⟩
            cases r <;> obtain ⟨_, _, a, b, rest, h, _⟩ := hr <;> simp [a1.symm, a2.symm, a3, c2] at h
        · refine Parsed.of_leads (Leads.brF (by simpa using fun e => c2 (hd2'.1 e))) (Parsed.usage ?_)
          rintro ⟨r, hr⟩
          cases r <;> obtain ⟨_, _, a, b, rest, h, _⟩ := hr <;> simp [a1.symm, c1, c2] at h

theorem type_parsed {bk : Native.Backend} {K : Nat} (fuel : Nat) (e : Bool) {args : List (List UInt8)} (ha : ∀ a ∈ args, 0 ∉ a) :
    Parsed bk K fuel ((if e then ascii "encapDecap" else ascii "keyGen") :: args) (parseType bk K fuel e (args.map cstr)) := by
  unfold parseType
  rcases next_leads args (pure (1, "")) (fun type argv => do
    let aft ← strcmp type (lit "AFT")
    branch (decide (aft = 0)) (switchMode bk K fuel e true argv) (do
      let val ← strcmp type (lit "VAL")
      branch (decide (val = 0)) (switchMode bk K fuel e false argv) (pure (1, "")))) with ⟨rfl, h⟩ | ⟨f, rest, rfl, h⟩
  · refine Parsed.of_leads h (Parsed.usage ?_)
    rintro ⟨r, hr⟩
    cases r <;> obtain ⟨_, _, a, b, rest, h, _⟩ := hr <;> simp at h
  · refine Parsed.of_leads h ?_
    have hf := ha f (by simp)
    have ha' : ∀ a ∈ rest, 0 ∉ a := fun a h => ha a (by simp [h])
    obtain ⟨d, hd, hd'⟩ := strcmp_ret hf "AFT" w_AFT
    refine Parsed.of_leads (Leads.bind hd) ?_
    by_cases c1 : f = ascii "AFT"
    · refine Parsed.of_leads (Leads.brT (by simpa using hd'.2 c1)) ?_
      have := switch_parsed (bk := bk) (K := K) fuel e true ha'
      rw [c1]; simpa using this
    · refine Parsed.of_leads (Leads.brF (by simpa using fun e => c1 (hd'.1 e))) ?_
      obtain ⟨d2, hd2, hd2'⟩ := strcmp_ret hf "VAL" w_VAL
      refine Parsed.of_leads (Leads.bind hd2) ?_
      by_cases c2 : f = ascii "VAL"
      · refine Parsed.of_leads (Leads.brT (by simpa using hd2'.2 c2)) ?_
        have := switch_parsed (bk := bk) (K := K) fuel e false ha'
        rw [c2]; simpa using this
      · refine Parsed.of_leads (Leads.brF (by simpa using fun e => c2 (hd2'.1 e))) (Parsed.usage ?_)
        rintro ⟨r, hr⟩
        cases r <;> obtain ⟨_, _, a, b, rest, h, _⟩ := hr <;> simp [c1, c2] at h

theorem main_parsed {bk : Native.Backend} {K : Nat} (fuel : Nat) (prog : List UInt8) {args : List (List UInt8)} (ha : ∀ a ∈ args, 0 ∉ a) :
    Parsed bk K fuel args (main bk K fuel (cstr prog :: args.map cstr)) := by
  unfold main
  refine Parsed.of_leads (Leads.brF rfl) ?_
  rcases next_leads args (pure (1, "")) (fun mode argv => do
    let encapDecap ← strcmp mode (lit "encapDecap")
    branch (decide (encapDecap = 0)) (parseType bk K fuel true argv) (do
      let keyGen ← strcmp mode (lit "keyGen")
      branch (decide (keyGen = 0)) (parseType bk K fuel false argv) (pure (1, "")))) with ⟨rfl, h⟩ | ⟨f, rest, rfl, h⟩
  · refine Parsed.of_leads h (Parsed.usage ?_)
    rintro ⟨r, hr⟩
    cases r <;> obtain ⟨_, _, a, b, rest, h, _⟩ := hr <;> simp at h
  · refine Parsed.of_leads h ?_
    have hf := ha f (by simp)
    have ha' : ∀ a ∈ rest, 0 ∉ a := fun a h => ha a (by simp [h])
    obtain ⟨d, hd, hd'⟩ := strcmp_ret hf "encapDecap" w_encapDecap
    refine Parsed.of_leads (Leads.bind hd) ?_
    by_cases c1 : f = ascii "encapDecap"
    · refine Parsed.of_leads (Leads.brT (by simpa using hd'.2 c1)) ?_
      have := type_parsed (bk := bk) (K := K) fuel true ha'
      rw [c1]; simpa using this
    · refine Parsed.of_leads (Leads.brF (by simpa using fun e => c1 (hd'.1 e))) ?_
      obtain ⟨d2, hd2, hd2'⟩ := strcmp_ret hf "keyGen" w_keyGen
      refine Parsed.of_leads (Leads.bind hd2) ?_
      by_cases c2 : f = ascii "keyGen"
      · refine Parsed.of_leads (Leads.brT (by simpa using hd2'.2 c2)) ?_
        have := type_parsed (bk := bk) (K := K) fuel false ha'
        rw [c2]; simpa using this
      · refine Parsed.of_leads (Leads.brF (by simpa using fun e => c2 (hd2'.1 e))) (Parsed.usage ?_)
        rintro ⟨r, hr⟩
        cases r <;> obtain ⟨_, _, a, b, rest, h, _⟩ := hr <;> simp [c1, c2] at h

/-! ## A command line asks for one thing -/

theorem digit_unique {a : UInt8} {x y : Nat} (h : IsHexDigit a x) (h' : IsHexDigit a y) : x = y := by
  have h1 := hexv_digit.1 h; have h2 := hexv_digit.1 h'
  have e := congrArg UInt8.toNat (h1.2.symm.trans h2.2)
  have := h1.1; have := h2.1
  simp only [UInt8.toNat_ofNat'] at e
  omega

theorem spells_unique {t bs bs' : List UInt8} (h : Spells t bs) (h' : Spells t bs') : bs = bs' := by
  induction h generalizing bs' with
  | nil => cases h'; rfl
  | cons ha hb _ ih =>
    cases h' with
    | cons ha' hb' h' => rw [digit_unique ha ha', digit_unique hb hb', ih h']

theorem named_unique {name : String} {a bs bs' : List UInt8} (h : NamedHex name bs a) (h' : NamedHex name bs' a) : bs = bs' := by
  obtain ⟨t, e, h⟩ := h; obtain ⟨t', e', h'⟩ := h'
  have : t = t' := List.append_cancel_left (e.symm.trans e')
  exact spells_unique h (this ▸ h')

theorem asks_unique {K : Nat} {args : List (List UInt8)} {r r' : AcvpRequest} (h : Asks K args r) (h' : Asks K args r') : r = r' := by
  have a1 := n1; have a2 := n2
  cases r <;> cases r' <;> obtain ⟨_, _, a, b, rest, e, ha, hb⟩ := h <;> obtain ⟨_, _, a', b', rest', e', ha', hb'⟩ := h' <;> rw [e] at e' <;>
    simp only [List.cons.injEq, a1, a2, a1.symm, a2.symm, false_and, and_false, true_and] at e' <;>
    (obtain ⟨rfl, rfl, rfl⟩ := e'; rw [named_unique ha ha', named_unique hb hb'])

/-! ## The answers -/

theorem printL {L : List UInt8} {n : Nat} (hn : L.length = n) (out S : String) : Returns (print_hex out S (Buf.ofList L) n) (out ++ hexLine S L) := by
  unfold print_hex
  refine Kat.seq (Kat.hexLoop (up := true) hn _) ?_
  have e : ∀ a b c d e : String, a ++ b ++ c ++ d ++ e = a ++ (b ++ c ++ d ++ e) := by intros; simp only [String.append_assoc]
  unfold hexLine
  rw [← e]; exact Kat.ret _

theorem print_uninit (n : Nat) (hn : n ≠ 0) (out S : String) : print_hex out S (Buf.uninit UInt8 n) n = .error .uninit := by
  obtain ⟨n, rfl⟩ := Nat.exists_eq_succ_of_ne_zero hn
  have h : rd (Buf.uninit UInt8 (n + 1)) 0 = .error .uninit := by
    have : (Buf.uninit UInt8 (n + 1))[0]? = some none := by simp [Buf.uninit]
    unfold rd; rw [this]; rfl
  unfold print_hex forN forFrom
  show M.bnd (M.bnd (M.emit (.br true)) fun _ => M.bnd (M.bnd (rd (Buf.uninit UInt8 (n + 1)) 0) _) _) _ = _
  rw [h]; rfl

attribute [local irreducible] hexLine print_hex memcpy

theorem copyDZ {d z : List UInt8} (hd : d.length = 32) (hz : z.length = 32) :
    ∃ b, Returns (memcpy (Buf.uninit UInt8 64) 0 (Buf.ofList d) 0 32) b ∧ Returns (memcpy b 32 (Buf.ofList z) 0 32) (Buf.ofList (d ++ z)) := by
  obtain ⟨b, hb, w⟩ := ret_of_post (memcpy_spec (dst := Buf.uninit UInt8 64) (dof := 0) (n := 32) (by simp [Buf.uninit]) (seg_ofList hd))
  have hs : b.size = 64 := by rw [w.1]; simp [Buf.uninit]
  obtain ⟨b', hb', w'⟩ := ret_of_post (memcpy_spec (dst := b) (dof := 32) (n := 32) (by omega) (seg_ofList hz))
  refine ⟨b, hb, ?_⟩
  have e : b' = Buf.ofList (d ++ z) := WrittenL.whole (b := Buf.uninit UInt8 64) (WrittenL.append (L := d) (L' := z) (by unfold WrittenL; rw [hd]; exact w) (by unfold WrittenL; rw [hz]; exact w') (by omega)) (by simp [Buf.uninit, hd, hz])
  rw [← e]; exact hb'

theorem perform_keyGen {bk : Native.Backend} (hb : KeepsContract bk) {K : Nat} (hK : IsParam K) (fuel : Nat) {z d : List UInt8} (hz : z.length = 32) (hd : d.length = 32) :
    Ends (perform bk K fuel (.keyGen z d)) ((acvpAnswer K (xofBytes fuel) (.keyGen z d)).map fun t => (0, t)) := by
  obtain ⟨b, h1, h2⟩ := copyDZ hd hz
  have hpk := Kat.pk_bytes K; have hsk := Kat.sk_bytes K
  have h3 := C62_keygen hb.choose_spec.choose_spec hK fuel d z hd hz (Buf.uninit UInt8 (MLKEM_PUBLICKEYBYTES K)) (Buf.uninit UInt8 (MLKEM_SECRETKEYBYTES K)) (by simp [Buf.uninit, hpk]) (by simp [Buf.uninit, hsk])
  show Ends (keyGen bk K fuel (Buf.ofList z) (Buf.ofList d) >>= fun out => pure ((0 : Int), out)) (((KeyGen_internal K (xofBytes fuel) d z).map fun p => hexLine "ek" p.1 ++ hexLine "dk" p.2).map fun t => ((0 : Int), t))
  unfold keyGen
  cases hkg : KeyGen_internal K (xofBytes fuel) d z with
  | none =>
    rw [hkg] at h3
    exact Kat.outBind (Kat.seqOut h1 (Kat.seqOut h2 (Kat.outBind h3)))
  | some p =>
    obtain ⟨ek, dk⟩ := p
    rw [hkg] at h3
    obtain ⟨g1, g2, _⟩ := Kat.keygen_good hz hkg
    refine Kat.seq (Kat.seq h1 (Kat.seq h2 (Kat.seq h3 (Kat.seq (printL (g1.trans hpk.symm) _ _) (printL (g2.trans hsk.symm) _ _))))) ?_
    rw [String.empty_append]; exact Kat.ret _

theorem perform_encaps {bk : Native.Backend} (hb : KeepsContract bk) {K : Nat} (hK : IsParam K) (fuel : Nat) {ek m : List UInt8} (hek : ek.length = pkLen K) (hm : m.length = 32) (hc : modulusCheck K ek) :
    Ends (perform bk K fuel (.encaps ek m)) ((acvpAnswer K (xofBytes fuel) (.encaps ek m)).map fun t => (0, t)) := by
  have hct := ctLen_eq K
  show Ends (encapsulation bk K fuel (Buf.ofList ek) (Buf.ofList m) >>= fun out => pure ((0 : Int), out)) (((Encaps_internal K (xofBytes fuel) ek m).map fun p => hexLine "c" p.2 ++ hexLine "k" p.1).map fun t => ((0 : Int), t))
  unfold encapsulation
  rcases Kat.enc_ends hb hK fuel hek hm hc (ct := Buf.uninit UInt8 (MLKEM_CIPHERTEXTBYTES K)) (ss := Buf.uninit UInt8 32) (by simp [Buf.uninit, hct]) (by simp [Buf.uninit]) with ⟨k, c, e, l1, l2, h⟩ | ⟨e, h⟩
  · rw [e]
    refine Kat.seq (Kat.seq h (Kat.seq (printL (l2.trans hct) _ _) (printL l1 _ _))) ?_
    rw [String.empty_append]; exact Kat.ret _
  · rw [e]; exact Kat.outBind (Kat.outBind h)

theorem perform_decaps {bk : Native.Backend} (hb : KeepsContract bk) {K : Nat} (hK : IsParam K) (fuel : Nat) {dk c : List UInt8} (hdk : dk.length = skLen K) (hc : c.length = ctLen K) (hh : hashCheck K dk) :
    Ends (perform bk K fuel (.decaps dk c)) ((acvpAnswer K (xofBytes fuel) (.decaps dk c)).map fun t => (0, t)) := by
  show Ends (decapsulation bk K fuel (Buf.ofList dk) (Buf.ofList c) >>= fun out => pure ((0 : Int), out)) (((Decaps_internal K (xofBytes fuel) dk c).map fun k => hexLine "k" k).map fun t => ((0 : Int), t))
  unfold decapsulation
  rcases Kat.dec_ends hb hK fuel hdk hc hh (ss := Buf.uninit UInt8 32) (by simp [Buf.uninit]) with ⟨k, e, l1, h⟩ | ⟨e, h⟩
  · rw [e]
    refine Kat.seq (Kat.seq h (printL l1 _ _)) ?_
    rw [String.empty_append]; exact Kat.ret _
  · rw [e]; exact Kat.outBind (Kat.outBind h)

theorem errBind {α β : Type} {p : M α} {f : α → M β} {e : Err} (h : p = .error e) : p >>= f = .error e := by rw [h]; rfl

theorem perform_bad {bk : Native.Backend} (hb : KeepsContract bk) {K : Nat} (hK : IsParam K) (fuel : Nat) {args : List (List UInt8)} {r : AcvpRequest} (hr : Asks K args r) (hv : ¬ acvpValid K r) : perform bk K fuel r = .error .uninit := by
  have hct := ctLen_eq K
  cases r with
  | encaps ek m =>
    obtain ⟨h1, h2, _⟩ := hr
    rcases Kat.enc_frame hb hK fuel ek m h1 h2 (Buf.uninit UInt8 (MLKEM_CIPHERTEXTBYTES K)) (Buf.uninit UInt8 32) (by simp [Buf.uninit, hct]) (by simp [Buf.uninit]) with ⟨hc, _⟩ | ⟨hc, _⟩ | ⟨_, h⟩
    · exact absurd hc hv
    · exact absurd hc hv
    · unfold perform encapsulation
      refine errBind ((Leads.bind h).err (errBind (print_uninit _ ?_ _ _)))
      rw [← hct]; unfold ctLen
      have : 0 < d_v K := by unfold d_v; split <;> omega
      omega
  | decaps dk c =>
    obtain ⟨h1, h2, _⟩ := hr
    rcases Kat.dec_frame hb hK fuel dk c h1 h2 (Buf.uninit UInt8 32) (by simp [Buf.uninit]) with ⟨hc, _⟩ | ⟨hc, _⟩ | ⟨_, h⟩
    · exact absurd hc hv
    · exact absurd hc hv
    · unfold perform decapsulation
      exact errBind ((Leads.bind h).err (print_uninit _ (by omega) _ _))
  | keyGen => exact absurd trivial hv

theorem Ends.of_leads {α : Type} {p q : M α} {o : Option α} (h : Leads p q) (hq : Ends q o) : Ends p o := by
  cases o with
  | none => exact h.out hq
  | some a => exact h.ret hq

end Acvp

/-! ## C70 -/

/-- **C70.** On every backend that keeps the contract: if the arguments ask for an encapsulation, a decapsulation or a key pair, and the key passes the check of FIPS 203, the program prints what FIPS 203
determines for the bytes that the arguments spell, and its exit code is 0 (unless the budget of the sampling loops ends). -/
theorem C70_answer {bk : Native.Backend} (hb : KeepsContract bk) {K : Nat} (hK : IsParam K) (fuel : Nat) (prog : List UInt8) (args : List (List UInt8)) (ha : ∀ a ∈ args, 0 ∉ a)
    (r : AcvpRequest) (hr : Asks K args r) (hv : acvpValid K r) :
    match acvpAnswer K (xofBytes fuel) r with
    | some text => Returns (Model.Acvp.main bk K fuel (cstr prog :: args.map cstr)) (0, text)
    | none => OutOfBudget (Model.Acvp.main bk K fuel (cstr prog :: args.map cstr)) := by
  have main : Ends (Model.Acvp.main bk K fuel (cstr prog :: args.map cstr)) ((acvpAnswer K (xofBytes fuel) r).map fun t => (0, t)) := by
    rcases Acvp.main_parsed (K := K) fuel prog ha with ⟨r', h', hl⟩ | ⟨hn, _⟩
    · obtain rfl := Acvp.asks_unique h' hr
      refine Acvp.Ends.of_leads hl ?_
      cases r' with
      | encaps ek m => exact Acvp.perform_encaps hb hK fuel hr.1 hr.2.1 hv
      | decaps dk c => exact Acvp.perform_decaps hb hK fuel hr.1 hr.2.1 hv
      | keyGen z d => exact Acvp.perform_keyGen hb hK fuel hr.1 hr.2.1
    · exact absurd ⟨r, hr⟩ hn
  cases h : acvpAnswer K (xofBytes fuel) r with
  | none => rw [h] at main; exact main
  | some t => rw [h] at main; exact main

/-- **C70.** If the arguments do not ask for anything — an unknown word, an argument missing, an odd or wrong number of digits, a character that is not a hexadecimal
digit — nothing is printed to `stdout` and the exit code is 1.  Whatever the arguments are, nothing outside their strings is read. -/
theorem C70_usage (bk : Native.Backend) {K : Nat} (fuel : Nat) (prog : List UInt8) (args : List (List UInt8)) (ha : ∀ a ∈ args, 0 ∉ a) (hn : ¬ ∃ r, Asks K args r) :
    Returns (Model.Acvp.main bk K fuel (cstr prog :: args.map cstr)) (1, "") := by
  rcases Acvp.main_parsed (K := K) fuel prog ha with ⟨r', h', _⟩ | ⟨_, hl⟩
  · exact absurd ⟨r', h'⟩ hn
  · exact hl.ret (Kat.ret _)

/-- **C70**, a defect of the program: it does not look at the return code of the library.  If the key does not pass the check of FIPS 203, the library writes nothing and
the program prints local arrays that were never written. -/
theorem C70_ignored_code {bk : Native.Backend} (hb : KeepsContract bk) {K : Nat} (hK : IsParam K) (fuel : Nat) (prog : List UInt8) (args : List (List UInt8)) (ha : ∀ a ∈ args, 0 ∉ a)
    (r : AcvpRequest) (hr : Asks K args r) (hv : ¬ acvpValid K r) : Model.Acvp.main bk K fuel (cstr prog :: args.map cstr) = .error .uninit := by
  rcases Acvp.main_parsed (K := K) fuel prog ha with ⟨r', h', hl⟩ | ⟨hn, _⟩
  · obtain rfl := Acvp.asks_unique h' hr
    exact hl.err (Acvp.perform_bad hb hK fuel hr hv)
  · exact absurd ⟨r, hr⟩ hn

/-! ## The hypotheses can be met -/

theorem Acvp.spells_replicate {a b : UInt8} {x y : Nat} (ha : IsHexDigit a x) (hb : IsHexDigit b y) : ∀ n, Spells (List.replicate n [a, b]).flatten (List.replicate n (UInt8.ofNat (16 * x + y)))
  | 0 => .nil
  | n + 1 => by
    rw [List.replicate_succ, List.replicate_succ, List.flatten_cons]
    exact .cons ha hb (Acvp.spells_replicate ha hb n)

/-- `acvp_mlkem768 keyGen AFT z=a7A7… d=0000…` asks for a key pair. -/
example : ∃ args, (∀ a ∈ args, 0 ∉ a) ∧ Asks 3 args (.keyGen (List.replicate 32 0xA7) (List.replicate 32 0)) ∧ acvpValid 3 (.keyGen (List.replicate 32 0xA7) (List.replicate 32 0)) := by
  refine ⟨[ascii "keyGen", ascii "AFT", ascii "z=" ++ (List.replicate 32 (ascii "a7")).flatten, ascii "d=" ++ (List.replicate 32 (ascii "00")).flatten], by decide +kernel,
    ⟨by decide, by decide, _, _, [], rfl, ⟨_, rfl, ?_⟩, ⟨_, rfl, ?_⟩⟩, trivial⟩
  · exact Acvp.spells_replicate (a := 97) (b := 55) (x := 10) (y := 7) (by decide +kernel) (by decide +kernel) 32
  · exact Acvp.spells_replicate (a := 48) (b := 48) (x := 0) (y := 0) (by decide +kernel) (by decide +kernel) 32

/-- An encapsulation key of 0xFF bytes can be asked for and does not pass the check. -/
example : ∃ args, (∀ a ∈ args, 0 ∉ a) ∧ Asks 2 args (.encaps (List.replicate 800 0xFF) (List.replicate 32 0)) ∧ ¬ acvpValid 2 (.encaps (List.replicate 800 0xFF) (List.replicate 32 0)) := by
  refine ⟨[ascii "encapDecap", ascii "AFT", ascii "encapsulation", ascii "ek=" ++ (List.replicate 800 (ascii "fF")).flatten, ascii "m=" ++ (List.replicate 32 (ascii "00")).flatten], ?_,
    ⟨List.length_replicate, List.length_replicate, _, _, [], rfl, ⟨_, rfl, ?_⟩, ⟨_, rfl, ?_⟩⟩, ?_⟩
  · have h : ∀ (n : Nat) (p : List UInt8), 0 ∉ p → 0 ∉ (List.replicate n p).flatten := by
      intro n p hp h
      obtain ⟨l, h1, h2⟩ := List.mem_flatten.1 h
      exact hp ((List.mem_replicate.1 h1).2 ▸ h2)
    intro a ha
    simp only [List.mem_cons, List.not_mem_nil, or_false] at ha
    rcases ha with rfl | rfl | rfl | rfl | rfl
    · decide +kernel
    · decide +kernel
    · decide +kernel
    · rw [List.mem_append, not_or]; exact ⟨by decide +kernel, h _ _ (by decide +kernel)⟩
    · rw [List.mem_append, not_or]; exact ⟨by decide +kernel, h _ _ (by decide +kernel)⟩
  · exact Acvp.spells_replicate (a := 102) (b := 70) (x := 15) (y := 15) (by decide +kernel) (by decide +kernel) 800
  · exact Acvp.spells_replicate (a := 48) (b := 48) (x := 0) (y := 0) (by decide +kernel) (by decide +kernel) 32
  · show ¬ modulusCheck 2 _
    rw [modulusCheck_iff (by decide +kernel)]
    intro h
    exact absurd (h 0 (by omega)) (by decide +kernel)

/-- Arguments that ask for nothing: none at all, and a seed with a digit missing. -/
example : ¬ ∃ r, Asks 2 [] r := by
  rintro ⟨r, hr⟩
  cases r <;> obtain ⟨_, _, a, b, rest, h, _⟩ := hr <;> simp at h

example : ¬ ∃ r, Asks 2 [ascii "keyGen", ascii "AFT", ascii "z=" ++ (List.replicate 31 (ascii "00")).flatten ++ ascii "0", ascii "d=" ++ (List.replicate 32 (ascii "00")).flatten] r := by
  rintro ⟨r, hr⟩
  cases r with
  | encaps => obtain ⟨_, _, a, b, rest, h, _⟩ := hr; exact absurd (List.cons.inj h).1 (by decide +kernel)
  | decaps => obtain ⟨_, _, a, b, rest, h, _⟩ := hr; exact absurd (List.cons.inj h).1 (by decide +kernel)
  | keyGen z d =>
    obtain ⟨hz, _, a, b, rest, h, ⟨t, ht, hs⟩, _⟩ := hr
    have h3 := (List.cons.inj (List.cons.inj (List.cons.inj h).2).2).1
    have h4 := congrArg List.length (h3.trans ht)
    have h5 := Acvp.spells_length hs
    rw [show (ascii "z=" ++ (List.replicate 31 (ascii "00")).flatten ++ ascii "0" : List UInt8).length = 65 by decide +kernel] at h4
    have : (ascii "z" ++ ascii "=").length = 2 := by decide +kernel
    rw [List.length_append, this] at h4
    omega

end Verif.Props

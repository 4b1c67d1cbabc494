import Verif.Proof.Driver
import Verif.Props.Acvp
import Verif.Props.TestMlkem
import Verif.Props.Kat
/-! # C80: the test driver

`scripts/tests` (commands `func`, `kat`, `nistkat`, `acvp` and `all`) builds the test programs, runs them and compares what they print. -/
namespace Verif.Props
open Verif Verif.Model Verif.Spec
open Verif.Spec.Driver Verif.Model.Driver

attribute [local irreducible] keccakF partialK finK blocksK sqByte SHAKE256 SHA3_256 SHA3_512 SHAKE128 KeyGen_internal Encaps_internal Decaps_internal
  Native.crypto_kem_keypair_derand Native.crypto_kem_enc_derand Native.crypto_kem_dec

/-- **C80.**  `tests func`, `tests nistkat`, `tests kat` and `tests acvp`, with any options, in any world — whatever the programs do, and however it depends on what happened before: the commands
of the plan are started in order; the exit status is 0 exactly if all of them were started and came out as they should (return code 0, the right output); and the driver stops early only after an outcome that is not good. -/
theorem C80_single (self : Tests) {vs : List Driver.Vector} (hf : self.files.Contain vs) {w : World} (hw : w.Posix) (t : Test) :
    Verdict w (plan self.sha256sum metaDigest vs self.cmd_prefix self.compile self.run self.opt [t]) (status (self.single w t []).1) (self.single w t []).2 :=
  Proof.Driver.single_verdict self hf hw t

/-- **C80.**  The same of `tests all` for any choice of tests: all chosen tests are built, then all are run, for each build asked for. -/
theorem C80_all (self : Tests) {vs : List Driver.Vector} (hf : self.files.Contain vs) {w : World} (hw : w.Posix) (want : Test → Bool) :
    Verdict w (plan self.sha256sum metaDigest vs self.cmd_prefix self.compile self.run self.opt ([Test.func, .nistkat, .kat, .acvp].filter want))
      (status (self.all w (want .func) (want .kat) (want .nistkat) (want .acvp) []).1) (self.all w (want .func) (want .kat) (want .nistkat) (want .acvp) []).2 := by
  have e : chosen (want .func) (want .kat) (want .nistkat) (want .acvp) = [Test.func, .nistkat, .kat, .acvp].filter want := by
    unfold chosen
    cases h1 : want .func <;> cases h2 : want .kat <;> cases h3 : want .nistkat <;> cases h4 : want .acvp <;> simp [h1, h2, h3, h4]
  rw [← e]
  exact Proof.Driver.all_verdict self hf hw _ _ _ _

/-! ## With the programs of the repository -/

/-- The bytes of an argument. -/
def argBytes (a : String) : List UInt8 := a.toUTF8.data.toList

/-- A world in which the ACVP program is the one of the repository (C70), built in any way: `make` succeeds; a run for a parameter set is a run of the program of that parameter set, on some backend that keeps the contract of C62,
with these arguments (`fuel` is the budget of the sampling loops, as in C70); a program cannot be started with an argument that contains a zero byte. -/
structure AcvpWorld (fuel : Nat) (w : World) : Prop where
  posix : w.Posix
  make : ∀ h t b, ∃ out err, w h (.make t b) = .done 0 out err
  run : ∀ h s pre args, (∀ a ∈ args, 0 ∉ argBytes a) → ∃ (bk : Native.Backend) (prog : List UInt8), KeepsContract bk ∧ ∀ code text,
    Returns (Model.Acvp.main bk s.rank fuel (cstr prog :: (args.map argBytes).map cstr)) (code, text) → ∃ err, w h (.run .acvp s pre args) = .done (code % 256) text.toUTF8 err
  zero : ∀ h s pre args, (∃ a ∈ args, 0 ∈ argBytes a) → w h (.run .acvp s pre args) = .unstartable

namespace Driver

theorem utf8_append (a b : String) : argBytes (a ++ b) = argBytes a ++ argBytes b := by
  unfold argBytes
  change (a ++ b).toByteArray.data.toList = a.toByteArray.data.toList ++ b.toByteArray.data.toList
  rw [String.toByteArray_append, ByteArray.data_append, Array.toList_append]

theorem lines_cons {l : List Char} (h : ∀ c ∈ l, isBreak c = false) (rest : List Char) : lines (l ++ '\n' :: rest) = l :: lines rest := by
  induction l with
  | nil => exact Proof.Driver.lines_cons_lf _ _ rfl
  | cons c l ih =>
    rw [List.cons_append, Proof.Driver.lines_cons_plain c _ (fun hh => by have := h c (by simp); rw [(Proof.Driver.isBreak_iff c).2 hh] at this; cases this), ih fun x hx => h x (by simp [hx])]
    rfl

theorem hexText_chars (bs : List UInt8) : ∀ c ∈ (hexText upperHex bs).toList, c ∈ upperHex := by
  induction bs with
  | nil => simp [hexText]
  | cons b bs ih =>
    intro c hc
    unfold hexText at hc
    rw [String.toList_append, List.mem_append] at hc
    rcases hc with hc | hc
    · have key : ∀ i, i < 16 → upperHex.getD i '0' ∈ upperHex := by decide
      have hb := b.toNat_lt
      simp only [String.toList_ofList, List.mem_cons, List.not_mem_nil, or_false] at hc
      rcases hc with rfl | rfl
      · exact key _ (by omega)
      · exact key _ (by omega)
    · exact ih c hc

theorem hex_plain (bs : List UInt8) : (∀ c ∈ (hex bs).toList, isBreak c = false) ∧ '=' ∉ (hex bs).toList := by
  have h1 : ∀ c ∈ upperHex, isBreak c = false := by decide
  have h2 : '=' ∉ upperHex := by decide
  exact ⟨fun c hc => h1 c (hexText_chars bs c hc), fun h => h2 (hexText_chars bs _ h)⟩

/-- A line of the answer agrees with the object exactly if the object says so. -/
theorem line_ok (d : Dict) (name : String) (hn : '=' ∉ name.toList) (bs : List UInt8) :
    (∃ k v : String, (name.toList ++ '=' :: (hex bs).toList) = k.toList ++ '=' :: v.toList ∧ '=' ∉ k.toList ∧ '=' ∉ v.toList ∧ Says d k v) ↔ Says d name (hex bs) := by
  constructor
  · rintro ⟨k, v, h1, h2, h3, h4⟩
    have e1 := Proof.Driver.splitEq_pair.2 ⟨h1, h2, h3⟩
    have e2 := Proof.Driver.splitEq_pair.2 ⟨rfl, hn, (hex_plain bs).2⟩
    rw [e2] at e1
    simp only [List.cons.injEq, and_true, String.toList_inj] at e1
    rw [e1.1, e1.2]; exact h4
  · intro h
    exact ⟨name, hex bs, rfl, hn, (hex_plain bs).2, h⟩

theorem hexLine_toList (name : String) (bs : List UInt8) : (hexLine name bs).toList = (name.toList ++ '=' :: (hex bs).toList) ++ ['\n'] := by
  unfold hexLine hex
  simp only [String.toList_append, List.append_assoc]
  rfl

theorem agrees_one (d : Dict) (n1 : String) (h1 : '=' ∉ n1.toList) (g1 : ∀ c ∈ n1.toList, isBreak c = false) (b1 : List UInt8) : Agrees d (hexLine n1 b1) ↔ Says d n1 (hex b1) := by
  unfold Agrees
  rw [hexLine_toList, lines_cons (by
    intro c hc
    rcases List.mem_append.1 hc with hc | hc
    · exact g1 c hc
    · rcases List.mem_cons.1 hc with rfl | hc
      · decide
      · exact (hex_plain b1).1 c hc)]
  simp only [lines, List.mem_singleton, forall_eq]
  exact line_ok d n1 h1 b1

theorem agrees_two (d : Dict) (n1 n2 : String) (h1 : '=' ∉ n1.toList) (g1 : ∀ c ∈ n1.toList, isBreak c = false) (h2 : '=' ∉ n2.toList) (g2 : ∀ c ∈ n2.toList, isBreak c = false) (b1 b2 : List UInt8) :
    Agrees d (hexLine n1 b1 ++ hexLine n2 b2) ↔ Says d n1 (hex b1) ∧ Says d n2 (hex b2) := by
  have e2 := agrees_one d n2 h2 g2 b2
  unfold Agrees at e2 ⊢
  rw [String.toList_append, hexLine_toList n1, List.append_assoc, List.singleton_append, lines_cons (by
    intro c hc
    rcases List.mem_append.1 hc with hc | hc
    · exact g1 c hc
    · rcases List.mem_cons.1 hc with rfl | hc
      · decide
      · exact (hex_plain b1).1 c hc), List.forall_mem_cons, e2]
  exact and_congr_left fun _ => line_ok d n1 h1 b1

theorem spells_no_zero {t bs : List UInt8} (h : Spells t bs) : 0 ∉ t := by
  have key : ∀ {a : UInt8} {x : Nat}, IsHexDigit a x → a ≠ 0 := by
    rintro a x ⟨hx, h⟩ rfl
    have k1 : ∀ x, x < 16 → (upperHex.getD x '0').toNat ≠ 0 := by decide
    have k2 : ∀ x, x < 16 → (lowerHex.getD x '0').toNat ≠ 0 := by decide
    rcases h with h | h
    · exact k1 x hx h.symm
    · exact k2 x hx h.symm
  induction h with
  | nil => simp
  | cons h1 h2 _ ih =>
    simp only [List.mem_cons, not_or]
    exact ⟨Ne.symm (key h1), Ne.symm (key h2), ih⟩

/-- An argument `name=text` is what `NamedHex` describes exactly if the text is hexadecimal. -/
theorem named_iff {name : String} (hn : argBytes (name ++ "=") = ascii name ++ ascii "=") (t : String) (bs : List UInt8) : NamedHex name bs (argBytes (name ++ "=" ++ t)) ↔ IsHex t bs := by
  unfold NamedHex
  rw [utf8_append, hn]
  constructor
  · rintro ⟨u, h1, h2⟩
    rw [List.append_cancel_left h1 |>.symm] at h2
    exact h2
  · intro h; exact ⟨argBytes t, rfl, h⟩

/-- The arguments of a question ask for the bytes that its texts spell, and for nothing else. -/
theorem asks_iff (k : Nat) (q : Question) (r : AcvpRequest) : Asks k (q.args.map argBytes) r ↔
    match q, r with
    | .encaps ek m, .encaps ekb mb => IsHex ek ekb ∧ IsHex m mb ∧ ekb.length = 384 * k + 32 ∧ mb.length = 32
    | .decaps dk c, .decaps dkb cb => IsHex dk dkb ∧ IsHex c cb ∧ dkb.length = 768 * k + 96 ∧ cb.length = 32 * (d_u k * k + d_v k)
    | .keyGen z d, .keyGen zb db => IsHex z zb ∧ IsHex d db ∧ zb.length = 32 ∧ db.length = 32
    | _, _ => False := by
  have w1 : argBytes "encapDecap" = ascii "encapDecap" := by decide +kernel
  have w2 : argBytes "AFT" = ascii "AFT" := by decide +kernel
  have w3 : argBytes "VAL" = ascii "VAL" := by decide +kernel
  have w4 : argBytes "encapsulation" = ascii "encapsulation" := by decide +kernel
  have w5 : argBytes "decapsulation" = ascii "decapsulation" := by decide +kernel
  have w6 : argBytes "keyGen" = ascii "keyGen" := by decide +kernel
  have x1 : ascii "encapDecap" ≠ ascii "keyGen" := by decide +kernel
  have x2 : ascii "AFT" ≠ ascii "VAL" := by decide +kernel
  have two : ∀ {a b : List UInt8} {P : List UInt8 → List UInt8 → List (List UInt8) → Prop} (pre : List (List UInt8)),
      (∃ a' b' rest, pre ++ [a, b] = pre ++ a' :: b' :: rest ∧ P a' b' rest) ↔ P a b [] := by
    intro a b P pre
    constructor
    · rintro ⟨a', b', rest, h, hp⟩
      have := List.append_cancel_left h
      simp only [List.cons.injEq] at this
      obtain ⟨rfl, rfl, rfl⟩ := this
      exact hp
    · intro h; exact ⟨a, b, [], rfl, h⟩
  cases q with
  | encaps ek m =>
    cases r with
    | encaps ekb mb =>
      unfold Asks
      simp only [Question.args, List.map_cons, List.map_nil, w1, w2, w4]
      have t := two (a := argBytes ("ek=" ++ ek)) (b := argBytes ("m=" ++ m)) (P := fun a b _ => NamedHex "ek" ekb a ∧ NamedHex "m" mb b) [ascii "encapDecap", ascii "AFT", ascii "encapsulation"]
      simp only [List.cons_append, List.nil_append] at t
      rw [t]
      rw [show ("ek=" : String) = "ek" ++ "=" from rfl, show ("m=" : String) = "m" ++ "=" from rfl, named_iff (by decide +kernel), named_iff (by decide +kernel)]
      tauto
    | decaps dkb cb =>
      simp only [iff_false]
      rintro ⟨_, _, a, b, rest, h, _⟩
      simp only [Question.args, List.map_cons, w2, List.cons.injEq] at h
      exact x2 h.2.1
    | keyGen zb db =>
      simp only [iff_false]
      rintro ⟨_, _, a, b, rest, h, _⟩
      simp only [Question.args, List.map_cons, w1, List.cons.injEq] at h
      exact x1 h.1
  | decaps dk c =>
    cases r with
    | encaps ekb mb =>
      simp only [iff_false]
      rintro ⟨_, _, a, b, rest, h, _⟩
      simp only [Question.args, List.map_cons, w3, List.cons.injEq] at h
      exact x2 h.2.1.symm
    | decaps dkb cb =>
      unfold Asks
      simp only [Question.args, List.map_cons, List.map_nil, w1, w3, w5]
      have t := two (a := argBytes ("dk=" ++ dk)) (b := argBytes ("c=" ++ c)) (P := fun a b _ => NamedHex "dk" dkb a ∧ NamedHex "c" cb b) [ascii "encapDecap", ascii "VAL", ascii "decapsulation"]
      simp only [List.cons_append, List.nil_append] at t
      rw [t]
      rw [show ("dk=" : String) = "dk" ++ "=" from rfl, show ("c=" : String) = "c" ++ "=" from rfl, named_iff (by decide +kernel), named_iff (by decide +kernel)]
      tauto
    | keyGen zb db =>
      simp only [iff_false]
      rintro ⟨_, _, a, b, rest, h, _⟩
      simp only [Question.args, List.map_cons, w1, List.cons.injEq] at h
      exact x1 h.1
  | keyGen z d =>
    cases r with
    | encaps ekb mb =>
      simp only [iff_false]
      rintro ⟨_, _, a, b, rest, h, _⟩
      simp only [Question.args, List.map_cons, w6, List.cons.injEq] at h
      exact x1 h.1.symm
    | decaps dkb cb =>
      simp only [iff_false]
      rintro ⟨_, _, a, b, rest, h, _⟩
      simp only [Question.args, List.map_cons, w6, List.cons.injEq] at h
      exact x1 h.1.symm
    | keyGen zb db =>
      unfold Asks
      simp only [Question.args, List.map_cons, List.map_nil, w6, w2]
      have t := two (a := argBytes ("z=" ++ z)) (b := argBytes ("d=" ++ d)) (P := fun a b _ => NamedHex "z" zb a ∧ NamedHex "d" db b) [ascii "keyGen", ascii "AFT"]
      simp only [List.cons_append, List.nil_append] at t
      rw [t]
      rw [show ("z=" : String) = "z" ++ "=" from rfl, show ("d=" : String) = "d" ++ "=" from rfl, named_iff (by decide +kernel), named_iff (by decide +kernel)]
      tauto

theorem rank_param (s : Scheme) : IsParam s.rank := by cases s <;> simp [IsParam, Scheme.rank]

/-- A right vector asks for something, which is valid, and the answer is in its fields; and conversely. -/
theorem right_iff {n : Nat} {v : Driver.Vector} (hu : Usable n v) : Right n v ↔ ∃ r text, Asks v.scheme.rank (v.question.args.map argBytes) r ∧ acvpAnswer v.scheme.rank n r = some text ∧ Agrees v.fields text := by
  obtain ⟨s, q, d⟩ := v
  cases q with
  | encaps ek m =>
    constructor
    · rintro ⟨ekb, mb, K, c, h1, h2, h3, h4, h5, h6, h7⟩
      refine ⟨.encaps ekb mb, hexLine "c" c ++ hexLine "k" K, (asks_iff _ _ _).2 ⟨h1, h2, h3, h4⟩, ?_, ?_⟩
      · unfold acvpAnswer; simp only [h5]; rfl
      · exact (agrees_two d "c" "k" (by decide) (by decide) (by decide) (by decide) c K).2 ⟨h6, h7⟩
    · rintro ⟨r, text, h1, h2, h3⟩
      rw [asks_iff] at h1
      cases r with
      | encaps ekb mb =>
        obtain ⟨g1, g2, g3, g4⟩ := h1
        cases e : Encaps_internal s.rank n ekb mb with
        | none => unfold acvpAnswer at h2; simp only [e] at h2; cases h2
        | some x =>
          obtain ⟨K, c⟩ := x
          unfold acvpAnswer at h2; simp only [e] at h2
          cases h2
          have := (agrees_two d "c" "k" (by decide) (by decide) (by decide) (by decide) c K).1 h3
          exact ⟨ekb, mb, K, c, g1, g2, g3, g4, e, this.1, this.2⟩
      | decaps _ _ => exact h1.elim
      | keyGen _ _ => exact h1.elim
  | decaps dk c =>
    constructor
    · rintro ⟨dkb, cb, K, h1, h2, h3, h4, h5, h6⟩
      refine ⟨.decaps dkb cb, hexLine "k" K, (asks_iff _ _ _).2 ⟨h1, h2, h3, h4⟩, ?_, ?_⟩
      · unfold acvpAnswer; simp only [h5]; rfl
      · exact (agrees_one d "k" (by decide) (by decide) K).2 h6
    · rintro ⟨r, text, h1, h2, h3⟩
      rw [asks_iff] at h1
      cases r with
      | decaps dkb cb =>
        obtain ⟨g1, g2, g3, g4⟩ := h1
        cases e : Decaps_internal s.rank n dkb cb with
        | none => unfold acvpAnswer at h2; simp only [e] at h2; cases h2
        | some K =>
          unfold acvpAnswer at h2; simp only [e] at h2
          cases h2
          exact ⟨dkb, cb, K, g1, g2, g3, g4, e, (agrees_one d "k" (by decide) (by decide) K).1 h3⟩
      | encaps _ _ => exact h1.elim
      | keyGen _ _ => exact h1.elim
  | keyGen z dd =>
    constructor
    · rintro ⟨zb, db, ek, dk, h1, h2, h3, h4, h5, h6, h7⟩
      refine ⟨.keyGen zb db, hexLine "ek" ek ++ hexLine "dk" dk, (asks_iff _ _ _).2 ⟨h1, h2, h3, h4⟩, ?_, ?_⟩
      · unfold acvpAnswer; simp only [h5]; rfl
      · exact (agrees_two d "ek" "dk" (by decide) (by decide) (by decide) (by decide) ek dk).2 ⟨h6, h7⟩
    · rintro ⟨r, text, h1, h2, h3⟩
      rw [asks_iff] at h1
      cases r with
      | keyGen zb db =>
        obtain ⟨g1, g2, g3, g4⟩ := h1
        cases e : KeyGen_internal s.rank n db zb with
        | none => unfold acvpAnswer at h2; simp only [e] at h2; cases h2
        | some x =>
          obtain ⟨ek, dk⟩ := x
          unfold acvpAnswer at h2; simp only [e] at h2
          cases h2
          have := (agrees_two d "ek" "dk" (by decide) (by decide) (by decide) (by decide) ek dk).1 h3
          exact ⟨zb, db, ek, dk, g1, g2, g3, g4, e, this.1, this.2⟩
      | encaps _ _ => exact h1.elim
      | decaps _ _ => exact h1.elim

theorem usable_asks {n : Nat} {v : Driver.Vector} (hu : Usable n v) {r : AcvpRequest} (hr : Asks v.scheme.rank (v.question.args.map argBytes) r) : acvpValid v.scheme.rank r ∧ acvpAnswer v.scheme.rank n r ≠ none := by
  obtain ⟨s, q, d⟩ := v
  rw [asks_iff] at hr
  cases q <;> cases r <;> try exact hr.elim
  · obtain ⟨g1, g2, g3, g4⟩ := hr
    obtain ⟨k1, k2⟩ := hu _ _ g1 g2 g3 g4
    exact ⟨k1, by unfold acvpAnswer; simpa using k2⟩
  · obtain ⟨g1, g2, g3, g4⟩ := hr
    obtain ⟨k1, k2⟩ := hu _ _ g1 g2 g3 g4
    exact ⟨k1, by unfold acvpAnswer; simpa using k2⟩
  · obtain ⟨g1, g2, g3, g4⟩ := hr
    exact ⟨trivial, by unfold acvpAnswer; simpa using hu _ _ g1 g2 g3 g4⟩

theorem asks_no_zero {k : Nat} {q : Question} {r : AcvpRequest} (h : Asks k (q.args.map argBytes) r) : ∀ a ∈ q.args, 0 ∉ argBytes a := by
  rw [asks_iff] at h
  have words : ∀ a ∈ ["encapDecap", "AFT", "VAL", "encapsulation", "decapsulation", "keyGen", "ek=", "m=", "dk=", "c=", "z=", "d="], (0 : UInt8) ∉ argBytes a := by decide +kernel
  have cat : ∀ {p t : String} {bs : List UInt8}, p ∈ ["encapDecap", "AFT", "VAL", "encapsulation", "decapsulation", "keyGen", "ek=", "m=", "dk=", "c=", "z=", "d="] → IsHex t bs → (0 : UInt8) ∉ argBytes (p ++ t) := by
    intro p t bs hp ht
    rw [utf8_append, List.mem_append, not_or]
    exact ⟨words p hp, spells_no_zero ht⟩
  cases q <;> cases r <;> try exact h.elim
  all_goals
    obtain ⟨g1, g2, _⟩ := h
    intro a ha
    simp only [Question.args, List.mem_cons, List.not_mem_nil, or_false] at ha
  · rcases ha with rfl | rfl | rfl | rfl | rfl
    · exact words _ (by simp)
    · exact words _ (by simp)
    · exact words _ (by simp)
    · exact cat (by simp) g1
    · exact cat (by simp) g2
  · rcases ha with rfl | rfl | rfl | rfl | rfl
    · exact words _ (by simp)
    · exact words _ (by simp)
    · exact words _ (by simp)
    · exact cat (by simp) g1
    · exact cat (by simp) g2
  · rcases ha with rfl | rfl | rfl | rfl
    · exact words _ (by simp)
    · exact words _ (by simp)
    · exact cat (by simp) g1
    · exact cat (by simp) g2

theorem good_iff {w : World} {fuel : Nat} (hw : AcvpWorld fuel w) {v : Driver.Vector} (hu : Usable (xofBytes fuel) v) (pre : List String) (h : Transcript) :
    (Proof.Driver.vectorStep pre v).good (w h (.run .acvp v.scheme pre v.question.args)) ↔ Right (xofBytes fuel) v := by
  rw [right_iff hu]
  by_cases hz : ∀ a ∈ v.question.args, 0 ∉ argBytes a
  · obtain ⟨bk, prog, hb, hrun⟩ := hw.run h v.scheme pre v.question.args hz
    have hz' : ∀ a ∈ v.question.args.map argBytes, (0 : UInt8) ∉ a := by
      intro a ha; obtain ⟨x, hx, rfl⟩ := List.mem_map.1 ha; exact hz x hx
    by_cases hr : ∃ r, Asks v.scheme.rank (v.question.args.map argBytes) r
    · obtain ⟨r, hr⟩ := hr
      obtain ⟨hv, ha⟩ := usable_asks hu hr
      have h1 := C70_answer hb (rank_param v.scheme) fuel prog _ hz' r hr hv
      cases e : acvpAnswer v.scheme.rank (xofBytes fuel) r with
      | none => exact absurd e ha
      | some text =>
        rw [e] at h1
        obtain ⟨err, he⟩ := hrun _ _ h1
        rw [he]
        constructor
        · rintro ⟨out, err', ho, t, ht, hag⟩
          cases ho
          have : text = t := String.toByteArray_inj.1 ht
          subst this
          exact ⟨r, text, hr, e, hag⟩
        · rintro ⟨r', text', hr', e', hag⟩
          obtain rfl := Acvp.asks_unique hr hr'
          rw [e] at e'; cases e'
          exact ⟨_, _, rfl, text, rfl, hag⟩
    · obtain ⟨err, he⟩ := hrun _ _ (C70_usage bk fuel prog _ hz' hr)
      rw [he]
      constructor
      · rintro ⟨out, err', ho, _⟩; cases ho
      · rintro ⟨r, _, hr', _⟩; exact absurd ⟨r, hr'⟩ hr
  · rw [hw.zero h _ _ _ (by push_neg at hz; exact hz)]
    constructor
    · rintro ⟨out, err', ho, _⟩; cases ho
    · rintro ⟨r, _, hr', _⟩; exact absurd (asks_no_zero hr') hz

/-- The outcomes of a real transcript. -/
theorem real_get {w : World} : ∀ {h tr : Transcript}, Real w h tr → ∀ {e : Cmd × Outcome}, e ∈ tr → ∃ h', e.2 = w h' e.1
  | _, [], _, _, he => nomatch he
  | h, x :: tr, hr, e, he => by
    rcases List.mem_cons.1 he with rfl | he
    · exact ⟨h, hr.1⟩
    · exact real_get hr.2 he

theorem complete_mem {P : List Step} {tr : Transcript} (h : Complete P tr) {s : Step} (hs : s ∈ P) : ∃ e ∈ tr, e.1 = s.cmd ∧ s.good e.2 := by
  unfold Complete at h
  induction h with
  | nil => cases hs
  | cons h1 _ ih =>
    rcases List.mem_cons.1 hs with rfl | hs
    · exact ⟨_, by simp, h1⟩
    · obtain ⟨e, he, h2⟩ := ih hs; exact ⟨e, by simp [he], h2⟩

theorem builds_some {opt : String} (h : opt.toLower = "all" ∨ opt.toLower = "no_opt" ∨ opt.toLower = "opt") : ∃ b, b ∈ builds opt := by
  unfold builds
  by_cases h1 : opt.toLower = "all"
  · rw [if_pos h1]; exact ⟨false, by simp⟩
  · by_cases h2 : opt.toLower = "no_opt"
    · rw [if_neg h1, if_pos h2]; exact ⟨false, by simp⟩
    · have h3 : opt.toLower = "opt" := by tauto
      rw [if_neg h1, if_neg h2, if_pos h3]; exact ⟨true, by simp⟩

theorem cmd_at {P : List Step} {tr : Transcript} (h : tr.map Prod.fst <+: P.map Step.cmd) {i : Nat} {s : Step} {e : Cmd × Outcome} (h1 : P[i]? = some s) (h2 : tr[i]? = some e) : e.1 = s.cmd := by
  have a1 : (tr.map Prod.fst)[i]? = some e.1 := by rw [List.getElem?_map, h2]; rfl
  have a2 : (P.map Step.cmd)[i]? = some s.cmd := by rw [List.getElem?_map, h1]; rfl
  obtain ⟨rest, hrest⟩ := h
  rw [← hrest, List.getElem?_append_left (List.getElem?_eq_some_iff.1 a1).1, a1] at a2
  exact Option.some.inj a2

end Driver

/-- **C80 (with the library).**  `tests acvp`, for any files of test vectors whose keys pass the checks of FIPS 203, and any builds of the ACVP program on backends that keep the contract (C66: the portable code, AVX2 and AArch64 do): the exit status is 0 exactly if every vector of
the files is what FIPS 203 gives.  So a wrong vector is always reported, and a right one never. -/
theorem C80_acvp (self : Tests) {vs : List Driver.Vector} (hf : self.files.Contain vs) {w : World} {fuel : Nat} (hw : AcvpWorld fuel w) (hrun : self.run = true) (hopt : self.opt.toLower = "all" ∨ self.opt.toLower = "no_opt" ∨ self.opt.toLower = "opt")
    (hu : ∀ v ∈ vs, Usable (xofBytes fuel) v) : status (self.single w .acvp []).1 = 0 ↔ ∀ v ∈ vs, Right (xofBytes fuel) v := by
  obtain ⟨hreal, hpre, hst, hbad⟩ := C80_single self hf hw.posix .acvp
  have mem : ∀ s, s ∈ plan self.sha256sum metaDigest vs self.cmd_prefix self.compile self.run self.opt [.acvp] ↔
      ∃ b ∈ builds self.opt, (self.compile = true ∧ s = makeStep .acvp b) ∨ ∃ v ∈ vs, s = Proof.Driver.vectorStep self.cmd_prefix v := by
    intro s
    unfold plan
    rw [List.mem_flatMap]
    refine exists_congr fun b => and_congr_right fun _ => ?_
    rw [List.mem_append, hrun]
    refine or_congr ?_ ?_
    · by_cases hc : self.compile = true <;> simp [hc]
    · simp only [if_true, List.flatMap_cons, List.flatMap_nil, List.append_nil, runs, List.mem_map]
      exact exists_congr fun v => and_congr_right fun _ => eq_comm
  constructor
  · intro h0 v hv
    obtain ⟨b, hb⟩ := Driver.builds_some hopt
    obtain ⟨e, he, h1, h2⟩ := Driver.complete_mem (hst.1 h0) ((mem _).2 ⟨b, hb, Or.inr ⟨v, hv, rfl⟩⟩)
    obtain ⟨h', e'⟩ := Driver.real_get hreal he
    rw [e', h1] at h2
    exact (Driver.good_iff hw (hu v hv) self.cmd_prefix h').1 h2
  · intro hr
    by_contra hn
    obtain ⟨i, s, e, h1, h2, h3⟩ := hbad hn
    obtain ⟨h', e'⟩ := Driver.real_get hreal (List.mem_of_getElem? h2)
    have hcmd : e.1 = s.cmd := Driver.cmd_at hpre h1 h2
    apply h3
    rw [e', hcmd]
    obtain ⟨b, _, hs⟩ := (mem s).1 (List.mem_of_getElem? h1)
    rcases hs with ⟨_, rfl⟩ | ⟨v, hv, rfl⟩
    · exact hw.make _ _ _
    · exact (Driver.good_iff hw (hu v hv) self.cmd_prefix h').2 (hr v hv)

/-- A world in which the functional test program is the one of the repository (C72), built in any way and linked with a source of randomness: `make` succeeds; a run for a parameter set is a run of the program of that parameter set, on some backend that keeps
the contract of C62, on a machine with the `size_t` of `T`. -/
structure FuncWorld {σ : Type} (fuel tries : Nat) (T : Model.TestMlkem.SizeT) (rb : Source σ) (N : Nat) (s₀ : σ) (w : World) : Prop where
  posix : w.Posix
  make : ∀ h t b, ∃ out err, w h (.make t b) = .done 0 out err
  run : ∀ h s pre, ∃ bk : Native.Backend, KeepsContract bk ∧ ∀ code st text,
    Returns (Model.TestMlkem.main bk s.rank fuel tries T rb N s₀) (code, st, text) → ∃ err, w h (.run .func s pre []) = .done code text.toUTF8 err

namespace Driver

theorem single_schemes (self : Tests) {vs : List Driver.Vector} (hf : self.files.Contain vs) {w : World} (hw : w.Posix) {t : Test} {right : Scheme → ByteArray → Prop}
    (hruns : runs self.sha256sum metaDigest vs self.cmd_prefix t = schemes.map fun s => runStep t s self.cmd_prefix [] (right s)) (hmake : ∀ h t b, ∃ out err, w h (.make t b) = .done 0 out err) {P : Scheme → Prop}
    (good : ∀ h, ∀ s ∈ schemes, (∃ out err, w h (.run t s self.cmd_prefix []) = .done 0 out err ∧ right s out) ↔ P s) (hrun : self.run = true) (hopt : self.opt.toLower = "all" ∨ self.opt.toLower = "no_opt" ∨ self.opt.toLower = "opt") :
    status (self.single w t []).1 = 0 ↔ ∀ s ∈ schemes, P s := by
  obtain ⟨hreal, hpre, hst, hbad⟩ := C80_single self hf hw t
  have mem : ∀ s, s ∈ plan self.sha256sum metaDigest vs self.cmd_prefix self.compile self.run self.opt [t] ↔
      ∃ b ∈ builds self.opt, (self.compile = true ∧ s = makeStep t b) ∨ ∃ v ∈ schemes, s = runStep t v self.cmd_prefix [] (right v) := by
    intro s
    unfold plan
    rw [List.mem_flatMap]
    refine exists_congr fun b => and_congr_right fun _ => ?_
    rw [List.mem_append, hrun]
    refine or_congr ?_ ?_
    · by_cases hc : self.compile = true <;> simp [hc]
    · simp only [if_true, List.flatMap_cons, List.flatMap_nil, List.append_nil, hruns, List.mem_map]
      exact exists_congr fun v => and_congr_right fun _ => eq_comm
  constructor
  · intro h0 v hv
    obtain ⟨b, hb⟩ := builds_some hopt
    obtain ⟨e, he, h1, h2⟩ := complete_mem (hst.1 h0) ((mem _).2 ⟨b, hb, Or.inr ⟨v, hv, rfl⟩⟩)
    obtain ⟨h', e'⟩ := real_get hreal he
    rw [e', h1] at h2
    exact (good h' v hv).1 h2
  · intro hr
    by_contra hn
    obtain ⟨i, s, e, h1, h2, h3⟩ := hbad hn
    obtain ⟨h', e'⟩ := real_get hreal (List.mem_of_getElem? h2)
    have hcmd : e.1 = s.cmd := cmd_at hpre h1 h2
    apply h3
    rw [e', hcmd]
    obtain ⟨b, _, hs⟩ := (mem s).1 (List.mem_of_getElem? h1)
    rcases hs with ⟨_, rfl⟩ | ⟨v, hv, rfl⟩
    · exact hmake _ _ _
    · exact (good h' v hv).2 (hr v hv)

theorem digest_iff {code bad : Int} {text : String} {err : ByteArray} {sha : ByteArray → String} {d : String} (hcode : code = 0 ∨ code = bad) (hbad : bad % 256 ≠ 0) :
    (∃ out err', Outcome.done (code % 256) text.toUTF8 err = .done 0 out err' ∧ sha out = d) ↔ ∃ t, some (code, text) = some (0, t) ∧ sha t.toUTF8 = d := by
  constructor
  · rintro ⟨out, err', ho, hs⟩
    simp only [Outcome.done.injEq] at ho
    obtain ⟨h1, rfl, rfl⟩ := ho
    rcases hcode with rfl | rfl
    · exact ⟨text, rfl, hs⟩
    · exact absurd h1 hbad
  · rintro ⟨t, ht, hs⟩
    cases ht
    exact ⟨_, _, rfl, hs⟩

theorem shakeText_code {k n : Nat} : ∀ {is : List Nat} {x : Int × String}, shakeText k n is = some x → x.1 = 0 ∨ x.1 = -1
  | [], x, h => by unfold shakeText at h; cases h; exact Or.inl rfl
  | i :: is, x, h => by
    unfold shakeText at h
    cases e : shakeCase k n i with
    | none => rw [e] at h; cases h
    | some y =>
      rw [e] at h
      change (if y.ssE = y.ssD then _ else _) = _ at h
      by_cases hy : y.ssE = y.ssD
      · rw [if_pos hy] at h
        cases e2 : shakeText k n is with
        | none => rw [e2] at h; cases h
        | some z =>
          rw [e2] at h
          cases h
          exact shakeText_code (x := z) e2
      · rw [if_neg hy] at h
        cases h
        exact Or.inr rfl

/-- A functional test program that passes has printed the sizes and nothing else. -/
theorem testProgram_zero {σ : Type} {k n tries sz : Nat} {pos : List UInt8 → Nat} {src : Source σ} : ∀ {r : Nat} {s : σ} {x : Nat × σ × String}, testProgram k n tries sz pos src r s = some x → x.1 = 0 → x.2.2 = Spec.sizesText k
  | 0, s, x, h, _ => by unfold testProgram at h; cases h; rfl
  | r + 1, s, x, h, h0 => by
    unfold testProgram at h
    cases e : testRound k n tries sz pos src s with
    | none => rw [e] at h; cases h
    | some y =>
      obtain ⟨ok, t, s'⟩ := y
      rw [e, Option.bind_some] at h
      simp only at h
      cases ok with
      | false => rw [if_neg (by simp)] at h; cases h; cases h0
      | true =>
        rw [if_pos rfl] at h
        cases e2 : testProgram k n tries sz pos src r s' with
        | none => rw [e2] at h; cases h
        | some z =>
          rw [e2, Option.map_some] at h
          cases h
          have := testProgram_zero e2 h0
          simp only
          rw [this]
          have ht : t = "" := by
            unfold testRound at e
            simp only [Option.bind_eq_some_iff, Option.map_eq_some_iff, Prod.mk.injEq, Bool.and_eq_true] at e
            obtain ⟨⟨a, s1⟩, _, ⟨b, s2⟩, _, ⟨c, s3⟩, _, ⟨d, s4⟩, _, ⟨f, s5⟩, _, ⟨⟨⟨⟨ha, _⟩, hc⟩, hd⟩, hf⟩, ht, _⟩ := e
            simp only at ha hc hd hf ht
            subst ha; subst hc; subst hd; subst hf
            rw [← ht]; rfl
          rw [ht, String.empty_append]

end Driver

/-- **C80 (with the library).**  `tests func`, for any builds of the functional test program on backends that keep the contract: the exit status is 0 exactly if, for every parameter set, all `N` rounds of the tests pass, in terms of FIPS 203 and of the source of randomness (`testProgram`, C72; as built, `N` is 1000 and the source is `surfSource`) —
so it is the same for all builds. -/
theorem C80_func (self : Tests) {vs : List Driver.Vector} (hf : self.files.Contain vs) {w : World} {fuel tries : Nat} {T : Model.TestMlkem.SizeT} {σ : Type} {rb : Source σ} (hrb : ∀ s n, (rb s n).1.length = n) {N : Nat} {s₀ : σ}
    (hw : FuncWorld fuel tries T rb N s₀ w) (hrun : self.run = true)
    (hopt : self.opt.toLower = "all" ∨ self.opt.toLower = "no_opt" ∨ self.opt.toLower = "opt") (hu : ∀ s ∈ schemes, testProgram s.rank (xofBytes fuel) tries T.size T.val rb N s₀ ≠ none) :
    status (self.single w .func []).1 = 0 ↔ ∀ s ∈ schemes, ∃ st, testProgram s.rank (xofBytes fuel) tries T.size T.val rb N s₀ = some (0, st, Spec.sizesText s.rank) := by
  have good : ∀ h, ∀ s ∈ schemes, (∃ out err, w h (.run .func s self.cmd_prefix []) = .done 0 out err ∧ out = (Driver.sizesText s).toUTF8) ↔ ∃ st, testProgram s.rank (xofBytes fuel) tries T.size T.val rb N s₀ = some (0, st, Spec.sizesText s.rank) := by
    intro h s hs
    obtain ⟨bk, hb, hr⟩ := hw.run h s self.cmd_prefix
    have h1 := C72_test_program hb (Driver.rank_param s) fuel tries T hrb N s₀
    cases e : testProgram s.rank (xofBytes fuel) tries T.size T.val rb N s₀ with
    | none => exact absurd e (hu s hs)
    | some x =>
      obtain ⟨code, st, text⟩ := x
      rw [e] at h1
      obtain ⟨err, he⟩ := hr code st text h1
      rw [he]
      constructor
      · rintro ⟨out, err', ho, hs⟩
        cases code with
        | zero => have := Driver.testProgram_zero e rfl; simp only at this; subst this; exact ⟨st, rfl⟩
        | succ n => simp only [Outcome.done.injEq] at ho; omega
      · rintro ⟨st', ho⟩
        simp only [Option.some.injEq, Prod.mk.injEq] at ho
        obtain ⟨rfl, rfl, rfl⟩ := ho
        exact ⟨_, _, rfl, rfl⟩
  exact Driver.single_schemes self hf hw.posix (t := .func) rfl hw.make good hrun hopt

/-- A world in which the two known-answer programs are those of the repository (C69), built in any way: `make` succeeds; a run for a parameter set is a run of the program of that parameter set, on some backend that keeps the contract of C62, with `N` cases,
whatever the stack held and whatever the static state of the generator was. -/
structure KatWorld (fuel N : Nat) (w : World) : Prop where
  posix : w.Posix
  make : ∀ h t b, ∃ out err, w h (.make t b) = .done 0 out err
  nistkat : ∀ h s pre, ∃ (bk : Native.Backend) (stk : Buf UInt8 → Buf UInt8 → Buf Model.Aes.W32) (ctx : Model.NistRng.Ctx), KeepsContract bk ∧ (∀ k c, SomeWords (stk k c)) ∧ ctx.key.size = 32 ∧ ctx.ctr.size = 16 ∧ ∀ code text,
    Returns (Model.KatGen.nistkat_main bk s.rank fuel stk ctx N) (code, text) → ∃ err, w h (.run .nistkat s pre []) = .done (code % 256) text.toUTF8 err
  kat : ∀ h s pre, ∃ bk : Native.Backend, KeepsContract bk ∧ ∀ code text,
    Returns (Model.KatGen.kat_main bk s.rank fuel N) (code, text) → ∃ err, w h (.run .kat s pre []) = .done (code % 256) text.toUTF8 err

/-- **C80 (with the library).**  `tests nistkat`, for any builds of the program on backends that keep the contract: the exit status is 0 exactly if, for every parameter set, the shared secrets agree in all cases and the known-answer file that FIPS 203 and the generator
of SP 800-90A describe (`nistFile`, C69) has the SHA-256 digest of `META.yml`. -/
theorem C80_nistkat (self : Tests) {vs : List Driver.Vector} (hf : self.files.Contain vs) {w : World} {fuel N : Nat} (hN : 0 < N) (hw : KatWorld fuel N w) (hrun : self.run = true)
    (hopt : self.opt.toLower = "all" ∨ self.opt.toLower = "no_opt" ∨ self.opt.toLower = "opt") (hu : ∀ s ∈ schemes, nistFile s.rank (xofBytes fuel) N ≠ none) :
    status (self.single w .nistkat []).1 = 0 ↔ ∀ s ∈ schemes, ∃ text, nistFile s.rank (xofBytes fuel) N = some (0, text) ∧ self.sha256sum text.toUTF8 = metaDigest .nistkat s := by
  refine Driver.single_schemes self hf hw.posix (t := .nistkat) (right := fun s out => self.sha256sum out = metaDigest .nistkat s) rfl hw.make (fun h s hs => ?_) hrun hopt
  obtain ⟨bk, stk, ctx, hb, h1, h2, h3, hr⟩ := hw.nistkat h s self.cmd_prefix
  have h4 := C69_nistkat hb (Driver.rank_param s) fuel h1 h2 h3 hN
  cases e : nistFile s.rank (xofBytes fuel) N with
  | none => exact absurd e (hu s hs)
  | some x =>
    obtain ⟨code, text⟩ := x
    rw [e] at h4
    obtain ⟨err, he⟩ := hr code text h4
    have hcode : code = 0 ∨ code = -4 := (C69_exit hb (Driver.rank_param s) fuel h1 h2 h3 hN h4).imp And.left And.left
    rw [he]
    exact Driver.digest_iff hcode (by decide)

/-- **C80 (with the library).**  The same of `tests kat` and the file of `gen_KAT` (`shakeText`, C69). -/
theorem C80_kat (self : Tests) {vs : List Driver.Vector} (hf : self.files.Contain vs) {w : World} {fuel N : Nat} (hw : KatWorld fuel N w) (hrun : self.run = true)
    (hopt : self.opt.toLower = "all" ∨ self.opt.toLower = "no_opt" ∨ self.opt.toLower = "opt") (hu : ∀ s ∈ schemes, shakeText s.rank (xofBytes fuel) (List.range N) ≠ none) :
    status (self.single w .kat []).1 = 0 ↔ ∀ s ∈ schemes, ∃ text, shakeText s.rank (xofBytes fuel) (List.range N) = some (0, text) ∧ self.sha256sum text.toUTF8 = metaDigest .kat s := by
  refine Driver.single_schemes self hf hw.posix (t := .kat) (right := fun s out => self.sha256sum out = metaDigest .kat s) rfl hw.make (fun h s hs => ?_) hrun hopt
  obtain ⟨bk, hb, hr⟩ := hw.kat h s self.cmd_prefix
  have h4 := C69_kat hb (Driver.rank_param s) fuel N
  cases e : shakeText s.rank (xofBytes fuel) (List.range N) with
  | none => exact absurd e (hu s hs)
  | some x =>
    obtain ⟨code, text⟩ := x
    rw [e] at h4
    obtain ⟨err, he⟩ := hr code text h4
    rw [he]
    exact Driver.digest_iff (Driver.shakeText_code e) (by decide)

end Verif.Props

import Verif.Props.Driver
import Verif.Props.Vectors2
import Verif.Props.Interop
/-! # Concrete cases of C80

A world in which the programs are those of the repository, and the vector files with the first published vectors of ML-KEM-512 (`Vectors2.lean`): `tests acvp` passes; with one digit of an expected answer changed it fails. -/
namespace Verif.Props
open Verif Verif.Model Verif.Spec
open Verif.Spec.Driver Verif.Model.Driver
open Verif.Vectors

namespace Driver

theorem hex_isHex (bs : List UInt8) : IsHex (hex bs) bs := by
  unfold IsHex hex
  induction bs with
  | nil => exact Spells.nil
  | cons b bs ih =>
    unfold hexText
    have e := utf8_append (String.ofList [upperHex.getD (b.toNat / 16) '0', upperHex.getD (b.toNat % 16) '0']) (hexText upperHex bs)
    unfold argBytes at e
    rw [e]
    have key : ∀ i < 16, ∀ j < 16, ∃ a c : UInt8, IsHexDigit a i ∧ IsHexDigit c j ∧ (String.ofList [upperHex.getD i '0', upperHex.getD j '0']).toUTF8.data.toList = [a, c] := by
      have : ∀ i < 16, ∀ j < 16, IsHexDigit (UInt8.ofNat (upperHex.getD i '0').toNat) i ∧ IsHexDigit (UInt8.ofNat (upperHex.getD j '0').toNat) j ∧
          (String.ofList [upperHex.getD i '0', upperHex.getD j '0']).toUTF8.data.toList = [UInt8.ofNat (upperHex.getD i '0').toNat, UInt8.ofNat (upperHex.getD j '0').toNat] := by
        unfold IsHexDigit
        decide +kernel
      exact fun i hi j hj => ⟨_, _, this i hi j hj⟩
    have hb := b.toNat_lt
    obtain ⟨a, c, h1, h2, h3⟩ := key (b.toNat / 16) (by omega) (b.toNat % 16) (by omega)
    rw [h3]
    have := Spells.cons h1 h2 ih
    rwa [show 16 * (b.toNat / 16) + b.toNat % 16 = b.toNat by omega, UInt8.ofNat_toNat] at this

/-- The world: every build succeeds, and a run of the ACVP program is a run of the portable code. -/
noncomputable def repoWorld (fuel : Nat) : World := fun _ c =>
  match c with
  | .make _ _ => .done 0 ByteArray.empty ByteArray.empty
  | .run .acvp s _ args =>
    open Classical in
    if ∀ a ∈ args, 0 ∉ argBytes a then
      if h : ∃ x : Int × String, Returns (Model.Acvp.main Native.portable s.rank fuel (cstr [] :: (args.map argBytes).map cstr)) x then .done (h.choose.1 % 256) h.choose.2.toUTF8 ByteArray.empty else .unstartable
    else .unstartable
  | .run _ _ _ _ => .missing

theorem repoWorld_ok (fuel : Nat) : AcvpWorld fuel (repoWorld fuel) where
  posix := by
    intro h c code out err e
    unfold repoWorld at e
    split at e
    · cases e; omega
    · split at e
      · split at e
        · cases e; omega
        · cases e
      · cases e
    · cases e
  make := fun _ _ _ => ⟨_, _, rfl⟩
  run := by
    intro h s pre args hz
    refine ⟨Native.portable, [], ?_, ?_⟩
    · exact C66_backends.1
    · intro code text hr
      refine ⟨ByteArray.empty, ?_⟩
      have hx : ∃ x : Int × String, Returns (Model.Acvp.main Native.portable s.rank fuel (cstr [] :: (args.map argBytes).map cstr)) x := ⟨_, hr⟩
      unfold repoWorld
      simp only [if_pos hz, dif_pos hx]
      rw [Returns.unique hx.choose_spec hr]
  zero := by
    intro h s pre args hz
    unfold repoWorld
    simp only
    rw [if_neg (by push_neg; exact hz)]

/-- A string of a JSON file. -/
def str (k v : String) : String × Value := (k, ⟨true, v⟩)

/-- The files with the first vectors; `answer` is the expected shared secret of the first one. -/
def files (answer : String) : Files where
  encapDecap :=
    [⟨[str "parameterSet" "ML-KEM-512", str "function" "encapsulation"], [[str "ek" (hex V2.ekE), str "m" (hex V2.mE), str "c" (hex V2.cE), str "k" answer]]⟩,
     ⟨[str "parameterSet" "ML-KEM-512", str "function" "decapsulation", str "dk" (hex V2.dkD)], [[str "c" (hex V2.cA), str "k" (hex V2.kA)], [str "c" (hex V2.cR), str "k" (hex V2.kR)]]⟩]
  keyGen := [⟨[str "parameterSet" "ML-KEM-512"], [[str "z" (hex V2.z), str "d" (hex V2.d), str "ek" (hex V2.ek), str "dk" (hex V2.dk)]]⟩]

/-- The vectors in them. -/
def vectors (answer : String) : List Driver.Vector :=
  [⟨.MLKEM512, .encaps (hex V2.ekE) (hex V2.mE), [str "ek" (hex V2.ekE), str "m" (hex V2.mE), str "c" (hex V2.cE), str "k" answer]⟩,
   ⟨.MLKEM512, .decaps (hex V2.dkD) (hex V2.cA), [str "c" (hex V2.cA), str "k" (hex V2.kA)]⟩,
   ⟨.MLKEM512, .decaps (hex V2.dkD) (hex V2.cR), [str "c" (hex V2.cR), str "k" (hex V2.kR)]⟩,
   ⟨.MLKEM512, .keyGen (hex V2.z) (hex V2.d), [str "z" (hex V2.z), str "d" (hex V2.d), str "ek" (hex V2.ek), str "dk" (hex V2.dk)]⟩]

theorem files_contain (answer : String) : (files answer).Contain (vectors answer) := by
  refine ⟨(vectors answer).take 3, (vectors answer).drop 3, ?_, ?_, (List.take_append_drop _ _).symm⟩
  · refine Contains.cons (s := .MLKEM512) (vs := [_]) (ws := [_, _]) rfl (.cons ?_ .nil) (Contains.cons (s := .MLKEM512) (vs := [_, _]) (ws := []) rfl (.cons ?_ (.cons ?_ .nil)) .nil)
    · exact EncapDecapTest.encaps (s := .MLKEM512) rfl rfl rfl rfl
    · exact EncapDecapTest.decaps (s := .MLKEM512) rfl rfl rfl rfl
    · exact EncapDecapTest.decaps (s := .MLKEM512) rfl rfl rfl rfl
  · exact Contains.cons (s := .MLKEM512) (vs := [_]) (ws := []) rfl (.cons (KeyGenTest.keyGen (s := .MLKEM512) rfl rfl rfl) .nil) .nil

theorem hex_unique {bs cs : List UInt8} (h : IsHex (hex bs) cs) : cs = bs := Acvp.spells_unique h (hex_isHex bs)

theorem hex_inj {bs cs : List UInt8} (h : hex bs = hex cs) : bs = cs := hex_unique (bs := cs) (h ▸ hex_isHex bs)

theorem vectors_usable (answer : String) : ∀ v ∈ vectors answer, Usable (xofBytes 0) v := by
  intro v hv
  simp only [vectors, List.mem_cons, List.not_mem_nil, or_false] at hv
  rcases hv with rfl | rfl | rfl | rfl
  · intro ekb mb h1 h2 _ _
    rw [hex_unique h1, hex_unique h2]
    exact ⟨V2.encaps.2, by rw [show Scheme.rank .MLKEM512 = 2 from rfl, V2.encaps.1]; simp⟩
  · intro dkb cb h1 h2 _ _
    rw [hex_unique h1, hex_unique h2]
    exact ⟨V2.accepted.2, by rw [show Scheme.rank .MLKEM512 = 2 from rfl, V2.accepted.1]; simp⟩
  · intro dkb cb h1 h2 _ _
    rw [hex_unique h1, hex_unique h2]
    exact ⟨V2.rejected.2, by rw [show Scheme.rank .MLKEM512 = 2 from rfl, V2.rejected.1]; simp⟩
  · intro zb db h1 h2 _ _
    rw [hex_unique h1, hex_unique h2]
    rw [show Scheme.rank .MLKEM512 = 2 from rfl, V2.keygen]; simp

theorem vectors_right (answer : String) : (∀ v ∈ vectors answer, Right (xofBytes 0) v) ↔ answer = hex V2.kE := by
  constructor
  · intro h
    obtain ⟨ekb, mb, K, c, h1, h2, _, _, h5, _, h7⟩ := h _ (List.mem_cons_self ..)
    rw [hex_unique h1, hex_unique h2] at h5
    rw [show Scheme.rank .MLKEM512 = 2 from rfl, V2.encaps.1] at h5
    cases h5
    have : some (⟨true, answer⟩ : Value) = some ⟨true, hex V2.kE⟩ := h7
    cases this; rfl
  · rintro rfl v hv
    simp only [vectors, List.mem_cons, List.not_mem_nil, or_false] at hv
    rcases hv with rfl | rfl | rfl | rfl
    · exact ⟨_, _, _, _, hex_isHex _, hex_isHex _, Eval.be_length _ _, Eval.be_length _ _, V2.encaps.1, rfl, rfl⟩
    · exact ⟨_, _, _, hex_isHex _, hex_isHex _, Eval.be_length _ _, Eval.be_length _ _, V2.accepted.1, rfl⟩
    · exact ⟨_, _, _, hex_isHex _, hex_isHex _, Eval.be_length _ _, Eval.be_length _ _, V2.rejected.1, rfl⟩
    · exact ⟨_, _, _, _, hex_isHex _, hex_isHex _, Eval.be_length _ _, Eval.be_length _ _, V2.keygen, rfl, rfl⟩

/-- A call of the driver. -/
def tests (answer : String) : Tests where
  opt := "ALL"
  compile := true
  run := true
  cmd_prefix := []
  files := files answer
  sha256sum := fun _ => ""

/-- `tests acvp` passes exactly if the answer is the published one. -/
theorem tests_status (answer : String) : status ((tests answer).single (repoWorld 0) .acvp []).1 = 0 ↔ answer = hex V2.kE :=
  (C80_acvp (tests answer) (files_contain answer) (repoWorld_ok 0) rfl (Or.inl (show "ALL".toLower = "all" by decide +kernel)) (vectors_usable answer)).trans (vectors_right answer)

end Driver

/-- Both cases occur: with the published answer the driver passes, with a wrong one it fails, and so it does with the right one in lower-case letters. -/
example : status ((Driver.tests (Spec.Driver.hex V2.kE)).single (Driver.repoWorld 0) .acvp []).1 = 0 ∧ status ((Driver.tests (Spec.Driver.hex V2.kA)).single (Driver.repoWorld 0) .acvp []).1 ≠ 0 ∧
    status ((Driver.tests (hexText lowerHex V2.kE)).single (Driver.repoWorld 0) .acvp []).1 ≠ 0 := by
  refine ⟨(Driver.tests_status _).2 rfl, fun h => ?_, fun h => ?_⟩
  · exact absurd (Driver.hex_inj ((Driver.tests_status _).1 h)) (by decide +kernel)
  · exact absurd ((Driver.tests_status _).1 h) (by decide +kernel)

/-- What C80 does not say: the driver compares only what the program prints, so a program that prints nothing and returns 0 passes every vector. -/
example (v : Driver.Vector) (pre : List String) : (Proof.Driver.vectorStep pre v).good (.done 0 "".toUTF8 ByteArray.empty) := by
  refine ⟨_, _, rfl, "", rfl, ?_⟩
  intro l hl
  simp [lines] at hl

/-- The plan of `tests all` for `--opt all` with the four vectors of above: four builds and 13 runs, twice. -/
example : (plan (fun _ => "") metaDigest (Driver.vectors "") [] true true "ALL" [.func, .nistkat, .kat, .acvp]).length = 2 * (4 + (3 + 3 + 3 + 4)) := by
  have h : builds "ALL" = [false, true] := by
    unfold builds
    rw [if_pos (by decide +kernel)]
  unfold plan
  rw [h]
  rfl

namespace Driver

/-- A source of ones, and a machine whose `size_t` has 8 bytes. -/
def oneSource : Source Unit := fun _ n => (List.replicate n 1, ())

/-- The world: every build succeeds, and a run of the functional test program is a run of the portable code. -/
noncomputable def funcWorld (T : Model.TestMlkem.SizeT) : World := fun _ c =>
  match c with
  | .make _ _ => .done 0 ByteArray.empty ByteArray.empty
  | .run .func s _ _ =>
    open Classical in
    if h : ∃ x : Nat × Unit × String, x.1 < 256 ∧ Returns (Model.TestMlkem.main Native.portable s.rank 0 1 T oneSource 1000 ()) x then .done h.choose.1 h.choose.2.2.toUTF8 ByteArray.empty else .unstartable
  | .run _ _ _ _ => .missing

theorem testProgram_code {σ : Type} {k n tries sz : Nat} {pos : List UInt8 → Nat} {src : Source σ} : ∀ {r : Nat} {s : σ} {x : Nat × σ × String}, testProgram k n tries sz pos src r s = some x → x.1 < 256
  | 0, s, x, h => by unfold testProgram at h; cases h; exact (by decide : 0 < 256)
  | r + 1, s, x, h => by
    unfold testProgram at h
    cases e : testRound k n tries sz pos src s with
    | none => rw [e] at h; cases h
    | some y =>
      obtain ⟨ok, t, s'⟩ := y
      rw [e, Option.bind_some] at h
      simp only at h
      cases ok with
      | false => rw [if_neg (by simp)] at h; cases h; exact (by decide : 1 < 256)
      | true =>
        rw [if_pos rfl] at h
        cases e2 : testProgram k n tries sz pos src r s' with
        | none => rw [e2] at h; cases h
        | some z =>
          rw [e2, Option.map_some] at h
          cases h
          exact testProgram_code (x := z) e2

end Driver

/-- The hypotheses of `C80_func` can be met: there is such a world, and the budget is enough. -/
example (T : Model.TestMlkem.SizeT) (h8 : T.size = 8) (h5 : T.val = fun _ => 5) :
    FuncWorld 0 1 T Driver.oneSource 1000 () (Driver.funcWorld T) ∧ (∀ s n, (Driver.oneSource s n).1.length = n) ∧
      ∀ s ∈ schemes, testProgram s.rank (xofBytes 0) 1 T.size T.val Driver.oneSource 1000 () ≠ none := by
  have enough : ∀ s : Scheme, testProgram s.rank (xofBytes 0) 1 T.size T.val Driver.oneSource 1000 () ≠ none := by
    intro s
    rw [h8, h5]
    obtain ⟨r, hr⟩ := TestMlkem.budget_enough (Driver.rank_param s)
    unfold Driver.oneSource
    rw [hr]; simp
  have len : ∀ s n, (Driver.oneSource s n).1.length = n := fun s n => by simp [Driver.oneSource]
  refine ⟨⟨?_, fun _ _ _ => ⟨_, _, rfl⟩, ?_⟩, len, fun s _ => enough s⟩
  · intro h c code out err e
    unfold Driver.funcWorld at e
    split at e
    · cases e; omega
    · split at e
      · rename_i hx
        have := hx.choose_spec.1
        cases e; omega
      · cases e
    · cases e
  · intro h s pre
    refine ⟨Native.portable, C66_backends.1, ?_⟩
    intro code st text hr
    refine ⟨ByteArray.empty, ?_⟩
    have hc : code < 256 := by
      have h1 := C72_test_program C66_backends.1 (Driver.rank_param s) 0 1 T len 1000 ()
      cases e : testProgram s.rank (xofBytes 0) 1 T.size T.val Driver.oneSource 1000 () with
      | none => exact absurd e (enough s)
      | some x =>
        rw [e] at h1
        have := Returns.unique h1 hr
        subst this
        exact Driver.testProgram_code e
    have hx : ∃ x : Nat × Unit × String, x.1 < 256 ∧ Returns (Model.TestMlkem.main Native.portable s.rank 0 1 T Driver.oneSource 1000 ()) x := ⟨_, hc, hr⟩
    unfold Driver.funcWorld
    simp only [dif_pos hx]
    rw [Returns.unique hx.choose_spec.2 hr]

end Verif.Props

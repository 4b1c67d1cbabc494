import Verif.Spec.Acvp
/-! # Specification of the test driver

What can be seen of a run of `scripts/tests` from outside — the commands it starts, their outcomes, its exit status — and what a run is to do.  This file does not mention the code of the driver. -/
namespace Verif.Spec.Driver
open Verif.Spec

/-- The three parameter sets. -/
inductive Scheme
  | MLKEM512 | MLKEM768 | MLKEM1024
  deriving DecidableEq

/-- The module rank `k` of FIPS 203. -/
def Scheme.rank : Scheme → Nat
  | .MLKEM512 => 2
  | .MLKEM768 => 3
  | .MLKEM1024 => 4

/-- The name in FIPS 203. -/
def Scheme.name : Scheme → String
  | .MLKEM512 => "ML-KEM-512"
  | .MLKEM768 => "ML-KEM-768"
  | .MLKEM1024 => "ML-KEM-1024"

/-- All of them. -/
def schemes : List Scheme := [.MLKEM512, .MLKEM768, .MLKEM1024]

/-- The four test programs: the functional test, the two known-answer tests and the ACVP test. -/
inductive Test
  | func | nistkat | kat | acvp
  deriving DecidableEq

/-- A command started by the driver: a build of a test program with or without the native backend, or a run of the program built for a parameter set, with a prefix (an emulator, for example) and arguments. -/
inductive Cmd
  | make (t : Test) (opt : Bool)
  | run (t : Test) (s : Scheme) (pre args : List String)

/-- What can come of it: the program does not exist; it cannot be started; it ends with a return code (negative: killed by a signal) and what it wrote to `stdout` and `stderr`. -/
inductive Outcome
  | missing
  | unstartable
  | done (code : Int) (out err : ByteArray)

/-- The commands started, oldest first, and their outcomes. -/
abbrev Transcript := List (Cmd × Outcome)

/-- The outside world: the outcome of a command, given all that happened before. -/
abbrev World := Transcript → Cmd → Outcome

/-- Return codes are what POSIX allows (the status of `exit`, or the negative of the number of a signal). -/
def World.Posix (w : World) : Prop := ∀ h c code out err, w h c = .done code out err → -256 < code ∧ code < 256

/-- A step of a plan: the command and which outcomes are as they should be. -/
structure Step where
  cmd : Cmd
  good : Outcome → Prop

/-- The plan was carried out to its end and every outcome was good. -/
def Complete (plan : List Step) (tr : Transcript) : Prop := List.Forall₂ (fun s e => e.1 = s.cmd ∧ s.good e.2) plan tr

/-- The build ends with return code 0. -/
def makeStep (t : Test) (b : Bool) : Step := ⟨.make t b, fun o => ∃ out err, o = .done 0 out err⟩

/-- The program ends with return code 0 and its output is right. -/
def runStep (t : Test) (s : Scheme) (pre args : List String) (right : ByteArray → Prop) : Step := ⟨.run t s pre args, fun o => ∃ out err, o = .done 0 out err ∧ right out⟩

/-- What the functional test prints when it passes: the three sizes of FIPS 203. -/
def sizesText (s : Scheme) : String :=
  let k := s.rank
  "CRYPTO_SECRETKEYBYTES:  " ++ toString (768 * k + 96) ++ "\n" ++
  "CRYPTO_PUBLICKEYBYTES:  " ++ toString (384 * k + 32) ++ "\n" ++
  "CRYPTO_CIPHERTEXTBYTES: " ++ toString (32 * (d_u k * k + d_v k)) ++ "\n"

/-- A value in a JSON file: a string, or something else of which only the text is known. -/
structure Value where
  isStr : Bool
  text : String

/-- A JSON object. -/
abbrev Dict := List (String × Value)

/-- The object has the string `v` in field `k`. -/
def Says (d : Dict) (k v : String) : Prop := d.lookup k = some ⟨true, v⟩

/-- A group of test vectors: its own fields, and the vectors. -/
structure Group where
  fields : Dict
  tests : List Dict

/-- What a test vector asks for, in the texts of the file. -/
inductive Question
  | encaps (ek m : String)
  | decaps (dk c : String)
  | keyGen (z d : String)

/-- The arguments of the ACVP program for it. -/
def Question.args : Question → List String
  | .encaps ek m => ["encapDecap", "AFT", "encapsulation", "ek=" ++ ek, "m=" ++ m]
  | .decaps dk c => ["encapDecap", "VAL", "decapsulation", "dk=" ++ dk, "c=" ++ c]
  | .keyGen z d => ["keyGen", "AFT", "z=" ++ z, "d=" ++ d]

/-- A test vector: the parameter set, the question, and the object of the file, in which the expected answer is. -/
structure Vector where
  scheme : Scheme
  question : Question
  fields : Dict

/-- The vector number of a group of the file on encapsulation and decapsulation.  In decapsulation groups the key belongs to the group. -/
inductive EncapDecapTest (g : Group) (tc : Dict) : Vector → Prop
  | encaps {s : Scheme} {ek m : String} : Says g.fields "parameterSet" s.name → Says g.fields "function" "encapsulation" → Says tc "ek" ek → Says tc "m" m → EncapDecapTest g tc ⟨s, .encaps ek m, tc⟩
  | decaps {s : Scheme} {dk c : String} : Says g.fields "parameterSet" s.name → Says g.fields "function" "decapsulation" → Says g.fields "dk" dk → Says tc "c" c → EncapDecapTest g tc ⟨s, .decaps dk c, tc⟩

/-- The same of the file on key generation. -/
inductive KeyGenTest (g : Group) (tc : Dict) : Vector → Prop
  | keyGen {s : Scheme} {z d : String} : Says g.fields "parameterSet" s.name → Says tc "z" z → Says tc "d" d → KeyGenTest g tc ⟨s, .keyGen z d, tc⟩

/-- The groups contain the vectors, in this order. -/
inductive Contains (R : Group → Dict → Vector → Prop) : List Group → List Vector → Prop
  | nil : Contains R [] []
  | cons {g : Group} {gs : List Group} {s : Scheme} {vs ws : List Vector} : Says g.fields "parameterSet" s.name → List.Forall₂ (R g) g.tests vs → Contains R gs ws → Contains R (g :: gs) (vs ++ ws)

/-- The lines of a text: it is cut at every line boundary of the Unicode standard that the language of the driver knows — line feed, carriage return, both together, vertical tab, form feed, the separators 1C to 1E,
next line, and the line and paragraph separators.  A boundary at the very end starts no further line. -/
def lines : List Char → List (List Char)
  | [] => []
  | [c] => if c.toNat ∈ [0x0A, 0x0B, 0x0C, 0x0D, 0x1C, 0x1D, 0x1E, 0x85, 0x2028, 0x2029] then [[]] else [[c]]
  | c :: d :: t =>
    if c.toNat = 0x0D ∧ d.toNat = 0x0A then [] :: lines t
    else if c.toNat ∈ [0x0A, 0x0B, 0x0C, 0x0D, 0x1C, 0x1D, 0x1E, 0x85, 0x2028, 0x2029] then [] :: lines (d :: t)
    else (lines (d :: t)).modifyHead (c :: ·)

/-- The text agrees with the object: every line is `k=v`, with one equality sign, and the object has the string `v` in field `k`. -/
def Agrees (d : Dict) (text : String) : Prop := ∀ l ∈ lines text.toList, ∃ k v : String, l = k.toList ++ '=' :: v.toList ∧ '=' ∉ k.toList ∧ '=' ∉ v.toList ∧ Says d k v

/-- The two files of the ACVP test: the vectors of the first, and those of the second. -/
structure Files where
  encapDecap : List Group
  keyGen : List Group

/-- The vectors in the files. -/
def Files.Contain (f : Files) (vs : List Vector) : Prop := ∃ us ws, Contains EncapDecapTest f.encapDecap us ∧ Contains KeyGenTest f.keyGen ws ∧ vs = us ++ ws

/-- SHA-256 of the outputs of the two known-answer tests, as published in `META.yml` (`nistkat-sha256` and `kat-sha256`). -/
def metaDigest : Test → Scheme → String
  | .nistkat, .MLKEM512 => "a30184edee53b3b009356e1e31d7f9e93ce82550e3c622d7192e387b0cc84f2e"
  | .nistkat, .MLKEM768 => "729367b590637f4a93c68d5e4a4d2e2b4454842a52c9eec503e3a0d24cb66471"
  | .nistkat, .MLKEM1024 => "3fba7327d0320cb6134badf2a1bcb963a5b3c0026c7dece8f00d6a6155e47b33"
  | .kat, .MLKEM512 => "d2839e390c89b91d06ac73a903ce140d7edc91536bfdcbea094f8c63eaf7a2da"
  | .kat, .MLKEM768 => "923f97741b0950cd0b6e6fc772994a0eb2abdce2eb43ddc12fb5e6abe0f66840"
  | .kat, .MLKEM1024 => "8ad4b85a08c2ee9b06fb4d5f7f8bf915b984d0959bef3cf6c705441b91aea1d7"
  | _, _ => ""

/-- The runs of a test: one for each parameter set, or one for each vector.  `sha` is SHA-256 in lower-case hexadecimal and `digest` what the output of a known-answer test is to hash to. -/
def runs (sha : ByteArray → String) (digest : Test → Scheme → String) (vs : List Vector) (pre : List String) : Test → List Step
  | .func => schemes.map fun s => runStep .func s pre [] fun out => out = (sizesText s).toUTF8
  | .nistkat => schemes.map fun s => runStep .nistkat s pre [] fun out => sha out = digest .nistkat s
  | .kat => schemes.map fun s => runStep .kat s pre [] fun out => sha out = digest .kat s
  | .acvp => vs.map fun v => runStep .acvp v.scheme pre v.question.args fun out => ∃ text : String, out = text.toUTF8 ∧ Agrees v.fields text

/-- The builds asked for by the option `--opt`, in any case of the letters: without and with the native backend. -/
def builds (opt : String) : List Bool :=
  if opt.toLower = "all" then [false, true] else if opt.toLower = "no_opt" then [false] else if opt.toLower = "opt" then [true] else []

/-- The plan for some of the tests: for each build, build them all (unless `--no-compile`), then run them all (unless `--no-run`). -/
def plan (sha : ByteArray → String) (digest : Test → Scheme → String) (vs : List Vector) (pre : List String) (compile run : Bool) (opt : String) (ts : List Test) : List Step :=
  (builds opt).flatMap fun b => (if compile then ts.map (makeStep · b) else []) ++ (if run then ts.flatMap (runs sha digest vs pre) else [])

/-- The outcomes are those of the world, in a run that starts after `h`. -/
def Real (w : World) : Transcript → Transcript → Prop
  | _, [] => True
  | h, e :: tr => e.2 = w h e.1 ∧ Real w (h ++ [e]) tr

/-- How a run of the driver in the world `w` relates to its plan, given the exit status and the transcript.  The commands started are those of the plan, in order, from the first one to some point; the status is 0
exactly if the plan was carried out to its end and every outcome was good; if it is not 0, one of the commands started had an outcome that is not good. -/
def Verdict (w : World) (plan : List Step) (st : Int) (tr : Transcript) : Prop :=
  Real w [] tr ∧ tr.map Prod.fst <+: plan.map Step.cmd ∧ (st = 0 ↔ Complete plan tr) ∧
    (st ≠ 0 → ∃ (i : Nat) (s : Step) (e : Cmd × Outcome), plan[i]? = some s ∧ tr[i]? = some e ∧ ¬ s.good e.2)

/-! ## Right vectors -/

/-- The text spells the bytes in hexadecimal. -/
def IsHex (t : String) (bs : List UInt8) : Prop := Spells t.toUTF8.data.toList bs

/-- Bytes in upper-case hexadecimal. -/
def hex (bs : List UInt8) : String := hexText upperHex bs

/-- The vector is right: its question is about bytes of the lengths of FIPS 203, and FIPS 203 gives the answer in its fields (with a budget of `n` bytes for each matrix entry). -/
def Right (n : Nat) (v : Vector) : Prop :=
  let k := v.scheme.rank
  match v.question with
  | .encaps ek m => ∃ ekb mb K c, IsHex ek ekb ∧ IsHex m mb ∧ ekb.length = 384 * k + 32 ∧ mb.length = 32 ∧ Encaps_internal k n ekb mb = some (K, c) ∧ Says v.fields "c" (hex c) ∧ Says v.fields "k" (hex K)
  | .decaps dk c => ∃ dkb cb K, IsHex dk dkb ∧ IsHex c cb ∧ dkb.length = 768 * k + 96 ∧ cb.length = 32 * (d_u k * k + d_v k) ∧ Decaps_internal k n dkb cb = some K ∧ Says v.fields "k" (hex K)
  | .keyGen z d => ∃ zb db ek dk, IsHex z zb ∧ IsHex d db ∧ zb.length = 32 ∧ db.length = 32 ∧ KeyGen_internal k n db zb = some (ek, dk) ∧ Says v.fields "ek" (hex ek) ∧ Says v.fields "dk" (hex dk)

/-- The keys in the vector pass the checks of FIPS 203 sections 7.2 and 7.3, and the budget is enough for it. -/
def Usable (n : Nat) (v : Vector) : Prop :=
  let k := v.scheme.rank
  match v.question with
  | .encaps ek m => ∀ ekb mb, IsHex ek ekb → IsHex m mb → ekb.length = 384 * k + 32 → mb.length = 32 → modulusCheck k ekb ∧ Encaps_internal k n ekb mb ≠ none
  | .decaps dk c => ∀ dkb cb, IsHex dk dkb → IsHex c cb → dkb.length = 768 * k + 96 → cb.length = 32 * (d_u k * k + d_v k) → hashCheck k dkb ∧ Decaps_internal k n dkb cb ≠ none
  | .keyGen z d => ∀ zb db, IsHex z zb → IsHex d db → zb.length = 32 → db.length = 32 → KeyGen_internal k n db zb ≠ none

end Verif.Spec.Driver

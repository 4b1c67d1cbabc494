import Verif.Spec.Driver
import Mathlib.Logic.Function.Basic
/-! # Model of the test driver (`scripts/tests`, `scripts/lib/mlkem_test.py`, `scripts/lib/util.py`)

Python functions become functions in a monad of transcripts (the commands started, with their outcomes) and exceptions.  What a command does is up to the world, which may depend on everything that happened before.
The driver's log, the GitHub summaries (`github_summary`, written only when `GITHUB_STEP_SUMMARY` is set), the options that only change the text of the `make` command (`--cross-prefix`, `--cflags`,
`--arch-flags`, `--auto`) and the commands `bench` and `cbmc` are not modelled; `json.load` and `yaml.safe_load` are taken to deliver the contents of the files as the values below. -/
namespace Verif.Model.Driver
open Verif.Spec.Driver (Scheme Test Cmd Outcome Transcript World Value Dict Group Files)

/-- An exception: `SystemExit` with its code, or any other. -/
inductive Exc
  | sysExit (code : Int)
  | error

/-- A Python computation. -/
def Py (α : Type) : Type := Transcript → Except Exc α × Transcript

namespace Py
/-- A value. -/
def ret {α : Type} (a : α) : Py α := fun h => (.ok a, h)
/-- One after the other; an exception ends it. -/
def bnd {α β : Type} (p : Py α) (f : α → Py β) : Py β := fun h =>
  match p h with
  | (.ok a, h') => f a h'
  | (.error e, h') => (.error e, h')
end Py

instance : Monad Py where
  pure := Py.ret
  bind := Py.bnd

/-- `raise`. -/
def raise {α : Type} (e : Exc) : Py α := fun h => (.error e, h)

/-- `try: p except SystemExit as e: …`: the value, or `none` when `SystemExit` was raised; other exceptions go on. -/
def tryExit {α : Type} (p : Py α) : Py (Option α) := fun h =>
  match p h with
  | (.ok a, h') => (.ok (some a), h')
  | (.error (.sysExit _), h') => (.ok none, h')
  | (.error .error, h') => (.error .error, h')

/-- `subprocess.run` (the test whether the binary exists, `mlkem_test.py:137-139`, belongs to the outcome). -/
def start (w : World) (c : Cmd) : Py Outcome := fun h => (.ok (w h c), h ++ [(c, w h c)])

/-- The exit status of the interpreter: 0 at the end of the program, the code of `SystemExit` modulo 256, 1 for any other exception. -/
def status {α : Type} : Except Exc α → Int
  | .ok _ => 0
  | .error (.sysExit n) => n % 256
  | .error .error => 1

/-! ## `scripts/lib/util.py` -/

/-- `SCHEME` in the order of iteration (`util.py:27-30`). -/
def SCHEME : List Scheme := [.MLKEM512, .MLKEM768, .MLKEM1024]

/-- `SCHEME.__str__` (`util.py:32-39`). -/
def SCHEME_str : Scheme → String
  | .MLKEM512 => "ML-KEM-512"
  | .MLKEM768 => "ML-KEM-768"
  | .MLKEM1024 => "ML-KEM-1024"

/-- `SCHEME.from_str` (`util.py:50-58`); the argument comes from the file and need not be a string. -/
def from_str (s : Value) : Py Scheme :=
  match SCHEME.find? fun m => s.isStr && SCHEME_str m == s.text with
  | some m => pure m
  | none => raise .error

/-- `META.yml:9-11, 19-21, 29-31`: `length-secret-key`, `length-public-key`, `length-ciphertext` through `parse_meta` (`util.py:108-111`). -/
def meta_lengths : Scheme → Nat × Nat × Nat
  | .MLKEM512 => (1632, 800, 768)
  | .MLKEM768 => (2400, 1184, 1088)
  | .MLKEM1024 => (3168, 1568, 1568)

/-- `META.yml:14, 24, 34`: `nistkat-sha256`. -/
def meta_nistkat : Scheme → String
  | .MLKEM512 => "a30184edee53b3b009356e1e31d7f9e93ce82550e3c622d7192e387b0cc84f2e"
  | .MLKEM768 => "729367b590637f4a93c68d5e4a4d2e2b4454842a52c9eec503e3a0d24cb66471"
  | .MLKEM1024 => "3fba7327d0320cb6134badf2a1bcb963a5b3c0026c7dece8f00d6a6155e47b33"

/-- `META.yml:13, 23, 33`: `kat-sha256`. -/
def meta_kat : Scheme → String
  | .MLKEM512 => "d2839e390c89b91d06ac73a903ce140d7edc91536bfdcbea094f8c63eaf7a2da"
  | .MLKEM768 => "923f97741b0950cd0b6e6fc772994a0eb2abdce2eb43ddc12fb5e6abe0f66840"
  | .MLKEM1024 => "8ad4b85a08c2ee9b06fb4d5f7f8bf915b984d0959bef3cf6c705441b91aea1d7"

/-! ## Strings and dictionaries of Python -/

/-- `bytes.decode("utf-8")`. -/
def decode (b : ByteArray) : Py String :=
  match String.fromUTF8? b with
  | some s => pure s
  | none => raise .error

/-- A line boundary of `str.splitlines`. -/
def isBreak (c : Char) : Bool := [0x0A, 0x0B, 0x0C, 0x0D, 0x1C, 0x1D, 0x1E, 0x85, 0x2028, 0x2029].contains c.toNat

/-- `str.splitlines`: `line` is the line read so far and `cr` says that the last character was a carriage return. -/
def splitlinesFrom (line : List Char) (cr : Bool) : List Char → List (List Char)
  | [] => if line = [] then [] else [line]
  | c :: t =>
    if cr && c.toNat == 0x0A then splitlinesFrom [] false t
    else if isBreak c then line :: splitlinesFrom [] (c.toNat == 0x0D) t
    else splitlinesFrom (line ++ [c]) false t

/-- `str.splitlines()`. -/
def splitlines (s : String) : List (List Char) := splitlinesFrom [] false s.toList

/-- `str.split("=")`. -/
def splitEq : List Char → List (List Char)
  | [] => [[]]
  | c :: t => if c = '=' then [] :: splitEq t else (splitEq t).modifyHead (c :: ·)

/-- `d[k]`. -/
def getitem (d : Dict) (k : String) : Py Value :=
  match d.lookup k with
  | some v => pure v
  | none => raise .error

/-! ## `scripts/lib/mlkem_test.py` -/

/-- `Base.compile_schemes` (`mlkem_test.py:70-123`). -/
def compile_schemes (w : World) (t : Test) (opt : Bool) : Py Unit := do
  match ← start w (.make t opt) with
  | .missing => raise .error
  | .unstartable => raise .error
  | .done code _ _ => if code ≠ 0 then raise (.sysExit 1) else pure ()

/-- `Base.run_scheme` (`mlkem_test.py:125-172`) with `actual_proc` and `expect_proc`, both in `proc`.  The error message of a failed run decodes `stderr` (line 156). -/
def run_scheme (w : World) (t : Test) (s : Scheme) (proc : ByteArray → Py Bool) (cmd_prefix args : List String) : Py Bool := do
  match ← start w (.run t s cmd_prefix args) with
  | .missing => raise (.sysExit 1)
  | .unstartable => raise .error
  | .done code out err =>
    if code ≠ 0 then do
      let _ ← decode err
      raise (.sysExit code)
    else proc out

/-- `Test_Implementations.run_schemes` (`mlkem_test.py:213-253`): the results of the three runs, and the disjunction. -/
def run_schemes (w : World) (t : Test) (proc : Scheme → ByteArray → Py Bool) (cmd_prefix : List String) : Py Bool := do
  let results ← SCHEME.foldlM (fun rs s => do
    let r ← run_scheme w t s (proc s) cmd_prefix []
    pure (rs ++ [r])) []
  pure (results.foldl (· || ·) false)

/-- `Tests._run_func` (`mlkem_test.py:312-336`). -/
def run_func (w : World) (cmd_prefix : List String) (_opt : Bool) : Py Bool :=
  run_schemes w .func (fun s out => do
    let actual ← decode out
    let (sk_bytes, pk_bytes, ct_bytes) := meta_lengths s
    let expect := s!"CRYPTO_SECRETKEYBYTES:  {sk_bytes}\n" ++ s!"CRYPTO_PUBLICKEYBYTES:  {pk_bytes}\n" ++ s!"CRYPTO_CIPHERTEXTBYTES: {ct_bytes}\n"
    pure (expect != actual)) cmd_prefix

/-- `Tests._run_nistkat` (`mlkem_test.py:357-372`); `sha256sum` (`util.py:21-24`) is a parameter. -/
def run_nistkat (sha256sum : ByteArray → String) (w : World) (cmd_prefix : List String) (_opt : Bool) : Py Bool :=
  run_schemes w .nistkat (fun s out => pure (meta_nistkat s != sha256sum out)) cmd_prefix

/-- `Tests._run_kat` (`mlkem_test.py:392-407`). -/
def run_kat (sha256sum : ByteArray → String) (w : World) (cmd_prefix : List String) (_opt : Bool) : Py Bool :=
  run_schemes w .kat (fun s out => pure (meta_kat s != sha256sum out)) cmd_prefix

/-- `_expect_proc` of `_run_acvp` (`mlkem_test.py:441-454`), after `actual_proc` (438-439). -/
def acvp_proc (tc : Dict) (out : ByteArray) : Py Bool := do
  let actual ← decode out
  (splitlines actual).foldlM (fun fail l =>
    match splitEq l with
    | [k, v] => do
      let e ← getitem tc (String.ofList k)
      pure (if e.isStr = true ∧ String.ofList v = e.text then fail else true)
    | _ => raise .error) false

/-- `extra_args` of an encapsulation or decapsulation vector (`mlkem_test.py:477-493`).  When the function of the group is neither, the variable keeps what it had (`none`: it does not exist yet). -/
def encapDecap_args (tg : Group) (tc : Dict) (old : Option (List String)) : Py (Option (List String)) := do
  let f ← getitem tg.fields "function"
  if f.isStr = true ∧ f.text = "encapsulation" then do
    let ek ← getitem tc "ek"
    let m ← getitem tc "m"
    pure (some ["encapDecap", "AFT", "encapsulation", s!"ek={ek.text}", s!"m={m.text}"])
  else if f.isStr = true ∧ f.text = "decapsulation" then do
    let dk ← getitem tg.fields "dk"
    let c ← getitem tc "c"
    pure (some ["encapDecap", "VAL", "decapsulation", s!"dk={dk.text}", s!"c={c.text}"])
  else pure old

/-- The results of the parameter sets (`init_results`, `mlkem_test.py:458-463`). -/
abbrev Results := Scheme → Bool

/-- The loop over the groups of encapsulation and decapsulation vectors (`mlkem_test.py:473-504`). -/
def encapDecap_loop (w : World) (cmd_prefix : List String) (gs : List Group) : Py Results := do
  let (results, _) ← gs.foldlM (fun st tg => do
    let scheme ← from_str (← getitem tg.fields "parameterSet")
    tg.tests.foldlM (fun (st : Results × Option (List String)) tc => do
      let (results, old) := st
      let extra_args ← encapDecap_args tg tc old
      match extra_args with
      | none => raise .error
      | some args => do
        let r ← run_scheme w .acvp scheme (acvp_proc tc) cmd_prefix args
        pure (Function.update results scheme (results scheme || r), extra_args)) st) ((fun _ => false : Results), none)
  pure results

/-- The loop over the groups of key-generation vectors (`mlkem_test.py:524-544`). -/
def keyGen_loop (w : World) (cmd_prefix : List String) (gs : List Group) : Py Results :=
  gs.foldlM (fun results tg => do
    let scheme ← from_str (← getitem tg.fields "parameterSet")
    tg.tests.foldlM (fun (results : Results) tc => do
      let z ← getitem tc "z"
      let d ← getitem tc "d"
      let r ← run_scheme w .acvp scheme (acvp_proc tc) cmd_prefix ["keyGen", "AFT", s!"z={z.text}", s!"d={d.text}"]
      pure (Function.update results scheme (results scheme || r))) results) (fun _ => false)

/-- `Tests._run_acvp` (`mlkem_test.py:428-561`). -/
def run_acvp (files : Files) (w : World) (cmd_prefix : List String) (_opt : Bool) : Py Bool := do
  let results ← encapDecap_loop w cmd_prefix files.encapDecap
  let fail := (SCHEME.map results).foldl (· || ·) false
  let results ← keyGen_loop w cmd_prefix files.keyGen
  pure ((SCHEME.map results).foldl (· || ·) fail)

/-- The object `Tests` (`mlkem_test.py:262-310`): options, the contents of the vector files and the hash function of the Python library. -/
structure Tests where
  opt : String
  compile : Bool
  run : Bool
  cmd_prefix : List String
  files : Files
  sha256sum : ByteArray → String

/-- `_run_func`, `_run_nistkat`, `_run_kat`, `_run_acvp`. -/
def Tests.runner (self : Tests) (w : World) : Test → Bool → Py Bool
  | .func => run_func w self.cmd_prefix
  | .nistkat => run_nistkat self.sha256sum w self.cmd_prefix
  | .kat => run_kat self.sha256sum w self.cmd_prefix
  | .acvp => run_acvp self.files w self.cmd_prefix

/-- `Tests.func` (`mlkem_test.py:338-355`), `Tests.nistkat` (374-390), `Tests.kat` (409-426) and `Tests.acvp` (563-580), which are the same but for the test. -/
def Tests.single (self : Tests) (w : World) (t : Test) : Py Unit := do
  let one (opt : Bool) : Py Bool := do
    if self.compile then compile_schemes w t opt
    if self.run then self.runner w t opt else pure false
  let mut fail := false
  if self.opt.toLower = "all" ∨ self.opt.toLower = "no_opt" then
    fail ← if fail then pure fail else one false
  if self.opt.toLower = "all" ∨ self.opt.toLower = "opt" then
    fail ← if fail then pure fail else one true
  if fail then raise (.sysExit 1)

/-- The variable `code` of `all`: a number or an exception (which counts as true). -/
inductive Code
  | int (n : Int)
  | exc

/-- Its truth value. -/
def Code.truthy : Code → Bool
  | .int n => n != 0
  | .exc => true

/-- The inner function of `Tests.all` (`mlkem_test.py:666-699`).  `code or int(f(opt))` does not call `f` when `code` is true. -/
def Tests.all_once (self : Tests) (w : World) (ts : List Test) (opt : Bool) : Py Code := do
  let mut code := Code.int 0
  if self.compile then
    code ← ts.foldlM (fun code t => do
      match ← tryExit (compile_schemes w t opt) with
      | some _ => pure code
      | none => pure (if code.truthy then code else .exc)) code
  if self.run then
    code ← ts.foldlM (fun code t => do
      match ← tryExit (if code.truthy then pure code else do
          let r ← self.runner w t opt
          pure (.int (if r then 1 else 0))) with
      | some c => pure c
      | none => pure (if code.truthy then code else .exc)) code
  pure code

/-- The tests chosen by the four options of `all`, in the order of the lists (`mlkem_test.py:669-674, 685-690`). -/
def chosen (func kat nistkat acvp : Bool) : List Test :=
  (if func then [.func] else []) ++ (if nistkat then [.nistkat] else []) ++ (if kat then [.kat] else []) ++ (if acvp then [.acvp] else [])

/-- `Tests.all` (`mlkem_test.py:663-708`).  `exit` of an exception object prints it and gives the status 1. -/
def Tests.all (self : Tests) (w : World) (func kat nistkat acvp : Bool) : Py Unit := do
  let ts := chosen func kat nistkat acvp
  let mut exit_code := Code.int 0
  if self.opt.toLower = "all" ∨ self.opt.toLower = "no_opt" then
    exit_code ← if exit_code.truthy then pure exit_code else self.all_once w ts false
  if self.opt.toLower = "all" ∨ self.opt.toLower = "opt" then
    exit_code ← if exit_code.truthy then pure exit_code else self.all_once w ts true
  match exit_code with
  | .int n => raise (.sysExit n)
  | .exc => raise (.sysExit 1)

end Verif.Model.Driver

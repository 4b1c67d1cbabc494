import Verif.Model.KatGen
/-! Runs the executable model of the two generators of known-answer files (a test, not a proof).  The rounds are run one by one, so that the
traces need not be kept.  The hashes of the outputs are to be compared with /repo/META.yml.
Usage: cp tools/Kat.lean.txt /tmp/kat/Kat.lean; cd lean; lake env lean --run /tmp/kat/Kat.lean (nist|kat) K | sha256sum -/
open Verif Verif.Model Verif.Model.KatGen

/-- The backend. -/
def bk : Native.Backend := Native.portable

def out (n : Nat) : Buf UInt8 := Buf.uninit UInt8 n

def runNist (K : Nat) : IO Unit := do
  let stk := fun _ _ => Buf.ofList (List.replicate 16 0xdeadbeef#32)
  let mut v : Vars := ⟨⟨out 32, out 16⟩, out 48, out (MLKEM_PUBLICKEYBYTES K), out (MLKEM_SECRETKEYBYTES K), out (MLKEM_CIPHERTEXTBYTES K), out 32, out 32⟩
  let stdout ← IO.getStdout
  stdout.putStr ("# " ++ CRYPTO_ALGNAME K ++ "\n\n")
  for i in [0:100] do
    match body bk K 10 stk i v "" with
    | .ok ((none, v', s), _) => v := v'; stdout.putStr s; stdout.flush
    | .ok ((some c, _, _), _) => throw (IO.userError s!"exit {c}")
    | .error e => throw (IO.userError s!"error {repr e}")

def runKat (K : Nat) : IO Unit := do
  let seed := Buf.ofList ((List.range 64).map fun i => UInt8.ofNat (32 + i))
  let stdout ← IO.getStdout
  match KatGen.shake256_absorb bk (Buf.uninit W 26) seed 64 with
  | .error e => throw (IO.userError s!"error {repr e}")
  | .ok (st0, _) =>
    let mut st := st0
    for _ in [0:1000] do
      match katLoop bk K 10 1 (out 96) (out (MLKEM_PUBLICKEYBYTES K)) (out (MLKEM_SECRETKEYBYTES K)) (out (MLKEM_CIPHERTEXTBYTES K)) (out 32) (out 32) st "",
          Native.shake256_inc_squeeze bk (out 96) 0 96 st with
      | .ok ((0, s), _), .ok ((_, st'), _) => stdout.putStr s; stdout.flush; st := st'
      | _, _ => throw (IO.userError "failed")

def main (args : List String) : IO Unit := do
  let K := (args.getD 1 "2").toNat!
  if args.head! == "nist" then runNist K else runKat K

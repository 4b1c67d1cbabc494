import Verif.Model.Kem
/-! Runs the executable model on the ACVP vectors of /repo/test/acvp_data (a test, not a proof).
Usage: python3 tools/acvp_lines.py > /tmp/acvp/in.txt; cp tools/Acvp.lean.txt /tmp/acvp/Acvp.lean;
cd lean; lake env lean --run /tmp/acvp/Acvp.lean /tmp/acvp/in.txt -/
open Verif Verif.Model

def hexVal (c : Char) : Nat :=
  if '0' ≤ c ∧ c ≤ '9' then c.toNat - '0'.toNat
  else if 'a' ≤ c ∧ c ≤ 'f' then c.toNat - 'a'.toNat + 10
  else c.toNat - 'A'.toNat + 10

def unhex : List Char → List UInt8
  | a :: b :: r => UInt8.ofNat (16 * hexVal a + hexVal b) :: unhex r
  | _ => []

def buf (s : String) : Buf UInt8 := Buf.ofList (unhex s.toList)

def okStr {α : Type} (r : M α) (f : α → Bool) : String :=
  match r with
  | .ok (a, t) => s!"{f a} trace={t.length}"
  | .error e => s!"error {repr e}"

def main (args : List String) : IO Unit := do
  let txt ← IO.FS.readFile args.head!
  for line in txt.splitOn "\n" do
    match line.splitOn " " with
    | ["keygen", k, d, z, ek, dk] =>
      let K := k.toNat!
      let r := crypto_kem_keypair_derand K 10 (Buf.uninit UInt8 (MLKEM_PUBLICKEYBYTES K)) (Buf.uninit UInt8 (MLKEM_SECRETKEYBYTES K)) (buf (d ++ z))
      IO.println s!"keygen {K} {okStr r fun (c, pk, sk) => c == 0 && pk == buf ek && sk == buf dk}"
    | ["enc", k, ek, m, c, ss] =>
      let K := k.toNat!
      let r := crypto_kem_enc_derand K 10 (Buf.uninit UInt8 (MLKEM_CIPHERTEXTBYTES K)) (Buf.uninit UInt8 32) (buf ek) (buf m)
      IO.println s!"enc {K} {okStr r fun (r, ct, s) => r == 0 && ct == buf c && s == buf ss}"
    | ["dec", k, dk, c, ss] =>
      let K := k.toNat!
      let r := crypto_kem_dec K 10 (Buf.uninit UInt8 32) (buf c) (buf dk)
      IO.println s!"dec {K} {okStr r fun (r, s) => r == 0 && s == buf ss}"
    | _ => pure ()

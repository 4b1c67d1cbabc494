import Verif.Model.KatGen
/-! # The ACVP test program (`/repo/test/acvp_mlkem.c`)

The program is linked with a build of the library on the backend `bk`.  A C string is an object that holds its characters and a terminating zero.  A `char` is a byte: the comparisons of the code are with letters and digits, all below 128,
and give the same result whether `char` is signed or not.  What is written to `stdout` is a `String`; what is written to `stderr` is not modelled. -/
namespace Verif.Model.Acvp
open Verif Verif.Model Verif.Model.KatGen

/-- A string literal. -/
def lit (s : String) : Buf UInt8 := Buf.ofList (s.toList.map (fun c => UInt8.ofNat c.toNat) ++ [0])

/-- Loop of `strlen` with a budget of reads; the budget below is the size of the object, so that a string without terminating zero is an access outside the object.
Meaning of the C library. -/
def strlenLoop (s : Buf UInt8) : Nat → Nat → M Nat
  | 0, _ => M.fail .oob
  | r + 1, i => do
    let x ← rd s i
    branch (x == 0) (pure i) (strlenLoop s r (i + 1))

/-- `strlen(s)`.  Meaning of the C library. -/
def strlen (s : Buf UInt8) : M Nat := strlenLoop s s.size 0

/-- Loop of `strcmp`, with a budget as in `strlenLoop`.  Meaning of the C library. -/
def strcmpLoop (a b : Buf UInt8) : Nat → Nat → M Int
  | 0, _ => M.fail .oob
  | r + 1, i => do
    let x ← rd a i
    let y ← rd b i
    branch (x == y) (branch (x == 0) (pure 0) (strcmpLoop a b r (i + 1))) (pure ((x.toNat : Int) - y.toNat))

/-- `strcmp(a, b)`.  Meaning of the C library. -/
def strcmp (a b : Buf UInt8) : M Int := strcmpLoop a b a.size 0

/-- `decode_hex_char`, acvp_mlkem.c 36-54. -/
def decode_hex_char (hex : UInt8) : M UInt8 := do
  let c ← andM (decide (48 ≤ hex)) (decide (hex ≤ 57))
  branch c (pure (hex - 48)) (do
    let c ← andM (decide (65 ≤ hex)) (decide (hex ≤ 70))
    branch c (pure (10 + (hex - 65))) (do
      let c ← andM (decide (97 ≤ hex)) (decide (hex ≤ 102))
      branch c (pure (10 + (hex - 97))) (pure 0xFF)))

/-- The loop of `decode_hex`, acvp_mlkem.c 81-91, at round `i` with `r` rounds to go; `off` is where the digits start. -/
def decodeLoop (hex : Buf UInt8) (off : Nat) : Nat → Nat → Buf UInt8 → M (Int × Buf UInt8)
  | 0, _, out => do
    M.emit (.br false)
    pure (0, out)
  | r + 1, i, out => do
    M.emit (.br true)
    let c0 ← rd hex (off + 2 * i)
    let hex0 ← decode_hex_char c0
    let c1 ← rd hex (off + 2 * i + 1)
    let hex1 ← decode_hex_char c1
    let bad ← orM (hex0 == 0xFF) (hex1 == 0xFF)
    branch bad (pure (1, out)) (do
      let out ← wr out i ((hex0 <<< 4) ||| hex1)
      decodeLoop hex off r (i + 1) out)

/-- `decode_hex(prefix, out, out_len, hex)`, acvp_mlkem.c 56-101: return code and `out`.  The message on `stderr` is left out. -/
def decode_hex (pre out : Buf UInt8) (out_len : Nat) (hex : Buf UInt8) : M (Int × Buf UInt8) := do
  let hex_len ← strlen hex
  let prefix_len ← strlen pre
  let bad ← branch (decide (hex_len < prefix_len + 1)) (pure true) (do
    let c ← memcmp pre 0 hex 0 prefix_len
    branch (decide (c ≠ 0)) (pure true) (do
      let e ← rd hex prefix_len
      pure (decide (e ≠ 61))))
  branch bad (pure (1, out)) (do
    let off := prefix_len + 1
    let hex_len := hex_len - (prefix_len + 1)
    branch (decide (hex_len ≠ 2 * out_len)) (pure (1, out)) (decodeLoop hex off out_len 0 out))

/-- `print_hex(name, raw, len)`, acvp_mlkem.c 103-114, for a name that is not null: all calls have one. -/
def print_hex (out name : String) (raw : Buf UInt8) (len : Nat) : M String := do
  let out := out ++ name ++ "="
  let out ← forN len out fun i out => do
    let a ← rd raw i
    pure (out ++ hex02 true a)
  pure (out ++ "\n")

/-- `acvp_mlkem_encapDecp_AFT_encapsulation`, acvp_mlkem.c 116-128.  The return code of the library is ignored by the code. -/
def encapsulation (bk : Native.Backend) (K fuel : Nat) (ek m : Buf UInt8) : M String := do
  let (_, ct, ss) ← Native.crypto_kem_enc_derand bk K fuel (Buf.uninit UInt8 (MLKEM_CIPHERTEXTBYTES K)) (Buf.uninit UInt8 32) ek m
  let out ← print_hex "" "c" ct (MLKEM_CIPHERTEXTBYTES K)
  print_hex out "k" ss 32

/-- `acvp_mlkem_encapDecp_VAL_decapsulation`, acvp_mlkem.c 130-139.  The return code of the library is ignored by the code. -/
def decapsulation (bk : Native.Backend) (K fuel : Nat) (dk c : Buf UInt8) : M String := do
  let (_, ss) ← Native.crypto_kem_dec bk K fuel (Buf.uninit UInt8 32) c dk
  print_hex "" "k" ss 32

/-- `acvp_mlkem_keyGen_AFT`, acvp_mlkem.c 141-155. -/
def keyGen (bk : Native.Backend) (K fuel : Nat) (z d : Buf UInt8) : M String := do
  let zd ← memcpy (Buf.uninit UInt8 64) 0 d 0 32
  let zd ← memcpy zd 32 z 0 32
  let (_, ek, dk) ← Native.crypto_kem_keypair_derand bk K fuel (Buf.uninit UInt8 (MLKEM_PUBLICKEYBYTES K)) (Buf.uninit UInt8 (MLKEM_SECRETKEYBYTES K)) zd
  let out ← print_hex "" "ek" ek (MLKEM_PUBLICKEYBYTES K)
  print_hex out "dk" dk (MLKEM_SECRETKEYBYTES K)

/-- `if (argc == 0) goto usage; … *argv … argc--, argv++;`: the test for a further argument and what is done with it. -/
def next (argv : List (Buf UInt8)) (usage : M (Int × String)) (k : Buf UInt8 → List (Buf UInt8) → M (Int × String)) : M (Int × String) :=
  match argv with
  | [] => branch true usage usage
  | a :: rest => branch false usage (k a rest)

/-- `if (argc == 0 || decode_hex(name, out, n, *argv) != 0) goto usage; argc--, argv++;` -/
def hexArgument (name : String) (n : Nat) (argv : List (Buf UInt8)) (usage : M (Int × String)) (k : Buf UInt8 → List (Buf UInt8) → M (Int × String)) : M (Int × String) :=
  next argv usage fun a rest => do
    let (rc, out) ← decode_hex (lit name) (Buf.uninit UInt8 n) n a
    branch (decide (rc ≠ 0)) usage (k out rest)

/-- The `switch (mode)` of `main`, acvp_mlkem.c 207-322, after the mode and the type have been read: exit code and output. -/
def switchMode (bk : Native.Backend) (K fuel : Nat) (isEncapDecap isAFT : Bool) (argv : List (Buf UInt8)) : M (Int × String) :=
  let usage : M (Int × String) := pure (1, "")
  branch isEncapDecap
    (next argv usage fun function argv => do
      let enc ← strcmp function (lit "encapsulation")
      branch (decide (enc = 0))
        (branch (!isAFT) usage (
          hexArgument "ek" (MLKEM_INDCPA_PUBLICKEYBYTES K) argv usage fun ek argv =>
          hexArgument "m" 32 argv usage fun m _ => do
            let out ← encapsulation bk K fuel ek m
            pure (0, out)))
        (do
          let dec ← strcmp function (lit "decapsulation")
          branch (decide (dec = 0))
            (branch isAFT usage (
              hexArgument "dk" (MLKEM_SECRETKEYBYTES K) argv usage fun dk argv =>
              hexArgument "c" (MLKEM_CIPHERTEXTBYTES K) argv usage fun c _ => do
                let out ← decapsulation bk K fuel dk c
                pure (0, out)))
            usage))
    (branch (!isAFT) usage (
      hexArgument "z" 32 argv usage fun z argv =>
      hexArgument "d" 32 argv usage fun d _ => do
        let out ← keyGen bk K fuel z d
        pure (0, out)))

/-- The part of `main` that reads the type, acvp_mlkem.c 187-205, and the rest. -/
def parseType (bk : Native.Backend) (K fuel : Nat) (isEncapDecap : Bool) (argv : List (Buf UInt8)) : M (Int × String) :=
  let usage : M (Int × String) := pure (1, "")
  next argv usage fun type argv => do
    let aft ← strcmp type (lit "AFT")
    branch (decide (aft = 0)) (switchMode bk K fuel isEncapDecap true argv) (do
      let val ← strcmp type (lit "VAL")
      branch (decide (val = 0)) (switchMode bk K fuel isEncapDecap false argv) usage)

/-- `main(argc, argv)`, acvp_mlkem.c 157-343: exit code and output.  `goto usage` and the three labels like it print to `stderr` and return 1. -/
def main (bk : Native.Backend) (K fuel : Nat) (argv : List (Buf UInt8)) : M (Int × String) :=
  let usage : M (Int × String) := pure (1, "")
  next argv usage fun _ argv =>
  next argv usage fun mode argv => do
    let encapDecap ← strcmp mode (lit "encapDecap")
    branch (decide (encapDecap = 0)) (parseType bk K fuel true argv) (do
      let keyGen ← strcmp mode (lit "keyGen")
      branch (decide (keyGen = 0)) (parseType bk K fuel false argv) usage)

end Verif.Model.Acvp

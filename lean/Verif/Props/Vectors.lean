import Verif.Proof.EvalVec
import Verif.Props.Printed
import Verif.Props.Examples
/-! # Test vectors: common part

The digests of the empty string published with FIPS 202, and the steps from a result of the
specification to a result of the printed algorithms and of the code. `be n 0x…` is the string of `n`
bytes written in hexadecimal. -/
namespace Verif.Vectors
open Spec Eval Props Model

theorem eq_be {a : List UInt8} {n x : Nat} (h : a.length = n) (e : Nat.beq (leN a) (leN (be n x)) = true) : a = be n x :=
  leN_inj (by rw [h, be_length]) (Nat.eq_of_beq_eq_true e)

example : SHA3_256 [] = be 32 0xa7ffc6f8bf1ed76651c14756a061d662f580ff4de43b49fa82d80a4b80f8434a := by
  refine eq_be (by rw [SHA3_256_eq]; simp) ?_
  rw [leN_SHA3_256]; decide +kernel
example : SHA3_512 [] =
    be 64 0xa69f73cca23a9ac5c8b567dc185a756e97c982164fe25859e0d1dcc1475c80a615b2123af1f5f94c11e3e9402c3ac558f500199d95b6d3e301758586281dcd26 := by
  refine eq_be (by rw [SHA3_512_eq]; simp) ?_
  rw [leN_SHA3_512]; decide +kernel
example : SHAKE128 [] 32 = be 32 0x7f9c2ba4e88f827d616045507605853ed73b8093f6efbc88eb1a6eacfa66ef26 := by
  refine eq_be (by rw [SHAKE128_eq]; simp) ?_
  rw [leN_SHAKE128 _ _ 1 (by omega)]; decide +kernel
example : SHAKE256 [] 32 = be 32 0x46b9dd2b0ba88d13233b3feb743eeb243fcd52ea62b81b82b50c27646ed5762f := by
  refine eq_be (by rw [SHAKE256_eq]; simp) ?_
  rw [leN_SHAKE256 _ _ 1 (by omega)]; decide +kernel

theorem printed_keygen {K : Nat} (d z : List UInt8) : Printed.KeyGen_internal K (xofTurns 0) d z = KeyGen_internal K (xofBytes 0) d z := by
  rw [Printed.KeyGen_internal_eq, xofTurns_eq]
theorem printed_encaps {K : Nat} (ek m : List UInt8) : Printed.Encaps_internal K (xofTurns 0) ek m = Encaps_internal K (xofBytes 0) ek m := by
  rw [Printed.Encaps_internal_eq, xofTurns_eq]
theorem printed_decaps {K : Nat} (dk c : List UInt8) : Printed.Decaps_internal K (xofTurns 0) dk c = Decaps_internal K (xofBytes 0) dk c := by
  rw [Printed.Decaps_internal_eq, xofTurns_eq]

theorem code_keygen {K : Nat} (hK : IsParam K) {d z ek dk : List UInt8} (hd : d.length = 32) (hz : z.length = 32) (h : KeyGen_internal K (xofBytes 0) d z = some (ek, dk)) :
    Returns (crypto_kem_keypair_derand K 0 (blank (pkLen K)) (blank (skLen K)) (Buf.ofList (d ++ z))) (0, Buf.ofList ek, Buf.ofList dk) := by
  have := C79_keygen hK 0 d z hd hz (blank (pkLen K)) (blank (skLen K)) (by simp [blank]) (by simp [blank])
  rw [printed_keygen, h] at this; exact this
theorem code_encaps {K : Nat} (hK : IsParam K) {ek m k c : List UInt8} (hek : ek.length = pkLen K) (hm : m.length = 32) (h : Encaps_internal K (xofBytes 0) ek m = some (k, c) ∧ modulusCheck K ek) :
    Returns (crypto_kem_enc_derand K 0 (blank (ctLen K)) (blank 32) (Buf.ofList ek) (Buf.ofList m)) (0, Buf.ofList c, Buf.ofList k) := by
  have := C79_encaps hK 0 ek m hek hm ((Printed.modulusCheck_iff K ek).2 h.2) (blank (ctLen K)) (blank 32) (by simp [blank]) (by simp [blank])
  rw [printed_encaps, h.1] at this; exact this
theorem code_decaps {K : Nat} (hK : IsParam K) {dk c k : List UInt8} (hdk : dk.length = skLen K) (hc : c.length = ctLen K) (h : Decaps_internal K (xofBytes 0) dk c = some k ∧ hashCheck K dk) :
    Returns (crypto_kem_dec K 0 (blank 32) (Buf.ofList c) (Buf.ofList dk)) (0, Buf.ofList k) := by
  have := C79_decaps hK 0 dk c hdk hc ((Printed.hashCheck_iff K dk).2 h.2) (blank 32) (by simp [blank])
  rw [printed_decaps, h.1] at this; exact this

end Verif.Vectors

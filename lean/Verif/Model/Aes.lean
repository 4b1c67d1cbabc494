import Verif.Model.Keccak
/-! # AES of the generator of known-answer tests (`/repo/test/nistrng/aes.c`)

`uint64_t` is `BitVec 64`, `uint32_t` is `BitVec 32`; their operations wrap around as in C.  `malloc` is taken to succeed (the code ends the program if it
does not); `free` is not modelled. -/
namespace Verif.Model.Aes
open Verif Verif.Model

/-- `uint32_t`.  No line of /repo of its own. -/
abbrev W32 := BitVec 32

/-- Conversion of a byte to `uint32_t`.  C conversion: no line of /repo of its own. -/
def b32 (x : UInt8) : W32 := BitVec.ofNat 32 x.toNat

/-- Conversion of a `uint32_t` to a byte.  C conversion: no line of /repo of its own. -/
def lowByte (x : W32) : UInt8 := UInt8.ofNat x.toNat

/-- `br_dec32le`, aes.c 40-44, at `src + so`. -/
def br_dec32le (src : Buf UInt8) (so : Nat) : M W32 := do
  let a ← rd src so
  let b ← rd src (so + 1)
  let c ← rd src (so + 2)
  let d ← rd src (so + 3)
  pure (b32 a ||| (b32 b <<< 8) ||| (b32 c <<< 16) ||| (b32 d <<< 24))

/-- `br_range_dec32le`, aes.c 46-53, to `v + vo` from `src + so`; the counting `while` is a `for`. -/
def br_range_dec32le (v : Buf W32) (vo num : Nat) (src : Buf UInt8) (so : Nat) : M (Buf W32) :=
  forN num v fun i v => do
    let x ← br_dec32le src (so + 4 * i)
    wr v (vo + i) x

/-- `br_swap32`, aes.c 55-59. -/
def br_swap32 (x : W32) : W32 :=
  let x := ((x &&& 0x00FF00FF#32) <<< 8) ||| ((x >>> 8) &&& 0x00FF00FF#32)
  (x <<< 16) ||| (x >>> 16)

/-- `br_enc32le`, aes.c 61-67, at `dst + d`. -/
def br_enc32le (dst : Buf UInt8) (d : Nat) (x : W32) : M (Buf UInt8) := do
  let dst ← wr dst d (lowByte x)
  let dst ← wr dst (d + 1) (lowByte (x >>> 8))
  let dst ← wr dst (d + 2) (lowByte (x >>> 16))
  wr dst (d + 3) (lowByte (x >>> 24))

/-- `br_range_enc32le`, aes.c 69-76, to `dst + d`. -/
def br_range_enc32le (dst : Buf UInt8) (d : Nat) (v : Buf W32) (num : Nat) : M (Buf UInt8) :=
  forN num dst fun i dst => do
    let x ← rd v i
    br_enc32le dst (d + 4 * i) x

/-- The local variables of `br_aes_ct64_bitslice_Sbox`, aes.c 90-103. -/
inductive V where
  | x (i : Nat)
  | y (i : Nat)
  | t (i : Nat)
  | z (i : Nat)
  | s (i : Nat)
deriving DecidableEq

/-- The assignments that occur: `d = a ^ b`, `d = a & b`, `d = a ^ ~b`.  aes.c 117-241. -/
inductive Gate where
  | xor (d a b : V)
  | and (d a b : V)
  | xnor (d a b : V)

/-- The operation of an assignment on words of `n` bits.  C operators: no line of /repo of its own. -/
def Gate.op {n : Nat} : Gate → BitVec n → BitVec n → BitVec n
  | .xor .. => fun a b => a ^^^ b
  | .and .. => fun a b => a &&& b
  | .xnor .. => fun a b => a ^^^ ~~~b

/-- Target and operands.  No line of /repo of its own. -/
def Gate.args : Gate → V × V × V
  | .xor d a b => (d, a, b)
  | .and d a b => (d, a, b)
  | .xnor d a b => (d, a, b)

/-- Execute assignments; `none` if a variable is used that was not set.  No line of /repo of its own. -/
def runGates {n : Nat} : List Gate → (V → Option (BitVec n)) → Option (V → Option (BitVec n))
  | [], e => some e
  | g :: gs, e =>
    match e g.args.2.1, e g.args.2.2 with
    | some a, some b => runGates gs fun v => if v = g.args.1 then some (g.op a b) else e v
    | _, _ => none

/-- The assignments of `br_aes_ct64_bitslice_Sbox`, aes.c 117-241, in order. -/
def sboxGates : List Gate :=
  [.xor (.y 14) (.x 3) (.x 5), .xor (.y 13) (.x 0) (.x 6), .xor (.y 9) (.x 0) (.x 3), .xor (.y 8) (.x 0) (.x 5), .xor (.t 0) (.x 1) (.x 2),
   .xor (.y 1) (.t 0) (.x 7), .xor (.y 4) (.y 1) (.x 3), .xor (.y 12) (.y 13) (.y 14), .xor (.y 2) (.y 1) (.x 0), .xor (.y 5) (.y 1) (.x 6),
   .xor (.y 3) (.y 5) (.y 8), .xor (.t 1) (.x 4) (.y 12), .xor (.y 15) (.t 1) (.x 5), .xor (.y 20) (.t 1) (.x 1), .xor (.y 6) (.y 15) (.x 7),
   .xor (.y 10) (.y 15) (.t 0), .xor (.y 11) (.y 20) (.y 9), .xor (.y 7) (.x 7) (.y 11), .xor (.y 17) (.y 10) (.y 11), .xor (.y 19) (.y 10) (.y 8),
   .xor (.y 16) (.t 0) (.y 11), .xor (.y 21) (.y 13) (.y 16), .xor (.y 18) (.x 0) (.y 16), .and (.t 2) (.y 12) (.y 15), .and (.t 3) (.y 3) (.y 6),
   .xor (.t 4) (.t 3) (.t 2), .and (.t 5) (.y 4) (.x 7), .xor (.t 6) (.t 5) (.t 2), .and (.t 7) (.y 13) (.y 16), .and (.t 8) (.y 5) (.y 1),
   .xor (.t 9) (.t 8) (.t 7), .and (.t 10) (.y 2) (.y 7), .xor (.t 11) (.t 10) (.t 7), .and (.t 12) (.y 9) (.y 11), .and (.t 13) (.y 14) (.y 17),
   .xor (.t 14) (.t 13) (.t 12), .and (.t 15) (.y 8) (.y 10), .xor (.t 16) (.t 15) (.t 12), .xor (.t 17) (.t 4) (.t 14), .xor (.t 18) (.t 6) (.t 16),
   .xor (.t 19) (.t 9) (.t 14), .xor (.t 20) (.t 11) (.t 16), .xor (.t 21) (.t 17) (.y 20), .xor (.t 22) (.t 18) (.y 19), .xor (.t 23) (.t 19) (.y 21),
   .xor (.t 24) (.t 20) (.y 18), .xor (.t 25) (.t 21) (.t 22), .and (.t 26) (.t 21) (.t 23), .xor (.t 27) (.t 24) (.t 26), .and (.t 28) (.t 25) (.t 27),
   .xor (.t 29) (.t 28) (.t 22), .xor (.t 30) (.t 23) (.t 24), .xor (.t 31) (.t 22) (.t 26), .and (.t 32) (.t 31) (.t 30), .xor (.t 33) (.t 32) (.t 24),
   .xor (.t 34) (.t 23) (.t 33), .xor (.t 35) (.t 27) (.t 33), .and (.t 36) (.t 24) (.t 35), .xor (.t 37) (.t 36) (.t 34), .xor (.t 38) (.t 27) (.t 36),
   .and (.t 39) (.t 29) (.t 38), .xor (.t 40) (.t 25) (.t 39), .xor (.t 41) (.t 40) (.t 37), .xor (.t 42) (.t 29) (.t 33), .xor (.t 43) (.t 29) (.t 40),
   .xor (.t 44) (.t 33) (.t 37), .xor (.t 45) (.t 42) (.t 41), .and (.z 0) (.t 44) (.y 15), .and (.z 1) (.t 37) (.y 6), .and (.z 2) (.t 33) (.x 7),
   .and (.z 3) (.t 43) (.y 16), .and (.z 4) (.t 40) (.y 1), .and (.z 5) (.t 29) (.y 7), .and (.z 6) (.t 42) (.y 11), .and (.z 7) (.t 45) (.y 17),
   .and (.z 8) (.t 41) (.y 10), .and (.z 9) (.t 44) (.y 12), .and (.z 10) (.t 37) (.y 3), .and (.z 11) (.t 33) (.y 4), .and (.z 12) (.t 43) (.y 13),
   .and (.z 13) (.t 40) (.y 5), .and (.z 14) (.t 29) (.y 2), .and (.z 15) (.t 42) (.y 9), .and (.z 16) (.t 45) (.y 14), .and (.z 17) (.t 41) (.y 8),
   .xor (.t 46) (.z 15) (.z 16), .xor (.t 47) (.z 10) (.z 11), .xor (.t 48) (.z 5) (.z 13), .xor (.t 49) (.z 9) (.z 10), .xor (.t 50) (.z 2) (.z 12),
   .xor (.t 51) (.z 2) (.z 5), .xor (.t 52) (.z 7) (.z 8), .xor (.t 53) (.z 0) (.z 3), .xor (.t 54) (.z 6) (.z 7), .xor (.t 55) (.z 16) (.z 17),
   .xor (.t 56) (.z 12) (.t 48), .xor (.t 57) (.t 50) (.t 53), .xor (.t 58) (.z 4) (.t 46), .xor (.t 59) (.z 3) (.t 54), .xor (.t 60) (.t 46) (.t 57),
   .xor (.t 61) (.z 14) (.t 57), .xor (.t 62) (.t 52) (.t 58), .xor (.t 63) (.t 49) (.t 58), .xor (.t 64) (.z 4) (.t 59), .xor (.t 65) (.t 61) (.t 62),
   .xor (.t 66) (.z 1) (.t 63), .xor (.s 0) (.t 59) (.t 63), .xnor (.s 6) (.t 56) (.t 62), .xnor (.s 7) (.t 48) (.t 60), .xor (.t 67) (.t 64) (.t 65),
   .xor (.s 3) (.t 53) (.t 66), .xor (.s 4) (.t 51) (.t 66), .xor (.s 5) (.t 47) (.t 65), .xnor (.s 1) (.t 64) (.s 3), .xnor (.s 2) (.t 55) (.t 67)]

/-- The variables after `x0 = q[7]; … x7 = q[0];`, given the values loaded.  aes.c 105-112. -/
def inputs {n : Nat} (x0 x1 x2 x3 x4 x5 x6 x7 : BitVec n) : V → Option (BitVec n)
  | .x 0 => some x0
  | .x 1 => some x1
  | .x 2 => some x2
  | .x 3 => some x3
  | .x 4 => some x4
  | .x 5 => some x5
  | .x 6 => some x6
  | .x 7 => some x7
  | _ => none

/-- The value of a variable; using one that was not set is an error.  No line of /repo of its own. -/
def getV (e : V → Option W) (v : V) : M W :=
  match e v with
  | some x => pure x
  | none => M.fail .uninit

/-- `br_aes_ct64_bitslice_Sbox`, aes.c 78-251. -/
def br_aes_ct64_bitslice_Sbox (q : Buf W) : M (Buf W) := do
  let x0 ← rd q 7
  let x1 ← rd q 6
  let x2 ← rd q 5
  let x3 ← rd q 4
  let x4 ← rd q 3
  let x5 ← rd q 2
  let x6 ← rd q 1
  let x7 ← rd q 0
  match runGates sboxGates (inputs x0 x1 x2 x3 x4 x5 x6 x7) with
  | none => M.fail .uninit
  | some e =>
    let q ← wr q 7 (← getV e (.s 0))
    let q ← wr q 6 (← getV e (.s 1))
    let q ← wr q 5 (← getV e (.s 2))
    let q ← wr q 4 (← getV e (.s 3))
    let q ← wr q 3 (← getV e (.s 4))
    let q ← wr q 2 (← getV e (.s 5))
    let q ← wr q 1 (← getV e (.s 6))
    wr q 0 (← getV e (.s 7))

/-- The macro `SWAPN(cl, ch, s, q[i], q[j])`, aes.c 255-263. -/
def SWAPN (cl ch : W) (s : Nat) (i j : Nat) (q : Buf W) : M (Buf W) := do
  let a ← rd q i
  let b ← rd q j
  let q ← wr q i ((a &&& cl) ||| ((b &&& cl) <<< s))
  wr q j (((a &&& ch) >>> s) ||| (b &&& ch))

/-- The macro `SWAP2`, aes.c 265. -/
def SWAP2 (i j : Nat) (q : Buf W) : M (Buf W) := SWAPN 0x5555555555555555#64 0xAAAAAAAAAAAAAAAA#64 1 i j q

/-- The macro `SWAP4`, aes.c 266. -/
def SWAP4 (i j : Nat) (q : Buf W) : M (Buf W) := SWAPN 0x3333333333333333#64 0xCCCCCCCCCCCCCCCC#64 2 i j q

/-- The macro `SWAP8`, aes.c 267. -/
def SWAP8 (i j : Nat) (q : Buf W) : M (Buf W) := SWAPN 0x0F0F0F0F0F0F0F0F#64 0xF0F0F0F0F0F0F0F0#64 4 i j q

/-- `br_aes_ct64_ortho`, aes.c 253-283. -/
def br_aes_ct64_ortho (q : Buf W) : M (Buf W) := do
  let q ← SWAP2 0 1 q
  let q ← SWAP2 2 3 q
  let q ← SWAP2 4 5 q
  let q ← SWAP2 6 7 q
  let q ← SWAP4 0 2 q
  let q ← SWAP4 1 3 q
  let q ← SWAP4 4 6 q
  let q ← SWAP4 5 7 q
  let q ← SWAP8 0 4 q
  let q ← SWAP8 1 5 q
  let q ← SWAP8 2 6 q
  SWAP8 3 7 q

/-- The steps `x |= (x << 16); x &= …; x |= (x << 8); x &= …;` on one of the four words, aes.c 290-309. -/
def spread (w : W32) : W :=
  let x := w.setWidth 64
  let x := x ||| (x <<< 16)
  let x := x &&& 0x0000FFFF0000FFFF#64
  let x := x ||| (x <<< 8)
  x &&& 0x00FF00FF00FF00FF#64

/-- `br_aes_ct64_interleave_in(&q[i0], &q[i1], w + wo)`, aes.c 285-312. -/
def br_aes_ct64_interleave_in (q : Buf W) (i0 i1 : Nat) (w : Buf W32) (wo : Nat) : M (Buf W) := do
  let x0 ← rd w (wo + 0)
  let x1 ← rd w (wo + 1)
  let x2 ← rd w (wo + 2)
  let x3 ← rd w (wo + 3)
  let q ← wr q i0 (spread x0 ||| (spread x2 <<< 8))
  wr q i1 (spread x1 ||| (spread x3 <<< 8))

/-- The steps from `x & 0x00FF00FF00FF00FF` to the word stored, on one of the four words, aes.c 318-333. -/
def gather (q : W) : W32 :=
  let x := q &&& 0x00FF00FF00FF00FF#64
  let x := x ||| (x >>> 8)
  let x := x &&& 0x0000FFFF0000FFFF#64
  x.setWidth 32 ||| (x >>> 16).setWidth 32

/-- `br_aes_ct64_interleave_out(w + wo, q0, q1)`, aes.c 314-334. -/
def br_aes_ct64_interleave_out (w : Buf W32) (wo : Nat) (q0 q1 : W) : M (Buf W32) := do
  let w ← wr w (wo + 0) (gather q0)
  let w ← wr w (wo + 1) (gather q1)
  let w ← wr w (wo + 2) (gather (q0 >>> 8))
  wr w (wo + 3) (gather (q1 >>> 8))

/-- `Rcon`, aes.c 336-337. -/
def RconTable : Buf UInt8 := Buf.ofList [0x01, 0x02, 0x04, 0x08, 0x10, 0x20, 0x40, 0x80, 0x1B, 0x36]

/-- `sub_word`, aes.c 339-349. -/
def sub_word (x : W32) : M W32 := do
  let q : Buf W := Buf.ofList (List.replicate 8 0#64)
  let q ← wr q 0 (x.setWidth 64)
  let q ← br_aes_ct64_ortho q
  let q ← br_aes_ct64_bitslice_Sbox q
  let q ← br_aes_ct64_ortho q
  let r ← rd q 0
  pure (r.setWidth 32)

/-- One pass through the first loop of `br_aes_ct64_keysched`, aes.c 364-385, on `skey`, `tmp`, `j`, `k`. -/
def keyStep (nk i : Nat) (s : Buf W32 × W32 × Nat × Nat) : M (Buf W32 × W32 × Nat × Nat) := do
  let (skey, tmp, j, k) := s
  let tmp ← branch (decide (j = 0))
    (do
      let tmp := (tmp <<< 24) ||| (tmp >>> 8)
      let u ← sub_word tmp
      let rc ← rd RconTable k
      pure (u ^^^ b32 rc))
    (do
      let c ← andM (decide (nk > 6)) (decide (j = 4))
      branch c (sub_word tmp) (pure tmp))
  let old ← rd skey (i - nk)
  let tmp := tmp ^^^ old
  let skey ← wr skey i tmp
  let j := j + 1
  branch (decide (j = nk)) (pure (skey, tmp, 0, k + 1)) (pure (skey, tmp, j, k))

/-- The words stored for one pass through the second loop of `br_aes_ct64_keysched`, aes.c 387-403. -/
def compress (a b c d : W) : W :=
  (a &&& 0x1111111111111111#64) ||| (b &&& 0x2222222222222222#64) ||| (c &&& 0x4444444444444444#64) ||| (d &&& 0x8888888888888888#64)

/-- One pass through the second loop of `br_aes_ct64_keysched` with `i = 4 u`, `j = 2 u`, aes.c 387-403. -/
def keyPack (skey : Buf W32) (u : Nat) (comp_skey : Buf W) : M (Buf W) := do
  let q ← br_aes_ct64_interleave_in (Buf.uninit W 8) 0 4 skey (4 * u)
  let q ← wr q 1 (← rd q 0)
  let q ← wr q 2 (← rd q 0)
  let q ← wr q 3 (← rd q 0)
  let q ← wr q 5 (← rd q 4)
  let q ← wr q 6 (← rd q 4)
  let q ← wr q 7 (← rd q 4)
  let q ← br_aes_ct64_ortho q
  let c0 := compress (← rd q 0) (← rd q 1) (← rd q 2) (← rd q 3)
  let comp_skey ← wr comp_skey (2 * u + 0) c0
  let c1 := compress (← rd q 4) (← rd q 5) (← rd q 6) (← rd q 7)
  wr comp_skey (2 * u + 1) c1

/-- `br_aes_ct64_keysched`, aes.c 351-404, with the key at `key + ko`. -/
def br_aes_ct64_keysched (comp_skey : Buf W) (key : Buf UInt8) (ko key_len : Nat) : M (Buf W) := do
  let nrounds := 10 + ((key_len - 16) >>> 2)
  let nk := key_len >>> 2
  let nkf := (nrounds + 1) <<< 2
  let skey ← br_range_dec32le (Buf.uninit W32 60) 0 (key_len >>> 2) key ko
  let tmp ← rd skey ((key_len >>> 2) - 1)
  let (skey, _, _, _) ← forFrom nk (nkf - nk) (skey, tmp, 0, 0) (keyStep nk)
  forN ((nkf + 3) / 4) comp_skey (keyPack skey)

/-- One pass through the loop of `br_aes_ct64_skey_expand` with `v = 4 u`, aes.c 412-428. -/
def expandStep (comp_skey : Buf W) (u : Nat) (skey : Buf W) : M (Buf W) := do
  let x ← rd comp_skey u
  let x0 := x &&& 0x1111111111111111#64
  let x1 := (x &&& 0x2222222222222222#64) >>> 1
  let x2 := (x &&& 0x4444444444444444#64) >>> 2
  let x3 := (x &&& 0x8888888888888888#64) >>> 3
  let skey ← wr skey (4 * u + 0) ((x0 <<< 4) - x0)
  let skey ← wr skey (4 * u + 1) ((x1 <<< 4) - x1)
  let skey ← wr skey (4 * u + 2) ((x2 <<< 4) - x2)
  wr skey (4 * u + 3) ((x3 <<< 4) - x3)

/-- `br_aes_ct64_skey_expand`, aes.c 406-429. -/
def br_aes_ct64_skey_expand (skey comp_skey : Buf W) (nrounds : Nat) : M (Buf W) :=
  forN ((nrounds + 1) <<< 1) skey (expandStep comp_skey)

/-- `q[i] ^= sk[i]`, one of the statements of `add_round_key`, at `sk + so`.  aes.c 433-440. -/
def xorKey (sk : Buf W) (so i : Nat) (q : Buf W) : M (Buf W) := do
  let a ← rd q i
  let b ← rd sk (so + i)
  wr q i (a ^^^ b)

/-- `add_round_key(q, sk + so)`, aes.c 431-441. -/
def add_round_key (q sk : Buf W) (so : Nat) : M (Buf W) := do
  let q ← xorKey sk so 0 q
  let q ← xorKey sk so 1 q
  let q ← xorKey sk so 2 q
  let q ← xorKey sk so 3 q
  let q ← xorKey sk so 4 q
  let q ← xorKey sk so 5 q
  let q ← xorKey sk so 6 q
  xorKey sk so 7 q

/-- The new value of `q[i]` in `shift_rows`, aes.c 452-458. -/
def shiftWord (x : W) : W :=
  (x &&& 0x000000000000FFFF#64) ||| ((x &&& 0x00000000FFF00000#64) >>> 4) ||| ((x &&& 0x00000000000F0000#64) <<< 12) |||
    ((x &&& 0x0000FF0000000000#64) >>> 8) ||| ((x &&& 0x000000FF00000000#64) <<< 8) ||| ((x &&& 0xF000000000000000#64) >>> 12) |||
    ((x &&& 0x0FFF000000000000#64) <<< 4)

/-- `shift_rows`, aes.c 443-460. -/
def shift_rows (q : Buf W) : M (Buf W) :=
  forN 8 q fun i q => do
    let x ← rd q i
    wr q i (shiftWord x)

/-- `rotr32`, aes.c 462. -/
def rotr32 (x : W) : W := (x <<< 32) ||| (x >>> 32)

/-- `(q >> 16) | (q << 48)`, aes.c 477-484. -/
def rot16 (q : W) : W := (q >>> 16) ||| (q <<< 48)

/-- `mix_columns`, aes.c 464-494. -/
def mix_columns (q : Buf W) : M (Buf W) := do
  let q0 ← rd q 0
  let q1 ← rd q 1
  let q2 ← rd q 2
  let q3 ← rd q 3
  let q4 ← rd q 4
  let q5 ← rd q 5
  let q6 ← rd q 6
  let q7 ← rd q 7
  let r0 := rot16 q0
  let r1 := rot16 q1
  let r2 := rot16 q2
  let r3 := rot16 q3
  let r4 := rot16 q4
  let r5 := rot16 q5
  let r6 := rot16 q6
  let r7 := rot16 q7
  let q ← wr q 0 (q7 ^^^ r7 ^^^ r0 ^^^ rotr32 (q0 ^^^ r0))
  let q ← wr q 1 (q0 ^^^ r0 ^^^ q7 ^^^ r7 ^^^ r1 ^^^ rotr32 (q1 ^^^ r1))
  let q ← wr q 2 (q1 ^^^ r1 ^^^ r2 ^^^ rotr32 (q2 ^^^ r2))
  let q ← wr q 3 (q2 ^^^ r2 ^^^ q7 ^^^ r7 ^^^ r3 ^^^ rotr32 (q3 ^^^ r3))
  let q ← wr q 4 (q3 ^^^ r3 ^^^ q7 ^^^ r7 ^^^ r4 ^^^ rotr32 (q4 ^^^ r4))
  let q ← wr q 5 (q4 ^^^ r4 ^^^ r5 ^^^ rotr32 (q5 ^^^ r5))
  let q ← wr q 6 (q5 ^^^ r5 ^^^ r6 ^^^ rotr32 (q6 ^^^ r6))
  wr q 7 (q6 ^^^ r6 ^^^ r7 ^^^ rotr32 (q7 ^^^ r7))

/-- `*x = br_swap32(br_swap32(*x) + 4)` on `x + i`: `inc4_be`, aes.c 496-500. -/
def inc4_be (x : Buf W32) (i : Nat) : M (Buf W32) := do
  let a ← rd x i
  wr x i (br_swap32 (br_swap32 a + 4#32))

/-- One of the full rounds of `aes_ecb4x`, aes.c 519-525. -/
def roundStep (sk_exp : Buf W) (i : Nat) (q : Buf W) : M (Buf W) := do
  let q ← br_aes_ct64_bitslice_Sbox q
  let q ← shift_rows q
  let q ← mix_columns q
  add_round_key q sk_exp (i <<< 3)

/-- `aes_ecb4x(out + oo, ivw, sk_exp, nrounds)`, aes.c 502-534.  The `memcpy` of the sixteen words is a loop of assignments. -/
def aes_ecb4x (out : Buf UInt8) (oo : Nat) (ivw : Buf W32) (sk_exp : Buf W) (nrounds : Nat) : M (Buf UInt8) := do
  let w ← forN 16 (Buf.uninit W32 16) fun i w => do wr w i (← rd ivw i)
  let q ← forN 4 (Buf.uninit W 8) fun i q => br_aes_ct64_interleave_in q i (i + 4) w (i <<< 2)
  let q ← br_aes_ct64_ortho q
  let q ← add_round_key q sk_exp 0
  let q ← forFrom 1 (nrounds - 1) q (roundStep sk_exp)
  let q ← br_aes_ct64_bitslice_Sbox q
  let q ← shift_rows q
  let q ← add_round_key q sk_exp (8 * nrounds)
  let q ← br_aes_ct64_ortho q
  let w ← forN 4 w fun i w => do br_aes_ct64_interleave_out w (i <<< 2) (← rd q i) (← rd q (i + 4))
  br_range_enc32le out oo w 16

/-- `aes_ctr4x(out + oo, ivw, sk_exp, nrounds)`, aes.c 536-546; returns the output and the counters. -/
def aes_ctr4x (out : Buf UInt8) (oo : Nat) (ivw : Buf W32) (sk_exp : Buf W) (nrounds : Nat) : M (Buf UInt8 × Buf W32) := do
  let out ← aes_ecb4x out oo ivw sk_exp nrounds
  let ivw ← inc4_be ivw 3
  let ivw ← inc4_be ivw 7
  let ivw ← inc4_be ivw 11
  let ivw ← inc4_be ivw 15
  pure (out, ivw)

/-- `aes_ecb(out + oo, in + io, nblocks, rkeys, nrounds)`, aes.c 548-569.  `stk` is what the local array `blocks` holds at the start: the code reads all of it
but, in the last step, writes only a part of it. -/
def aes_ecb (stk : Buf W32) (out : Buf UInt8) (oo : Nat) (inp : Buf UInt8) (io nblocks : Nat) (rkeys : Buf W) (nrounds : Nat) : M (Buf UInt8) := do
  let (blocks, out, oo, io, nblocks) ← whileM nblocks
    (fun (_, _, _, _, nblocks) => pure (decide (nblocks ≥ 4)))
    (fun (blocks, out, oo, io, nblocks) => do
      let blocks ← br_range_dec32le blocks 0 16 inp io
      let out ← aes_ecb4x out oo blocks rkeys nrounds
      pure (blocks, out, oo + 64, io + 64, nblocks - 4))
    (stk, out, oo, io, nblocks)
  branch (decide (nblocks ≠ 0))
    (do
      let blocks ← br_range_dec32le blocks 0 (nblocks * 4) inp io
      let t ← aes_ecb4x (Buf.uninit UInt8 64) 0 blocks rkeys nrounds
      memcpy out oo t 0 (nblocks * 16))
    (pure out)

/-- The array `ivw` of `aes_ctr` before its loop, aes.c 574-585; the `memcpy`s of three words are loops of assignments. -/
def ctrInit (iv : Buf UInt8) : M (Buf W32) := do
  let ivw ← br_range_dec32le (Buf.uninit W32 16) 0 3 iv 0
  let ivw ← forN 3 ivw fun i ivw => do wr ivw (4 + i) (← rd ivw i)
  let ivw ← forN 3 ivw fun i ivw => do wr ivw (8 + i) (← rd ivw i)
  let ivw ← forN 3 ivw fun i ivw => do wr ivw (12 + i) (← rd ivw i)
  let ivw ← wr ivw 3 (br_swap32 0#32)
  let ivw ← wr ivw 7 (br_swap32 (0#32 + 1#32))
  let ivw ← wr ivw 11 (br_swap32 (0#32 + 2#32))
  wr ivw 15 (br_swap32 (0#32 + 3#32))

/-- `aes_ctr(out, outlen, iv, rkeys, nrounds)`, aes.c 571-602. -/
def aes_ctr (out : Buf UInt8) (outlen : Nat) (iv : Buf UInt8) (rkeys : Buf W) (nrounds : Nat) : M (Buf UInt8) := do
  let ivw ← ctrInit iv
  let (out, oo, outlen, ivw) ← whileM outlen
    (fun (_, _, outlen, _) => pure (decide (outlen > 64)))
    (fun (out, oo, outlen, ivw) => do
      let (out, ivw) ← aes_ctr4x out oo ivw rkeys nrounds
      pure (out, oo + 64, outlen - 64, ivw))
    (out, 0, outlen, ivw)
  branch (decide (outlen > 0))
    (do
      let (tmp, _) ← aes_ctr4x (Buf.uninit UInt8 64) 0 ivw rkeys nrounds
      forN outlen out fun i out => do wr out (oo + i) (← rd tmp i))
    (pure out)

/-- `aes128_ecb_keyexp`, aes.c 604-616 (and `aes128_ctr_keyexp`, 618-621); returns `sk_exp`. -/
def aes128_ecb_keyexp (key : Buf UInt8) (ko : Nat) : M (Buf W) := do
  let skey ← br_aes_ct64_keysched (Buf.uninit W 22) key ko 16
  br_aes_ct64_skey_expand (Buf.uninit W 88) skey 10

/-- `aes192_ecb_keyexp`, aes.c 623-634 (and `aes192_ctr_keyexp`, 636-639); returns `sk_exp`. -/
def aes192_ecb_keyexp (key : Buf UInt8) (ko : Nat) : M (Buf W) := do
  let skey ← br_aes_ct64_keysched (Buf.uninit W 26) key ko 24
  br_aes_ct64_skey_expand (Buf.uninit W 104) skey 12

/-- `aes256_ecb_keyexp`, aes.c 641-652 (and `aes256_ctr_keyexp`, 654-657); returns `sk_exp`. -/
def aes256_ecb_keyexp (key : Buf UInt8) (ko : Nat) : M (Buf W) := do
  let skey ← br_aes_ct64_keysched (Buf.uninit W 30) key ko 32
  br_aes_ct64_skey_expand (Buf.uninit W 120) skey 14

/-- `aes128_ecb`, aes.c 659-663. -/
def aes128_ecb (stk : Buf W32) (out inp : Buf UInt8) (nblocks : Nat) (ctx : Buf W) : M (Buf UInt8) := aes_ecb stk out 0 inp 0 nblocks ctx 10

/-- `aes128_ctr`, aes.c 665-669. -/
def aes128_ctr (out : Buf UInt8) (outlen : Nat) (iv : Buf UInt8) (ctx : Buf W) : M (Buf UInt8) := aes_ctr out outlen iv ctx 10

/-- `aes192_ecb`, aes.c 671-675. -/
def aes192_ecb (stk : Buf W32) (out inp : Buf UInt8) (nblocks : Nat) (ctx : Buf W) : M (Buf UInt8) := aes_ecb stk out 0 inp 0 nblocks ctx 12

/-- `aes192_ctr`, aes.c 677-681. -/
def aes192_ctr (out : Buf UInt8) (outlen : Nat) (iv : Buf UInt8) (ctx : Buf W) : M (Buf UInt8) := aes_ctr out outlen iv ctx 12

/-- `aes256_ecb`, aes.c 683-687. -/
def aes256_ecb (stk : Buf W32) (out inp : Buf UInt8) (nblocks : Nat) (ctx : Buf W) : M (Buf UInt8) := aes_ecb stk out 0 inp 0 nblocks ctx 14

/-- `aes256_ctr`, aes.c 689-693. -/
def aes256_ctr (out : Buf UInt8) (outlen : Nat) (iv : Buf UInt8) (ctx : Buf W) : M (Buf UInt8) := aes_ctr out outlen iv ctx 14

end Verif.Model.Aes

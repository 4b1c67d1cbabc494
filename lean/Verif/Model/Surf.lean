import Verif.Model.Aes
/-! # The random bytes of the test programs (`/repo/test/notrandombytes/notrandombytes.c`) -/
namespace Verif.Model.Surf
open Verif Verif.Model Verif.Model.Aes

/-- `seed`, notrandombytes.c 18-19. -/
def seed : Buf W32 := Buf.ofList [3, 1, 4, 1, 5, 9, 2, 6, 5, 3, 5, 8, 9, 7, 9, 3,
  2, 3, 8, 4, 6, 2, 6, 4, 3, 3, 8, 3, 2, 7, 9, 5]

/-- The static variables `in`, `out` and `outleft`, notrandombytes.c 20-22. -/
structure State where
  inp : Buf W32
  out : Buf W32
  outleft : Nat

/-- Their values at the start of a program, notrandombytes.c 20-22 (static variables are zero). -/
def start : State := ⟨Buf.ofList (List.replicate 12 0), Buf.ofList (List.replicate 8 0), 0⟩

/-- `ROTATE(x, b)`, notrandombytes.c 24. -/
def ROTATE (x : W32) (b : Nat) : W32 := (x <<< b) ||| (x >>> (32 - b))

/-- `MUSH(i, b)`, notrandombytes.c 25, on the local variables `t`, `x` and `sum`. -/
def MUSH (sum : W32) (i b : Nat) (s : Buf W32 × W32) : M (Buf W32 × W32) := do
  let (t, x) := s
  let ti ← rd t i
  let si ← rd seed i
  let v := ti + (((x ^^^ si) + sum) ^^^ ROTATE x b)
  let t ← wr t i v
  pure (t, v)

/-- The body of the loop over `r`, notrandombytes.c 49-61. -/
def round (s : (Buf W32 × W32) × W32) : M ((Buf W32 × W32) × W32) := do
  let (s, sum) := s
  let sum := sum + 0x9e3779b9
  let s ← MUSH sum 0 5 s
  let s ← MUSH sum 1 7 s
  let s ← MUSH sum 2 9 s
  let s ← MUSH sum 3 13 s
  let s ← MUSH sum 4 5 s
  let s ← MUSH sum 5 7 s
  let s ← MUSH sum 6 9 s
  let s ← MUSH sum 7 13 s
  let s ← MUSH sum 8 5 s
  let s ← MUSH sum 9 7 s
  let s ← MUSH sum 10 9 s
  let s ← MUSH sum 11 13 s
  pure (s, sum)

/-- `surf`, notrandombytes.c 27-67: from `in` to `out`. -/
def surf (inp out : Buf W32) : M (Buf W32) := do
  let t ← forN 12 (Buf.uninit W32 12) fun i t => do
    let a ← rd inp i
    let b ← rd seed (12 + i)
    wr t i (a ^^^ b)
  let out ← forN 8 out fun i out => do
    let b ← rd seed (24 + i)
    wr out i b
  let x ← rd t 11
  let (_, out) ← forN 2 (((t, x), (0 : W32)), out) fun _ (s, out) => do
    let s ← forN 16 s fun _ s => round s
    let out ← forN 8 out fun i out => do
      let a ← rd out i
      let b ← rd s.1.1 (i + 4)
      wr out i (a ^^^ b)
    pure (s, out)
  pure out

/-- `++in[i]`, notrandombytes.c 75-83. -/
def inc (inp : Buf W32) (i : Nat) : M (Buf W32 × W32) := do
  let a ← rd inp i
  let inp ← wr inp i (a + 1)
  pure (inp, a + 1)

/-- The nested increments, notrandombytes.c 75-84. -/
def next (inp : Buf W32) : M (Buf W32) := do
  let (inp, a) ← inc inp 0
  branch (a == 0)
    (do
      let (inp, a) ← inc inp 1
      branch (a == 0)
        (do
          let (inp, a) ← inc inp 2
          branch (a == 0)
            (do
              let (inp, _) ← inc inp 3
              pure inp)
            (pure inp))
        (pure inp))
    (pure inp)

/-- `randombytes(buf + bo, n)`, notrandombytes.c 69-93. -/
def randombytes (s : State) (buf : Buf UInt8) (bo n : Nat) : M (State × Buf UInt8) :=
  forN n (s, buf) fun i (s, buf) => do
    let s ← branch (s.outleft == 0)
      (do
        let inp ← next s.inp
        let out ← surf inp s.out
        pure ⟨inp, out, 8⟩)
      (pure s)
    let outleft := s.outleft - 1
    let w ← rd s.out outleft
    let buf ← wr buf (bo + i) (toU8 w.toNat)
    pure (⟨s.inp, s.out, outleft⟩, buf)

end Verif.Model.Surf

import Verif.Model.Params
/-! # Rejection sampling (`/repo/mlkem/rej_uniform.c`) -/
namespace Verif.Model

/-- Loop of `rej_uniform_scalar`, rej_uniform.c 46-67.  The state is `(r, ctr, pos)`; `ctr` and `pos` are `unsigned int` and wrap.  `buflen` iterations suffice, since
`pos` grows by 3 unless it wraps; that the budget is not exhausted is part of the theorems. -/
def rej_uniform_scalar (r : Poly) (target offset : Nat) (buf : Buf UInt8) (buflen : Nat) : M (Poly × Nat) := do
  let (r, ctr, _) ← whileM buflen
    (fun (_, ctr, pos) => andM (decide (ctr < target)) (decide (u32 (pos + 3) ≤ buflen)))
    (fun (r, ctr, pos) => do
      let val0 := ((((← rd buf (u32 (pos + 0))).toNat >>> 0) ||| ((← rd buf (u32 (pos + 1))).toNat <<< 8)) &&& 0xFFF)
      let val1 := ((((← rd buf (u32 (pos + 1))).toNat >>> 4) ||| ((← rd buf (u32 (pos + 2))).toNat <<< 4)) &&& 0xFFF)
      let pos := u32 (pos + 3)
      let (r, ctr) ← branch (decide (val0 < 3329))
        (do let r ← wr r ctr (val0 : Int); pure (r, u32 (ctr + 1)))
        (pure (r, ctr))
      let c ← andM (decide (ctr < target)) (decide (val1 < 3329))
      let (r, ctr) ← branch c
        (do let r ← wr r ctr (val1 : Int); pure (r, u32 (ctr + 1)))
        (pure (r, ctr))
      pure (r, ctr, pos))
    (r, offset, 0)
  pure (r, ctr)

/-- `rej_uniform`, rej_uniform.c 71-75 (C backend). -/
def rej_uniform (r : Poly) (target offset : Nat) (buf : Buf UInt8) (buflen : Nat) : M (Poly × Nat) :=
  rej_uniform_scalar r target offset buf buflen

end Verif.Model

import Verif.Sem
/-!
# Parameters (`/repo/mlkem/params.h`)

`MLKEM_K` is a compile-time parameter; here it is an argument `K`.  The values 2, 3, 4 are the only ones the C code accepts.
-/
namespace Verif.Model

/-- A polynomial object, `int16_t coeffs[256]` (mlkem/poly.h 25-28), or a mulcache, `int16_t coeffs[128]` (38-41). -/
abbrev Poly := Buf Int
/-- `polyvec` (mlkem/polyvec.h): array of `K` polynomials.  Also used, flattened, for the matrix `polyvec a[K]`.  mlkem/polyvec.h 15. -/
abbrev PolyVec := Array Poly

/-- mlkem/params.h 29 -/
def MLKEM_N : Nat := 256
/-- mlkem/params.h 30 -/
def MLKEM_Q : Nat := 3329
/-- mlkem/params.h 32 -/
def MLKEM_SYMBYTES : Nat := 32
/-- mlkem/params.h 33 -/
def MLKEM_SSBYTES : Nat := 32
/-- mlkem/params.h 35 -/
def MLKEM_POLYBYTES : Nat := 384
/-- mlkem/params.h 36 -/
def MLKEM_POLYVECBYTES (K : Nat) : Nat := K * MLKEM_POLYBYTES
/-- mlkem/params.h 38-53 -/
def MLKEM_ETA1 (K : Nat) : Nat := if K = 2 then 3 else 2
/-- mlkem/params.h 55 -/
def MLKEM_ETA2 : Nat := 2
/-- mlkem/params.h 38-53 -/
def MLKEM_POLYCOMPRESSEDBYTES_DV (K : Nat) : Nat := if K = 4 then 160 else 128
/-- mlkem/params.h 38-53 -/
def MLKEM_POLYCOMPRESSEDBYTES_DU (K : Nat) : Nat := if K = 4 then 352 else 320
/-- mlkem/params.h 42, 47, 52 -/
def MLKEM_POLYVECCOMPRESSEDBYTES_DU (K : Nat) : Nat := K * MLKEM_POLYCOMPRESSEDBYTES_DU K
/-- mlkem/params.h 57 -/
def MLKEM_INDCPA_MSGBYTES : Nat := MLKEM_SYMBYTES
/-- mlkem/params.h 58 -/
def MLKEM_INDCPA_PUBLICKEYBYTES (K : Nat) : Nat := MLKEM_POLYVECBYTES K + MLKEM_SYMBYTES
/-- mlkem/params.h 59 -/
def MLKEM_INDCPA_SECRETKEYBYTES (K : Nat) : Nat := MLKEM_POLYVECBYTES K
/-- mlkem/params.h 60-61 -/
def MLKEM_INDCPA_BYTES (K : Nat) : Nat :=
  MLKEM_POLYVECCOMPRESSEDBYTES_DU K + MLKEM_POLYCOMPRESSEDBYTES_DV K
/-- mlkem/params.h 63 -/
def MLKEM_PUBLICKEYBYTES (K : Nat) : Nat := MLKEM_INDCPA_PUBLICKEYBYTES K
/-- mlkem/params.h 65-67 -/
def MLKEM_SECRETKEYBYTES (K : Nat) : Nat :=
  MLKEM_INDCPA_SECRETKEYBYTES K + MLKEM_INDCPA_PUBLICKEYBYTES K + 2 * MLKEM_SYMBYTES
/-- mlkem/params.h 68 -/
def MLKEM_CIPHERTEXTBYTES (K : Nat) : Nat := MLKEM_INDCPA_BYTES K
/-- mlkem/reduce.h: `#define HALF_Q ((MLKEM_Q + 1) / 2)`.  reduce.h 14. -/
def HALF_Q : Nat := 1665
/-- mlkem/poly.h: `#define NTT_BOUND (8 * MLKEM_Q)`.  poly.h 19. -/
def NTT_BOUND : Nat := 8 * MLKEM_Q
/-- mlkem/poly.h: `#define INVNTT_BOUND (8 * MLKEM_Q)`.  poly.h 16. -/
def INVNTT_BOUND : Nat := 8 * MLKEM_Q

/-- `POLY_BOUND(ptr, bound)` (mlkem/debug/debug.h 104-120): `|coeff| < bound` for all 256 coefficients. -/
def POLY_BOUND (b : Poly) (bound : Nat) : M Unit := assertM (boundChk b 0 256 (-(bound : Int)) bound)
/-- `POLY_BOUND` on a `poly_mulcache` (128 coefficients; the macro takes the length from `sizeof`).  debug.h 104-152. -/
def MULCACHE_BOUND (b : Poly) (bound : Nat) : M Unit := assertM (boundChk b 0 128 (-(bound : Int)) bound)
/-- `POLY_UBOUND(ptr, bound)` (mlkem/debug/debug.h 112-127): `0 <= coeff < bound`. -/
def POLY_UBOUND (b : Poly) (bound : Nat) : M Unit := assertM (boundChk b 0 256 (-1) bound)
/-- `POLYVEC_BOUND` (mlkem/debug/debug.h 132-140). The loop of the macro exists in debug builds only, so it is silent. -/
def POLYVEC_BOUND (K : Nat) (v : PolyVec) (bound : Nat) : M Unit :=
  assertM ((List.range K).all fun i => match v[i]? with
    | some b => boundChk b 0 256 (-(bound : Int)) bound
    | none => false)
/-- `POLYVEC_BOUND` on a `polyvec_mulcache`.  debug.h 104-152. -/
def MULCACHEVEC_BOUND (K : Nat) (v : PolyVec) (bound : Nat) : M Unit :=
  assertM ((List.range K).all fun i => match v[i]? with
    | some b => boundChk b 0 128 (-(bound : Int)) bound
    | none => false)
/-- `POLYVEC_UBOUND` (mlkem/debug/debug.h 146-154). -/
def POLYVEC_UBOUND (K : Nat) (v : PolyVec) (bound : Nat) : M Unit :=
  assertM ((List.range K).all fun i => match v[i]? with
    | some b => boundChk b 0 256 (-1) bound
    | none => false)

/-- `SCALAR_BOUND(val, bound)` (mlkem/debug/debug.h 71-72). -/
def SCALAR_BOUND (x : Int) (bound : Nat) : M Unit := assertM (decide (-(bound : Int) < x ∧ x < bound))

/-- A freshly declared `poly`.  C semantics of a declaration without initialiser: no line of /repo of its own. -/
def newPoly : Poly := Buf.uninit Int 256
/-- A freshly declared `poly_mulcache`.  C semantics of a declaration without initialiser: no line of /repo of its own. -/
def newCache : Poly := Buf.uninit Int 128
/-- A freshly declared `polyvec`.  C semantics of a declaration without initialiser: no line of /repo of its own. -/
def newVec (K : Nat) : PolyVec := Array.replicate K newPoly
/-- A freshly declared `polyvec_mulcache`.  C semantics of a declaration without initialiser: no line of /repo of its own. -/
def newCacheVec (K : Nat) : PolyVec := Array.replicate K newCache

end Verif.Model

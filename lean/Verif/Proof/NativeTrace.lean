import Verif.Proof.NativeKem
import Verif.Proof.TraceKem
/-! # Traces of the library on top of a backend whose functions have traces that do not depend on data

`Verif.Proof.{TraceFun,TraceHash,TraceKem}` with the calls going to the backend. -/
namespace Verif.Native
open Model Spec

attribute [local irreducible] keccakF partialK finK blocksK sqByte SHAKE256 SHA3_256 SHA3_512 SHAKE128

/-- The functions of the backend that are called on secrets make the same accesses and branches whatever the data. -/
class Quiet (bk : Backend) : Prop where
  perm1 {s s' : Buf Model.W} : SI (bk.KeccakF1600_StatePermute s 0) (bk.KeccakF1600_StatePermute s' 0)
  perm25 {c : Model.W} {s s' : Buf Model.W} : At25 c s s' → SIR (bk.KeccakF1600_StatePermute s 0) (bk.KeccakF1600_StatePermute s' 0) (At25 c)
  perm {s s' : Buf Model.W} : SI (bk.KeccakF1600x4_StatePermute s) (bk.KeccakF1600x4_StatePermute s')
  ntt {r r' : Model.Poly} : SI (bk.poly_ntt r) (bk.poly_ntt r')
  intt {r r' : Model.Poly} : SI (bk.poly_invntt_tomont r) (bk.poly_invntt_tomont r')
  reduce {r r' : Model.Poly} : SI (bk.poly_reduce r) (bk.poly_reduce r')
  tomont {r r' : Model.Poly} : SI (bk.poly_tomont r) (bk.poly_tomont r')
  tobytes {r r' : Buf UInt8} {ro : Nat} {a a' : Model.Poly} : SI (bk.poly_tobytes r ro a) (bk.poly_tobytes r' ro a')
  frombytes {r r' : Model.Poly} {a a' : Buf UInt8} {ao : Nat} : SI (bk.poly_frombytes r a ao) (bk.poly_frombytes r' a' ao)
  mulcache {r r' b b' : Model.Poly} : SI (bk.poly_mulcache_compute r b) (bk.poly_mulcache_compute r' b')
  basemul {K : Nat} {r r' : Model.Poly} {a a' b b' c c' : PolyVec} :
    SI (bk.polyvec_basemul_acc_montgomery_cached K r a b c) (bk.polyvec_basemul_acc_montgomery_cached K r' a' b' c')

/-! ## The portable and the x86_64 backend -/

instance : Quiet portable where
  perm1 := si_permute
  perm25 := sir_permute25
  perm := si_permute4
  ntt := si_poly_ntt
  intt := si_poly_invntt_tomont
  reduce := si_poly_reduce
  tomont := si_poly_tomont
  tobytes := si_poly_tobytes
  frombytes := si_poly_frombytes
  mulcache := si_poly_mulcache_compute
  basemul := si_polyvec_basemul_acc_montgomery_cached

theorem si_ldw {b b' : Buf Int} {off : Nat} : ∀ n, SI (X86.ldw b off n) (X86.ldw b' off n)
  | 0 => SI.pure
  | n + 1 => by
    unfold X86.ldw
    exact SIR.bind (si_ldw n) fun _ _ _ => SIR.bind SI.rd fun _ _ _ => SI.pure

theorem si_stw {b b' : Buf Int} {off : Nat} {v v' : X86.Ymm} : ∀ n, SI (X86.stw b off v n) (X86.stw b' off v' n)
  | 0 => SI.pure
  | n + 1 => by
    unfold X86.stw
    exact SIR.bind (si_stw n) fun _ _ _ => SI.wr

theorem si_ldb {b b' : Buf UInt8} {off : Nat} : ∀ n, SI (X86.ldb b off n) (X86.ldb b' off n)
  | 0 => SI.pure
  | n + 1 => by
    unfold X86.ldb
    exact SIR.bind (si_ldb n) fun _ _ _ => SIR.bind SI.rd fun _ _ _ => SIR.bind SI.rd fun _ _ _ => SI.pure

theorem si_stb {b b' : Buf UInt8} {off : Nat} {v v' : X86.Ymm} : ∀ n, SI (X86.stb b off v n) (X86.stb b' off v' n)
  | 0 => SI.pure
  | n + 1 => by
    unfold X86.stb
    exact SIR.bind (si_stb n) fun _ _ _ => SIR.bind SI.wr fun _ _ _ => SI.wr

theorem si_lda {b b' : Buf Int} {off : Nat} : SI (X86.lda b off) (X86.lda b' off) := by
  unfold X86.lda; exact SIR.ite (si_ldw _) SI.fail

theorem si_sta {b b' : Buf Int} {off : Nat} {v v' : X86.Ymm} : SI (X86.sta b off v) (X86.sta b' off v') := by
  unfold X86.sta; exact SIR.ite (si_stw _) SI.fail

macro_rules | `(tactic| si_leaf) => `(tactic| with_reducible exact si_ldw _)
macro_rules | `(tactic| si_leaf) => `(tactic| with_reducible exact si_ldb _)
macro_rules | `(tactic| si_leaf) => `(tactic| with_reducible exact si_stb _)
macro_rules | `(tactic| si_leaf) => `(tactic| with_reducible exact si_lda)
macro_rules | `(tactic| si_leaf) => `(tactic| with_reducible exact si_sta)

theorem si_step (i : X86.Ins) {s s' : X86.St} : SI (i.step s) (i.step s') := by
  cases i <;> unfold X86.Ins.step <;> dsimp only <;> si

/-- The trace of a straight-line program is the same for all data. -/
theorem si_run : ∀ (l : List X86.Ins) {s s' : X86.St}, SI (X86.run l s) (X86.run l s')
  | [], _, _ => SI.pure
  | i :: l, _, _ => by
    unfold X86.run
    exact SIR.bind (si_step i) fun _ _ _ => si_run l

macro_rules | `(tactic| si_leaf) => `(tactic| with_reducible exact si_run _)

theorem si_runP {l : List X86.Ins} {g g' : Nat → X86.Ymm} {p p' : Model.Poly} : SI (X86.runP l g p) (X86.runP l g' p') := by
  unfold X86.runP; si

theorem silent_window {b : Buf UInt8} {o n : Nat} : Silent (X86.window b o n) := by
  unfold X86.window; split
  · exact silent_ret _
  · exact silent_fail _

theorem si_window {b b' : Buf UInt8} {o n : Nat} : SI (X86.window b o n) (X86.window b' o n) := SI.silent silent_window silent_window

macro_rules | `(tactic| si_leaf) => `(tactic| with_reducible exact si_runP)
macro_rules | `(tactic| si_leaf) => `(tactic| with_reducible exact si_window)

theorem si_mul_avx2 {g g' : Nat → X86.Ymm} {r r' a a' b b' : Model.Poly} : SI (X86.poly_basemul_montgomery_avx2 g r a b) (X86.poly_basemul_montgomery_avx2 g' r' a' b') := by
  unfold X86.poly_basemul_montgomery_avx2; si
macro_rules | `(tactic| si_leaf) => `(tactic| with_reducible exact si_mul_avx2)

theorem si_add_avx2 {r r' a a' : Model.Poly} : SI (X86.poly_add_avx2 r a) (X86.poly_add_avx2 r' a') := by
  unfold X86.poly_add_avx2; unfold forN; si
macro_rules | `(tactic| si_leaf) => `(tactic| with_reducible exact si_add_avx2)

theorem si_gather {s s' : Buf Model.W} {l : Nat} : SI (gather s l) (gather s' l) := by unfold gather; si
macro_rules | `(tactic| si_leaf) => `(tactic| with_reducible exact si_gather)
theorem si_scatter {s s' : Buf Model.W} {l : Nat} {v v' : V256} : SI (SCATTER_STORE256 s l v) (SCATTER_STORE256 s' l v') := by unfold SCATTER_STORE256; si
macro_rules | `(tactic| si_leaf) => `(tactic| with_reducible exact si_scatter)
theorem si_copyFromStateV {s s' : Buf Model.W} : SI (copyFromStateV s) (copyFromStateV s') := by unfold copyFromStateV; si
theorem si_copyToStateV {s s' : Buf Model.W} {X X' : LanesV} : SI (copyToStateV s X) (copyToStateV s' X') := by unfold copyToStateV; si
theorem si_roundM {i : Nat} {x x' : LanesV × ParityV} : SI (roundM i x) (roundM i x') := by unfold roundM; exact SIR.bind SI.rd fun _ _ _ => SI.pure
macro_rules | `(tactic| si_leaf) => `(tactic| with_reducible exact si_copyFromStateV)
macro_rules | `(tactic| si_leaf) => `(tactic| with_reducible exact si_copyToStateV)
macro_rules | `(tactic| si_leaf) => `(tactic| with_reducible exact si_roundM)

theorem si_keccak_native {s s' : Buf Model.W} : SI (keccak_f1600_x4_native s) (keccak_f1600_x4_native s') := by
  unfold keccak_f1600_x4_native KeccakP1600times4_PermuteAll_24rounds
  iterate 24 refine SIR.bind (R := Any _ _) (by si_leaf) fun _ _ _ => ?_
  exact SIR.bind SI.rd fun _ _ _ => si_copyToStateV

instance quiet_x86_64 (g : Regs) : Quiet (x86_64 g) where
  perm1 := si_permute
  perm25 := sir_permute25
  perm := si_keccak_native
  ntt := @fun _ _ => by show SI (X86.poly_ntt _ _) (X86.poly_ntt _ _); unfold X86.poly_ntt X86.ntt_native; si
  intt := @fun _ _ => by show SI (X86.poly_invntt_tomont _ _) (X86.poly_invntt_tomont _ _); unfold X86.poly_invntt_tomont X86.intt_native; si
  reduce := @fun _ _ => by show SI (X86.poly_reduce _ _) (X86.poly_reduce _ _); unfold X86.poly_reduce X86.poly_reduce_native; si
  tomont := @fun _ _ => by show SI (X86.poly_tomont _ _) (X86.poly_tomont _ _); unfold X86.poly_tomont X86.poly_tomont_native; si
  tobytes := @fun _ _ _ _ _ => by show SI (X86.poly_tobytes _ _ _ _) (X86.poly_tobytes _ _ _ _); unfold X86.poly_tobytes X86.poly_tobytes_native; si
  frombytes := @fun _ _ _ _ _ => by show SI (X86.poly_frombytes _ _ _ _) (X86.poly_frombytes _ _ _ _); unfold X86.poly_frombytes X86.poly_frombytes_native; si
  mulcache := SI.pure
  basemul := @fun K r r' a a' b b' c c' => by
    show SI (X86.polyvec_basemul_acc_montgomery_cached K (g.basemul r) r a b c) (X86.polyvec_basemul_acc_montgomery_cached K (g.basemul r') r' a' b' c')
    unfold X86.polyvec_basemul_acc_montgomery_cached X86.polyvec_basemul_acc_montgomery_cached_avx2; si

instance quiet_x86_64_bmi (g : Regs) : Quiet (x86_64_bmi g) where
  perm1 := si_permute
  perm25 := sir_permute25
  perm := si_keccak_native
  ntt := fun {r r'} => (quiet_x86_64 g).ntt (r := r) (r' := r')
  intt := fun {r r'} => (quiet_x86_64 g).intt (r := r) (r' := r')
  reduce := fun {r r'} => (quiet_x86_64 g).reduce (r := r) (r' := r')
  tomont := fun {r r'} => (quiet_x86_64 g).tomont (r := r) (r' := r')
  tobytes := fun {r r' ro a b} => (quiet_x86_64 g).tobytes (r := r) (r' := r') (ro := ro) (a := a) (a' := b)
  frombytes := fun {r r' a b ao} => (quiet_x86_64 g).frombytes (r := r) (r' := r') (a := a) (a' := b) (ao := ao)
  mulcache := SI.pure
  basemul := fun {K r r' a a' b b' c c'} => (quiet_x86_64 g).basemul (K := K) (r := r) (r' := r') (a := a) (a' := a') (b := b) (b' := b') (c := c) (c' := c')

/-! ## The functions on top -/

theorem gen_matrix_congr {bk : Backend} {K fuel : Nat} {a : PolyVec} {s s' : Buf UInt8} {so : Nat} {tr : Bool} (h : ∀ i, i < 32 → s[so + i]? = s'[so + i]?) :
    gen_matrix bk K fuel a s so tr = gen_matrix bk K fuel a s' so tr := by
  unfold gen_matrix
  rw [memcpy_congr h]

/-- Two backends whose functions make the same accesses and branches, whatever the data. -/
class Quiet2 (bk bk' : Backend) : Prop where
  perm1 {s s' : Buf Model.W} : SI (bk.KeccakF1600_StatePermute s 0) (bk'.KeccakF1600_StatePermute s' 0)
  perm25 {c : Model.W} {s s' : Buf Model.W} : At25 c s s' → SIR (bk.KeccakF1600_StatePermute s 0) (bk'.KeccakF1600_StatePermute s' 0) (At25 c)
  perm {s s' : Buf Model.W} : SI (bk.KeccakF1600x4_StatePermute s) (bk'.KeccakF1600x4_StatePermute s')
  ntt {r r' : Model.Poly} : SI (bk.poly_ntt r) (bk'.poly_ntt r')
  intt {r r' : Model.Poly} : SI (bk.poly_invntt_tomont r) (bk'.poly_invntt_tomont r')
  reduce {r r' : Model.Poly} : SI (bk.poly_reduce r) (bk'.poly_reduce r')
  tomont {r r' : Model.Poly} : SI (bk.poly_tomont r) (bk'.poly_tomont r')
  tobytes {r r' : Buf UInt8} {ro : Nat} {a a' : Model.Poly} : SI (bk.poly_tobytes r ro a) (bk'.poly_tobytes r' ro a')
  frombytes {r r' : Model.Poly} {a a' : Buf UInt8} {ao : Nat} : SI (bk.poly_frombytes r a ao) (bk'.poly_frombytes r' a' ao)
  mulcache {r r' b b' : Model.Poly} : SI (bk.poly_mulcache_compute r b) (bk'.poly_mulcache_compute r' b')
  basemul {K : Nat} {r r' : Model.Poly} {a a' b b' c c' : PolyVec} :
    SI (bk.polyvec_basemul_acc_montgomery_cached K r a b c) (bk'.polyvec_basemul_acc_montgomery_cached K r' a' b' c')

/-- Two backends whose generation of the matrix makes the same accesses and branches if the seeds are the same. -/
class QuietM (bk bk' : Backend) : Prop where
  matrix {K fuel : Nat} {s s' : Buf UInt8} {so : Nat} {ρ : List UInt8} {tr : Bool} : K = 2 ∨ K = 3 ∨ K = 4 → ρ.length = 32 → SegL s so ρ → SegL s' so ρ →
    SI (gen_matrix bk K fuel (newVec (K * K)) s so tr) (gen_matrix bk' K fuel (newVec (K * K)) s' so tr)

instance quiet_self {bk : Backend} [h : Quiet bk] : Quiet2 bk bk where
  perm1 := h.perm1
  perm25 := h.perm25
  perm := h.perm
  ntt := h.ntt
  intt := h.intt
  reduce := h.reduce
  tomont := h.tomont
  tobytes := h.tobytes
  frombytes := h.frombytes
  mulcache := h.mulcache
  basemul := h.basemul

instance quietM_self {bk : Backend} : QuietM bk bk where
  matrix := fun _ hρ hs hs' => (SIR.of_eq (gen_matrix_congr fun i hi => by rw [hs i (by omega), hs' i (by omega)])).weak

macro_rules | `(tactic| si_leaf) => `(tactic| with_reducible exact Quiet2.perm)
macro_rules | `(tactic| si_leaf) => `(tactic| with_reducible exact Quiet2.ntt)
macro_rules | `(tactic| si_leaf) => `(tactic| with_reducible exact Quiet2.intt)
macro_rules | `(tactic| si_leaf) => `(tactic| with_reducible exact Quiet2.reduce)
macro_rules | `(tactic| si_leaf) => `(tactic| with_reducible exact Quiet2.tomont)
macro_rules | `(tactic| si_leaf) => `(tactic| with_reducible exact Quiet2.tobytes)
macro_rules | `(tactic| si_leaf) => `(tactic| with_reducible exact Quiet2.frombytes)
macro_rules | `(tactic| si_leaf) => `(tactic| with_reducible exact Quiet2.mulcache)
macro_rules | `(tactic| si_leaf) => `(tactic| with_reducible exact Quiet2.basemul)


section
variable {bk bk' : Backend} [Quiet2 bk bk']

theorem si_polyvec_tobytes {K : Nat} {r r' : Buf UInt8} {ro : Nat} {a a' : PolyVec} : SI (polyvec_tobytes bk K r ro a) (polyvec_tobytes bk' K r' ro a') := by
  unfold polyvec_tobytes; si

macro_rules | `(tactic| si_leaf) => `(tactic| with_reducible exact si_polyvec_tobytes)

theorem si_polyvec_frombytes {K : Nat} {r r' : PolyVec} {a a' : Buf UInt8} {ao : Nat} : SI (polyvec_frombytes bk K r a ao) (polyvec_frombytes bk' K r' a' ao) := by
  unfold polyvec_frombytes; si

macro_rules | `(tactic| si_leaf) => `(tactic| with_reducible exact si_polyvec_frombytes)

theorem si_polyvec_ntt {K : Nat} {r r' : PolyVec} : SI (polyvec_ntt bk K r) (polyvec_ntt bk' K r') := by
  unfold polyvec_ntt; si

macro_rules | `(tactic| si_leaf) => `(tactic| with_reducible exact si_polyvec_ntt)

theorem si_polyvec_invntt_tomont {K : Nat} {r r' : PolyVec} : SI (polyvec_invntt_tomont bk K r) (polyvec_invntt_tomont bk' K r') := by
  unfold polyvec_invntt_tomont; si

macro_rules | `(tactic| si_leaf) => `(tactic| with_reducible exact si_polyvec_invntt_tomont)

theorem si_polyvec_reduce {K : Nat} {r r' : PolyVec} : SI (polyvec_reduce bk K r) (polyvec_reduce bk' K r') := by
  unfold polyvec_reduce; si

macro_rules | `(tactic| si_leaf) => `(tactic| with_reducible exact si_polyvec_reduce)

theorem si_polyvec_tomont {K : Nat} {r r' : PolyVec} : SI (polyvec_tomont bk K r) (polyvec_tomont bk' K r') := by
  unfold polyvec_tomont; si

macro_rules | `(tactic| si_leaf) => `(tactic| with_reducible exact si_polyvec_tomont)

theorem si_polyvec_mulcache_compute {K : Nat} {r r' b b' : PolyVec} : SI (polyvec_mulcache_compute bk K r b) (polyvec_mulcache_compute bk' K r' b') := by
  unfold polyvec_mulcache_compute; si

macro_rules | `(tactic| si_leaf) => `(tactic| with_reducible exact si_polyvec_mulcache_compute)

theorem si_polyvec_basemul_acc_montgomery {K : Nat} {r r' : Model.Poly} {a a' b b' : PolyVec} : SI (polyvec_basemul_acc_montgomery bk K r a b) (polyvec_basemul_acc_montgomery bk' K r' a' b') := by
  unfold polyvec_basemul_acc_montgomery; si

macro_rules | `(tactic| si_leaf) => `(tactic| with_reducible exact si_polyvec_basemul_acc_montgomery)

theorem sir_inc_absorb {s s' : Buf Model.W} {r : Nat} {m m' : Buf UInt8} {mo mlen : Nat} (hr : r < 200) (hm : mlen + 200 < 2 ^ 64) (h : Pos r s s') :
    SIR (keccak_inc_absorb bk s r m mo mlen) (keccak_inc_absorb bk' s' r m' mo mlen) (Pos r) := by
  unfold keccak_inc_absorb
  refine SIR.bind3 (R := fun a b => a.2 = b.2 ∧ ∃ c : Model.W, At25 c a.1 b.1 ∧ c.toNat + a.2.2 < r)
    (SIR.whileC (I := fun a b => a.2 = b.2 ∧ a.2.2 + 200 < 2 ^ 64 ∧ Pos r a.1 b.1)
      (L := fun a b => a.2 = b.2 ∧ a.2.2 + 200 < 2 ^ 64 ∧ ∃ c : Model.W, At25 c a.1 b.1 ∧ c.toNat < r ∧ r ≤ c.toNat + a.2.2)
      ?_ ?_ _ _ _ ⟨rfl, hm, h⟩) ?_
  · rintro ⟨s, o, n⟩ ⟨s', o', n'⟩ ⟨e, hn, c, h1, h3⟩
    obtain ⟨rfl, rfl⟩ : o = o' ∧ n = n' := by simpa using e
    dsimp only at *
    refine SIR.bind (sir_rd25 h1) fun x y ⟨hx, hy⟩ => SIR.pure ?_
    subst hx; subst hy
    have hu : u64 (n + y.toNat) = n + y.toNat := Nat.mod_eq_of_lt (by omega)
    rw [hu]
    refine ⟨rfl, fun hb => ⟨rfl, hn, y, h1, h3, ?_⟩, fun hb => ⟨rfl, y, h1, ?_⟩⟩
    · have := of_decide_eq_true hb; omega
    · have := of_decide_eq_false hb; omega
  · rintro ⟨s, o, n⟩ ⟨s', o', n'⟩ ⟨e, hn, c, h1, h3, h4⟩
    obtain ⟨rfl, rfl⟩ : o = o' ∧ n = n' := by simpa using e
    dsimp only at *
    refine SIR.bind (sir_rd25 h1) fun x y ⟨hx, hy⟩ => ?_
    subst hx; subst hy
    rw [toNat_sub64 (r := r) (Nat.le_of_lt h3) (by omega), toNat_sub64 (r := n) (c := r - y.toNat) (by omega) (by omega)]
    refine SIR.bind si_xor fun _ _ _ => SIR.bind (sir_wr25 (v := 0#64)) fun u v h => ?_
    exact SIR.bind (Quiet2.perm25 (bk := bk) (bk' := bk') h) fun a b h => SIR.pure ⟨rfl, by dsimp only; omega, 0#64, h, show 0 < r by omega⟩
  · rintro s o n s' o' n' ⟨e, c, h1, h3⟩
    obtain ⟨rfl, rfl⟩ : o = o' ∧ n = n' := by simpa using e
    dsimp only at *
    refine SIR.bind (sir_rd25 h1) fun x y ⟨hx, hy⟩ => ?_
    subst hx; subst hy
    have e1 : u32 y.toNat = y.toNat := Nat.mod_eq_of_lt (by omega)
    have e2 : u32 n = n := Nat.mod_eq_of_lt (by omega)
    rw [e1, e2]
    refine SIR.bind (sir_xor25 (by omega) h1) fun a b h => SIR.bind (sir_rd25 h) fun u v ⟨hu, hv⟩ => ?_
    subst hu; subst hv
    refine sir_wr25.mono fun _ _ h => ⟨_, h, ?_⟩
    rw [BitVec.toNat_add, BitVec.toNat_ofNat]
    omega

theorem sir_inc_squeeze {s s' : Buf Model.W} {r : Nat} {h h' : Buf UInt8} {ho n : Nat} (hp : Pos r s s') :
    SI (keccak_inc_squeeze bk h ho n s r) (keccak_inc_squeeze bk' h' ho n s' r) := by
  unfold keccak_inc_squeeze
  obtain ⟨c, h1, h3⟩ := hp
  refine SIR.bind (sir_rd25 h1) fun x y ⟨hx, hy⟩ => ?_
  subst hx; subst hy
  refine SIR.bind (R := Eq) (SIR.refl _) fun l l' e => ?_
  subst e
  refine SIR.bind si_extract fun _ _ _ => SIR.bind SI.wr fun u v h => ?_
  refine SIR.bind4 (R := Any _ _) (SIR.mono (SIR.whileM (I := fun a b => a.2.2 = b.2.2) ?_ ?_ _ _ _ rfl) fun _ _ _ => trivial) fun _ _ _ _ _ _ _ _ _ => SI.pure
  · rintro ⟨_, _, o, n⟩ ⟨_, _, o', n'⟩ e
    obtain ⟨rfl, rfl⟩ : o = o' ∧ n = n' := by simpa using e
    exact SIR.refl _
  · rintro ⟨_, _, o, n⟩ ⟨_, _, o', n'⟩ e
    obtain ⟨rfl, rfl⟩ : o = o' ∧ n = n' := by simpa using e
    dsimp only
    refine SIR.bind (Quiet2.perm1 (bk := bk) (bk' := bk')) fun _ _ _ => SIR.bind (SIR.refl _) fun l l' e => ?_
    subst e
    exact SIR.bind si_extract fun _ _ _ => SIR.bind SI.wr fun _ _ _ => SIR.pure rfl

theorem si_shake256 {o o' i i' : Buf UInt8} {oo n io l : Nat} (hl : l + 200 < 2 ^ 64) : SI (shake256 bk o oo n i io l) (shake256 bk' o' oo n i' io l) := by
  unfold shake256
  exact SIR.bind (sir_inc_init (r := SHAKE256_RATE) (by decide)) fun _ _ h => SIR.bind (sir_inc_absorb (by decide) hl h) fun _ _ h =>
    SIR.bind (sir_inc_finalize (by decide) h) fun _ _ h => SIR.bind (sir_inc_squeeze h) fun _ _ _ => SI.pure

theorem si_sha3_256 {o o' i i' : Buf UInt8} {oo io l : Nat} (hl : l + 200 < 2 ^ 64) : SI (sha3_256 bk o oo i io l) (sha3_256 bk' o' oo i' io l) := by
  unfold sha3_256
  exact SIR.bind (sir_inc_init (r := SHA3_256_RATE) (by decide)) fun _ _ h => SIR.bind (sir_inc_absorb (by decide) hl h) fun _ _ h =>
    SIR.bind (sir_inc_finalize (by decide) h) fun _ _ h => SIR.bind (sir_inc_squeeze h) fun _ _ _ => SI.pure

theorem si_sha3_512 {o o' i i' : Buf UInt8} {oo io l : Nat} (hl : l + 200 < 2 ^ 64) : SI (sha3_512 bk o oo i io l) (sha3_512 bk' o' oo i' io l) := by
  unfold sha3_512
  exact SIR.bind (sir_inc_init (r := SHA3_512_RATE) (by decide)) fun _ _ h => SIR.bind (sir_inc_absorb (by decide) hl h) fun _ _ h =>
    SIR.bind (sir_inc_finalize (by decide) h) fun _ _ h => SIR.bind (sir_inc_squeeze h) fun _ _ _ => SI.pure

theorem si_prf {o o' k k' : Buf UInt8} {n ko : Nat} {x y : UInt8} : SI (prf bk o n k ko x) (prf bk' o' n k' ko y) := by
  unfold prf
  exact SIR.bind si_memcpy fun _ _ _ => SIR.bind SI.wr fun _ _ _ => si_shake256 (by decide)

macro_rules | `(tactic| si_leaf) => `(tactic| with_reducible exact si_prf)

macro_rules | `(tactic| si_leaf) => `(tactic| with_reducible exact si_shake256 (by decide))

theorem si_rkprf {K : Nat} {o o' k k' c c' : Buf UInt8} {ko : Nat} (hK : MLKEM_CIPHERTEXTBYTES K + 200 < 2 ^ 64) : SI (rkprf bk K o k ko c) (rkprf bk' K o' k' ko c') := by
  unfold rkprf
  exact SIR.bind (sir_inc_init (r := SHAKE256_RATE) (by decide)) fun _ _ h => SIR.bind (sir_inc_absorb (by decide) (by decide) h) fun _ _ h =>
    SIR.bind (sir_inc_absorb (by decide) hK h) fun _ _ h =>
    SIR.bind (sir_inc_finalize (by decide) h) fun _ _ h => SIR.bind (sir_inc_squeeze h) fun _ _ _ => SI.pure

theorem si_keccak_absorb {s s' : Buf Model.W} {r : Nat} {m m' : Buf UInt8} {mo n : Nat} {p : UInt8} : SI (keccak_absorb bk s r m mo n p) (keccak_absorb bk' s' r m' mo n p) := by
  unfold keccak_absorb
  refine SIR.bind3 (R := fun a b => a.2 = b.2) (SIR.whileM (I := fun (a b : Buf Model.W × Nat × Nat) => a.2 = b.2) ?_ ?_ _ _ _ rfl) ?_
  · rintro ⟨_, o, n⟩ ⟨_, o', n'⟩ e
    obtain ⟨rfl, rfl⟩ : o = o' ∧ n = n' := by simpa using e
    exact SIR.refl _
  · rintro ⟨_, o, n⟩ ⟨_, o', n'⟩ e
    obtain ⟨rfl, rfl⟩ : o = o' ∧ n = n' := by simpa using e
    exact SIR.bind si_xor fun _ _ _ => SIR.bind (Quiet2.perm1 (bk := bk) (bk' := bk')) fun _ _ _ => SIR.pure rfl
  · rintro _ o n _ o' n' e
    obtain ⟨rfl, rfl⟩ : o = o' ∧ n = n' := by simpa using e
    dsimp only
    si

macro_rules | `(tactic| si_leaf) => `(tactic| with_reducible exact si_keccak_absorb)

theorem si_keccak_squeezeblocks {s s' : Buf Model.W} {r : Nat} {h h' : Buf UInt8} {ho n : Nat} : SI (keccak_squeezeblocks bk h ho n s r) (keccak_squeezeblocks bk' h' ho n s' r) := by
  unfold keccak_squeezeblocks
  refine SIR.bind4 (R := Any _ _) (SIR.mono (SIR.whileM (I := fun a b => a.2.2 = b.2.2) ?_ ?_ _ _ _ rfl) fun _ _ _ => trivial) fun _ _ _ _ _ _ _ _ _ => SI.pure
  · rintro ⟨_, _, o, n⟩ ⟨_, _, o', n'⟩ e
    obtain ⟨rfl, rfl⟩ : o = o' ∧ n = n' := by simpa using e
    exact SIR.refl _
  · rintro ⟨_, _, o, n⟩ ⟨_, _, o', n'⟩ e
    obtain ⟨rfl, rfl⟩ : o = o' ∧ n = n' := by simpa using e
    exact SIR.bind (Quiet2.perm1 (bk := bk) (bk' := bk')) fun _ _ _ => SIR.bind si_extract fun _ _ _ => SIR.pure rfl

macro_rules | `(tactic| si_leaf) => `(tactic| with_reducible exact si_keccak_squeezeblocks)

theorem si_shake128_absorb {s s' : Buf Model.W} {m m' : Buf UInt8} {mo n : Nat} : SI (shake128_absorb bk s m mo n) (shake128_absorb bk' s' m' mo n) := by
  unfold shake128_absorb; si
theorem si_shake128_squeezeblocks {s s' : Buf Model.W} {h h' : Buf UInt8} {ho n : Nat} : SI (shake128_squeezeblocks bk h ho n s) (shake128_squeezeblocks bk' h' ho n s') := by
  unfold shake128_squeezeblocks; si

macro_rules | `(tactic| si_leaf) => `(tactic| with_reducible exact si_shake128_absorb)

macro_rules | `(tactic| si_leaf) => `(tactic| with_reducible exact si_shake128_squeezeblocks)

theorem si_getnoise_eta2 {K : Nat} {r r' : Model.Poly} {s s' : Buf UInt8} {so : Nat} {n n' : UInt8} :
    SI (poly_getnoise_eta2 bk K r s so n) (poly_getnoise_eta2 bk' K r' s' so n') := by
  unfold poly_getnoise_eta2; si

macro_rules | `(tactic| si_leaf) => `(tactic| with_reducible exact si_getnoise_eta2)

theorem si_keccak_absorb_x4 {s s' : Buf Model.W} {r : Nat} {m m' : Four (Buf UInt8)} {mo n : Nat} {p : UInt8} :
    SI (keccak_absorb_x4 bk s r m mo n p) (keccak_absorb_x4 bk' s' r m' mo n p) := by
  unfold keccak_absorb_x4
  refine SIR.bind3 (R := fun a b => a.2 = b.2) (SIR.whileM (I := fun (a b : Buf Model.W × Nat × Nat) => a.2 = b.2) ?_ ?_ _ _ _ rfl) ?_
  · rintro ⟨_, o, n⟩ ⟨_, o', n'⟩ e
    obtain ⟨rfl, rfl⟩ : o = o' ∧ n = n' := by simpa using e
    exact SIR.refl _
  · rintro ⟨_, o, n⟩ ⟨_, o', n'⟩ e
    obtain ⟨rfl, rfl⟩ : o = o' ∧ n = n' := by simpa using e
    exact SIR.bind si_xor4 fun _ _ _ => SIR.bind Quiet2.perm fun _ _ _ => SIR.pure rfl
  · rintro _ o n _ o' n' e
    obtain ⟨rfl, rfl⟩ : o = o' ∧ n = n' := by simpa using e
    dsimp only
    si

theorem si_keccak_squeezeblocks_x4 {s s' : Buf Model.W} {r : Nat} {h h' : Four (Buf UInt8)} {ho n : Nat} :
    SI (keccak_squeezeblocks_x4 bk h ho n s r) (keccak_squeezeblocks_x4 bk' h' ho n s' r) := by
  unfold keccak_squeezeblocks_x4
  refine SIR.bind4 (R := Any _ _) (SIR.mono (SIR.whileM (I := fun a b => a.2.2 = b.2.2) ?_ ?_ _ _ _ rfl) fun _ _ _ => trivial) fun _ _ _ _ _ _ _ _ _ => SI.pure
  · rintro ⟨_, _, o, n⟩ ⟨_, _, o', n'⟩ e
    obtain ⟨rfl, rfl⟩ : o = o' ∧ n = n' := by simpa using e
    exact SIR.refl _
  · rintro ⟨_, _, o, n⟩ ⟨_, _, o', n'⟩ e
    obtain ⟨rfl, rfl⟩ : o = o' ∧ n = n' := by simpa using e
    exact SIR.bind Quiet2.perm fun _ _ _ => SIR.bind si_extract4 fun _ _ _ => SIR.pure rfl

macro_rules | `(tactic| si_leaf) => `(tactic| with_reducible exact si_keccak_absorb_x4)

macro_rules | `(tactic| si_leaf) => `(tactic| with_reducible exact si_keccak_squeezeblocks_x4)

theorem si_shake128x4_absorb {s s' : Buf Model.W} {m m' : Four (Buf UInt8)} {mo n : Nat} : SI (shake128x4_absorb bk s m mo n) (shake128x4_absorb bk' s' m' mo n) := by
  unfold shake128x4_absorb zeroState_x4; si

theorem si_shake256x4_absorb {s s' : Buf Model.W} {m m' : Four (Buf UInt8)} {mo n : Nat} : SI (shake256x4_absorb bk s m mo n) (shake256x4_absorb bk' s' m' mo n) := by
  unfold shake256x4_absorb zeroState_x4; si

theorem si_shake128x4_squeezeblocks {s s' : Buf Model.W} {h h' : Four (Buf UInt8)} {ho n : Nat} :
    SI (shake128x4_squeezeblocks bk h ho n s) (shake128x4_squeezeblocks bk' h' ho n s') := by
  unfold shake128x4_squeezeblocks; si

theorem si_shake256x4_squeezeblocks {s s' : Buf Model.W} {h h' : Four (Buf UInt8)} {ho n : Nat} :
    SI (shake256x4_squeezeblocks bk h ho n s) (shake256x4_squeezeblocks bk' h' ho n s') := by
  unfold shake256x4_squeezeblocks; si

macro_rules | `(tactic| si_leaf) => `(tactic| with_reducible exact si_shake256x4_absorb)

macro_rules | `(tactic| si_leaf) => `(tactic| with_reducible exact si_shake256x4_squeezeblocks)

theorem si_shake256x4 {o o' i i' : Four (Buf UInt8)} {n io l : Nat} : SI (shake256x4 bk o n i io l) (shake256x4 bk' o' n i' io l) := by
  unfold shake256x4; si

macro_rules | `(tactic| si_leaf) => `(tactic| with_reducible exact si_shake256x4)

theorem si_getnoise_eta1_4x {K : Nat} {r r' : Four Model.Poly} {s s' : Buf UInt8} {so : Nat} {n n' : Four UInt8} :
    SI (poly_getnoise_eta1_4x bk K r s so n) (poly_getnoise_eta1_4x bk' K r' s' so n') := by
  unfold poly_getnoise_eta1_4x; si

macro_rules | `(tactic| si_leaf) => `(tactic| with_reducible exact si_getnoise_eta1_4x)

theorem si_getnoise_eta2_4x {K : Nat} {r r' : Four Model.Poly} {s s' : Buf UInt8} {so : Nat} {n n' : Four UInt8} :
    SI (poly_getnoise_eta2_4x bk K r s so n) (poly_getnoise_eta2_4x bk' K r' s' so n') := by
  unfold poly_getnoise_eta2_4x; si

macro_rules | `(tactic| si_leaf) => `(tactic| with_reducible exact si_getnoise_eta2_4x)

theorem si_getnoise_eta1122_4x {K : Nat} {r r' : Four Model.Poly} {s s' : Buf UInt8} {so : Nat} {n n' : Four UInt8} :
    SI (poly_getnoise_eta1122_4x bk K r s so n) (poly_getnoise_eta1122_4x bk' K r' s' so n') := by
  unfold poly_getnoise_eta1122_4x; si

macro_rules | `(tactic| si_leaf) => `(tactic| with_reducible exact si_getnoise_eta1122_4x)

theorem si_matvec_mul {K : Nat} {o o' a a' v v' c c' : PolyVec} : SI (matvec_mul bk K o a v c) (matvec_mul bk' K o' a' v' c') := by unfold matvec_mul; si

macro_rules | `(tactic| si_leaf) => `(tactic| with_reducible exact si_matvec_mul)

theorem si_keypairNoise {K : Nat} {a a' b b' c c' : PolyVec} {s s' : Buf UInt8} {so : Nat} : SI (keypairNoise bk K a b c s so) (keypairNoise bk' K a' b' c' s' so) := by
  unfold keypairNoise; si

macro_rules | `(tactic| si_leaf) => `(tactic| with_reducible exact si_keypairNoise)

theorem si_encNoise {K : Nat} {a a' b b' c c' : PolyVec} {p p' : Model.Poly} {s s' : Buf UInt8} {so : Nat} : SI (encNoise bk K a b p c s so) (encNoise bk' K a' b' p' c' s' so) := by
  unfold encNoise; si

macro_rules | `(tactic| si_leaf) => `(tactic| with_reducible exact si_encNoise)

theorem si_pack_pk {K : Nat} {r r' : Buf UInt8} {v v' : PolyVec} {s s' : Buf UInt8} {so : Nat} : SI (pack_pk bk K r v s so) (pack_pk bk' K r' v' s' so) := by unfold pack_pk; si

theorem si_pack_sk {K : Nat} {r r' : Buf UInt8} {v v' : PolyVec} : SI (pack_sk bk K r v) (pack_sk bk' K r' v') := by unfold pack_sk; si

theorem si_unpack_sk {K : Nat} {r r' : PolyVec} {v v' : Buf UInt8} : SI (unpack_sk bk K r v) (unpack_sk bk' K r' v') := by unfold unpack_sk; si

macro_rules | `(tactic| si_leaf) => `(tactic| with_reducible exact si_pack_pk)

macro_rules | `(tactic| si_leaf) => `(tactic| with_reducible exact si_pack_sk)

macro_rules | `(tactic| si_leaf) => `(tactic| with_reducible exact si_unpack_sk)

theorem si_indcpa_dec {K : Nat} {m m' c c' sk sk' : Buf UInt8} : SI (indcpa_dec bk K m c sk) (indcpa_dec bk' K m' c' sk') := by unfold indcpa_dec; si

variable [QuietM bk bk']

/-- The trace of encryption depends on the public seed only. -/
theorem si_indcpa_enc {K fuel : Nat} {c c' m m' pk pk' r r' : Buf UInt8} {mo po ro : Nat} {ρ : List UInt8} (hK : K = 2 ∨ K = 3 ∨ K = 4) (hρ : ρ.length = 32)
    (h : SegL pk (po + MLKEM_POLYVECBYTES K) ρ) (h' : SegL pk' (po + MLKEM_POLYVECBYTES K) ρ) :
    SI (indcpa_enc bk K fuel c m mo pk po r ro) (indcpa_enc bk' K fuel c' m' mo pk' po r' ro) := by
  unfold indcpa_enc
  refine SIR.bind2 (R := fun a b => SegL a.2 0 ρ ∧ SegL b.2 0 ρ) ?_ ?_
  · unfold unpack_pk
    refine SIR.bind si_polyvec_frombytes fun _ _ _ => SIR.bind (si_memcpy.andPost (F := False) (memcpyL_spec hρ (by simp) h) (memcpyL_spec hρ (by simp) h')) fun s s' ⟨_, e, e'⟩ => ?_
    exact SIR.bind si_polyvec_reduce fun _ _ _ => SIR.pure ⟨e.segL, e'.segL⟩
  · rintro p s p' s' ⟨e, e'⟩
    dsimp only at e e' ⊢
    refine SIR.bind si_poly_frommsg fun _ _ _ => SIR.bind (QuietM.matrix hK hρ e e') fun a a' _ => ?_
    si

/-- The trace of key generation depends on the public seed only. -/
theorem si_indcpa_keypair {K fuel : Nat} {pk pk' sk sk' coins coins' : Buf UInt8} {d d' : List UInt8} (hM : Meets bk f C) (hM' : Meets bk' f' C') (hK : K = 2 ∨ K = 3 ∨ K = 4)
    (hd : d.length = 32) (hd' : d'.length = 32)
    (hc : SegL coins 0 d) (hc' : SegL coins' 0 d') (hρ : (SHA3_512 (d ++ [UInt8.ofNat K])).take 32 = (SHA3_512 (d' ++ [UInt8.ofNat K])).take 32) :
    SI (indcpa_keypair_derand bk K fuel pk sk coins) (indcpa_keypair_derand bk' K fuel pk' sk' coins') := by
  unfold indcpa_keypair_derand
  refine SIR.bind (si_memcpy.andPost (F := False) (memcpyL_spec hd (by simp) hc) (memcpyL_spec hd' (by simp) hc')) fun c1 c1' ⟨_, h1, h1'⟩ => ?_
  refine SIR.bind SIR.wr fun c2 c2' ⟨e, e', _, _⟩ => ?_
  have hs : ∀ {c1 : Buf UInt8} {d : List UInt8} (_ : d.length = 32) (_ : WrittenL (Buf.uninit UInt8 (32 + 1)) c1 0 d),
      SegL (c1.setIfInBounds 32 (some (toU8 K))) 0 (d ++ [UInt8.ofNat K]) := by
    intro c1 d hd h1
    refine SegL.ofN (n := 33) (extKey_seg hd ?_) (by simp [hd])
    unfold WrittenL at h1; rwa [hd] at h1
  subst e; subst e'
  refine SIR.bind ((si_sha3_512 (by decide)).andPost (F := False) (hash_g_spec hM (by simp [hd]) (hs hd h1) (by omega) (by simp))
    (hash_g_spec hM' (by simp [hd']) (hs hd' h1') (by omega) (by simp))) fun b b' ⟨_, hb, hb'⟩ => ?_
  have g := (G_seg hb.segL).1
  have g' := (G_seg hb'.segL).1
  have l := G1_length (d ++ [UInt8.ofNat K])
  refine SIR.bind (QuietM.matrix (ρ := (G (d ++ [UInt8.ofNat K])).1) hK l g ?_) fun a a' e => ?_
  · have e : (G (d ++ [UInt8.ofNat K])).1 = (G (d' ++ [UInt8.ofNat K])).1 := hρ
    rw [e]; exact g'
  · si

theorem si_keypair_derand {K fuel : Nat} {pk pk' sk sk' coins coins' : Buf UInt8} {d d' : List UInt8} (hM : Meets bk f C) (hM' : Meets bk' f' C') (hK : K = 2 ∨ K = 3 ∨ K = 4)
    (hd : d.length = 32) (hd' : d'.length = 32)
    (hc : SegL coins 0 d) (hc' : SegL coins' 0 d') (hρ : (SHA3_512 (d ++ [UInt8.ofNat K])).take 32 = (SHA3_512 (d' ++ [UInt8.ofNat K])).take 32) :
    SI (crypto_kem_keypair_derand bk K fuel pk sk coins) (crypto_kem_keypair_derand bk' K fuel pk' sk' coins') := by
  have hK' : MLKEM_PUBLICKEYBYTES K + 200 < 2 ^ 64 := by rcases hK with rfl | rfl | rfl <;> decide
  unfold crypto_kem_keypair_derand
  exact SIR.bind2 (si_indcpa_keypair hM hM' hK hd hd' hc hc' hρ) fun _ _ _ _ _ => SIR.bind si_memcpy fun _ _ _ => SIR.bind (si_sha3_256 hK') fun _ _ _ =>
    SIR.bind si_memcpy fun _ _ _ => SI.pure

omit [QuietM bk bk'] in
/-- Both backends decide the same about a public key, with the same trace. -/
theorem si_check_pk {K : Nat} {pk : Buf UInt8} {ek : List UInt8} (hM : Meets bk f C) (hM' : Meets bk' f' C') (hek : ek.length = K * 384 + 32) (hpk : SegL pk 0 ek) :
    SIR (check_pk bk K pk) (check_pk bk' K pk) Eq := by
  refine SIR.mono (SIR.andPost (R := Any _ _) (F := False) ?_ (check_pk_spec hM hek hpk) (check_pk_spec hM' hek hpk)) ?_
  · have h := unpack_vec_spec hM (K := K) (by omega) hpk (VAll.new K)
    have h' := unpack_vec_spec hM' (K := K) (by omega) hpk (VAll.new K)
    change PostF False _ _ at h
    change PostF False _ _ at h'
    simp only [wp_bind] at h h'
    unfold check_pk
    rw [polyvecbytes_eq]
    refine SIR.bind (si_polyvec_frombytes.andPost (F := False) h h') fun r r' ⟨_, hr, hr'⟩ => ?_
    refine SIR.bind (si_polyvec_reduce.andPost (F := False) hr hr') fun r r' ⟨_, hr, hr'⟩ => ?_
    refine SIR.bind (si_polyvec_tobytes.andPost (F := False) (polyvec_tobytes_spec hM (f := fun i c => (decode12 ek i c).val) hr (fun i c _ _ => ZMod.val_lt _) (by rw [Buf.size_uninit]; omega))
      (polyvec_tobytes_spec hM' (f := fun i c => (decode12 ek i c).val) hr' (fun i c _ _ => ZMod.val_lt _) (by rw [Buf.size_uninit]; omega))) fun b b' ⟨_, hb, hb'⟩ => ?_
    have hb := encode12_written (f := fun i c => (decode12 ek i c).val) (v := decode12 ek) hb fun _ _ _ _ => rfl
    have hb' := encode12_written (f := fun i c => (decode12 ek i c).val) (v := decode12 ek) hb' fun _ _ _ _ => rfl
    have e : b = b' := by
      rw [hb.whole (by rw [encode12_length]; simp), hb'.whole (by rw [encode12_length]; simp)]
    subst e
    exact (SIR.refl _).weak
  · rintro a b ⟨_, h, h'⟩
    rcases h with ⟨rfl, h⟩ | ⟨rfl, h⟩ <;> rcases h' with ⟨rfl, h'⟩ | ⟨rfl, h'⟩
    · rfl
    · exact absurd h h'
    · exact absurd h' h
    · rfl

theorem pk_seed {K : Nat} {b : Buf UInt8} {o : Nat} {ek : List UInt8} (hek : ek.length = K * 384 + 32) (h : SegL b o ek) : SegL b (o + MLKEM_POLYVECBYTES K) (ek.drop (K * 384)) := by
  have := h.sub (K * 384) 32 (by omega)
  rwa [List.take_of_length_le (by rw [List.length_drop]; omega), ← polyvecbytes_eq] at this

theorem si_enc_derand {K fuel : Nat} {ct ct' ss ss' pk coins coins' : Buf UInt8} {ek : List UInt8} (hM : Meets bk f C) (hM' : Meets bk' f' C') (hK : K = 2 ∨ K = 3 ∨ K = 4)
    (hek : ek.length = K * 384 + 32) (hpk : SegL pk 0 ek) :
    SI (crypto_kem_enc_derand bk K fuel ct ss pk coins) (crypto_kem_enc_derand bk' K fuel ct' ss' pk coins') := by
  have hK' : MLKEM_PUBLICKEYBYTES K + 200 < 2 ^ 64 := by rcases hK with rfl | rfl | rfl <;> decide
  unfold crypto_kem_enc_derand
  refine SIR.bind (si_check_pk hM hM' hek hpk) fun c c' e => ?_
  subst e
  exact SIR.branch SI.pure (SIR.bind si_memcpy fun _ _ _ => SIR.bind (si_sha3_256 hK') fun _ _ _ => SIR.bind (si_sha3_512 (by decide)) fun _ _ _ =>
    SIR.bind (si_indcpa_enc hK (by rw [List.length_drop]; omega) (pk_seed hek hpk) (pk_seed hek hpk)) fun _ _ _ => SIR.bind si_memcpy fun _ _ _ => SI.pure)

theorem si_dec {K fuel : Nat} {ss ss' ct ct' sk sk' : Buf UInt8} {ek h : List UInt8} (hM : Meets bk f C) (hM' : Meets bk' f' C') (hK : K = 2 ∨ K = 3 ∨ K = 4)
    (hek : ek.length = K * 384 + 32) (hh : h.length = 32)
    (h1 : SegL sk (MLKEM_INDCPA_SECRETKEYBYTES K) ek) (h1' : SegL sk' (MLKEM_INDCPA_SECRETKEYBYTES K) ek)
    (h2 : SegL sk (MLKEM_SECRETKEYBYTES K - 2 * 32) h) (h2' : SegL sk' (MLKEM_SECRETKEYBYTES K - 2 * 32) h) :
    SI (crypto_kem_dec bk K fuel ss ct sk) (crypto_kem_dec bk' K fuel ss' ct' sk') := by
  have hK1 : MLKEM_PUBLICKEYBYTES K + 200 < 2 ^ 64 := by rcases hK with rfl | rfl | rfl <;> decide
  have hK2 : MLKEM_CIPHERTEXTBYTES K + 200 < 2 ^ 64 := by rcases hK with rfl | rfl | rfl <;> decide
  have hek' : ek.length = MLKEM_PUBLICKEYBYTES K := by rw [pkbytes_eq, hek]
  unfold crypto_kem_dec
  refine SIR.bind (R := Eq) ?_ ?_
  · unfold check_sk
    refine SIR.bind ((si_sha3_256 hK1).andPost (F := False) (hash_h_spec hM hek' h1 hK1 (by simp)) (hash_h_spec hM' hek' h1' hK1 (by simp))) fun t t' ⟨_, ht, ht'⟩ => ?_
    have e : t = t' := by rw [ht.whole (by rw [H_length]; simp), ht'.whole (by rw [H_length]; simp)]
    subst e
    refine SIR.bind (SIR.of_eq (memcmp_congr fun j hj => ⟨?_, rfl⟩)) fun d d' e => ?_
    · rw [h2 j (by omega), h2' j (by omega)]
    · subst e; exact SIR.refl _
  · rintro c _ rfl
    exact SIR.branch SI.pure (SIR.bind si_indcpa_dec fun _ _ _ => SIR.bind si_memcpy fun _ _ _ => SIR.bind (si_sha3_512 (by decide)) fun _ _ _ =>
      SIR.bind (si_indcpa_enc hK (by rw [List.length_drop]; omega) (pk_seed hek h1) (pk_seed hek h1')) fun _ _ _ => SIR.bind si_ct_memcmp fun _ _ _ =>
      SIR.bind (si_rkprf hK2) fun _ _ _ => SIR.bind si_ct_cmov_zero fun _ _ _ => SI.pure)

end

/-! ## Two runs on an x86_64 machine with different contents of the vector registers -/

section
variable (g g' : Regs)

theorem si_vmod2 {a a' : PolyVec} {i : Nat} {p p' : Model.Poly → M Model.Poly} (h : ∀ x y, SI (p x) (p' y)) : SI (vmod a i p) (vmod a' i p') := by
  unfold vmod
  exact SIR.bind (R := Any _ _) (by si) fun _ _ _ => SIR.bind (h _ _) fun _ _ _ => by si

theorem si_matrix_x86 {rej : Model.Poly → Nat → Nat → Buf UInt8 → Nat → M (Model.Poly × Nat)} {K fuel : Nat} {a : PolyVec} {s : Buf UInt8} {so : Nat} {tr : Bool} :
    SI (gen_matrix { x86_64 g with rej_uniform := rej } K fuel a s so tr) (gen_matrix { x86_64 g' with rej_uniform := rej } K fuel a s so tr) := by
  unfold gen_matrix
  iterate 4 refine SIR.bind (SIR.refl _) fun s s' e => ?_; subst e
  refine SIR.bind2 (R := Eq) (SIR.refl _) fun a s a' s' e => ?_
  obtain ⟨rfl, rfl⟩ := Prod.mk.inj e
  refine SIR.bind2 (R := Eq) (SIR.refl _) fun a s a' s' e => ?_
  obtain ⟨rfl, rfl⟩ := Prod.mk.inj e
  refine SIR.bind (SIR.refl _) fun _ _ _ => ?_
  show SI (forN K _ fun i a => forN K a fun j a => vmod a (K * i + j) fun p => X86.poly_permute_bitrev_to_custom (g.permute p) p)
    (forN K _ fun i a => forN K a fun j a => vmod a (K * i + j) fun p => X86.poly_permute_bitrev_to_custom (g'.permute p) p)
  unfold forN
  exact SI.forFrom fun i a a' => SI.forFrom fun j a a' => si_vmod2 fun x y => by unfold X86.poly_permute_bitrev_to_custom; si

instance quietM_x86_64 : QuietM (x86_64 g) (x86_64 g') where
  matrix := @fun K fuel s s' so _ tr _ hρ hs hs' => by
    rw [gen_matrix_congr (s := s') (s' := s) fun i hi => by rw [hs i (by omega), hs' i (by omega)]]
    exact si_matrix_x86 g g' (rej := rej_uniform_x86)

instance quietM_x86_64_bmi : QuietM (x86_64_bmi g) (x86_64_bmi g') where
  matrix := @fun K fuel s s' so _ tr _ hρ hs hs' => by
    rw [gen_matrix_congr (s := s') (s' := s) fun i hi => by rw [hs i (by omega), hs' i (by omega)]]
    exact si_matrix_x86 g g' (rej := rej_uniform_x86_bmi)

instance quiet2_x86_64 : Quiet2 (x86_64 g) (x86_64 g') where
  perm1 := si_permute
  perm25 := sir_permute25
  perm := si_keccak_native
  ntt := @fun _ _ => by show SI (X86.poly_ntt _ _) (X86.poly_ntt _ _); unfold X86.poly_ntt X86.ntt_native; si
  intt := @fun _ _ => by show SI (X86.poly_invntt_tomont _ _) (X86.poly_invntt_tomont _ _); unfold X86.poly_invntt_tomont X86.intt_native; si
  reduce := @fun _ _ => by show SI (X86.poly_reduce _ _) (X86.poly_reduce _ _); unfold X86.poly_reduce X86.poly_reduce_native; si
  tomont := @fun _ _ => by show SI (X86.poly_tomont _ _) (X86.poly_tomont _ _); unfold X86.poly_tomont X86.poly_tomont_native; si
  tobytes := @fun _ _ _ _ _ => by show SI (X86.poly_tobytes _ _ _ _) (X86.poly_tobytes _ _ _ _); unfold X86.poly_tobytes X86.poly_tobytes_native; si
  frombytes := @fun _ _ _ _ _ => by show SI (X86.poly_frombytes _ _ _ _) (X86.poly_frombytes _ _ _ _); unfold X86.poly_frombytes X86.poly_frombytes_native; si
  mulcache := SI.pure
  basemul := @fun K r r' a a' b b' c c' => by
    show SI (X86.polyvec_basemul_acc_montgomery_cached K (g.basemul r) r a b c) (X86.polyvec_basemul_acc_montgomery_cached K (g'.basemul r') r' a' b' c')
    unfold X86.polyvec_basemul_acc_montgomery_cached X86.polyvec_basemul_acc_montgomery_cached_avx2; si

instance quiet2_x86_64_bmi : Quiet2 (x86_64_bmi g) (x86_64_bmi g') where
  perm1 := si_permute
  perm25 := sir_permute25
  perm := si_keccak_native
  ntt := fun {r r'} => (quiet2_x86_64 g g').ntt (r := r) (r' := r')
  intt := fun {r r'} => (quiet2_x86_64 g g').intt (r := r) (r' := r')
  reduce := fun {r r'} => (quiet2_x86_64 g g').reduce (r := r) (r' := r')
  tomont := fun {r r'} => (quiet2_x86_64 g g').tomont (r := r) (r' := r')
  tobytes := fun {r r' ro a b} => (quiet2_x86_64 g g').tobytes (r := r) (r' := r') (ro := ro) (a := a) (a' := b)
  frombytes := fun {r r' a b ao} => (quiet2_x86_64 g g').frombytes (r := r) (r' := r') (a := a) (a' := b) (ao := ao)
  mulcache := SI.pure
  basemul := fun {K r r' a a' b b' c c'} => (quiet2_x86_64 g g').basemul (K := K) (r := r) (r' := r') (a := a) (a' := a') (b := b) (b' := b') (c := c) (c' := c')
end

/-! ## The generation of the matrix by two backends whose rejection sampling ignores the previous contents of the output -/

section
variable {bk bk' : Backend} {f f' : Nat → Nat} {C C' : Model.Poly → (Nat → Int) → Prop}

theorem written_det {b c c' : Buf UInt8} {o n : Nat} {f : Nat → UInt8} (h : Written b c o n f) (h' : Written b c' o n f) : c = c' := by
  refine Array.ext_getElem? fun i => ?_
  by_cases hi : o ≤ i ∧ i < o + n
  · have e : i = o + (i - o) := by omega
    rw [e, h.seg (i - o) (by omega), h'.seg (i - o) (by omega)]
  · rw [h.2.2 i (by omega), h'.2.2 i (by omega)]

theorem written4_det {b c c' : Four (Buf UInt8)} {o n : Nat} {f : Nat → Nat → UInt8} (h : Written4 b c o n f) (h' : Written4 b c' o n f) : c = c' := by
  cases c; cases c'
  simp only [Four.mk.injEq]
  exact ⟨written_det h.s0 h'.s0, written_det h.s1 h'.s1, written_det h.s2 h'.s2, written_det h.s3 h'.s3⟩

/-- The two rejection samplers take the same branches, make the same accesses and return the same count on the same bytes. -/
def RejAlike (bk bk' : Backend) : Prop :=
  ∀ v v' n buf len, SIR (bk.rej_uniform v 256 n buf len) (bk'.rej_uniform v' 256 n buf len) (fun a b => a.2 = b.2)

theorem si_gen_matrix_entry [Quiet2 bk bk'] (hM : Meets bk f C) (hM' : Meets bk' f' C') (hr : RejAlike bk bk') {fuel : Nat} {e e' : Model.Poly} {seed : Buf UInt8} {B : Nat → UInt8}
    (hs : Seg seed 0 34 B) : SI (gen_matrix_entry bk fuel e seed) (gen_matrix_entry bk' fuel e' seed) := by
  unfold gen_matrix_entry shake128_squeezeblocks
  rw [NB_eq, show SHAKE128_RATE = 168 from rfl]
  refine SIR.bind (si_shake128_absorb.andPost (F := False) (shake128_absorb_spec hM (by simp) hs) (shake128_absorb_spec hM' (by simp) hs)) fun s1 s1' ⟨_, hs1, hs1'⟩ => ?_
  refine SIR.bind2 (si_keccak_squeezeblocks.andPost (F := False) (keccak_squeezeblocks_spec hM (k := 0) (by omega) (by omega) hs1.2 (by simp))
    (keccak_squeezeblocks_spec hM' (k := 0) (by omega) (by omega) hs1'.2 (by simp))) fun b s b' s' ⟨_, hx, hx'⟩ => ?_
  have eb := written_det hx.1 hx'.1
  have hz := hx.1.1
  dsimp only at eb hz hx hx' ⊢
  subst eb
  refine SIR.bind2 (hr _ _ _ _ _) fun v c v' c' e => ?_
  dsimp only at e ⊢
  subst e
  refine SIR.bind4 (R := Any _ _) (SIR.mono (SIR.whileM (I := fun (x y : Model.Poly × Nat × Buf UInt8 × Buf Model.W) => x.2.1 = y.2.1 ∧ x.2.2.1 = y.2.2.1 ∧ x.2.2.1.size = 3 * 168 ∧
      ∃ k, SegK x.2.2.2 0 (iter keccakF k (finK 168 B 34 0x1F)) ∧ SegK y.2.2.2 0 (iter keccakF k (finK 168 B 34 0x1F))) ?_ ?_ _ _ _
        ⟨rfl, rfl, hz.trans (by simp), _, hx.2.2, hx'.2.2⟩) fun _ _ _ => trivial) fun _ _ _ _ _ _ _ _ _ => SI.pure
  · rintro ⟨v, c, b, s⟩ ⟨v', c', b', s'⟩ ⟨rfl, -⟩
    exact SIR.refl _
  · rintro ⟨v, c, b, s⟩ ⟨v', c', b', s'⟩ ⟨rfl, rfl, hz, k, h, h'⟩
    dsimp only at h h' hz ⊢
    refine SIR.bind2 (si_keccak_squeezeblocks.andPost (F := False) (keccak_squeezeblocks_spec hM (k := k) (by omega) (by omega) h (by omega))
      (keccak_squeezeblocks_spec hM' (k := k) (by omega) (by omega) h' (by omega))) fun b s b' s' ⟨_, hx, hx'⟩ => ?_
    have eb := written_det hx.1 hx'.1
    have hz' := hx.1.1
    dsimp only at eb hz' hx hx' ⊢
    subst eb
    refine SIR.bind2 (hr _ _ _ _ _) fun v c v' c' e => ?_
    dsimp only at e ⊢
    subst e
    exact SIR.pure ⟨rfl, rfl, hz'.trans hz, _, hx.2.2, hx'.2.2⟩

theorem si_gen_matrix_entry_x4 [Quiet2 bk bk'] (hM : Meets bk f C) (hM' : Meets bk' f' C') (hr : RejAlike bk bk') {fuel : Nat} {e e' : Four Model.Poly} {seed : Four (Buf UInt8)}
    {B : Nat → Nat → UInt8} (hs : Seg4 seed 0 34 B) : SI (gen_matrix_entry_x4 bk fuel e seed) (gen_matrix_entry_x4 bk' fuel e' seed) := by
  unfold gen_matrix_entry_x4 shake128x4_squeezeblocks
  rw [NB_eq, show SHAKE128_RATE = 168 from rfl]
  refine SIR.bind (si_shake128x4_absorb.andPost (F := False) (shake128x4_absorb_spec hM (by simp) hs) (shake128x4_absorb_spec hM' (by simp) hs)) fun s1 s1' ⟨_, hs1, hs1'⟩ => ?_
  have sz : Size4 (Four.rep (Buf.uninit UInt8 (3 * 168))) (0 + 3 * 168) := ⟨by simp [Four.rep], by simp [Four.rep], by simp [Four.rep], by simp [Four.rep]⟩
  refine SIR.bind2 (si_keccak_squeezeblocks_x4.andPost (F := False) (keccak_squeezeblocks_x4_spec hM (k := 0) (by omega) (by omega) hs1.1 hs1.2 sz)
    (keccak_squeezeblocks_x4_spec hM' (k := 0) (by omega) (by omega) hs1'.1 hs1'.2 sz)) fun b s b' s' ⟨_, hx, hx'⟩ => ?_
  have eb := written4_det hx.1 hx'.1
  have hz := hx.1.size sz
  dsimp only at eb hz hx hx' ⊢
  subst eb
  refine SIR.bind2 (hr _ _ _ _ _) fun v0 c0 v0' c0' e0 => SIR.bind2 (hr _ _ _ _ _) fun v1 c1 v1' c1' e1 => SIR.bind2 (hr _ _ _ _ _) fun v2 c2 v2' c2' e2 =>
    SIR.bind2 (hr _ _ _ _ _) fun v3 c3 v3' c3' e3 => ?_
  dsimp only at e0 e1 e2 e3 ⊢
  subst e0; subst e1; subst e2; subst e3
  refine SIR.bind4 (R := Any _ _) (SIR.mono (SIR.whileM (I := fun (x y : Four Model.Poly × Four Nat × Four (Buf UInt8) × Buf Model.W) => x.2.1 = y.2.1 ∧ x.2.2.1 = y.2.2.1 ∧
      Size4 x.2.2.1 (0 + 3 * 168) ∧ x.2.2.2.size = 100 ∧ y.2.2.2.size = 100 ∧
      ∃ k, State4 x.2.2.2 (fun w => iter keccakF k (finK 168 (B w) 34 0x1F)) ∧ State4 y.2.2.2 (fun w => iter keccakF k (finK 168 (B w) 34 0x1F))) ?_ ?_ _ _ _
        ⟨rfl, rfl, hz, hx.2.1.trans hs1.1, hx'.2.1.trans hs1'.1, _, hx.2.2, hx'.2.2⟩) fun _ _ _ => trivial) fun _ _ _ _ _ _ _ _ _ => SI.pure
  · rintro ⟨v, c, b, s⟩ ⟨v', c', b', s'⟩ ⟨rfl, -⟩
    exact SIR.refl _
  · rintro ⟨v, c, b, s⟩ ⟨v', c', b', s'⟩ ⟨rfl, rfl, hz, h100, h100', k, h, h'⟩
    dsimp only at h h' hz h100 h100' ⊢
    refine SIR.bind2 (si_keccak_squeezeblocks_x4.andPost (F := False) (keccak_squeezeblocks_x4_spec hM (k := k) (by omega) (by omega) h100 h (hz.mono (by omega)))
      (keccak_squeezeblocks_x4_spec hM' (k := k) (by omega) (by omega) h100' h' (hz.mono (by omega)))) fun b s b' s' ⟨_, hx, hx'⟩ => ?_
    have eb := written4_det hx.1 hx'.1
    have hz' := hx.1.size hz
    dsimp only at eb hz' hx hx' ⊢
    subst eb
    refine SIR.bind2 (hr _ _ _ _ _) fun v0 c0 v0' c0' e0 => SIR.bind2 (hr _ _ _ _ _) fun v1 c1 v1' c1' e1 => SIR.bind2 (hr _ _ _ _ _) fun v2 c2 v2' c2' e2 =>
      SIR.bind2 (hr _ _ _ _ _) fun v3 c3 v3' c3' e3 => ?_
    dsimp only at e0 e1 e2 e3 ⊢
    subst e0; subst e1; subst e2; subst e3
    exact SIR.pure ⟨rfl, rfl, hz', hx.2.1.trans h100, hx'.2.1.trans h100', _, hx.2.2, hx'.2.2⟩

theorem si_gen_matrix [Quiet2 bk bk'] (hM : Meets bk f C) (hM' : Meets bk' f' C') (hr : RejAlike bk bk')
    (hp : bk.poly_permute_bitrev_to_custom = none) (hp' : bk'.poly_permute_bitrev_to_custom = none) : QuietM bk bk' where
  matrix := @fun K fuel s s' so ρ tr _ hρ hs hs' => by
    rw [gen_matrix_congr (bk := bk') (s := s') (s' := s) fun i hi => by rw [hs i (by omega), hs' i (by omega)]]
    have hs : Seg s so 32 (fun j => ρ.getD j 0) := fun j hj => hs j (by omega)
    have hseed : ∀ s', Written (Buf.uninit UInt8 (32 + 2)) s' 0 32 (fun j => ρ.getD j 0) → Seeded s' ρ := fun s' h => ⟨h.1.trans (by simp), h.seg⟩
    have both : ∀ {α : Type} {p : M α} {P : α → Prop}, Post p P → SIR p p (fun a b => a = b ∧ P a) := fun h => ((SIR.refl _).andPost (F := False) h h).mono fun _ _ h => ⟨h.1, h.2.1⟩
    have bothS : ∀ {b : Buf UInt8} {i : Nat} {P : Buf UInt8 → Prop}, (K ≠ 0 → Post (setSeed K b i tr) P) → SIR (setSeed K b i tr) (setSeed K b i tr) (fun a b => a = b ∧ P a) := by
      intro b i P h
      by_cases hK0 : K = 0
      · subst hK0
        intro x t y t' e
        exact nomatch e
      · exact both (h hK0)
    unfold gen_matrix
    rw [hp, hp']
    refine SIR.bind (both (memcpy_spec (by simp) hs)) fun s0 _ ⟨e, h0⟩ => ?_
    subst e
    refine SIR.bind (both (memcpy_spec (by simp) hs)) fun s1 _ ⟨e, h1⟩ => ?_
    subst e
    refine SIR.bind (both (memcpy_spec (by simp) hs)) fun s2 _ ⟨e, h2⟩ => ?_
    subst e
    refine SIR.bind (both (memcpy_spec (by simp) hs)) fun s3 _ ⟨e, h3⟩ => ?_
    subst e
    refine SIR.bind2 (R := fun x y => x.2 = y.2 ∧ Seeded x.2.x0 ρ ∧ Seeded x.2.x1 ρ ∧ Seeded x.2.x2 ρ ∧ Seeded x.2.x3 ρ) ?_ ?_
    · unfold forN
      refine SIR.forFrom (I := fun (x y : PolyVec × Four (Buf UInt8)) => x.2 = y.2 ∧ Seeded x.2.x0 ρ ∧ Seeded x.2.x1 ρ ∧ Seeded x.2.x2 ρ ∧ Seeded x.2.x3 ρ) ?_ _ _ _ _
        ⟨rfl, hseed _ h0, hseed _ h1, hseed _ h2, hseed _ h3⟩
      rintro t ⟨a, s⟩ ⟨a', s'⟩ ⟨rfl, g0, g1, g2, g3⟩
      dsimp only at g0 g1 g2 g3 ⊢
      refine SIR.bind (bothS fun hK0 => setSeed_spec hK0 g0 hρ) fun s0 _ ⟨e, k0⟩ => ?_
      subst e
      refine SIR.bind (bothS fun hK0 => setSeed_spec hK0 g1 hρ) fun s1 _ ⟨e, k1⟩ => ?_
      subst e
      refine SIR.bind (bothS fun hK0 => setSeed_spec hK0 g2 hρ) fun s2 _ ⟨e, k2⟩ => ?_
      subst e
      refine SIR.bind (bothS fun hK0 => setSeed_spec hK0 g3 hρ) fun s3 _ ⟨e, k3⟩ => ?_
      subst e
      iterate 4 refine SIR.bind (R := Any _ _) (by si) fun _ _ _ => ?_
      refine SIR.bind (si_gen_matrix_entry_x4 hM hM' hr (B := fun w j => (seedXY ρ tr ((4 * t + w) / K) ((4 * t + w) % K)).getD j 0) ⟨k0.2, k1.2, k2.2, k3.2⟩) fun v v' _ => ?_
      iterate 4 refine SIR.bind (R := Any _ _) (by si) fun _ _ _ => ?_
      exact SIR.pure ⟨rfl, k0.1, k1.1, k2.1, k3.1⟩
    · rintro a s a' s' ⟨rfl, g0, _⟩
      dsimp only at g0 ⊢
      refine SIR.bind2 (R := fun x y => x.2 = y.2) ?_ ?_
      · refine SIR.branch ?_ (SIR.pure rfl)
        refine SIR.bind (bothS fun hK0 => setSeed_spec hK0 g0 hρ) fun s0 _ ⟨e, k0⟩ => ?_
        subst e
        refine SIR.bind (R := Any _ _) (by si) fun _ _ _ => SIR.bind (si_gen_matrix_entry hM hM' hr k0.2) fun _ _ _ => SIR.bind (R := Any _ _) (by si) fun _ _ _ => SIR.pure rfl
      · rintro a i a' i' e
        dsimp only at e ⊢
        subst e
        exact SIR.bind (SIR.refl _) fun _ _ _ => SI.pure
end

end Verif.Native

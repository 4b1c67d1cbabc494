import Verif.Proof.X86GpTrace
import Verif.Props.X86Arith
/-! # The AVX2 assembly respects its caller (C81)

`X86Gp.run prog (X86Gp.entry g v lo stk j)` runs the instructions of a function, with its calls and its `ret`, from a state with vector registers and objects `v`, the arguments in `rdi`, `rsi`, `rdx`, `rcx`, the
stack pointer at element `j` of the stack `stk`, which begins at address `lo`, and any contents `g` of the other general-purpose registers.  It returns the state and the address to which the function returns. -/
namespace Verif.Props
open Verif Verif.Model Verif.Spec

/-- The stack when a function is called: 16-bit elements from an address that is a multiple of 32, at least 64 bytes below the stack pointer, and at the stack pointer the return address. -/
structure AtCall (lo j ra : Nat) (stk : Buf Int) : Prop where
  aligned : lo % 32 = 0
  room : 64 ≤ 2 * j
  range : lo + 2 * j + 8 < 2 ^ 64
  addr : ra < 2 ^ 64
  ret : ∀ k, k < 4 → ∃ x : Int, stk[j + k]? = some (some x) ∧ IsI16 x ∧ x % 65536 = (ra / 65536 ^ k % 65536 : Nat)

/-- The function has popped its return address and nothing else; `rbx`, `rbp` and `r12` to `r15` are as they were; the stack from the stack pointer upwards is as it was; no argument but the first has changed. -/
structure Respects (g : Nat → X86Gp.Val) (v : X86.St) (lo j : Nat) (stk : Buf Int) (s : X86Gp.St) : Prop where
  sp : s.g 4 = .num (lo + 2 * j + 8)
  saved : ∀ r ∈ [3, 5, 12, 13, 14, 15], s.g r = g r
  size : (s.v.w .rsp).size = stk.size
  stack : ∀ i, j ≤ i → (s.v.w .rsp)[i]? = stk[i]?
  args : ∀ p, p ≠ .rdi → p ≠ .rsp → s.v.w p = v.w p ∧ s.v.b p = v.b p

theorem elem_of {x : Int} {ra k : Nat} (h : IsI16 x) (h2 : x % 65536 = (ra / 65536 ^ k % 65536 : Nat)) : x = X86.elem ra k := by
  unfold X86.elem X86.s16
  unfold IsI16 at h
  omega

open X86Gp in
theorem respects_of {slot : Bool} {prog : List X86Gp.G} {flat : List X86.Ins} (hc : chk slot prog flat = true) (hf : ([.rsi, .rdx, .rcx] : List X86.Ptr).all (fun p => flat.all fun i => !X86.stores p i) = true)
    {g : Nat → X86Gp.Val} {v v' : X86.St} {lo j ra : Nat} {stk : Buf Int} (h : AtCall lo j ra stk) (hs : slot = true → v.w .rsp = Array.replicate 16 none)
    (hr : Returns (X86.run flat v) v') : ∃ s, Returns (X86Gp.run prog (X86Gp.entry g v lo stk j)) (s, ra) ∧ Respects g v lo j stk s ∧ s.v.w .rdi = v'.w .rdi ∧ s.v.b .rdi = v'.b .rdi := by
  have hret : ∀ k, k < 4 → stk[j + k]? = some (some (X86.elem ra k)) := fun k hk => by
    obtain ⟨x, h1, h2, h3⟩ := h.ret k hk
    rw [h1, elem_of h2 h3]
  have hsz : j ≤ stk.size := by
    by_contra hn
    have := hret 0 (by omega)
    rw [Array.getElem?_eq_none (by omega)] at this
    cases this
  have hroom := h.room
  have hrange := h.range
  have haddr := h.addr
  obtain ⟨s, stk', h1, h2, h3, h4, h5, h6⟩ := chk_sound hc (g := g) h.aligned (by omega) (by omega) hsz (by omega) hret (fun hsl => by
    intro i x hi hx
    rw [hs hsl, Array.getElem?_replicate, if_pos hi] at hx
    cases hx) (show A64RejAsm.Ret (X86.run flat v) v' from hr)
  obtain ⟨t, ht⟩ := hr
  simp only [List.all_cons, List.all_nil, Bool.and_true, Bool.and_eq_true] at hf
  refine ⟨s, h1, ⟨h2, h3, ?_, ?_, fun p hp hp' => ?_⟩, ?_, ?_⟩
  · rw [h4, w_putw]; exact h5
  · rw [h4, w_putw]; exact h6
  · have e1 : s.v.w p = v'.w p := by rw [h4, w_putw_ne hp']
    have e2 : s.v.b p = v'.b p := by rw [h4]; rfl
    rw [e1, e2]
    cases p with
    | rdi => exact absurd rfl hp
    | rsp => exact absurd rfl hp'
    | rsi => exact X86.run_frame (by simpa using hf.1) ht
    | rdx => exact X86.run_frame (by simpa using hf.2.1) ht
    | rcx => exact X86.run_frame (by simpa using hf.2.2) ht
  · rw [h4, w_putw_ne (by decide)]
  · rw [h4]; rfl

/-- The functions with one polynomial argument, and their vector instructions. -/
def polyFns : List (List X86Gp.G × List X86.Ins) :=
  [(X86Gp.ntt_avx2, X86.Ntt.ntt_avx2), (X86Gp.invntt_avx2, X86.Intt.invntt_avx2), (X86Gp.reduce_avx2, X86.reduce_avx2), (X86Gp.tomont_avx2, X86.tomont_avx2), (X86Gp.nttunpack_avx2, X86.nttunpack_avx2),
    (X86Gp.nttpack_avx2, X86.nttpack_avx2)]

/-- **C81 (the instructions compute the transcription).**  Whatever result one of the functions with one polynomial argument returns, as the theorems on AVX2 builds have it, the instructions with their calls and
addresses return, and they respect their caller. -/
theorem C81_transcription (pf : List X86Gp.G × List X86.Ins) (hpf : pf ∈ polyFns) (regs : Nat → X86.Ymm) (g : Nat → X86Gp.Val) {lo j ra : Nat} {stk : Buf Int} (h : AtCall lo j ra stk) (p p' : Model.Poly)
    (hr : Returns (X86.runP pf.2 regs p) p') :
    ∃ s, Returns (X86Gp.run pf.1 (X86Gp.entry g (X86.callP regs p) lo stk j)) (s, ra) ∧ s.v.w .rdi = p' ∧ Respects g (X86.callP regs p) lo j stk s := by
  obtain ⟨v', h1, h2⟩ := A64RejAsm.ret_bind.1 hr
  have h2 := A64RejAsm.ret_pure.1 h2
  obtain ⟨s, g1, g2, g3, _⟩ : ∃ s, Returns (X86Gp.run pf.1 (X86Gp.entry g (X86.callP regs p) lo stk j)) (s, ra) ∧ Respects g (X86.callP regs p) lo j stk s ∧ s.v.w .rdi = v'.w .rdi ∧ s.v.b .rdi = v'.b .rdi := by
    simp only [polyFns, List.mem_cons, List.not_mem_nil, or_false] at hpf
    rcases hpf with rfl | rfl | rfl | rfl | rfl | rfl
    · exact respects_of X86Gp.ntt_chk (by decide +kernel) h (by simp) h1
    · exact respects_of X86Gp.invntt_chk (by decide +kernel) h (by simp) h1
    · exact respects_of X86Gp.reduce_chk (by decide +kernel) h (by simp) h1
    · exact respects_of X86Gp.tomont_chk (by decide +kernel) h (by simp) h1
    · exact respects_of X86Gp.nttunpack_chk (by decide +kernel) h (by simp) h1
    · exact respects_of X86Gp.nttpack_chk (by decide +kernel) h (by simp) h1
  exact ⟨s, g1, by rw [g3, h2], g2⟩

/-- **C81.** The forward transform: from any registers, it returns to its caller with the registers and the stack of the caller as they were, and the FIPS 203 NTT in its argument. -/
theorem C81_ntt (regs : Nat → X86.Ymm) (g : Nat → X86Gp.Val) {lo j ra : Nat} {stk : Buf Int} (h : AtCall lo j ra stk) (f : Nat → Int) (hf : ∀ n, n < 256 → -3329 < f n ∧ f n < 3329) :
    ∃ s G, Returns (X86Gp.run X86Gp.ntt_avx2 (X86Gp.entry g (X86.callP regs (poly f)) lo stk j)) (s, ra) ∧ Respects g (X86.callP regs (poly f)) lo j stk s ∧
      s.v.w .rdi = (poly fun p => G (x86Order p)) ∧ ∀ n, n < 256 → modq G n = NTT (modq f) n := by
  obtain ⟨G, h1, h2, _⟩ := C39_ntt regs f hf
  obtain ⟨_, -, h1⟩ := A64RejAsm.ret_bind.1 h1
  obtain ⟨p, hp, h1⟩ := A64RejAsm.ret_bind.1 h1
  obtain ⟨_, -, h1⟩ := A64RejAsm.ret_bind.1 h1
  have e := A64RejAsm.ret_pure.1 h1
  obtain ⟨s, g1, g2, g3⟩ := C81_transcription (X86Gp.ntt_avx2, X86.Ntt.ntt_avx2) (by simp [polyFns]) regs g h (poly f) p hp
  exact ⟨s, G, g1, g3, by rw [g2, e], h2⟩

/-- **C81.** The inverse transform. -/
theorem C81_invntt (regs : Nat → X86.Ymm) (g : Nat → X86Gp.Val) {lo j ra : Nat} {stk : Buf Int} (h : AtCall lo j ra stk) (f : Nat → Int) (hf : ∀ n, n < 256 → IsI16 (f n)) :
    ∃ s G, Returns (X86Gp.run X86Gp.invntt_avx2 (X86Gp.entry g (X86.callP regs (poly fun p => f (x86Order p))) lo stk j)) (s, ra) ∧ Respects g (X86.callP regs (poly fun p => f (x86Order p))) lo j stk s ∧
      s.v.w .rdi = poly G ∧ ∀ n, n < 256 → modq G n = 2 ^ 16 * NTTInv (modq f) n := by
  obtain ⟨G, h1, h2, _⟩ := C40_invntt regs f hf
  obtain ⟨p, hp, h1⟩ := A64RejAsm.ret_bind.1 h1
  obtain ⟨_, -, h1⟩ := A64RejAsm.ret_bind.1 h1
  have e := A64RejAsm.ret_pure.1 h1
  obtain ⟨s, g1, g2, g3⟩ := C81_transcription (X86Gp.invntt_avx2, X86.Intt.invntt_avx2) (by simp [polyFns]) regs g h _ p hp
  exact ⟨s, G, g1, g3, by rw [g2, e], h2⟩

/-- **C81.** Reduction. -/
theorem C81_reduce (regs : Nat → X86.Ymm) (g : Nat → X86Gp.Val) {lo j ra : Nat} {stk : Buf Int} (h : AtCall lo j ra stk) (f : Nat → Int) (hf : ∀ n, n < 256 → IsI16 (f n)) :
    ∃ s, Returns (X86Gp.run X86Gp.reduce_avx2 (X86Gp.entry g (X86.callP regs (poly f)) lo stk j)) (s, ra) ∧ Respects g (X86.callP regs (poly f)) lo j stk s ∧ s.v.w .rdi = poly fun n => f n % 3329 := by
  have h1 := (C42_reduce regs f hf).1
  obtain ⟨p, hp, h1⟩ := A64RejAsm.ret_bind.1 h1
  obtain ⟨_, -, h1⟩ := A64RejAsm.ret_bind.1 h1
  have e := A64RejAsm.ret_pure.1 h1
  obtain ⟨s, g1, g2, g3⟩ := C81_transcription (X86Gp.reduce_avx2, X86.reduce_avx2) (by simp [polyFns]) regs g h _ p hp
  exact ⟨s, g1, g3, by rw [g2, e]⟩

/-- **C81.** Conversion to Montgomery form. -/
theorem C81_tomont (regs : Nat → X86.Ymm) (g : Nat → X86Gp.Val) {lo j ra : Nat} {stk : Buf Int} (h : AtCall lo j ra stk) (f : Nat → Int) (hf : ∀ n, n < 256 → IsI16 (f n)) :
    ∃ s G, Returns (X86Gp.run X86Gp.tomont_avx2 (X86Gp.entry g (X86.callP regs (poly f)) lo stk j)) (s, ra) ∧ Respects g (X86.callP regs (poly f)) lo j stk s ∧ s.v.w .rdi = poly G ∧
      ∀ n, n < 256 → modq G n = 2 ^ 16 * modq f n := by
  obtain ⟨G, h1, _, h2, _⟩ := C42_tomont regs f hf
  obtain ⟨p, hp, h1⟩ := A64RejAsm.ret_bind.1 h1
  obtain ⟨_, -, h1⟩ := A64RejAsm.ret_bind.1 h1
  have e := A64RejAsm.ret_pure.1 h1
  obtain ⟨s, g1, g2, g3⟩ := C81_transcription (X86Gp.tomont_avx2, X86.tomont_avx2) (by simp [polyFns]) regs g h _ p hp
  exact ⟨s, G, g1, g3, by rw [g2, e], h2⟩

/-- **C81.** The changes of order. -/
theorem C81_order (regs : Nat → X86.Ymm) (g : Nat → X86Gp.Val) {lo j ra : Nat} {stk : Buf Int} (h : AtCall lo j ra stk) (f : Nat → Int) (hf : ∀ n, n < 256 → IsI16 (f n)) :
    (∃ s, Returns (X86Gp.run X86Gp.nttunpack_avx2 (X86Gp.entry g (X86.callP regs (poly f)) lo stk j)) (s, ra) ∧ Respects g (X86.callP regs (poly f)) lo j stk s ∧
      s.v.w .rdi = poly fun p => f (x86Order p)) ∧
    ∃ s, Returns (X86Gp.run X86Gp.nttpack_avx2 (X86Gp.entry g (X86.callP regs (poly fun p => f (x86Order p))) lo stk j)) (s, ra) ∧ Respects g (X86.callP regs (poly fun p => f (x86Order p))) lo j stk s ∧
      s.v.w .rdi = poly fun p => if p < 128 then f p else f (x86Order p) := by
  obtain ⟨s, g1, g2, g3⟩ := C81_transcription (X86Gp.nttunpack_avx2, X86.nttunpack_avx2) (by simp [polyFns]) regs g h _ _ (C42_permute regs f hf)
  obtain ⟨s', k1, k2, k3⟩ := C81_transcription (X86Gp.nttpack_avx2, X86.nttpack_avx2) (by simp [polyFns]) regs g h _ _ (C42_nttpack regs f hf)
  exact ⟨⟨s, g1, g3, g2⟩, s', k1, k3, k2⟩

/-- The state at the call of `ntttobytes_avx2(w, a, qdata)`. -/
def callTo (regs : Nat → X86.Ymm) (w : Buf UInt8) (a : Model.Poly) : X86.St where
  ymm := regs
  w := fun p => match p with
    | .rsi => a
    | .rdx => X86.qdata
    | _ => #[]
  b := fun p => match p with
    | .rdi => w
    | _ => #[]

/-- The state at the call of `nttfrombytes_avx2(r, w, qdata)`. -/
def callFrom (regs : Nat → X86.Ymm) (r : Model.Poly) (w : Buf UInt8) : X86.St where
  ymm := regs
  w := fun p => match p with
    | .rdi => r
    | .rdx => X86.qdata
    | _ => #[]
  b := fun p => match p with
    | .rsi => w
    | _ => #[]

/-- **C81.** Serialisation to the 384 bytes `w` at offset `o` of a byte array: the array with those bytes replaced is what `poly_tobytes_native` returns, and the bytes are the FIPS 203 encoding. -/
theorem C81_tobytes (regs : Nat → X86.Ymm) (g : Nat → X86Gp.Val) {lo j ra : Nat} {stk : Buf Int} (h : AtCall lo j ra stk) (f : Nat → Nat) (hf : ∀ n, n < 256 → f n < 3329) (r : Buf UInt8) (o : Nat) (hr : o + 384 ≤ r.size) :
    ∃ w s, Returns (X86.window r o 384) w ∧
      Returns (X86Gp.run X86Gp.ntttobytes_avx2 (X86Gp.entry g (callTo regs w (poly fun p => (f (x86Order p) : Int))) lo stk j)) (s, ra) ∧
      Respects g (callTo regs w (poly fun p => (f (x86Order p) : Int))) lo j stk s ∧
      Returns (X86.poly_tobytes_native regs r o (poly fun p => (f (x86Order p) : Int))) (X86.putBack r o (s.v.b .rdi)) ∧
      ∀ i, i < 384 → (X86.putBack r o (s.v.b .rdi))[o + i]? = some (some ((ByteEncode 12 f).getD i 0)) := by
  obtain ⟨r', hn, -, hw2, -⟩ := ret_of_post (X86.poly_tobytes_native_spec (f := f) (poly_holds _) (fun i hi => by have := hf i hi; omega) hr regs)
  obtain ⟨w, hw, h1⟩ := A64RejAsm.ret_bind.1 hn
  obtain ⟨v', hv, h2⟩ := A64RejAsm.ret_bind.1 h1
  have h2 := A64RejAsm.ret_pure.1 h2
  obtain ⟨s, g1, g2, _, g4⟩ := respects_of (v := callTo regs w (poly fun p => (f (x86Order p) : Int))) X86Gp.ntttobytes_chk (by decide +kernel) (g := g) h (by simp) hv
  exact ⟨w, s, hw, g1, g2, by rw [g4, h2]; exact hn, fun i hi => by rw [g4, h2, hw2 i hi, ByteEncode_getD' _ _ hi]⟩

/-- **C81.** Deserialisation of any 384 bytes. -/
theorem C81_frombytes (regs : Nat → X86.Ymm) (g : Nat → X86Gp.Val) {lo j ra : Nat} {stk : Buf Int} (h : AtCall lo j ra stk) (B : List UInt8) (hB : B.length = 384) (r : Buf Int) (hr : r.size = 256) :
    ∃ s, Returns (X86Gp.run X86Gp.nttfrombytes_avx2 (X86Gp.entry g (callFrom regs r (Buf.ofList B)) lo stk j)) (s, ra) ∧ Respects g (callFrom regs r (Buf.ofList B)) lo j stk s ∧
      s.v.w .rdi = poly fun p => (coeff12 B (x86Order p) : Int) := by
  have hn := (C42_frombytes regs B hB r hr).1
  obtain ⟨w, hw, h1⟩ := A64RejAsm.ret_bind.1 hn
  obtain ⟨v', hv, h2⟩ := A64RejAsm.ret_bind.1 h1
  have h2 := A64RejAsm.ret_pure.1 h2
  have hsz : (Buf.ofList B).size = 384 := by simp [Buf.ofList, hB]
  have e : w = Buf.ofList B := by
    unfold X86.window at hw
    rw [if_pos (by omega)] at hw
    have hw := A64RejAsm.ret_pure.1 hw
    rw [Nat.zero_add, ← hsz, Array.extract_size] at hw
    exact hw.symm
  subst e
  obtain ⟨s, g1, g2, g3, _⟩ := respects_of (v := callFrom regs r (Buf.ofList B)) X86Gp.nttfrombytes_chk (by decide +kernel) (g := g) h (by simp) hv
  exact ⟨s, g1, g2, by rw [g3, h2]⟩

/-- **C81.** Multiplication, which keeps a vector in 32 bytes of the stack, aligned below the stack pointer. -/
theorem C81_basemul (regs : Nat → X86.Ymm) (g : Nat → X86Gp.Val) {lo j ra : Nat} {stk : Buf Int} (h : AtCall lo j ra stk) (a b : Nat → Int) (ha : ∀ n, n < 256 → -3329 < a n ∧ a n < 3329) (hb : ∀ n, n < 256 → -(8 * 3329) < b n ∧ b n < 8 * 3329)
    (r : Buf Int) (hr : r.size = 256) :
    ∃ s G, Returns (X86Gp.run X86Gp.basemul_avx2 (X86Gp.entry g (X86.callMul regs r (poly fun p => a (x86Order p)) (poly fun p => b (x86Order p))) lo stk j)) (s, ra) ∧
      Respects g (X86.callMul regs r (poly fun p => a (x86Order p)) (poly fun p => b (x86Order p))) lo j stk s ∧
      Returns (X86.poly_basemul_montgomery_avx2 regs r (poly fun p => a (x86Order p)) (poly fun p => b (x86Order p))) (s.v.w .rdi) ∧
      s.v.w .rdi = poly G ∧ ∀ p, p < 256 → 2 ^ 16 * modq G p = MultiplyNTTs (modq a) (modq b) (x86Order p) := by
  obtain ⟨r', hn, G, hG, hG2⟩ := ret_of_post (X86.poly_basemul_montgomery_avx2_spec hr (poly_holds _) (poly_holds _) (fa := a) (fb := b) ha (fun n hn => by have := hb n hn; omega) regs)
  obtain ⟨v', hv, h2⟩ := A64RejAsm.ret_bind.1 hn
  have h2 := A64RejAsm.ret_pure.1 h2
  obtain ⟨s, g1, g2, g3, _⟩ := respects_of X86Gp.basemul_chk (by decide +kernel) (g := g) h (fun _ => rfl) hv
  refine ⟨s, G, g1, g2, by rw [g3, h2]; exact hn, by rw [g3, h2]; exact eq_poly hG, fun p hp => ?_⟩
  show 2 ^ 16 * (G p : Zq) = _
  rw [(hG2 p hp).2, ← mul_assoc, show (2 ^ 16 * 169 : Zq) = 1 by decide, one_mul]
  rfl

/-- The functions of the AVX2 assembly. -/
def avx2Fns : List (List X86Gp.G) :=
  [X86Gp.ntt_avx2, X86Gp.invntt_avx2, X86Gp.reduce_avx2, X86Gp.tomont_avx2, X86Gp.nttunpack_avx2, X86Gp.nttpack_avx2, X86Gp.ntttobytes_avx2, X86Gp.nttfrombytes_avx2, X86Gp.basemul_avx2]

/-- **C81 (constant time).**  Two calls of a function with the same stack pointer access the same places of its arguments and of the stack in the same order, whatever the arguments, the rest of the stack, the
vector registers and the other general-purpose registers contain. -/
theorem C81_constant_time {prog : List X86Gp.G} (hp : prog ∈ avx2Fns) {g g' : Nat → X86Gp.Val} {v v' : X86.St} {lo j : Nat} {stk stk' : Buf Int} {r r' : X86Gp.St × Nat} {t t' : List Ev}
    (h : ReturnsTr (X86Gp.run prog (X86Gp.entry g v lo stk j)) r t) (h' : ReturnsTr (X86Gp.run prog (X86Gp.entry g' v' lo stk' j)) r' t') : t = t' := by
  simp only [avx2Fns, List.mem_cons, List.not_mem_nil, or_false] at hp
  rcases hp with rfl | rfl | rfl | rfl | rfl | rfl | rfl | rfl | rfl
  · exact (X86Gp.chk_si X86Gp.ntt_chk r t r' t' h h').1
  · exact (X86Gp.chk_si X86Gp.invntt_chk r t r' t' h h').1
  · exact (X86Gp.chk_si X86Gp.reduce_chk r t r' t' h h').1
  · exact (X86Gp.chk_si X86Gp.tomont_chk r t r' t' h h').1
  · exact (X86Gp.chk_si X86Gp.nttunpack_chk r t r' t' h h').1
  · exact (X86Gp.chk_si X86Gp.nttpack_chk r t r' t' h h').1
  · exact (X86Gp.chk_si X86Gp.ntttobytes_chk r t r' t' h h').1
  · exact (X86Gp.chk_si X86Gp.nttfrombytes_chk r t r' t' h h').1
  · exact (X86Gp.chk_si X86Gp.basemul_chk r t r' t' h h').1

/-- A call that the hypotheses admit: a stack of 256 bytes at address 4096, the stack pointer at byte 200, the return address `0x8001fffe12345678`. -/
example : AtCall 4096 100 0x8001fffe12345678 ((Array.replicate 128 (some 7)) |>.set! 100 (some 0x5678) |>.set! 101 (some 0x1234) |>.set! 102 (some (-2)) |>.set! 103 (some (-32767))) :=
  ⟨by norm_num, by norm_num, by norm_num, by norm_num, fun k hk => by
    have : k = 0 ∨ k = 1 ∨ k = 2 ∨ k = 3 := by omega
    rcases this with rfl | rfl | rfl | rfl
    · exact ⟨0x5678, by decide +kernel, by constructor <;> decide, by norm_num⟩
    · exact ⟨0x1234, by decide +kernel, by constructor <;> decide, by norm_num⟩
    · exact ⟨-2, by decide +kernel, by constructor <;> decide, by norm_num⟩
    · exact ⟨-32767, by decide +kernel, by constructor <;> decide, by norm_num⟩⟩

end Verif.Props

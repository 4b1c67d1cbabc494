import Verif.Proof.Sponge
/-! # The four-way sponge functions of `fips202x4.c`: four independent instances -/
namespace Verif
open Model Spec

attribute [local irreducible] keccakF partialK finK blocksK sqByte

/-- The four interleaved states hold `S 0`, …, `S 3`. -/
structure State4 (s : Buf W) (S : Nat → KState) : Prop where
  s0 : SegK s (KECCAK_LANES * 0) (S 0)
  s1 : SegK s (KECCAK_LANES * 1) (S 1)
  s2 : SegK s (KECCAK_LANES * 2) (S 2)
  s3 : SegK s (KECCAK_LANES * 3) (S 3)

/-- The four inputs hold `B 0`, …, `B 3`. -/
structure Seg4 {α : Type} (m : Four (Buf α)) (mo n : Nat) (B : Nat → Nat → α) : Prop where
  s0 : Seg m.x0 mo n (B 0)
  s1 : Seg m.x1 mo n (B 1)
  s2 : Seg m.x2 mo n (B 2)
  s3 : Seg m.x3 mo n (B 3)

/-- The four outputs are written. -/
structure Written4 {α : Type} (b b' : Four (Buf α)) (off n : Nat) (B : Nat → Nat → α) : Prop where
  s0 : Written b.x0 b'.x0 off n (B 0)
  s1 : Written b.x1 b'.x1 off n (B 1)
  s2 : Written b.x2 b'.x2 off n (B 2)
  s3 : Written b.x3 b'.x3 off n (B 3)

/-- The four buffers have at least `n` elements. -/
structure Size4 {α : Type} (b : Four (Buf α)) (n : Nat) : Prop where
  s0 : n ≤ b.x0.size
  s1 : n ≤ b.x1.size
  s2 : n ≤ b.x2.size
  s3 : n ≤ b.x3.size

theorem State4.congr {s : Buf W} {S S' : Nat → KState} (h : State4 s S) (e : ∀ w, w < 4 → S w = S' w) : State4 s S' :=
  ⟨h.s0.congr (e 0 (by omega)), h.s1.congr (e 1 (by omega)), h.s2.congr (e 2 (by omega)), h.s3.congr (e 3 (by omega))⟩
theorem Seg4.congr {α : Type} {m : Four (Buf α)} {mo n : Nat} {B B' : Nat → Nat → α} (h : Seg4 m mo n B) (e : ∀ w i, w < 4 → i < n → B w i = B' w i) : Seg4 m mo n B' :=
  ⟨h.s0.congr (e 0 · (by omega)), h.s1.congr (e 1 · (by omega)), h.s2.congr (e 2 · (by omega)), h.s3.congr (e 3 · (by omega))⟩
theorem Seg4.sub {α : Type} {m : Four (Buf α)} {mo n : Nat} {B : Nat → Nat → α} (h : Seg4 m mo n B) (o k : Nat) (hk : o + k ≤ n) : Seg4 m (mo + o) k (fun w i => B w (o + i)) :=
  ⟨h.s0.sub o k hk, h.s1.sub o k hk, h.s2.sub o k hk, h.s3.sub o k hk⟩
theorem Seg4.rep {α : Type} {m : Buf α} {mo n : Nat} {B : Nat → α} (h : Seg m mo n B) : Seg4 (Four.rep m) mo n (fun _ => B) := ⟨h, h, h, h⟩
theorem Written4.congr {α : Type} {b b' : Four (Buf α)} {off n : Nat} {B B' : Nat → Nat → α} (h : Written4 b b' off n B) (e : ∀ w i, w < 4 → i < n → B w i = B' w i) : Written4 b b' off n B' :=
  ⟨h.s0.congr (e 0 · (by omega)), h.s1.congr (e 1 · (by omega)), h.s2.congr (e 2 · (by omega)), h.s3.congr (e 3 · (by omega))⟩
theorem Written4.refl {α : Type} (b : Four (Buf α)) (off : Nat) (B : Nat → Nat → α) : Written4 b b off 0 B :=
  ⟨Written.refl _ _ _, Written.refl _ _ _, Written.refl _ _ _, Written.refl _ _ _⟩
theorem Written4.trans {α : Type} {b b' b'' : Four (Buf α)} {off m n : Nat} {g g' : Nat → Nat → α} (h : Written4 b b' off m g)
    (h' : Written4 b' b'' (off + m) n g') : Written4 b b'' off (m + n) (fun w i => if i < m then g w i else g' w (i - m)) :=
  ⟨h.s0.trans h'.s0, h.s1.trans h'.s1, h.s2.trans h'.s2, h.s3.trans h'.s3⟩
theorem Written4.size {α : Type} {b b' : Four (Buf α)} {off n k : Nat} {B : Nat → Nat → α} (h : Written4 b b' off n B) (hs : Size4 b k) : Size4 b' k :=
  ⟨by rw [h.s0.1]; exact hs.s0, by rw [h.s1.1]; exact hs.s1, by rw [h.s2.1]; exact hs.s2, by rw [h.s3.1]; exact hs.s3⟩
theorem Size4.mono {α : Type} {b : Four (Buf α)} {n k : Nat} (h : Size4 b n) (hk : k ≤ n) : Size4 b k :=
  ⟨hk.trans h.s0, hk.trans h.s1, hk.trans h.s2, hk.trans h.s3⟩

theorem lanes_disj {i j : Nat} (h : i ≠ j) : KECCAK_LANES * i + 25 ≤ KECCAK_LANES * j ∨ KECCAK_LANES * j + 25 ≤ KECCAK_LANES * i := by
  unfold KECCAK_LANES; omega

/-- Sequencing the same operation on the four states. -/
theorem four_spec {s : Buf W} {S S' : Nat → KState} {f0 f1 f2 f3 : Buf W → M (Buf W)} (h : State4 s S)
    (h0 : ∀ s, SegK s (KECCAK_LANES * 0) (S 0) → Post (f0 s) (fun s' => FrameK s s' (KECCAK_LANES * 0) ∧ SegK s' (KECCAK_LANES * 0) (S' 0)))
    (h1 : ∀ s, SegK s (KECCAK_LANES * 1) (S 1) → Post (f1 s) (fun s' => FrameK s s' (KECCAK_LANES * 1) ∧ SegK s' (KECCAK_LANES * 1) (S' 1)))
    (h2 : ∀ s, SegK s (KECCAK_LANES * 2) (S 2) → Post (f2 s) (fun s' => FrameK s s' (KECCAK_LANES * 2) ∧ SegK s' (KECCAK_LANES * 2) (S' 2)))
    (h3 : ∀ s, SegK s (KECCAK_LANES * 3) (S 3) → Post (f3 s) (fun s' => FrameK s s' (KECCAK_LANES * 3) ∧ SegK s' (KECCAK_LANES * 3) (S' 3))) :
    Post (do let s ← f0 s; let s ← f1 s; let s ← f2 s; f3 s) (fun s' => s'.size = s.size ∧ State4 s' S') := by
  simp only [wp_bind]
  refine Post.use (h0 s h.s0) fun a ha => ?_
  refine Post.use (h1 a (ha.1.segK h.s1 (lanes_disj (by omega)))) fun b hb => ?_
  refine Post.use (h2 b (hb.1.segK (ha.1.segK h.s2 (lanes_disj (by omega))) (lanes_disj (by omega)))) fun c hc => ?_
  refine Post.use (h3 c (hc.1.segK (hb.1.segK (ha.1.segK h.s3 (lanes_disj (by omega))) (lanes_disj (by omega))) (lanes_disj (by omega)))) fun d hd => ?_
  refine ⟨hd.1.1.trans (hc.1.1.trans (hb.1.1.trans ha.1.1)), ?_, ?_, ?_, hd.2⟩
  · exact hd.1.segK (hc.1.segK (hb.1.segK ha.2 (lanes_disj (by omega))) (lanes_disj (by omega))) (lanes_disj (by omega))
  · exact hd.1.segK (hc.1.segK hb.2 (lanes_disj (by omega))) (lanes_disj (by omega))
  · exact hd.1.segK hc.2 (lanes_disj (by omega))

theorem KeccakF1600x4_StateXORBytes_spec {s : Buf W} {S : Nat → KState} {data : Four (Buf UInt8)} {dof off len : Nat} {B : Nat → Nat → UInt8} (h : State4 s S)
    (hd : Seg4 data dof len B) (hl : off + len ≤ 200) :
    Post (KeccakF1600x4_StateXORBytes s data dof off len) (fun s' => s'.size = s.size ∧ State4 s' (fun w => xorK (S w) off len (B w))) :=
  four_spec (S' := fun w => xorK (S w) off len (B w)) h
    (fun _ hs => KeccakF1600_StateXORBytes_spec hs hd.s0 hl) (fun _ hs => KeccakF1600_StateXORBytes_spec hs hd.s1 hl)
    (fun _ hs => KeccakF1600_StateXORBytes_spec hs hd.s2 hl) (fun _ hs => KeccakF1600_StateXORBytes_spec hs hd.s3 hl)

theorem KeccakF1600x4_StatePermute_spec {s : Buf W} {S : Nat → KState} (h : State4 s S) :
    Post (KeccakF1600x4_StatePermute s) (fun s' => s'.size = s.size ∧ State4 s' (fun w => keccakF (S w))) :=
  four_spec (S' := fun w => keccakF (S w)) h
    (fun _ hs => KeccakF1600_StatePermute_spec hs) (fun _ hs => KeccakF1600_StatePermute_spec hs)
    (fun _ hs => KeccakF1600_StatePermute_spec hs) (fun _ hs => KeccakF1600_StatePermute_spec hs)

theorem KeccakF1600x4_StateExtractBytes_spec {s : Buf W} {S : Nat → KState} {data : Four (Buf UInt8)} {dof off len : Nat} (h : State4 s S)
    (hd : Size4 data (dof + len)) (hl : off + len ≤ 200) :
    Post (KeccakF1600x4_StateExtractBytes s data dof off len) (fun d' => Written4 data d' dof len (fun w i => kbyte (S w) (off + i))) := by
  unfold KeccakF1600x4_StateExtractBytes
  simp only [wp_bind]
  refine Post.use (KeccakF1600_StateExtractBytes_spec h.s0 hd.s0 hl) fun d0 h0 => ?_
  refine Post.use (KeccakF1600_StateExtractBytes_spec h.s1 hd.s1 hl) fun d1 h1 => ?_
  refine Post.use (KeccakF1600_StateExtractBytes_spec h.s2 hd.s2 hl) fun d2 h2 => ?_
  refine Post.use (KeccakF1600_StateExtractBytes_spec h.s3 hd.s3 hl) fun d3 h3 => ?_
  simp only [wp_pure]
  exact ⟨h0, h1, h2, h3⟩

theorem pad_x4_spec {s : Buf W} {rb : Nat} {B : Nat → Nat → UInt8} {n c : Nat} {p : UInt8} (hrb : 0 < rb) (hr : rb ≤ 168) (hp : p.toNat < 128) (hc : c = n % rb)
    (h : State4 s (fun w => partialK rb (B w) n)) :
    Post (branch (decide (c = sub32 rb 1))
      (KeccakF1600x4_StateXORBytes s (Four.rep (Buf.ofList [p ||| 128])) 0 (u32 c) 1)
      (do
        let s ← KeccakF1600x4_StateXORBytes s (Four.rep (Buf.ofList [p])) 0 (u32 c) 1
        KeccakF1600x4_StateXORBytes s (Four.rep (Buf.ofList [128])) 0 (sub32 rb 1) 1))
      (fun s' => s'.size = s.size ∧ State4 s' (fun w => finK rb (B w) n p)) := by
  have hlt := Nat.mod_lt n hrb
  rw [sub32_eq (by omega) (by omega), u32_small (by omega)]
  simp only [wp_branch, decide_eq_true_eq, decide_eq_false_iff_not]
  refine ⟨fun hcc => ?_, fun hcc => ?_⟩
  · refine Post.use (KeccakF1600x4_StateXORBytes_spec h (Seg4.rep (seg_single _)) (by omega)) fun s' hs' => ⟨hs'.1, hs'.2.congr fun w _ => ?_⟩
    unfold finK
    rw [xorK_or _ _ _ hp, ← hc, hcc]
  · simp only [wp_bind]
    refine Post.use (KeccakF1600x4_StateXORBytes_spec h (Seg4.rep (seg_single _)) (by omega)) fun s' hs' => ?_
    refine Post.use (KeccakF1600x4_StateXORBytes_spec hs'.2 (Seg4.rep (seg_single _)) (by omega)) fun s'' hs'' => ⟨hs''.1.trans hs'.1, hs''.2.congr fun w _ => ?_⟩
    unfold finK
    rw [← hc]

theorem keccak_absorb_x4_spec {s : Buf W} {rb : Nat} {B : Nat → Nat → UInt8} {m : Four (Buf UInt8)} {mo mlen : Nat} {p : UInt8} (hrb : 0 < rb) (hr : rb ≤ 168) (hp : p.toNat < 128)
    (h : State4 s (fun _ => zeroK)) (hm : Seg4 m mo mlen B) :
    Post (keccak_absorb_x4 s rb m mo mlen p) (fun s' => s'.size = s.size ∧ State4 s' (fun w => finK rb (B w) mlen p)) := by
  unfold keccak_absorb_x4
  simp only [wp_bind]
  refine wp_while (fun x => ∃ q, q * rb ≤ mlen ∧ x.2.1 = mo + q * rb ∧ x.2.2 = mlen - q * rb ∧ x.1.size = s.size ∧ State4 x.1 (fun w => partialK rb (B w) (q * rb))) (fun x => x.2.2)
    (fun x => decide (x.2.2 ≥ rb)) ⟨0, by omega, by simp, by simp, rfl, ?_⟩ (Nat.le_refl _) ?_ ?_ ?_
  · exact h.congr fun w _ => by rw [Nat.zero_mul, partialK_zero]
  · intro x _; simp only [wp_pure]
  · rintro ⟨s1, mo1, ml1⟩ ⟨q, hq, h1, h2, hf, hI⟩ hC
    simp only [] at h1 h2 hf hI hC ⊢
    simp only [decide_eq_true_eq] at hC
    refine ⟨by omega, ?_⟩
    simp only [wp_bind]
    have hsub : Seg4 m mo1 rb (fun w j => B w (q * rb + j)) := by
      rw [h1]; exact hm.sub (q * rb) rb (by omega)
    refine Post.use (KeccakF1600x4_StateXORBytes_spec hI hsub (by omega)) fun s2 hs2 => ?_
    refine Post.use (KeccakF1600x4_StatePermute_spec hs2.2) fun s3 hs3 => ?_
    simp only [wp_pure]
    refine ⟨⟨q + 1, by rw [Nat.succ_mul]; omega, by rw [Nat.succ_mul]; omega, by rw [Nat.succ_mul]; omega, hs3.1.trans (hs2.1.trans hf), hs3.2.congr fun w _ => ?_⟩, by omega⟩
    have := partialK_block hrb (B w) (q * rb)
    rw [Nat.mul_mod_left, Nat.sub_zero] at this
    rw [this, Nat.succ_mul]
  · rintro ⟨s1, mo1, ml1⟩ ⟨q, hq, h1, h2, hf, hI⟩ hC
    simp only [] at h1 h2 hf hI hC ⊢
    simp only [decide_eq_false_iff_not] at hC
    have hmod : mlen % rb = ml1 := by
      rw [show mlen = q * rb + ml1 by omega, Nat.mul_comm, Nat.mul_add_mod, Nat.mod_eq_of_lt (by omega)]
    have hpost : Post (branch (decide (ml1 > 0)) (KeccakF1600x4_StateXORBytes s1 m mo1 0 (u32 ml1)) (pure s1)) (fun s2 => s2.size = s.size ∧ State4 s2 (fun w => partialK rb (B w) mlen)) := by
      have hsub : Seg4 m mo1 ml1 (fun w j => B w (q * rb + j)) := by
        rw [h1]; exact hm.sub (q * rb) ml1 (by omega)
      simp only [wp_branch, wp_pure, decide_eq_true_eq, decide_eq_false_iff_not]
      refine ⟨fun h0 => ?_, fun h0 => ⟨hf, ?_⟩⟩
      · rw [u32_small (by omega)]
        refine Post.use (KeccakF1600x4_StateXORBytes_spec hI hsub (by omega)) fun s2 hs2 => ⟨hs2.1.trans hf, hs2.2.congr fun w _ => ?_⟩
        have e := partialK_add (rb := rb) (B w) (n := q * rb) (len := ml1) (by rw [Nat.mul_mod_left]; omega)
        rw [Nat.mul_mod_left, show q * rb + ml1 = mlen by omega] at e
        exact e
      · rw [show mlen = q * rb by omega]; exact hI
    refine Post.use hpost fun s2 hs2 => ?_
    exact Post.use (pad_x4_spec hrb hr hp hmod.symm hs2.2) fun s3 hs3 => ⟨hs3.1.trans hs2.1, hs3.2⟩

theorem keccak_squeezeblocks_x4_spec {s : Buf W} {rb k : Nat} {T : Nat → KState} {h : Four (Buf UInt8)} {ho nblocks : Nat} (hrb : 0 < rb) (hr : rb ≤ 168)
    (hs : State4 s (fun w => iter keccakF k (T w))) (hho : Size4 h (ho + nblocks * rb)) :
    Post (keccak_squeezeblocks_x4 h ho nblocks s rb) (fun x => Written4 h x.1 ho (nblocks * rb) (fun w j => sqByte rb (T w) (k * rb + j)) ∧ x.2.size = s.size ∧
      State4 x.2 (fun w => iter keccakF (k + nblocks) (T w))) := by
  unfold keccak_squeezeblocks_x4
  simp only [wp_bind]
  refine wp_while (fun x => ∃ d, d ≤ nblocks ∧ x.2.2.1 = ho + d * rb ∧ x.2.2.2 = nblocks - d ∧ Written4 h x.1 ho (d * rb) (fun w j => sqByte rb (T w) (k * rb + j)) ∧ x.2.1.size = s.size ∧
      State4 x.2.1 (fun w => iter keccakF (k + d) (T w))) (fun x => x.2.2.2)
    (fun x => decide (x.2.2.2 > 0)) ⟨0, by omega, by simp, rfl, by rw [Nat.zero_mul]; exact Written4.refl _ _ _, rfl, hs⟩ (Nat.le_refl _) ?_ ?_ ?_
  · intro x _; simp only [wp_pure]
  · rintro ⟨h2, s2, ho2, nb2⟩ ⟨d, hd, e1, e2, hW, hf, hI⟩ hC
    simp only [] at e1 e2 hW hf hI hC ⊢
    simp only [decide_eq_true_eq] at hC
    refine ⟨hC, ?_⟩
    simp only [wp_bind]
    refine Post.use (KeccakF1600x4_StatePermute_spec hI) fun s3 hs3 => ?_
    have hle : (d + 1) * rb ≤ nblocks * rb := Nat.mul_le_mul_right _ (by omega)
    rw [Nat.succ_mul] at hle
    have hsz := (hW.size hho).mono (k := ho2 + rb) (by omega)
    have hst : State4 s3 (fun w => iter keccakF (k + d + 1) (T w)) := hs3.2.congr fun w _ => (iter_succ' keccakF (k + d) (T w)).symm
    refine Post.use (KeccakF1600x4_StateExtractBytes_spec hst hsz (by omega)) fun h4 hh4 => ?_
    simp only [wp_pure]
    refine ⟨⟨d + 1, by omega, by rw [Nat.succ_mul]; omega, by omega, ?_, hs3.1.trans hf, hst⟩, by omega⟩
    rw [e1] at hh4
    rw [Nat.succ_mul]
    refine (hW.trans hh4).congr fun w j _ hj => ?_
    by_cases hjd : j < d * rb
    · rw [if_pos hjd]
    · rw [if_neg hjd, Nat.zero_add, sqByte_at (rb := rb) (T w) (by omega), Nat.add_mul, show k * rb + d * rb + (j - d * rb) = k * rb + j by omega]
  · rintro ⟨h2, s2, ho2, nb2⟩ ⟨d, hd, e1, e2, hW, hf, hI⟩ hC
    simp only [] at e1 e2 hW hf hI hC ⊢
    simp only [decide_eq_false_iff_not] at hC
    simp only [wp_pure]
    have : d = nblocks := by omega
    subst this
    exact ⟨hW, hf, hI⟩

theorem zeroState_x4_spec {s : Buf W} (h : s.size = 100) : Post (zeroState_x4 s) (fun s' => s'.size = 100 ∧ State4 s' (fun _ => zeroK)) := by
  unfold zeroState_x4
  refine Post.use (zeroLanes_spec (by omega)) fun s' hs' => ⟨hs'.1.trans h, ?_⟩
  have : ∀ w, w < 4 → SegK s' (KECCAK_LANES * w) zeroK := fun w hw => segK_zero fun i hi => by
    have := hs'.2.1 (KECCAK_LANES * w + i) (by unfold KECCAK_LANES; omega)
    rwa [Nat.zero_add] at this
  exact ⟨this 0 (by omega), this 1 (by omega), this 2 (by omega), this 3 (by omega)⟩

theorem shake128x4_absorb_spec {s : Buf W} {m : Four (Buf UInt8)} {mo mlen : Nat} {B : Nat → Nat → UInt8} (hsz : s.size = 100) (hm : Seg4 m mo mlen B) :
    Post (shake128x4_absorb s m mo mlen) (fun s' => s'.size = 100 ∧ State4 s' (fun w => finK 168 (B w) mlen 0x1F)) := by
  unfold shake128x4_absorb
  simp only [wp_bind]
  refine Post.use (zeroState_x4_spec hsz) fun s1 hs1 => ?_
  exact Post.use (keccak_absorb_x4_spec (by decide) (by decide) (by decide) hs1.2 hm) fun s2 hs2 => ⟨hs2.1.trans hs1.1, hs2.2⟩

theorem shake256x4_absorb_spec {s : Buf W} {m : Four (Buf UInt8)} {mo mlen : Nat} {B : Nat → Nat → UInt8} (hsz : s.size = 100) (hm : Seg4 m mo mlen B) :
    Post (shake256x4_absorb s m mo mlen) (fun s' => s'.size = 100 ∧ State4 s' (fun w => finK 136 (B w) mlen 0x1F)) := by
  unfold shake256x4_absorb
  simp only [wp_bind]
  refine Post.use (zeroState_x4_spec hsz) fun s1 hs1 => ?_
  exact Post.use (keccak_absorb_x4_spec (by decide) (by decide) (by decide) hs1.2 hm) fun s2 hs2 => ⟨hs2.1.trans hs1.1, hs2.2⟩

/-- `shake256x4` computes four independent SHAKE256 outputs. -/
theorem shake256x4_spec {out : Four (Buf UInt8)} {outlen : Nat} {m : Four (Buf UInt8)} {mo mlen : Nat} {Ms : Nat → List UInt8} (hlen : ∀ w, w < 4 → (Ms w).length = mlen)
    (hm : Seg4 m mo mlen (fun w j => (Ms w).getD j 0)) (ho : Size4 out outlen) :
    Post (shake256x4 out outlen m mo mlen) (fun o' => Written4 out o' 0 outlen (fun w j => (SHAKE256 (Ms w) outlen).getD j 0)) := by
  have hspec : ∀ w j, w < 4 → j < outlen → (SHAKE256 (Ms w) outlen).getD j 0 = sqByte 136 (finK 136 (fun j => (Ms w).getD j 0) mlen 0x1F) j := by
    intro w j hw hj
    rw [SHAKE256_eq, getD_map_range _ _ hj, hlen w hw]
  have hd := Nat.div_add_mod outlen 136
  unfold shake256x4
  simp only [wp_bind]
  rw [show SHAKE256_RATE = 136 from rfl]
  refine Post.use (shake256x4_absorb_spec (by simp) hm) fun s1 hs1 => ?_
  unfold shake256x4_squeezeblocks
  refine Post.use (keccak_squeezeblocks_x4_spec (k := 0) (rb := SHAKE256_RATE) (ho := 0) (by decide) (by decide) hs1.2 (ho.mono (by unfold SHAKE256_RATE; omega))) fun x hx => ?_
  rw [show SHAKE256_RATE = 136 from rfl] at hx
  simp only [wp_branch, decide_eq_true_eq, decide_eq_false_iff_not]
  refine ⟨fun hne => ?_, fun heq => ?_⟩
  · simp only [wp_bind]
    refine Post.use (keccak_squeezeblocks_x4_spec (k := 0 + outlen / 136) (rb := SHAKE256_RATE) (ho := 0) (nblocks := 1) (by decide) (by decide) hx.2.2 ⟨by simp [Four.rep]; decide, by simp [Four.rep]; decide, by simp [Four.rep]; decide, by simp [Four.rep]; decide⟩) fun y hy => ?_
    rw [show SHAKE256_RATE = 136 from rfl] at hy
    have hsz := hx.1.size ho
    have seg : ∀ {b b' : Buf UInt8} {g : Nat → UInt8}, Written b b' 0 (1 * 136) g → Seg b' 0 (outlen - outlen / 136 * 136) g :=
      fun h i hi => h.2.1 i (by omega)
    refine Post.use (memcpy_spec (by have := hsz.s0; omega) (seg hy.1.s0)) fun o0 h0 => ?_
    refine Post.use (memcpy_spec (by have := hsz.s1; omega) (seg hy.1.s1)) fun o1 h1 => ?_
    refine Post.use (memcpy_spec (by have := hsz.s2; omega) (seg hy.1.s2)) fun o2 h2 => ?_
    refine Post.use (memcpy_spec (by have := hsz.s3; omega) (seg hy.1.s3)) fun o3 h3 => ?_
    simp only [wp_pure]
    have hW : Written4 x.1 (⟨o0, o1, o2, o3⟩ : Four (Buf UInt8)) (0 + outlen / 136 * 136) (outlen - outlen / 136 * 136)
        (fun w j => sqByte 136 (finK 136 (fun j => (Ms w).getD j 0) mlen 0x1F) ((0 + outlen / 136) * 136 + j)) := by
      rw [Nat.zero_add]; exact ⟨h0, h1, h2, h3⟩
    have := hx.1.trans hW
    rw [show outlen / 136 * 136 + (outlen - outlen / 136 * 136) = outlen by omega] at this
    refine this.congr fun w j hw hj => ?_
    rw [hspec w j hw hj]
    by_cases hj' : j < outlen / 136 * 136
    · rw [if_pos hj', Nat.zero_mul, Nat.zero_add]
    · rw [if_neg hj', Nat.zero_add, show outlen / 136 * 136 + (j - outlen / 136 * 136) = j by omega]
  · simp only [wp_pure]
    have e : outlen / 136 * 136 = outlen := by omega
    rw [e] at hx
    refine hx.1.congr fun w j hw hj => ?_
    rw [hspec w j hw hj, Nat.zero_mul, Nat.zero_add]

end Verif

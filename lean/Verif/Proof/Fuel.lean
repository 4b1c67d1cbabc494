import Verif.Model.Kem
/-! # More budget never changes a result

`Le p q`: `p` ran out of budget, or `p` and `q` are the same outcome (same value, same trace, or same error). -/
namespace Verif
open Model

def Le {α : Type} (p q : M α) : Prop := p = Except.error Err.fuel ∨ p = q

theorem Le.refl {α : Type} (p : M α) : Le p p := .inr rfl

theorem Le.bind {α β : Type} {p q : M α} {f g : α → M β} (h : Le p q) (hf : ∀ a, Le (f a) (g a)) : Le (p >>= f) (q >>= g) := by
  rcases h with h | h
  · left; subst h; rfl
  · subst h
    change Le (M.bnd p f) (M.bnd p g)
    rcases p with e | ⟨a, t⟩
    · exact .inr rfl
    · rcases hf a with h | h
      · left; simp only [M.bnd, h]; rfl
      · right; simp only [M.bnd, h]

theorem Le.branch {α : Type} {c : Bool} {p q p' q' : M α} (h : Le p p') (h' : Le q q') : Le (branch c p q) (branch c p' q') := by
  unfold Verif.branch
  refine Le.bind (Le.refl _) fun _ => ?_
  cases c
  · exact h'
  · exact h

theorem Le.forFrom {σ : Type} {body body' : Nat → σ → M σ} (h : ∀ i s, Le (body i s) (body' i s)) :
    ∀ (n lo : Nat) (s : σ), Le (forFrom lo n s body) (forFrom lo n s body') := by
  intro n
  induction n with
  | zero => intro lo s; exact Le.refl _
  | succ n ih =>
    intro lo s
    simp only [Verif.forFrom]
    exact Le.bind (Le.refl _) fun _ => Le.bind (h _ _) fun _ => ih _ _

theorem Le.whileM {σ : Type} {cond : σ → M Bool} {body : σ → M σ} :
    ∀ (f f' : Nat) (_ : f ≤ f') (s : σ), Le (whileM f cond body s) (whileM f' cond body s) := by
  intro f
  induction f with
  | zero =>
    intro f' _ s
    unfold Verif.whileM
    refine Le.bind (Le.refl _) fun c => Le.branch (.inl rfl) (Le.refl _)
  | succ f ih =>
    intro f' hf s
    obtain ⟨g, rfl⟩ : ∃ g, f' = g + 1 := ⟨f' - 1, by omega⟩
    unfold Verif.whileM
    refine Le.bind (Le.refl _) fun c => Le.branch (Le.bind (Le.refl _) fun s => ih g (by omega) s) (Le.refl _)

theorem le_gen_matrix_entry {f f' : Nat} (h : f ≤ f') (e : Model.Poly) (s : Buf UInt8) : Le (gen_matrix_entry f e s) (gen_matrix_entry f' e s) := by
  unfold gen_matrix_entry
  refine Le.bind (Le.refl _) fun _ => Le.bind (Le.refl _) fun ⟨_, _⟩ => Le.bind (Le.refl _) fun ⟨_, _⟩ => ?_
  exact Le.bind (Le.whileM _ _ h _) fun _ => Le.refl _

theorem le_gen_matrix_entry_x4 {f f' : Nat} (h : f ≤ f') (e : Four Model.Poly) (s : Four (Buf UInt8)) :
    Le (gen_matrix_entry_x4 f e s) (gen_matrix_entry_x4 f' e s) := by
  unfold gen_matrix_entry_x4
  refine Le.bind (Le.refl _) fun _ => Le.bind (Le.refl _) fun ⟨_, _⟩ => Le.bind (Le.refl _) fun ⟨_, _⟩ => Le.bind (Le.refl _) fun ⟨_, _⟩ =>
    Le.bind (Le.refl _) fun ⟨_, _⟩ => Le.bind (Le.refl _) fun ⟨_, _⟩ => ?_
  exact Le.bind (Le.whileM _ _ h _) fun _ => Le.refl _

theorem le_gen_matrix {f f' : Nat} (h : f ≤ f') (K : Nat) (a : PolyVec) (s : Buf UInt8) (so : Nat) (tr : Bool) :
    Le (gen_matrix K f a s so tr) (gen_matrix K f' a s so tr) := by
  unfold gen_matrix
  refine Le.bind (Le.refl _) fun _ => Le.bind (Le.refl _) fun _ => Le.bind (Le.refl _) fun _ => Le.bind (Le.refl _) fun _ =>
    Le.bind (Le.forFrom (fun t ⟨a, s⟩ => ?_) _ _ _) fun ⟨_, _⟩ => Le.bind (Le.branch ?_ (Le.refl _)) fun ⟨_, _⟩ => Le.refl _
  · refine Le.bind (Le.refl _) fun _ => Le.bind (Le.refl _) fun _ => Le.bind (le_gen_matrix_entry h _ _) fun _ => Le.refl _
  · refine Le.bind (Le.refl _) fun _ => Le.bind (Le.refl _) fun _ => Le.bind (Le.refl _) fun _ => Le.bind (Le.refl _) fun _ =>
      Le.bind (Le.refl _) fun _ => Le.bind (Le.refl _) fun _ => Le.bind (Le.refl _) fun _ => Le.bind (Le.refl _) fun _ =>
      Le.bind (le_gen_matrix_entry_x4 h _ _) fun _ => Le.refl _

theorem le_indcpa_keypair_derand {f f' : Nat} (h : f ≤ f') (K : Nat) (pk sk coins : Buf UInt8) :
    Le (indcpa_keypair_derand K f pk sk coins) (indcpa_keypair_derand K f' pk sk coins) := by
  unfold indcpa_keypair_derand
  exact Le.bind (Le.refl _) fun _ => Le.bind (Le.refl _) fun _ => Le.bind (Le.refl _) fun _ => Le.bind (le_gen_matrix h _ _ _ _ _) fun _ => Le.refl _

theorem le_indcpa_enc {f f' : Nat} (h : f ≤ f') (K : Nat) (c m : Buf UInt8) (mo : Nat) (pk : Buf UInt8) (po : Nat) (r : Buf UInt8) (ro : Nat) :
    Le (indcpa_enc K f c m mo pk po r ro) (indcpa_enc K f' c m mo pk po r ro) := by
  unfold indcpa_enc
  exact Le.bind (Le.refl _) fun ⟨_, _⟩ => Le.bind (Le.refl _) fun _ => Le.bind (le_gen_matrix h _ _ _ _ _) fun _ => Le.refl _

theorem le_keypair_derand {f f' : Nat} (h : f ≤ f') (K : Nat) (pk sk coins : Buf UInt8) :
    Le (crypto_kem_keypair_derand K f pk sk coins) (crypto_kem_keypair_derand K f' pk sk coins) := by
  unfold crypto_kem_keypair_derand
  exact Le.bind (le_indcpa_keypair_derand h _ _ _ _) fun _ => Le.refl _

theorem le_keypair {σ : Type} {f f' : Nat} (h : f ≤ f') (K : Nat) (rb : RandomBytes σ) (st : σ) (pk sk : Buf UInt8) :
    Le (crypto_kem_keypair K f rb st pk sk) (crypto_kem_keypair K f' rb st pk sk) := by
  unfold crypto_kem_keypair
  exact Le.bind (le_keypair_derand h _ _ _ _) fun _ => Le.refl _

theorem le_enc_derand {f f' : Nat} (h : f ≤ f') (K : Nat) (ct ss pk coins : Buf UInt8) :
    Le (crypto_kem_enc_derand K f ct ss pk coins) (crypto_kem_enc_derand K f' ct ss pk coins) := by
  unfold crypto_kem_enc_derand
  exact Le.bind (Le.refl _) fun _ => Le.branch (Le.refl _) (Le.bind (Le.refl _) fun _ => Le.bind (Le.refl _) fun _ => Le.bind (Le.refl _) fun _ =>
    Le.bind (le_indcpa_enc h _ _ _ _ _ _ _ _) fun _ => Le.refl _)

theorem le_enc {σ : Type} {f f' : Nat} (h : f ≤ f') (K : Nat) (rb : RandomBytes σ) (st : σ) (ct ss pk : Buf UInt8) :
    Le (crypto_kem_enc K f rb st ct ss pk) (crypto_kem_enc K f' rb st ct ss pk) := by
  unfold crypto_kem_enc
  exact Le.bind (le_enc_derand h _ _ _ _ _) fun _ => Le.refl _

theorem le_dec {f f' : Nat} (h : f ≤ f') (K : Nat) (ss ct sk : Buf UInt8) :
    Le (crypto_kem_dec K f ss ct sk) (crypto_kem_dec K f' ss ct sk) := by
  unfold crypto_kem_dec
  exact Le.bind (Le.refl _) fun _ => Le.branch (Le.refl _) (Le.bind (Le.refl _) fun _ => Le.bind (Le.refl _) fun _ => Le.bind (Le.refl _) fun _ =>
    Le.bind (le_indcpa_enc h _ _ _ _ _ _ _ _) fun _ => Le.refl _)

end Verif

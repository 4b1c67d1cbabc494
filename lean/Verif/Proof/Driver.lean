import Verif.Model.Driver
import Mathlib.Data.List.Forall2
/-! # The test driver: reasoning about plans -/
namespace Verif.Proof.Driver
open Verif.Spec.Driver Verif.Model.Driver

/-- How a run that was to carry out the plan `P` ended, when what came before was good (`ok`) or not. -/
structure Run {α : Type} (ok : Prop) (P : List Step) (pass cont : α → Prop) (r : Except Exc α) (tr : Transcript) : Prop where
  pre : tr.map Prod.fst <+: P.map Step.cmd
  full : ∀ a, r = .ok a → cont a → tr.length = P.length
  done : (ok ∧ Complete P tr) ↔ ∃ a, r = .ok a ∧ pass a
  early : ok → ¬ Complete P tr → ∃ (i : Nat) (s : Step) (e : Cmd × Outcome), P[i]? = some s ∧ tr[i]? = some e ∧ ¬ s.good e.2
  bad : ∀ e, r = .error e → status (.error e : Except Exc α) ≠ 0

/-- `p` carries out the plan `P`: results with `pass` when everything was good; after results with `cont` all its commands were started. -/
def Does {α : Type} (ok : Prop) (p : Py α) (P : List Step) (pass cont : α → Prop) : Prop := ∀ h, ∃ tr, (p h).2 = h ++ tr ∧ Run ok P pass cont (p h).1 tr

/-- `p` starts nothing and does not pass. -/
def Stops {α : Type} (p : Py α) (pass cont : α → Prop) : Prop :=
  ∀ h, (p h).2 = h ∧ (∀ b, (p h).1 = .ok b → ¬ pass b ∧ ¬ cont b) ∧ ∀ e, (p h).1 = .error e → status (.error e : Except Exc α) ≠ 0

theorem complete_append {P Q : List Step} {t u : Transcript} (h : t.length = P.length) : Complete (P ++ Q) (t ++ u) ↔ Complete P t ∧ Complete Q u := by
  unfold Complete
  induction P generalizing t with
  | nil => obtain rfl := List.eq_nil_of_length_eq_zero (by simpa using h); simp
  | cons s P ih =>
    cases t with
    | nil => simp at h
    | cons e t =>
      simp only [List.cons_append, List.forall₂_cons]
      rw [ih (by simpa using h), and_assoc, and_assoc, and_assoc]

theorem complete_length {P : List Step} {t : Transcript} (h : Complete P t) : t.length = P.length := (List.Forall₂.length_eq h).symm

theorem bind_eq {α β : Type} (p : Py α) (f : α → Py β) (h : Transcript) : (p >>= f) h = match p h with
  | (.ok a, h') => f a h'
  | (.error e, h') => (.error e, h') := rfl

instance : LawfulMonad Py := LawfulMonad.mk' Py
  (id_map := fun p => by
    funext h
    change Py.bnd p _ h = _
    unfold Py.bnd
    rcases p h with ⟨_ | _, _⟩ <;> rfl)
  (pure_bind := fun _ _ => rfl)
  (bind_assoc := fun p f g => by
    funext h
    change Py.bnd (Py.bnd p f) g h = Py.bnd p (fun a => Py.bnd (f a) g) h
    unfold Py.bnd
    rcases p h with ⟨_ | _, _⟩ <;> rfl)

theorem Does.pure {α : Type} {ok : Prop} {a : α} {pass cont : α → Prop} (h : ok ↔ pass a) : Does ok (Pure.pure a : Py α) [] pass cont := by
  intro t
  refine ⟨[], by simp [show (Pure.pure a : Py α) t = (.ok a, t) from rfl], ?_⟩
  have e : ((Pure.pure a : Py α) t).1 = .ok a := rfl
  rw [e]
  refine ⟨by simp, by simp, ⟨fun hh => ⟨a, rfl, h.1 hh.1⟩, ?_⟩, fun _ hn => absurd List.Forall₂.nil hn, fun e he => nomatch he⟩
  rintro ⟨b, hb, hp⟩
  cases hb
  exact ⟨h.2 hp, List.Forall₂.nil⟩

theorem Does.raise {α : Type} {ok : Prop} {e : Exc} {pass cont : α → Prop} (h : ¬ ok) (he : status (.error e : Except Exc α) ≠ 0) : Does ok (Model.Driver.raise e : Py α) [] pass cont := by
  intro t
  refine ⟨[], by simp [Model.Driver.raise], ?_⟩
  have e1 : ((Model.Driver.raise e : Py α) t).1 = .error e := rfl
  rw [e1]
  refine ⟨by simp, fun _ h => (nomatch h), ⟨fun hh => absurd hh.1 h, ?_⟩, fun ho => absurd ho h, fun e' h' => by cases h'; exact he⟩
  rintro ⟨b, hb, _⟩
  cases hb

theorem Does.bind {α β : Type} {ok : Prop} {p : Py α} {f : α → Py β} {P Q : List Step} {pass cont : α → Prop} {pass' cont' : β → Prop} (hp : Does ok p P pass cont) (hc : ∀ a, pass a → cont a)
    (hf : ∀ a, cont a → Does (pass a) (f a) Q pass' cont') (hs : ∀ a, ¬ cont a → Stops (f a) pass' cont') : Does ok (p >>= f) (P ++ Q) pass' cont' := by
  intro h
  obtain ⟨t, h1, h2⟩ := hp h
  rw [bind_eq]
  rcases e : p h with ⟨r, h'⟩
  rw [e] at h1 h2
  obtain rfl : h' = h ++ t := h1
  have hpre : t.length ≤ P.length := by simpa using h2.pre.length_le
  have take : ∀ {t' : Transcript}, t'.length ≤ P.length → Complete (P ++ Q) t' → Complete P t' := by
    intro t' hl hcq
    have hQ : Q = [] := by
      have := complete_length hcq
      simp only [List.length_append] at this
      exact List.eq_nil_of_length_eq_zero (by omega)
    subst hQ
    simpa using hcq
  -- nothing more is started and the result does not pass
  have stop : ∀ r' : Except Exc β, (∀ a, r = .ok a → ¬ pass a) → (∀ b, r' = .ok b → ¬ pass' b ∧ ¬ cont' b) → (∀ e, r' = .error e → status (.error e : Except Exc β) ≠ 0) →
      ∃ tr, h ++ t = h ++ tr ∧ Run ok (P ++ Q) pass' cont' r' tr := by
    intro r' hr hb he
    have hno : ok → ¬ Complete P t := by
      intro ho hcp
      obtain ⟨a, ha, hpa⟩ := h2.done.1 ⟨ho, hcp⟩
      exact hr a ha hpa
    refine ⟨t, rfl, ⟨?_, fun b hb' hc' => absurd hc' (hb b hb').2, ⟨fun hh => absurd (take hpre hh.2) (hno hh.1), ?_⟩, fun ho hn => ?_, he⟩⟩
    · rw [List.map_append]; exact h2.pre.trans (List.prefix_append _ _)
    · rintro ⟨b, hb', hp'⟩; exact absurd hp' (hb b hb').1
    · obtain ⟨i, s, x, g1, g2, g3⟩ := h2.early ho (hno ho)
      refine ⟨i, s, x, ?_, g2, g3⟩
      rw [List.getElem?_append_left (List.getElem?_eq_some_iff.1 g1).1]; exact g1
  cases r with
  | error x =>
    exact stop _ (fun a ha => nomatch ha) (fun b hb => nomatch hb) (fun x' hx => by cases hx; have := h2.bad x rfl; cases x <;> exact this)
  | ok a =>
    simp only
    by_cases hca : cont a
    · obtain ⟨u, g1, g2⟩ := hf a hca (h ++ t)
      have hl : t.length = P.length := h2.full a rfl hca
      refine ⟨t ++ u, by rw [g1, List.append_assoc], ⟨?_, fun b hb hc' => ?_, ?_, fun ho hn => ?_, g2.bad⟩⟩
      · rw [List.map_append, List.map_append]
        have e1 : t.map Prod.fst = P.map Step.cmd := h2.pre.eq_of_length (by simpa using hl)
        rw [e1]
        exact (List.prefix_append_right_inj _).2 g2.pre
      · rw [List.length_append, List.length_append, hl, g2.full b hb hc']
      · rw [complete_append hl, ← and_assoc, h2.done, ← g2.done]
        refine and_congr_left fun _ => ⟨?_, fun hp => ⟨a, rfl, hp⟩⟩
        rintro ⟨a', ha', hp'⟩
        cases ha'; exact hp'
      · rw [complete_append hl] at hn
        by_cases hcp : Complete P t
        · obtain ⟨a', ha', hp'⟩ := h2.done.1 ⟨ho, hcp⟩
          cases ha'
          obtain ⟨i, s, x, k1, k2, k3⟩ := g2.early hp' (fun hh => hn ⟨hcp, hh⟩)
          refine ⟨P.length + i, s, x, ?_, ?_, k3⟩
          · rw [List.getElem?_append_right (by omega)]; simpa using k1
          · rw [List.getElem?_append_right (by omega), hl]; simpa using k2
        · obtain ⟨i, s, x, k1, k2, k3⟩ := h2.early ho hcp
          refine ⟨i, s, x, ?_, ?_, k3⟩
          · rw [List.getElem?_append_left (List.getElem?_eq_some_iff.1 k1).1]; exact k1
          · rw [List.getElem?_append_left (List.getElem?_eq_some_iff.1 k2).1]; exact k2
    · obtain ⟨g1, g2, g3⟩ := hs a hca (h ++ t)
      obtain ⟨tr, k1, k2⟩ := stop (f a (h ++ t)).1 (fun a' ha' => by cases ha'; exact fun hp => hca (hc a hp)) g2 g3
      exact ⟨tr, g1.trans k1, k2⟩

/-- The common case: whatever the result, all commands of the first part were started. -/
theorem Does.seq {α β : Type} {ok : Prop} {p : Py α} {f : α → Py β} {P Q : List Step} {pass : α → Prop} {pass' cont' : β → Prop} (hp : Does ok p P pass fun _ => True)
    (hf : ∀ a, Does (pass a) (f a) Q pass' cont') : Does ok (p >>= f) (P ++ Q) pass' cont' :=
  hp.bind (fun _ _ => trivial) (fun a _ => hf a) (fun _ h => absurd trivial h)

/-- A computation without commands and without exceptions comes first. -/
theorem Does.calc {α β : Type} {ok : Prop} {p : Py α} {f : α → Py β} {a : α} {Q : List Step} {pass' cont' : β → Prop} (hp : ∀ h, p h = (.ok a, h))
    (hf : Does ok (f a) Q pass' cont') : Does ok (p >>= f) Q pass' cont' := by
  intro h
  rw [bind_eq, hp h]
  exact hf h

theorem Does.step {β : Type} {ok : Prop} {w : World} {c : Cmd} {f : Outcome → Py β} {s : Step} {pass cont : β → Prop} (hc : s.cmd = c)
    (hf : ∀ h, ∃ r, (∀ h', f (w h c) h' = (r, h')) ∧ ((ok ∧ s.good (w h c)) ↔ ∃ a, r = .ok a ∧ pass a) ∧ ∀ e, r = .error e → status (.error e : Except Exc β) ≠ 0) :
    Does ok (start w c >>= f) [s] pass cont := by
  intro h
  obtain ⟨r, h1, h2, h4⟩ := hf h
  have e : (start w c >>= f) h = (r, h ++ [(c, w h c)]) := by rw [bind_eq]; exact h1 _
  rw [e]
  have hcomp : Complete [s] [(c, w h c)] ↔ s.good (w h c) := by
    unfold Complete
    rw [List.forall₂_cons]
    exact ⟨fun hh => hh.1.2, fun hh => ⟨⟨hc.symm, hh⟩, List.Forall₂.nil⟩⟩
  refine ⟨[(c, w h c)], rfl, ⟨by simp [hc], fun _ _ _ => rfl, by rw [hcomp]; exact h2, fun _ hn => ⟨0, s, (c, w h c), rfl, rfl, fun hg => hn (hcomp.2 hg)⟩, h4⟩⟩

theorem Does.mono {α : Type} {ok ok' : Prop} {p : Py α} {P : List Step} {pass pass' cont cont' : α → Prop} (h : Does ok p P pass cont) (ho : ok' ↔ ok) (hp : ∀ a, pass a ↔ pass' a) (hc : ∀ a, cont' a → cont a) :
    Does ok' p P pass' cont' := by
  intro t
  obtain ⟨tr, h1, h2⟩ := h t
  refine ⟨tr, h1, ⟨h2.pre, fun a ha hca => h2.full a ha (hc a hca), ?_, fun o => h2.early (ho.1 o), h2.bad⟩⟩
  rw [ho, h2.done]
  simp only [hp]

/-- A loop. -/
theorem Does.fold {α ι : Type} {w : α → ι → Py α} {P : ι → List Step} {pass : α → Prop} (hw : ∀ a x, Does (pass a) (w a x) (P x) pass fun _ => True) : ∀ (xs : List ι) (a : α),
    Does (pass a) (xs.foldlM w a) (xs.flatMap P) pass fun _ => True
  | [], a => by rw [List.foldlM_nil, List.flatMap_nil]; exact Does.pure Iff.rfl
  | x :: xs, a => by rw [List.foldlM_cons, List.flatMap_cons]; exact (hw a x).seq fun b => Does.fold hw xs b

/-! ## Text -/

theorem fromUTF8?_eq (b : ByteArray) (s : String) : String.fromUTF8? b = some s ↔ b = s.toUTF8 := by
  unfold String.fromUTF8?
  constructor
  · intro h
    split at h
    · cases h; rfl
    · cases h
  · rintro rfl
    rw [dif_pos (show s.toUTF8.IsValidUTF8 from s.isValidUTF8)]
    rfl

theorem isBreak_iff (c : Char) : isBreak c = true ↔ c.toNat ∈ [0x0A, 0x0B, 0x0C, 0x0D, 0x1C, 0x1D, 0x1E, 0x85, 0x2028, 0x2029] := by
  unfold isBreak; rw [List.contains_iff_mem]

/-- A line has been begun. -/
def begun (line : List Char) : List (List Char) → List (List Char)
  | [] => if line = [] then [] else [line]
  | l :: ls => (line ++ l) :: ls

theorem lines_ne_nil : ∀ t : List Char, t ≠ [] → lines t ≠ []
  | [], h => absurd rfl h
  | [c], _ => by unfold lines; split <;> simp
  | c :: d :: t, _ => by
    unfold lines
    split
    · simp
    · split
      · simp
      · have := lines_ne_nil (d :: t) (by simp)
        cases e : lines (d :: t) with
        | nil => exact absurd e this
        | cons l ls => simp [List.modifyHead]

theorem lines_cons_lf (c : Char) (t : List Char) (h : c.toNat = 0x0A) : lines (c :: t) = [] :: lines t := by
  cases t with
  | nil => simp [lines, h]
  | cons d t => rw [lines, if_neg (by omega), if_pos (by simp [h])]

theorem lines_cons_plain (c : Char) (t : List Char) (h : c.toNat ∉ [0x0A, 0x0B, 0x0C, 0x0D, 0x1C, 0x1D, 0x1E, 0x85, 0x2028, 0x2029]) : lines (c :: t) = begun [c] (lines t) := by
  cases t with
  | nil => change lines [c] = [[c]]; rw [lines.eq_2, if_neg h]
  | cons d t =>
    rw [lines, if_neg (by intro hh; apply h; simp [hh.1]), if_neg h]
    have := lines_ne_nil (d :: t) (by simp)
    cases e : lines (d :: t) with
    | nil => exact absurd e this
    | cons l ls => rfl

/-- The rest after a boundary; `cr` says that the boundary was a carriage return. -/
def afterBreak (cr : Bool) : List Char → List Char
  | [] => []
  | d :: t => if cr = true ∧ d.toNat = 0x0A then t else d :: t

theorem lines_cons_break (c : Char) (t : List Char) (h : c.toNat ∈ [0x0A, 0x0B, 0x0C, 0x0D, 0x1C, 0x1D, 0x1E, 0x85, 0x2028, 0x2029]) : lines (c :: t) = [] :: lines (afterBreak (c.toNat == 0x0D) t) := by
  cases t with
  | nil => change lines [c] = [[]]; rw [lines.eq_2, if_pos h]
  | cons d t =>
    rw [lines]
    unfold afterBreak
    simp only [beq_iff_eq]
    split
    · rfl
    · first | rfl | rw [if_pos h]

theorem begun_nil (L : List (List Char)) : begun [] L = L := by cases L <;> simp [begun]

theorem splitlinesFrom_eq : ∀ (t : List Char) (line : List Char), splitlinesFrom line false t = begun line (lines t) ∧ splitlinesFrom [] true t = lines (afterBreak true t)
  | [], line => by simp [splitlinesFrom, lines, begun, afterBreak]
  | c :: t, line => by
    have ih := splitlinesFrom_eq t
    have afterB : ∀ b, splitlinesFrom [] b t = lines (afterBreak b t) := by
      intro b
      cases b with
      | true => exact (ih []).2
      | false =>
        rw [(ih []).1, begun_nil]
        cases t <;> simp [afterBreak]
    have nonbreak : ∀ line, splitlinesFrom line false (c :: t) = begun line (lines (c :: t)) := by
      intro line
      rw [splitlinesFrom]
      simp only [Bool.false_and, Bool.false_eq_true, if_false]
      by_cases hb : isBreak c = true
      · rw [if_pos hb, lines_cons_break c t ((isBreak_iff c).1 hb), afterB]
        simp [begun]
      · rw [if_neg hb, (ih (line ++ [c])).1, lines_cons_plain c t (fun hh => hb ((isBreak_iff c).2 hh))]
        cases e : lines t with
        | nil => simp [begun]
        | cons l ls => simp [begun]
    refine ⟨nonbreak line, ?_⟩
    by_cases hl : c.toNat = 0x0A
    · rw [splitlinesFrom]
      simp only [hl, Bool.true_and, beq_self_eq_true, if_true, afterBreak, true_and]
      rw [(ih []).1, begun_nil]
    · have e1 : splitlinesFrom [] true (c :: t) = splitlinesFrom [] false (c :: t) := by
        rw [splitlinesFrom, splitlinesFrom]
        simp [hl]
      rw [e1, nonbreak, begun_nil]
      simp [afterBreak, hl]

theorem splitlines_eq (s : String) : splitlines s = lines s.toList := by
  unfold splitlines
  rw [(splitlinesFrom_eq s.toList []).1]
  cases lines s.toList <;> simp [begun]

theorem splitEq_ne_nil (l : List Char) : splitEq l ≠ [] := by
  induction l with
  | nil => simp [splitEq]
  | cons c t ih =>
    unfold splitEq
    split
    · simp
    · cases e : splitEq t with
      | nil => exact absurd e ih
      | cons a b => simp [List.modifyHead]

theorem splitEq_single {l v : List Char} : splitEq l = [v] ↔ l = v ∧ '=' ∉ l := by
  induction l generalizing v with
  | nil => simp [splitEq, eq_comm]
  | cons c t ih =>
    unfold splitEq
    by_cases hc : c = '='
    · rw [if_pos hc]
      constructor
      · intro h; exact absurd (List.cons.inj h).2 (splitEq_ne_nil t)
      · rintro ⟨_, h⟩; exact absurd (by simp [hc]) h
    · rw [if_neg hc]
      constructor
      · intro h
        cases e : splitEq t with
        | nil => exact absurd e (splitEq_ne_nil t)
        | cons a b =>
          rw [e] at h
          obtain ⟨h1, h2⟩ := List.cons.inj h
          subst h2
          obtain ⟨h3, h4⟩ := ih.1 e
          subst h3
          exact ⟨h1, by simp [Ne.symm hc, h4]⟩
      · rintro ⟨rfl, h⟩
        have : splitEq t = [t] := ih.2 ⟨rfl, fun hh => h (List.mem_cons_of_mem _ hh)⟩
        rw [this]; rfl

theorem splitEq_pair {l k v : List Char} : splitEq l = [k, v] ↔ l = k ++ '=' :: v ∧ '=' ∉ k ∧ '=' ∉ v := by
  induction l generalizing k with
  | nil => simp [splitEq]
  | cons c t ih =>
    unfold splitEq
    by_cases hc : c = '='
    · rw [if_pos hc, List.cons.injEq, splitEq_single]
      constructor
      · rintro ⟨rfl, rfl, h⟩; exact ⟨by simp [hc], by simp, h⟩
      · rintro ⟨h1, h2, h3⟩
        cases k with
        | nil => obtain ⟨_, rfl⟩ := List.cons.inj h1; exact ⟨rfl, rfl, h3⟩
        | cons a k => obtain ⟨h, _⟩ := List.cons.inj h1; exact absurd (by simp [← h, hc]) h2
    · rw [if_neg hc]
      constructor
      · intro h
        cases e : splitEq t with
        | nil => exact absurd e (splitEq_ne_nil t)
        | cons a b =>
          rw [e] at h
          obtain ⟨h1, h2⟩ := List.cons.inj h
          subst h2
          obtain ⟨h3, h4, h5⟩ := ih.1 e
          subst h1
          exact ⟨by rw [h3]; rfl, by simp [Ne.symm hc, h4], h5⟩
      · rintro ⟨h1, h2, h3⟩
        cases k with
        | nil => exact absurd (List.cons.inj h1).1 hc
        | cons a k =>
          obtain ⟨rfl, h⟩ := List.cons.inj h1
          rw [ih.2 ⟨h, fun hh => h2 (List.mem_cons_of_mem _ hh), h3⟩]; rfl

/-- A line agrees with the object. -/
def LineOk (d : Dict) (l : List Char) : Prop := ∃ k v : String, l = k.toList ++ '=' :: v.toList ∧ '=' ∉ k.toList ∧ '=' ∉ v.toList ∧ Says d k v

/-- One line of `_expect_proc`. -/
def lineProc (tc : Dict) (fail : Bool) (l : List Char) : Py Bool :=
  match splitEq l with
  | [k, v] => do
    let e ← getitem tc (String.ofList k)
    pure (if e.isStr = true ∧ String.ofList v = e.text then fail else true)
  | _ => raise .error

theorem lineProc_spec (tc : Dict) (fail : Bool) (l : List Char) : ∃ r, (∀ h, lineProc tc fail l h = (r, h)) ∧ (r = .ok false ↔ fail = false ∧ LineOk tc l) ∧ ∀ e, r = .error e → e = .error := by
  unfold lineProc
  have other : (∀ k v, splitEq l ≠ [k, v]) → ¬ (fail = false ∧ LineOk tc l) := by
    rintro hne ⟨_, k, v, g1, g2, g3, _⟩
    exact hne _ _ (splitEq_pair.2 ⟨g1, g2, g3⟩)
  rcases e : splitEq l with _ | ⟨k, _ | ⟨v, _ | ⟨x, y⟩⟩⟩
  · exact ⟨.error .error, fun h => rfl, ⟨nofun, fun h => absurd h (other (by simp [e]))⟩, by intro e he; cases he; rfl⟩
  · exact ⟨.error .error, fun h => rfl, ⟨nofun, fun h => absurd h (other (by simp [e]))⟩, by intro e he; cases he; rfl⟩
  · obtain ⟨h1, h2, h3⟩ := splitEq_pair.1 e
    have hk : LineOk tc l ↔ Says tc (String.ofList k) (String.ofList v) := by
      constructor
      · rintro ⟨k', v', g1, g2, g3, g4⟩
        have := splitEq_pair.2 ⟨g1, g2, g3⟩
        rw [e] at this
        simp only [List.cons.injEq, and_true] at this
        rw [this.1, this.2, String.ofList_toList, String.ofList_toList]
        exact g4
      · intro hs
        exact ⟨_, _, by simpa using h1, by simpa using h2, by simpa using h3, hs⟩
    rw [hk]
    unfold Says getitem
    cases e1 : tc.lookup (String.ofList k) with
    | none => exact ⟨.error .error, fun h => by simp only [e1]; rfl, by simp, by intro e he; cases he; rfl⟩
    | some x =>
      refine ⟨.ok (if x.isStr = true ∧ String.ofList v = x.text then fail else true), fun h => by simp only [e1]; rfl, ?_, fun e he => nomatch he⟩
      obtain ⟨b, t⟩ := x
      by_cases hh : b = true ∧ String.ofList v = t
      · rw [if_pos hh]
        obtain ⟨rfl, rfl⟩ := hh
        exact ⟨fun h => ⟨Except.ok.inj h, rfl⟩, fun h => by rw [h.1]⟩
      · rw [if_neg hh]
        refine ⟨fun h => Bool.noConfusion (Except.ok.inj h), fun h => ?_⟩
        have := Option.some.inj h.2
        injection this with h1 h2
        exact absurd ⟨h1, h2.symm⟩ hh
  · exact ⟨.error .error, fun h => rfl, ⟨nofun, fun h => absurd h (other (by simp [e]))⟩, by intro e he; cases he; rfl⟩

theorem lineFold_spec (tc : Dict) : ∀ (ls : List (List Char)) (fail : Bool), ∃ r, (∀ h, (ls.foldlM (lineProc tc) fail : Py Bool) h = (r, h)) ∧ (r = .ok false ↔ fail = false ∧ ∀ l ∈ ls, LineOk tc l) ∧ ∀ e, r = .error e → e = .error
  | [], fail => ⟨.ok fail, fun h => rfl, by simp, fun e he => nomatch he⟩
  | l :: ls, fail => by
    obtain ⟨r, h1, h2, h3⟩ := lineProc_spec tc fail l
    cases r with
    | error e =>
      refine ⟨.error e, fun h => by rw [List.foldlM_cons, bind_eq, h1], ?_, h3⟩
      constructor
      · intro h; cases h
      · rintro ⟨g1, g2⟩; exact absurd (h2.2 ⟨g1, g2 l (by simp)⟩) nofun
    | ok b =>
      obtain ⟨r, k1, k2, k3⟩ := lineFold_spec tc ls b
      refine ⟨r, fun h => by rw [List.foldlM_cons, bind_eq, h1]; exact k1 h, ?_, k3⟩
      rw [k2, List.forall_mem_cons, ← and_assoc, ← h2]
      simp

theorem acvp_proc_spec (tc : Dict) (out : ByteArray) : ∃ r, (∀ h, acvp_proc tc out h = (r, h)) ∧ (r = .ok false ↔ ∃ text : String, out = text.toUTF8 ∧ Agrees tc text) ∧ ∀ e, r = .error e → e = .error := by
  unfold acvp_proc decode
  cases e : String.fromUTF8? out with
  | none =>
    refine ⟨_, fun h => rfl, ?_, by intro e he; cases he; rfl⟩
    constructor
    · intro h; cases h
    · rintro ⟨text, h, _⟩; rw [← fromUTF8?_eq, e] at h; cases h
  | some s =>
    obtain ⟨r, h1, h2, h3⟩ := lineFold_spec tc (splitlines s) false
    refine ⟨r, fun h => ?_, ?_, h3⟩
    · rw [bind_eq]; exact h1 h
    · rw [h2, splitlines_eq]
      have hs := (fromUTF8?_eq out s).1 e
      constructor
      · rintro ⟨_, h⟩; exact ⟨s, hs, h⟩
      · rintro ⟨text, g1, g2⟩
        rw [← fromUTF8?_eq, e] at g1
        cases g1
        exact ⟨rfl, g2⟩

/-! ## The functions -/

theorem compile_schemes_does (w : World) (t : Test) (b : Bool) (ok : Prop) : Does ok (compile_schemes w t b) [makeStep t b] (fun _ => ok) fun _ => True := by
  unfold compile_schemes
  refine Does.step rfl fun h => ?_
  cases e : w h (.make t b) with
  | missing => exact ⟨.error .error, fun _ => rfl, by simp [makeStep], by intro e he; cases he; decide⟩
  | unstartable => exact ⟨.error .error, fun _ => rfl, by simp [makeStep], by intro e he; cases he; decide⟩
  | done code out err =>
    by_cases hc : code = 0
    · subst hc
      exact ⟨.ok (), fun _ => rfl, by simp [makeStep], fun e he => nomatch he⟩
    · refine ⟨.error (.sysExit 1), fun _ => ?_, by simp [makeStep, hc], by intro e he; cases he; decide⟩
      simp only [ne_eq, hc, not_false_eq_true, if_true]; rfl

theorem run_scheme_does {w : World} (hw : w.Posix) (t : Test) (s : Scheme) {proc : ByteArray → Py Bool} (pre args : List String) {right : ByteArray → Prop}
    (hp : ∀ out, ∃ r, (∀ h, proc out h = (r, h)) ∧ (r = .ok false ↔ right out) ∧ ∀ e, r = .error e → e = .error) (ok : Prop) :
    Does ok (run_scheme w t s proc pre args) [runStep t s pre args right] (fun r => ok ∧ r = false) fun _ => True := by
  unfold run_scheme
  refine Does.step rfl fun h => ?_
  cases e : w h (.run t s pre args) with
  | missing => exact ⟨.error (.sysExit 1), fun _ => rfl, by simp [runStep], by intro e he; cases he; decide⟩
  | unstartable => exact ⟨.error .error, fun _ => rfl, by simp [runStep], by intro e he; cases he; decide⟩
  | done code out err =>
    by_cases hc : code = 0
    · subst hc
      obtain ⟨r, h1, h2, h3⟩ := hp out
      refine ⟨r, fun h' => by simpa using h1 h', ?_, by intro e he; rw [h3 e he]; decide⟩
      have : (∃ a, r = .ok a ∧ ok ∧ a = false) ↔ (ok ∧ r = .ok false) := by
        constructor
        · rintro ⟨a, g1, g2, g3⟩; subst g3; exact ⟨g2, g1⟩
        · rintro ⟨g1, g2⟩; exact ⟨false, g2, g1, rfl⟩
      rw [this, h2]
      simp [runStep]
    · simp only [ne_eq, hc, not_false_eq_true, if_true]
      have hr := hw h _ _ _ _ e
      cases e1 : String.fromUTF8? err with
      | none => exact ⟨.error .error, fun _ => by rw [bind_eq]; unfold decode; rw [e1]; rfl, by simp [runStep, hc], by intro e he; cases he; decide⟩
      | some x =>
        refine ⟨.error (.sysExit code), fun _ => by rw [bind_eq]; unfold decode; rw [e1]; rfl, by simp [runStep, hc], ?_⟩
        intro e he
        cases he
        simp only [status]
        omega

theorem foldl_or (l : List Bool) (b : Bool) : l.foldl (· || ·) b = false ↔ b = false ∧ ∀ r ∈ l, r = false := by
  induction l generalizing b with
  | nil => simp
  | cons a l ih => rw [List.foldl_cons, ih]; simp [Bool.or_eq_false_iff, and_assoc]

theorem run_schemes_does {w : World} (hw : w.Posix) (t : Test) {proc : Scheme → ByteArray → Py Bool} (pre : List String) {right : Scheme → ByteArray → Prop}
    (hp : ∀ s out, ∃ r, (∀ h, proc s out h = (r, h)) ∧ (r = .ok false ↔ right s out) ∧ ∀ e, r = .error e → e = .error) (ok : Prop) :
    Does ok (run_schemes w t proc pre) (schemes.map fun s => runStep t s pre [] (right s)) (fun r => ok ∧ r = false) fun _ => True := by
  unfold run_schemes
  have key := Does.fold (α := List Bool) (P := fun s => [runStep t s pre [] (right s)]) (pass := fun rs => ok ∧ ∀ r ∈ rs, r = false)
    (w := fun rs s => do
      let r ← run_scheme w t s (proc s) pre []
      pure (rs ++ [r])) (fun rs s => by
      have := (run_scheme_does hw t s pre [] (hp s) (ok ∧ ∀ r ∈ rs, r = false)).seq (Q := []) (f := fun r => (pure (rs ++ [r]) : Py (List Bool))) (cont' := fun _ => True)
        (pass' := fun rs => ok ∧ ∀ r ∈ rs, r = false) (fun r => Does.pure (by simp only [List.mem_append, List.mem_singleton]; aesop))
      simpa using this) SCHEME []
  have e : SCHEME.flatMap (fun s => [runStep t s pre [] (right s)]) = schemes.map fun s => runStep t s pre [] (right s) := rfl
  rw [e] at key
  have := key.seq (Q := []) (f := fun results => (pure (results.foldl (· || ·) false) : Py Bool)) (cont' := fun _ => True) (pass' := fun r => ok ∧ r = false)
    (fun rs => Does.pure (by rw [foldl_or]; simp))
  rw [List.append_nil] at this
  exact this.mono (by simp) (fun _ => Iff.rfl) fun _ h => h

theorem differs_iff (a b : String) : (Except.ok (a != b) : Except Exc Bool) = .ok false ↔ a = b := by
  rw [Except.ok.injEq, bne_eq_false_iff_eq]

theorem sizes_text (s : Scheme) : s!"CRYPTO_SECRETKEYBYTES:  {(meta_lengths s).1}\n" ++ s!"CRYPTO_PUBLICKEYBYTES:  {(meta_lengths s).2.1}\n" ++ s!"CRYPTO_CIPHERTEXTBYTES: {(meta_lengths s).2.2}\n" = sizesText s := by
  cases s <;> decide +kernel

theorem run_func_does {w : World} (hw : w.Posix) (pre : List String) (b : Bool) (ok : Prop) :
    Does ok (run_func w pre b) (schemes.map fun s => runStep .func s pre [] fun out => out = (sizesText s).toUTF8) (fun r => ok ∧ r = false) fun _ => True := by
  unfold run_func
  refine run_schemes_does hw .func pre (right := fun s out => out = (sizesText s).toUTF8) (fun s out => ?_) ok
  cases e : String.fromUTF8? out with
  | none =>
    refine ⟨.error .error, fun h => by rw [bind_eq]; unfold decode; rw [e]; rfl, ⟨nofun, fun h => ?_⟩, by intro e he; cases he; rfl⟩
    rw [← fromUTF8?_eq, e] at h; cases h
  | some x =>
    refine ⟨.ok (sizesText s != x), fun h => by rw [bind_eq]; unfold decode; rw [e, ← sizes_text]; rfl, ?_, nofun⟩
    rw [← fromUTF8?_eq, e, differs_iff, Option.some.injEq]
    exact eq_comm

theorem run_hash_does {w : World} (hw : w.Posix) (t : Test) (pre : List String) (sha : ByteArray → String) (dig : Scheme → String) (ok : Prop) :
    Does ok (run_schemes w t (fun s out => pure (dig s != sha out)) pre) (schemes.map fun s => runStep t s pre [] fun out => sha out = dig s) (fun r => ok ∧ r = false) fun _ => True :=
  run_schemes_does hw t pre (right := fun s out => sha out = dig s) (fun s out => ⟨.ok (dig s != sha out), fun _ => rfl, by rw [differs_iff]; exact eq_comm, nofun⟩) ok

/-! ## The vectors -/

theorem getitem_says {d : Dict} {k v : String} (h : Says d k v) (t : Transcript) : getitem d k t = (.ok ⟨true, v⟩, t) := by
  unfold getitem; rw [h]; rfl

theorem from_str_name (s : Scheme) (t : Transcript) : from_str ⟨true, s.name⟩ t = (.ok s, t) := by
  cases s <;> rfl

theorem says_unique {d : Dict} {k v v' : String} (h : Says d k v) (h' : Says d k v') : v = v' := by
  unfold Says at h h'; rw [h] at h'; injection h' with h'; injection h'

theorem name_inj {s s' : Scheme} (h : s.name = s'.name) : s = s' := by
  revert h; cases s <;> cases s' <;> decide

/-- The step of a vector. -/
def vectorStep (pre : List String) (v : Vector) : Step := runStep .acvp v.scheme pre v.question.args fun out => ∃ text : String, out = text.toUTF8 ∧ Agrees v.fields text

theorem vector_does {w : World} (hw : w.Posix) (pre : List String) (v : Vector) (ok : Prop) :
    Does ok (run_scheme w .acvp v.scheme (acvp_proc v.fields) pre v.question.args) [vectorStep pre v] (fun r => ok ∧ r = false) fun _ => True :=
  run_scheme_does hw .acvp v.scheme pre v.question.args (acvp_proc_spec v.fields) ok

theorem update_false (results : Results) (s : Scheme) (r : Bool) : (∀ x, Function.update results s (results s || r) x = false) ↔ (∀ x, results x = false) ∧ r = false := by
  constructor
  · intro h
    have hs := h s
    rw [Function.update_self, Bool.or_eq_false_iff] at hs
    refine ⟨fun x => ?_, hs.2⟩
    by_cases hx : x = s
    · rw [hx]; exact hs.1
    · have := h x; rwa [Function.update_of_ne hx] at this
  · rintro ⟨h1, rfl⟩ x
    by_cases hx : x = s
    · rw [hx, Function.update_self, h1]; rfl
    · rw [Function.update_of_ne hx]; exact h1 x

theorem encapDecap_args_eq {g : Group} {tc : Dict} {v : Vector} (h : EncapDecapTest g tc v) (old : Option (List String)) (t : Transcript) :
    encapDecap_args g tc old t = (.ok (some v.question.args), t) := by
  unfold encapDecap_args
  cases h with
  | encaps h1 h2 h3 h4 =>
    rw [bind_eq, getitem_says h2]
    simp only [and_self, if_true]
    rw [bind_eq, getitem_says h3]
    simp only
    rw [bind_eq, getitem_says h4]
    rfl
  | decaps h1 h2 h3 h4 =>
    rw [bind_eq, getitem_says h2]
    have : ¬ ("decapsulation" : String) = "encapsulation" := by decide
    simp only [this, and_false, if_false, and_self, if_true]
    rw [bind_eq, getitem_says h3]
    simp only
    rw [bind_eq, getitem_says h4]
    rfl

theorem encapDecap_fields {g : Group} {tc : Dict} {v : Vector} (h : EncapDecapTest g tc v) : v.fields = tc ∧ Says g.fields "parameterSet" v.scheme.name := by
  cases h with
  | encaps h1 => exact ⟨rfl, h1⟩
  | decaps h1 => exact ⟨rfl, h1⟩

theorem encapDecap_tests {w : World} (hw : w.Posix) (pre : List String) {g : Group} {s : Scheme} (hs : Says g.fields "parameterSet" s.name) (ok : Prop) :
    ∀ {tests : List Dict} {vs : List Vector}, List.Forall₂ (EncapDecapTest g) tests vs → ∀ st : Results × Option (List String),
    Does (ok ∧ ∀ x, st.1 x = false) (tests.foldlM (fun (st : Results × Option (List String)) tc => do
      let (results, old) := st
      let extra_args ← encapDecap_args g tc old
      match extra_args with
      | none => raise .error
      | some args => do
        let r ← run_scheme w .acvp s (acvp_proc tc) pre args
        pure (Function.update results s (results s || r), extra_args)) st) (vs.map (vectorStep pre)) (fun st => ok ∧ ∀ x, st.1 x = false) fun _ => True
  | _, _, .nil, st => by rw [List.foldlM_nil]; exact Does.pure Iff.rfl
  | tc :: tests, v :: vs, .cons h hr, st => by
    obtain ⟨hv, hs'⟩ := encapDecap_fields h
    obtain rfl := name_inj (says_unique hs hs')
    subst hv
    rw [List.foldlM_cons, List.map_cons, ← List.singleton_append]
    refine Does.seq (pass := fun st : Results × Option (List String) => ok ∧ ∀ x, st.1 x = false) ?_ fun st' => encapDecap_tests hw pre hs ok hr st'
    refine Does.calc (encapDecap_args_eq h st.2) ?_
    have := (vector_does hw pre v (ok ∧ ∀ x, st.1 x = false)).seq (Q := []) (cont' := fun _ => True) (pass' := fun st : Results × Option (List String) => ok ∧ ∀ x, st.1 x = false)
      (f := fun r => (pure (Function.update st.1 v.scheme (st.1 v.scheme || r), some v.question.args) : Py (Results × Option (List String))))
      (fun r => Does.pure (by simp only [update_false, and_assoc]))
    rwa [List.append_nil] at this

theorem encapDecap_does {w : World} (hw : w.Posix) (pre : List String) (ok : Prop) {gs : List Group} {vs : List Vector} (h : Contains EncapDecapTest gs vs) :
    Does ok (encapDecap_loop w pre gs) (vs.map (vectorStep pre)) (fun r => ok ∧ ∀ x, r x = false) fun _ => True := by
  unfold encapDecap_loop
  have key : ∀ {gs : List Group} {vs : List Vector}, Contains EncapDecapTest gs vs → ∀ st : Results × Option (List String), Does (ok ∧ ∀ x, st.1 x = false)
      (gs.foldlM (fun st tg => do
        let scheme ← from_str (← getitem tg.fields "parameterSet")
        tg.tests.foldlM (fun (st : Results × Option (List String)) tc => do
          let (results, old) := st
          let extra_args ← encapDecap_args tg tc old
          match extra_args with
          | none => raise .error
          | some args => do
            let r ← run_scheme w .acvp scheme (acvp_proc tc) pre args
            pure (Function.update results scheme (results scheme || r), extra_args)) st) st) (vs.map (vectorStep pre)) (fun st => ok ∧ ∀ x, st.1 x = false) fun _ => True := by
    intro gs vs h
    induction h with
    | nil => intro st; rw [List.foldlM_nil]; exact Does.pure Iff.rfl
    | cons hs ht _ ih =>
      intro st
      rw [List.foldlM_cons, List.map_append]
      refine Does.seq (pass := fun st : Results × Option (List String) => ok ∧ ∀ x, st.1 x = false) ?_ ih
      refine Does.calc (getitem_says hs) ?_
      refine Does.calc (from_str_name _) ?_
      exact encapDecap_tests hw pre hs ok ht st
  have := (key h ((fun _ => false), none)).seq (Q := []) (cont' := fun _ => True) (pass' := fun r : Results => ok ∧ ∀ x, r x = false) (f := fun st => (pure st.1 : Py Results)) (fun r => Does.pure Iff.rfl)
  rw [List.append_nil] at this
  exact this.mono (by simp) (fun _ => Iff.rfl) fun _ h => h

theorem keyGen_does {w : World} (hw : w.Posix) (pre : List String) (ok : Prop) {gs : List Group} {vs : List Vector} (h : Contains KeyGenTest gs vs) :
    Does ok (keyGen_loop w pre gs) (vs.map (vectorStep pre)) (fun r => ok ∧ ∀ x, r x = false) fun _ => True := by
  unfold keyGen_loop
  have inner : ∀ {g : Group} {s : Scheme} (_ : Says g.fields "parameterSet" s.name) {tests : List Dict} {vs : List Vector}, List.Forall₂ (KeyGenTest g) tests vs → ∀ st : Results,
      Does (ok ∧ ∀ x, st x = false) (tests.foldlM (fun (results : Results) tc => do
        let z ← getitem tc "z"
        let d ← getitem tc "d"
        let r ← run_scheme w .acvp s (acvp_proc tc) pre ["keyGen", "AFT", s!"z={z.text}", s!"d={d.text}"]
        pure (Function.update results s (results s || r))) st) (vs.map (vectorStep pre)) (fun st => ok ∧ ∀ x, st x = false) fun _ => True := by
    intro g s hs tests vs hf
    induction hf with
    | nil => intro st; rw [List.foldlM_nil]; exact Does.pure Iff.rfl
    | cons h _ ih =>
      intro st
      rw [List.foldlM_cons, List.map_cons, ← List.singleton_append]
      refine Does.seq (pass := fun st : Results => ok ∧ ∀ x, st x = false) ?_ ih
      obtain ⟨h1, h2, h3⟩ := h
      obtain rfl := name_inj (says_unique hs h1)
      rename_i tc _ _ _ z d
      refine Does.calc (getitem_says h2) ?_
      refine Does.calc (getitem_says h3) ?_
      have := (vector_does hw pre ⟨s, .keyGen z d, tc⟩ (ok ∧ ∀ x, st x = false)).seq (Q := []) (cont' := fun _ => True) (pass' := fun st : Results => ok ∧ ∀ x, st x = false)
        (f := fun r => (pure (Function.update st s (st s || r)) : Py Results)) (fun r => Does.pure (by simp only [update_false, and_assoc]))
      rw [List.append_nil] at this
      exact this
  have key : ∀ {gs : List Group} {vs : List Vector}, Contains KeyGenTest gs vs → ∀ st : Results, Does (ok ∧ ∀ x, st x = false)
      (gs.foldlM (fun (results : Results) tg => do
        let scheme ← from_str (← getitem tg.fields "parameterSet")
        tg.tests.foldlM (fun (results : Results) tc => do
          let z ← getitem tc "z"
          let d ← getitem tc "d"
          let r ← run_scheme w .acvp scheme (acvp_proc tc) pre ["keyGen", "AFT", s!"z={z.text}", s!"d={d.text}"]
          pure (Function.update results scheme (results scheme || r))) results) st) (vs.map (vectorStep pre)) (fun st => ok ∧ ∀ x, st x = false) fun _ => True := by
    intro gs vs h
    induction h with
    | nil => intro st; rw [List.foldlM_nil]; exact Does.pure Iff.rfl
    | cons hs ht _ ih =>
      intro st
      rw [List.foldlM_cons, List.map_append]
      refine Does.seq (pass := fun st : Results => ok ∧ ∀ x, st x = false) ?_ ih
      refine Does.calc (getitem_says hs) ?_
      refine Does.calc (from_str_name _) ?_
      exact inner hs ht st
  exact (key h fun _ => false).mono (by simp) (fun _ => Iff.rfl) fun _ h => h

theorem results_or (results : Results) (b : Bool) : (SCHEME.map results).foldl (· || ·) b = false ↔ b = false ∧ ∀ x, results x = false := by
  rw [foldl_or]
  refine and_congr_right fun _ => ⟨fun h x => h _ (List.mem_map.2 ⟨x, by cases x <;> decide, rfl⟩), fun h r hr => ?_⟩
  obtain ⟨x, _, rfl⟩ := List.mem_map.1 hr
  exact h x

theorem run_acvp_does {files : Files} {vs : List Vector} (hf : files.Contain vs) {w : World} (hw : w.Posix) (pre : List String) (b : Bool) (ok : Prop) :
    Does ok (run_acvp files w pre b) (vs.map (vectorStep pre)) (fun r => ok ∧ r = false) fun _ => True := by
  obtain ⟨us, ws, h1, h2, rfl⟩ := hf
  unfold run_acvp
  rw [List.map_append]
  refine (encapDecap_does hw pre ok h1).seq fun r1 => ?_
  have := (keyGen_does hw pre (ok ∧ ∀ x, r1 x = false) h2).seq (Q := []) (cont' := fun _ => True) (pass' := fun r : Bool => ok ∧ r = false)
    (f := fun r2 => (pure ((SCHEME.map r2).foldl (· || ·) ((SCHEME.map r1).foldl (· || ·) false)) : Py Bool))
    (fun r2 => Does.pure (by rw [results_or, results_or]; simp [and_assoc]))
  rwa [List.append_nil] at this

/-! ## The commands of the user -/

theorem metaDigest_nistkat : metaDigest .nistkat = meta_nistkat := by funext s; cases s <;> rfl
theorem metaDigest_kat : metaDigest .kat = meta_kat := by funext s; cases s <;> rfl

theorem runner_does (self : Tests) {vs : List Vector} (hf : self.files.Contain vs) {w : World} (hw : w.Posix) (t : Test) (b : Bool) (ok : Prop) :
    Does ok (self.runner w t b) (runs self.sha256sum metaDigest vs self.cmd_prefix t) (fun r => ok ∧ r = false) fun _ => True := by
  cases t with
  | func => exact run_func_does hw _ b ok
  | nistkat => unfold runs; rw [metaDigest_nistkat]; exact run_hash_does hw .nistkat _ _ _ ok
  | kat => unfold runs; rw [metaDigest_kat]; exact run_hash_does hw .kat _ _ _ ok
  | acvp => exact run_acvp_does hf hw _ b ok

/-- One build of one test. -/
def one (self : Tests) (w : World) (t : Test) (b : Bool) : Py Bool := do
  if self.compile then compile_schemes w t b
  if self.run then self.runner w t b else pure false

/-- The plan for one build. -/
def oneP (self : Tests) (vs : List Vector) (ts : List Test) (b : Bool) : List Step :=
  (if self.compile then ts.map (makeStep · b) else []) ++ (if self.run then ts.flatMap (runs self.sha256sum metaDigest vs self.cmd_prefix) else [])

theorem one_does (self : Tests) {vs : List Vector} (hf : self.files.Contain vs) {w : World} (hw : w.Posix) (t : Test) (b : Bool) (ok : Prop) :
    Does ok (one self w t b) (oneP self vs [t] b) (fun r => ok ∧ r = false) fun _ => True := by
  have second : ∀ ok', Does ok' (if self.run then self.runner w t b else pure false : Py Bool) (if self.run then [t].flatMap (runs self.sha256sum metaDigest vs self.cmd_prefix) else []) (fun r => ok' ∧ r = false) fun _ => True := by
    intro ok'
    by_cases hr : self.run = true
    · rw [if_pos hr, if_pos hr]; simpa using runner_does self hf hw t b ok'
    · rw [if_neg hr, if_neg hr]; exact Does.pure (by simp)
  unfold one oneP
  by_cases hc : self.compile = true
  · simp only [hc, if_true, List.map_cons, List.map_nil]
    exact (compile_schemes_does w t b ok).seq fun _ => second ok
  · rw [if_neg hc, if_neg hc]
    exact second ok

theorem single_eq (self : Tests) (w : World) (t : Test) : self.single w t =
    if self.opt.toLower = "all" then (do
      let fail ← one self w t false
      let fail ← if fail then pure fail else one self w t true
      if fail then raise (.sysExit 1))
    else if self.opt.toLower = "no_opt" then (do
      let fail ← one self w t false
      if fail then raise (.sysExit 1))
    else if self.opt.toLower = "opt" then (do
      let fail ← one self w t true
      if fail then raise (.sysExit 1))
    else pure () := by
  unfold Tests.single
  by_cases h1 : self.opt.toLower = "all"
  · simp only [h1, if_true, true_or]
    rfl
  · by_cases h2 : self.opt.toLower = "no_opt"
    · have : ¬ ("no_opt" : String) = "all" := by decide
      have : ¬ ("no_opt" : String) = "opt" := by decide
      simp only [h2, *, if_true, or_true, false_or, if_false, or_false]
      rfl
    · by_cases h3 : self.opt.toLower = "opt"
      · have : ¬ ("opt" : String) = "all" := by decide
        have : ¬ ("opt" : String) = "no_opt" := by decide
        simp only [h3, *, if_true, or_true, false_or, if_false, or_false]
        rfl
      · simp only [h1, h2, h3, if_false, or_false]
        rfl

theorem Stops.exit {α : Type} {p : Py α} {pass cont : α → Prop} {n : Int} (hn : n % 256 ≠ 0) (h : ∀ t, p t = (.error (.sysExit n), t)) : Stops p pass cont := by
  intro t
  rw [h t]
  refine ⟨rfl, ?_, ?_⟩
  · intro b hb; cases hb
  · intro e he; cases he; exact hn

theorem last_does (fail : Bool) (ok : Prop) (h : ok ↔ fail = false) : Does ok (if fail then raise (.sysExit 1) else pure () : Py Unit) [] (fun _ => True) fun _ => True := by
  cases fail with
  | true => exact Does.raise (by simpa using h) (by decide)
  | false => exact Does.pure (by simpa using h)

theorem plan_eq (self : Tests) (vs : List Vector) (ts : List Test) : plan self.sha256sum metaDigest vs self.cmd_prefix self.compile self.run self.opt ts = (builds self.opt).flatMap (oneP self vs ts) := rfl

theorem single_does (self : Tests) {vs : List Vector} (hf : self.files.Contain vs) {w : World} (hw : w.Posix) (t : Test) :
    Does True (self.single w t) (plan self.sha256sum metaDigest vs self.cmd_prefix self.compile self.run self.opt [t]) (fun _ => True) fun _ => True := by
  have ends : ∀ b, Does True (do let fail ← one self w t b; if fail then raise (.sysExit 1) : Py Unit) (oneP self vs [t] b) (fun _ => True) fun _ => True := by
    intro b
    have := (one_does self hf hw t b True).seq (Q := []) (pass' := fun _ : Unit => True) (cont' := fun _ => True) (f := fun fail => (if fail then raise (.sysExit 1) else pure () : Py Unit))
      (fun fail => last_does fail _ (by simp))
    rwa [List.append_nil] at this
  rw [single_eq, plan_eq]
  unfold builds
  by_cases h1 : self.opt.toLower = "all"
  · rw [if_pos h1, if_pos h1]
    simp only [List.flatMap_cons, List.flatMap_nil, List.append_nil]
    refine ((one_does self hf hw t false True).mono (cont' := fun a => a = false) Iff.rfl (fun _ => Iff.rfl) fun _ _ => trivial).bind (fun a h => h.2) (fun a ha => ?_) fun a ha => ?_
    · subst ha
      exact (ends true).mono (by simp) (fun _ => Iff.rfl) fun _ _ => trivial
    · have : a = true := by simpa using ha
      subst this
      exact Stops.exit (n := 1) (by decide) fun t => rfl
  · rw [if_neg h1, if_neg h1]
    by_cases h2 : self.opt.toLower = "no_opt"
    · rw [if_pos h2, if_pos h2]
      simp only [List.flatMap_cons, List.flatMap_nil, List.append_nil]
      exact ends false
    · rw [if_neg h2, if_neg h2]
      by_cases h3 : self.opt.toLower = "opt"
      · rw [if_pos h3, if_pos h3]
        simp only [List.flatMap_cons, List.flatMap_nil, List.append_nil]
        exact ends true
      · rw [if_neg h3, if_neg h3]
        exact Does.pure Iff.rfl

/-! ## `all` -/

theorem Does.tryExit {α : Type} {ok : Prop} {p : Py α} {P : List Step} {pass cont : α → Prop} (h : Does ok p P pass cont) :
    Does ok (Model.Driver.tryExit p) P (fun o => ∃ a, o = some a ∧ pass a) (fun o => ∃ a, o = some a ∧ cont a) := by
  intro t
  obtain ⟨tr, h1, h2⟩ := h t
  refine ⟨tr, ?_, ?_⟩
  · rw [← h1]
    unfold Model.Driver.tryExit
    rcases e : p t with ⟨r, t'⟩
    rcases r with (n | _) | a <;> rfl
  · unfold Model.Driver.tryExit
    rcases e : p t with ⟨r, t'⟩
    rw [e] at h2
    rcases r with (n | _) | a
    · refine ⟨h2.pre, fun o ho hc => ?_, ?_, h2.early, nofun⟩
      · cases ho; obtain ⟨a, ha, _⟩ := hc; cases ha
      · rw [h2.done]
        constructor
        · rintro ⟨a, ha, _⟩; cases ha
        · rintro ⟨o, ho, a, ha, _⟩; cases ho; cases ha
    · refine ⟨h2.pre, nofun, ?_, h2.early, fun e he => by cases he; exact h2.bad .error rfl⟩
      rw [h2.done]
      constructor
      · rintro ⟨a, ha, _⟩; cases ha
      · rintro ⟨o, ho, _⟩; cases ho
    · refine ⟨h2.pre, fun o ho hc => ?_, ?_, h2.early, nofun⟩
      · cases ho; obtain ⟨a', ha, hca⟩ := hc; cases ha; exact h2.full a rfl hca
      · rw [h2.done]
        constructor
        · rintro ⟨a', ha, hp⟩; cases ha; exact ⟨some a, rfl, a, rfl, hp⟩
        · rintro ⟨o, ho, a', ha, hp⟩; cases ho; cases ha; exact ⟨a, rfl, hp⟩

theorem compile_all_step (w : World) (t : Test) (b : Bool) (code : Code) : Does (code.truthy = false) (do
      match ← tryExit (compile_schemes w t b) with
      | some _ => pure code
      | none => pure (if code.truthy then code else .exc)) [makeStep t b] (fun c => c.truthy = false) fun _ => True := by
  have e : (do
      match ← tryExit (compile_schemes w t b) with
      | some _ => pure code
      | none => pure (if code.truthy then code else .exc) : Py Code) = (start w (.make t b) >>= fun o => do
      match ← tryExit (match o with
        | .missing => raise .error
        | .unstartable => raise .error
        | .done code _ _ => if code ≠ 0 then raise (.sysExit 1) else pure ()) with
      | some _ => pure code
      | none => pure (if code.truthy then code else .exc)) := rfl
  rw [e]
  refine Does.step rfl fun h => ?_
  cases e : w h (.make t b) with
  | missing => exact ⟨.error .error, fun _ => rfl, by simp [makeStep], by intro e he; cases he; decide⟩
  | unstartable => exact ⟨.error .error, fun _ => rfl, by simp [makeStep], by intro e he; cases he; decide⟩
  | done n out err =>
    by_cases hc : n = 0
    · subst hc
      exact ⟨.ok code, fun _ => rfl, by simp [makeStep], fun e he => nomatch he⟩
    · refine ⟨.ok (if code.truthy then code else .exc), fun _ => ?_, ?_, nofun⟩
      · simp only [ne_eq, hc, not_false_eq_true, if_true]; rfl
      · simp only [makeStep]
        constructor
        · rintro ⟨_, out', err', ho⟩; cases ho; exact absurd rfl hc
        · rintro ⟨c, hc1, hc2⟩
          cases hc1
          cases ht : code.truthy with
          | true => rw [ht] at hc2; simp only [if_true] at hc2; rw [ht] at hc2; cases hc2
          | false => rw [ht] at hc2; cases hc2

/-- One turn of the second loop. -/
def turn (self : Tests) (w : World) (b : Bool) (code : Code) (t : Test) : Py Code := do
  match ← tryExit (if code.truthy then pure code else do
      let r ← self.runner w t b
      pure (.int (if r then 1 else 0))) with
  | some c => pure c
  | none => pure (if code.truthy then code else .exc)

theorem turn_true (self : Tests) (w : World) (b : Bool) {code : Code} (h : code.truthy = true) (t : Test) (tr : Transcript) : turn self w b code t tr = (.ok code, tr) := by
  unfold turn
  simp only [h, if_true]
  rfl

theorem turn_does (self : Tests) {vs : List Vector} (hf : self.files.Contain vs) {w : World} (hw : w.Posix) (b : Bool) {code : Code} (h : code.truthy = false) (t : Test) :
    Does True (turn self w b code t) (runs self.sha256sum metaDigest vs self.cmd_prefix t) (fun c => c.truthy = false) fun c => c.truthy = false := by
  unfold turn
  simp only [h, Bool.false_eq_true, if_false]
  have inner : Does True (do
      let r ← self.runner w t b
      pure (.int (if r then 1 else 0)) : Py Code) (runs self.sha256sum metaDigest vs self.cmd_prefix t) (fun c => c.truthy = false) fun _ => True := by
    have := (runner_does self hf hw t b True).seq (Q := []) (pass' := fun c : Code => c.truthy = false) (cont' := fun _ => True) (f := fun r => (pure (.int (if r then 1 else 0)) : Py Code))
      (fun r => Does.pure (by cases r <;> simp [Code.truthy]))
    rwa [List.append_nil] at this
  have := inner.tryExit.bind (Q := []) (pass' := fun c : Code => c.truthy = false) (cont' := fun c => c.truthy = false)
    (f := fun o => (match o with | some c => pure c | none => pure .exc : Py Code)) (fun o ho => by obtain ⟨a, ha, _⟩ := ho; exact ⟨a, ha, trivial⟩)
    (fun o ho => by obtain ⟨a, rfl, _⟩ := ho; exact Does.pure (by simp))
    (fun o ho => by
      cases o with
      | some a => exact absurd ⟨a, rfl, trivial⟩ ho
      | none => exact fun tr => ⟨rfl, fun c hc => by cases hc; simp [Code.truthy], nofun⟩)
  rwa [List.append_nil] at this

theorem turns_true (self : Tests) (w : World) (b : Bool) {code : Code} (h : code.truthy = true) (ts : List Test) (tr : Transcript) : (ts.foldlM (turn self w b) code : Py Code) tr = (.ok code, tr) := by
  induction ts generalizing tr with
  | nil => rfl
  | cons t ts ih => rw [List.foldlM_cons, bind_eq, turn_true self w b h]; exact ih tr

theorem turns_does (self : Tests) {vs : List Vector} (hf : self.files.Contain vs) {w : World} (hw : w.Posix) (b : Bool) {code : Code} (h : code.truthy = false) (ts : List Test) :
    Does True (ts.foldlM (turn self w b) code) (ts.flatMap (runs self.sha256sum metaDigest vs self.cmd_prefix)) (fun c => c.truthy = false) fun c => c.truthy = false := by
  induction ts generalizing code with
  | nil => rw [List.foldlM_nil, List.flatMap_nil]; exact Does.pure (by simp [h])
  | cons t ts ih =>
    rw [List.foldlM_cons, List.flatMap_cons]
    refine (turn_does self hf hw b h t).bind (fun _ h => h) (fun a ha => (ih ha).mono (by simp [ha]) (fun _ => Iff.rfl) fun _ h => h) fun a ha => ?_
    have ha' : a.truthy = true := by simpa using ha
    intro tr
    rw [turns_true self w b ha']
    exact ⟨rfl, fun c hc => by cases hc; simp [ha'], nofun⟩

theorem all_once_eq (self : Tests) (w : World) (ts : List Test) (b : Bool) : self.all_once w ts b =
    ((if self.compile then ts.foldlM (fun code t => do
      match ← tryExit (compile_schemes w t b) with
      | some _ => pure code
      | none => pure (if code.truthy then code else .exc)) (Code.int 0) else pure (Code.int 0) : Py Code) >>= fun code =>
    if self.run then ts.foldlM (turn self w b) code else pure code) := by
  unfold Tests.all_once
  cases self.compile <;> cases self.run <;> simp only [if_true, Bool.false_eq_true, if_false, pure_bind, bind_pure] <;> rfl

theorem Does.none {α : Type} {p : Py α} {P : List Step} {pass cont : α → Prop} {a : α} (h : ∀ t, p t = (.ok a, t)) (hp : ¬ pass a) (hc : ¬ cont a) : Does False p P pass cont := by
  intro t
  rw [h t]
  refine ⟨[], by simp, ⟨by simp, fun b hb hcb => ?_, ⟨fun hh => hh.1.elim, ?_⟩, False.elim, nofun⟩⟩
  · cases hb; exact absurd hcb hc
  · rintro ⟨b, hb, hpb⟩; cases hb; exact absurd hpb hp

theorem all_once_does (self : Tests) {vs : List Vector} (hf : self.files.Contain vs) {w : World} (hw : w.Posix) (ts : List Test) (b : Bool) :
    Does True (self.all_once w ts b) (oneP self vs ts b) (fun c => c.truthy = false) fun c => c.truthy = false := by
  rw [all_once_eq]
  unfold oneP
  have first : Does True (if self.compile then ts.foldlM (fun code t => do
      match ← tryExit (compile_schemes w t b) with
      | some _ => pure code
      | none => pure (if code.truthy then code else .exc)) (Code.int 0) else pure (Code.int 0) : Py Code) (if self.compile then ts.map (makeStep · b) else []) (fun c => c.truthy = false) fun _ => True := by
    by_cases hc : self.compile = true
    · rw [if_pos hc, if_pos hc]
      have := Does.fold (P := fun t => [makeStep t b]) (pass := fun c : Code => c.truthy = false) (fun code t => compile_all_step w t b code) ts (Code.int 0)
      rw [show ts.flatMap (fun t => [makeStep t b]) = ts.map (makeStep · b) from List.flatMap_pure_eq_map _ _] at this
      exact this.mono (by simp [Code.truthy]) (fun _ => Iff.rfl) fun _ h => h
    · rw [if_neg hc, if_neg hc]
      exact Does.pure (by simp [Code.truthy])
  refine first.seq fun code => ?_
  by_cases hr : self.run = true
  · rw [if_pos hr, if_pos hr]
    cases ht : code.truthy with
    | false => exact (turns_does self hf hw b ht ts).mono (by simp) (fun _ => Iff.rfl) fun _ h => h
    | true => exact (Does.none (turns_true self w b ht ts) (by simp [ht]) (by simp [ht])).mono (by simp) (fun _ => Iff.rfl) fun _ h => h
  · rw [if_neg hr, if_neg hr]
    exact Does.pure Iff.rfl

/-- The values that `code` takes. -/
def CodeVal (c : Code) : Prop := c = .int 0 ∨ c = .int 1 ∨ c = .exc
/-- Results are such values. -/
def Vals (p : Py Code) : Prop := ∀ h c, (p h).1 = .ok c → CodeVal c

theorem Vals.pure {c : Code} (h : CodeVal c) : Vals (Pure.pure c) := fun _ c' hc => by cases hc; exact h

theorem Vals.bind {α : Type} {p : Py α} {f : α → Py Code} (h : ∀ t a, (p t).1 = .ok a → Vals (f a)) : Vals (p >>= f) := by
  intro t c hc
  rw [bind_eq] at hc
  rcases e : p t with ⟨r, t'⟩
  rw [e] at hc
  cases r with
  | error x => cases hc
  | ok a => exact h t a (by rw [e]) t' c hc

theorem Vals.fold {f : Code → Test → Py Code} (h : ∀ c t, CodeVal c → Vals (f c t)) : ∀ (ts : List Test) (c : Code), CodeVal c → Vals (ts.foldlM f c)
  | [], c, hc => by rw [List.foldlM_nil]; exact Vals.pure hc
  | t :: ts, c, hc => by rw [List.foldlM_cons]; exact Vals.bind fun tr a ha => Vals.fold h ts a (h c t hc tr a ha)

theorem all_once_vals (self : Tests) (w : World) (ts : List Test) (b : Bool) : Vals (self.all_once w ts b) := by
  rw [all_once_eq]
  have orExc : ∀ {c : Code}, CodeVal c → CodeVal (if c.truthy then c else .exc) := by
    intro c hc
    split
    · exact hc
    · exact Or.inr (Or.inr rfl)
  have first : Vals (if self.compile then ts.foldlM (fun code t => do
      match ← tryExit (compile_schemes w t b) with
      | some _ => pure code
      | none => pure (if code.truthy then code else .exc)) (Code.int 0) else pure (Code.int 0) : Py Code) := by
    split
    · refine Vals.fold (fun c t hc => Vals.bind fun tr o _ => ?_) ts _ (Or.inl rfl)
      cases o with
      | none => exact Vals.pure (orExc hc)
      | some _ => exact Vals.pure hc
    · exact Vals.pure (Or.inl rfl)
  refine Vals.bind fun tr c hc => ?_
  have hcv := first tr c hc
  split
  · refine Vals.fold (fun c t hc => ?_) ts c hcv
    cases ht : c.truthy with
    | true => intro tr c' h; rw [turn_true self w b ht] at h; cases h; exact hc
    | false =>
      unfold turn
      simp only [ht, Bool.false_eq_true, if_false]
      refine Vals.bind fun tr o ho => ?_
      cases o with
      | none => exact Vals.pure (Or.inr (Or.inr rfl))
      | some c' =>
        refine Vals.pure ?_
        have inner : Vals (do
          let r ← self.runner w t b
          pure (.int (if r then 1 else 0)) : Py Code) := Vals.bind fun _ r _ => Vals.pure (by cases r; exact Or.inl rfl; exact Or.inr (Or.inl rfl))
        refine inner tr c' ?_
        unfold tryExit at ho
        rcases e : (do
          let r ← self.runner w t b
          pure (.int (if r then 1 else 0)) : Py Code) tr with ⟨r, tr'⟩
        rw [e] at ho
        rcases r with (n | _) | x
        · cases ho
        · cases ho
        · cases ho; rfl
  · exact Vals.pure hcv

/-- What the last statement of `all` does. -/
def lastExit : Code → Py Unit
  | .int n => raise (.sysExit n)
  | .exc => raise (.sysExit 1)

theorem all_eq (self : Tests) (w : World) (func kat nistkat acvp : Bool) : self.all w func kat nistkat acvp =
    ((if self.opt.toLower = "all" then (do
      let c ← self.all_once w (chosen func kat nistkat acvp) false
      if c.truthy then pure c else self.all_once w (chosen func kat nistkat acvp) true)
    else if self.opt.toLower = "no_opt" then self.all_once w (chosen func kat nistkat acvp) false
    else if self.opt.toLower = "opt" then self.all_once w (chosen func kat nistkat acvp) true
    else pure (.int 0)) >>= lastExit) := by
  have e0 : (Code.int 0).truthy = false := rfl
  have last : ∀ c : Code, (match c with
    | .int n => raise (.sysExit n)
    | .exc => raise (.sysExit 1) : Py Unit) = lastExit c := by intro c; cases c <;> rfl
  unfold Tests.all
  by_cases h1 : self.opt.toLower = "all"
  · simp only [h1, if_true, true_or, e0, Bool.false_eq_true, if_false, last, bind_assoc]
    refine bind_congr fun c => ?_
    cases c.truthy <;> rfl
  · by_cases h2 : self.opt.toLower = "no_opt"
    · have : ¬ ("no_opt" : String) = "all" := by decide
      have : ¬ ("no_opt" : String) = "opt" := by decide
      simp only [h2, *, if_true, or_true, false_or, if_false, or_false, Bool.false_eq_true]
      exact bind_congr fun c => last c
    · by_cases h3 : self.opt.toLower = "opt"
      · have : ¬ ("opt" : String) = "all" := by decide
        have : ¬ ("opt" : String) = "no_opt" := by decide
        simp only [h3, *, if_true, or_true, false_or, if_false, or_false, Bool.false_eq_true]
        exact bind_congr fun c => last c
      · simp only [h1, h2, h3, if_false, or_false, pure_bind, last]
        rfl

/-! ## Outcomes are those of the world -/

/-- `p` only adds to the transcript, and the outcomes it adds are those of the world. -/
def Honest {α : Type} (w : World) (p : Py α) : Prop := ∀ h, ∃ tr, (p h).2 = h ++ tr ∧ Real w h tr

theorem Real.append {w : World} : ∀ {h t u : Transcript}, Real w h t → Real w (h ++ t) u → Real w h (t ++ u)
  | _, [], _, _, h2 => by simpa using h2
  | h, e :: t, u, h1, h2 => ⟨h1.1, Real.append h1.2 (by simpa using h2)⟩

theorem Honest.pure {α : Type} {w : World} (a : α) : Honest w (Pure.pure a : Py α) := fun h => ⟨[], by simp [show (Pure.pure a : Py α) h = (.ok a, h) from rfl], trivial⟩
theorem Honest.raise {α : Type} {w : World} (e : Exc) : Honest w (Model.Driver.raise e : Py α) := fun h => ⟨[], by simp [Model.Driver.raise], trivial⟩
theorem Honest.start {w : World} (c : Cmd) : Honest w (Model.Driver.start w c) := fun h => ⟨[(c, w h c)], rfl, rfl, trivial⟩

theorem Honest.bind {α β : Type} {w : World} {p : Py α} {f : α → Py β} (hp : Honest w p) (hf : ∀ a, Honest w (f a)) : Honest w (p >>= f) := by
  intro h
  obtain ⟨t, h1, h2⟩ := hp h
  rw [bind_eq]
  rcases e : p h with ⟨r, h'⟩
  rw [e] at h1
  obtain rfl : h' = h ++ t := h1
  cases r with
  | error x => exact ⟨t, rfl, h2⟩
  | ok a =>
    obtain ⟨u, g1, g2⟩ := hf a (h ++ t)
    exact ⟨t ++ u, by simp only [g1, List.append_assoc], Real.append h2 g2⟩

theorem Honest.tryExit {α : Type} {w : World} {p : Py α} (hp : Honest w p) : Honest w (Model.Driver.tryExit p) := by
  intro h
  obtain ⟨t, h1, h2⟩ := hp h
  refine ⟨t, ?_, h2⟩
  rw [← h1]
  unfold Model.Driver.tryExit
  rcases e : p h with ⟨r, h'⟩
  rcases r with (n | _) | a <;> rfl

theorem Honest.ite {α : Type} {w : World} {c : Prop} [Decidable c] {p q : Py α} (hp : Honest w p) (hq : Honest w q) : Honest w (if c then p else q) := by split <;> assumption

theorem Honest.fold {α ι : Type} {w : World} {f : α → ι → Py α} (hf : ∀ a x, Honest w (f a x)) : ∀ (xs : List ι) (a : α), Honest w (xs.foldlM f a)
  | [], a => by rw [List.foldlM_nil]; exact Honest.pure a
  | x :: xs, a => by rw [List.foldlM_cons]; exact (hf a x).bind fun b => Honest.fold hf xs b

theorem honest_getitem (w : World) (d : Dict) (k : String) : Honest w (getitem d k) := by
  unfold getitem; split
  · exact Honest.pure _
  · exact Honest.raise _
theorem honest_from_str (w : World) (v : Value) : Honest w (from_str v) := by
  unfold from_str; split
  · exact Honest.pure _
  · exact Honest.raise _
theorem honest_decode (w : World) (b : ByteArray) : Honest w (decode b) := by
  unfold decode; split
  · exact Honest.pure _
  · exact Honest.raise _

theorem honest_compile (w : World) (t : Test) (b : Bool) : Honest w (compile_schemes w t b) := by
  unfold compile_schemes
  refine (Honest.start _).bind fun o => ?_
  cases o with
  | missing => exact Honest.raise _
  | unstartable => exact Honest.raise _
  | done => exact (Honest.raise _).ite (Honest.pure _)

theorem honest_run_scheme (w : World) (t : Test) (s : Scheme) {proc : ByteArray → Py Bool} (hp : ∀ out, Honest w (proc out)) (pre args : List String) : Honest w (run_scheme w t s proc pre args) := by
  unfold run_scheme
  refine (Honest.start _).bind fun o => ?_
  cases o with
  | missing => exact Honest.raise _
  | unstartable => exact Honest.raise _
  | done => exact ((honest_decode w _).bind fun _ => Honest.raise _).ite (hp _)

theorem honest_run_schemes (w : World) (t : Test) {proc : Scheme → ByteArray → Py Bool} (hp : ∀ s out, Honest w (proc s out)) (pre : List String) : Honest w (run_schemes w t proc pre) := by
  unfold run_schemes
  exact (Honest.fold (fun rs s => (honest_run_scheme w t s (hp s) pre []).bind fun r => Honest.pure _) _ _).bind fun _ => Honest.pure _

theorem honest_acvp_proc (w : World) (tc : Dict) (out : ByteArray) : Honest w (acvp_proc tc out) := by
  obtain ⟨r, h1, _⟩ := acvp_proc_spec tc out
  exact fun h => ⟨[], by rw [h1]; simp, trivial⟩

theorem honest_args (w : World) (g : Group) (tc : Dict) (old : Option (List String)) : Honest w (encapDecap_args g tc old) := by
  unfold encapDecap_args
  refine (honest_getitem w _ _).bind fun f => Honest.ite ?_ (Honest.ite ?_ (Honest.pure _))
  · exact (honest_getitem w _ _).bind fun _ => (honest_getitem w _ _).bind fun _ => Honest.pure _
  · exact (honest_getitem w _ _).bind fun _ => (honest_getitem w _ _).bind fun _ => Honest.pure _

theorem honest_encapDecap (w : World) (pre : List String) (gs : List Group) : Honest w (encapDecap_loop w pre gs) := by
  unfold encapDecap_loop
  refine (Honest.fold (fun st tg => (honest_getitem w _ _).bind fun v => (honest_from_str w v).bind fun s => Honest.fold (fun st tc => ?_) _ _) _ _).bind fun _ => Honest.pure _
  refine (honest_args w _ _ _).bind fun o => ?_
  cases o with
  | none => exact Honest.raise _
  | some args => exact (honest_run_scheme w _ _ (honest_acvp_proc w tc) _ _).bind fun _ => Honest.pure _

theorem honest_keyGen (w : World) (pre : List String) (gs : List Group) : Honest w (keyGen_loop w pre gs) := by
  unfold keyGen_loop
  exact Honest.fold (fun st tg => (honest_getitem w _ _).bind fun v => (honest_from_str w v).bind fun s => Honest.fold (fun st tc => (honest_getitem w _ _).bind fun _ => (honest_getitem w _ _).bind fun _ =>
    (honest_run_scheme w _ _ (honest_acvp_proc w tc) _ _).bind fun _ => Honest.pure _) _ _) _ _

theorem honest_runner (self : Tests) (w : World) (t : Test) (b : Bool) : Honest w (self.runner w t b) := by
  cases t with
  | func => exact honest_run_schemes w _ (fun s out => (honest_decode w out).bind fun _ => Honest.pure _) _
  | nistkat => exact honest_run_schemes w _ (fun s out => Honest.pure _) _
  | kat => exact honest_run_schemes w _ (fun s out => Honest.pure _) _
  | acvp => exact (honest_encapDecap w _ _).bind fun _ => (honest_keyGen w _ _).bind fun _ => Honest.pure _

theorem honest_one (self : Tests) (w : World) (t : Test) (b : Bool) : Honest w (one self w t b) := by
  unfold one
  exact ((honest_compile w t b).bind fun _ => (honest_runner self w t b).ite (Honest.pure _)).ite ((Honest.pure _).bind fun _ => (honest_runner self w t b).ite (Honest.pure _))

theorem honest_single (self : Tests) (w : World) (t : Test) : Honest w (self.single w t) := by
  rw [single_eq]
  have last : ∀ fail : Bool, Honest w (if fail then raise (.sysExit 1) else pure () : Py Unit) := fun fail => (Honest.raise _).ite (Honest.pure _)
  refine Honest.ite ?_ (Honest.ite ?_ (Honest.ite ?_ (Honest.pure _)))
  · exact (honest_one self w t false).bind fun f => ((Honest.pure _).bind last).ite ((honest_one self w t true).bind last)
  · exact (honest_one self w t false).bind last
  · exact (honest_one self w t true).bind last

theorem honest_all_once (self : Tests) (w : World) (ts : List Test) (b : Bool) : Honest w (self.all_once w ts b) := by
  rw [all_once_eq]
  refine Honest.bind (Honest.ite (Honest.fold (fun c t => (honest_compile w t b).tryExit.bind fun o => ?_) _ _) (Honest.pure _)) fun c => Honest.ite (Honest.fold (fun c t => ?_) _ _) (Honest.pure _)
  · cases o <;> exact Honest.pure _
  · unfold turn
    refine (Honest.ite (Honest.pure _) ((honest_runner self w t b).bind fun _ => Honest.pure _)).tryExit.bind fun o => ?_
    cases o <;> exact Honest.pure _

theorem honest_all (self : Tests) (w : World) (func kat nistkat acvp : Bool) : Honest w (self.all w func kat nistkat acvp) := by
  rw [all_eq]
  refine Honest.bind (Honest.ite ((honest_all_once self w _ _).bind fun c => Honest.ite (Honest.pure _) (honest_all_once self w _ _)) (Honest.ite (honest_all_once self w _ _) (Honest.ite (honest_all_once self w _ _) (Honest.pure _)))) fun c => ?_
  cases c <;> exact Honest.raise _

theorem Honest.start_real {α : Type} {w : World} {p : Py α} (h : Honest w p) : Real w [] (p []).2 := by
  obtain ⟨tr, h1, h2⟩ := h []
  rw [h1, List.nil_append]; exact h2

theorem single_verdict (self : Tests) {vs : List Vector} (hf : self.files.Contain vs) {w : World} (hw : w.Posix) (t : Test) :
    Verdict w (plan self.sha256sum metaDigest vs self.cmd_prefix self.compile self.run self.opt [t]) (status (self.single w t []).1) (self.single w t []).2 := by
  have hreal := (honest_single self w t).start_real
  obtain ⟨tr, h1, h2⟩ := single_does self hf hw t []
  rw [List.nil_append] at h1
  rw [h1] at hreal ⊢
  have hst : status (self.single w t []).1 = 0 ↔ Complete (plan self.sha256sum metaDigest vs self.cmd_prefix self.compile self.run self.opt [t]) tr := by
    rw [← true_and (Complete _ tr), h2.done]
    cases e : (self.single w t []).1 with
    | ok a => simp [status]
    | error x => have := h2.bad x e; simpa using this
  exact ⟨hreal, h2.pre, hst, fun hn => h2.early trivial fun hc => hn (hst.2 hc)⟩

theorem all_verdict (self : Tests) {vs : List Vector} (hf : self.files.Contain vs) {w : World} (hw : w.Posix) (func kat nistkat acvp : Bool) :
    Verdict w (plan self.sha256sum metaDigest vs self.cmd_prefix self.compile self.run self.opt (chosen func kat nistkat acvp)) (status (self.all w func kat nistkat acvp []).1) (self.all w func kat nistkat acvp []).2 := by
  have hreal := (honest_all self w func kat nistkat acvp).start_real
  rw [all_eq] at hreal ⊢
  rw [plan_eq]
  generalize chosen func kat nistkat acvp = ts at hreal ⊢
  have body : Does True (if self.opt.toLower = "all" then (do
      let c ← self.all_once w ts false
      if c.truthy then pure c else self.all_once w ts true)
    else if self.opt.toLower = "no_opt" then self.all_once w ts false
    else if self.opt.toLower = "opt" then self.all_once w ts true
    else pure (.int 0)) ((builds self.opt).flatMap (oneP self vs ts)) (fun c => c.truthy = false) (fun c => c.truthy = false) ∧ Vals (if self.opt.toLower = "all" then (do
      let c ← self.all_once w ts false
      if c.truthy then pure c else self.all_once w ts true)
    else if self.opt.toLower = "no_opt" then self.all_once w ts false
    else if self.opt.toLower = "opt" then self.all_once w ts true
    else pure (.int 0)) := by
    unfold builds
    by_cases h1 : self.opt.toLower = "all"
    · simp only [h1, if_true, List.flatMap_cons, List.flatMap_nil, List.append_nil]
      constructor
      · refine (all_once_does self hf hw ts false).bind (fun _ h => h) (fun c hc => ?_) fun c hc => ?_
        · rw [hc]; exact (all_once_does self hf hw ts true).mono (by simp) (fun _ => Iff.rfl) fun _ h => h
        · have hc' : c.truthy = true := by simpa using hc
          rw [hc']
          exact fun tr => ⟨rfl, fun c' h => by cases h; simp [hc'], nofun⟩
      · refine Vals.bind fun tr c hc => ?_
        split
        · exact Vals.pure (all_once_vals self w ts false tr c hc)
        · exact all_once_vals self w ts true
    · by_cases h2 : self.opt.toLower = "no_opt"
      · have : ¬ ("no_opt" : String) = "all" := by decide
        simp only [h2, this, if_true, if_false, List.flatMap_cons, List.flatMap_nil, List.append_nil]
        exact ⟨all_once_does self hf hw ts false, all_once_vals self w ts false⟩
      · by_cases h3 : self.opt.toLower = "opt"
        · have : ¬ ("opt" : String) = "all" := by decide
          have : ¬ ("opt" : String) = "no_opt" := by decide
          simp only [h3, *, if_true, if_false, List.flatMap_cons, List.flatMap_nil, List.append_nil]
          exact ⟨all_once_does self hf hw ts true, all_once_vals self w ts true⟩
        · simp only [h1, h2, h3, if_false, List.flatMap_nil]
          exact ⟨Does.pure (by simp [Code.truthy]), Vals.pure (Or.inl rfl)⟩
  generalize (if self.opt.toLower = "all" then (do
      let c ← self.all_once w ts false
      if c.truthy then pure c else self.all_once w ts true)
    else if self.opt.toLower = "no_opt" then self.all_once w ts false
    else if self.opt.toLower = "opt" then self.all_once w ts true
    else pure (.int 0)) = p at body hreal ⊢
  generalize (builds self.opt).flatMap (oneP self vs ts) = P at body ⊢
  obtain ⟨hd, hv⟩ := body
  obtain ⟨tr, h1, h2⟩ := hd []
  rw [List.nil_append] at h1
  have key : ((p >>= lastExit) []).2 = tr ∧ (status ((p >>= lastExit) []).1 = 0 ↔ ∃ c, (p []).1 = .ok c ∧ c.truthy = false) := by
    rw [bind_eq]
    rcases e : p [] with ⟨r, t'⟩
    rw [e] at h1 h2
    subst h1
    cases r with
    | error x =>
      refine ⟨rfl, ?_⟩
      have := h2.bad x rfl
      have e2 : status (Except.error x : Except Exc Unit) = status (Except.error x : Except Exc Code) := by cases x <;> rfl
      simp only [e2]
      simpa using this
    | ok c =>
      have hcv := hv [] c (by rw [e])
      rcases hcv with rfl | rfl | rfl
      · refine ⟨rfl, ?_⟩
        simp only [lastExit, raise, status, Except.ok.injEq, exists_eq_left', Code.truthy]
        decide
      · refine ⟨rfl, ?_⟩
        simp only [lastExit, raise, status, Except.ok.injEq, exists_eq_left', Code.truthy]
        decide
      · refine ⟨rfl, ?_⟩
        simp only [lastExit, raise, status, Except.ok.injEq, exists_eq_left', Code.truthy]
        decide
  have hst : status ((p >>= lastExit) []).1 = 0 ↔ Complete P tr := by
    rw [key.2, show Complete P tr ↔ (True ∧ Complete P tr) by simp, h2.done]
  rw [key.1] at hreal ⊢
  exact ⟨hreal, h2.pre, hst, fun hn => h2.early trivial fun hc => hn (hst.2 hc)⟩

end Verif.Proof.Driver

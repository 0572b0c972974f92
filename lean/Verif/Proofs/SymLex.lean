import Verif.Model.GoLex
/-!
# Lexing text with holes

The text that a template produces consists of fixed parts and of parts that depend on the interface (holes).  The
lexer is run on the fixed parts, with holes standing for names or for sequences of tokens; `SState.run_sound` says
that this gives the tokens of the text for every substitution of the holes.
-/

namespace Gowrap.Go

open Gowrap

inductive Kind where
  /-- an identifier that is not a keyword; it may also occur in strings and comments -/
  | name
  /-- an identifier that may be a keyword and occurs only as a part of a name -/
  | part
  /-- occurs only in strings and comments -/
  | text
  /-- a sequence of tokens -/
  | toks
  deriving DecidableEq

/-- A character or a hole. -/
inductive Sym (η : Type) where
  | c (c : Char)
  | h (h : η)

/-- Tokens with holes. -/
inductive STok (η : Type) where
  | word (s : List (Sym η))
  | str (s : List (Sym η))
  | num (s : Str)
  | op (s : Str)
  | hole (h : η)

/-- A substitution of the holes. -/
structure Subst (η : Type) where
  kind : η → Kind
  text : η → Str
  toks : η → List Tok
  /-- for `toks`: whether a semicolon is inserted at the end of a line that ends with the hole -/
  semi : η → Option Bool
  /-- for `toks`: whether the hole may only occur where a semicolon is, or is not, inserted -/
  need : η → Option Bool
  /-- for `toks`: the text begins with a letter -/
  lead : η → Bool
  /-- for `toks`: the text is not empty -/
  solid : η → Bool
  /-- for `toks`: the text ends with a space or is empty -/
  done : η → Bool
  /-- for `toks`: the text may also occur in strings and comments -/
  inert : η → Bool

variable {η : Type}

/-- The text of a list of characters and holes. -/
def Subst.expand (σ : Subst η) : List (Sym η) → Str
  | [] => []
  | .c c :: r => c :: σ.expand r
  | [.h h] => σ.text h
  | .h h :: r => σ.text h ++ σ.expand r

def Subst.tok (σ : Subst η) : STok η → List Tok
  | .word s => [.word (σ.expand s)]
  | .str s => [.str (σ.expand s)]
  | .num s => [.num s]
  | .op s => [.op s]
  | .hole h => σ.toks h

/-- The tokens, both sides in reverse. -/
def Subst.revToks (σ : Subst η) : List (STok η) → List Tok
  | [] => []
  | t :: ts => (σ.tok t).reverse ++ σ.revToks ts

/-- No quotes, backslashes and ends of lines. -/
def Inert (s : Str) : Prop := ∀ c ∈ s, c ≠ '"' ∧ c ≠ '\\' ∧ c ≠ '\n'

/-- Identifiers and keywords. -/
def IsWord (s : Str) : Prop := (∃ c r, s = c :: r ∧ letter c = true) ∧ ∀ c ∈ s, (letter c || digit c) = true

/-- Identifiers. -/
def IsName (s : Str) : Prop := IsWord s ∧ s ∉ keywords

/-- What is assumed of a substitution. -/
structure Subst.Ok (σ : Subst η) : Prop where
  name : ∀ h, σ.kind h = .name → IsName (σ.text h)
  part : ∀ h, σ.kind h = .part → IsWord (σ.text h)
  text : ∀ h, σ.kind h = .text → Inert (σ.text h)
  toks : ∀ h, σ.kind h = .toks → ∀ ts sm, (∀ b, σ.need h = some b → sm = b) →
    let r := State.run ⟨.start, sm, ts⟩ (σ.text h)
    (r.mode = .start ∨ (∃ acc, r.mode = .word acc) ∨ r.mode = .op g!"...") ∧ r.flush.toks = (σ.toks h).reverse ++ ts ∧
      (∀ b, σ.semi h = some b → r.flush.semi = b) ∧ (σ.done h = true → r.mode = .start)
  lead : ∀ h, σ.lead h = true → ∃ c r, σ.text h = c :: r ∧ letter c = true
  solid : ∀ h, σ.solid h = true → σ.text h ≠ []
  inert : ∀ h, σ.inert h = true → Inert (σ.text h)

inductive SMode (η : Type) where
  | start
  | word (acc : List (Sym η))
  | num (acc : Str)
  | str (acc : List (Sym η))
  | op (acc : Str)
  | comment
  /-- after a hole for tokens -/
  | after
  | failed

structure SState (η : Type) where
  mode : SMode η
  semi : Option Bool
  toks : List (STok η)

/-- The characters, if there are no holes. -/
def plain : List (Sym η) → Option Str
  | [] => some []
  | .c c :: r => (plain r).map (c :: ·)
  | .h _ :: _ => none

/-- The word consists of one name. -/
def oneHole (σ : Subst η) : List (Sym η) → Bool
  | [.h h] => σ.kind h = .name
  | _ => false

/-- The word contains a character that no keyword contains. -/
def odd : List (Sym η) → Bool
  | [] => false
  | .c c :: r => c.isUpper || c = '_' || odd r
  | .h _ :: r => odd r

/-- Whether a semicolon is inserted after a word. -/
def symEnds (σ : Subst η) (w : List (Sym η)) : Option Bool :=
  match plain w with
  | some s => some (wordEnds s)
  | none => if oneHole σ w || odd w then some true else none

def SState.fail (s : SState η) : SState η := { s with mode := .failed }

def SState.flush (σ : Subst η) (s : SState η) : SState η :=
  match s.mode with
  | .word acc =>
    match symEnds σ acc.reverse with
    | some b => ⟨.start, some b, .word acc.reverse :: s.toks⟩
    | none => s.fail
  | .num acc => ⟨.start, some true, .num acc.reverse :: s.toks⟩
  | .op acc => if acc = g!".." then s.fail else ⟨.start, some (opEnds acc.reverse), .op acc.reverse :: s.toks⟩
  | .after => { s with mode := .start }
  | _ => s

def SState.first (s : SState η) (c : Char) : SState η :=
  if c = '\n' then
    match s.semi with
    | some true => ⟨.start, some false, .op g!";" :: s.toks⟩
    | some false => s
    | none => s.fail
  else if c = ' ' || c = '\t' || c = '\r' then s
  else if letter c then { s with mode := .word [.c c] }
  else if digit c then { s with mode := .num [c] }
  else if c = '"' then { s with mode := .str [] }
  else if single c then ⟨.start, some (opEnds [c]), .op [c] :: s.toks⟩
  else if opStart c then { s with mode := .op [c] }
  else s.fail

/-- The first character after a token that has been ended. -/
def SState.next (s : SState η) (c : Char) : SState η :=
  match s.mode with
  | .start => s.first c
  | _ => s.fail

def SState.stepChar (σ : Subst η) (s : SState η) (c : Char) : SState η :=
  match s.mode with
  | .start => s.first c
  | .word acc => if letter c || digit c then { s with mode := .word (.c c :: acc) } else (s.flush σ).next c
  | .num acc => if letter c || digit c || c = '.' then { s with mode := .num (c :: acc) } else (s.flush σ).next c
  | .str acc =>
    if c = '"' then ⟨.start, some true, .str acc.reverse :: s.toks⟩
    else if c = '\\' || c = '\n' then s.fail
    else { s with mode := .str (.c c :: acc) }
  | .op acc =>
    if longOps.contains (c :: acc).reverse then { s with mode := .op (c :: acc) }
    else if acc = g!"/" && c = '/' then { s with mode := .comment }
    else if acc = g!"/" && c = '*' then s.fail
    else if acc = g!"." && digit c then s.fail
    else if acc = g!".." then s.fail
    else (s.flush σ).next c
  | .comment => if c = '\n' then ({ s with mode := .start }).first c else s
  | .after => if letter c || digit c then s.fail else (s.flush σ).next c
  | .failed => s

/-- A hole for tokens where a token begins. -/
def SState.hole (σ : Subst η) (s : SState η) (h : η) : SState η :=
  if σ.need h ≠ none ∧ s.semi ≠ σ.need h then s.fail
  else ⟨if σ.done h then .start else .after, σ.semi h, .hole h :: s.toks⟩

def SState.stepHole (σ : Subst η) (s : SState η) (h : η) : SState η :=
  match s.mode with
  | .start => match σ.kind h with
    | .text => s.fail
    | .toks => s.hole σ h
    | _ => { s with mode := .word [.h h] }
  | .word acc => match σ.kind h with
    | .text => s.fail
    | .toks => s.fail
    | _ => { s with mode := .word (.h h :: acc) }
  | .op acc => match σ.kind h with
    | .text => s.fail
    | .toks => if (acc ≠ g!".." && σ.lead h) || (acc = g!"..." && σ.solid h) then (s.flush σ).hole σ h else s.fail
    | _ => if acc = g!".." then s.fail else { s.flush σ with mode := .word [.h h] }
  | .str acc => match σ.kind h with
    | .toks => if σ.inert h then { s with mode := .str (.h h :: acc) } else s.fail
    | _ => { s with mode := .str (.h h :: acc) }
  | .comment => match σ.kind h with
    | .toks => if σ.inert h then s else s.fail
    | _ => s
  | _ => s.fail

def SState.step (σ : Subst η) (s : SState η) : Sym η → SState η
  | .c c => s.stepChar σ c
  | .h h => s.stepHole σ h

def SState.run (σ : Subst η) (s : SState η) (t : List (Sym η)) : SState η := t.foldl (SState.step σ) s

/-! ## Soundness -/

theorem expand_append (σ : Subst η) : ∀ a b : List (Sym η), σ.expand (a ++ b) = σ.expand a ++ σ.expand b := by
  intro a b
  induction a with
  | nil => rfl
  | cons x a ih =>
    cases x with
    | c c => simp [Subst.expand, ih]
    | h h =>
      cases a with
      | nil => cases b with
        | nil => simp [Subst.expand]
        | cons y b => simp [Subst.expand]
      | cons y a => simp only [List.cons_append] at ih ⊢; simp [Subst.expand, ih]

theorem expand_plain (σ : Subst η) : ∀ (w : List (Sym η)) (s : Str), plain w = some s → σ.expand w = s := by
  intro w
  induction w with
  | nil => intro s h; simp [plain] at h; simp [Subst.expand, h]
  | cons x w ih =>
    intro s h
    cases x with
    | c c =>
      simp only [plain, Option.map_eq_some_iff] at h
      obtain ⟨t, ht, rfl⟩ := h
      simp [Subst.expand, ih t ht]
    | h _ => simp [plain] at h

/-- No keyword contains an upper case letter or an underscore. -/
theorem keywords_lower : ∀ s ∈ keywords, ∀ c ∈ s, (c.isUpper || c = '_') = false := by decide +kernel

theorem odd_mem (σ : Subst η) : ∀ w : List (Sym η), odd w = true → ∃ c ∈ σ.expand w, (c.isUpper || c = '_') = true := by
  intro w
  induction w with
  | nil => simp [odd]
  | cons x w ih =>
    intro h
    cases x with
    | c c =>
      simp only [odd, Bool.or_eq_true] at h
      rcases h with h | h
      · exact ⟨c, by simp [Subst.expand], by simpa using h⟩
      · obtain ⟨c', hc', h'⟩ := ih h
        exact ⟨c', by simp [Subst.expand, hc'], h'⟩
    | h x =>
      obtain ⟨c', hc', h'⟩ := ih h
      refine ⟨c', ?_, h'⟩
      have := expand_append σ [.h x] w
      simp only [List.cons_append, List.nil_append] at this
      rw [this]; simp [hc']

theorem symEnds_sound (σ : Subst η) (hσ : σ.Ok) (w : List (Sym η)) (b : Bool)
    (h : symEnds σ w = some b) : wordEnds (σ.expand w) = b := by
  unfold symEnds at h
  split at h
  · next s hs => rw [expand_plain σ w s hs]; exact Option.some.inj h
  · split at h
    · next h1 =>
      cases h
      simp only [Bool.or_eq_true] at h1
      have hnk : σ.expand w ∉ keywords := by
        rcases h1 with h1 | h1
        · match w, h1 with
          | [.h x], h1 => exact (hσ.name x (by simpa [oneHole] using h1)).2
        · intro hmem
          obtain ⟨c, hc, hu⟩ := odd_mem σ w h1
          rw [keywords_lower _ hmem c hc] at hu
          cases hu
      unfold wordEnds
      rw [List.contains_eq_mem]
      simp [hnk]
    · cases h

/-- The real lexer is in the state which the symbolic one describes. -/
structure Rel (σ : Subst η) (s : SState η) (r : State) : Prop where
  toks : (match s.mode with | .after => r.flush.toks | _ => r.toks) = σ.revToks s.toks
  semi : ∀ b, s.semi = some b → (match s.mode with | .after => r.flush.semi | _ => r.semi) = b
  mode : match s.mode with
    | .start => r.mode = .start
    | .word acc => r.mode = .word (σ.expand acc.reverse).reverse 
    | .num acc => r.mode = .num acc
    | .str acc => r.mode = .str (σ.expand acc.reverse).reverse
    | .op acc => r.mode = .op acc
    | .comment => r.mode = .comment
    | .after => r.mode = .start ∨ (∃ acc, r.mode = .word acc) ∨ r.mode = .op g!"..."
    | .failed => True

/-- The symbolic lexer has not failed. -/
def SState.alive (s : SState η) : Prop := match s.mode with | .failed => False | _ => True

theorem State.run_append (r : State) (a b : Str) : r.run (a ++ b) = (r.run a).run b := by simp [State.run]

theorem rel_first (σ : Subst η) (s : SState η) (r : State) (h : Rel σ s r) (hm : s.mode = .start) (c : Char)
    (ha : (s.first c).alive) : Rel σ (s.first c) (r.first c) := by
  obtain ⟨mode, semi, toks⟩ := s
  cases hm
  obtain ⟨ht, hs, hmo⟩ := h
  simp only at ht hs hmo
  unfold SState.first State.first
  unfold SState.first at ha
  split
  · next hc =>
    rw [if_pos hc] at ha
    cases semi with
    | none => simp [SState.fail, SState.alive] at ha
    | some b =>
      have := hs b rfl
      cases b with
      | true => simp only [this]; exact ⟨by simp [Subst.revToks, Subst.tok, ht], by simp, rfl⟩
      | false => simp only [this]; exact ⟨ht, by simpa using this, hmo⟩
  · next hc =>
    rw [if_neg hc] at ha
    split
    · exact ⟨ht, hs, hmo⟩
    · next h1 =>
      rw [if_neg h1] at ha
      split
      · exact ⟨ht, hs, by simp [Subst.expand]⟩
      · next h2 =>
        rw [if_neg h2] at ha
        split
        · exact ⟨ht, hs, rfl⟩
        · next h3 =>
          rw [if_neg h3] at ha
          split
          · exact ⟨ht, hs, by simp [Subst.expand]⟩
          · next h4 =>
            rw [if_neg h4] at ha
            split
            · exact ⟨by simp [Subst.revToks, Subst.tok, ht], by simp, rfl⟩
            · next h5 =>
              rw [if_neg h5] at ha
              split
              · exact ⟨ht, hs, rfl⟩
              · next h6 =>
                rw [if_neg h6] at ha
                simp [SState.fail, SState.alive] at ha

theorem rel_flush (σ : Subst η) (hσ : σ.Ok) (s : SState η) (r : State) (h : Rel σ s r) (ha : (s.flush σ).alive) :
    Rel σ (s.flush σ) r.flush := by
  obtain ⟨mode, semi, toks⟩ := s
  obtain ⟨rm, rs, rt⟩ := r
  obtain ⟨ht, hs, hmo⟩ := h
  cases mode with
  | start => simp only at ht hs hmo; subst hmo; exact ⟨ht, hs, rfl⟩
  | word acc =>
    simp only at ht hs hmo
    subst hmo
    unfold SState.flush at ha ⊢
    simp only at ha ⊢
    split
    · next b hb =>
      have := symEnds_sound σ hσ acc.reverse b hb
      exact ⟨by simp [State.flush, Subst.revToks, Subst.tok, ht], by simp [State.flush, this], by simp [State.flush]⟩
    · next hb => rw [hb] at ha; simp [SState.fail, SState.alive] at ha
  | num acc => simp only at ht hs hmo; subst hmo; exact ⟨by simp [State.flush, SState.flush, Subst.revToks, Subst.tok, ht], by simp [State.flush, SState.flush], by simp [State.flush, SState.flush]⟩
  | str acc => simp only at ht hs hmo; subst hmo; exact ⟨ht, hs, rfl⟩
  | op acc =>
    simp only at ht hs hmo; subst hmo
    unfold SState.flush at ha ⊢
    simp only at ha ⊢
    split
    · next h => rw [if_pos h] at ha; simp [SState.fail, SState.alive] at ha
    · next h =>
      have : (State.flush ⟨.op acc, rs, rt⟩) = ⟨.start, opEnds acc.reverse, .op acc.reverse :: rt⟩ := by
        unfold State.flush; simp only; rw [if_neg h]
      rw [this]
      exact ⟨by simp [Subst.revToks, Subst.tok, ht], by simp, rfl⟩
  | comment => simp only at ht hs hmo; subst hmo; exact ⟨ht, hs, rfl⟩
  | after =>
    simp only at ht hs hmo
    refine ⟨ht, hs, ?_⟩
    show _ = _
    rcases hmo with h | ⟨acc, h⟩ | h <;> subst h <;> rfl
  | failed => simp [SState.flush, SState.alive] at ha

theorem rel_next (σ : Subst η) (s : SState η) (r : State) (h : Rel σ s r) (c : Char) (ha : (s.next c).alive) :
    Rel σ (s.next c) (r.first c) := by
  unfold SState.next at ha ⊢
  split
  · next hm => rw [hm] at ha; exact rel_first σ s r h hm c ha
  · next hm => simp [SState.fail, SState.alive] at ha

theorem not_alive_fail (s : SState η) : ¬ s.fail.alive := by simp [SState.fail, SState.alive]

theorem alive_of_next (s : SState η) (c : Char) (h : (s.next c).alive) : s.alive := by
  unfold SState.next at h
  unfold SState.alive
  split at h
  · next hm => simp [hm]
  · exact absurd h (not_alive_fail _)

theorem long_dots (c : Char) : longOps.contains (c :: g!"...").reverse = false := by
  rw [List.contains_eq_mem]
  simp only [decide_eq_false_iff_not]
  intro hm
  have key : ∀ s ∈ longOps, s.length ≤ 3 := by decide +kernel
  have := key _ hm
  simp at this

theorem step_op_dots (sm : Bool) (ts : List Tok) (c : Char) :
    State.step ⟨.op g!"...", sm, ts⟩ c = (State.flush ⟨.op g!"...", sm, ts⟩).step c := by
  simp only [State.step]
  rw [long_dots]
  rfl

theorem rel_stepChar (σ : Subst η) (hσ : σ.Ok) (s : SState η) (r : State) (h : Rel σ s r) (c : Char)
    (ha : (s.stepChar σ c).alive) : Rel σ (s.stepChar σ c) (r.step c) := by
  obtain ⟨mode, semi, toks⟩ := s
  obtain ⟨rm, rs, rt⟩ := r
  have h' := h
  obtain ⟨ht, hs, hmo⟩ := h
  cases mode with
  | start =>
    simp only at hmo; subst hmo
    exact rel_first σ _ _ h' rfl c ha
  | word acc =>
    simp only at ht hs hmo
    subst hmo
    simp only [SState.stepChar, State.step] at ha ⊢
    split
    · exact ⟨ht, hs, by simp [expand_append, Subst.expand]⟩
    · next hc =>
      rw [if_neg hc] at ha
      exact rel_next σ _ _ (rel_flush σ hσ _ _ h' (alive_of_next _ _ ha)) c ha
  | num acc =>
    simp only at ht hs hmo; subst hmo
    simp only [SState.stepChar, State.step] at ha ⊢
    split
    · exact ⟨ht, hs, rfl⟩
    · next hc =>
      rw [if_neg hc] at ha
      exact rel_next σ _ _ (rel_flush σ hσ _ _ h' (alive_of_next _ _ ha)) c ha
  | str acc =>
    simp only at ht hs hmo; subst hmo
    simp only [SState.stepChar, State.step] at ha ⊢
    split
    · exact ⟨by simp [Subst.revToks, Subst.tok, ht], by simp, rfl⟩
    · next hc =>
      rw [if_neg hc] at ha
      split
      · next h1 => rw [if_pos h1] at ha; exact absurd ha (not_alive_fail _)
      · exact ⟨ht, hs, by simp [expand_append, Subst.expand]⟩
  | op acc =>
    simp only at ht hs hmo; subst hmo
    simp only [SState.stepChar, State.step] at ha ⊢
    split
    · exact ⟨ht, hs, rfl⟩
    · next h1 =>
      rw [if_neg h1] at ha
      split
      · exact ⟨ht, hs, rfl⟩
      · next h2 =>
        rw [if_neg h2] at ha
        split
        · next h3 => rw [if_pos h3] at ha; exact absurd ha (not_alive_fail _)
        · next h3 =>
          rw [if_neg h3] at ha
          split
          · next h4 => rw [if_pos h4] at ha; exact absurd ha (not_alive_fail _)
          · next h4 =>
            rw [if_neg h4] at ha
            split
            · next h5 => rw [if_pos h5] at ha; exact absurd ha (not_alive_fail _)
            · next h5 =>
              rw [if_neg h5] at ha
              exact rel_next σ _ _ (rel_flush σ hσ _ _ h' (alive_of_next _ _ ha)) c ha
  | comment =>
    simp only at ht hs hmo; subst hmo
    simp only [SState.stepChar, State.step] at ha ⊢
    split
    · next hc =>
      rw [if_pos hc] at ha
      exact rel_first σ ⟨.start, semi, toks⟩ ⟨.start, rs, rt⟩ ⟨ht, hs, rfl⟩ rfl c ha
    · exact ⟨ht, hs, rfl⟩
  | after =>
    simp only at ht hs hmo
    simp only [SState.stepChar] at ha ⊢
    split
    · next hc => rw [if_pos hc] at ha; exact absurd ha (not_alive_fail _)
    · next hc =>
      rw [if_neg hc] at ha
      have hstep : State.step ⟨rm, rs, rt⟩ c = (State.flush ⟨rm, rs, rt⟩).first c := by
        rcases hmo with hm | ⟨acc, hm⟩ | hm <;> subst hm
        · rfl
        · simp only [State.step]; rw [if_neg hc]
        · exact step_op_dots rs rt c
      rw [hstep]
      exact rel_next σ _ _ (rel_flush σ hσ _ _ h' (alive_of_next _ _ ha)) c ha
  | failed => simp [SState.stepChar, SState.alive] at ha

theorem run_word (acc : Str) (sm : Bool) (ts : List Tok) : ∀ s : Str, (∀ c ∈ s, (letter c || digit c) = true) →
    State.run ⟨.word acc, sm, ts⟩ s = ⟨.word (s.reverse ++ acc), sm, ts⟩ := by
  intro s
  induction s generalizing acc with
  | nil => intro _; rfl
  | cons c s ih =>
    intro h
    show State.run (State.step _ c) s = _
    simp only [State.step]
    rw [if_pos (h c (by simp)), ih (c :: acc) (fun x hx => h x (by simp [hx]))]
    simp

theorem run_str (acc : Str) (sm : Bool) (ts : List Tok) : ∀ s : Str, Inert s →
    State.run ⟨.str acc, sm, ts⟩ s = ⟨.str (s.reverse ++ acc), sm, ts⟩ := by
  intro s
  induction s generalizing acc with
  | nil => intro _; rfl
  | cons c s ih =>
    intro h
    show State.run (State.step _ c) s = _
    have hc := h c (by simp)
    simp only [State.step]
    rw [if_neg hc.1, if_neg (by simp [hc.2]), ih (c :: acc) (fun x hx => h x (by simp [hx]))]
    simp

theorem run_comment (sm : Bool) (ts : List Tok) : ∀ s : Str, Inert s →
    State.run ⟨.comment, sm, ts⟩ s = ⟨.comment, sm, ts⟩ := by
  intro s
  induction s with
  | nil => intro _; rfl
  | cons c s ih =>
    intro h
    show State.run (State.step _ c) s = _
    have hc := h c (by simp)
    simp only [State.step]
    rw [if_neg hc.2.2, ih (fun x hx => h x (by simp [hx]))]

theorem letter_props (c : Char) (h : letter c = true) : c ≠ '\n' ∧ c ≠ '"' ∧ c ≠ '\\' ∧ c ≠ ' ' ∧ c ≠ '\t' ∧ c ≠ '\r' ∧ c ≠ '/' ∧ c ≠ '*' ∧
    digit c = false ∧ single c = false ∧ opStart c = false := by
  have hne : ∀ d : Char, letter d = false → c ≠ d := by
    intro d hd he; subst he; rw [h] at hd; cases hd
  refine ⟨hne _ (by decide), hne _ (by decide), hne _ (by decide), hne _ (by decide), hne _ (by decide), hne _ (by decide),
    hne _ (by decide), hne _ (by decide), ?_, ?_, ?_⟩
  · cases hd : digit c with
    | false => rfl
    | true =>
      exfalso
      simp only [digit, Char.isDigit, Bool.and_eq_true, decide_eq_true_eq] at hd
      simp only [letter, Char.isAlpha, Char.isUpper, Char.isLower, Bool.or_eq_true, Bool.and_eq_true, decide_eq_true_eq] at h
      have h1 : c.toNat ≤ 57 := hd.2
      have h0 : 48 ≤ c.toNat := hd.1
      rcases h with (h | h) | h
      · rcases h with h | h
        · have : 65 ≤ c.toNat := h.1; omega
        · have : 97 ≤ c.toNat := h.1; omega
      · subst h; revert h1; decide
      · omega
  · simp only [single, Bool.or_eq_false_iff, decide_eq_false_iff_not]
    refine ⟨⟨⟨⟨⟨⟨⟨?_, ?_⟩, ?_⟩, ?_⟩, ?_⟩, ?_⟩, ?_⟩, ?_⟩ <;> exact hne _ (by decide)
  · simp only [opStart, Bool.or_eq_false_iff, decide_eq_false_iff_not]
    refine ⟨⟨⟨⟨⟨⟨⟨⟨⟨⟨⟨⟨⟨⟨?_, ?_⟩, ?_⟩, ?_⟩, ?_⟩, ?_⟩, ?_⟩, ?_⟩, ?_⟩, ?_⟩, ?_⟩, ?_⟩, ?_⟩, ?_⟩, ?_⟩ <;> exact hne _ (by decide)

theorem wordChar_ne (c d : Char) (h : (letter c || digit c) = true) (hd : (letter d || digit d) = false) : c ≠ d := by
  intro he; subst he; rw [h] at hd; cases hd

theorem IsWord.inert {s : Str} (h : IsWord s) : Inert s := by
  intro c hc
  have := h.2 c hc
  exact ⟨wordChar_ne c _ this (by decide), wordChar_ne c _ this (by decide), wordChar_ne c _ this (by decide)⟩

theorem long_letter (c : Char) (h : letter c = true) (acc : Str) : longOps.contains (c :: acc).reverse = false := by
  rw [List.contains_eq_mem]
  simp only [decide_eq_false_iff_not]
  intro hm
  have key : ∀ s ∈ longOps, ∀ d, s.getLast? = some d → letter d = false := by decide +kernel
  have := key _ hm c (by simp)
  rw [h] at this
  cases this

theorem first_letter (r : State) (c : Char) (h : letter c = true) : r.first c = { r with mode := .word [c] } := by
  obtain ⟨h1, h2, h3, h4, h5, h6, _⟩ := letter_props c h
  unfold State.first
  rw [if_neg h1, if_neg (by simp [h4, h5, h6]), if_pos h]

/-- After an operator a letter begins a new token. -/
theorem step_op_letter (acc : Str) (sm : Bool) (ts : List Tok) (c : Char) (h : letter c = true) (hd : acc ≠ g!"..") :
    State.step ⟨.op acc, sm, ts⟩ c = (State.flush ⟨.op acc, sm, ts⟩).step c := by
  obtain ⟨h1, h2, h3, h4, h5, h6, h7, h8, h9, _⟩ := letter_props c h
  have : (State.flush ⟨.op acc, sm, ts⟩) = ⟨.start, opEnds acc.reverse, .op acc.reverse :: ts⟩ := by
    unfold State.flush; simp only; rw [if_neg hd]
  rw [this]
  simp only [State.step]
  rw [long_letter c h]
  rw [if_neg (by simp), if_neg (by simp [h7]), if_neg (by simp [h8]), if_neg (by simp [h9]), if_neg hd, this]

theorem rel_hole (σ : Subst η) (hσ : σ.Ok) (s : SState η) (r : State) (h : Rel σ s r) (hm : s.mode = .start) (x : η)
    (hk : σ.kind x = .toks) (ha : (s.hole σ x).alive) : Rel σ (s.hole σ x) (r.run (σ.text x)) := by
  obtain ⟨mode, semi, toks⟩ := s
  cases hm
  obtain ⟨rm, rs, rt⟩ := r
  obtain ⟨ht, hs, hmo⟩ := h
  simp only at ht hs hmo
  subst hmo
  unfold SState.hole at ha ⊢
  split
  · next hf => rw [if_pos hf] at ha; exact absurd ha (not_alive_fail _)
  · next hf =>
    rw [if_neg hf] at ha
    have hfresh : ∀ b, σ.need x = some b → rs = b := by
      intro b hx
      rw [hx] at hf
      have hf' : semi = some b := by simpa using hf
      exact hs b hf'
    obtain ⟨h1, h2, h3, h4⟩ := hσ.toks x hk rt rs hfresh
    cases hd : σ.done x with
    | true =>
      have hst := h4 hd
      have hfl : (State.run ⟨.start, rs, rt⟩ (σ.text x)).flush = State.run ⟨.start, rs, rt⟩ (σ.text x) := by
        unfold State.flush; rw [hst]
      rw [hfl] at h2 h3
      exact ⟨by simp only [if_true, Subst.revToks, Subst.tok]; rw [h2, ht], h3, hst⟩
    | false => exact ⟨by simp only [Bool.false_eq_true, if_false, Subst.revToks, Subst.tok]; rw [h2, ht], h3, h1⟩

theorem rel_stepHole (σ : Subst η) (hσ : σ.Ok) (s : SState η) (r : State) (h : Rel σ s r) (x : η)
    (ha : (s.stepHole σ x).alive) : Rel σ (s.stepHole σ x) (r.run (σ.text x)) := by
  obtain ⟨mode, semi, toks⟩ := s
  obtain ⟨rm, rs, rt⟩ := r
  have h' := h
  obtain ⟨ht, hs, hmo⟩ := h
  have hinert : σ.kind x ≠ .toks → Inert (σ.text x) := by
    intro hk
    cases hx : σ.kind x with
    | name => exact (hσ.name x hx).1.inert
    | part => exact (hσ.part x hx).inert
    | text => exact hσ.text x hx
    | toks => exact absurd hx hk
  have hword : σ.kind x ≠ .text → σ.kind x ≠ .toks → IsWord (σ.text x) := by
    intro h1 h2
    cases hx : σ.kind x with
    | name => exact (hσ.name x hx).1
    | part => exact hσ.part x hx
    | text => exact absurd hx h1
    | toks => exact absurd hx h2
  cases mode with
  | start =>
    simp only at ht hs hmo; subst hmo
    simp only [SState.stepHole] at ha ⊢
    split
    · next hk => rw [hk] at ha; exact absurd ha (not_alive_fail _)
    · next hk => rw [hk] at ha; exact rel_hole σ hσ _ _ h' rfl x hk ha
    · next hk1 hk2 =>
      obtain ⟨⟨c, w, hw, hc⟩, hall⟩ := hword hk1 hk2
      have hrun : State.run ⟨.start, rs, rt⟩ (σ.text x) = ⟨.word (w.reverse ++ [c]), rs, rt⟩ := by
        rw [hw]
        show State.run (State.first ⟨.start, rs, rt⟩ c) w = _
        rw [first_letter _ c hc, run_word _ _ _ w (fun y hy => hall y (by rw [hw]; simp [hy]))]
      rw [hrun]
      exact ⟨ht, hs, by simp [Subst.expand, hw]⟩
  | word acc =>
    simp only at ht hs hmo
    subst hmo
    simp only [SState.stepHole] at ha ⊢
    split
    · next hk => rw [hk] at ha; exact absurd ha (not_alive_fail _)
    · next hk => rw [hk] at ha; exact absurd ha (not_alive_fail _)
    · next hk1 hk2 =>
      rw [run_word _ _ _ _ (hword hk1 hk2).2]
      exact ⟨ht, hs, by simp [expand_append, Subst.expand]⟩
  | num acc => exact absurd ha (not_alive_fail _)
  | str acc =>
    simp only at ht hs hmo; subst hmo
    simp only [SState.stepHole] at ha ⊢
    split
    · next hk =>
      rw [hk] at ha
      split
      · next hi =>
        rw [run_str _ _ _ _ (hσ.inert x hi)]
        exact ⟨ht, hs, by simp [expand_append, Subst.expand]⟩
      · next hi => simp only [if_neg hi] at ha; exact absurd ha (not_alive_fail _)
    · next hk =>
      rw [run_str _ _ _ _ (hinert hk)]
      exact ⟨ht, hs, by simp [expand_append, Subst.expand]⟩
  | op acc =>
    simp only at ht hs hmo; subst hmo
    simp only [SState.stepHole] at ha ⊢
    split
    · next hk => rw [hk] at ha; exact absurd ha (not_alive_fail _)
    · next hk =>
      rw [hk] at ha
      split
      · next hc =>
        simp only [if_pos hc] at ha
        have hd : acc ≠ g!".." := by
          intro he; subst he; simp at hc
        have hfl : SState.flush σ (⟨.op acc, semi, toks⟩ : SState η) = ⟨.start, some (opEnds acc.reverse), .op acc.reverse :: toks⟩ := by
          unfold SState.flush; simp only; rw [if_neg hd]
        have hal : SState.alive (SState.flush σ (⟨.op acc, semi, toks⟩ : SState η)) := by rw [hfl]; trivial
        have hrel := rel_flush σ hσ _ _ h' hal
        have hrun : State.run ⟨.op acc, rs, rt⟩ (σ.text x) = State.run (State.flush ⟨.op acc, rs, rt⟩) (σ.text x) := by
          simp only [Bool.or_eq_true, Bool.and_eq_true, decide_eq_true_eq] at hc
          rcases hc with ⟨_, hl⟩ | ⟨hdots, hsol⟩
          · obtain ⟨c, w, hw, hc⟩ := hσ.lead x hl
            rw [hw]
            show State.run (State.step ⟨.op acc, rs, rt⟩ c) w = _
            rw [step_op_letter acc rs rt c hc hd]
            rfl
          · subst hdots
            have := hσ.solid x hsol
            match hw : σ.text x, this with
            | c :: w, _ =>
              show State.run (State.step ⟨.op g!"...", rs, rt⟩ c) w = _
              rw [step_op_dots]
              rfl
        rw [hrun]
        exact rel_hole σ hσ _ _ hrel (by rw [hfl]) x hk ha
      · next hc => simp only [if_neg hc] at ha; exact absurd ha (not_alive_fail _)
    · next hk1 hk2 =>
      split
      · next hd =>
        exfalso
        subst hd
        cases hx : σ.kind x <;> simp [hx, SState.fail, SState.alive] at ha hk1 hk2
      · next hd =>
        obtain ⟨⟨c, w, hw, hc⟩, hall⟩ := hword hk1 hk2
        have hfl : SState.flush σ (⟨.op acc, semi, toks⟩ : SState η) = ⟨.start, some (opEnds acc.reverse), .op acc.reverse :: toks⟩ := by
          unfold SState.flush; simp only; rw [if_neg hd]
        have hfr : (State.flush ⟨.op acc, rs, rt⟩) = ⟨.start, opEnds acc.reverse, .op acc.reverse :: rt⟩ := by
          unfold State.flush; simp only; rw [if_neg hd]
        have hrun : State.run ⟨.op acc, rs, rt⟩ (σ.text x) = ⟨.word (w.reverse ++ [c]), opEnds acc.reverse, .op acc.reverse :: rt⟩ := by
          rw [hw]
          show State.run (State.step ⟨.op acc, rs, rt⟩ c) w = _
          rw [step_op_letter acc rs rt c hc hd, hfr]
          show State.run (State.first _ c) w = _
          rw [first_letter _ c hc, run_word _ _ _ w (fun y hy => hall y (by rw [hw]; simp [hy]))]
        rw [hrun, hfl]
        exact ⟨by simp [Subst.revToks, Subst.tok, ht], by simp, by simp [Subst.expand, hw]⟩
  | comment =>
    simp only at ht hs hmo; subst hmo
    simp only [SState.stepHole] at ha ⊢
    split
    · next hk =>
      rw [hk] at ha
      split
      · next hi =>
        rw [run_comment _ _ _ (hσ.inert x hi)]
        exact ⟨ht, hs, rfl⟩
      · next hi => simp only [if_neg hi] at ha; exact absurd ha (not_alive_fail _)
    · next hk =>
      rw [run_comment _ _ _ (hinert hk)]
      exact ⟨ht, hs, rfl⟩
  | after => exact absurd ha (not_alive_fail _)
  | failed => exact absurd ha (not_alive_fail _)

theorem step_failed (σ : Subst η) (s : SState η) (x : Sym η) (h : ¬ s.alive) : ¬ (s.step σ x).alive := by
  obtain ⟨mode, semi, toks⟩ := s
  cases mode <;> simp [SState.alive] at h
  cases x <;> simp [SState.step, SState.stepChar, SState.stepHole, SState.alive, SState.fail]

theorem run_failed (σ : Subst η) (t : List (Sym η)) : ∀ s : SState η, ¬ s.alive → ¬ (s.run σ t).alive := by
  induction t with
  | nil => exact fun s h => h
  | cons x t ih => exact fun s h => ih _ (step_failed σ s x h)

/-- The symbolic lexer gives the tokens of every instance of the text. -/
theorem run_sound (σ : Subst η) (hσ : σ.Ok) (t : List (Sym η)) : ∀ (s : SState η) (r : State), Rel σ s r →
    (s.run σ t).alive → Rel σ (s.run σ t) (r.run (σ.expand t)) := by
  induction t with
  | nil => exact fun s r h _ => h
  | cons x t ih =>
    intro s r h ha
    have ha' : (s.step σ x).alive := Classical.byContradiction fun hn => run_failed σ t _ hn ha
    have hstep : Rel σ (s.step σ x) (r.run (σ.expand [x])) := by
      cases x with
      | c c => exact rel_stepChar σ hσ s r h c ha'
      | h y => exact rel_stepHole σ hσ s r h y ha'
    have he : σ.expand (x :: t) = σ.expand [x] ++ σ.expand t := expand_append σ [x] t
    rw [he, State.run_append]
    exact ih _ _ hstep ha

end Gowrap.Go

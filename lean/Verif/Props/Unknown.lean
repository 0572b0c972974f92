import Verif.Props.Messages
/-!
# Names of unknown commands (C92)
-/

namespace Gowrap.Props

open Gowrap Spec

/-- The text `out` names `name`: between `before` and `after` it has a string literal of Go, on one line, which stands for the name. -/
def Mentions (out before name after : Str) : Prop := ∃ q, StringLiteral q name ∧ '\n' ∉ q ∧ out = before ++ q ++ after

/-- The full claim: an unknown command is reported on standard error with its name, whatever characters it has. -/
def C92_full : Prop :=
  ∀ (p : Proc) (v : Voice) (version : Str) (args : List Str) (h : List Ev) (name : Str), (∀ c, ¬ Names name c) →
    (∀ rest, Words args (name :: rest) → name ≠ g!"help" →
      Mentions (p.stderr v version args h) g!"gowrap: unknown subcommand " name g!"\nRun 'gowrap help' for usage.\n") ∧
    (Words args [g!"help", name] →
      Mentions (p.stderr v version args h) g!"gowrap: unknown command " name g!"\nRun 'gowrap help' for usage\n")

theorem quote_mentions (v : Voice) (before name after : Str) : Mentions (before ++ v.quote name ++ after) before name after := by
  have h : StringLiteral (v.quote name) name := quoteText_literal v.isPrint_ascii name
  refine ⟨_, h, ?_, rfl⟩
  obtain ⟨r, e, hr⟩ := h
  rw [e]
  intro hm
  rcases List.mem_cons.1 hm with hm | hm
  · exact absurd hm (by decide)
  · exact literal_line hr hm

theorem unknown_none {name : Str} (hn : ∀ c, ¬ Names name c) : getCommand name = none := by
  cases hc : getCommand name with
  | none => rfl
  | some c => exact absurd ((getCommand_names _ _).1 hc) (hn c)

/-- Standard error when there are words. -/
theorem stderr_words (p : Proc) (v : Voice) (version : Str) {args ws : List Str} (h : List Ev) (hw : Words args ws) (hne : ws ≠ []) :
    p.stderr v version args h = p.dispatchStderr v ws h := by
  have hs := stderr_case p v version args h
  generalize p.stderr v version args h = out at hs
  cases hs with
  | noArgs h0 => subst h0; cases hw
  | flag s rest' t h0 h1 h2 =>
    subst h0
    cases hw with
    | plain _ _ hp => exact absurd hp h1
    | dashes => exact absurd rfl h2
  | words ws' hw' => rw [words_unique hw hw']

/-- **C92** (partial).  Standard error names an unknown command by a string literal of Go, whatever characters the name has: the text can be
read back, and stays on its line.  Missing for the full claim: `gowrap help` with a name that contains a percent sign. -/
theorem C92_unknown_partial (p : Proc) (v : Voice) (version : Str) (args : List Str) (h : List Ev) (name : Str) (hn : ∀ c, ¬ Names name c) :
    (∀ rest, Words args (name :: rest) → name ≠ g!"help" →
      Mentions (p.stderr v version args h) g!"gowrap: unknown subcommand " name g!"\nRun 'gowrap help' for usage.\n") ∧
    (Words args [g!"help", name] → '%' ∉ name →
      Mentions (p.stderr v version args h) g!"gowrap: unknown command " name g!"\nRun 'gowrap help' for usage\n") := by
  constructor
  · intro rest hw hne
    rw [stderr_words p v version h hw (by simp), Proc.dispatchStderr, if_neg hne, unknown_none hn]
    exact quote_mentions v _ _ _
  · intro hw hp
    rw [stderr_words p v version h hw (by simp), Proc.dispatchStderr, if_pos rfl, Proc.helpError, unknown_none hn]
    have hp' : '%' ∉ g!"gowrap: unknown command " ++ v.quote name ++ g!"\nRun 'gowrap help' for usage" := by
      have h1 : '%' ∉ g!"gowrap: unknown command " := by decide
      have h2 : '%' ∉ g!"\nRun 'gowrap help' for usage" := by decide
      simp [h1, h2, voice_quote_percent, hp]
    show Mentions (dieText _) _ _ _
    rw [(dieText_iff _).2 hp', List.append_assoc]
    exact quote_mentions v _ _ _

/-- **C92** So different unknown commands get different messages. -/
theorem C92_distinct {out before name name' after : Str} (h : Mentions out before name after) (h' : Mentions out before name' after) :
    name = name' := by
  obtain ⟨q, hq, _, e⟩ := h
  obtain ⟨q', hq', _, e'⟩ := h'
  rw [e] at e'
  have e2 := List.append_cancel_right e'
  have e3 := List.append_cancel_left e2
  subst e3
  exact stringLiteral_unique hq hq'

/-- **C92**, exactly: `gowrap help name` quotes the name as it is if and only if it contains no percent sign. -/
theorem C92_exact (p : Proc) (v : Voice) (version : Str) (args : List Str) (h : List Ev) (name : Str) (hn : ∀ c, ¬ Names name c)
    (hw : Words args [g!"help", name]) :
    p.stderr v version args h = g!"gowrap: unknown command " ++ v.quote name ++ g!"\nRun 'gowrap help' for usage\n" ↔ '%' ∉ name := by
  rw [stderr_words p v version h hw (by simp), Proc.dispatchStderr, if_pos rfl, Proc.helpError, unknown_none hn]
  have hi := dieText_iff (g!"gowrap: unknown command " ++ v.quote name ++ g!"\nRun 'gowrap help' for usage")
  have h1 : '%' ∉ g!"gowrap: unknown command " := by decide
  have h2 : '%' ∉ g!"\nRun 'gowrap help' for usage" := by decide
  rw [List.append_assoc _ _ g!"\n"] at hi
  refine hi.trans ?_
  simp [h1, h2, voice_quote_percent]

theorem Demo.percent_unknown : ∀ c, ¬ Names g!"%%" c := by
  rintro c (⟨h, _⟩ | ⟨h, _⟩) <;> exact absurd h (by decide)

/-- The full claim is false: `gowrap help %%` says `unknown command "%"`. -/
theorem C92_full_false : ¬ C92_full := by
  intro h
  obtain ⟨q, hq, _, e⟩ := (h Demo.proc (Demo.voice []) g!"dev" [g!"help", g!"%%"] [] g!"%%" Demo.percent_unknown).2
    (.plain _ _ (Or.inr (by decide)))
  have he : Demo.proc.stderr (Demo.voice []) g!"dev" [g!"help", g!"%%"] [] =
      g!"gowrap: unknown command " ++ g!"\"%\"" ++ g!"\nRun 'gowrap help' for usage\n" := by decide +kernel
  rw [he] at e
  have e2 := List.append_cancel_left (List.append_cancel_right e)
  subst e2
  have hl : StringLiteral g!"\"%\"" g!"%" := ⟨_, rfl, .plain _ (by decide) (by decide) (by decide) .close⟩
  exact absurd (stringLiteral_unique hq hl) (by decide)

/-- An unknown command with a line feed, a quote, a letter that is not printable here, and a percent sign. -/
example : Demo.proc.stderr (Demo.voice []) g!"dev" [g!"a\n\"é%d"] [] =
      g!"gowrap: unknown subcommand \"a\\n\\\"\\u00e9%d\"\nRun 'gowrap help' for usage.\n" ∧
    (∀ c, ¬ Names g!"a\n\"é%d" c) ∧ Words [g!"a\n\"é%d"] [g!"a\n\"é%d"] ∧
    StringLiteral g!"\"a\\n\\\"\\u00e9%d\"" g!"a\n\"é%d" := by
  refine ⟨by decide +kernel, ?_, .plain _ _ (Or.inr (by decide)), ?_⟩
  · rintro c (⟨h, _⟩ | ⟨h, _⟩) <;> exact absurd h (by decide)
  · exact quoteText_literal (Demo.voice []).isPrint_ascii g!"a\n\"é%d"

end Gowrap.Props

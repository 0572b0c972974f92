import Verif.Model.Messages
import Verif.Proofs.Fmt
import Verif.Proofs.Quote
import Verif.Props.ExitCode
/-!
# What gowrap prints on standard error (C87)
-/

namespace Gowrap.Props

open Gowrap Spec

/-- Standard error, by the form of the command line. -/
inductive StderrCase (p : Proc) (v : Voice) (version : Str) (args : List Str) (h : List Ev) : Str → Prop
  | noArgs : args = [] →
      StderrCase p v version args h (match p.usage true with | some e => dieText (v.text e) | none => gowrapCommands.usageText version)
  | flag (s : Str) (rest : List Str) (t : Str) : args = s :: rest → ¬ Positional s → s ≠ g!"--" →
      StderrCase p v version args h (t ++ g!"Run 'gowrap help' for usage.\n")
  | words (ws : List Str) : Words args ws → StderrCase p v version args h (p.dispatchStderr v ws h)

theorem stderr_case (p : Proc) (v : Voice) (version : Str) (args : List Str) (h : List Ev) :
    StderrCase p v version args h (p.stderr v version args h) := by
  cases args with
  | nil => exact .noArgs rfl
  | cons s rest =>
    rw [Proc.stderr]
    have hno : flagTok s ≠ .stop → ¬ Positional s := fun hn hp => hn (flagTok_positional hp)
    rcases flagTok_spec s with ⟨h1, h2⟩ | ⟨h1, h2⟩ | ⟨e, h1⟩ | ⟨n, w, h1, _⟩
    · rw [h1]; exact .words _ (.plain s rest h2)
    · rw [h1]; subst h2; exact .words _ (.dashes rest)
    · rw [h1]
      refine .flag s rest _ rfl (hno (by rw [h1]; simp)) ?_
      rintro rfl; cases h1
    · rw [h1]
      refine .flag s rest _ rfl (hno (by rw [h1]; simp)) ?_
      rintro rfl; cases h1

theorem dieText_ne_nil (t : Str) : dieText t ≠ [] := sprintf0_ne_nil (by simp)

theorem dieText_iff (t : Str) : dieText t = t ++ g!"\n" ↔ '%' ∉ t := by
  rw [dieText, sprintf0_eq_iff]
  have : '%' ∉ g!"\n" := by decide
  simp [this]

/-- Standard error when a command is run. -/
theorem stderr_runs {p : Proc} {v : Voice} {version : Str} {args : List Str} {h : List Ev} {r : Except Fail Unit} (hr : Runs p args h r) :
    ∃ name c rest, Words args (name :: rest) ∧ Names name c ∧ (p.run c rest h).1 = r ∧
      p.stderr v version args h = p.dispatchStderr v (name :: rest) h := by
  obtain ⟨name, c, rest, hw, hn, hr'⟩ := hr
  refine ⟨name, c, rest, hw, hn, by rw [hr']; cases c <;> rfl, ?_⟩
  have hs := stderr_case p v version args h
  generalize p.stderr v version args h = out at hs
  cases hs with
  | noArgs h0 => subst h0; cases hw
  | flag s rest' t h0 h1 h2 =>
    subst h0
    cases hw with
    | plain _ _ hp => exact absurd hp h1
    | dashes => exact absurd rfl h2
  | words ws hw' => rw [words_unique hw hw']

/-- The full claim: when a command fails, the text of its error is printed on standard error as it is, on lines of its own. -/
def C87_full : Prop :=
  ∀ (p : Proc) (v : Voice) (version : Str) (args : List Str) (h : List Ev) (e : CErr), p.stderrOk = true →
    Runs p args h (.error (.error e)) → v.text e ++ g!"\n" <+: p.stderr v version args h

/-- **C87** (the part that holds): the text of a command line error is always printed as it is, followed by the hint which help to ask for; the text
of any other error is printed as it is exactly if it contains no percent sign.  Missing for the full claim: see `C87_full_false`. -/
theorem C87_text_partial (p : Proc) (v : Voice) (version : Str) (args : List Str) (h : List Ev) :
    (∀ m, Runs p args h (.error (.error (.commandLine m))) → ∃ name c rest, Words args (name :: rest) ∧ Names name c ∧
      p.stderr v version args h = m ++ g!"\nRun 'gowrap help " ++ name ++ g!"' for usage.\n\n") ∧
    (∀ e, (∀ m, e ≠ .commandLine m) → Runs p args h (.error (.error e)) →
      (p.stderr v version args h = v.errText e ++ g!"\n" ↔ '%' ∉ v.errText e)) := by
  constructor
  · intro m hr
    obtain ⟨name, c, rest, hw, hn, hr', hs⟩ := stderr_runs (v := v) (version := version) hr
    refine ⟨name, c, rest, hw, hn, ?_⟩
    rw [hs, Proc.dispatchStderr, if_neg (names_ne_help hn), (getCommand_names _ _).2 hn]
    simp only [hr']
  · intro e he hr
    obtain ⟨name, c, rest, hw, hn, hr', hs⟩ := stderr_runs (v := v) (version := version) hr
    rw [hs, Proc.dispatchStderr, if_neg (names_ne_help hn), (getCommand_names _ _).2 hn]
    simp only [hr']
    cases e with
    | commandLine m => exact absurd rfl (he m)
    | _ => exact dieText_iff _

/-- **C87** gowrap is silent on standard error exactly if it succeeds: whenever it exits, something is printed exactly if the exit code is not 0. -/
theorem C87_silent (p : Proc) (v : Voice) (version : Str) (args : List Str) (h : List Ev) (n : Nat) (hs : p.stderrOk = true)
    (hx : (p.main args h).1 = .code n) : p.stderr v version args h = [] ↔ n = 0 := by
  have hdie : ∀ k, p.die k = .code k := fun k => by simp [Proc.die, hs]
  cases args with
  | nil =>
    rw [Proc.main] at hx
    rw [Proc.stderr]
    cases hu : p.usage true with
    | none =>
      rw [hu] at hx; cases hx
      simp [Registry.usageText]
    | some e =>
      rw [hu] at hx
      simp only [hdie] at hx; cases hx
      simp [dieText_ne_nil]
  | cons s rest =>
    have key : ∀ ws, (p.dispatch ws h).1 = .code n → (p.dispatchStderr v ws h = [] ↔ n = 0) := by
      intro ws hx
      cases ws with
      | nil => cases hx
      | cons name rest =>
        rw [Proc.dispatch] at hx
        rw [Proc.dispatchStderr]
        by_cases hh : name = g!"help"
        · rw [if_pos hh] at hx ⊢
          have hiff : (p.help rest).isSome = (p.helpError v rest).isSome := by
            match rest with
            | [] => simp [Proc.help, Proc.helpError]
            | [name] =>
              simp only [Proc.help, Proc.helpError]
              cases getCommand name with
              | none => rfl
              | some c =>
                simp only
                cases p.usageLine c with
                | none => simp
                | some e => rfl
            | _ :: _ :: _ => rfl
          cases h1 : p.help rest with
          | none =>
            rw [h1] at hx hiff
            cases h2 : p.helpError v rest with
            | none => cases hx; simp
            | some t => rw [h2] at hiff; cases hiff
          | some e =>
            rw [h1] at hx hiff
            cases h2 : p.helpError v rest with
            | none => rw [h2] at hiff; cases hiff
            | some t =>
              simp only [hdie] at hx; cases hx
              simp [dieText_ne_nil]
        · rw [if_neg hh] at hx ⊢
          cases hc : getCommand name with
          | none =>
            rw [hc] at hx
            simp only [hdie] at hx; cases hx
            simp
          | some c =>
            rw [hc] at hx
            simp only at hx ⊢
            generalize p.run c rest h = out at hx
            obtain ⟨r, h'⟩ := out
            match r with
            | .ok () => cases hx; simp
            | .error .panic => cases hx
            | .error .diverge => cases hx
            | .error (.error e) =>
              cases e with
              | commandLine m => simp only [hdie] at hx; cases hx; simp
              | _ => simp only [hdie] at hx; cases hx; simp [dieText_ne_nil]
    rw [Proc.main] at hx
    rw [Proc.stderr]
    have hd : dieText g!"Run 'gowrap help' for usage." ≠ [] := dieText_ne_nil _
    cases hf : flagTok s with
    | stop => rw [hf] at hx; exact key _ hx
    | terminator => rw [hf] at hx; exact key _ hx
    | bad e => rw [hf] at hx; simp only [hdie] at hx; cases hx; simp
    | flag name w => rw [hf] at hx; simp only [hdie] at hx; cases hx; simp [hd]

theorem infix_of_eq {a b c t : Str} (h : t = a ++ b ++ c) : b <:+: t := ⟨a, c, h.symm⟩

theorem voice_quote_percent (v : Voice) (s : Str) : '%' ∈ v.quote s ↔ '%' ∈ s := quoteText_percent v.isPrint_ascii s

/-- **C87** Whatever is wrong with the command line, standard error says how to get help.  (A percent sign in an argument is excluded, see
`C87_full_false`.) -/
theorem C87_hint_partial (p : Proc) (v : Voice) (version : Str) (args : List Str) (h : List Ev) (hu : UsageError p h args)
    (hq : ∀ a ∈ args, '%' ∉ a) (h0 : args = [] → p.usage true = none) :
    g!"gowrap help" <:+: p.stderr v version args h := by
  cases hu with
  | none =>
    simp only [Proc.stderr, h0 rfl, Registry.usageText]
    refine List.IsInfix.trans ?_ (List.suffix_append _ _).isInfix
    exact infix_of_eq (a := g!"\nUse \"") (c := g!" [command]\" for more information about a command.\n") rfl
  | flag s rest h1 h2 =>
    have hs := stderr_case p v version (s :: rest) h
    generalize p.stderr v version (s :: rest) h = out at hs
    cases hs with
    | noArgs h0 => cases h0
    | flag _ _ t => exact infix_of_eq (a := t ++ g!"Run '") (c := g!"' for usage.\n") (by simp only [List.append_assoc]; rfl)
    | words ws hw =>
      cases hw with
      | plain _ _ hp => exact absurd hp h1
      | dashes => exact absurd rfl h2
  | help _ rest hw hh =>
    have hs := stderr_case p v version args h
    generalize p.stderr v version args h = out at hs
    cases hs with
    | noArgs h0 => subst h0; cases hw
    | flag s rest' t h0 h1 h2 => exact infix_of_eq (a := t ++ g!"Run '") (c := g!"' for usage.\n") (by simp only [List.append_assoc]; rfl)
    | words ws hw' =>
      obtain rfl := words_unique hw' hw
      rw [Proc.dispatchStderr, if_pos rfl]
      match rest with
      | [] => exact absurd (Helps.all hw) (hh _)
      | [name] =>
        rw [Proc.helpError]
        cases hc : getCommand name with
        | some c => exact absurd (Helps.one name c hw ((getCommand_names _ _).1 hc)) (hh _)
        | none =>
          simp only
          have hm : name ∈ args := by cases hw <;> simp
          have hp : '%' ∉ g!"gowrap: unknown command " ++ v.quote name ++ g!"\nRun 'gowrap help' for usage" := by
            have h1 : '%' ∉ g!"gowrap: unknown command " := by decide
            have h2 : '%' ∉ g!"\nRun 'gowrap help' for usage" := by decide
            simp [h1, h2, voice_quote_percent, hq name hm]
          rw [(dieText_iff _).2 hp]
          exact infix_of_eq (a := g!"gowrap: unknown command " ++ v.quote name ++ g!"\nRun '") (c := g!"' for usage\n")
            (by simp only [List.append_assoc]; rfl)
      | _ :: _ :: _ =>
        simp only [Proc.helpError]
        have hp : '%' ∉ g!"usage: gowrap help [command]\n\nToo many arguments given" := by decide
        rw [(dieText_iff _).2 hp]
        exact infix_of_eq (a := g!"usage: ") (c := g!" [command]\n\nToo many arguments given\n") rfl
  | unknown _ name rest hw hne hn =>
    have hs := stderr_case p v version args h
    generalize p.stderr v version args h = out at hs
    cases hs with
    | noArgs h0 => subst h0; cases hw
    | flag s rest' t h0 h1 h2 => exact infix_of_eq (a := t ++ g!"Run '") (c := g!"' for usage.\n") (by simp only [List.append_assoc]; rfl)
    | words ws hw' =>
      obtain rfl := words_unique hw' hw
      have hc : getCommand name = none := by
        cases hc : getCommand name with
        | none => rfl
        | some c => exact absurd ((getCommand_names _ _).1 hc) (hn c)
      rw [Proc.dispatchStderr, if_neg hne, hc]
      exact infix_of_eq (a := g!"gowrap: unknown subcommand " ++ v.quote name ++ g!"\nRun '") (c := g!"' for usage.\n")
        (by simp only [List.append_assoc]; rfl)
  | command _ m hr =>
    obtain ⟨name, c, rest, _, _, hs⟩ := (C87_text_partial p v version args h).1 m hr
    rw [hs]
    exact infix_of_eq (a := m ++ g!"\nRun '") (c := g!" " ++ name ++ g!"' for usage.\n\n") (by simp only [List.append_assoc]; rfl)

/-- Texts of errors for the examples; nothing but ASCII is printable. -/
def Demo.voice (text : Str) : Voice := ⟨fun _ => text, fun c => decide (32 ≤ c.toNat ∧ c.toNat < 127), fun c _ => by simp⟩

/-- The command line of the examples, which fails because the disk is full. -/
def Demo.fullDisk : List Str := [g!"gen", g!"-i", g!"I", g!"-t", g!"http://h/t", g!"-o", g!"d/full.go"]

theorem Demo.fullDisk_fails : Runs Demo.proc Demo.fullDisk [] (.error (.error (.external 28))) :=
  ⟨g!"gen", .gen, Demo.fullDisk.tail, .plain _ _ (Or.inr (by decide)), Or.inl ⟨rfl, rfl⟩, rfl⟩

/-- An error text with a percent sign, as of an output file `100%.go`, is garbled, since it is used as a format. -/
theorem C87_full_false : ¬ C87_full := by
  intro h
  have := h Demo.proc (Demo.voice g!"open 100%.go: no space left on device") g!"dev" Demo.fullDisk [] _ rfl Demo.fullDisk_fails
  revert this
  decide +kernel

example : Demo.proc.stderr (Demo.voice g!"open 100%.go: no space left on device") g!"dev" Demo.fullDisk [] =
    g!"open 100%!g(MISSING)o: no space left on device\n" := by decide +kernel

example : Demo.proc.stderr (Demo.voice g!"open d/full.go: no space left on device") g!"dev" Demo.fullDisk [] =
    g!"open d/full.go: no space left on device\n" :=
  ((C87_text_partial Demo.proc (Demo.voice g!"open d/full.go: no space left on device") g!"dev" Demo.fullDisk []).2 _ (by simp) Demo.fullDisk_fails).2
    (by decide)

example : Demo.proc.stderr (Demo.voice []) g!"dev" [g!"gen", g!"-x%d"] [] =
    g!"flag provided but not defined: -x%d\nRun 'gowrap help gen' for usage.\n\n" := by decide +kernel

example : Demo.proc.stderr (Demo.voice []) g!"dev" [g!"-x%d"] [] = g!"flag provided but not defined: -x%d\nRun 'gowrap help' for usage.\n" ∧
    Demo.proc.stderr (Demo.voice []) g!"dev" [g!"-h"] [] = g!"Run 'gowrap help' for usage.\n" ∧
    Demo.proc.stderr (Demo.voice []) g!"dev" [g!"help", g!"%d"] [] = g!"gowrap: unknown command \"%!d(MISSING)\"\nRun 'gowrap help' for usage\n" ∧
    Demo.proc.stderr (Demo.voice []) g!"dev" [g!"ge%d"] [] = g!"gowrap: unknown subcommand \"ge%d\"\nRun 'gowrap help' for usage.\n" ∧
    Demo.proc.stderr (Demo.voice []) g!"dev" [g!"help", g!"gen"] [] = [] := by decide +kernel

example : (Demo.proc.main Demo.fullDisk []).1 = .code 1 ∧ Demo.proc.stderr (Demo.voice []) g!"dev" Demo.fullDisk [] ≠ [] :=
  ⟨by decide +kernel, fun h => absurd ((C87_silent Demo.proc (Demo.voice []) g!"dev" Demo.fullDisk [] 1 rfl (by decide +kernel)).1 h) (by decide)⟩

example : g!"gowrap help" <:+: Demo.proc.stderr (Demo.voice []) g!"dev" [g!"help", g!"x"] [] := by
  refine C87_hint_partial Demo.proc (Demo.voice []) g!"dev" [g!"help", g!"x"] []
    (.help _ [g!"x"] (.plain _ _ (Or.inr (by decide))) ?_) ?_ ?_
  · intro b hb
    cases hb with
    | all hw => cases words_unique hw (.plain g!"help" [g!"x"] (Or.inr (by decide)))
    | one name c hw hn =>
      have := words_unique hw (.plain g!"help" [g!"x"] (Or.inr (by decide)))
      simp only [List.cons.injEq, and_true, true_and] at this
      subst this
      rcases hn with ⟨h, _⟩ | ⟨h, _⟩ <;> exact absurd h (by decide)
  · decide
  · intro h; cases h

end Gowrap.Props

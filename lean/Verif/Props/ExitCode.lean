import Verif.Model.Main
import Verif.Props.Header
/-!
# Exit codes (C44)
-/

namespace Gowrap.Props

open Gowrap Spec

/-- The words of the command line: the arguments, without a `--` at the front. -/
inductive Words : List Str → List Str → Prop
  | plain (s : Str) (rest : List Str) : Positional s → Words (s :: rest) (s :: rest)
  | dashes (rest : List Str) : Words (g!"--" :: rest) rest

/-- The name of a command. -/
def Names (name : Str) (c : Cmd) : Prop := (name = g!"gen" ∧ c = .gen) ∨ (name = g!"template" ∧ c = .template)

/-- The command `c` is run with `args`, and this is the outcome. -/
def Runs (p : Proc) (args : List Str) (h : List Ev) (r : Except Fail Unit) : Prop :=
  ∃ name c rest, Words args (name :: rest) ∧ Names name c ∧
    r = (match c with
      | .gen => (p.sys.runGen rest h).1
      | .template => (p.sys.runTemplate rest h).1)

/-- Help is asked for correctly; `ok` tells whether it could be printed. -/
inductive Helps (p : Proc) (args : List Str) : Bool → Prop
  | all : Words args [g!"help"] → Helps p args (p.usage false).isNone
  | one (name : Str) (c : Cmd) : Words args [g!"help", name] → Names name c →
      Helps p args ((p.usageLine c).isNone && (p.helpMessage c).isNone)

/-- The command line is wrong: no arguments, a flag, a wrong request for help, an unknown subcommand, or
something that the subcommand calls a command line error. -/
inductive UsageError (p : Proc) (h : List Ev) : List Str → Prop
  | none : UsageError p h []
  | flag (s : Str) (rest : List Str) : ¬ Positional s → s ≠ g!"--" → UsageError p h (s :: rest)
  | help (args : List Str) (rest : List Str) : Words args (g!"help" :: rest) →
      (∀ b, ¬ Helps p args b) → UsageError p h args
  | unknown (args : List Str) (name : Str) (rest : List Str) : Words args (name :: rest) → name ≠ g!"help" →
      (∀ c, ¬ Names name c) → UsageError p h args
  | command (args : List Str) (m : Str) : Runs p args h (.error (.error (.commandLine m))) → UsageError p h args

/-- The command failed for another reason. -/
def CommandFailed (p : Proc) (args : List Str) (h : List Ev) : Prop :=
  ∃ e, Runs p args h (.error (.error e)) ∧ ∀ m, e ≠ .commandLine m

theorem getCommand_names (name : Str) (c : Cmd) : getCommand name = some c ↔ Names name c := by
  unfold getCommand Names
  constructor
  · intro h
    split at h
    · cases h; exact Or.inl ⟨‹_›, rfl⟩
    · split at h
      · cases h; exact Or.inr ⟨‹_›, rfl⟩
      · cases h
  · rintro (⟨rfl, rfl⟩ | ⟨rfl, rfl⟩) <;> rfl

theorem words_unique {args ws ws' : List Str} (h : Words args ws) (h' : Words args ws') : ws = ws' := by
  cases h with
  | plain s rest hp =>
    cases h' with
    | plain => rfl
    | dashes =>
      rcases hp with hp | hp
      · exact absurd hp (by decide)
      · exact absurd rfl hp
  | dashes rest =>
    cases h' with
    | plain _ _ hp =>
      rcases hp with hp | hp
      · exact absurd hp (by decide)
      · exact absurd rfl hp
    | dashes => rfl

/-- The cases of `main`. -/
inductive MainCase (p : Proc) (args : List Str) (h : List Ev) : Exit × List Ev → Prop
  | noArgs : args = [] → MainCase p args h (match p.usage true with | some _ => (p.die 1, h) | none => (.code 2, h))
  | flag (s : Str) (rest : List Str) : args = s :: rest → ¬ Positional s → s ≠ g!"--" → MainCase p args h (p.die 2, h)
  | words (ws : List Str) : Words args ws → MainCase p args h (p.dispatch ws h)

theorem main_case (p : Proc) (args : List Str) (h : List Ev) : MainCase p args h (p.main args h) := by
  cases args with
  | nil => exact .noArgs rfl
  | cons s rest =>
    rw [Proc.main]
    have hno : flagTok s ≠ .stop → ¬ Positional s := fun hn hp => hn (flagTok_positional hp)
    rcases flagTok_spec s with ⟨h1, h2⟩ | ⟨h1, h2⟩ | ⟨e, h1⟩ | ⟨n, v, h1, _⟩
    · rw [h1]; exact .words _ (.plain s rest h2)
    · rw [h1]; subst h2; exact .words _ (.dashes rest)
    · rw [h1]
      refine .flag s rest rfl (hno (by rw [h1]; simp)) ?_
      rintro rfl; cases h1
    · rw [h1]
      refine .flag s rest rfl (hno (by rw [h1]; simp)) ?_
      rintro rfl; cases h1

theorem help_spec (p : Proc) (args rest : List Str) (hw : Words args (g!"help" :: rest)) :
    (∃ b, (∀ b', Helps p args b' ↔ b' = b) ∧ (p.help rest = none ↔ b = true)) ∨
    ((∀ b, ¬ Helps p args b) ∧ p.help rest ≠ none) := by
  have inv : ∀ b, Helps p args b → (rest = [] ∧ b = (p.usage false).isNone) ∨
      ∃ name c, rest = [name] ∧ Names name c ∧ b = ((p.usageLine c).isNone && (p.helpMessage c).isNone) := by
    intro b hb
    cases hb with
    | all h1 => have := words_unique hw h1; simp only [List.cons.injEq, true_and] at this; exact Or.inl ⟨this, rfl⟩
    | one name c h1 h2 =>
      have := words_unique hw h1; simp only [List.cons.injEq, true_and] at this
      exact Or.inr ⟨name, c, this, h2, rfl⟩
  match rest with
  | [] =>
    refine Or.inl ⟨(p.usage false).isNone, fun b => ⟨fun hb => ?_, fun hb => by rw [hb]; exact .all hw⟩, ?_⟩
    · rcases inv _ hb with ⟨_, h2⟩ | ⟨_, _, h2, _⟩
      · exact h2
      · cases h2
    · rw [Proc.help, Option.isNone_iff_eq_none]
  | [name] =>
    rw [Proc.help]
    cases hc : getCommand name with
    | none =>
      refine Or.inr ⟨?_, by simp⟩
      intro b hb
      rcases inv _ hb with ⟨h1, _⟩ | ⟨n, c, h1, h2, _⟩
      · cases h1
      · cases h1
        rw [(getCommand_names _ _).2 h2] at hc; cases hc
    | some c =>
      have hn := (getCommand_names _ _).1 hc
      refine Or.inl ⟨((p.usageLine c).isNone && (p.helpMessage c).isNone),
        fun b => ⟨fun hb => ?_, fun hb => by rw [hb]; exact .one name c hw hn⟩, ?_⟩
      · rcases inv _ hb with ⟨h1, _⟩ | ⟨n, c', h1, h2, h3⟩
        · cases h1
        · cases h1
          have : c' = c := by
            rw [← getCommand_names, hc] at h2; exact (Option.some.inj h2).symm
          subst this
          exact h3
      · simp only
        rw [Bool.and_eq_true, Option.isNone_iff_eq_none, Option.isNone_iff_eq_none]
        cases p.usageLine c <;> simp
  | a :: b :: more =>
    refine Or.inr ⟨?_, by simp [Proc.help]⟩
    intro b hb
    rcases inv _ hb with ⟨h1, _⟩ | ⟨n, c, h1, _⟩ <;> cases h1

theorem runs_iff {p : Proc} {args : List Str} {h : List Ev} {name : Str} {c : Cmd} {rest : List Str}
    (hw : Words args (name :: rest)) (hn : Names name c) (r : Except Fail Unit) :
    Runs p args h r ↔ r = (p.run c rest h).1 := by
  constructor
  · rintro ⟨n, c', rest', h1, h2, rfl⟩
    have := words_unique hw h1
    simp only [List.cons.injEq] at this
    obtain ⟨rfl, rfl⟩ := this
    have : c' = c := by
      rw [← getCommand_names] at h2 hn
      rw [h2] at hn; exact Option.some.inj hn
    subst this
    cases c' <;> rfl
  · rintro rfl
    exact ⟨name, c, rest, hw, hn, by cases c <;> rfl⟩

theorem not_runs {p : Proc} {args : List Str} {h : List Ev} (hnw : ∀ name c rest, Words args (name :: rest) → ¬ Names name c)
    (r : Except Fail Unit) : ¬ Runs p args h r := by
  rintro ⟨n, c, rest, h1, h2, _⟩
  exact hnw n c rest h1 h2

theorem names_ne_help {name : Str} {c : Cmd} (h : Names name c) : name ≠ g!"help" := by
  rcases h with ⟨rfl, _⟩ | ⟨rfl, _⟩ <;> decide

/-- **C44** (the part that holds): when the command line is not just `--` and standard error can be
written to, the exit code is 0 exactly when the command or help succeeded, 2 exactly for usage errors
(or when help cannot be printed), and 1 exactly when the command failed otherwise (or the usage text
cannot be printed).  The process only crashes or runs forever if the command does.  A command line that
does not name a command has no effects.  Missing for the full claim: see `C44_full_false`. -/
theorem C44_exit_partial (p : Proc) (hs : p.stderrOk = true) (args : List Str) (hargs : args ≠ [g!"--"])
    (h : List Ev) :
    ((p.main args h).1 = .code 0 ↔ Runs p args h (.ok ()) ∨ Helps p args true) ∧
    ((p.main args h).1 = .code 2 ↔ (UsageError p h args ∧ (args = [] → p.usage true = none)) ∨ Helps p args false) ∧
    ((p.main args h).1 = .code 1 ↔ CommandFailed p args h ∨ (args = [] ∧ p.usage true ≠ none)) ∧
    ((p.main args h).1 = .crash ↔ Runs p args h (.error .panic)) ∧
    ((p.main args h).1 = .diverge ↔ Runs p args h (.error .diverge)) ∧
    ((∀ r, ¬ Runs p args h r) → (p.main args h).2 = h) := by
  have hdie : ∀ n, p.die n = .code n := fun n => by simp [Proc.die, hs]
  have hm := main_case p args h
  generalize p.main args h = out at hm
  cases hm with
  | noArgs h0 =>
    subst h0
    have hnw : ∀ ws, ¬ Words [] ws := fun ws hw => by cases hw
    have hr : ∀ r, ¬ Runs p [] h r := not_runs fun _ _ _ hw => absurd hw (hnw _)
    have hh : ∀ b, ¬ Helps p [] b := by
      intro b hb
      cases hb with
      | all hw => exact hnw _ hw
      | one _ _ hw => exact hnw _ hw
    have hf : ¬ CommandFailed p [] h := fun ⟨e, he, _⟩ => hr _ he
    cases hu : p.usage true with
    | none => simp [hr, hh, hf, UsageError.none]
    | some e => simp [hr, hh, hf, hdie]
  | flag s rest h0 h1 h2 =>
    subst h0
    have hnw : ∀ ws, ¬ Words (s :: rest) ws := by
      intro ws hw
      cases hw with
      | plain _ _ hp => exact h1 hp
      | dashes => exact h2 rfl
    have hr : ∀ r, ¬ Runs p (s :: rest) h r := not_runs fun _ _ _ hw => absurd hw (hnw _)
    have hh : ∀ b, ¬ Helps p (s :: rest) b := by
      intro b hb
      cases hb with
      | all hw => exact hnw _ hw
      | one _ _ hw => exact hnw _ hw
    have hf : ¬ CommandFailed p (s :: rest) h := fun ⟨e, he, _⟩ => hr _ he
    simp [hr, hh, hf, hdie, UsageError.flag s rest h1 h2]
  | words ws hw =>
    have hne : args ≠ [] := by rintro rfl; cases hw
    cases ws with
    | nil => cases hw; exact absurd rfl hargs
    | cons name rest =>
      rw [Proc.dispatch]
      have hush : ∀ {rest'}, Words args (g!"help" :: rest') → name = g!"help" := by
        intro rest' hw'
        have := words_unique hw hw'
        simp only [List.cons.injEq] at this
        exact this.1
      have hns : ∀ {s : Str} {rest' : List Str}, args = s :: rest' → ¬ Positional s → s ≠ g!"--" → False := by
        intro s rest' he h1 h2
        subst he
        cases hw with
        | plain _ _ hp => exact h1 hp
        | dashes => exact h2 rfl
      by_cases hhelp : name = g!"help"
      · subst hhelp
        rw [if_pos rfl]
        have hr : ∀ r, ¬ Runs p args h r := by
          refine not_runs fun n c rest' hw' hn => ?_
          have := words_unique hw hw'
          simp only [List.cons.injEq] at this
          exact names_ne_help hn this.1.symm
        have hf : ¬ CommandFailed p args h := fun ⟨e, he, _⟩ => hr _ he
        rcases help_spec p args rest hw with ⟨b, hb, hc⟩ | ⟨hno, hc⟩
        · have hue : ¬ UsageError p h args := by
            intro hu
            cases hu with
            | none => exact hne rfl
            | flag s rest' h1 h2 => exact hns rfl h1 h2
            | help _ rest' _ h3 => exact h3 b ((hb b).2 rfl)
            | unknown _ n rest' h1 h2 h3 =>
              have := words_unique hw h1
              simp only [List.cons.injEq] at this
              exact h2 this.1.symm
            | command _ m h1 => exact hr _ h1
          cases b with
          | true =>
            rw [hc.2 rfl]
            simp [hr, hf, hb, hue, hne]
          | false =>
            cases hp : p.help rest with
            | none => exact absurd (hc.1 hp) (by simp)
            | some e => simp [hr, hf, hb, hue, hne, hdie]
        · have hue : UsageError p h args := .help args rest hw hno
          cases hp : p.help rest with
          | none => exact absurd hp hc
          | some e => simp [hr, hf, hno, hue, hne, hdie]
      · rw [if_neg hhelp]
        have hno : ∀ b, ¬ Helps p args b := by
          intro b hb
          cases hb with
          | all hw' => exact hhelp (hush hw')
          | one _ _ hw' => exact hhelp (hush hw')
        cases hc : getCommand name with
        | none =>
          have hnn : ∀ c, ¬ Names name c := by
            intro c hn
            rw [(getCommand_names _ _).2 hn] at hc; cases hc
          have hr : ∀ r, ¬ Runs p args h r := by
            refine not_runs fun n c rest' hw' hn => ?_
            have := words_unique hw hw'
            simp only [List.cons.injEq] at this
            exact hnn c (by rw [this.1]; exact hn)
          have hf : ¬ CommandFailed p args h := fun ⟨e, he, _⟩ => hr _ he
          have hue : UsageError p h args := .unknown args name rest hw hhelp hnn
          simp [hr, hf, hno, hue, hne, hdie]
        | some c =>
          have hn := (getCommand_names _ _).1 hc
          have hr := runs_iff (p := p) (h := h) hw hn
          have hue : UsageError p h args ↔ ∃ m, Runs p args h (.error (.error (.commandLine m))) := by
            constructor
            · intro hu
              cases hu with
              | none => exact absurd rfl hne
              | flag s rest' h1 h2 => exact absurd (hns rfl h1 h2) (by simp)
              | help _ rest' h2 _ => exact absurd (hush h2) hhelp
              | unknown _ n rest' h1 h2 h3 =>
                have := words_unique hw h1
                simp only [List.cons.injEq] at this
                exact absurd hn (by rw [this.1]; exact h3 c)
              | command _ m h1 => exact ⟨m, h1⟩
            · rintro ⟨m, hm⟩; exact .command args m hm
          unfold CommandFailed
          simp only [hue, hr, hno, hne, false_implies, and_true, or_false, false_and]
          generalize p.run c rest h = res
          obtain ⟨r, h'⟩ := res
          cases r with
          | ok u =>
            have hall : ¬ ∀ r, ¬ r = (Except.ok u : Except Fail Unit) := fun hh => hh _ rfl
            simp [hall]
          | error e =>
            have hall : ∀ e : Fail, ¬ ∀ r, ¬ r = (Except.error e : Except Fail Unit) := fun e hh => hh _ rfl
            cases e with
            | error e => cases e <;> simp [hdie, hall]
            | panic => simp [hall]
            | diverge => simp [hall]

/-- The full claim C44: no command line crashes, unless the command itself does. -/
def C44_full : Prop := ∀ (p : Proc) (args : List Str) (h : List Ev), (p.main args h).1 = .crash →
  Runs p args h (.error .panic)

/-- A process for the examples. -/
def Demo.proc : Proc where
  sys := Demo.sys
  usage := fun _ => none
  stderrOk := true
  usageLine := fun _ => none
  helpMessage := fun _ => none

/-- `gowrap --` crashes with an index out of range. -/
theorem C44_full_false : ¬ C44_full := by
  intro h
  obtain ⟨_, _, _, hw, _⟩ := h Demo.proc [g!"--"] [] rfl
  cases hw with
  | plain _ _ hp =>
    rcases hp with hp | hp
    · exact absurd hp (by decide)
    · exact absurd rfl hp

/-- When standard error cannot be written to, every failure gives exit code 1, also a usage error. -/
theorem C44_stderr (p : Proc) (hs : p.stderrOk = false) (n : Nat) : p.die n = .code 1 := by
  simp [Proc.die, hs]

/-- Non-vacuity of C44: all exit codes. -/
example : (Demo.proc.main [g!"help"] []).1 = .code 0 ∧ (Demo.proc.main [g!"help", g!"gen"] []).1 = .code 0 ∧
    (Demo.proc.main [g!"help", g!"x"] []).1 = .code 2 ∧ (Demo.proc.main [] []).1 = .code 2 ∧
    (Demo.proc.main [g!"-h"] []).1 = .code 2 ∧ (Demo.proc.main [g!"x"] []).1 = .code 2 ∧
    (Demo.proc.main [g!"gen"] []).1 = .code 2 ∧
    (Demo.proc.main [g!"gen", g!"-i", g!"I", g!"-t", g!"http://h/t", g!"-o", g!"d/x.go"] []).1 = .code 0 ∧
    (Demo.proc.main [g!"gen", g!"-i", g!"I", g!"-t", g!"http://h/t", g!"-o", g!"d/full.go"] []).1 = .code 1 :=
  ⟨rfl, rfl, rfl, rfl, rfl, rfl, rfl, rfl, rfl⟩

end Gowrap.Props

import Verif.Model.Main
import Verif.Model.Fmt
import Verif.Model.Usage
import Verif.Model.Quote
/-!
# Model of what gowrap prints on standard error

cmd/gowrap/gowrap.go, with the messages of the standard library `flag`.
-/

namespace Gowrap

/-- What the model leaves open: the texts of the errors that do not come from the command line (`err.Error()`), and the tables of
`strconv.IsPrint`, which are known for ASCII. -/
structure Voice where
  errText : CErr → Str
  isPrint : Char → Bool
  isPrint_ascii : ∀ c : Char, c.toNat < 128 → (isPrint c = true ↔ 32 ≤ c.toNat ∧ c.toNat < 127)

/-- The verb `%q`, cmd/gowrap/gowrap.go:45, 74. -/
def Voice.quote (v : Voice) (s : Str) : Str := quoteText v.isPrint s

/-- `err.Error()`; for `CommandLineError` errors.go:6-8. -/
def Voice.text (v : Voice) : CErr → Str
  | .commandLine m => m
  | e => v.errText e

/-- What `die(code, format)` prints when there are no operands, cmd/gowrap/gowrap.go:57. -/
def dieText (format : Str) : Str := sprintf0 (format ++ g!"\n")

/-- The text of the error of `help`, cmd/gowrap/gowrap.go:63-87. -/
def Proc.helpError (p : Proc) (v : Voice) (args : List Str) : Option Str :=
  match args with
  | _ :: _ :: _ => some g!"usage: gowrap help [command]\n\nToo many arguments given"
  | [] => (p.usage false).map v.text
  | [name] =>
    match getCommand name with
    | none => some (g!"gowrap: unknown command " ++ v.quote name ++ g!"\nRun 'gowrap help' for usage")
    | some c =>
      match p.usageLine c with
      | some e => some (v.text e)
      | none => (p.helpMessage c).map v.text

/-- Standard error after `flag.Parse`, cmd/gowrap/gowrap.go:34-53; the stack trace of a crash is left out. -/
def Proc.dispatchStderr (p : Proc) (v : Voice) (args : List Str) (h : List Ev) : Str :=
  match args with
  | [] => []
  | name :: rest =>
    if name = g!"help" then
      match p.helpError v rest with
      | some t => dieText t
      | none => []
    else
      match getCommand name with
      | none => g!"gowrap: unknown subcommand " ++ v.quote name ++ g!"\nRun 'gowrap help' for usage.\n"
      | some c =>
        match (p.run c rest h).1 with
        | .ok () => []
        | .error (.error (.commandLine m)) => m ++ g!"\nRun 'gowrap help " ++ name ++ g!"' for usage.\n\n"
        | .error (.error e) => dieText (v.text e)
        | .error .panic => []
        | .error .diverge => []

/-- What `flag.Parse` prints for a flag that is not defined: `-help` and `-h` are not complained about. -/
def undefinedFlag (name : Str) : Str :=
  if name = g!"help" ∨ name = g!"h" then [] else flagMessage (.notDefined name) ++ g!"\n"

/-- What is printed on standard error, if it can be written to, cmd/gowrap/gowrap.go:21-54.  (A usage text that could not be written completely is
left out.) -/
def Proc.stderr (p : Proc) (v : Voice) (version : Str) (args : List Str) (h : List Ev) : Str :=
  match args with
  | [] =>
    match p.usage true with
    | some e => dieText (v.text e)
    | none => gowrapCommands.usageText version
  | s :: rest =>
    match flagTok s with
    | .stop => p.dispatchStderr v (s :: rest) h
    | .terminator => p.dispatchStderr v rest h
    | .bad e => flagMessage e ++ g!"\n" ++ dieText g!"Run 'gowrap help' for usage."
    | .flag name _ => undefinedFlag name ++ dieText g!"Run 'gowrap help' for usage."

end Gowrap

import Verif.Model.Cli
/-!
# Model of cmd/gowrap/gowrap.go and command.go
-/

namespace Gowrap

/-- How the process ends: with an exit code, with a Go panic (the runtime prints a stack trace and exits
with code 2), or not at all. -/
inductive Exit where
  | code (n : Nat)
  | crash
  | diverge
  deriving DecidableEq, Repr

/-- The registered commands, cmd/gowrap/gowrap.go:14-19, command.go:58-69. -/
inductive Cmd where
  | gen
  | template
  deriving DecidableEq, Repr

/-- `GetCommand`, command.go:67-69. -/
def getCommand (name : Str) : Option Cmd :=
  if name = g!"gen" then some .gen
  else if name = g!"template" then some .template
  else none

/-- The process: its arguments after the program name, the world, and the outcomes of its writes.
(`os.Args` always contains the program name.) -/
structure Proc where
  sys : Sys
  /-- `Usage(w)`, command.go:72-77, on standard error and on standard output -/
  usage : (toStderr : Bool) → Option CErr
  /-- does the write of `die` succeed, cmd/gowrap/gowrap.go:57 -/
  stderrOk : Bool
  /-- writing the usage line of a command, cmd/gowrap/gowrap.go:77 -/
  usageLine : Cmd → Option CErr
  /-- `HelpMessage(w)`, command.go:50-53 -/
  helpMessage : Cmd → Option CErr

/-- `die`, cmd/gowrap/gowrap.go:56-61. -/
def Proc.die (p : Proc) (exitCode : Nat) : Exit := if p.stderrOk then .code exitCode else .code 1

/-- `help`, cmd/gowrap/gowrap.go:63-87: the error.  (`PrintDefaults` ignores write errors; the error text
does not matter.) -/
def Proc.help (p : Proc) (args : List Str) : Option CErr :=
  match args with
  | _ :: _ :: _ => some (.external 0)
  | [] => p.usage false
  | [name] =>
    match getCommand name with
    | none => some (.external 0)
    | some c =>
      match p.usageLine c with
      | some e => some e
      | none => p.helpMessage c

/-- `command.Run(args, os.Stdout)`. -/
def Proc.run (p : Proc) (c : Cmd) (args : List Str) : Act Unit :=
  match c with
  | .gen => p.sys.runGen args
  | .template => p.sys.runTemplate args

/-- `main` after `flag.Parse`, cmd/gowrap/gowrap.go:34-53; `args` is `flag.Args()`. -/
def Proc.dispatch (p : Proc) (args : List Str) (h : List Ev) : Exit × List Ev :=
  match args with
  | [] => (.crash, h)
  | name :: rest =>
    if name = g!"help" then
      match p.help rest with
      | some _ => (p.die 2, h)
      | none => (.code 0, h)
    else
      match getCommand name with
      | none => (p.die 2, h)
      | some c =>
        match p.run c rest h with
        | (.ok (), h') => (.code 0, h')
        | (.error (.error (.commandLine _)), h') => (p.die 2, h')
        | (.error (.error _), h') => (p.die 1, h')
        | (.error .panic, h') => (.crash, h')
        | (.error .diverge, h') => (.diverge, h')

/-- `main`, cmd/gowrap/gowrap.go:21-54.  No flags are registered with `flag.CommandLine`, so that any flag
is an error, upon which the `Usage` function exits with code 2. -/
def Proc.main (p : Proc) (args : List Str) (h : List Ev) : Exit × List Ev :=
  match args with
  | [] =>
    match p.usage true with
    | some _ => (p.die 1, h)
    | none => (.code 2, h)
  | s :: rest =>
    match flagTok s with
    | .stop => p.dispatch (s :: rest) h
    | .terminator => p.dispatch rest h
    | .bad _ => (p.die 2, h)
    | .flag _ _ => (p.die 2, h)

end Gowrap

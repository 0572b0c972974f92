import Verif.Model.GoStr
/-!
# Effects of the command line tool

A run of a command is a function from the history of events so far to an outcome and a longer history.
All answers of the outside world (file system, network, packages, goimports) are oracles which may
depend on the whole history; theorems quantify over all oracles.
-/

namespace Gowrap

/-- File contents and HTTP bodies. -/
abbrev Bytes := List UInt8

/-- Errors of the command line tool.  Texts of messages are kept only for command line errors; an
error that comes from outside gowrap is identified by a number. -/
inductive CErr where
  /-- errors.go:4 `CommandLineError` -/
  | commandLine (msg : Str)
  /-- an error of the file system, the network, go/packages or the templates -/
  | external (code : Nat)
  /-- an error returned by `generator.NewGenerator` or `Generate` -/
  | generator (e : Err)
  /-- loader/loader.go:94 -/
  | unexpectedStatus (code : Nat)
  /-- loader/loader.go:129 -/
  | templateNotFound
  /-- `json.Unmarshal` failed, loader/loader.go:79, 138 -/
  | badJson
  /-- cmd_template.go:63 -/
  | noTemplatesFound
  deriving DecidableEq, Repr

/-- Why a run did not return normally. -/
inductive Fail where
  | error (e : CErr)
  | panic
  | diverge
  deriving DecidableEq, Repr

/-- What can be observed of a run.  Reading the local template and talking to the network are recorded
when they are attempted; a response and the closing of its body are recorded separately. -/
inductive Ev where
  /-- an attempt to read a local file -/
  | readFile (path : Str)
  /-- `os.Stat` -/
  | stat (path : Str)
  /-- `git rev-parse --show-toplevel` -/
  | gitRoot
  /-- an HTTP request was sent -/
  | request (url : Str)
  /-- a response with this status arrived -/
  | response (status : Nat)
  /-- the body of the last response was read -/
  | readBody
  /-- the body of the last response was closed -/
  | closeBody
  /-- `packages.Load` -/
  | loadPackage (path : Str)
  /-- `NewGenerator` and `Generate` were started -/
  | generate
  /-- `os.MkdirAll` -/
  | mkdirAll (path : Str)
  /-- `os.WriteFile` was called and succeeded or failed -/
  | writeFile (path : Str) (data : Bytes) (success : Bool)
  /-- text was written to standard output -/
  | stdout (text : Str)
  deriving DecidableEq, Repr

/-- A computation with effects. -/
def Act (α : Type) := List Ev → Except Fail α × List Ev

namespace Act

def pure {α : Type} (a : α) : Act α := fun h => (.ok a, h)

def bind {α β : Type} (x : Act α) (f : α → Act β) : Act β := fun h =>
  match x h with
  | (.ok a, h') => f a h'
  | (.error e, h') => (.error e, h')

instance : Monad Act where
  pure := Act.pure
  bind := Act.bind

/-- Record an event. -/
def emit (e : Ev) : Act Unit := fun h => (.ok (), h ++ [e])

/-- Ask an oracle. -/
def ask {α : Type} (o : List Ev → α) : Act α := fun h => (.ok (o h), h)

/-- Return an error. -/
def fail {α : Type} (e : CErr) : Act α := fun h => (.error (.error e), h)

/-- The result of an external function that may fail. -/
def lift {α : Type} (r : Except CErr α) : Act α := fun h =>
  match r with
  | .ok a => (.ok a, h)
  | .error e => (.error (.error e), h)

/-- Look at the outcome of a computation, as `if err != nil` does; panics are not caught. -/
def attempt {α : Type} (x : Act α) : Act (Except CErr α) := fun h =>
  match x h with
  | (.ok a, h') => (.ok (.ok a), h')
  | (.error (.error e), h') => (.ok (.error e), h')
  | (.error .panic, h') => (.error .panic, h')
  | (.error .diverge, h') => (.error .diverge, h')

/-- The events of a run that starts with the history `h`. -/
def trace {α : Type} (x : Act α) (h : List Ev) : List Ev := (x h).2.drop h.length

end Act

end Gowrap

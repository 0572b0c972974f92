import Verif.Model.GoStr
/-!
# Model of the `gen` command's flags and of `flag.FlagSet.Parse`

`flag` is part of the Go standard library; `parseOne` follows its implementation for the flags that
`NewGenerateCommand` (cmd_generate.go:50-59) registers.
-/

namespace Gowrap

/-- The value of a template variable: `true` for `-v name`, a text for `-v name=text`
(cmd_generate.go:227-237). -/
inductive VarValue where
  | flag
  | text (s : Str)
  deriving DecidableEq, Repr

/-- `varFlag`, cmd_generate.go:214-217. -/
structure VarFlag where
  name : Str
  value : VarValue
  deriving DecidableEq, Repr

/-- `strings.SplitN(s, "=", 2)`: the text before the first `=` and, if there is one, the text after it. -/
def splitEq : Str → Str × Option Str
  | [] => ([], none)
  | c :: cs =>
    if c = '=' then ([], some cs)
    else ((c :: (splitEq cs).1), (splitEq cs).2)

/-- The variable that `vars.Set` appends, cmd_generate.go:227-237. -/
def varOf (s : Str) : VarFlag :=
  match splitEq s with
  | (n, none) => ⟨n, .flag⟩
  | (n, some v) => ⟨n, .text v⟩

/-- `vars.toMap`, cmd_generate.go:239-246, as a lookup function: later entries overwrite earlier ones. -/
def varsMap (vs : List VarFlag) : Str → Option VarValue :=
  vs.foldl (fun m v => fun n => if n = v.name then some v.value else m n) (fun _ => none)

/-- The text of one variable in `varsToArgs`, cmd_generate.go:255-262. -/
def varArg (v : VarFlag) : Str :=
  match v.value with
  | .text s => v.name ++ g!"=" ++ s
  | .flag => v.name

/-- `varsToArgs`, cmd_generate.go:248-265. -/
def varsToArgs (vs : List VarFlag) : Str :=
  if vs.length = 0 then []
  else g!" -v " ++ join g!" -v " (vs.map varArg)

/-- The fields of `GenerateCommand` set by flags, cmd_generate.go:26-32. -/
structure GenFlags where
  noGenerate : Bool := false
  interfaceName : Str := []
  sourcePkg : Str := []
  outputFile : Str := []
  template : Str := []
  vars : List VarFlag := []
  localPrefix : Str := []
  deriving DecidableEq, Repr

/-- The registered flags, cmd_generate.go:52-59. -/
inductive FlagName where
  | g | i | p | o | t | v | l
  deriving DecidableEq, Repr

/-- `f.formal[name]`. -/
def flagNamed (name : Str) : Option FlagName :=
  if name = g!"g" then some .g
  else if name = g!"i" then some .i
  else if name = g!"p" then some .p
  else if name = g!"o" then some .o
  else if name = g!"t" then some .t
  else if name = g!"v" then some .v
  else if name = g!"l" then some .l
  else none

/-- `strconv.ParseBool`. -/
def parseBool (s : Str) : Option Bool :=
  if s = g!"1" ∨ s = g!"t" ∨ s = g!"T" ∨ s = g!"true" ∨ s = g!"TRUE" ∨ s = g!"True" then some true
  else if s = g!"0" ∨ s = g!"f" ∨ s = g!"F" ∨ s = g!"false" ∨ s = g!"FALSE" ∨ s = g!"False" then some false
  else none

/-- `flag.Value.Set` for the flags that take a text. -/
def setFlag (f : GenFlags) (n : FlagName) (value : Str) : GenFlags :=
  match n with
  | .g => f
  | .i => { f with interfaceName := value }
  | .p => { f with sourcePkg := value }
  | .o => { f with outputFile := value }
  | .t => { f with template := value }
  | .v => { f with vars := f.vars ++ [varOf value] }
  | .l => { f with localPrefix := value }

/-- The ways `flag.FlagSet.parseOne` fails. -/
inductive FlagErr where
  | badSyntax (arg : Str)
  | notDefined (name : Str)
  | help
  | badBool (value : Str)
  | needsArgument (name : Str)
  deriving DecidableEq, Repr

/-- The result of looking at the first argument: no more flags (with the remaining arguments), a flag
with the text after its `=` if any, or an error. -/
inductive FlagTok where
  | stop
  | terminator
  | flag (name : Str) (value : Option Str)
  | bad (e : FlagErr)
  deriving DecidableEq, Repr

/-- The `=` of a flag cannot be its first character. -/
def splitFlag : Str → Str × Option Str
  | [] => ([], none)
  | c :: cs => (c :: (splitEq cs).1, (splitEq cs).2)

/-- The beginning of `flag.FlagSet.parseOne`: the form of an argument. -/
def flagTok (s : Str) : FlagTok :=
  match s with
  | '-' :: '-' :: name =>
    match name with
    | [] => .terminator
    | c :: _ => if c = '-' ∨ c = '=' then .bad (.badSyntax s)
                else .flag (splitFlag name).1 (splitFlag name).2
  | '-' :: c :: name =>
    if c = '=' then .bad (.badSyntax s) else .flag (splitFlag (c :: name)).1 (splitFlag (c :: name)).2
  | _ => .stop

/-- `flag.FlagSet.Parse` for the `gen` flags, cmd_generate.go:72, 50-59; `.ok (f, rest)` are the values
of the flags and the arguments after the flags. -/
def parseGen (f : GenFlags) : List Str → Except FlagErr (GenFlags × List Str)
  | [] => .ok (f, [])
  | s :: args =>
    match flagTok s with
    | .stop => .ok (f, s :: args)
    | .terminator => .ok (f, args)
    | .bad e => .error e
    | .flag name value =>
      match flagNamed name with
      | none => if name = g!"help" ∨ name = g!"h" then .error .help else .error (.notDefined name)
      | some .g =>
        match parseBool (value.getD g!"true") with
        | some b => parseGen { f with noGenerate := b } args
        | none => .error (.badBool (value.getD g!"true"))
      | some n =>
        match value with
        | some val => parseGen (setFlag f n val) args
        | none =>
          match args with
          | [] => .error (.needsArgument name)
          | val :: args => parseGen (setFlag f n val) args

end Gowrap

import Verif.Model.Template
/-!
# Model of the registered commands and their help texts

command.go, the help in cmd/gowrap/gowrap.go, the descriptions of the commands in cmd_generate.go and cmd_template.go, and of the standard library
`flag.PrintDefaults`.
-/

namespace Gowrap

/-- The types of `flag.Value` that matter: with `IsBoolFlag`, `*stringValue`, and others (here `vars`, cmd_generate.go:220). -/
inductive FlagKind where
  | bool
  | string
  | other
  deriving DecidableEq, Repr

/-- `flag.Flag`.  Default values are left out: those of gowrap are zero values, which `PrintDefaults` does not print. -/
structure FlagDef where
  name : Str
  kind : FlagKind
  usage : Str
  deriving DecidableEq, Repr

/-- What a `Command` says about itself, command.go:12-33; `flags` is nil for a command without flags. -/
structure CmdInfo where
  short : Str
  usage : Str
  help : Str
  flags : Option (List FlagDef)
  deriving DecidableEq, Repr

/-- `commands`, command.go:55: a map, as a list of entries with distinct keys. -/
abbrev Registry := List (Str × CmdInfo)

/-- `commands[name] = cmd` in `RegisterCommand`, command.go:58-64.  (`Init` and `SetOutput` do not change what is printed.) -/
def Registry.register (r : Registry) (name : Str) (c : CmdInfo) : Registry := r.filter (fun e => !decide (e.1 = name)) ++ [(name, c)]

/-- `GetCommand`, command.go:67-69. -/
def Registry.get (r : Registry) (name : Str) : Option CmdInfo := (r.find? fun e => decide (e.1 = name)).map (·.2)

/-- `printf "%-10s"`: padding on the right, counted in runes. -/
def padRight (n : Nat) (s : Str) : Str := s ++ List.replicate (n - s.length) ' '

/-- One round of the `range` of `usageTemplate`, command.go:86-88. -/
def usageEntry (e : Str × CmdInfo) : Str := g!"\n\t" ++ padRight 10 e.1 ++ e.2.short ++ g!"\n"

/-- `Usage`, command.go:72-90; text/template visits the keys of a map in sorted order. -/
def Registry.usageText (r : Registry) (version : Str) : Str :=
  g!"GoWrap(" ++ version ++ g!") is a tool for generating decorators for the Go interfaces\n\nUsage:\n\n\tgowrap command [arguments]\n\nThe commands are:\n" ++
  (sortBy (fun a b => decide (a.1 ≤ b.1)) r).flatMap usageEntry ++
  g!"\nUse \"gowrap help [command]\" for more information about a command.\n"

/-- The text before and after the first `c`. -/
def splitAtChar (c : Char) : Str → Option (Str × Str)
  | [] => none
  | x :: xs => if x = c then some ([], xs) else (splitAtChar c xs).map fun (a, b) => (x :: a, b)

/-- The end of `flag.UnquoteUsage`: the name of the type. -/
def FlagKind.name : FlagKind → Str
  | .bool => []
  | .string => g!"string"
  | .other => g!"value"

/-- `flag.UnquoteUsage`: a name in back quotes stands for the type, and the quotes are removed. -/
def FlagDef.unquote (f : FlagDef) : Str × Str :=
  match splitAtChar '`' f.usage with
  | none => (f.kind.name, f.usage)
  | some (a, r) =>
    match splitAtChar '`' r with
    | none => (f.kind.name, f.usage)
    | some (n, b) => (n, a ++ n ++ b)

/-- `strings.ReplaceAll(usage, "\n", "\n    \t")`. -/
def indentLines : Str → Str
  | [] => []
  | c :: cs => if c = '\n' then g!"\n    \t" ++ indentLines cs else c :: indentLines cs

/-- The beginning of an entry of `flag.PrintDefaults`: the flag with its placeholder. -/
def FlagDef.head (f : FlagDef) : Str := g!"  -" ++ f.name ++ (if f.unquote.1 = [] then [] else ' ' :: f.unquote.1)

/-- One entry of `flag.PrintDefaults`.  (The length is counted in runes and not in bytes.) -/
def FlagDef.text (f : FlagDef) : Str :=
  f.head ++ (if f.head.length ≤ 4 then g!"\t" else g!"\n    \t") ++ indentLines f.unquote.2 ++ g!"\n"

/-- `flag.PrintDefaults`: `VisitAll` visits the flags in the order of their names. -/
def printDefaults (fs : List FlagDef) : Str := (sortBy (fun a b => decide (a.name ≤ b.name)) fs).flatMap FlagDef.text

/-- `help` for one command, cmd/gowrap/gowrap.go:72-86, if all writes succeed. -/
def Registry.helpText (r : Registry) (name : Str) : Option Str :=
  (r.get name).map fun c =>
    g!"Usage: gowrap " ++ name ++ g!" " ++ c.usage ++ g!"\n" ++ (match c.flags with | none => [] | some fs => printDefaults fs) ++ c.help

/-- The flags of the gen command, cmd_generate.go:50-60. -/
def genFlagDefs : List FlagDef := [
  ⟨g!"g", .bool, g!"don't put //go:generate instruction to the generated code"⟩,
  ⟨g!"i", .string, g!"the source interface name, i.e. \"Reader\""⟩,
  ⟨g!"p", .string, g!"the source package import path, i.e. \"io\", \"github.com/hexdigest/gowrap\" or\na relative import path like \"./generator\""⟩,
  ⟨g!"o", .string, g!"the output file name"⟩,
  ⟨g!"t", .string, g!"the template to use, it can be an HTTPS URL, local file or a\nreference to a template in gowrap repository,\nrun `gowrap template list` for details"⟩,
  ⟨g!"v", .other, g!"a key-value pair to parametrize the template,\narguments without an equal sign are treated as a bool values,\ni.e. -v foo=bar -v disableChecks"⟩,
  ⟨g!"l", .string, g!"put imports beginning with this string after 3rd-party packages; comma-separated list"⟩]

/-- The gen command, cmd_generate.go:62-66. -/
def genInfo : CmdInfo := ⟨g!"generate decorators", g!"-p package -i interfaceName -t template -o output_file.go", [], some genFlagDefs⟩

/-- The template command, cmd_template.go:20-36. -/
def templateInfo : CmdInfo := ⟨g!"manage decorators templates", g!"subcommand [options]",
  g!"\nSubcommands are:\n\n  list - list all template in gowrap repository\n\n  copy - copy remote template to a local file, i.e.\n\n    gowrap template copy fallback templates/fallback\n",
  none⟩

/-- The commands of gowrap, cmd/gowrap/gowrap.go:14-19. -/
def gowrapCommands : Registry := (Registry.register [] g!"gen" genInfo).register g!"template" templateInfo

#guard gowrapCommands.usageText g!"dev" = g!"GoWrap(dev) is a tool for generating decorators for the Go interfaces\n\nUsage:\n\n\tgowrap command [arguments]\n\nThe commands are:\n\n\tgen       generate decorators\n\n\ttemplate  manage decorators templates\n\nUse \"gowrap help [command]\" for more information about a command.\n"

end Gowrap

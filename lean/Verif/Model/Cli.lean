import Verif.Model.Flags
import Verif.Model.Generator
import Verif.Model.Loader
/-!
# Model of cmd_generate.go, cmd_template.go and cmd/gowrap/gowrap.go
-/

namespace Gowrap

/-! ## The gen command -/

/-- `generator.Options` as filled by `getOptions`, cmd_generate.go:125-159 (the constant fields `Funcs`
and `HeaderTemplate` are left out). -/
structure GenOptions where
  interfaceName : Str
  outputFile : Str
  disableGoGenerate : Bool
  outputFileName : Str
  varsArgs : Str
  vars : Str → Option VarValue
  localPrefix : Str
  sourcePackage : Str
  /-- `SourcePackageInstance` -/
  source : PkgId
  bodyTemplate : Bytes
  template : Str

/-- The outside world of the commands. -/
structure Sys where
  net : Net
  /-- elements of the working directory -/
  cwd : List Str
  /-- `pkg.Load`, pkg/package.go:20-37, returning the package and its import path -/
  loadPackage : List Ev → Str → Except CErr (PkgId × Str)
  /-- `generator.NewGenerator`, cmd_generate.go:85 (modelled in `Model/Generator.lean`; here only whether
  it succeeds matters) -/
  newGenerator : List Ev → GenOptions → Res Unit
  /-- executing the header template, generator/generator.go:305-313 -/
  header : List Ev → GenOptions → Except CErr Bytes
  /-- executing the body template, generator/generator.go:315-330 -/
  body : List Ev → GenOptions → Except CErr Bytes
  /-- `imports.Process` of golang.org/x/tools with `imports.LocalPrefix`, generator/generator.go:332-333 -/
  process : List Ev → (localPrefix outputFile : Str) → Bytes → Except CErr Bytes
  mkdirAll : List Ev → Str → Option CErr
  writeFile : List Ev → Str → Bytes → Option CErr

/-- `checkFlags`, cmd_generate.go:103-123 -/
def checkFlags (f : GenFlags) : Option CErr :=
  if f.outputFile = [] then some (.commandLine g!"output file is not specified")
  else if f.interfaceName = [] then some (.commandLine g!"interface name is not specified")
  else if f.template = [] then some (.commandLine g!"no template specified")
  else none

/-- `loader.Load`, cmd_generate.go:190-201. -/
def Sys.loaderLoad (s : Sys) (template : Str) : Act (Bytes × Str) := do
  Act.emit (.readFile template)
  let r ← Act.ask (fun h => s.net.readFile h template)
  match r with
  | .failed c => Act.fail (.external c)
  | .notExist => s.net.load template
  | .contents b => pure (b, template)

/-- `GenerateCommand.loadTemplate`, cmd_generate.go:168-187. -/
def Sys.loadTemplate (s : Sys) (f : GenFlags) (outputFileDir : Str) : Act (Bytes × Str) := do
  let (body, url) ← s.loaderLoad f.template
  if hasPrefix url g!"https://" then pure (body, url)
  else
    match relPath outputFileDir (absPath s.cwd url) with
    | some ref => pure (body, ref)
    | none => Act.fail (.external 0)

/-- `GenerateCommand.getOptions`, cmd_generate.go:125-159. -/
def Sys.getOptions (s : Sys) (f : GenFlags) : Act GenOptions := do
  let outputFileDir := absPath s.cwd (dirPath f.outputFile)
  let sourcePkg := if f.sourcePkg = [] then g!"./" else f.sourcePkg
  Act.emit (.loadPackage sourcePkg)
  let r ← Act.ask (fun h => s.loadPackage h sourcePkg)
  let loaded ← Act.lift r
  let (body, ref) ← s.loadTemplate f outputFileDir
  pure {
    interfaceName := f.interfaceName
    outputFile := f.outputFile
    disableGoGenerate := f.noGenerate
    outputFileName := basePath f.outputFile
    varsArgs := varsToArgs f.vars
    vars := varsMap f.vars
    localPrefix := f.localPrefix
    sourcePackage := loaded.2
    source := loaded.1
    bodyTemplate := body
    template := ref }

/-- The outcome of a generator function as an outcome of the command. -/
def Act.ofRes {α : Type} (r : Res α) : Act α := fun h =>
  match r with
  | .ok a => (.ok a, h)
  | .err e => (.error (.error (.generator e)), h)
  | .panic => (.error .panic, h)
  | .diverge => (.error .diverge, h)

/-- `os.WriteFile`; the event records whether it succeeded. -/
def Sys.write (s : Sys) (path : Str) (data : Bytes) : Act Unit := do
  let r ← Act.ask (fun h => s.writeFile h path data)
  match r with
  | none => Act.emit (.writeFile path data true)
  | some e => do
    Act.emit (.writeFile path data false)
    Act.fail e

/-- `NewGenerator` and `Generator.Generate` into a buffer, cmd_generate.go:85-94,
generator/generator.go:302-340.  Writing to the buffer does not fail. -/
def Sys.generate (s : Sys) (o : GenOptions) : Act Bytes := do
  Act.emit .generate
  let g ← Act.ask (fun h => s.newGenerator h o)
  Act.ofRes g
  let r ← Act.ask (fun h => s.header h o)
  let header ← Act.lift r
  let r ← Act.ask (fun h => s.body h o)
  let body ← Act.lift r
  let r ← Act.ask (fun h => s.process h o.localPrefix o.outputFile (header ++ body))
  Act.lift r

/-- The rest of `Run` after the flags have been checked, cmd_generate.go:80-101. -/
def Sys.runChecked (s : Sys) (f : GenFlags) : Act Unit := do
  let options ← s.getOptions f
  let source ← s.generate options
  let dir := dirPath f.outputFile
  let m ← Act.ask (fun h => s.mkdirAll h dir)
  Act.emit (.mkdirAll dir)
  match m with
  | some e => Act.fail e
  | none => s.write f.outputFile source

/-- The message of a flag error; the text does not matter. -/
def flagMessage : FlagErr → Str
  | .badSyntax a => g!"bad flag syntax: " ++ a
  | .notDefined n => g!"flag provided but not defined: -" ++ n
  | .help => g!"flag: help requested"
  | .badBool v => g!"invalid boolean value " ++ v
  | .needsArgument n => g!"flag needs an argument: -" ++ n

/-- `GenerateCommand.Run`, cmd_generate.go:71-101. -/
def Sys.runGen (s : Sys) (args : List Str) : Act Unit :=
  match parseGen {} args with
  | .error e => Act.fail (.commandLine (flagMessage e))
  | .ok (f, _) =>
    match checkFlags f with
    | some e => Act.fail e
    | none => s.runChecked f

/-! ## The header -/

/-- The `//go:generate` line of the header, cmd_generate.go:310 (the text after `//`). -/
def generateLine (o : GenOptions) : Str :=
  g!"go:generate gowrap gen -p " ++ o.sourcePackage ++ g!" -i " ++ o.interfaceName ++ g!" -t " ++
    o.template ++ g!" -o " ++ o.outputFileName ++ o.varsArgs ++ g!" -l \"" ++ o.localPrefix ++ g!"\""

/-- The comment that the header contains, if any, cmd_generate.go:309-311. -/
def headerComment (o : GenOptions) : Option Str :=
  if o.disableGoGenerate then none else some (generateLine o)

/-! ## The template command -/

/-- `TemplateCommand.list`, cmd_template.go:65-81. -/
def Sys.templateList (s : Sys) : Act Unit := do
  let templates ← s.net.list
  if templates.length = 0 then Act.fail .noTemplatesFound
  else do
    Act.emit (.stdout g!"List of available remote templates:\n")
    printAll templates
where
  printAll : List Str → Act Unit
    | [] => pure ()
    | t :: ts => do
      Act.emit (.stdout (g!"  " ++ t ++ g!"\n"))
      printAll ts

/-- `TemplateCommand.fetch`, cmd_template.go:83-101. -/
def Sys.templateFetch (s : Sys) (args : List Str) : Act Unit :=
  match args with
  | template :: dst :: _ => do
    let (body, url) ← s.net.load template
    s.write dst body
    Act.emit (.stdout (g!"successfully copied from " ++ url ++ g!"\n"))
  | _ => Act.fail (.commandLine g!"expected template and a local file name")

/-- `TemplateCommand.Run`, cmd_template.go:48-61. -/
def Sys.runTemplate (s : Sys) (args : List Str) : Act Unit :=
  match args with
  | [] => Act.fail (.commandLine g!"expected subcommand")
  | sub :: rest =>
    if sub = g!"list" then s.templateList
    else if sub = g!"copy" then s.templateFetch rest
    else Act.fail (.commandLine g!"unknown subcommand")

end Gowrap

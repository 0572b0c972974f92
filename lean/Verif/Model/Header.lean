import Verif.Model.Cli
import Verif.Model.Inputs
import Verif.Model.TemplateText
/-!
# Model of the header of generated files and of `Generate`
-/

namespace Gowrap

open Tmpl

/-- What the header template refers to, generator/generator.go:305-310: `Options` with the `HeaderVars` of cmd_generate.go:131-135 and 156,
`Package` and `SourcePackage`.  `Vars` and the other options are left out, the header (cmd_generate.go:303-316) does not mention them. -/
structure HeaderData where
  /-- `.Package.Name` -/
  package : Str
  /-- `.SourcePackage.PkgPath` -/
  sourcePath : Str
  options : GenOptions
  /-- `.Options.Imports` -/
  imports : List Str

/-- The data with which the header template is executed, generator/generator.go:305-310. -/
def HeaderData.value (h : HeaderData) : TVal :=
  .struct [
    (g!"SourcePackage", .struct [(g!"PkgPath", .str h.sourcePath)]),
    (g!"Package", .struct [(g!"Name", .str h.package)]),
    (g!"Options", .struct [
      (g!"InterfaceName", .str h.options.interfaceName),
      (g!"LocalPrefix", .str h.options.localPrefix),
      (g!"Imports", .list (h.imports.map .str)),
      (g!"HeaderVars", .struct [
        (g!"DisableGoGenerate", .bool h.options.disableGoGenerate),
        (g!"OutputFileName", .str h.options.outputFileName),
        (g!"VarsArgs", .str h.options.varsArgs),
        (g!"Template", .str h.options.template)])])]

/-- Executing the header template, generator/generator.go:305-313. -/
def renderHeader (u : Uni) (h : HeaderData) : Option Str := do
  let ns ← parse Text.header
  execute u ns h.value

/-- The options of `NewGenerator` in terms of those of the command, cmd_generate.go:125-158.  The package has been loaded by the command. -/
def GenOptions.forGenerator (o : GenOptions) (source : PkgId) : Options where
  interfaceName := o.interfaceName
  sourcePackage := o.sourcePackage
  sourceInstance := some source
  outputFile := o.outputFile

/-- The data of the header for a generator, generator/generator.go:252-263 and 305-310. -/
def Generator.header (g : Generator) (w : World) (o : GenOptions) : HeaderData where
  package := g.dstName
  sourcePath := (w.pkg g.srcPackage).path
  options := o
  imports := g.imports

/-- `Generate` up to the call of goimports, generator/generator.go:302-329. -/
def Generator.source (g : Generator) (w : World) (o : GenOptions) (body : Str) : Option Str := do
  let h ← renderHeader w.uni (g.header w o)
  let b ← render w.uni body (g.inputs (o.forGenerator g.srcPackage) o.vars)
  return h ++ b

end Gowrap

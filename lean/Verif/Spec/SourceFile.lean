import Verif.Model.Header
import Verif.Spec.Accepted
/-!
# Go source files

"SourceFile = PackageClause ";" { ImportDecl ";" } { TopLevelDecl ";" }" of the Go specification.
-/

namespace Gowrap.Spec

open Gowrap Go

/-- An import as the parser of Go leaves it: the path between double quotes, a name or `.` or nothing before it. -/
structure ImportOk (im : ImportSpec) : Prop where
  name : im.name = none ∨ im.name = some g!"." ∨ ∃ x, im.name = some x ∧ GoName x
  path : ∃ p, im.path = g!"\"" ++ p ++ g!"\"" ∧ InQuotes p

/-- The tokens of an import. -/
def importToks (im : ImportSpec) : List Go.Tok :=
  (match im.name with
    | none => []
    | some x => if x = g!"." then [.op g!"."] else [.word x]) ++ [.str (im.path.drop 1).dropLast]

/-- The tokens of a source file: the package clause, one import declaration, other declarations. -/
def fileToks (package : Str) (imports : List ImportSpec) (ds : List Go.Decl) : List Go.Tok :=
  [.word g!"package", .word package, .op g!";", .word g!"import", .op g!"("] ++
    imports.flatMap (fun im => importToks im ++ [.op g!";"]) ++ [.op g!")", .op g!";"] ++ putDecls ds []

/-- The imports of the generated file: the package of the interface unless it is the destination, and the imports of the file that declares the
interface. -/
def neededImports (w : World) (o : Options) (src : PkgId) (dst : Str) (f : File) : List ImportSpec :=
  (if (w.pkg src).path = dst then [] else
    [⟨some (if o.sourcePackageAlias ≠ [] then o.sourcePackageAlias else g!"_source" ++ w.title (w.pkg src).name),
      g!"\"" ++ (w.pkg src).path ++ g!"\""⟩]) ++ f.imports

/-- What the header writes into comments stays on one line. -/
structure OneLine (o : GenOptions) : Prop where
  template : '\n' ∉ o.template
  name : '\n' ∉ o.interfaceName
  output : '\n' ∉ o.outputFileName
  vars : '\n' ∉ o.varsArgs
  pref : '\n' ∉ o.localPrefix

/-- A comment, if there is one. -/
def commentText : Option Str → Str
  | some c => g!"\n//" ++ c ++ g!"\n"
  | none => []

/-- The text of the header: the mark of generated code ("Code generated ... DO NOT EDIT." in `go help generate`), where the template comes from,
the package clause, the command that repeats the generation and the imports. -/
def headerText (package : Str) (o : GenOptions) (imports : List Str) : Str :=
  g!"// Code generated by gowrap. DO NOT EDIT.\n" ++ g!"// template: " ++ o.template ++ g!"\n// gowrap: http://github.com/hexdigest/gowrap\n\npackage " ++
    package ++ g!"\n\n" ++
    commentText (headerComment o) ++
    g!"\nimport(\n" ++ imports.flatMap (fun i => i ++ g!"\n\t") ++ g!"\n)\n"

end Gowrap.Spec

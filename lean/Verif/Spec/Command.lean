import Verif.Spec.Works
import Verif.Spec.SourceFile
import Verif.Spec.Utf8
/-!
# What the gen command writes
-/

namespace Gowrap.Spec

open Gowrap Tmpl Go

/-- The bytes are the UTF-8 encoding of the text. -/
inductive Encodes : Str → Bytes → Prop
  | nil : Encodes [] []
  | cons (c : Char) (bs : Bytes) (s : Str) (rest : Bytes) : Utf8 c.toNat bs → Encodes s rest → Encodes (c :: s) (bs ++ rest)

/-- The names and paths that go into the header are such that the header is one: imports are well-formed, the package name is an identifier
and no option contains a line break. -/
structure HeaderReady (w : World) (g : Generator) (o : GenOptions) : Prop where
  imports : ∀ p f, FileOf w p f → ∀ im ∈ f.imports, ImportOk im
  path : InQuotes (w.pkg g.srcPackage).path
  lines : OneLine o
  package : GoName g.dstName

/-- The text is a Go file: a package clause, the imports that the interface needs, and declarations that compile and of which `P` holds. -/
def DecoratorFile (w : World) (g : Generator) (o : GenOptions) (bl : Builtin × Locals) (P : List Go.Decl → Prop) (text : Str) : Prop :=
  ∃ f ts ds, FileOf w g.srcPackage f ∧ DeclaredIn f ts ∧ ts.name = o.interfaceName ∧
    Go.tokens text = some (fileToks g.dstName (neededImports w (o.forGenerator g.srcPackage) g.srcPackage g.dstPath f) ds) ∧
    Go.Grammatical (goTypes (copiedOf w.raw)) ds ∧ Compiles (g.inputs (o.forGenerator g.srcPackage) o.vars) bl.1 bl.2 ds ∧ P ds

end Gowrap.Spec

import Verif.Spec.Regen
/-!
# Worlds that differ elsewhere
-/

namespace Gowrap.Spec

open Gowrap

/-- `p` is `src` or one of the packages it depends on. -/
def Around (w : World) (src p : PkgId) : Prop := p = src ∨ DependsOn w src p

/-- The two worlds have the same packages and files as far as package `src` depends on them, and load the same for
the import paths in these files; they may differ in everything else. -/
structure SameAround (w w' : World) (src : PkgId) : Prop where
  uni : w'.uni = w.uni
  raw : w'.raw = w.raw
  pkg : ∀ p, Around w src p → w'.pkg p = w.pkg p
  files : ∀ p, Around w src p → w'.files p = w.files p
  load : ∀ p f imp, Around w src p → FileOf w p f → imp ∈ f.imports →
    w'.load (trimQuotes imp.path) = w.load (trimQuotes imp.path)
  loadEmpty : w'.load [] = w.load []

/-- The world after the file `f` was written to the directory `dir`, which had no Go files before: it now is
the package `q`. -/
def addPackage (w : World) (dir : Str) (q : PkgId) (info : PkgInfo) (f : File) : World :=
  { w with
    pkg := fun p => if p = q then info else w.pkg p
    files := fun p => if p = q then .ok [f] else w.files p
    load := fun path => if path = dir then .ok q else w.load path }

/-- No package that `src` depends on declares a type name twice. -/
def UniqueTypesAround (w : World) (src : PkgId) : Prop :=
  ∀ p f f' ts ts', Around w src p → FileOf w p f → FileOf w p f' → DeclaredIn f ts → DeclaredIn f' ts' →
    ts.name = ts'.name → ts = ts' ∧ f = f'

/-- No package that `src` depends on imports two packages of the same name. -/
def UniqueImportsAround (w : World) (src : PkgId) : Prop :=
  ∀ p path q path' q', Around w src p → (path, q) ∈ (w.pkg p).imports → (path', q') ∈ (w.pkg p).imports →
    (w.pkg q).name = (w.pkg q').name → path = path'

end Gowrap.Spec

import Verif.Model.Package
/-!
# Specification: the files of a package

Which files of a directory make up a package is decided by the go command (build constraints, names ending in
`_test.go`, `_windows.go`, ...).  Its choice is given as a predicate on the entries of the directory.
-/

namespace Gowrap.Spec

open Gowrap

/-- The path of the entry `name` of directory `d`. -/
def inDir (d name : Str) : Str := d ++ g!"/" ++ name

/-- The go command found package `p` in the directory `d` with entries `es`, and selected the files `sel`: they
are the `GoFiles`, each is a Go file that parses and has the name of the package in its package clause. -/
structure IsPackage (t : Tools) (p : PkgId) (d : Str) (es : List Entry) (sel : Entry → Bool) : Prop where
  read : t.readDir d = some es
  files : t.goFiles p = (es.filter sel).map fun e => inDir d e.name
  nonempty : t.goFiles p ≠ []
  dir : ∀ f ∈ t.goFiles p, dirPath f = d
  source : ∀ e ∈ es, sel e = true → e.isDir = false ∧ (∃ base, e.name = base ++ g!".go") ∧
    ∃ f, e.src = some ((t.pkg p).name, f)

/-- The declarations of the selected files. -/
def compiled (es : List Entry) (sel : Entry → Bool) : List File :=
  (es.filter sel).filterMap fun e => e.src.map Prod.snd

/-- The Go files that were not selected parse and belong to other packages. -/
def OthersForeign (name : Str) (es : List Entry) (sel : Entry → Bool) : Prop :=
  ∀ e ∈ es, sel e = false → e.isDir = true ∨ (¬ ∃ base, e.name = base ++ g!".go") ∨
    ∃ other f, e.src = some (other, f) ∧ other ≠ name

/-- A choice of files for every package. -/
structure Build where
  dir : PkgId → Str
  entries : PkgId → List Entry
  sel : PkgId → Entry → Bool

/-- The world in which packages consist of the files that are compiled; packages without Go files are left as
they are. -/
def Build.world (b : Build) (t : Tools) : World :=
  { t.world with files := fun p => if t.goFiles p = [] then t.files p else .ok (compiled (b.entries p) (b.sel p)) }

end Gowrap.Spec

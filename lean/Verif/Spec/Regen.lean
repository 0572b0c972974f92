import Verif.Spec.MethodSet
/-!
# Generating again when the generated file is part of the package

Specification of the package after a file was added to it, and of what keeps the file apart from the rest.
-/

namespace Gowrap.Spec

open Gowrap

/-- The world after the file `f` was written to the directory of package `q`: `f` is one more file of the
package, and `new` are the packages that only `f` imports.  Nothing else changes.  (Where `f` stands among the
files and `new` among the imports is immaterial: both are read through a schedule.) -/
def addFile (w : World) (q : PkgId) (f : File) (new : List (Str × PkgId)) : World :=
  { w with
    pkg := fun p => if p = q then { w.pkg q with imports := (w.pkg q).imports ++ new } else w.pkg p
    files := fun p => if p = q then (w.files q >>= fun fs => .ok (fs ++ [f])) else w.files p }

/-- Package `p` depends on package `q`: it imports it, or `pkg.Load` gives `q` for the import path of one of
the files of `p` (or for the empty path, which gowrap loads when a file imports nothing of the name it looks
for), or by a chain of such steps. -/
inductive DependsOn (w : World) : PkgId → PkgId → Prop where
  | imports {p q path} : (path, q) ∈ (w.pkg p).imports → DependsOn w p q
  | load {p q f imp} : FileOf w p f → imp ∈ f.imports → w.load (trimQuotes imp.path) = .ok q → DependsOn w p q
  | loadEmpty {p q f} : FileOf w p f → w.load [] = .ok q → DependsOn w p q
  | trans {p q r} : DependsOn w p q → DependsOn w q r → DependsOn w p r

/-- The name `n` is embedded by the interface element `e`, or given to it as a type argument. -/
inductive Embeds (n : Str) : Expr → Prop where
  | ident : Embeds n (.ident n)
  | index {x i} : Embeds n x → Embeds n (.index x i)
  | indexArg {x i} : Embeds n i → Embeds n (.index x i)
  | indexList {x is} : Embeds n x → Embeds n (.indexList x is)
  | indexListArg {x is i} : i ∈ is → Embeds n i → Embeds n (.indexList x is)

/-- No interface of package `q` embeds a type that `f` declares, or has it as a type argument of an embedded
interface. -/
def Unembedded (w : World) (q : PkgId) (f : File) : Prop :=
  ∀ g t ms fd ts, FileOf w q g → DeclaredIn g t → t.type = .ifaceT ms → fd ∈ ms → DeclaredIn f ts →
    ¬ Embeds ts.name fd.type

end Gowrap.Spec

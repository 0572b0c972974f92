import Verif.Spec.Signature
import Verif.Spec.Termination
/-!
# What the Go parser builds
-/

namespace Gowrap.Spec

open Gowrap

mutual

/-- Qualified identifiers are made of two identifiers; only the parts that gowrap looks into. -/
def Qualified : Expr → Prop
  | .selector x _ => ∃ a, x = .ident a
  | .index x i => Qualified x ∧ Qualified i
  | .indexList x is => Qualified x ∧ QualifiedList is
  | .unary _ x => Qualified x
  | .binary _ x y => Qualified x ∧ Qualified y
  | _ => True

def QualifiedList : List Expr → Prop
  | [] => True
  | e :: es => Qualified e ∧ QualifiedList es

end

/-- A declaration of a type: identifiers are not empty and qualifiers are identifiers. -/
structure ParsedSpec (ts : TypeSpec) : Prop where
  params : ∀ fs, ts.typeParams = some fs → ∀ f ∈ fs, Qualified f.type
  members : ∀ ms, ts.type = .ifaceT ms → ∀ f ∈ ms, NonEmptyIdents f.type ∧ Qualified f.type ∧ ∀ n ∈ f.names, n ≠ []

/-- The files of all packages were built by the parser, and `go/parser`, `os.ReadDir` and `packages.Load` return. -/
structure ParsedPackages (w : World) : Prop where
  specs : ∀ p f ts, FileOf w p f → DeclaredIn f ts → ParsedSpec ts
  /-- a string literal has two quotes -/
  imports : ∀ p f, FileOf w p f → ∀ im ∈ f.imports, 2 ≤ im.path.length
  returns : ExternalsReturn w
  files : ∀ p, w.files p ≠ .panic
  load : ∀ path, w.load path ≠ .panic

/-- No interface has a method with an empty pair of parentheses for its results, and none has a function type among its elements. -/
def UsualMembers (w : World) : Prop :=
  ∀ p f ts, FileOf w p f → DeclaredIn f ts → ∀ ms, ts.type = .ifaceT ms → ∀ fd ∈ ms, ∀ ps rs, fd.type = .funcT ps rs →
    fd.names ≠ [] ∧ rs ≠ some []

end Gowrap.Spec

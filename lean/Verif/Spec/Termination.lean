import Verif.Spec.MethodSet
/-!
# Specification: acyclic programs
-/

namespace Gowrap.Spec

open Gowrap

/-- The type expression embeds (or is) the unqualified name `n`, possibly instantiated. -/
inductive EmbedsName (n : Str) : Expr → Prop where
  | here : EmbedsName n (.ident n)
  | elem {ms fd} : fd ∈ ms → EmbedsName n fd.type → EmbedsName n (.ifaceT ms)
  | index {x i} : EmbedsName n x → EmbedsName n (.index x i)
  | indexList {x is} : EmbedsName n x → EmbedsName n (.indexList x is)

/-- As `EmbedsName`, but the name may also be mentioned in a type argument of an embedded element. -/
inductive MentionsName (n : Str) : Expr → Prop where
  | here : MentionsName n (.ident n)
  | elem {ms fd} : fd ∈ ms → MentionsName n fd.type → MentionsName n (.ifaceT ms)
  | index {x i} : MentionsName n x → MentionsName n (.index x i)
  | indexList {x is} : MentionsName n x → MentionsName n (.indexList x is)
  | arg {x i} : MentionsName n i → MentionsName n (.index x i)
  | listArg {x is i} : i ∈ is → MentionsName n i → MentionsName n (.indexList x is)

/-- Package `p` declares the type `ts`. -/
def Declares (w : World) (p : PkgId) (ts : TypeSpec) : Prop := ∃ f, FileOf w p f ∧ DeclaredIn f ts

/-- Imports are acyclic. -/
def AcyclicImports (w : World) : Prop :=
  WellFounded fun q p : PkgId => ∃ path, (path, q) ∈ (w.pkg p).imports

/-- The relation `R` between names and type expressions is acyclic among the declarations of each package. -/
def AcyclicTypes (w : World) (R : Str → Expr → Prop) : Prop :=
  ∀ p, WellFounded fun ts' ts : TypeSpec => Declares w p ts' ∧ Declares w p ts ∧ R ts'.name ts.type

/-- The functions outside gowrap return. -/
structure ExternalsReturn (w : World) : Prop where
  files : ∀ p, w.files p ≠ .diverge
  load : ∀ path, w.load path ≠ .diverge

end Gowrap.Spec

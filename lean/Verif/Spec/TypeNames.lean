import Verif.Spec.Typing
import Verif.Spec.ScopeNames
/-!
# The types in the interface that is decorated
-/

namespace Gowrap.Spec

open Gowrap Tmpl Go

/-- The types of the parameters before a variadic one. -/
def fixedToks : List (List Go.Tok) → List Typ
  | [] => []
  | l :: ls => match dotsToks l with
    | some _ => []
    | none => srcTyp l :: fixedToks ls

/-- The type of the elements of the variadic parameter. -/
def lastToks : List (List Go.Tok) → Option Typ
  | [] => none
  | l :: ls => match dotsToks l with
    | some k => some (srcTyp k)
    | none => lastToks ls

/-- The type of a method in the source. -/
def sourceSig (m : Method) : Typ :=
  .func (fixedToks (m.params.map fun p => typeToks p.type)) (lastToks (m.params.map fun p => typeToks p.type))
    (m.results.map fun p => srcTyp (typeToks p.type))

/-- The methods of the interface. -/
def sourceMethods (d : Inputs) : List (Str × Typ) := d.methods.map fun e => (e.2.name, sourceSig e.2)

end Gowrap.Spec

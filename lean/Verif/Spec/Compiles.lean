import Verif.Spec.Accepted
import Verif.Spec.Scope
import Verif.Spec.Terminating
import Verif.Spec.TypeInputs
/-!
# Generated files that compile

`Compiles` collects the rules of the compiler that the other properties are about.  `Unambiguous` collects the conditions on names: they
speak about the names in the source and on the command line only.
-/

namespace Gowrap.Spec

open Gowrap Tmpl Go

/-- The file generated by template `b` for `d` obeys the rules of declarations and scope (C72), the rules about types (C75) and the rule
about terminating statements (C67), and its type implements the interface (C65). -/
structure Compiles (d : Inputs) (b : Builtin) (l : Locals) (ds : List Go.Decl) : Prop where
  scope : FileScoped l.imports (flatDecls ds)
  typed : FileTyped l.paths (typeToks d.type) (sourceMethods d) (flatDecls ds)
  returns : ∀ x ∈ flatDecls ds, x.Returns
  implements : Implements ds (decoratorName d b.suffix) d

/-- No name in the source or on the command line is confused with another one in the generated file. -/
structure Unambiguous (u : Uni) (d : Inputs) (b : Builtin) (l : Locals) : Prop where
  /-- parameters and results can be passed on -/
  blank : ∀ e ∈ d.methods, ∀ p ∈ e.2.params ++ e.2.results, p.name ≠ g!"_"
  /-- parameters and results do not have the names that the template declares or refers to -/
  fresh : ∀ e ∈ d.methods, b.which.holds e.2 → FreshMethod l e.2
  inner : ∀ e ∈ d.methods, b.which.holds e.2 → ∀ p ∈ e.2.params, p.name ∉ l.inner
  counter : b.text = Text.fallback → ∀ e ∈ d.methods, ∀ p ∈ e.2.params ++ e.2.results, p.name ≠ g!"_i"
  /-- nor does the decorator -/
  name : FreshName u d b
  /-- no method has the name of a field, no other field has the name of the interface -/
  hides : ∀ e ∈ d.methods, e.1 ∉ b.fieldNames d
  field : b.embeds = true → d.name ∉ b.fields
  /-- `context.Context` and `error` in the source are the ones of the library, and the interface is neither -/
  methods : ∀ e ∈ d.methods, b.which.holds e.2 → TypedMethod e.2
  type : typeToks d.type ≠ [.word g!"error"] ∧ typeToks d.type ≠ [.word g!"context", .op g!".", .word g!"Context"]
  /-- types are not hidden by parameters where the template refers to them -/
  pool : b.text = Text.syncpool → .word g!"impls" ∉ typeToks d.type
  iface : b.text = Text.fallback → ∀ e ∈ d.methods,
    ∀ x ∈ g!"_d" :: g!"_i" :: l.names ++ (e.2.params ++ e.2.results).map (·.name), .word x ∉ typeToks d.type
  results : b.text = Text.fallback → ∀ e ∈ d.methods,
    ∀ p ∈ e.2.results, ∀ x ∈ g!"_d" :: (e.2.params ++ e.2.results).map (·.name), .word x ∉ typeToks p.type

/-- The template supports the methods of the interface: templates/elasticapm has only methods with a context (C65), and the methods of
templates/fallback that return an error without taking a context lack a `return` (C67). -/
structure Suits (d : Inputs) (b : Builtin) : Prop where
  apm : b.text = Text.elasticapm → ∀ e ∈ d.methods, e.2.acceptsContext = true
  fallback : b.text = Text.fallback → ∀ e ∈ d.methods, e.2.returnsError = true → e.2.acceptsContext = true

end Gowrap.Spec

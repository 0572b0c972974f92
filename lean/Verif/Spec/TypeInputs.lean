import Verif.Spec.TypeNames
/-!
# Interfaces whose types and names are not confused with others in the generated file
-/

namespace Gowrap.Spec

open Gowrap Tmpl Go

/-- The paths of the packages that goimports adds. -/
def Locals.paths (l : Locals) : List (Str × Str) := l.imports.map fun x => (x, if x = g!"json" then g!"encoding/json" else x)

/-- What gowrap finds out about the method agrees with the types in the source. -/
structure TypedMethod (m : Method) : Prop where
  ctx : m.acceptsContext = true → ∃ p ps, m.params = p :: ps ∧ typeToks p.type = [.word g!"context", .op g!".", .word g!"Context"]
  err : m.returnsError = true → ∀ p ∈ m.results, p.name = g!"err" → typeToks p.type = [.word g!"error"]

/-- The types and names of the interface are not confused with others in the generated file. -/
structure TypedInputs (d : Inputs) (b : Builtin) (l : Locals) : Prop where
  /-- the type of the interface is a name, but neither `error` nor `context.Context` -/
  type : (∃ x k, typeToks d.type = .word x :: k) ∧ typeToks d.type ≠ [.word g!"error"] ∧
    typeToks d.type ≠ [.word g!"context", .op g!".", .word g!"Context"]
  /-- the embedded field has the name of the interface, and no other field has it -/
  field : b.embeds = true → (Ty.toks (typeToks d.type)).fieldName = d.name ∧ d.name ∉ b.fields
  methods : ∀ e ∈ d.methods, b.which.holds e.2 → TypedMethod e.2
  /-- parameters are not hidden by variables of blocks -/
  inner : ∀ e ∈ d.methods, b.which.holds e.2 → ∀ p ∈ e.2.params, p.name ∉ l.inner
  /-- the constructor of templates/syncpool refers to the interface where its parameter is visible -/
  pool : b.text = Text.syncpool → .word g!"impls" ∉ typeToks d.type
  /-- the counter of templates/fallback hides no parameter -/
  counter : b.text = Text.fallback → ∀ e ∈ d.methods, ∀ p ∈ e.2.params ++ e.2.results, p.name ≠ g!"_i"
  /-- the methods of templates/fallback refer to the interface -/
  iface : b.text = Text.fallback → ∀ e ∈ d.methods,
    ∀ x ∈ g!"_d" :: g!"_i" :: l.names ++ (e.2.params ++ e.2.results).map (·.name), .word x ∉ typeToks d.type
  /-- and to the types of their results -/
  results : b.text = Text.fallback → ∀ e ∈ d.methods,
    ∀ p ∈ e.2.results, ∀ x ∈ g!"_d" :: (e.2.params ++ e.2.results).map (·.name), .word x ∉ typeToks p.type

end Gowrap.Spec

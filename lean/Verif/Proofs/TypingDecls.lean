import Verif.Proofs.TypingFile
/-!
# The types and names that the generated files declare
-/

namespace Gowrap.Tmpl

open Gowrap Go Spec

set_option maxRecDepth 100000
set_option linter.unusedSimpArgs false
set_option linter.unusedVariables false

theorem predeclared_entities : predeclaredEntity g!"bool" = some (.type (.basic g!"bool")) ∧ predeclaredEntity g!"error" = some (.type (.basic g!"error")) ∧
    predeclaredEntity g!"float64" = some (.type (.basic g!"float64")) ∧ predeclaredEntity g!"int" = some (.type (.basic g!"int")) ∧
    predeclaredEntity g!"int64" = some (.type (.basic g!"int64")) ∧ predeclaredEntity g!"string" = some (.type (.basic g!"string")) ∧
    predeclaredEntity g!"byte" = some (.type (.basic g!"byte")) ∧
    predeclaredEntity g!"uint32" = some (.type (.basic g!"uint32")) ∧ predeclaredEntity g!"true" = some (.value (.untyped .bool)) ∧
    predeclaredEntity g!"false" = some (.value (.untyped .bool)) ∧ predeclaredEntity g!"nil" = some (.value (.untyped .nil)) ∧
    predeclaredEntity g!"append" = some .builtin ∧ predeclaredEntity g!"len" = some .builtin ∧ predeclaredEntity g!"make" = some .builtin ∧
    predeclaredEntity g!"panic" = some .builtin := ⟨rfl, rfl, rfl, rfl, rfl, rfl, rfl, rfl, rfl, rfl, rfl, rfl, rfl, rfl, rfl⟩

theorem convertible_basic {F : FileTypes} : (Typ.basic g!"int").Convertible F (.basic g!"uint32") ∧ (Typ.lib g!"time" g!"Duration").Convertible F (.basic g!"float64") ∧
    (Typ.basic g!"float64").Convertible F (.lib g!"time" g!"Duration") ∧ (Typ.slice (.basic g!"byte")).Convertible F (.basic g!"string") := by
  exact ⟨.inr (.inl ⟨rfl, rfl⟩), .inr (.inl ⟨rfl, rfl⟩), .inr (.inl ⟨rfl, rfl⟩), .inr (.inr (.inr ⟨rfl, rfl⟩))⟩

theorem assignable_func {F : FileTypes} {x : Str} {ps : List Typ} {d : Option Typ} {rs : List Typ} (h : find x F.decls = some (.func ps d rs)) :
    (Typ.func ps d rs).Assignable F (.decl x) := by
  refine ⟨rfl, .inr (.inl ⟨nofun, ?_, rfl⟩)⟩
  simp [Typ.under, h]

theorem twirp_assignable {F : FileTypes} : (Typ.lib Lib.twirpP g!"Error").Assignable F (.basic g!"error") := by
  refine ⟨rfl, .inr (.inr (.inl ?_))⟩
  intro e he
  rcases List.mem_singleton.mp he with rfl
  exact ⟨⟨g!"Error", false, .fn [] .string⟩, List.mem_of_find?_eq_some (p := fun k => k.name == g!"Error") (by rfl), rfl, rfl, rfl⟩

/-- Computes what the names of a file stand for. -/
macro "filetypes" "[" l:Lean.Parser.Tactic.simpLemma,* "]" : tactic =>
  `(tactic| simp (maxSteps := 1000000) [fileCtx, fileTypes, typesCtx, funcsCtx, seeTypes, seePackages, seeFuncs, Decl.importsOf, Decl.funcs, Decl.unders, Decl.fileVars, Go.find, flatDecls, Decl.flat,
    Go.Decl.types, flatFields, FieldDecl.flat, FieldDecl.vars, Ty.typ, predeclared_entities, imported, imported_as, mapType, Lib.logrusP, Lib.apmP, Lib.tracingP, Lib.tracingExtP, Lib.tracingLogP, Lib.censusP, Lib.otelP, Lib.otelTraceP, Lib.otelCodesP, Lib.otelAttrP, Lib.promP, Lib.promautoP, Lib.twirpP, Lib.jsonP, Lib.codesP, Lib.statusP, Lib.ctx, Lib.duration, Lib.timeT, Typ.string, Typ.int, Typ.error, Typ.uint32, Typ.any, Typ.bool, Typ.float64, methodTyps, fixedTyps, dotsTyp, Ty.dotsTyp, Results.typs, groupTyps, $l,*])


end Gowrap.Tmpl

import Verif.Proofs.TmplVars
/-!
# The template opentelemetry
-/

namespace Gowrap.Tmpl

open Gowrap Go

set_option maxRecDepth 100000

/-- /repo/templates/opentelemetry -/
def tmOpentelemetry : Template where
  text := Text.opentelemetry
  vars := spanVars
  names := spanNames
  pre := ([] ++ preOf (nodes Text.opentelemetry)) ++ preOf (restOf (nodes Text.opentelemetry))
  rest := restOf (restOf (nodes Text.opentelemetry))
  kind := .none
  config := false

theorem tmOpentelemetry_sound : tmOpentelemetry.Sound where
  parse := by krfl
  exec := fun u d hv => by
    show execNodes u ⟨_, _⟩ (nodes Text.opentelemetry) [] = execNodes u ⟨spanVars d (spanNames u d), d.value⟩ (restOf (restOf (nodes Text.opentelemetry))) (([] ++ preOf (nodes Text.opentelemetry)) ++ preOf (restOf (nodes Text.opentelemetry)))
    rw [exec_declare u d _ (nodes Text.opentelemetry) g!"decorator" g!"DecoratorName" (d.name ++ g!"WithTracing") _ (by krfl) (by krfl) (hv _)]
    rw [exec_declare u d _ (restOf (nodes Text.opentelemetry)) g!"spanNameType" g!"SpanNamePrefix" d.name _ (by krfl) (by krfl) (hv _)]
    rfl
  file := fun u d n ct cs mt ms => ⟨by krfl, by krfl, by krfl, by krfl, by krfl⟩
  isMethods := by krfl
  method := fun u d n text stmts m => by
    obtain ⟨doc, cm, nm, ps, rs, re, ac⟩ := m
    cases ps <;> cases rs <;> cases re <;> cases ac <;> exact ⟨⟨fun w => by krfl, by krfl, by krfl⟩, by krfl, by krfl⟩
  errs := fun h => nomatch h
  ctx := fun h => nomatch h
  config := fun h => nomatch h

end Gowrap.Tmpl

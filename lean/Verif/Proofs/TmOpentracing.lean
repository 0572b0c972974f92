import Verif.Proofs.TmplVars
/-!
# The template opentracing
-/

namespace Gowrap.Tmpl

open Gowrap Go

set_option maxRecDepth 100000

/-- /repo/templates/opentracing -/
def tmOpentracing : Template where
  text := Text.opentracing
  vars := decVars
  names := decNames g!"WithTracing"
  pre := [] ++ preOf (nodes Text.opentracing)
  rest := restOf (nodes Text.opentracing)
  kind := .none
  config := false

theorem tmOpentracing_sound : tmOpentracing.Sound where
  parse := by krfl
  exec := fun u d hv => by
    show execNodes u ⟨_, _⟩ (nodes Text.opentracing) [] = execNodes u ⟨decVars d (decNames g!"WithTracing" u d), d.value⟩ (restOf (nodes Text.opentracing)) ([] ++ preOf (nodes Text.opentracing))
    rw [exec_declare u d _ (nodes Text.opentracing) g!"decorator" g!"DecoratorName" (d.name ++ g!"WithTracing") _ (by krfl) (by krfl) (hv _)]
    rfl
  file := fun u d n ct cs mt ms => ⟨by krfl, by krfl, by krfl, by krfl, by krfl⟩
  isMethods := by krfl
  method := fun u d n text stmts m => by
    obtain ⟨doc, cm, nm, ps, rs, re, ac⟩ := m
    cases ps <;> cases rs <;> cases re <;> cases ac <;> exact ⟨⟨fun w => by krfl, by krfl, by krfl⟩, by krfl, by krfl⟩
  errs := fun h => nomatch h
  ctx := fun h => nomatch h
  config := fun h => nomatch h

end Gowrap.Tmpl

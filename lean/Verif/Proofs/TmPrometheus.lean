import Verif.Proofs.TmplVars
/-!
# The template prometheus
-/

namespace Gowrap.Tmpl

open Gowrap Go

set_option maxRecDepth 100000

/-- /repo/templates/prometheus -/
def tmPrometheus : Template where
  text := Text.prometheus
  vars := metricVars
  names := metricNames
  pre := ([] ++ preOf (nodes Text.prometheus)) ++ preOf (restOf (nodes Text.prometheus))
  rest := restOf (restOf (nodes Text.prometheus))
  kind := .none
  config := false

theorem tmPrometheus_sound : tmPrometheus.Sound where
  parse := by krfl
  exec := fun u d hv => by
    show execNodes u ⟨_, _⟩ (nodes Text.prometheus) [] = execNodes u ⟨metricVars d (metricNames u d), d.value⟩ (restOf (restOf (nodes Text.prometheus))) (([] ++ preOf (nodes Text.prometheus)) ++ preOf (restOf (nodes Text.prometheus)))
    rw [exec_declare u d _ (nodes Text.prometheus) g!"decorator" g!"DecoratorName" (d.name ++ g!"WithPrometheus") _ (by krfl) (by krfl) (hv _)]
    rw [exec_declare u d _ (restOf (nodes Text.prometheus)) g!"metric_name" g!"MetricName" (u.lower d.name ++ g!"_duration_seconds") _ (by krfl) (by krfl) (hv _)]
    rfl
  file := fun u d n ct cs mt ms => ⟨by krfl, by krfl, by krfl, by krfl, by krfl⟩
  isMethods := by krfl
  method := fun u d n text stmts m => by
    obtain ⟨doc, cm, nm, ps, rs, re, ac⟩ := m
    cases ps <;> cases rs <;> cases re <;> exact ⟨⟨fun w => by krfl, by krfl, by krfl⟩, by krfl, by krfl⟩
  errs := fun h => nomatch h
  ctx := fun h => nomatch h
  config := fun h => nomatch h

end Gowrap.Tmpl

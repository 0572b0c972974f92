import Verif.Proofs.TmplVars
/-!
# The template elasticapm
-/

namespace Gowrap.Tmpl

open Gowrap Go

set_option maxRecDepth 100000

/-- /repo/templates/elasticapm -/
def tmElasticapm : Template where
  text := Text.elasticapm
  vars := apmVars
  names := apmNames
  pre := (([] ++ preOf (nodes Text.elasticapm)) ++ preOf (restOf (nodes Text.elasticapm))) ++ preOf (restOf (restOf (nodes Text.elasticapm)))
  rest := restOf (restOf (restOf (nodes Text.elasticapm)))
  kind := .ctx
  config := false

theorem tmElasticapm_sound : tmElasticapm.Sound where
  parse := by krfl
  exec := fun u d hv => by
    show execNodes u ⟨_, _⟩ (nodes Text.elasticapm) [] = execNodes u ⟨apmVars d (apmNames u d), d.value⟩ (restOf (restOf (restOf (nodes Text.elasticapm)))) ((([] ++ preOf (nodes Text.elasticapm)) ++ preOf (restOf (nodes Text.elasticapm))) ++ preOf (restOf (restOf (nodes Text.elasticapm))))
    rw [exec_declare u d _ (nodes Text.elasticapm) g!"decorator" g!"DecoratorName" (d.name ++ g!"APMTracing") _ (by krfl) (by krfl) (hv _)]
    rw [exec_declare u d _ (restOf (nodes Text.elasticapm)) g!"decorator_option" g!"DecoratorName" (d.name ++ g!"APMTracingOption") _ (by krfl) (by krfl) (hv _)]
    rw [exec_declare u d _ (restOf (restOf (nodes Text.elasticapm))) g!"component" g!"ComponentName" (u.lower d.name ++ []) _ (by krfl) (by krfl) (hv _)]
    rfl
  file := fun u d n ct cs mt ms => ⟨by krfl, by krfl, by krfl, by krfl, by krfl⟩
  isMethods := by krfl
  method := fun u d n text stmts m => by
    obtain ⟨doc, cm, nm, ps, rs, re, ac⟩ := m
    cases ps <;> cases rs <;> cases re <;> cases ac <;> exact ⟨⟨fun w => by krfl, by krfl, by krfl⟩, by krfl, by krfl⟩
  errs := fun h => nomatch h
  ctx := fun _ sc u d n m p ac => by
    cases ac <;> exact ⟨⟨⟨fun w => by krfl, by krfl, by krfl⟩, by krfl, by krfl, by krfl, by krfl⟩, fun c => by
    cases c <;> exact ⟨⟨fun w => by krfl, by krfl, by krfl⟩, by krfl, by krfl, by krfl, by krfl⟩⟩
  config := fun h => nomatch h

end Gowrap.Tmpl

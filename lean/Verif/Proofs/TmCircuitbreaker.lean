import Verif.Proofs.TmplVars
/-!
# The template circuitbreaker
-/

namespace Gowrap.Tmpl

open Gowrap Go

set_option maxRecDepth 100000

/-- /repo/templates/circuitbreaker -/
def tmCircuitbreaker : Template where
  text := Text.circuitbreaker
  vars := decVars
  names := decNames g!"WithCircuitBreaker"
  pre := [] ++ preOf (nodes Text.circuitbreaker)
  rest := restOf (nodes Text.circuitbreaker)
  kind := .none
  config := false

theorem tmCircuitbreaker_sound : tmCircuitbreaker.Sound where
  parse := by krfl
  exec := fun u d hv => by
    show execNodes u ⟨_, _⟩ (nodes Text.circuitbreaker) [] = execNodes u ⟨decVars d (decNames g!"WithCircuitBreaker" u d), d.value⟩ (restOf (nodes Text.circuitbreaker)) ([] ++ preOf (nodes Text.circuitbreaker))
    rw [exec_declare u d _ (nodes Text.circuitbreaker) g!"decorator" g!"DecoratorName" (d.name ++ g!"WithCircuitBreaker") _ (by krfl) (by krfl) (hv _)]
    rfl
  file := fun u d n ct cs mt ms => ⟨by krfl, by krfl, by krfl, by krfl, by krfl⟩
  isMethods := by krfl
  method := fun u d n text stmts m => by
    obtain ⟨doc, cm, nm, ps, rs, re, ac⟩ := m
    cases ps <;> cases rs <;> cases re <;> exact ⟨⟨fun w => by krfl, by krfl, by krfl⟩, by krfl, by krfl⟩
  errs := fun h => nomatch h
  ctx := fun h => nomatch h
  config := fun h => nomatch h

end Gowrap.Tmpl

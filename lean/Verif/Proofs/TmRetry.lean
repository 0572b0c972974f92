import Verif.Proofs.TmplVars
/-!
# The template retry
-/

namespace Gowrap.Tmpl

open Gowrap Go

set_option maxRecDepth 100000

/-- /repo/templates/retry -/
def tmRetry : Template where
  text := Text.retry
  vars := decVars
  names := decNames g!"WithRetry"
  pre := [] ++ preOf (nodes Text.retry)
  rest := restOf (nodes Text.retry)
  kind := .none
  config := false

theorem tmRetry_sound : tmRetry.Sound where
  parse := by krfl
  exec := fun u d hv => by
    show execNodes u ⟨_, _⟩ (nodes Text.retry) [] = execNodes u ⟨decVars d (decNames g!"WithRetry" u d), d.value⟩ (restOf (nodes Text.retry)) ([] ++ preOf (nodes Text.retry))
    rw [exec_declare u d _ (nodes Text.retry) g!"decorator" g!"DecoratorName" (d.name ++ g!"WithRetry") _ (by krfl) (by krfl) (hv _)]
    rfl
  file := fun u d n ct cs mt ms => ⟨by krfl, by krfl, by krfl, by krfl, by krfl⟩
  isMethods := by krfl
  method := fun u d n text stmts m => by
    obtain ⟨doc, cm, nm, ps, rs, re, ac⟩ := m
    cases ps <;> cases rs <;> cases re <;> cases ac <;> exact ⟨⟨fun w => by krfl, by krfl, by krfl⟩, by krfl, by krfl⟩
  errs := fun h => nomatch h
  ctx := fun h => nomatch h
  config := fun h => nomatch h

end Gowrap.Tmpl

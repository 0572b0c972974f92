import Verif.Proofs.TmplVars
/-!
# The template fallback
-/

namespace Gowrap.Tmpl

open Gowrap Go

set_option maxRecDepth 100000

/-- /repo/templates/fallback -/
def tmFallback : Template where
  text := Text.fallback
  vars := decVars
  names := decNames g!"WithFallback"
  pre := [] ++ preOf (nodes Text.fallback)
  rest := restOf (nodes Text.fallback)
  kind := .none
  config := false

theorem tmFallback_sound : tmFallback.Sound where
  parse := by krfl
  exec := fun u d hv => by
    show execNodes u ⟨_, _⟩ (nodes Text.fallback) [] = execNodes u ⟨decVars d (decNames g!"WithFallback" u d), d.value⟩ (restOf (nodes Text.fallback)) ([] ++ preOf (nodes Text.fallback))
    rw [exec_declare u d _ (nodes Text.fallback) g!"decorator" g!"DecoratorName" (d.name ++ g!"WithFallback") _ (by krfl) (by krfl) (hv _)]
    rfl
  file := fun u d n ct cs mt ms => ⟨by krfl, by krfl, by krfl, by krfl, by krfl⟩
  isMethods := by krfl
  method := fun u d n text stmts m => by
    obtain ⟨doc, cm, nm, ps, rs, re, ac⟩ := m
    cases ps <;> cases rs <;> cases re <;> cases ac <;> exact ⟨⟨fun w => by krfl, by krfl, by krfl⟩, by krfl, by krfl⟩
  errs := fun h => nomatch h
  ctx := fun h => nomatch h
  config := fun h => nomatch h

end Gowrap.Tmpl

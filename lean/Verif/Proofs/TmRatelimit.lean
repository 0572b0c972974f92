import Verif.Proofs.TmplVars
/-!
# The template ratelimit
-/

namespace Gowrap.Tmpl

open Gowrap Go

set_option maxRecDepth 100000

/-- /repo/templates/ratelimit -/
def tmRatelimit : Template where
  text := Text.ratelimit
  vars := decVars
  names := decNames g!"WithRateLimit"
  pre := [] ++ preOf (nodes Text.ratelimit)
  rest := restOf (nodes Text.ratelimit)
  kind := .none
  config := false

theorem tmRatelimit_sound : tmRatelimit.Sound where
  parse := by krfl
  exec := fun u d hv => by
    show execNodes u ⟨_, _⟩ (nodes Text.ratelimit) [] = execNodes u ⟨decVars d (decNames g!"WithRateLimit" u d), d.value⟩ (restOf (nodes Text.ratelimit)) ([] ++ preOf (nodes Text.ratelimit))
    rw [exec_declare u d _ (nodes Text.ratelimit) g!"decorator" g!"DecoratorName" (d.name ++ g!"WithRateLimit") _ (by krfl) (by krfl) (hv _)]
    rfl
  file := fun u d n ct cs mt ms => ⟨by krfl, by krfl, by krfl, by krfl, by krfl⟩
  isMethods := by krfl
  method := fun u d n text stmts m => by
    obtain ⟨doc, cm, nm, ps, rs, re, ac⟩ := m
    cases ps <;> cases rs <;> cases re <;> cases ac <;> exact ⟨⟨fun w => by krfl, by krfl, by krfl⟩, by krfl, by krfl⟩
  errs := fun h => nomatch h
  ctx := fun h => nomatch h
  config := fun h => nomatch h

end Gowrap.Tmpl

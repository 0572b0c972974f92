import Verif.Proofs.TmplVars
/-!
# The template twirpValidate
-/

namespace Gowrap.Tmpl

open Gowrap Go

set_option maxRecDepth 100000

/-- /repo/templates/twirp_validate -/
def tmTwirpValidate : Template where
  text := Text.twirpValidate
  vars := decVars
  names := decNames g!"WithTwirpValidation"
  pre := [] ++ preOf (nodes Text.twirpValidate)
  rest := restOf (nodes Text.twirpValidate)
  kind := .errs
  config := false

theorem tmTwirpValidate_sound : tmTwirpValidate.Sound where
  parse := by krfl
  exec := fun u d hv => by
    show execNodes u ⟨_, _⟩ (nodes Text.twirpValidate) [] = execNodes u ⟨decVars d (decNames g!"WithTwirpValidation" u d), d.value⟩ (restOf (nodes Text.twirpValidate)) ([] ++ preOf (nodes Text.twirpValidate))
    rw [exec_declare u d _ (nodes Text.twirpValidate) g!"decorator" g!"DecoratorName" (d.name ++ g!"WithTwirpValidation") _ (by krfl) (by krfl) (hv _)]
    rfl
  file := fun u d n ct cs mt ms => ⟨by krfl, by krfl, by krfl, by krfl, by krfl⟩
  isMethods := by krfl
  method := fun u d n text stmts m => by
    obtain ⟨doc, cm, nm, ps, rs, re, ac⟩ := m
    cases ps <;> cases rs <;> cases re <;> cases ac <;> exact ⟨⟨fun w => by krfl, by krfl, by krfl⟩, by krfl, by krfl⟩
  errs := fun _ sc u d n m p ac c => by cases ac <;> cases c <;> exact ⟨⟨fun w => by krfl, by krfl, by krfl⟩, by krfl, by krfl, by krfl, by krfl⟩
  ctx := fun h => nomatch h
  config := fun h => nomatch h

end Gowrap.Tmpl

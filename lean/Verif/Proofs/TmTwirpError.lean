import Verif.Proofs.TmplVars
/-!
# The template twirpError
-/

namespace Gowrap.Tmpl

open Gowrap Go

set_option maxRecDepth 100000

/-- /repo/templates/twirp_error -/
def tmTwirpError : Template where
  text := Text.twirpError
  vars := decVars
  names := decNames g!"WithTwirpError"
  pre := [] ++ preOf (nodes Text.twirpError)
  rest := restOf (nodes Text.twirpError)
  kind := .errs
  config := false

theorem tmTwirpError_sound : tmTwirpError.Sound where
  parse := by krfl
  exec := fun u d hv => by
    show execNodes u ⟨_, _⟩ (nodes Text.twirpError) [] = execNodes u ⟨decVars d (decNames g!"WithTwirpError" u d), d.value⟩ (restOf (nodes Text.twirpError)) ([] ++ preOf (nodes Text.twirpError))
    rw [exec_declare u d _ (nodes Text.twirpError) g!"decorator" g!"DecoratorName" (d.name ++ g!"WithTwirpError") _ (by krfl) (by krfl) (hv _)]
    rfl
  file := fun u d n ct cs mt ms => ⟨by krfl, by krfl, by krfl, by krfl, by krfl⟩
  isMethods := by krfl
  method := fun u d n text stmts m => by
    obtain ⟨doc, cm, nm, ps, rs, re, ac⟩ := m
    cases ps <;> cases rs <;> cases re <;> cases ac <;> exact ⟨⟨fun w => by krfl, by krfl, by krfl⟩, by krfl, by krfl⟩
  errs := fun _ sc u d n m p ac c => by cases ac <;> cases c <;> exact ⟨⟨fun w => by krfl, by krfl, by krfl⟩, by krfl, by krfl, by krfl, by krfl⟩
  ctx := fun h => nomatch h
  config := fun h => nomatch h

end Gowrap.Tmpl

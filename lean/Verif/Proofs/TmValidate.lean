import Verif.Proofs.TmplVars
/-!
# The template validate
-/

namespace Gowrap.Tmpl

open Gowrap Go

set_option maxRecDepth 100000

/-- /repo/templates/validate -/
def tmValidate : Template where
  text := Text.validate
  vars := decVars
  names := decNames g!"WithValidation"
  pre := [] ++ preOf (nodes Text.validate)
  rest := restOf (nodes Text.validate)
  kind := .errs
  config := false

theorem tmValidate_sound : tmValidate.Sound where
  parse := by krfl
  exec := fun u d hv => by
    show execNodes u ⟨_, _⟩ (nodes Text.validate) [] = execNodes u ⟨decVars d (decNames g!"WithValidation" u d), d.value⟩ (restOf (nodes Text.validate)) ([] ++ preOf (nodes Text.validate))
    rw [exec_declare u d _ (nodes Text.validate) g!"decorator" g!"DecoratorName" (d.name ++ g!"WithValidation") _ (by krfl) (by krfl) (hv _)]
    rfl
  file := fun u d n ct cs mt ms => ⟨by krfl, by krfl, by krfl, by krfl, by krfl⟩
  isMethods := by krfl
  method := fun u d n text stmts m => by
    obtain ⟨doc, cm, nm, ps, rs, re, ac⟩ := m
    cases ps <;> cases rs <;> cases re <;> cases ac <;> exact ⟨⟨fun w => by krfl, by krfl, by krfl⟩, by krfl, by krfl⟩
  errs := fun _ sc u d n m p ac c => by cases ac <;> cases c <;> exact ⟨⟨fun w => by krfl, by krfl, by krfl⟩, by krfl, by krfl, by krfl, by krfl⟩
  ctx := fun h => nomatch h
  config := fun h => nomatch h

end Gowrap.Tmpl

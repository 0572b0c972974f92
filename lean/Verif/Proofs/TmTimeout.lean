import Verif.Proofs.TmplVars
/-!
# The template timeout
-/

namespace Gowrap.Tmpl

open Gowrap Go

set_option maxRecDepth 100000

/-- /repo/templates/timeout -/
def tmTimeout : Template where
  text := Text.timeout
  vars := decVars
  names := decNames g!"WithTimeout"
  pre := [] ++ preOf (nodes Text.timeout)
  rest := restOf (nodes Text.timeout)
  kind := .none
  config := true

theorem tmTimeout_sound : tmTimeout.Sound where
  parse := by krfl
  exec := fun u d hv => by
    show execNodes u ⟨_, _⟩ (nodes Text.timeout) [] = execNodes u ⟨decVars d (decNames g!"WithTimeout" u d), d.value⟩ (restOf (nodes Text.timeout)) ([] ++ preOf (nodes Text.timeout))
    rw [exec_declare u d _ (nodes Text.timeout) g!"decorator" g!"DecoratorName" (d.name ++ g!"WithTimeout") _ (by krfl) (by krfl) (hv _)]
    rfl
  file := fun u d n ct cs mt ms => ⟨by krfl, by krfl, by krfl, by krfl, by krfl⟩
  isMethods := by krfl
  method := fun u d n text stmts m => by
    obtain ⟨doc, cm, nm, ps, rs, re, ac⟩ := m
    cases ps <;> cases rs <;> cases ac <;> exact ⟨⟨fun w => by krfl, by krfl, by krfl⟩, by krfl, by krfl⟩
  errs := fun h => nomatch h
  ctx := fun h => nomatch h
  config := fun _ => ⟨by krfl, fun u d n m => by
    obtain ⟨doc, cm, nm, ps, rs, re, ac⟩ := m
    cases ps <;> cases rs <;> cases re <;> cases ac <;> exact ⟨⟨fun w => by krfl, by krfl, by krfl⟩, by krfl, by krfl⟩⟩

end Gowrap.Tmpl

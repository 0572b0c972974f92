import Verif.Proofs.TmplVars
/-!
# The template log
-/

namespace Gowrap.Tmpl

open Gowrap Go

set_option maxRecDepth 100000

/-- /repo/templates/log -/
def tmLog : Template where
  text := Text.log
  vars := decVars
  names := decNames g!"WithLog"
  pre := [] ++ preOf (nodes Text.log)
  rest := restOf (nodes Text.log)
  kind := .none
  config := false

theorem tmLog_sound : tmLog.Sound where
  parse := by krfl
  exec := fun u d hv => by
    show execNodes u ⟨_, _⟩ (nodes Text.log) [] = execNodes u ⟨decVars d (decNames g!"WithLog" u d), d.value⟩ (restOf (nodes Text.log)) ([] ++ preOf (nodes Text.log))
    rw [exec_declare u d _ (nodes Text.log) g!"decorator" g!"DecoratorName" (d.name ++ g!"WithLog") _ (by krfl) (by krfl) (hv _)]
    rfl
  file := fun u d n ct cs mt ms => ⟨by krfl, by krfl, by krfl, by krfl, by krfl⟩
  isMethods := by krfl
  method := fun u d n text stmts m => by
    obtain ⟨doc, cm, nm, ps, rs, re, ac⟩ := m
    cases ps <;> cases rs <;> cases re <;> exact ⟨⟨fun w => by krfl, by krfl, by krfl⟩, by krfl, by krfl⟩
  errs := fun h => nomatch h
  ctx := fun h => nomatch h
  config := fun h => nomatch h

end Gowrap.Tmpl

import Verif.Proofs.TmplVars
/-!
# The template logrus
-/

namespace Gowrap.Tmpl

open Gowrap Go

set_option maxRecDepth 100000

/-- /repo/templates/logrus -/
def tmLogrus : Template where
  text := Text.logrus
  vars := decVars
  names := decNames g!"WithLogrus"
  pre := [] ++ preOf (nodes Text.logrus)
  rest := restOf (nodes Text.logrus)
  kind := .none
  config := false

theorem tmLogrus_sound : tmLogrus.Sound where
  parse := by krfl
  exec := fun u d hv => by
    show execNodes u ⟨_, _⟩ (nodes Text.logrus) [] = execNodes u ⟨decVars d (decNames g!"WithLogrus" u d), d.value⟩ (restOf (nodes Text.logrus)) ([] ++ preOf (nodes Text.logrus))
    rw [exec_declare u d _ (nodes Text.logrus) g!"decorator" g!"DecoratorName" (d.name ++ g!"WithLogrus") _ (by krfl) (by krfl) (hv _)]
    rfl
  file := fun u d n ct cs mt ms => ⟨by krfl, by krfl, by krfl, by krfl, by krfl⟩
  isMethods := by krfl
  method := fun u d n text stmts m => by
    obtain ⟨doc, cm, nm, ps, rs, re, ac⟩ := m
    cases ps <;> cases rs <;> cases re <;> exact ⟨⟨fun w => by krfl, by krfl, by krfl⟩, by krfl, by krfl⟩
  errs := fun h => nomatch h
  ctx := fun h => nomatch h
  config := fun h => nomatch h

end Gowrap.Tmpl

import Verif.Proofs.TmplVars
/-!
# The template opencensus
-/

namespace Gowrap.Tmpl

open Gowrap Go

set_option maxRecDepth 100000

/-- /repo/templates/opencensus -/
def tmOpencensus : Template where
  text := Text.opencensus
  vars := decVars
  names := decNames g!"WithTracing"
  pre := [] ++ preOf (nodes Text.opencensus)
  rest := restOf (nodes Text.opencensus)
  kind := .none
  config := false

theorem tmOpencensus_sound : tmOpencensus.Sound where
  parse := by krfl
  exec := fun u d hv => by
    show execNodes u ⟨_, _⟩ (nodes Text.opencensus) [] = execNodes u ⟨decVars d (decNames g!"WithTracing" u d), d.value⟩ (restOf (nodes Text.opencensus)) ([] ++ preOf (nodes Text.opencensus))
    rw [exec_declare u d _ (nodes Text.opencensus) g!"decorator" g!"DecoratorName" (d.name ++ g!"WithTracing") _ (by krfl) (by krfl) (hv _)]
    rfl
  file := fun u d n ct cs mt ms => ⟨by krfl, by krfl, by krfl, by krfl, by krfl⟩
  isMethods := by krfl
  method := fun u d n text stmts m => by
    obtain ⟨doc, cm, nm, ps, rs, re, ac⟩ := m
    cases ps <;> cases rs <;> cases re <;> cases ac <;> exact ⟨⟨fun w => by krfl, by krfl, by krfl⟩, by krfl, by krfl⟩
  errs := fun h => nomatch h
  ctx := fun h => nomatch h
  config := fun h => nomatch h

end Gowrap.Tmpl

import Verif.Proofs.TmplVars
/-!
# The template robinpool
-/

namespace Gowrap.Tmpl

open Gowrap Go

set_option maxRecDepth 100000

/-- /repo/templates/robinpool -/
def tmRobinpool : Template where
  text := Text.robinpool
  vars := decVars
  names := decNames g!"RoundRobinPool"
  pre := [] ++ preOf (nodes Text.robinpool)
  rest := restOf (nodes Text.robinpool)
  kind := .none
  config := false

theorem tmRobinpool_sound : tmRobinpool.Sound where
  parse := by krfl
  exec := fun u d hv => by
    show execNodes u ⟨_, _⟩ (nodes Text.robinpool) [] = execNodes u ⟨decVars d (decNames g!"RoundRobinPool" u d), d.value⟩ (restOf (nodes Text.robinpool)) ([] ++ preOf (nodes Text.robinpool))
    rw [exec_declare u d _ (nodes Text.robinpool) g!"decorator" g!"DecoratorName" (d.name ++ g!"RoundRobinPool") _ (by krfl) (by krfl) (hv _)]
    rfl
  file := fun u d n ct cs mt ms => ⟨by krfl, by krfl, by krfl, by krfl, by krfl⟩
  isMethods := by krfl
  method := fun u d n text stmts m => by
    obtain ⟨doc, cm, nm, ps, rs, re, ac⟩ := m
    cases ps <;> cases rs <;> exact ⟨⟨fun w => by krfl, by krfl, by krfl⟩, by krfl, by krfl⟩
  errs := fun h => nomatch h
  ctx := fun h => nomatch h
  config := fun h => nomatch h

end Gowrap.Tmpl

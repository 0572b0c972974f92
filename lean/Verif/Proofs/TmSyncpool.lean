import Verif.Proofs.TmplVars
/-!
# The template syncpool
-/

namespace Gowrap.Tmpl

open Gowrap Go

set_option maxRecDepth 100000

/-- /repo/templates/syncpool -/
def tmSyncpool : Template where
  text := Text.syncpool
  vars := decVars
  names := decNames g!"Pool"
  pre := [] ++ preOf (nodes Text.syncpool)
  rest := restOf (nodes Text.syncpool)
  kind := .none
  config := false

theorem tmSyncpool_sound : tmSyncpool.Sound where
  parse := by krfl
  exec := fun u d hv => by
    show execNodes u ⟨_, _⟩ (nodes Text.syncpool) [] = execNodes u ⟨decVars d (decNames g!"Pool" u d), d.value⟩ (restOf (nodes Text.syncpool)) ([] ++ preOf (nodes Text.syncpool))
    rw [exec_declare u d _ (nodes Text.syncpool) g!"decorator" g!"DecoratorName" (d.name ++ g!"Pool") _ (by krfl) (by krfl) (hv _)]
    rfl
  file := fun u d n ct cs mt ms => ⟨by krfl, by krfl, by krfl, by krfl, by krfl⟩
  isMethods := by krfl
  method := fun u d n text stmts m => by
    obtain ⟨doc, cm, nm, ps, rs, re, ac⟩ := m
    cases ps <;> cases rs <;> exact ⟨⟨fun w => by krfl, by krfl, by krfl⟩, by krfl, by krfl⟩
  errs := fun h => nomatch h
  ctx := fun h => nomatch h
  config := fun h => nomatch h

end Gowrap.Tmpl

import Verif.Proofs.TmplVars
/-!
# The template grpcValidate
-/

namespace Gowrap.Tmpl

open Gowrap Go

set_option maxRecDepth 100000

/-- /repo/templates/grpc_validate -/
def tmGrpcValidate : Template where
  text := Text.grpcValidate
  vars := decVars
  names := decNames g!"WithGRPCValidation"
  pre := [] ++ preOf (nodes Text.grpcValidate)
  rest := restOf (nodes Text.grpcValidate)
  kind := .errs
  config := false

theorem tmGrpcValidate_sound : tmGrpcValidate.Sound where
  parse := by krfl
  exec := fun u d hv => by
    show execNodes u ⟨_, _⟩ (nodes Text.grpcValidate) [] = execNodes u ⟨decVars d (decNames g!"WithGRPCValidation" u d), d.value⟩ (restOf (nodes Text.grpcValidate)) ([] ++ preOf (nodes Text.grpcValidate))
    rw [exec_declare u d _ (nodes Text.grpcValidate) g!"decorator" g!"DecoratorName" (d.name ++ g!"WithGRPCValidation") _ (by krfl) (by krfl) (hv _)]
    rfl
  file := fun u d n ct cs mt ms => ⟨by krfl, by krfl, by krfl, by krfl, by krfl⟩
  isMethods := by krfl
  method := fun u d n text stmts m => by
    obtain ⟨doc, cm, nm, ps, rs, re, ac⟩ := m
    cases ps <;> cases rs <;> cases re <;> cases ac <;> exact ⟨⟨fun w => by krfl, by krfl, by krfl⟩, by krfl, by krfl⟩
  errs := fun _ sc u d n m p ac c => by cases ac <;> cases c <;> exact ⟨⟨fun w => by krfl, by krfl, by krfl⟩, by krfl, by krfl, by krfl, by krfl⟩
  ctx := fun h => nomatch h
  config := fun h => nomatch h

end Gowrap.Tmpl

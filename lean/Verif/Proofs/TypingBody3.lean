import Verif.Proofs.TypingBody2
namespace Gowrap.Tmpl
open Gowrap Go Spec
set_option maxRecDepth 100000
set_option linter.unusedSimpArgs false
set_option linter.unusedVariables false

variable {F : FileTypes} {Γ : Ctx} {D : Typ} {m : Method}
theorem validate_typed (iface : Str) (h : BodyOk F Γ D m) (hn : Unused [g!"_v", g!"_ok", g!"error"] (allNames m)) (hv : Knows Γ [(g!"nil", .value (.untyped .nil)), (g!"error", .type .error)])
    (hf : Has F D [(iface, .src F.iface)]) :
    stmtsTyped F Γ (validateStmts [.ret []] iface m) := by
  have hp := h.params
  have hr := h.results
  have he := h.err
  have hctx := h.ctx
  have hd := h.recv
  have hc := h.call
  have ha := h.apart hn
  have hb := h.fresh hn (by decide)
  have hres := h.returns
  have hnd := h.keys
  have hbare := h.bare
  have hf := hf.members
  have hpass := fun (Γ' : Ctx) a b => pass_typed (recv := (fieldE iface)) h (Γ' := Γ') a b
  simp [Knows] at hf ha hb hv
  have hms : ∃ ms, ms = Stmt.many (m.params.flatMap (validateLoop [.ret []] m)) ∧ (∀ Γ' : Ctx, Ctx.after F Γ' ms = Γ') ∧
      ∀ Γ' : Ctx, (∀ p ∈ m.params, stmtsTyped F Γ' (validateLoop [.ret []] m p)) → ms.Typed F Γ' :=
    ⟨_, rfl, typed_loop fun Γ' p => by unfold validateLoop; cases Param.isCtx p <;> cases m.acceptsContext <;> rfl⟩
  obtain ⟨ms, hms, haf, hloop⟩ := hms
  unfold validateStmts
  simp only [← hms]
  generalize passStmts (fieldE iface) m = ps at *
  cases h1 : m.returnsError <;> simp [h1] at he hctx ⊢ <;>
    try typing [hv, hf, hb, hres, hbare, hd, hc, hp, hr, he, hctx, hnd, ha, h1, typsOf_ids, typed_ids, elems_ids, map_typed1, error_members, cancel_assignable, haf]
  all_goals (repeat' with_reducible apply And.intro) <;> (first
    | refine hpass _ ?_ ?_ ?_ ?_
    | (refine hloop _ fun p hq => ?_
       have hpn := hp p hq
       have han := ha.1 p hq
       unfold validateLoop
       cases Param.isCtx p <;> cases m.acceptsContext <;> typing [hpn, han, hf, hb, hres, hbare, hd, hc, hr, he, hv, error_members, convertible_any, validate_members, twirp_error, validateS, validateT, grpcInvalidStmts, twirpInvalidStmts, invalidStmts])) <;> typing [hf, hb, hres, hbare, hd, hc, hp, ha, haf, h1]

theorem grpcValidate_typed (iface : Str) (h : BodyOk F Γ D m) (hn : Unused [g!"_v", g!"_ok", g!"error", g!"grpc_status", g!"grpc_codes"] (allNames m)) (hv : Knows Γ [(g!"nil", .value (.untyped .nil)), (g!"error", .type .error), (g!"grpc_status", .pkg Lib.statusP), (g!"grpc_codes", .pkg Lib.codesP)])
    (hf : Has F D [(iface, .src F.iface)]) :
    stmtsTyped F Γ (validateStmts grpcInvalidStmts iface m) := by
  have hp := h.params
  have hr := h.results
  have he := h.err
  have hctx := h.ctx
  have hd := h.recv
  have hc := h.call
  have ha := h.apart hn
  have hb := h.fresh hn (by decide)
  have hres := h.returns
  have hnd := h.keys
  have hbare := h.bare
  have hf := hf.members
  have hpass := fun (Γ' : Ctx) a b => pass_typed (recv := (fieldE iface)) h (Γ' := Γ') a b
  simp [Knows] at hf ha hb hv
  have hms : ∃ ms, ms = Stmt.many (m.params.flatMap (validateLoop grpcInvalidStmts m)) ∧ (∀ Γ' : Ctx, Ctx.after F Γ' ms = Γ') ∧
      ∀ Γ' : Ctx, (∀ p ∈ m.params, stmtsTyped F Γ' (validateLoop grpcInvalidStmts m p)) → ms.Typed F Γ' :=
    ⟨_, rfl, typed_loop fun Γ' p => by unfold validateLoop; cases Param.isCtx p <;> cases m.acceptsContext <;> rfl⟩
  obtain ⟨ms, hms, haf, hloop⟩ := hms
  unfold validateStmts
  simp only [← hms]
  generalize passStmts (fieldE iface) m = ps at *
  cases h1 : m.returnsError <;> simp [h1] at he hctx ⊢ <;>
    try typing [hv, hf, hb, hres, hbare, hd, hc, hp, hr, he, hctx, hnd, ha, h1, typsOf_ids, typed_ids, elems_ids, map_typed1, error_members, cancel_assignable, haf]
  all_goals (repeat' with_reducible apply And.intro) <;> (first
    | refine hpass _ ?_ ?_ ?_ ?_
    | (refine hloop _ fun p hq => ?_
       have hpn := hp p hq
       have han := ha.1 p hq
       unfold validateLoop
       cases Param.isCtx p <;> cases m.acceptsContext <;> typing [hpn, han, hf, hb, hres, hbare, hd, hc, hr, he, hv, error_members, convertible_any, validate_members, twirp_error, validateS, validateT, grpcInvalidStmts, twirpInvalidStmts, invalidStmts])) <;> typing [hf, hb, hres, hbare, hd, hc, hp, ha, haf, h1]

theorem twirpValidate_typed (iface : Str) (h : BodyOk F Γ D m) (hn : Unused [g!"_v", g!"_ok", g!"error", g!"twirp"] (allNames m)) (hv : Knows Γ [(g!"nil", .value (.untyped .nil)), (g!"error", .type .error), (g!"twirp", .pkg Lib.twirpP)])
    (hf : Has F D [(iface, .src F.iface)]) :
    stmtsTyped F Γ (validateStmts twirpInvalidStmts iface m) := by
  have hp := h.params
  have hr := h.results
  have he := h.err
  have hctx := h.ctx
  have hd := h.recv
  have hc := h.call
  have ha := h.apart hn
  have hb := h.fresh hn (by decide)
  have hres := h.returns
  have hnd := h.keys
  have hbare := h.bare
  have hf := hf.members
  have hpass := fun (Γ' : Ctx) a b => pass_typed (recv := (fieldE iface)) h (Γ' := Γ') a b
  simp [Knows] at hf ha hb hv
  have hms : ∃ ms, ms = Stmt.many (m.params.flatMap (validateLoop twirpInvalidStmts m)) ∧ (∀ Γ' : Ctx, Ctx.after F Γ' ms = Γ') ∧
      ∀ Γ' : Ctx, (∀ p ∈ m.params, stmtsTyped F Γ' (validateLoop twirpInvalidStmts m p)) → ms.Typed F Γ' :=
    ⟨_, rfl, typed_loop fun Γ' p => by unfold validateLoop; cases Param.isCtx p <;> cases m.acceptsContext <;> rfl⟩
  obtain ⟨ms, hms, haf, hloop⟩ := hms
  unfold validateStmts
  simp only [← hms]
  generalize passStmts (fieldE iface) m = ps at *
  cases h1 : m.returnsError <;> simp [h1] at he hctx ⊢ <;>
    try typing [hv, hf, hb, hres, hbare, hd, hc, hp, hr, he, hctx, hnd, ha, h1, typsOf_ids, typed_ids, elems_ids, map_typed1, error_members, cancel_assignable, haf]
  all_goals (repeat' with_reducible apply And.intro) <;> (first
    | refine hpass _ ?_ ?_ ?_ ?_
    | (refine hloop _ fun p hq => ?_
       have hpn := hp p hq
       have han := ha.1 p hq
       unfold validateLoop
       cases Param.isCtx p <;> cases m.acceptsContext <;> typing [hpn, han, hf, hb, hres, hbare, hd, hc, hr, he, hv, error_members, convertible_any, validate_members, twirp_error, validateS, validateT, grpcInvalidStmts, twirpInvalidStmts, invalidStmts])) <;> typing [hf, hb, hres, hbare, hd, hc, hp, ha, haf, h1]

theorem twirpError_typed (iface : Str) (h : BodyOk F Γ D m) (hn : Unused [g!"injectRequestDataToError"] (allNames m)) (hv : Knows Γ [(g!"nil", .value (.untyped .nil))])
    (hf : Has F D [(iface, .src F.iface)]) (hi : Γ.see g!"injectRequestDataToError" = some (.value (.func [.any, .ptr .error] none []))) :
    stmtsTyped F Γ (twirpErrorStmts iface m) := by
  have hp := h.params
  have hr := h.results
  have he := h.err
  have hctx := h.ctx
  have hd := h.recv
  have hc := h.call
  have ha := h.apart hn
  have hb := h.fresh hn (by decide)
  have hres := h.returns
  have hnd := h.keys
  have hbare := h.bare
  have hf := hf.members
  have hpass := fun (Γ' : Ctx) a b => pass_typed (recv := (fieldE iface)) h (Γ' := Γ') a b
  simp [Knows] at hf ha hb hv
  have hms : ∃ ms, ms = Stmt.many (m.params.flatMap (injectLoop m)) ∧ (∀ Γ' : Ctx, Ctx.after F Γ' ms = Γ') ∧
      ∀ Γ' : Ctx, (∀ p ∈ m.params, stmtsTyped F Γ' (injectLoop m p)) → ms.Typed F Γ' :=
    ⟨_, rfl, typed_loop fun Γ' p => by unfold injectLoop; cases Param.isCtx p <;> cases m.acceptsContext <;> rfl⟩
  obtain ⟨ms, hms, haf, hloop⟩ := hms
  unfold twirpErrorStmts
  simp only [← hms]
  generalize passStmts (fieldE iface) m = ps at *
  cases h1 : m.returnsError <;> simp [h1] at he hctx ⊢ <;>
    try typing [hv, hf, hb, hres, hbare, hd, hc, hp, hr, he, hctx, hnd, ha, h1, typsOf_ids, typed_ids, elems_ids, map_typed1, error_members, cancel_assignable, haf]
  all_goals (repeat' with_reducible apply And.intro) <;> (first
    | refine hpass _ ?_ ?_ ?_ ?_
    | (refine hloop _ fun p hq => ?_
       have hpn := hp p hq
       have han := ha.1 p hq
       unfold injectLoop
       cases Param.isCtx p <;> cases m.acceptsContext <;> typing [hpn, han, hf, hb, hres, hbare, hd, hc, hr, he, hv, error_members, convertible_any, validate_members, twirp_error, injectS, hi])) <;> typing [hf, hb, hres, hbare, hd, hc, hp, ha, haf, h1]

end Gowrap.Tmpl

import Verif.Proofs.TypingBody
namespace Gowrap.Tmpl
open Gowrap Go Spec
set_option maxRecDepth 100000
set_option linter.unusedSimpArgs false
set_option linter.unusedVariables false

variable {F : FileTypes} {Γ : Ctx} {D : Typ} {m : Method}
theorem retry_typed (iface : Str) (h : BodyOk F Γ D m) (hn : Unused [g!"time", g!"_ticker", g!"_i"] (allNames m)) (hv : Knows Γ [(g!"nil", .value (.untyped .nil)), (g!"time", .pkg g!"time")])
    (hf : Has F D [(iface, .src F.iface), (g!"_retryCount", .int), (g!"_retryInterval", Lib.duration)]) (hre : m.returnsError = true) :
    stmtsTyped F Γ (retryStmts iface m) := by
  have hp := h.params
  have hr := h.results
  have he := h.err
  have hctx := h.ctx
  have hd := h.recv
  have hc := h.call
  have ha := h.apart hn
  have hb := h.fresh hn (by decide)
  have hres := h.returns
  have hnd := h.keys
  have hbare := h.bare
  have hf := hf.members
  simp [Knows] at hf ha hb hv
  simp [hre] at he
  have hcs : ∃ cs, cs = Stmt.assign [.many (idExprs m.results)] [callExpr (fieldE iface) m] ∧ ∀ Γ' : Ctx, Ctx.after F Γ' cs = Γ' := ⟨_, rfl, fun _ => rfl⟩
  obtain ⟨cs, hcs, haf⟩ := hcs
  have hcall := fun (Γ' : Ctx) a b c d => hcs ▸ assign_call (recv := fieldE iface) h (Γ' := Γ') a b c d
  unfold retryStmts callS moreE waitS
  simp only [← hcs]
  cases h1 : m.acceptsContext <;> simp [h1] at he hctx ⊢ <;>
    typing [hv, hf, hb, hres, hbare, hd, hc, hp, hr, he, hctx, hnd, ha, h1, typsOf_ids, typed_ids, elems_ids, map_typed1, error_members, cancel_assignable, haf]
  all_goals (repeat' with_reducible apply And.intro) <;> refine hcall _ ?_ ?_ ?_ ?_ <;> typing [hf, hb, hres, hbare, hd, hc, hp, hr, he, hctx, hv, ha, haf, h1]

theorem rateLimit_typed (h : BodyOk F Γ D m) (hn : Unused [] (allNames m)) (hv : Knows Γ [(g!"nil", .value (.untyped .nil))])
    (hf : Has F D [(g!"_base", .src F.iface), (g!"_ticks", .chan Lib.timeT)]) :
    stmtsTyped F Γ (rateLimitStmts m) := by
  have hp := h.params
  have hr := h.results
  have he := h.err
  have hctx := h.ctx
  have hd := h.recv
  have hc := h.call
  have ha := h.apart hn
  have hb := h.fresh hn (by decide)
  have hres := h.returns
  have hnd := h.keys
  have hbare := h.bare
  have hf := hf.members
  have hpass := fun (Γ' : Ctx) a b => pass_typed (recv := (fieldE g!"_base")) h (Γ' := Γ') a b
  simp [Knows] at hf ha hb hv
  unfold rateLimitStmts
  generalize passStmts (fieldE g!"_base") m = ps at *
  cases h1 : m.acceptsContext <;> cases h2 : m.returnsError <;> simp [h1, h2] at he hctx ⊢ <;>
    typing [hv, hf, hb, hres, hbare, hd, hc, hp, hr, he, hctx, hnd, ha, h1, h2, typsOf_ids, typed_ids, elems_ids, map_typed1, error_members, cancel_assignable]
  all_goals (repeat' with_reducible apply And.intro) <;> refine hpass _ ?_ ?_ ?_ ?_ <;> typing [hf, hb, hres, hbare, hd, hc, hp, ha, h1, h2]

theorem robinPool_typed (h : BodyOk F Γ D m) (hn : Unused [g!"_counter"] (allNames m)) (hv : Knows Γ [(g!"atomic", .pkg g!"sync/atomic")])
    (hf : Has F D [(g!"pool", .slice (.src F.iface)), (g!"counter", .uint32), (g!"poolSize", .uint32)]) :
    stmtsTyped F Γ (robinPoolStmts m) := by
  have hp := h.params
  have hr := h.results
  have he := h.err
  have hctx := h.ctx
  have hd := h.recv
  have hc := h.call
  have ha := h.apart hn
  have hb := h.fresh hn (by decide)
  have hres := h.returns
  have hnd := h.keys
  have hbare := h.bare
  have hf := hf.members
  have hpass := fun (Γ' : Ctx) a b => pass_typed (recv := poolE) h (Γ' := Γ') a b
  simp [Knows] at hf ha hb hv
  unfold robinPoolStmts
  generalize passStmts poolE m = ps at *
  typing [hv, hf, hb, hres, hbare, hd, hc, hp, hr, he, hctx, hnd, ha, typsOf_ids, typed_ids, elems_ids, map_typed1, error_members, cancel_assignable, poolE]
  all_goals (repeat' with_reducible apply And.intro) <;> refine hpass _ ?_ ?_ ?_ ?_ <;> typing [hf, hb, hres, hbare, hd, hc, hp, ha, poolE]

theorem syncPool_typed (h : BodyOk F Γ D m) (hn : Unused [g!"_impl"] (allNames m)) (hv : Knows Γ [])
    (hf : Has F D [(g!"pool", .chan (.src F.iface))]) :
    stmtsTyped F Γ (syncPoolStmts m) := by
  have hp := h.params
  have hr := h.results
  have he := h.err
  have hctx := h.ctx
  have hd := h.recv
  have hc := h.call
  have ha := h.apart hn
  have hb := h.fresh hn (by decide)
  have hres := h.returns
  have hnd := h.keys
  have hbare := h.bare
  have hf := hf.members
  have hpass := fun (Γ' : Ctx) a b => pass_typed (recv := (.id g!"_impl")) h (Γ' := Γ') a b
  simp [Knows] at hf ha hb hv
  unfold syncPoolStmts
  generalize passStmts (.id g!"_impl") m = ps at *
  typing [hv, hf, hb, hres, hbare, hd, hc, hp, hr, he, hctx, hnd, ha, typsOf_ids, typed_ids, elems_ids, map_typed1, error_members, cancel_assignable]
  all_goals (repeat' with_reducible apply And.intro) <;> refine hpass _ ?_ ?_ ?_ ?_ <;> typing [hf, hb, hres, hbare, hd, hc, hp, ha]

theorem typed_loop {f : Param → List Stmt} {ps : List Param} (ha : ∀ Γ' p, Ctx.afterAll F Γ' (f p) = Γ') :
    (∀ Γ', Ctx.after F Γ' (.many (ps.flatMap f)) = Γ') ∧ ∀ Γ', (∀ p ∈ ps, stmtsTyped F Γ' (f p)) → (Stmt.many (ps.flatMap f)).Typed F Γ' := by
  have happ : ∀ (a b : List Stmt) (Γ' : Ctx), Ctx.afterAll F Γ' (a ++ b) = Ctx.afterAll F (Ctx.afterAll F Γ' a) b := by
    intro a
    induction a with
    | nil => intros; rfl
    | cons s a ih => intro b Γ'; exact ih b _
  have htyp : ∀ (a b : List Stmt) (Γ' : Ctx), stmtsTyped F Γ' a → stmtsTyped F (Ctx.afterAll F Γ' a) b → stmtsTyped F Γ' (a ++ b) := by
    intro a
    induction a with
    | nil => intro b Γ' _ h; exact h
    | cons s a ih => intro b Γ' h1 h2; exact ⟨h1.1, ih b _ h1.2 h2⟩
  refine ⟨fun Γ' => ?_, fun Γ' h => ?_⟩
  · show Ctx.afterAll F Γ' (ps.flatMap f) = Γ'
    induction ps with
    | nil => rfl
    | cons p ps ih => rw [List.flatMap_cons, happ, ha, ih]
  · show stmtsTyped F Γ' (ps.flatMap f)
    induction ps with
    | nil => exact trivial
    | cons p ps ih =>
      rw [List.flatMap_cons]
      refine htyp _ _ _ (h p (.head _)) ?_
      rw [ha]
      exact ih fun q hq => h q (.tail _ hq)

theorem apm_typed (u : Uni) (comp : Str) (h : BodyOk F Γ D m) (hn : Unused [g!"span"] (allNames m)) (hv : Knows Γ [(g!"nil", .value (.untyped .nil))])
    (hf : Has F D [(g!"base", .src F.iface), (g!"startSpan", .func [Lib.ctx, .string, .string] none [.ptr (.lib Lib.apmP g!"Span"), Lib.ctx]), (g!"endSpan", .func [.ptr (.lib Lib.apmP g!"Span")] none []), (g!"setLabel", .func [.ptr (.lib Lib.apmP g!"Span"), .string, .any] none []), (g!"captureError", .func [Lib.ctx, .error] none []), (g!"spanType", .string)]) (hac : m.acceptsContext = true) :
    stmtsTyped F Γ (apmStmts u comp m) := by
  have hp := h.params
  have hr := h.results
  have he := h.err
  have hctx := h.ctx
  have hd := h.recv
  have hc := h.call
  have ha := h.apart hn
  have hb := h.fresh hn (by decide)
  have hres := h.returns
  have hnd := h.keys
  have hbare := h.bare
  have hf := hf.members
  have hpass := fun (Γ' : Ctx) a b => pass_typed (recv := (fieldE g!"base")) h (Γ' := Γ') a b
  simp [Knows] at hf ha hb hv
  simp [hac] at hctx
  have hms : ∃ ms, ms = Stmt.many (m.params.flatMap (apmLabels u)) ∧ (∀ Γ' : Ctx, Ctx.after F Γ' ms = Γ') ∧
      ∀ Γ' : Ctx, (∀ p ∈ m.params, stmtsTyped F Γ' (apmLabels u p)) → ms.Typed F Γ' :=
    ⟨_, rfl, typed_loop fun Γ' p => by unfold apmLabels; cases Param.isCtx p <;> cases m.acceptsContext <;> rfl⟩
  obtain ⟨ms, hms, haf, hloop⟩ := hms
  unfold apmStmts apmAfter
  simp only [← hms]
  generalize passStmts (fieldE g!"base") m = ps at *
  cases h1 : m.returnsError <;> simp [h1] at he hctx ⊢ <;>
    try typing [hv, hf, hb, hres, hbare, hd, hc, hp, hr, he, hctx, hnd, ha, h1, typsOf_ids, typed_ids, elems_ids, map_typed1, error_members, cancel_assignable, haf]
  all_goals (repeat' with_reducible apply And.intro) <;> (first
    | refine hpass _ ?_ ?_ ?_ ?_
    | (refine hloop _ fun p hq => ?_
       have hpn := hp p hq
       have han := ha.1 p hq
       unfold apmLabels
       cases Param.isCtx p <;> cases m.acceptsContext <;> typing [hpn, han, hf, hb, hres, hbare, hd, hc, hr, he, hv, error_members, convertible_any, validate_members, twirp_error, apmLabel])) <;> typing [hf, hb, hres, hbare, hd, hc, hp, ha, haf, h1]

end Gowrap.Tmpl

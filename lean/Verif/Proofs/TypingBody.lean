import Verif.Proofs.TypingLib
import Verif.Proofs.ScopeFile
/-!
# The bodies of the generated methods obey the rules about types
-/

namespace Gowrap.Tmpl

open Gowrap Go Spec

set_option maxRecDepth 100000
set_option linter.unusedSimpArgs false
set_option linter.unusedVariables false

theorem resultTyp_one (t : Typ) : resultTyp [t] = t := rfl

theorem resultTyp_none : resultTyp [] = .tuple [] := rfl

theorem resultTyp_two (s t : Typ) (ts : List Typ) : resultTyp (s :: t :: ts) = .tuple (s :: t :: ts) := rfl

theorem single_typs : (∀ x, (Typ.basic x).single = true) ∧ (∀ p x, (Typ.lib p x).single = true) ∧ (∀ x, (Typ.decl x).single = true) ∧ (∀ x u, (Typ.inner x u).single = true) ∧
    (∀ l, (Typ.src l).single = true) ∧ (∀ t, (Typ.ptr t).single = true) ∧ (∀ t, (Typ.slice t).single = true) ∧ (∀ k t, (Typ.map k t).single = true) ∧
    (∀ t, (Typ.chan t).single = true) ∧ (∀ t, (Typ.recv t).single = true) ∧ (∀ a b c, (Typ.func a b c).single = true) ∧ (∀ l, (Typ.struct l).single = true) ∧
    (∀ l, (Typ.iface l).single = true) :=
  ⟨fun _ => rfl, fun _ _ => rfl, fun _ => rfl, fun _ _ => rfl, fun _ => rfl, fun _ => rfl, fun _ => rfl, fun _ _ => rfl, fun _ => rfl, fun _ => rfl, fun _ _ _ => rfl, fun _ => rfl, fun _ => rfl⟩

theorem default_typs : (∀ x, (Typ.basic x).default = .basic x) ∧ (∀ p x, (Typ.lib p x).default = .lib p x) ∧ (∀ x, (Typ.decl x).default = .decl x) ∧
    (∀ x u, (Typ.inner x u).default = .inner x u) ∧
    (∀ l, (Typ.src l).default = .src l) ∧ (∀ t, (Typ.ptr t).default = .ptr t) ∧ (∀ t, (Typ.slice t).default = .slice t) ∧ (∀ k t, (Typ.map k t).default = .map k t) ∧
    (∀ t, (Typ.chan t).default = .chan t) ∧ (∀ t, (Typ.recv t).default = .recv t) ∧ (∀ a b c, (Typ.func a b c).default = .func a b c) ∧ (∀ l, (Typ.struct l).default = .struct l) ∧
    (∀ l, (Typ.iface l).default = .iface l) ∧ (Typ.untyped .int).default = .int ∧ (Typ.untyped .float).default = .float64 ∧ (Typ.untyped .string).default = .string ∧
    (Typ.untyped .bool).default = .bool ∧ ∀ ts, (Typ.tuple ts).default = .tuple ts :=
  ⟨fun _ => rfl, fun _ _ => rfl, fun _ => rfl, fun _ _ => rfl, fun _ => rfl, fun _ => rfl, fun _ => rfl, fun _ _ => rfl, fun _ => rfl, fun _ => rfl, fun _ _ _ => rfl, fun _ => rfl, fun _ => rfl, rfl, rfl, rfl, rfl,
    fun _ => rfl⟩

theorem nilable_typs : (∀ t, (Typ.ptr t).nilable = true) ∧ (∀ t, (Typ.slice t).nilable = true) ∧ (∀ k t, (Typ.map k t).nilable = true) ∧
    (∀ t, (Typ.chan t).nilable = true) ∧ (∀ a b c, (Typ.func a b c).nilable = true) ∧ (∀ l, (Typ.iface l).nilable = true) :=
  ⟨fun _ => rfl, fun _ => rfl, fun _ _ => rfl, fun _ => rfl, fun _ _ _ => rfl, fun _ => rfl⟩

theorem exists_two {α β : Type} {a : α} {b : β} {P : α → β → Prop} : (∃ e n, (a = e ∧ b = n) ∧ P e n) ↔ P a b :=
  ⟨fun ⟨_, _, ⟨h1, h2⟩, h⟩ => h1 ▸ h2 ▸ h, fun h => ⟨_, _, ⟨rfl, rfl⟩, h⟩⟩

macro "typing" "[" l:Lean.Parser.Tactic.simpLemma,* "]" : tactic =>
  `(tactic| simp (maxSteps := 1000000) +contextual [stmtsTyped, Stmt.Typed, Expr.Typed, Expr.CalleeTyped, allTyped, Expr.TargetTyped, targetsTyped, clausesTyped, Ctx.after, Ctx.afterAll, Ctx.enter, Ctx.inBlock,
      Ctx.add, Ctx.addVars, newVars, Defines, AllStore, Expr.Stores, Expr.addressable, Expr.isLit, Expr.isStmt, Expr.isCall, Callee.isStmt, rightTyps, typsOf, Expr.typ, Expr.callee, callTyp, builtinTyp,
      Ctx.typ, Ctx.callee, Ctx.selected, Ctx.selectedCallee, Ctx.Selects, Ctx.SelectsCallee, CallOk, BuiltinArgs, Accepts, AllAssignable, LitOk, FieldElem, PlainElems, SliceElem, MapElem, Elem.fieldNames,
      Elem.constants, elemsOf, Expr.elems, UnaryOk, BinaryOk, IsInterface, unaryTyp, pointee, received, indexed, isComparison, numTyp, resultTyp_one, resultTyp_none, resultTyp_two, exists_two, idNames, Expr.idNames,
      rangeTyps, flatExprs, Results.typs, Results.named, Results.Typed, groupTyps, groupVars, groupsTyped, fixedTyps, dotsTyp, Ty.dotsTyp, Ty.typ, Ty.Typed, methodTyps, methodsTyped, boundNames, Group.names,
      assignable_refl, assignable_any, assignable_untyped, varTyp_single, varTyp_default, single_typs, default_typs, nilable_typs, Typ.holds, Typ.Comparable, Typ.Match, Typ.joined, Typ.under, Typ.isNumeric, Typ.isInteger, Typ.any, Typ.fn, Typ.string, Typ.int, Typ.bool, Typ.float64, Typ.uint32, Typ.error, errorMethods,
      lib_values, lib_notTypes, lib_types, lib_under, lib_members, lib_has, lib_fields, Lib.hidden, Lib.ctx, Lib.duration, Lib.timeT, Lib.done,
      callE, dotE, fieldE, deferS, notNilE, anyList, errMsg, $l,*])

variable {F : FileTypes} {Γ : Ctx} {D : Typ} {m : Method}

theorem BodyOk.apart (h : BodyOk F Γ D m) {l : List Str} (hn : Unused l (allNames m)) :
    (∀ p ∈ m.params, ∀ x ∈ l, ¬ p.name = x) ∧ ∀ p ∈ m.results, ∀ x ∈ l, ¬ p.name = x := by
  refine ⟨fun p hp x hx e => hn x hx (e ▸ ?_), fun p hp x hx e => hn x hx (e ▸ ?_)⟩
  · exact List.mem_append_left _ (List.mem_map.mpr ⟨p, hp, rfl⟩)
  · exact List.mem_append_right _ (List.mem_map.mpr ⟨p, hp, rfl⟩)

theorem BodyOk.fresh (h : BodyOk F Γ D m) {l : List Str} (hn : Unused l (allNames m)) (hd : g!"_d" ∉ l) : ∀ x ∈ l, x ∉ Γ.block := by
  intro x hx hb
  rcases h.block x hb with rfl | hb
  · exact hd hx
  · exact hn x hx hb

/-- What names stand for. -/
def Knows (Γ : Ctx) (l : List (Str × Entity)) : Prop := ∀ e ∈ l, Γ.see e.1 = some e.2

theorem BodyOk.keys (h : BodyOk F Γ D m) : (m.params.map (·.name)).Nodup ∧ (m.results.map (·.name)).Nodup :=
  ⟨(List.nodup_append.mp h.distinct).1, (List.nodup_append.mp h.distinct).2.1⟩

theorem convertible_fields : (Typ.map (.basic g!"string") (.iface [])).Convertible F (.lib Lib.logrusP g!"Fields") := by
  refine .inl ⟨rfl, .inr (.inl ⟨?_, ?_, rfl⟩)⟩
  · exact nofun
  · rw [lib_under.2.2.2.2.2.2.2.2.1]
    rfl

theorem error_members : (∀ a, Typ.HasMember F (.basic g!"error") g!"Error" a) ∧ Typ.member F (.basic g!"error") g!"Error" = .func [] none [.basic g!"string"] :=
  ⟨fun _ => (nofun : false = true → _), rfl⟩

theorem cancel_assignable : Typ.Assignable F (.lib g!"context" g!"CancelFunc") (.func [] none []) :=
  ⟨rfl, .inr (.inl ⟨nofun, rfl, rfl⟩)⟩

theorem typed_targets (ps : List Param) : targetsTyped F Γ (idExprs ps) := by
  unfold idExprs
  induction ps with
  | nil => exact trivial
  | cons p ps ih => exact ⟨trivial, ih⟩

theorem store_ids {ps : List Param} (h : ∀ p ∈ ps, Γ.see p.name = some (.var (varTyp p)) ∧ p.name ≠ g!"_") : AllStore F Γ (idExprs ps) (ps.map varTyp) := by
  unfold idExprs
  induction ps with
  | nil => exact trivial
  | cons p ps ih =>
    refine ⟨?_, ih fun q hq => h q (.tail _ hq)⟩
    have := h p (.head _)
    simp [Expr.Stores, this, Expr.addressable, Ctx.typ, assignable_refl, varTyp_single]

/-- The results are assigned. -/
theorem assign_call {recv : Go.Expr} (h : BodyOk F Γ D m) {Γ' : Ctx} (hp : ∀ p ∈ m.params, Γ'.see p.name = some (.var (varTyp p)))
    (hr : ∀ p ∈ m.results, Γ'.see p.name = some (.var (varTyp p)) ∧ p.name ≠ g!"_") (h1 : (Go.Expr.sel recv m.name).CalleeTyped F Γ')
    (h2 : (Go.Expr.sel recv m.name).callee F Γ' = .func (sourceSig m)) : (Stmt.assign [.many (idExprs m.results)] [callExpr recv m]).Typed F Γ' := by
  have hc := callExpr_typed h hp h1 h2
  refine ⟨⟨typed_targets _, trivial⟩, ⟨hc.1, trivial⟩, ?_⟩
  rw [flat_many, show callExpr recv m = .call (.sel recv m.name) [.many (m.params.map argExpr)] false from rfl]
  have := hc.2.1
  rw [show callExpr recv m = .call (.sel recv m.name) [.many (m.params.map argExpr)] false from rfl] at this
  rw [right_call this]
  exact store_ids hr

theorem BodyOk.bare (h : BodyOk F Γ D m) : m.results = [] ∨ Γ.named = true := h.named.symm

theorem convertible_any (p : Param) : (varTyp p).Convertible F (.iface []) := .inl (assignable_any (varTyp_single p))

theorem validate_members : (∀ a, Typ.HasMember F (.iface [(g!"Validate", .func [] none [.basic g!"error"])]) g!"Validate" a) ∧
    Typ.member F (.iface [(g!"Validate", .func [] none [.basic g!"error"])]) g!"Validate" = .func [] none [.basic g!"error"] :=
  ⟨fun _ => (nofun : false = true → _), rfl⟩

theorem twirp_error : Typ.Assignable F (.lib Lib.twirpP g!"Error") (.basic g!"error") := by
  refine ⟨rfl, .inr (.inr (.inl ?_))⟩
  intro e he
  cases he with
  | head => exact ⟨⟨g!"Error", false, .func [] none [.string]⟩, List.mem_of_find?_eq_some (show Typ.method F (.lib Lib.twirpP g!"Error") g!"Error" = some ⟨g!"Error", false, .func [] none [.string]⟩ by krfl), rfl, rfl, rfl⟩
  | tail _ h => cases h

theorem map_typed1 {ps : List Param} (h : ∀ p ∈ ps, Γ.see p.name = some (.var (varTyp p))) (hs : Γ.see g!"string" = some (.type (.basic g!"string")))
    (hd : (ps.map (·.name)).Nodup) :
    (mapExpr ps).Typed F Γ ∧ (∀ es, typsOf F Γ (mapExpr ps :: es) = .map (.basic g!"string") (.iface []) :: typsOf F Γ es) := by
  have := map_typed (F := F) h hs hd
  refine ⟨this.1, fun es => ?_⟩
  rw [show typsOf F Γ (mapExpr ps :: es) = (mapExpr ps).typ F Γ :: typsOf F Γ es from rfl, this.2]
  rfl

theorem log_typed (n : Names) (h : BodyOk F Γ D m) (hn : Unused [g!"_params"] (allNames m)) (hv : Knows Γ [(g!"nil", .value (.untyped .nil))])
    (hf : Has F D [(g!"_stdlog", .ptr (.lib g!"log" g!"Logger")), (g!"_errlog", .ptr (.lib g!"log" g!"Logger")), (g!"_base", .src F.iface)]) :
    stmtsTyped F Γ (logStmts n m) := by
  have hp := h.params
  have hr := h.results
  have he := h.err
  have hctx := h.ctx
  have hd := h.recv
  have hc := h.call
  have ha := h.apart hn
  have hb := h.fresh hn (by decide)
  have hres := h.returns
  have hnd := h.keys
  have hbare := h.bare
  have hf := hf.members
  have hpass := fun (Γ' : Ctx) a b => pass_typed (recv := (fieldE g!"_base")) h (Γ' := Γ') a b
  simp [Knows] at hf ha hb hv
  unfold logStmts logBefore logAfter
  generalize passStmts (fieldE g!"_base") m = ps at *
  cases h1 : m.hasParams <;> cases h2 : m.hasResults <;> cases h3 : m.returnsError <;> simp [h1, h2, h3] at he hctx ⊢ <;>
    typing [hv, hf, hb, hres, hbare, hd, hc, hp, hr, he, hctx, hnd, ha, h1, h2, h3, typsOf_ids, typed_ids, elems_ids, map_typed1, error_members, cancel_assignable]
  all_goals (repeat' with_reducible apply And.intro) <;> refine hpass _ ?_ ?_ ?_ ?_ <;> typing [hf, hb, hres, hbare, hd, hc, hp, ha, h1, h2, h3]

theorem logrus_typed (n : Names) (h : BodyOk F Γ D m) (hn : Unused [g!"string", g!"logrus"] (allNames m)) (hv : Knows Γ [(g!"nil", .value (.untyped .nil)), (g!"string", .type .string), (g!"logrus", .pkg Lib.logrusP)])
    (hf : Has F D [(g!"_log", .ptr (.lib Lib.logrusP g!"Entry")), (g!"_base", .src F.iface)]) :
    stmtsTyped F Γ (logrusStmts n m) := by
  have hp := h.params
  have hr := h.results
  have he := h.err
  have hctx := h.ctx
  have hd := h.recv
  have hc := h.call
  have ha := h.apart hn
  have hb := h.fresh hn (by decide)
  have hres := h.returns
  have hnd := h.keys
  have hbare := h.bare
  have hf := hf.members
  have hpass := fun (Γ' : Ctx) a b => pass_typed (recv := (fieldE g!"_base")) h (Γ' := Γ') a b
  simp [Knows] at hf ha hb hv
  unfold logrusStmts logrusBefore logrusAfter
  generalize passStmts (fieldE g!"_base") m = ps at *
  cases h1 : m.hasParams <;> cases h2 : m.hasResults <;> cases h3 : m.returnsError <;> simp [h1, h2, h3] at he hctx ⊢ <;>
    typing [hv, hf, hb, hres, hbare, hd, hc, hp, hr, he, hctx, hnd, ha, h1, h2, h3, typsOf_ids, typed_ids, elems_ids, map_typed1, error_members, cancel_assignable, logrusLine, convertible_fields]
  all_goals (repeat' with_reducible apply And.intro) <;> refine hpass _ ?_ ?_ ?_ ?_ <;> typing [hf, hb, hres, hbare, hd, hc, hp, ha, logrusLine, convertible_fields, h1, h2, h3]

theorem prometheus_typed (vec : Str) (h : BodyOk F Γ D m) (hn : Unused [g!"_since", g!"time"] (allNames m)) (hv : Knows Γ [(g!"nil", .value (.untyped .nil)), (g!"time", .pkg g!"time")])
    (hf : Has F D [(g!"base", .src F.iface), (g!"instanceName", .string)]) (hvec : Γ.see vec = some (.var (.ptr (.lib Lib.promP g!"SummaryVec"))) ∧ vec ≠ g!"_" ∧ vec ≠ g!"result" ∧ vec ≠ g!"_since") :
    stmtsTyped F Γ (prometheusStmts vec m) := by
  have hp := h.params
  have hr := h.results
  have he := h.err
  have hctx := h.ctx
  have hd := h.recv
  have hc := h.call
  have ha := h.apart hn
  have hb := h.fresh hn (by decide)
  have hres := h.returns
  have hnd := h.keys
  have hbare := h.bare
  have hf := hf.members
  have hpass := fun (Γ' : Ctx) a b => pass_typed (recv := (fieldE g!"base")) h (Γ' := Γ') a b
  simp [Knows] at hf ha hb hv
  unfold prometheusStmts prometheusAfter ifErrStmts
  generalize passStmts (fieldE g!"base") m = ps at *
  cases h1 : m.returnsError <;> simp [h1] at he hctx ⊢ <;>
    typing [hv, hf, hb, hres, hbare, hd, hc, hp, hr, he, hctx, hnd, ha, h1, typsOf_ids, typed_ids, elems_ids, map_typed1, error_members, cancel_assignable, hvec]
  all_goals (repeat' with_reducible apply And.intro) <;> refine hpass _ ?_ ?_ ?_ ?_ <;> typing [hf, hb, hres, hbare, hd, hc, hp, ha, hvec, h1]

theorem openTracing_typed (iface b : Str) (h : BodyOk F Γ D m) (hn : Unused [g!"_span", g!"string", g!"opentracing", g!"_ext", g!"_log"] (allNames m)) (hv : Knows Γ [(g!"nil", .value (.untyped .nil)), (g!"true", .value (.untyped .bool)), (g!"string", .type .string), (g!"opentracing", .pkg Lib.tracingP), (g!"_ext", .pkg Lib.tracingExtP), (g!"_log", .pkg Lib.tracingLogP)])
    (hf : Has F D [(iface, .src F.iface), (g!"_instance", .string), (g!"_spanDecorator", .func [.lib Lib.tracingP g!"Span", .map .string (.iface []), .map .string (.iface [])] none [])]) (hac : m.acceptsContext = true) :
    stmtsTyped F Γ (openTracingStmts iface b m) := by
  have hp := h.params
  have hr := h.results
  have he := h.err
  have hctx := h.ctx
  have hd := h.recv
  have hc := h.call
  have ha := h.apart hn
  have hb := h.fresh hn (by decide)
  have hres := h.returns
  have hnd := h.keys
  have hbare := h.bare
  have hf := hf.members
  have hpass := fun (Γ' : Ctx) a b => pass_typed (recv := (fieldE iface)) h (Γ' := Γ') a b
  simp [Knows] at hf ha hb hv
  simp [hac] at hctx
  unfold openTracingStmts tracingAfter
  generalize passStmts (fieldE iface) m = ps at *
  cases h1 : m.returnsError <;> simp [h1] at he hctx ⊢ <;>
    typing [hv, hf, hb, hres, hbare, hd, hc, hp, hr, he, hctx, hnd, ha, h1, typsOf_ids, typed_ids, elems_ids, map_typed1, error_members, cancel_assignable, spanDecoratorS, openTracingErrorS]
  all_goals (repeat' with_reducible apply And.intro) <;> refine hpass _ ?_ ?_ ?_ ?_ <;> typing [hf, hb, hres, hbare, hd, hc, hp, ha, spanDecoratorS, openTracingErrorS, h1]

theorem openCensus_typed (iface b : Str) (h : BodyOk F Γ D m) (hn : Unused [g!"_span", g!"string", g!"trace"] (allNames m)) (hv : Knows Γ [(g!"nil", .value (.untyped .nil)), (g!"true", .value (.untyped .bool)), (g!"string", .type .string), (g!"trace", .pkg Lib.censusP)])
    (hf : Has F D [(iface, .src F.iface), (g!"_instance", .string), (g!"_spanDecorator", .func [.ptr (.lib Lib.censusP g!"Span"), .map .string (.iface []), .map .string (.iface [])] none [])]) (hac : m.acceptsContext = true) :
    stmtsTyped F Γ (openCensusStmts iface b m) := by
  have hp := h.params
  have hr := h.results
  have he := h.err
  have hctx := h.ctx
  have hd := h.recv
  have hc := h.call
  have ha := h.apart hn
  have hb := h.fresh hn (by decide)
  have hres := h.returns
  have hnd := h.keys
  have hbare := h.bare
  have hf := hf.members
  have hpass := fun (Γ' : Ctx) a b => pass_typed (recv := (fieldE iface)) h (Γ' := Γ') a b
  simp [Knows] at hf ha hb hv
  simp [hac] at hctx
  unfold openCensusStmts tracingAfter
  generalize passStmts (fieldE iface) m = ps at *
  cases h1 : m.returnsError <;> simp [h1] at he hctx ⊢ <;>
    typing [hv, hf, hb, hres, hbare, hd, hc, hp, hr, he, hctx, hnd, ha, h1, typsOf_ids, typed_ids, elems_ids, map_typed1, error_members, cancel_assignable, spanDecoratorS, openCensusErrorS]
  all_goals (repeat' with_reducible apply And.intro) <;> refine hpass _ ?_ ?_ ?_ ?_ <;> typing [hf, hb, hres, hbare, hd, hc, hp, ha, spanDecoratorS, openCensusErrorS, h1]

theorem openTelemetry_typed (iface b : Str) (h : BodyOk F Γ D m) (hn : Unused [g!"_span", g!"string", g!"otel", g!"_codes", g!"attribute"] (allNames m)) (hv : Knows Γ [(g!"nil", .value (.untyped .nil)), (g!"true", .value (.untyped .bool)), (g!"string", .type .string), (g!"otel", .pkg Lib.otelP), (g!"_codes", .pkg Lib.otelCodesP), (g!"attribute", .pkg Lib.otelAttrP)])
    (hf : Has F D [(iface, .src F.iface), (g!"_instance", .string), (g!"_spanDecorator", .func [.lib Lib.otelTraceP g!"Span", .map .string (.iface []), .map .string (.iface [])] none [])]) (hac : m.acceptsContext = true) :
    stmtsTyped F Γ (openTelemetryStmts iface b m) := by
  have hp := h.params
  have hr := h.results
  have he := h.err
  have hctx := h.ctx
  have hd := h.recv
  have hc := h.call
  have ha := h.apart hn
  have hb := h.fresh hn (by decide)
  have hres := h.returns
  have hnd := h.keys
  have hbare := h.bare
  have hf := hf.members
  have hpass := fun (Γ' : Ctx) a b => pass_typed (recv := (fieldE iface)) h (Γ' := Γ') a b
  simp [Knows] at hf ha hb hv
  simp [hac] at hctx
  unfold openTelemetryStmts tracingAfter
  generalize passStmts (fieldE iface) m = ps at *
  cases h1 : m.returnsError <;> simp [h1] at he hctx ⊢ <;>
    typing [hv, hf, hb, hres, hbare, hd, hc, hp, hr, he, hctx, hnd, ha, h1, typsOf_ids, typed_ids, elems_ids, map_typed1, error_members, cancel_assignable, spanDecoratorS, openTelemetryErrorS]
  all_goals (repeat' with_reducible apply And.intro) <;> refine hpass _ ?_ ?_ ?_ ?_ <;> typing [hf, hb, hres, hbare, hd, hc, hp, ha, spanDecoratorS, openTelemetryErrorS, h1]

theorem timeout_typed (iface : Str) (C : Typ) (h : BodyOk F Γ D m) (hn : Unused [g!"cancelFunc", g!"context"] (allNames m)) (hv : Knows Γ [(g!"context", .pkg g!"context")])
    (hf : Has F D [(iface, .src F.iface), (g!"config", C)]) (hac : m.acceptsContext = true) (hcf : Has F C [(m.name ++ g!"Timeout", Lib.duration)]) :
    stmtsTyped F Γ (timeoutStmts iface m) := by
  have hp := h.params
  have hr := h.results
  have he := h.err
  have hctx := h.ctx
  have hd := h.recv
  have hc := h.call
  have ha := h.apart hn
  have hb := h.fresh hn (by decide)
  have hres := h.returns
  have hnd := h.keys
  have hbare := h.bare
  have hf := hf.members
  have hpass := fun (Γ' : Ctx) a b => pass_typed (recv := (fieldE iface)) h (Γ' := Γ') a b
  simp [Knows] at hf ha hb hv
  simp [hac] at hctx
  have hcf := hcf.members
  simp at hcf
  unfold timeoutStmts
  generalize passStmts (fieldE iface) m = ps at *
  typing [hv, hf, hb, hres, hbare, hd, hc, hp, hr, he, hctx, hnd, ha, typsOf_ids, typed_ids, elems_ids, map_typed1, error_members, cancel_assignable, hcf, timeoutField]
  all_goals (repeat' with_reducible apply And.intro) <;> refine hpass _ ?_ ?_ ?_ ?_ <;> typing [hf, hb, hres, hbare, hd, hc, hp, ha, hcf, timeoutField]

theorem breaker_typed (dec iface : Str) (h : BodyOk F Γ D m) (hn : Unused [g!"errors", g!"time"] (allNames m)) (hv : Knows Γ [(g!"nil", .value (.untyped .nil)), (g!"errors", .pkg g!"errors"), (g!"time", .pkg g!"time")])
    (hf : Has F D [(iface, .src F.iface), (g!"_lock", .lib g!"sync" g!"RWMutex"), (g!"_maxConsecutiveErrors", .int), (g!"_consecutiveErrors", .int), (g!"_openInterval", Lib.duration), (g!"_closesAt", .ptr Lib.timeT), (g!"_ignoreErrors", .slice .error)]) (hre : m.returnsError = true) :
    stmtsTyped F Γ (breakerStmts dec iface m) := by
  have hp := h.params
  have hr := h.results
  have he := h.err
  have hctx := h.ctx
  have hd := h.recv
  have hc := h.call
  have ha := h.apart hn
  have hb := h.fresh hn (by decide)
  have hres := h.returns
  have hnd := h.keys
  have hbare := h.bare
  have hf := hf.members
  simp [Knows] at hf ha hb hv
  simp [hre] at he
  have hcs : ∃ cs, cs = Stmt.assign [.many (idExprs m.results)] [callExpr (fieldE iface) m] ∧ ∀ Γ' : Ctx, Ctx.after F Γ' cs = Γ' := ⟨_, rfl, fun _ => rfl⟩
  obtain ⟨cs, hcs, haf⟩ := hcs
  have hcall := fun (Γ' : Ctx) a b c d => hcs ▸ assign_call (recv := fieldE iface) h (Γ' := Γ') a b c d
  unfold breakerStmts attemptStmts openStmts ignoreS countStmts resetStmts
  simp only [← hcs]
  typing [hv, hf, hb, hres, hbare, hd, hc, hp, hr, he, hctx, hnd, ha, typsOf_ids, typed_ids, elems_ids, map_typed1, error_members, cancel_assignable, haf, lockE]
  all_goals (repeat' with_reducible apply And.intro) <;> refine hcall _ ?_ ?_ ?_ ?_ <;> typing [hf, hb, hres, hbare, hd, hc, hp, hr, he, hctx, hv, ha, haf, lockE]

end Gowrap.Tmpl

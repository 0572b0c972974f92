import Verif.Proofs.GoDen
import Verif.Proofs.TmOpentracing
import Verif.Proofs.TmOpencensus
import Verif.Proofs.TmOpentelemetry
/-!
# The meaning of the code generated by templates/opentracing, opencensus and opentelemetry
-/

namespace Gowrap.Tmpl

open Gowrap Go

set_option maxRecDepth 100000

/-- `_d._spanDecorator(_span, params, results)` -/
def spanDecoratorS (m : Method) : Stmt :=
  .expr (callE (fieldE g!"_spanDecorator") [.id g!"_span", .many [mapExpr m.params], .many [mapExpr m.results]])

/-- The deferred function. -/
def tracingAfter (m : Method) (onError : List Stmt) (fin : Str) : List Stmt :=
  [bif m.returnsError then .condElseIf (notNilE (fieldE g!"_spanDecorator")) [spanDecoratorS m] (.cond (notNilE (.id g!"err")) onError)
    else .cond (notNilE (fieldE g!"_spanDecorator")) [spanDecoratorS m],
    .expr (callE (dotE g!"_span" fin) [])]

/-- `err.Error()` -/
abbrev errMsg : Go.Expr := callE (dotE g!"err" g!"Error") []

def openTracingErrorS : List Stmt :=
  [.expr (callE (.sel (dotE g!"_ext" g!"Error") g!"Set") [.id g!"_span", .id g!"true"]),
    .expr (.call (dotE g!"_span" g!"LogFields") [callE (dotE g!"_log" g!"String") [.str g!"event", .str g!"error"],
      callE (dotE g!"_log" g!"String") [.str g!"message", errMsg]] true)]

def openCensusErrorS : List Stmt :=
  [.expr (.call (dotE g!"_span" g!"AddAttributes") [callE (dotE g!"trace" g!"BoolAttribute") [.str g!"error", .id g!"true"],
    callE (dotE g!"trace" g!"StringAttribute") [.str g!"event", .str g!"error"],
    callE (dotE g!"trace" g!"StringAttribute") [.str g!"message", errMsg]] true)]

def openTelemetryErrorS : List Stmt :=
  [.expr (callE (dotE g!"_span" g!"RecordError") [.id g!"err"]),
    .expr (callE (dotE g!"_span" g!"SetStatus") [dotE g!"_codes" g!"Error", errMsg]),
    .expr (.call (dotE g!"_span" g!"SetAttributes") [callE (dotE g!"attribute" g!"String") [.str g!"event", .str g!"error"],
      callE (dotE g!"attribute" g!"String") [.str g!"message", errMsg]] true)]

def openTracingStmts (name type : Str) (m : Method) : List Stmt :=
  .define [.id g!"_span", .id g!"ctx"] [callE (dotE g!"opentracing" g!"StartSpanFromContext")
    [.id g!"ctx", .bin g!"+" (fieldE g!"_instance") (.str (g!"." ++ (type ++ (g!"." ++ m.name))))]] ::
  deferS (tracingAfter m openTracingErrorS g!"Finish") :: passStmts (fieldE name) m

def openCensusStmts (name type : Str) (m : Method) : List Stmt :=
  .define [.id g!"ctx", .id g!"_span"] [callE (dotE g!"trace" g!"StartSpan")
    [.id g!"ctx", .bin g!"+" (fieldE g!"_instance") (.str (g!"." ++ (type ++ (g!"." ++ m.name))))]] ::
  deferS (tracingAfter m openCensusErrorS g!"End") :: passStmts (fieldE name) m

def openTelemetryStmts (name span : Str) (m : Method) : List Stmt :=
  .define [.id g!"ctx", .id g!"_span"] [callE (.sel (callE (dotE g!"otel" g!"Tracer") [fieldE g!"_instance"]) g!"Start")
    [.id g!"ctx", .str (span ++ (g!"." ++ m.name))]] ::
  deferS (tracingAfter m openTelemetryErrorS g!"End") :: passStmts (fieldE name) m

/-- The methods that accept a context have a parameter. -/
theorem tmOpentracing_method (u : Uni) (d : Inputs) (m : Method) (h : m.acceptsContext = true → m.params ≠ []) :
    tmOpentracing.methodDecls u d m = bif m.acceptsContext then
      [.method g!"_d" (.name (tmOpentracing.names u d).dec) m.name (paramDecls m.params) (paramDecls m.results)
        (openTracingStmts d.name d.type m)] else [] := by
  obtain ⟨doc, cm, nm, ps, rs, re, ac⟩ := m
  cases ac
  · cases ps <;> cases rs <;> cases re <;> krfl
  · cases ps with
    | nil => exact absurd rfl (h rfl)
    | cons p ps => cases rs <;> cases re <;> krfl

theorem tmOpencensus_method (u : Uni) (d : Inputs) (m : Method) (h : m.acceptsContext = true → m.params ≠ []) :
    tmOpencensus.methodDecls u d m = bif m.acceptsContext then
      [.method g!"_d" (.name (tmOpencensus.names u d).dec) m.name (paramDecls m.params) (paramDecls m.results)
        (openCensusStmts d.name d.type m)] else [] := by
  obtain ⟨doc, cm, nm, ps, rs, re, ac⟩ := m
  cases ac
  · cases ps <;> cases rs <;> cases re <;> krfl
  · cases ps with
    | nil => exact absurd rfl (h rfl)
    | cons p ps => cases rs <;> cases re <;> krfl

theorem tmOpentelemetry_method (u : Uni) (d : Inputs) (m : Method) (h : m.acceptsContext = true → m.params ≠ []) :
    tmOpentelemetry.methodDecls u d m = bif m.acceptsContext then
      [.method g!"_d" (.name (tmOpentelemetry.names u d).dec) m.name (paramDecls m.params) (paramDecls m.results)
        (openTelemetryStmts d.name (tmOpentelemetry.names u d).span m)] else [] := by
  obtain ⟨doc, cm, nm, ps, rs, re, ac⟩ := m
  cases ac
  · cases ps <;> cases rs <;> cases re <;> krfl
  · cases ps with
    | nil => exact absurd rfl (h rfl)
    | cons p ps => cases rs <;> cases re <;> krfl

theorem define_span (fn : Str) (args : Val → List Val) (k : Stm) :
    (Stm.get g!"ctx" fun c => .lib2 fn (args c) fun span ctx => .seq (defineAll none [g!"_span", g!"ctx"] [span, ctx]) k) =
    .get g!"ctx" fun c => .lib2 fn (args c) fun span ctx => .seq (.declare g!"_span" span) (.seq (.assign g!"ctx" ctx) k) := by
  funext env
  cases hc : env g!"ctx" with
  | none => simp [Stm.get, hc]
  | some c =>
    rw [Stm.get_apply hc, Stm.get_apply hc]
    refine Stm.lib2_congr fun span ctx => ?_
    cases hs : env g!"_span" <;>
      simp [Stm.seq, defineAll, Block.has, Stm.declare, Stm.assign, bindAll, hc, hs, Env.set, Stm.stuck]

theorem define_span' (fn : Str) (args : Val → List Val) (k : Stm) :
    (Stm.get g!"ctx" fun c => .lib2 fn (args c) fun ctx span => .seq (defineAll none [g!"ctx", g!"_span"] [ctx, span]) k) =
    .get g!"ctx" fun c => .lib2 fn (args c) fun ctx span => .seq (.declare g!"_span" span) (.seq (.assign g!"ctx" ctx) k) := by
  funext env
  cases hc : env g!"ctx" with
  | none => simp [Stm.get, hc]
  | some c =>
    rw [Stm.get_apply hc, Stm.get_apply hc]
    refine Stm.lib2_congr fun span ctx => ?_
    cases hs : env g!"_span" with
    | some v => simp [Stm.seq, defineAll, Block.has, Stm.declare, hc, hs, Stm.stuck]
    | none =>
      simp [Stm.seq, defineAll, Block.has, Stm.declare, Stm.assign, bindAll, hc, hs, Env.set, Stm.stuck]
      congr 1
      funext y
      by_cases h1 : y = g!"_span"
      · subst h1; simp [Env.set]
      · simp [Env.set, h1]

theorem openTracing_after (d : Tracing) (m : Method) (hp : Plain m.pnames) (hr : Plain m.rnames) (hi : d.iface.name ≠ g!"_spanDecorator") :
    inScope (declared (tracingAfter m openTracingErrorS g!"Finish"))
      (den (d.openTracingLink m) (tracingAfter m openTracingErrorS g!"Finish") (some []) .skip) =
      d.after m openTracingError fun span => .lib0 g!"opentracing.Finish" [span] := by
  unfold tracingAfter Tracing.after Tracing.openTracingLink openTracingErrorS openTracingError Tracing.fields spanDecoratorS
  have hi' := hi.symm
  cases hre : m.returnsError <;> cases hd : d.spanDecorator.isNil <;>
    go_simp [ifErr, hre, hi, hi', hd, ev_paramsMap hp, ev_resultsMap hr]
  all_goals
    funext env
    cases hs : env g!"_span" <;> cases he : env g!"err" <;> cases h2 : env g!"_ext" <;> cases h3 : env g!"_log" <;>
      env_simp [hs, he, h2, h3]

theorem openCensus_after (d : Tracing) (m : Method) (hp : Plain m.pnames) (hr : Plain m.rnames) (hi : d.iface.name ≠ g!"_spanDecorator") :
    inScope (declared (tracingAfter m openCensusErrorS g!"End"))
      (den (d.openCensusLink m) (tracingAfter m openCensusErrorS g!"End") (some []) .skip) =
      d.after m openCensusError fun span => .lib0 g!"trace.End" [span] := by
  unfold tracingAfter Tracing.after Tracing.openCensusLink openCensusErrorS openCensusError Tracing.fields spanDecoratorS
  have hi' := hi.symm
  cases hre : m.returnsError <;> cases hd : d.spanDecorator.isNil <;>
    go_simp [ifErr, hre, hi, hi', hd, ev_paramsMap hp, ev_resultsMap hr]
  all_goals
    funext env
    cases hs : env g!"_span" <;> cases he : env g!"err" <;> cases h2 : env g!"trace" <;>
      env_simp [hs, he, h2]

theorem openTelemetry_after (d : Tracing) (m : Method) (hp : Plain m.pnames) (hr : Plain m.rnames) (hi : d.iface.name ≠ g!"_spanDecorator") :
    inScope (declared (tracingAfter m openTelemetryErrorS g!"End"))
      (den (d.openTelemetryLink m) (tracingAfter m openTelemetryErrorS g!"End") (some []) .skip) =
      d.after m openTelemetryError fun span => .lib0 g!"trace.End" [span] := by
  unfold tracingAfter Tracing.after Tracing.openTelemetryLink openTelemetryErrorS openTelemetryError Tracing.fields spanDecoratorS
  have hi' := hi.symm
  cases hre : m.returnsError <;> cases hd : d.spanDecorator.isNil <;>
    go_simp [ifErr, hre, hi, hi', hd, ev_paramsMap hp, ev_resultsMap hr]
  all_goals
    funext env
    cases hs : env g!"_span" <;> cases he : env g!"err" <;> cases h2 : env g!"_codes" <;> cases h3 : env g!"attribute" <;>
      env_simp [hs, he, h2, h3]

theorem tmOpentracing_den (d : Tracing) (m : Method) (hp : Plain m.pnames) (hr : Plain m.rnames)
    (hi : d.iface.name ∉ [g!"_instance", g!"_spanDecorator"]) :
    denBody (d.openTracingLink m) (openTracingStmts d.iface.name d.iface.type m) = d.openTracing m := by
  simp only [List.mem_cons, List.not_mem_nil, or_false, not_or] at hi
  have hi1 := Ne.symm hi.1
  have hi2 := Ne.symm hi.2
  unfold denBody openTracingStmts Tracing.openTracing
  rw [den_cons, den_defer, openTracing_after d m hp hr hi.2,
    den_pass (base := value d.base) (by simp [Tracing.openTracingLink, isPath, Expr.path, Expr.pathTo])
      (fun k => by go_simp [Tracing.openTracingLink, Tracing.fields, hi, hi1, hi2]) hp rfl]
  · go_simp [Tracing.openTracingLink, Tracing.fields, hi, hi1, hi2, define_span]
  · unfold tracingAfter; cases m.returnsError <;> rfl

theorem tmOpencensus_den (d : Tracing) (m : Method) (hp : Plain m.pnames) (hr : Plain m.rnames)
    (hi : d.iface.name ∉ [g!"_instance", g!"_spanDecorator"]) :
    denBody (d.openCensusLink m) (openCensusStmts d.iface.name d.iface.type m) = d.openCensus m := by
  simp only [List.mem_cons, List.not_mem_nil, or_false, not_or] at hi
  have hi1 := Ne.symm hi.1
  have hi2 := Ne.symm hi.2
  unfold denBody openCensusStmts Tracing.openCensus
  rw [den_cons, den_defer, openCensus_after d m hp hr hi.2,
    den_pass (base := value d.base) (by simp [Tracing.openCensusLink, isPath, Expr.path, Expr.pathTo])
      (fun k => by go_simp [Tracing.openCensusLink, Tracing.fields, hi, hi1, hi2]) hp rfl]
  · go_simp [Tracing.openCensusLink, Tracing.fields, hi, hi1, hi2, define_span']
  · unfold tracingAfter; cases m.returnsError <;> rfl

theorem tmOpentelemetry_den (d : Tracing) (m : Method) (hp : Plain m.pnames) (hr : Plain m.rnames)
    (hi : d.iface.name ∉ [g!"_instance", g!"_spanDecorator"]) :
    denBody (d.openTelemetryLink m) (openTelemetryStmts d.iface.name d.spanNameType m) = d.openTelemetry m := by
  simp only [List.mem_cons, List.not_mem_nil, or_false, not_or] at hi
  have hi1 := Ne.symm hi.1
  have hi2 := Ne.symm hi.2
  unfold denBody openTelemetryStmts Tracing.openTelemetry
  rw [den_cons, den_defer, openTelemetry_after d m hp hr hi.2,
    den_pass (base := value d.base) (by simp [Tracing.openTelemetryLink, isPath, Expr.path, Expr.pathTo])
      (fun k => by go_simp [Tracing.openTelemetryLink, Tracing.fields, hi, hi1, hi2]) hp rfl]
  · go_simp [Tracing.openTelemetryLink, Tracing.fields, hi, hi1, hi2, define_span']
  · unfold tracingAfter; cases m.returnsError <;> rfl

end Gowrap.Tmpl

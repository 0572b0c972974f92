import Verif.Model.Exec
import Verif.Model.Snake
/-!
# The observability templates

templates/log, logrus, prometheus, opentracing, opencensus, opentelemetry, elasticapm.
`I` is the interface (`.Interface.Name`, `.Interface.Type`), `dec` the name of the decorator type.
-/

namespace Gowrap.Tmpl

open Gowrap

/-- `.Interface` as far as it is used in the bodies. -/
structure Iface where
  name : Str
  type : Str

/-- `{{- if $method.ReturnsError}} if err != nil { t } else { e } {{else}} e {{end}}`. -/
def ifErr (m : Method) (t e : Stm) : Stm :=
  if m.returnsError then .get g!"err" fun v => .ite v.isNil e t else e

/-! ## templates/log -/

/-- The configuration of a decorator from templates/log:9-21. -/
structure Log where
  dec : Str
  base : Val
  stdlog : Val
  errlog : Val

/-- templates/log:26-31. -/
def Log.before (d : Log) (m : Method) : Stm :=
  if m.hasParams then
    .getAll m.pnames fun vs =>
      let params := .str (d.dec ++ g!": calling " ++ m.name ++ g!" with params:") :: vs
      .seq (.declare g!"_params" (.slice params)) (.lib0 g!"log.Println" (d.stdlog :: params))
  else .lib0 g!"log.Println" [d.stdlog, .str (d.dec ++ g!": calling " ++ m.name)]

/-- templates/log:33-46. -/
def Log.after (d : Log) (m : Method) : Stm :=
  if m.hasResults then
    .getAll m.rnames fun vs =>
      let results := .str (d.dec ++ g!": " ++ m.name ++ g!" returned results:") :: vs
      .block [g!"_results"] [.slice results]
        (ifErr m (.lib0 g!"log.Println" (d.errlog :: results)) (.lib0 g!"log.Println" (d.stdlog :: results)))
  else .lib0 g!"log.Println" [d.stdlog, .str (d.dec ++ g!": " ++ m.name ++ g!" finished")]

/-- templates/log:25-49. -/
def Log.body (d : Log) (m : Method) : Stm :=
  .seq (d.before m) (.deferring (d.after m) (m.passTo d.base))

/-- templates/log:9-50: the interface is not embedded, every method is declared. -/
def Log.decorator (d : Log) : Decorator :=
  ⟨[g!"_stdlog", g!"_errlog", g!"_base"], false, d.base, fun m => some (d.body m)⟩

/-! ## templates/logrus -/

/-- The configuration of a decorator from templates/logrus:9-20. -/
structure Logrus where
  dec : Str
  base : Val
  log : Val

/-- `_d._log.WithFields(logrus.Fields(…)).Level(msg)`, templates/logrus:26, 34, 36, 39. -/
def Logrus.line (d : Logrus) (level : Str) (fields : Val) (msg : Str) : Stm :=
  .global g!"logrus" (.lib1 g!"logrus.WithFields" [d.log, fields] fun entry =>
    .lib0 level [entry, .str msg])

/-- templates/logrus:25-29. -/
def Logrus.before (d : Logrus) (m : Method) : Stm :=
  if m.hasParams then
    .getAll m.pnames fun vs =>
      d.line g!"logrus.Debug" (Method.mapOf m.pnames vs) (d.dec ++ g!": calling " ++ m.name)
  else .lib0 g!"logrus.Debug" [d.log, .str (d.dec ++ g!": calling " ++ m.name)]

/-- templates/logrus:31-43. -/
def Logrus.after (d : Logrus) (m : Method) : Stm :=
  if m.hasResults then
    .getAll m.rnames fun vs =>
      ifErr m
        (d.line g!"logrus.Error" (Method.mapOf m.rnames vs)
          (d.dec ++ g!": method " ++ m.name ++ g!" returned an error"))
        (d.line g!"logrus.Debug" (Method.mapOf m.rnames vs)
          (d.dec ++ g!": method " ++ m.name ++ g!" finished"))
  else .lib0 g!"logrus.Debug" [d.log, .str (d.dec ++ g!": " ++ m.name ++ g!" finished")]

/-- templates/logrus:24-46. -/
def Logrus.body (d : Logrus) (m : Method) : Stm :=
  .seq (d.before m) (.deferring (d.after m) (m.passTo d.base))

/-- templates/logrus:9-47. -/
def Logrus.decorator (d : Logrus) : Decorator :=
  ⟨[g!"_log", g!"_base"], false, d.base, fun m => some (d.body m)⟩

/-! ## templates/prometheus -/

/-- The configuration of a decorator from templates/prometheus:13-33. -/
structure Prometheus where
  iface : Str
  base : Val
  instanceName : Str
  /-- the Unicode tables used by `down` -/
  uni : Uni

/-- `{{down .Interface.Name}}DurationSummaryVec`, the package level variable of templates/prometheus:18;
`down` is `strings.ToLower`, cmd_generate.go:273. -/
def Prometheus.vec (d : Prometheus) : Str := d.uni.lower d.iface ++ g!"DurationSummaryVec"

/-- templates/prometheus:40-46. -/
def Prometheus.after (d : Prometheus) (m : Method) : Stm :=
  .block [g!"result"] [.str g!"ok"]
    (.seq (ifErr m (.assign g!"result" (.str g!"error")) .skip)
      (.global d.vec (.get g!"result" fun result =>
        .lib1 g!"prometheus.WithLabelValues" [.str d.instanceName, .str m.name, result] fun observer =>
        .global g!"time" (.get g!"_since" fun since =>
        .lib1 g!"time.Since" [since] fun seconds =>
        .lib0 g!"prometheus.Observe" [observer, seconds]))))

/-- templates/prometheus:37-49. -/
def Prometheus.body (d : Prometheus) (m : Method) : Stm :=
  .global g!"time" (.op .now fun t => .seq (.declare g!"_since" (.int t))
    (.deferring (d.after m) (m.passTo d.base)))

/-- templates/prometheus:13-50. -/
def Prometheus.decorator (d : Prometheus) : Decorator :=
  ⟨[g!"base", g!"instanceName"], false, d.base, fun m => some (d.body m)⟩

/-! ## templates/opentracing, opencensus, opentelemetry -/

/-- The configuration of a tracing decorator (templates/opentracing:10-28, opencensus:8-26,
opentelemetry:14-32); `spanDecorator` is `_spanDecorator`, possibly nil. -/
structure Tracing where
  iface : Iface
  base : Val
  inst : Str
  spanDecorator : Val
  /-- `SpanNamePrefix` or the name of the interface, templates/opentelemetry:11 -/
  spanNameType : Str

/-- `if _d._spanDecorator != nil { … } else if err != nil { onError }` followed by the end of the span,
e.g. templates/opentracing:36-46. -/
def Tracing.after (d : Tracing) (m : Method) (onError finish : Val → Stm) : Stm :=
  .get g!"_span" fun span =>
  .seq
    (if d.spanDecorator.isNil then
      ifErr m (onError span) .skip
    else
      .getAll m.pnames fun ps => .getAll m.rnames fun rs =>
        .lib0 g!"_spanDecorator" [d.spanDecorator, span, Method.mapOf m.pnames ps, Method.mapOf m.rnames rs])
    (finish span)

/-- templates/opentracing:39-43. -/
def openTracingError (span : Val) : Stm :=
  .global g!"_ext" (.seq (.lib0 g!"ext.Error.Set" [span, .bool true])
    (.global g!"_log" (.lib1 g!"log.String" [.str g!"event", .str g!"error"] fun f1 =>
      .get g!"err" fun err => .lib1 g!"Error" [err] fun msg =>
      .lib1 g!"log.String" [.str g!"message", msg] fun f2 =>
      .lib0 g!"opentracing.LogFields" [span, f1, f2])))

/-- templates/opentracing:33-49. -/
def Tracing.openTracing (d : Tracing) (m : Method) : Stm :=
  .global g!"opentracing" (.get g!"ctx" fun ctx =>
    .lib2 g!"opentracing.StartSpanFromContext"
        [ctx, .str (d.inst ++ g!"." ++ d.iface.type ++ g!"." ++ m.name)] fun span ctx' =>
    .seq (.declare g!"_span" span) (.seq (.assign g!"ctx" ctx')
      (.deferring (d.after m openTracingError fun span => .lib0 g!"opentracing.Finish" [span])
        (m.passTo d.base))))

/-- templates/opentracing:10-51. -/
def Tracing.openTracingDecorator (d : Tracing) : Decorator :=
  ⟨[d.iface.name, g!"_instance", g!"_spanDecorator"], true, d.base,
    fun m => if m.acceptsContext then some (d.openTracing m) else none⟩

/-- templates/opencensus:37-41. -/
def openCensusError (span : Val) : Stm :=
  .global g!"trace" (.lib1 g!"trace.BoolAttribute" [.str g!"error", .bool true] fun a1 =>
    .lib1 g!"trace.StringAttribute" [.str g!"event", .str g!"error"] fun a2 =>
    .get g!"err" fun err => .lib1 g!"Error" [err] fun msg =>
    .lib1 g!"trace.StringAttribute" [.str g!"message", msg] fun a3 =>
    .lib0 g!"trace.AddAttributes" [span, a1, a2, a3])

/-- templates/opencensus:31-47. -/
def Tracing.openCensus (d : Tracing) (m : Method) : Stm :=
  .global g!"trace" (.get g!"ctx" fun ctx =>
    .lib2 g!"trace.StartSpan"
        [ctx, .str (d.inst ++ g!"." ++ d.iface.type ++ g!"." ++ m.name)] fun ctx' span =>
    .seq (.declare g!"_span" span) (.seq (.assign g!"ctx" ctx')
      (.deferring (d.after m openCensusError fun span => .lib0 g!"trace.End" [span])
        (m.passTo d.base))))

/-- templates/opencensus:8-49. -/
def Tracing.openCensusDecorator (d : Tracing) : Decorator :=
  ⟨[d.iface.name, g!"_instance", g!"_spanDecorator"], true, d.base,
    fun m => if m.acceptsContext then some (d.openCensus m) else none⟩

/-- templates/opentelemetry:43-48. -/
def openTelemetryError (span : Val) : Stm :=
  .get g!"err" fun err => .seq (.lib0 g!"trace.RecordError" [span, err])
    (.global g!"_codes" (.lib1 g!"Error" [err] fun msg =>
      .seq (.lib0 g!"trace.SetStatus" [span, .str g!"Error", msg])
        (.global g!"attribute" (.lib1 g!"attribute.String" [.str g!"event", .str g!"error"] fun a1 =>
          .lib1 g!"Error" [err] fun msg =>
          .lib1 g!"attribute.String" [.str g!"message", msg] fun a2 =>
          .lib0 g!"trace.SetAttributes" [span, a1, a2]))))

/-- templates/opentelemetry:37-54. -/
def Tracing.openTelemetry (d : Tracing) (m : Method) : Stm :=
  .global g!"otel" (.lib1 g!"otel.Tracer" [.str d.inst] fun tracer => .get g!"ctx" fun ctx =>
    .lib2 g!"trace.Start" [tracer, ctx, .str (d.spanNameType ++ g!"." ++ m.name)] fun ctx' span =>
    .seq (.declare g!"_span" span) (.seq (.assign g!"ctx" ctx')
      (.deferring (d.after m openTelemetryError fun span => .lib0 g!"trace.End" [span])
        (m.passTo d.base))))

/-- templates/opentelemetry:14-56. -/
def Tracing.openTelemetryDecorator (d : Tracing) : Decorator :=
  ⟨[d.iface.name, g!"_instance", g!"_spanDecorator"], true, d.base,
    fun m => if m.acceptsContext then some (d.openTelemetry m) else none⟩

/-! ## templates/elasticapm -/

/-- The configuration of a decorator from templates/elasticapm:12-57.  The function fields `startSpan`,
`endSpan`, `setLabel` and `captureError` are library functions. -/
structure Apm where
  base : Val
  component : Str
  spanType : Str
  /-- the Unicode tables used by `snake` -/
  uni : Uni

/-- templates/elasticapm:67-72. -/
def Apm.after (m : Method) : Stm :=
  .seq (ifErr m (.get g!"ctx" fun ctx => .get g!"err" fun err => .lib0 g!"captureError" [ctx, err]) .skip)
    (.get g!"span" fun span => .lib0 g!"endSpan" [span])

/-- templates/elasticapm:74-78. -/
def Apm.labels (d : Apm) : List Str → Stm
  | [] => .skip
  | p :: ps =>
    if p = g!"ctx" then labels d ps
    else .seq (.get g!"span" fun span => .get p fun v =>
      .lib0 g!"setLabel" [span, .str (d.uni.snake p), v]) (labels d ps)

/-- templates/elasticapm:63-81. -/
def Apm.body (d : Apm) (m : Method) : Stm :=
  .get g!"ctx" fun ctx =>
    .lib2 g!"startSpan" [ctx, .str (d.component ++ g!"." ++ m.name), .str d.spanType] fun span ctx' =>
    .seq (.declare g!"span" span) (.seq (.assign g!"ctx" ctx')
      (.deferring (Apm.after m) (.seq (d.labels m.pnames) (m.passTo d.base))))

/-- templates/elasticapm:12-83: the interface is *not* embedded, yet only methods that accept a context
are declared. -/
def Apm.decorator (d : Apm) : Decorator :=
  ⟨[g!"base", g!"startSpan", g!"endSpan", g!"setLabel", g!"captureError", g!"spanType"], false, d.base,
    fun m => if m.acceptsContext then some (d.body m) else none⟩

end Gowrap.Tmpl

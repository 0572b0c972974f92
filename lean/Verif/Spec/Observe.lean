import Verif.Spec.Exec
import Verif.Model.TmplObserve
/-!
# What the observability decorators are meant to record

Of the model only the configurations of the decorators are used here, not the template programs.
-/

namespace Gowrap

open Spec Tmpl

/-- The line that templates/log writes after a call with results `r`. -/
def Tmpl.Log.lineAfter (d : Log) (m : Method) (r : List Val) : List Val :=
  if m.hasResults then (if failedVals m r then d.errlog else d.stdlog) ::
    .str (d.dec ++ g!": " ++ m.name ++ g!" returned results:") :: r
  else [d.stdlog, .str (d.dec ++ g!": " ++ m.name ++ g!" finished")]

/-- The line that templates/log writes before a call with arguments `a`. -/
def Tmpl.Log.lineBefore (d : Log) (m : Method) (a : List Val) : List Val :=
  if m.hasParams then d.stdlog :: .str (d.dec ++ g!": calling " ++ m.name ++ g!" with params:") :: a
  else [d.stdlog, .str (d.dec ++ g!": calling " ++ m.name)]

/-- The two calls that write one line with fields. -/
def Tmpl.Logrus.Line (d : Logrus) (level : Str) (names : List Str) (vs : List Val) (msg : Str) (L : List Seen) :
    Prop :=
  ∃ entry, L = [.lib ⟨g!"logrus.WithFields", [d.log, Method.mapOf names vs], .ok [entry]⟩,
    .lib ⟨level, [entry, .str msg], .ok []⟩]

/-- The calls before the implementation is called. -/
def Tmpl.Logrus.Before (d : Logrus) (m : Method) (a : List Val) (L : List Seen) : Prop :=
  if m.hasParams then d.Line g!"logrus.Debug" m.pnames a (d.dec ++ g!": calling " ++ m.name) L
  else L = [.lib ⟨g!"logrus.Debug", [d.log, .str (d.dec ++ g!": calling " ++ m.name)], .ok []⟩]

/-- The calls after the implementation was called. -/
def Tmpl.Logrus.After (d : Logrus) (m : Method) (r : List Val) (L : List Seen) : Prop :=
  if m.hasResults then
    if failedVals m r then
      d.Line g!"logrus.Error" m.rnames r (d.dec ++ g!": method " ++ m.name ++ g!" returned an error") L
    else d.Line g!"logrus.Debug" m.rnames r (d.dec ++ g!": method " ++ m.name ++ g!" finished") L
  else L = [.lib ⟨g!"logrus.Debug", [d.log, .str (d.dec ++ g!": " ++ m.name ++ g!" finished")], .ok []⟩]

/-- The calls after the implementation was called. -/
def Tmpl.Prometheus.After (d : Prometheus) (m : Method) (start : Val) (r : List Val) (L : List Seen) : Prop :=
  ∃ observer seconds, L =
    [.lib ⟨g!"prometheus.WithLabelValues",
        [.str d.instanceName, .str m.name, .str (if failedVals m r then g!"error" else g!"ok")], .ok [observer]⟩,
      .lib ⟨g!"time.Since", [start], .ok [seconds]⟩,
      .lib ⟨g!"prometheus.Observe", [observer, seconds], .ok []⟩]

/-- The calls between the implementation and the end of the span: the span decorator with all parameters
and results, or the marks for a failed call, or nothing. -/
def Tmpl.Tracing.Mid (d : Tracing) (m : Method) (marks : Val → Val → List Seen → Prop) (span : Val)
    (a r : List Val) (L : List Seen) : Prop :=
  if d.spanDecorator.isNil then
    if failedVals m r then ∃ e, r.getLast? = some e ∧ marks span e L else L = []
  else L = [.lib ⟨g!"_spanDecorator", [d.spanDecorator, span, Method.mapOf m.pnames a, Method.mapOf m.rnames r],
    .ok []⟩]

/-- templates/opentracing:39-43 as calls: the span is flagged and the error is logged. -/
def openTracingMarks (span e : Val) (L : List Seen) : Prop :=
  ∃ f1 msg f2, L = [.lib ⟨g!"ext.Error.Set", [span, .bool true], .ok []⟩,
    .lib ⟨g!"log.String", [.str g!"event", .str g!"error"], .ok [f1]⟩,
    .lib ⟨g!"Error", [e], .ok [msg]⟩,
    .lib ⟨g!"log.String", [.str g!"message", msg], .ok [f2]⟩,
    .lib ⟨g!"opentracing.LogFields", [span, f1, f2], .ok []⟩]

/-- templates/opencensus:37-41 as calls. -/
def openCensusMarks (span e : Val) (L : List Seen) : Prop :=
  ∃ a1 a2 msg a3, L = [.lib ⟨g!"trace.BoolAttribute", [.str g!"error", .bool true], .ok [a1]⟩,
    .lib ⟨g!"trace.StringAttribute", [.str g!"event", .str g!"error"], .ok [a2]⟩,
    .lib ⟨g!"Error", [e], .ok [msg]⟩,
    .lib ⟨g!"trace.StringAttribute", [.str g!"message", msg], .ok [a3]⟩,
    .lib ⟨g!"trace.AddAttributes", [span, a1, a2, a3], .ok []⟩]

/-- templates/opentelemetry:43-48 as calls. -/
def openTelemetryMarks (span e : Val) (L : List Seen) : Prop :=
  ∃ msg a1 msg' a2, L = [.lib ⟨g!"trace.RecordError", [span, e], .ok []⟩,
    .lib ⟨g!"Error", [e], .ok [msg]⟩,
    .lib ⟨g!"trace.SetStatus", [span, .str g!"Error", msg], .ok []⟩,
    .lib ⟨g!"attribute.String", [.str g!"event", .str g!"error"], .ok [a1]⟩,
    .lib ⟨g!"Error", [e], .ok [msg']⟩,
    .lib ⟨g!"attribute.String", [.str g!"message", msg'], .ok [a2]⟩,
    .lib ⟨g!"trace.SetAttributes", [span, a1, a2], .ok []⟩]

/-- One label for every parameter except the context. -/
def Tmpl.Apm.labelCalls (d : Apm) (span : Val) (names : List Str) (vals : List Val) : List Seen :=
  ((names.zip vals).filter (fun x => x.1 ≠ g!"ctx")).map fun x =>
    .lib ⟨g!"setLabel", [span, .str (d.uni.snake x.1), x.2], .ok []⟩

end Gowrap

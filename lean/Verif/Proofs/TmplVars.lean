import Verif.Proofs.TmplSound
/-!
# The variables of the built-in templates
-/

namespace Gowrap.Tmpl

open Gowrap Go

def decVars (d : Inputs) (n : Names) : List (Str × TVal) := [(g!"decorator", .str n.dec), ([], d.value)]

def apmVars (d : Inputs) (n : Names) : List (Str × TVal) :=
  [(g!"component", .str n.component), (g!"decorator_option", .str n.option), (g!"decorator", .str n.dec), ([], d.value)]

def metricVars (d : Inputs) (n : Names) : List (Str × TVal) :=
  [(g!"metric_name", .str n.metric), (g!"decorator", .str n.dec), ([], d.value)]

def spanVars (d : Inputs) (n : Names) : List (Str × TVal) :=
  [(g!"spanNameType", .str n.span), (g!"decorator", .str n.dec), ([], d.value)]

/-- `$decorator` is `DecoratorName` or the name of the interface with a suffix. -/
def decNames (suffix : Str) (_ : Uni) (d : Inputs) : Names :=
  ⟨varOr (d.vars g!"DecoratorName") (d.name ++ suffix), d.name, [], [], []⟩

def apmNames (u : Uni) (d : Inputs) : Names :=
  ⟨varOr (d.vars g!"DecoratorName") (d.name ++ g!"APMTracing"), varOr (d.vars g!"DecoratorName") (d.name ++ g!"APMTracingOption"),
    varOr (d.vars g!"ComponentName") (u.lower d.name ++ []), [], []⟩

def metricNames (u : Uni) (d : Inputs) : Names :=
  ⟨varOr (d.vars g!"DecoratorName") (d.name ++ g!"WithPrometheus"), d.name, [],
    varOr (d.vars g!"MetricName") (u.lower d.name ++ g!"_duration_seconds"), []⟩

def spanNames (_ : Uni) (d : Inputs) : Names :=
  ⟨varOr (d.vars g!"DecoratorName") (d.name ++ g!"WithTracing"), d.name, [], [], varOr (d.vars g!"SpanNamePrefix") d.name⟩

end Gowrap.Tmpl

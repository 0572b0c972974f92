import Verif.Spec.Compiles
import Verif.Model.Inputs
import Verif.Model.Shared
import Verif.Model.TmplFallback
import Verif.Spec.Breaker
/-!
# What generated decorators do

The properties of the decorators (C45-C59, C62) speak about programs.  Here they are stated for calls of the methods in a generated text.
-/

namespace Gowrap.Spec

open Gowrap Tmpl Go

/-- `NewGenerator` has accepted an interface of parsed packages, no names are confused (see `Unambiguous`), the template supports the
methods, and the type `error` in the source is the one of Go. -/
structure Ready (w : World) (s : Sched) (fuel : Nat) (o : Options) (g : Generator) (vars : Str → Option VarValue) (bl : Builtin × Locals) : Prop where
  fair : s.Fair
  source : SourceOk w
  options : OptionsOk o
  found : newGenerator w s fuel o = .ok g
  given : GoVars (g.inputs o vars)
  names : Unambiguous w.uni (g.inputs o vars) bl.1 bl.2
  suits : Suits (g.inputs o vars) bl.1
  error : ∀ e ∈ g.methods, e.2.returnsError = true → ∀ p ∈ e.2.results, p.name = g!"err" → p.type = g!"error"

/-- The template generates declarations of Go that compile and of which `P` holds. -/
def Makes (w : World) (o : Options) (g : Generator) (vars : Str → Option VarValue) (bl : Builtin × Locals) (P : List Go.Decl → Prop) : Prop :=
  ∃ t ds, render w.uni bl.1.text (g.inputs o vars) = some t ∧ ConsistsOfGo w t ds ∧ Compiles (g.inputs o vars) bl.1 bl.2 ds ∧ P ds

/-- The decorator declared in the file. -/
def decoratorIn (d : Inputs) (b : Builtin) (ds : List Go.Decl) (base : Val) (link : Method → Go.Link) : Go.Generated :=
  ⟨ds, decoratorName d b.suffix, d.name, d.type, base, link⟩

/-- The calls of its methods, with the right number of arguments. -/
def CallOf (G : GoTypes) (F : Go.Generated) (ms : Method → Prop) (t : Tree Outcome) : Prop :=
  ∃ m self args, ms m ∧ args.length = m.params.length ∧ t = F.call G m self args

/-- A goroutine of this kind started by a method of the file. -/
def Starting (F : Go.Generated) (m : Method) (k : Goroutine) (env : Env) (t : Tree Outcome) : Prop :=
  ∃ x ∈ Go.methodsOf F.type F.decls, x.name = m.name ∧ ∃ f ∈ Go.goFns x.body, (F.link m).spawn f.1 = some k ∧
    t = (Go.denGo (F.link m) f.1 f.2 env).bind Go.goEnd

/-- The goroutines that a method of the file starts: what `go func(...) {...}(...)` in its body says. -/
def goroutinesOf (F : Go.Generated) (m : Method) : FSys (Tree Outcome) (Tree Outcome) (Tree Outcome) where
  main := Tree.Step
  launcher := Tree.Step
  child := Tree.Step
  goLauncher env t := Starting F m .launcher env t
  goImpl env t := Starting F m .impl env t
  panicked t := ∃ v, t = .ret (.panic v)

/-- A call is made unless the calls before it opened the circuit; then it is made only after the interval. -/
def Decided (p : Policy) (L : List Label) (c : Conf BreakerState (Tree Outcome)) (i : Nat) : Prop :=
  match p.openUntil ((List.range i).filterMap fun j => completionOf (mine j L)) with
  | none => WentThrough L c i
  | some u => ∃ t, firstClock (mine i L) = some t ∧ (WentThrough L c i ↔ u ≤ t)

/-! The built-in templates with the names in them. -/

def logT : Builtin × Locals :=
  (⟨Text.log, g!"WithLog", .all, false, [g!"_stdlog", g!"_errlog", g!"_base"]⟩,
   ⟨[g!"_params"], [], []⟩)

def logrusT : Builtin × Locals :=
  (⟨Text.logrus, g!"WithLogrus", .all, false, [g!"_log", g!"_base"]⟩,
   ⟨[g!"string", g!"logrus"], [], []⟩)

def prometheusT : Builtin × Locals :=
  (⟨Text.prometheus, g!"WithPrometheus", .all, false, [g!"base", g!"instanceName"]⟩,
   ⟨[g!"_since", g!"time"], [], []⟩)

def opentracingT : Builtin × Locals :=
  (⟨Text.opentracing, g!"WithTracing", .context, true, [g!"_instance", g!"_spanDecorator"]⟩,
   ⟨[g!"_span", g!"string", g!"opentracing", g!"_ext", g!"_log"], [], []⟩)

def opencensusT : Builtin × Locals :=
  (⟨Text.opencensus, g!"WithTracing", .context, true, [g!"_instance", g!"_spanDecorator"]⟩,
   ⟨[g!"_span", g!"string", g!"trace"], [], []⟩)

def opentelemetryT : Builtin × Locals :=
  (⟨Text.opentelemetry, g!"WithTracing", .context, true, [g!"_instance", g!"_spanDecorator"]⟩,
   ⟨[g!"_span", g!"string", g!"otel", g!"_codes", g!"attribute"], [], []⟩)

def elasticapmT : Builtin × Locals :=
  (⟨Text.elasticapm, g!"APMTracing", .context, false, [g!"base", g!"startSpan", g!"endSpan", g!"setLabel", g!"captureError", g!"spanType"]⟩,
   ⟨[g!"span"], [], []⟩)

def validateT : Builtin × Locals :=
  (⟨Text.validate, g!"WithValidation", .all, true, []⟩,
   ⟨[g!"error"], [g!"_v", g!"_ok"], []⟩)

def twirpValidateT : Builtin × Locals :=
  (⟨Text.twirpValidate, g!"WithTwirpValidation", .all, true, []⟩,
   ⟨[g!"error", g!"twirp"], [g!"_v", g!"_ok"], []⟩)

def grpcValidateT : Builtin × Locals :=
  (⟨Text.grpcValidate, g!"WithGRPCValidation", .error, true, []⟩,
   ⟨[g!"error", g!"grpc_codes", g!"grpc_status"], [g!"_v", g!"_ok"], []⟩)

def twirpErrorT : Builtin × Locals :=
  (⟨Text.twirpError, g!"WithTwirpError", .all, true, []⟩,
   ⟨[g!"injectRequestDataToError"], [], [g!"json"]⟩)

def timeoutT : Builtin × Locals :=
  (⟨Text.timeout, g!"WithTimeout", .context, true, [g!"config"]⟩,
   ⟨[g!"cancelFunc", g!"context"], [], []⟩)

def circuitbreakerT : Builtin × Locals :=
  (⟨Text.circuitbreaker, g!"WithCircuitBreaker", .error, true, [g!"_lock", g!"_maxConsecutiveErrors", g!"_consecutiveErrors", g!"_openInterval", g!"_closesAt", g!"_ignoreErrors"]⟩,
   ⟨[g!"errors", g!"time"], [g!"_e"], []⟩)

def retryT : Builtin × Locals :=
  (⟨Text.retry, g!"WithRetry", .error, true, [g!"_retryCount", g!"_retryInterval"]⟩,
   ⟨[g!"_ticker", g!"time"], [g!"_i"], []⟩)

def ratelimitT : Builtin × Locals :=
  (⟨Text.ratelimit, g!"WithRateLimit", .all, false, [g!"_base", g!"_ticks"]⟩,
   ⟨[], [], []⟩)

def robinpoolT : Builtin × Locals :=
  (⟨Text.robinpool, g!"RoundRobinPool", .all, false, [g!"pool", g!"poolSize", g!"counter"]⟩,
   ⟨[g!"_counter", g!"atomic"], [], []⟩)

def syncpoolT : Builtin × Locals :=
  (⟨Text.syncpool, g!"Pool", .all, false, [g!"pool"]⟩,
   ⟨[g!"_impl"], [], []⟩)

def fallbackT : Builtin × Locals :=
  (⟨Text.fallback, g!"WithFallback", .all, false, [g!"implementations", g!"interval"]⟩,
   ⟨[g!"_resultStruct", g!"_ch", g!"_next", g!"_errorsList", g!"_ticker", g!"_cancelFunc", g!"_res", g!"string", g!"len", g!"append", g!"make", g!"time", g!"context", g!"fmt", g!"errors", g!"strings"], [g!"_res", g!"_impl"], [g!"context"]⟩)

def templates : List (Builtin × Locals) :=
  [logT, logrusT, prometheusT, opentracingT, opencensusT, opentelemetryT, elasticapmT, validateT, twirpValidateT, grpcValidateT, twirpErrorT, timeoutT, circuitbreakerT, retryT, ratelimitT, robinpoolT, syncpoolT, fallbackT]

example : templates = builtins.zip locals := rfl

end Gowrap.Spec

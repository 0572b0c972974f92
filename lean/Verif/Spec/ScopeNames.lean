import Verif.Spec.Scope
import Verif.Spec.Source
/-!
# The names that the built-in templates use

Names that the generated code declares beside those of the interface, or that it needs with the meaning that they have outside.
-/

namespace Gowrap.Spec

open Gowrap Tmpl

/-- The names in the files in /repo/templates outside the methods: packages, predeclared names, functions, and the parameters and variables of
the constructors. -/
def templateNames : List Str :=
  [g!"_", g!"any", g!"bool", g!"byte", g!"comparable", g!"complex64", g!"complex128", g!"error", g!"float32", g!"float64", g!"int", g!"int8", g!"int16",
    g!"int32", g!"int64", g!"rune", g!"string", g!"uint", g!"uint8", g!"uint16", g!"uint32", g!"uint64", g!"uintptr",
    g!"true", g!"false", g!"iota", g!"nil", g!"append", g!"cap", g!"clear", g!"close", g!"complex", g!"copy", g!"delete", g!"imag", g!"len",
    g!"make", g!"max", g!"min", g!"new", g!"panic", g!"print", g!"println", g!"real", g!"recover",
    g!"apm", g!"atomic", g!"attribute", g!"_codes", g!"context", g!"errors", g!"_ext", g!"fmt", g!"grpc_codes", g!"grpc_status", g!"io", g!"json", g!"log",
    g!"_log", g!"logrus", g!"opentracing", g!"otel", g!"promauto", g!"prometheus", g!"strings", g!"sync", g!"time", g!"trace", g!"twirp",
    g!"base", g!"burst", g!"config", g!"consecutiveErrors", g!"ctx", g!"d", g!"delay", g!"err", g!"fn", g!"i", g!"ignoreErrors", g!"impls", g!"instance",
    g!"instanceName", g!"interval", g!"jsonReq", g!"key", g!"now", g!"ok", g!"openInterval", g!"opts", g!"perr", g!"pool", g!"r", g!"req",
    g!"retryCount", g!"retryInterval", g!"rps", g!"span", g!"spanDecorator", g!"spanType", g!"stderr", g!"stdout", g!"t", g!"twerr", g!"v", g!"value",
    g!"injectRequestDataToError",
    g!"_d", g!"_span", g!"_ticker", g!"_v", g!"_impl", g!"_res", g!"_cancelFunc", g!"cancelFunc", g!"_since", g!"_counter", g!"result"]

/-- The names in the methods of a generated decorator. -/
structure Locals where
  /-- names that the body of a method declares, and packages, types and functions that it refers to -/
  names : List Str
  /-- names that are declared in a block of the body and hide results of the method -/
  inner : List Str
  /-- packages that the file uses and the template does not import: goimports adds them -/
  imports : List Str

/-- The names in the methods, in the order of `builtins`. -/
def locals : List Locals :=
  [⟨[g!"_params"], [], []⟩,
   ⟨[g!"string", g!"logrus"], [], []⟩,
   ⟨[g!"_since", g!"time"], [], []⟩,
   ⟨[g!"_span", g!"string", g!"opentracing", g!"_ext", g!"_log"], [], []⟩,
   ⟨[g!"_span", g!"string", g!"trace"], [], []⟩,
   ⟨[g!"_span", g!"string", g!"otel", g!"_codes", g!"attribute"], [], []⟩,
   ⟨[g!"span"], [], []⟩,
   ⟨[g!"error"], [g!"_v", g!"_ok"], []⟩,
   ⟨[g!"error", g!"twirp"], [g!"_v", g!"_ok"], []⟩,
   ⟨[g!"error", g!"grpc_codes", g!"grpc_status"], [g!"_v", g!"_ok"], []⟩,
   ⟨[g!"injectRequestDataToError"], [], [g!"json"]⟩,
   ⟨[g!"cancelFunc", g!"context"], [], []⟩,
   ⟨[g!"errors", g!"time"], [g!"_e"], []⟩,
   ⟨[g!"_ticker", g!"time"], [g!"_i"], []⟩,
   ⟨[], [], []⟩,
   ⟨[g!"_counter", g!"atomic"], [], []⟩,
   ⟨[g!"_impl"], [], []⟩,
   ⟨[g!"_resultStruct", g!"_ch", g!"_next", g!"_errorsList", g!"_ticker", g!"_cancelFunc", g!"_res", g!"string", g!"len", g!"append", g!"make", g!"time",
      g!"context", g!"fmt", g!"errors", g!"strings"], [g!"_res", g!"_impl"], [g!"context"]⟩]

/-- The names of the parameters and results are what gowrap makes of them: no two are the same, and the error that a method returns is
`err`.  The source contains no blanks: gowrap leaves them (`C72_blank`). -/
structure NamedMethod (m : Method) : Prop where
  distinct : (m.params.map (·.name) ++ m.results.map (·.name)).Nodup
  blank : ∀ p ∈ m.params ++ m.results, p.name ≠ g!"_"
  err : m.returnsError = true → ∃ p ∈ m.results, p.name = g!"err"

/-- The names of the parameters and results are none of those in the generated method. -/
structure FreshMethod (l : Locals) (m : Method) : Prop where
  names : ∀ p ∈ m.params ++ m.results, p.name ∉ g!"_d" :: l.names
  results : ∀ p ∈ m.results, p.name ∉ l.inner

/-- The name of the decorator is none of those in the generated file. -/
structure FreshName (u : Uni) (d : Inputs) (b : Builtin) : Prop where
  dec : decoratorName d b.suffix ∉ templateNames
  /-- the variable of templates/prometheus is not the decorator or its constructor -/
  metric : b.text = Text.prometheus →
    u.lower d.name ++ g!"DurationSummaryVec" ∉ [decoratorName d b.suffix, g!"New" ++ decoratorName d b.suffix]
  /-- and not hidden by a parameter or result -/
  hidden : b.text = Text.prometheus → ∀ e ∈ d.methods, ∀ p ∈ e.2.params ++ e.2.results, p.name ≠ u.lower d.name ++ g!"DurationSummaryVec"
  /-- templates/elasticapm declares the type of its options with the name given for the decorator -/
  option : b.text = Text.elasticapm → cliVar d g!"DecoratorName" [] = []

end Gowrap.Spec

import Verif.Model.TextTemplate
import Verif.Model.TemplateText
import Verif.Spec.Grammar
/-!
# What it takes for generated text to be Go source

The conditions on the interface and on the command line under which the output of a template should be a Go file,
in terms of the lexical rules of Go (`Model/GoLex.lean`), and what it means that a text consists of declarations.
-/

namespace Gowrap.Spec

open Gowrap Tmpl

/-- The tokens with which a type can end. -/
def EndsType (t : Go.Tok) : Prop :=
  (∃ w, t = .word w) ∨ t = .op g!")" ∨ t = .op g!"]" ∨ t = .op g!"}"

/-- The text of a type: it begins with a token; at the end of a line it is followed by a semicolon, and a closing
parenthesis after it is a token of its own. -/
structure TypeSource (s : Str) : Prop where
  begins : ∃ c r, s = c :: r ∧ c ∉ [' ', '\t', '\r', '\n', '/']
  toks : ∃ ts t, EndsType t ∧ Go.tokens s = some (ts ++ [t, .op g!";"]) ∧
    Go.tokens (s ++ g!")") = some (ts ++ [t, .op g!")", .op g!";"])

/-- The text can be placed between quotes. -/
def InQuotes (s : Str) : Prop := ∀ c ∈ s, c ≠ '"' ∧ c ≠ '\\' ∧ c ≠ '\n'

/-- The names and types of a method. -/
structure GoMethod (m : Method) : Prop where
  name : GoName m.name
  names : ∀ p ∈ m.params ++ m.results, GoName p.name
  types : ∀ p ∈ m.params ++ m.results, TypeSource p.type
  /-- only `C05` and `C04` are needed of what gowrap finds out about the method -/
  ctx : m.acceptsContext = true → ∃ p ps, m.params = p :: ps ∧ p.name = g!"ctx"
  err : m.returnsError = true → m.results ≠ []
  /-- only the last parameter can be variadic, its type then begins with `...` -/
  variadic : ∀ p ∈ m.params.dropLast ++ m.results, p.variadic = false
  dots : ∀ p ∈ m.params ++ m.results, p.variadic = true ↔ ∃ l, Go.typeToks p.type = .op g!"..." :: l
  /-- no parameter hides a constant -/
  plain : ∀ p ∈ m.params ++ m.results, p.name ∉ [g!"nil", g!"true", g!"false"]

/-- The variables on the command line: none without a value, names are names. -/
structure GoVars (d : Inputs) : Prop where
  values : ∀ k, d.vars k ≠ some .flag
  decorator : ∀ s, d.vars g!"DecoratorName" = some (.text s) → s ≠ [] → GoName s
  component : ∀ s, d.vars g!"ComponentName" = some (.text s) → InQuotes s
  metric : ∀ s, d.vars g!"MetricName" = some (.text s) → InQuotes s
  span : ∀ s, d.vars g!"SpanNamePrefix" = some (.text s) → InQuotes s

/-- The interface that is decorated: lower case forms of letters are letters, its type is a name, possibly with a
package name or type arguments. -/
structure GoInputs (u : Uni) (d : Inputs) : Prop where
  lower : ∀ c, Go.letter c = true → Go.letter (u.toLower c) = true
  name : GoName d.name
  type : TypeSource d.type
  typeName : ∃ c r, d.type = c :: r ∧ Go.letter c = true
  typeQuotable : InQuotes d.type
  methods : ∀ e ∈ d.methods, e.1 = e.2.name ∧ GoMethod e.2
  distinct : (d.methods.map (·.1)).Nodup
  vars : GoVars d

/-- The types that are taken from the source of the interface. -/
def sourceTypes (d : Inputs) : Go.Sources where
  type l := l = Go.typeToks d.type ∨ ∃ e ∈ d.methods, ∃ p ∈ e.2.params ++ e.2.results, p.variadic = false ∧ l = Go.typeToks p.type
  variadic l := ∃ e ∈ d.methods, ∃ p ∈ e.2.params, p.variadic = true ∧ l = Go.typeToks p.type

/-- The text consists of the declarations, and they are derivations of the grammar of Go. -/
def Consists (d : Inputs) (s : Str) (ds : List Go.Decl) : Prop :=
  Go.tokens s = some (Go.putDecls ds []) ∧ Go.Grammatical (sourceTypes d) ds

/-- A variable of the command line, or a default value if it is missing or empty. -/
def cliVar (d : Inputs) (k dflt : Str) : Str :=
  match d.vars k with
  | some (.text s) => if s = [] then dflt else s
  | _ => dflt

/-- The name of the generated type: the variable `DecoratorName`, or the name of the interface and a suffix. -/
def decoratorName (d : Inputs) (suffix : Str) : Str := cliVar d g!"DecoratorName" (d.name ++ suffix)

/-- The declarations contain a type with the fields and methods of a decorator: a call of any method of the interface
does what the decorator does. -/
def Generates (G : GoTypes) (ds : List Go.Decl) (type : Str) (d : Inputs) (link : Method → Go.Link) (D : Decorator) : Prop :=
  let F : Go.Generated := ⟨ds, type, d.name, d.type, D.base, link⟩
  F.fields = D.fields ∧ F.embeds = D.embeds ∧
  ∀ e ∈ d.methods, ∀ self args, F.call G e.2 self args = D.call G e.2 (g!"_d", self) args

/-- The functions that the methods start as goroutines do what `tree` says, and every method has a function for each of the kinds. -/
def Starts (ds : List Go.Decl) (type : Str) (d : Inputs) (link : Method → Go.Link) (tree : Method → Env → Goroutine → Tree Outcome)
    (kinds : List Goroutine) : Prop :=
  (∀ e ∈ d.methods, ∀ x ∈ Go.methodsOf type ds, x.name = e.2.name → ∀ f ∈ Go.goFns x.body,
    ∃ g, (link e.2).spawn f.1 = some g ∧ ∀ env, (Go.denGo (link e.2) f.1 f.2 env).bind Go.goEnd = tree e.2 env g) ∧
  ∀ e ∈ d.methods, ∀ g ∈ kinds, ∃ x ∈ Go.methodsOf type ds, x.name = e.2.name ∧ ∃ f ∈ Go.goFns x.body, (link e.2).spawn f.1 = some g

/-- Which methods of the interface a template declares; the others are methods of the embedded interface, if any. -/
inductive Which
  | all
  | context
  | error

def Which.holds : Which → Method → Prop
  | .all, _ => True
  | .context, m => m.acceptsContext = true
  | .error, m => m.returnsError = true

/-- A built-in template: its text, the suffix of the generated type, the methods that it declares, whether the
generated type embeds the interface, and its other fields. -/
structure Builtin where
  text : Str
  suffix : Str
  which : Which
  embeds : Bool
  fields : List Str

/-- The names of all fields: an embedded field has the name of its type. -/
def Builtin.fieldNames (b : Builtin) (d : Inputs) : List Str := if b.embeds then d.name :: b.fields else b.fields

/-- The names of the fields of a type. -/
def fieldNames (ds : List Go.Decl) (type : Str) (d : Inputs) : List Str :=
  (Go.fieldsOf type ds).flatMap (Go.FieldDecl.names d.name)

/-- All files in /repo/templates. -/
def builtins : List Builtin :=
  [⟨Text.log, g!"WithLog", .all, false, [g!"_stdlog", g!"_errlog", g!"_base"]⟩,
   ⟨Text.logrus, g!"WithLogrus", .all, false, [g!"_log", g!"_base"]⟩,
   ⟨Text.prometheus, g!"WithPrometheus", .all, false, [g!"base", g!"instanceName"]⟩,
   ⟨Text.opentracing, g!"WithTracing", .context, true, [g!"_instance", g!"_spanDecorator"]⟩,
   ⟨Text.opencensus, g!"WithTracing", .context, true, [g!"_instance", g!"_spanDecorator"]⟩,
   ⟨Text.opentelemetry, g!"WithTracing", .context, true, [g!"_instance", g!"_spanDecorator"]⟩,
   ⟨Text.elasticapm, g!"APMTracing", .context, false, [g!"base", g!"startSpan", g!"endSpan", g!"setLabel", g!"captureError", g!"spanType"]⟩,
   ⟨Text.validate, g!"WithValidation", .all, true, []⟩,
   ⟨Text.twirpValidate, g!"WithTwirpValidation", .all, true, []⟩,
   ⟨Text.grpcValidate, g!"WithGRPCValidation", .error, true, []⟩,
   ⟨Text.twirpError, g!"WithTwirpError", .all, true, []⟩,
   ⟨Text.timeout, g!"WithTimeout", .context, true, [g!"config"]⟩,
   ⟨Text.circuitbreaker, g!"WithCircuitBreaker", .error, true, [g!"_lock", g!"_maxConsecutiveErrors", g!"_consecutiveErrors", g!"_openInterval", g!"_closesAt", g!"_ignoreErrors"]⟩,
   ⟨Text.retry, g!"WithRetry", .error, true, [g!"_retryCount", g!"_retryInterval"]⟩,
   ⟨Text.ratelimit, g!"WithRateLimit", .all, false, [g!"_base", g!"_ticks"]⟩,
   ⟨Text.robinpool, g!"RoundRobinPool", .all, false, [g!"pool", g!"poolSize", g!"counter"]⟩,
   ⟨Text.syncpool, g!"Pool", .all, false, [g!"pool"]⟩,
   ⟨Text.fallback, g!"WithFallback", .all, false, [g!"implementations", g!"interval"]⟩]

/-- The methods that the declarations contain for the generated type: in the order of their names, one for each
method of the interface that the template declares, with its parameters and results. -/
structure DeclaresMethods (ds : List Go.Decl) (type : Str) (d : Inputs) (b : Builtin) : Prop where
  order : ((Go.methodsOf type ds).map (·.name)).Pairwise (· < ·)
  complete : ∀ e ∈ d.methods, b.which.holds e.2 → ∃ x ∈ Go.methodsOf type ds, x.name = e.1 ∧ x.declares e.2
  sound : ∀ x ∈ Go.methodsOf type ds, ∃ e ∈ d.methods, b.which.holds e.2 ∧ x.name = e.1 ∧ x.declares e.2
  embeds : (Go.fieldsOf type ds).any (Go.FieldDecl.embeds (Go.typeToks d.type)) = b.embeds
  fields : fieldNames ds type d = b.fieldNames d

/-- The declarations give the generated type all methods of the interface, by declaring them or by embedding the
interface.  A field with the name of a method hides the method of the embedded interface and is not allowed beside a declared
one ("Selectors", "Method declarations"). -/
def Implements (ds : List Go.Decl) (type : Str) (d : Inputs) : Prop :=
  ∀ e ∈ d.methods, e.1 ∉ fieldNames ds type d ∧
    ((Go.fieldsOf type ds).any (Go.FieldDecl.embeds (Go.typeToks d.type)) = true ∨
      ∃ x ∈ Go.methodsOf type ds, x.name = e.1 ∧ x.declares e.2)

end Gowrap.Spec

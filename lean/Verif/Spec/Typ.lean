import Verif.Model.GoFile
/-!
# Types, and what the templates use of other packages

"Types", "Properties of types and values" and "Method sets" of the Go specification for the types that occur in generated files, and
the declarations in other packages that the templates refer to, as their documentation gives them.
-/

namespace Gowrap.Go

open Gowrap

/-- The kinds of untyped constants, and `nil`. -/
inductive Konst
  | int
  | float
  | string
  | bool
  | nil
  deriving DecidableEq

/-- Types.  The names of parameters do not belong to the type of a function. -/
inductive Typ where
  /-- a predeclared type -/
  | basic (x : Str)
  /-- a type of the package with the path `p` -/
  | lib (p x : Str)
  /-- a type that the file declares -/
  | decl (x : Str)
  /-- a type that is declared in a function, and its underlying type -/
  | inner (x : Str) (u : Typ)
  /-- a type in the source of the interface, other than `error` and `context.Context` -/
  | src (l : List Tok)
  | ptr (t : Typ)
  | slice (t : Typ)
  | map (k v : Typ)
  | chan (t : Typ)
  /-- `<-chan T` -/
  | recv (t : Typ)
  /-- the parameters, the type of the elements of the variadic parameter if there is one, and the results -/
  | func (params : List Typ) (dots : Option Typ) (results : List Typ)
  | struct (fields : List (Str × Typ))
  | iface (methods : List (Str × Typ))
  /-- the type of a constant or of `nil` -/
  | untyped (k : Konst)
  /-- the values that a call returns if it is not exactly one -/
  | tuple (ts : List Typ)
  /-- the argument `e...` -/
  | spread (t : Typ)
  /-- none: the expression has no type -/
  | bad

namespace Typ

def string : Typ := .basic g!"string"

def int : Typ := .basic g!"int"

def bool : Typ := .basic g!"bool"

def float64 : Typ := .basic g!"float64"

def uint32 : Typ := .basic g!"uint32"

def error : Typ := .basic g!"error"

/-- `interface{}` -/
def any : Typ := .iface []

/-- A function that returns one value. -/
def fn (ps : List Typ) (r : Typ) : Typ := .func ps none [r]

end Typ

/-- The value that a list of pairs gives to a key. -/
def find {α : Type} (x : Str) : List (Str × α) → Option α
  | [] => none
  | (y, a) :: l => if x = y then some a else find x l

/-- A method; `ptr` says that its receiver is a pointer. -/
structure Meth where
  name : Str
  ptr : Bool
  type : Typ

/-- A type of another package: its underlying type and, if this is not an interface, its methods. -/
structure LibType where
  under : Typ
  methods : List Meth

namespace Lib

/-- A type of which nothing else is known. -/
def hidden : Typ := .bad

def ctx : Typ := .lib g!"context" g!"Context"

def duration : Typ := .lib g!"time" g!"Duration"

def timeT : Typ := .lib g!"time" g!"Time"

def done : Typ := .fn [] (.recv (.struct []))



def logrusP : Str := g!"github.com/sirupsen/logrus"

def apmP : Str := g!"go.elastic.co/apm/v2"

def tracingP : Str := g!"github.com/opentracing/opentracing-go"

def tracingExtP : Str := g!"github.com/opentracing/opentracing-go/ext"

def tracingLogP : Str := g!"github.com/opentracing/opentracing-go/log"

def censusP : Str := g!"go.opencensus.io/trace"

def otelP : Str := g!"go.opentelemetry.io/otel"

def otelTraceP : Str := g!"go.opentelemetry.io/otel/trace"

def otelCodesP : Str := g!"go.opentelemetry.io/otel/codes"

def otelAttrP : Str := g!"go.opentelemetry.io/otel/attribute"

def promP : Str := g!"github.com/prometheus/client_golang/prometheus"

def promautoP : Str := g!"github.com/prometheus/client_golang/prometheus/promauto"

def twirpP : Str := g!"github.com/twitchtv/twirp"

def jsonP : Str := g!"encoding/json"

def codesP : Str := g!"google.golang.org/grpc/codes"

def statusP : Str := g!"google.golang.org/grpc/status"

/-- The types. -/
def types : List ((Str × Str) × LibType) :=
  [((g!"context", g!"Context"), ⟨.iface [(g!"Deadline", .func [] none [timeT, .bool]), (g!"Done", done), (g!"Err", .fn [] .error),
      (g!"Value", .fn [.any] .any)], []⟩),
   ((g!"context", g!"CancelFunc"), ⟨.func [] none [], []⟩),
   ((g!"time", g!"Duration"), ⟨.basic g!"int64", [⟨g!"Seconds", false, .fn [] .float64⟩]⟩),
   ((g!"time", g!"Time"), ⟨hidden, [⟨g!"Add", false, .fn [duration] timeT⟩, ⟨g!"After", false, .fn [timeT] .bool⟩]⟩),
   ((g!"time", g!"Ticker"), ⟨.struct [(g!"C", .recv timeT)], [⟨g!"Stop", true, .func [] none []⟩]⟩),
   ((g!"sync", g!"RWMutex"), ⟨hidden, [⟨g!"Lock", true, .func [] none []⟩, ⟨g!"Unlock", true, .func [] none []⟩,
      ⟨g!"RLock", true, .func [] none []⟩, ⟨g!"RUnlock", true, .func [] none []⟩]⟩),
   ((g!"io", g!"Writer"), ⟨.iface [(g!"Write", .func [.slice (.basic g!"byte")] none [.int, .error])], []⟩),
   ((g!"log", g!"Logger"), ⟨hidden, [⟨g!"Println", true, .func [] (some .any) []⟩]⟩),
   ((logrusP, g!"Fields"), ⟨.map .string .any, []⟩),
   ((logrusP, g!"Entry"), ⟨hidden, [⟨g!"WithFields", true, .fn [.lib logrusP g!"Fields"] (.ptr (.lib logrusP g!"Entry"))⟩,
      ⟨g!"Debug", true, .func [] (some .any) []⟩, ⟨g!"Error", true, .func [] (some .any) []⟩]⟩),
   ((apmP, g!"Span"), ⟨.struct [(g!"SpanData", .ptr (.lib apmP g!"SpanData"))], [⟨g!"End", true, .func [] none []⟩]⟩),
   ((apmP, g!"SpanData"), ⟨.struct [(g!"Context", .lib apmP g!"SpanContext")], []⟩),
   ((apmP, g!"SpanContext"), ⟨hidden, [⟨g!"SetLabel", true, .func [.string, .any] none []⟩]⟩),
   ((apmP, g!"Error"), ⟨hidden, [⟨g!"Send", true, .func [] none []⟩]⟩),
   ((tracingP, g!"Span"), ⟨.iface [(g!"Finish", .func [] none []), (g!"LogFields", .func [] (some (.lib tracingLogP g!"Field")) [])], []⟩),
   ((tracingExtP, g!"boolTagName"), ⟨.string, [⟨g!"Set", false, .func [.lib tracingP g!"Span", .bool] none []⟩]⟩),
   ((tracingLogP, g!"Field"), ⟨hidden, []⟩),
   ((censusP, g!"Span"), ⟨hidden, [⟨g!"AddAttributes", true, .func [] (some (.lib censusP g!"Attribute")) []⟩, ⟨g!"End", true, .func [] none []⟩]⟩),
   ((censusP, g!"Attribute"), ⟨hidden, []⟩),
   ((otelTraceP, g!"Tracer"), ⟨.iface [(g!"Start", .func [ctx, .string] (some (.lib otelTraceP g!"SpanStartOption")) [ctx, .lib otelTraceP g!"Span"])], []⟩),
   ((otelTraceP, g!"Span"), ⟨.iface [(g!"End", .func [] (some (.lib otelTraceP g!"SpanEndOption")) []),
      (g!"RecordError", .func [.error] (some (.lib otelTraceP g!"EventOption")) []),
      (g!"SetStatus", .func [.lib otelCodesP g!"Code", .string] none []),
      (g!"SetAttributes", .func [] (some (.lib otelAttrP g!"KeyValue")) [])], []⟩),
   ((otelCodesP, g!"Code"), ⟨.uint32, []⟩),
   ((otelAttrP, g!"KeyValue"), ⟨hidden, []⟩),
   ((promP, g!"SummaryOpts"), ⟨.struct [(g!"Namespace", .string), (g!"Subsystem", .string), (g!"Name", .string), (g!"Help", .string),
      (g!"ConstLabels", .lib promP g!"Labels"), (g!"Objectives", .map .float64 .float64), (g!"MaxAge", duration),
      (g!"AgeBuckets", .uint32), (g!"BufCap", .uint32)], []⟩),
   ((promP, g!"SummaryVec"), ⟨hidden, [⟨g!"WithLabelValues", true, .func [] (some .string) [.lib promP g!"Observer"]⟩]⟩),
   ((promP, g!"Observer"), ⟨.iface [(g!"Observe", .func [.float64] none [])], []⟩),
   ((twirpP, g!"Error"), ⟨.iface [(g!"Code", .fn [] (.lib twirpP g!"ErrorCode")), (g!"Msg", .fn [] .string),
      (g!"WithMeta", .fn [.string, .string] (.lib twirpP g!"Error")), (g!"Meta", .fn [.string] .string),
      (g!"MetaMap", .fn [] (.map .string .string)), (g!"Error", .fn [] .string)], []⟩),
   ((twirpP, g!"ErrorCode"), ⟨.string, []⟩),
   ((codesP, g!"Code"), ⟨.uint32, []⟩)]

/-- The functions, variables and constants with their types. -/
def values : List ((Str × Str) × Typ) :=
  [((g!"errors", g!"New"), .fn [.string] .error),
   ((g!"errors", g!"Is"), .fn [.error, .error] .bool),
   ((g!"fmt", g!"Errorf"), .func [.string] (some .any) [.error]),
   ((g!"strings", g!"Join"), .fn [.slice .string, .string] .string),
   ((g!"context", g!"WithTimeout"), .func [ctx, duration] none [ctx, .lib g!"context" g!"CancelFunc"]),
   ((g!"context", g!"WithCancel"), .func [ctx] none [ctx, .lib g!"context" g!"CancelFunc"]),
   ((g!"time", g!"Now"), .fn [] timeT),
   ((g!"time", g!"Since"), .fn [timeT] duration),
   ((g!"time", g!"Tick"), .fn [duration] (.recv timeT)),
   ((g!"time", g!"NewTicker"), .fn [duration] (.ptr (.lib g!"time" g!"Ticker"))),
   ((g!"time", g!"Second"), duration),
   ((g!"time", g!"Minute"), duration),
   ((g!"sync/atomic", g!"AddUint32"), .fn [.ptr .uint32, .uint32] .uint32),
   ((g!"log", g!"New"), .fn [.lib g!"io" g!"Writer", .string, .int] (.ptr (.lib g!"log" g!"Logger"))),
   ((g!"log", g!"LstdFlags"), .untyped .int),
   ((apmP, g!"StartSpan"), .func [ctx, .string, .string] none [.ptr (.lib apmP g!"Span"), ctx]),
   ((apmP, g!"CaptureError"), .fn [ctx, .error] (.ptr (.lib apmP g!"Error"))),
   ((tracingP, g!"StartSpanFromContext"), .func [ctx, .string] (some (.lib tracingP g!"StartSpanOption")) [.lib tracingP g!"Span", ctx]),
   ((tracingExtP, g!"Error"), .lib tracingExtP g!"boolTagName"),
   ((tracingLogP, g!"String"), .fn [.string, .string] (.lib tracingLogP g!"Field")),
   ((censusP, g!"StartSpan"), .func [ctx, .string] (some (.lib censusP g!"StartOption")) [ctx, .ptr (.lib censusP g!"Span")]),
   ((censusP, g!"BoolAttribute"), .fn [.string, .bool] (.lib censusP g!"Attribute")),
   ((censusP, g!"StringAttribute"), .fn [.string, .string] (.lib censusP g!"Attribute")),
   ((otelP, g!"Tracer"), .func [.string] (some (.lib otelTraceP g!"TracerOption")) [.lib otelTraceP g!"Tracer"]),
   ((otelCodesP, g!"Error"), .lib otelCodesP g!"Code"),
   ((otelAttrP, g!"String"), .fn [.string, .string] (.lib otelAttrP g!"KeyValue")),
   ((promautoP, g!"NewSummaryVec"), .fn [.lib promP g!"SummaryOpts", .slice .string] (.ptr (.lib promP g!"SummaryVec"))),
   ((twirpP, g!"NewError"), .fn [.lib twirpP g!"ErrorCode", .string] (.lib twirpP g!"Error")),
   ((twirpP, g!"InternalErrorWith"), .fn [.error] (.lib twirpP g!"Error")),
   ((twirpP, g!"InvalidArgument"), .lib twirpP g!"ErrorCode"),
   ((jsonP, g!"Marshal"), .func [.any] none [.slice (.basic g!"byte"), .error]),
   ((codesP, g!"InvalidArgument"), .lib codesP g!"Code"),
   ((statusP, g!"Error"), .fn [.lib codesP g!"Code", .string] .error)]

/-- The entry of a table. -/
def get {α : Type} (p x : Str) : List ((Str × Str) × α) → Option α
  | [] => none
  | (k, a) :: l => if k.1 = p ∧ k.2 = x then some a else get p x l

end Lib

/-! ## Types in a file -/

/-- What a file says about types: the underlying types of those that it declares, and the decorated interface. -/
structure FileTypes where
  decls : List (Str × Typ)
  /-- the type of the interface in the source, and its methods -/
  iface : List Tok
  methods : List (Str × Typ)

/-- The methods of `error`. -/
def errorMethods : List (Str × Typ) := [(g!"Error", .fn [] .string)]

namespace Typ

variable (F : FileTypes)

/-- "Underlying types". -/
def under : Typ → Typ
  | .basic x => if x = g!"error" then .iface errorMethods else .basic x
  | .lib p x => match Lib.get p x Lib.types with
    | some t => t.under
    | none => .bad
  | .decl x => (find x F.decls).getD .bad
  | .inner _ u => u
  | .src l => if l = F.iface then .iface F.methods else .bad
  | t => t

/-- The type has a name, or may have one. -/
def named : Typ → Bool
  | .basic _ | .lib _ _ | .decl _ | .inner _ _ | .src _ => true
  | _ => false

/-- The type is that of a single value. -/
def single : Typ → Bool
  | .untyped _ | .tuple _ | .spread _ | .bad => false
  | _ => true

def ofIface (ms : List (Str × Typ)) : List Meth := ms.map fun e => ⟨e.1, false, e.2⟩

/-- The methods of a type. -/
def methods (t : Typ) : List Meth :=
  match t.under F with
  | .iface ms => ofIface ms
  | _ => match t with
    | .lib p x => ((Lib.get p x Lib.types).map (·.methods)).getD []
    | .ptr (.lib p x) => (((Lib.get p x Lib.types).map (·.methods)).getD []).map fun e => { e with ptr := false }
    | _ => []

/-- What a pointer points to, or the type itself. -/
def base : Typ → Typ
  | .ptr t => t
  | t => t

/-- "Selectors": the field of a struct or of what a pointer points to, or a method. -/
def field (t : Typ) (f : Str) : Option Typ :=
  match t.base.under F with
  | .struct fs => find f fs
  | _ => none

def method (t : Typ) (f : Str) : Option Meth := (t.methods F).find? fun e => decide (e.name = f)

def member (t : Typ) (f : Str) : Typ :=
  match t.field F f with
  | some a => a
  | none => match t.method F f with
    | some e => e.type
    | none => .bad

/-- The field exists, or the method exists and its receiver can be had. -/
def HasMember (t : Typ) (f : Str) (addressable : Bool) : Prop :=
  match t.field F f with
  | some _ => True
  | none => match t.method F f with
    | some e => e.ptr = true → addressable = true
    | none => False

def isNumeric : Typ → Bool
  | .basic x => decide (x ∈ [g!"int", g!"int64", g!"uint32", g!"float64"])
  | _ => false

def isInteger : Typ → Bool
  | .basic x => decide (x ∈ [g!"int", g!"int64", g!"uint32"])
  | _ => false

/-- A value of the type can be `nil`. -/
def nilable : Typ → Bool
  | .ptr _ | .slice _ | .map _ _ | .chan _ | .recv _ | .func _ _ _ | .iface _ => true
  | _ => false

/-- "Representability"; the values of constants are not looked at. -/
def holds (k : Konst) (t : Typ) : Prop :=
  match k with
  | .nil => (t.under F).nilable = true
  | .int => (t.under F).isNumeric = true ∨ t.under F = .any
  | .float => t.under F = .float64 ∨ t.under F = .any
  | .string => t.under F = .string ∨ t.under F = .any
  | .bool => t.under F = .bool ∨ t.under F = .any

/-- "Implementing an interface". -/
def Implements (v t : Typ) : Prop :=
  match t.under F with
  | .iface ms => ∀ e ∈ ms, ∃ k ∈ v.methods F, k.name = e.1 ∧ k.type = e.2 ∧ k.ptr = false
  | _ => False

/-- "Assignability". -/
def Assignable (v t : Typ) : Prop :=
  match v with
  | .untyped k => t.holds F k
  | v => v.single = true ∧
      (v = t ∨ (v.under F ≠ .bad ∧ v.under F = t.under F ∧ (v.named && t.named) = false) ∨ v.Implements F t ∨ ∃ e, v = .chan e ∧ t = .recv e)

/-- The type of a variable that is declared without a type. -/
def default : Typ → Typ
  | .untyped .int => .int
  | .untyped .float => .float64
  | .untyped .string => .string
  | .untyped .bool => .bool
  | .untyped .nil => .bad
  | t => t

/-- "Conversions". -/
def Convertible (v t : Typ) : Prop :=
  v.Assignable F t ∨ ((v.default.under F).isNumeric = true ∧ (t.under F).isNumeric = true) ∨
    (v.under F ≠ .bad ∧ v.under F = t.under F) ∨ (v = .slice (.basic g!"byte") ∧ t.under F = .string)

/-- "Comparison operators", `==` and `!=`: values of basic types, or any with `nil`. -/
def Comparable (a b : Typ) : Prop :=
  (b = .untyped .nil ∧ a.Assignable F a ∧ (a.under F).nilable = true) ∨
    ((a.Assignable F b ∨ b.Assignable F a) ∧ ∃ x, a.default.under F = .basic x)

/-- Both operands have the same type, or one of them is a constant. -/
def Match (a b : Typ) : Prop := match a, b with
  | .untyped k, .untyped l => k = l ∧ k ≠ .nil
  | .untyped k, b => b.holds F k
  | a, .untyped k => a.holds F k
  | a, b => a = b

/-- The type of an operation on two operands of the same type. -/
def joined (a b : Typ) : Typ := match a with
  | .untyped _ => b
  | _ => a

end Typ

end Gowrap.Go

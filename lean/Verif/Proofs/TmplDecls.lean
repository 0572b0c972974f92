import Verif.Proofs.SourceLex
import Verif.Model.GoFile
import Verif.Proofs.TmCircuitbreaker
import Verif.Proofs.TmElasticapm
import Verif.Proofs.TmFallback
import Verif.Proofs.TmGrpcValidate
import Verif.Proofs.TmLog
import Verif.Proofs.TmLogrus
import Verif.Proofs.TmOpencensus
import Verif.Proofs.TmOpentelemetry
import Verif.Proofs.TmOpentracing
import Verif.Proofs.TmPrometheus
import Verif.Proofs.TmRatelimit
import Verif.Proofs.TmRetry
import Verif.Proofs.TmRobinpool
import Verif.Proofs.TmSyncpool
import Verif.Proofs.TmTimeout
import Verif.Proofs.TmTwirpError
import Verif.Proofs.TmTwirpValidate
import Verif.Proofs.TmValidate
/-!
# The declarations of the generated files

For every built-in template, all declarations of the file except the methods.
-/

namespace Gowrap.Tmpl

open Gowrap Go

set_option maxRecDepth 100000

/-- What is declared before and after the methods: one struct type and no methods. -/
structure Around (dec : Str) (pre post : List Go.Decl) (fs : List FieldDecl) : Prop where
  before : methodsOf dec pre = []
  after : methodsOf dec post = []
  structs : (flatDecls pre).filterMap (Decl.structOf dec) ++ (flatDecls post).filterMap (Decl.structOf dec) = [fs]

/-- The fields of the decorator. -/
def fieldsCircuitbreaker (d : Inputs) (n : Names) : List FieldDecl :=
  [.embedded (.toks (lexed d.type)), .named [g!"_lock"] (.qual g!"sync" g!"RWMutex"), .named [g!"_maxConsecutiveErrors"] (.name g!"int"), .named [g!"_consecutiveErrors"] (.name g!"int"), .named [g!"_openInterval"] (.qual g!"time" g!"Duration"), .named [g!"_closesAt"] (.ptr (.qual g!"time" g!"Time")), .named [g!"_ignoreErrors"] (.slice (.name g!"error"))]

/-- The declarations before the methods. -/
def beforeCircuitbreaker (u : Uni) (d : Inputs) (n : Names) (config : List FieldDecl) : List Go.Decl :=
  [.imports [(none, g!"errors"), (none, g!"sync"), (none, g!"time")],
    .struct n.dec (fieldsCircuitbreaker d n),
    .func (g!"New" ++ n.dec) [.mk [g!"base"] (.toks (lexed d.type)), .mk [g!"consecutiveErrors"] (.name g!"int"), .mk [g!"openInterval"] (.qual g!"time" g!"Duration"), .mk [g!"ignoreErrors"] (.dots (.name g!"error"))] (.list [.mk [] (.ptr (.name n.dec))]) [.ret [(.un g!"&" (.lit (.name n.dec) [(.pair (.id d.name) (.id g!"base")), (.pair (.id g!"_maxConsecutiveErrors") (.id g!"consecutiveErrors")), (.pair (.id g!"_openInterval") (.id g!"openInterval")), (.pair (.id g!"_ignoreErrors") (.id g!"ignoreErrors"))] true))]]]

/-- The declarations after the methods. -/
def afterCircuitbreaker : List Go.Decl :=
  []

theorem tmCircuitbreaker_file (u : Uni) (d : Inputs) : tmCircuitbreaker.decls u d =
    beforeCircuitbreaker u d (tmCircuitbreaker.names u d) [] ++ .many (d.sorted.flatMap (tmCircuitbreaker.methodDecls u d)) :: afterCircuitbreaker := by
  have h : ∀ n ct cs mt ms, declsOf (fileFill u d n ct cs mt ms) (filePieces tmCircuitbreaker.pre tmCircuitbreaker.rest) =
      beforeCircuitbreaker u d n cs ++ .many ms :: afterCircuitbreaker := by
    intros; krfl
  exact h _ _ _ _ _

theorem tmCircuitbreaker_around (u : Uni) (d : Inputs) (n : Names) (config : List FieldDecl) :
    Around n.dec (beforeCircuitbreaker u d n config) afterCircuitbreaker (fieldsCircuitbreaker d n) := by
  constructor <;> simp [beforeCircuitbreaker, afterCircuitbreaker, fieldsCircuitbreaker, methodsOf, flatDecls, Decl.flat, Decl.methodOf, Decl.structOf,
    flatFields, FieldDecl.flat, List.filterMap_cons]

/-- The fields of the decorator. -/
def fieldsElasticapm (d : Inputs) (n : Names) : List FieldDecl :=
  [.named [g!"base"] (.toks (lexed d.type)), .named [g!"startSpan"] (.func [.mk [g!"ctx"] (.qual g!"context" g!"Context"), .mk [g!"name", g!"spanType"] (.name g!"string")] (.list [.mk [] (.ptr (.qual g!"apm" g!"Span")), .mk [] (.qual g!"context" g!"Context")])), .named [g!"endSpan"] (.func [.mk [g!"span"] (.ptr (.qual g!"apm" g!"Span"))] .none), .named [g!"setLabel"] (.func [.mk [g!"span"] (.ptr (.qual g!"apm" g!"Span")), .mk [g!"key"] (.name g!"string"), .mk [g!"value"] (.iface [])] .none), .named [g!"captureError"] (.func [.mk [g!"ctx"] (.qual g!"context" g!"Context"), .mk [g!"err"] (.name g!"error")] .none), .named [g!"spanType"] (.name g!"string")]

/-- The declarations before the methods. -/
def beforeElasticapm (u : Uni) (d : Inputs) (n : Names) (config : List FieldDecl) : List Go.Decl :=
  [.imports [(none, g!"context"), (none, g!"go.elastic.co/apm/v2")],
    .struct n.dec (fieldsElasticapm d n),
    .type n.option (.func [.mk [g!"v"] (.ptr (.name n.dec))] .none),
    .func (n.dec ++ g!"WithUsingSetLabel") [] (.one (.name n.option)) [.ret [(.fn [.mk [g!"v"] (.ptr (.name n.dec))] .none [.assign [(.sel (.id g!"v") g!"setLabel")] [(.fn [.mk [g!"span"] (.ptr (.qual g!"apm" g!"Span")), .mk [g!"key"] (.name g!"string"), .mk [g!"value"] (.iface [])] .none [.expr (.call (.sel (.sel (.sel (.id g!"span") g!"SpanData") g!"Context") g!"SetLabel") [(.id g!"key"), (.id g!"value")] false)])]])]],
    .func (n.dec ++ g!"WithSpanType") [.mk [g!"spanType"] (.name g!"string")] (.one (.name n.option)) [.ret [(.fn [.mk [g!"v"] (.ptr (.name n.dec))] .none [.assign [(.sel (.id g!"v") g!"spanType")] [(.id g!"spanType")]])]],
    .func (g!"New" ++ n.dec) [.mk [g!"base"] (.toks (lexed d.type)), .mk [g!"opts"] (.dots (.name (n.dec ++ g!"Option")))] (.one (.name n.dec)) [.define [(.id g!"r")] [(.lit (.name n.dec) [(.pair (.id g!"base") (.id g!"base")), (.pair (.id g!"startSpan") (.sel (.id g!"apm") g!"StartSpan")), (.pair (.id g!"endSpan") (.fn [.mk [g!"span"] (.ptr (.qual g!"apm" g!"Span"))] .none [.expr (.call (.sel (.id g!"span") g!"End") [] false)])), (.pair (.id g!"setLabel") (.fn [.mk [g!"span"] (.ptr (.qual g!"apm" g!"Span")), .mk [g!"key"] (.name g!"string"), .mk [g!"value"] (.iface [])] .none [])), (.pair (.id g!"captureError") (.fn [.mk [g!"ctx"] (.qual g!"context" g!"Context"), .mk [g!"err"] (.name g!"error")] .none [.expr (.call (.sel (.call (.sel (.id g!"apm") g!"CaptureError") [(.id g!"ctx"), (.id g!"err")] false) g!"Send") [] false)])), (.pair (.id g!"spanType") (.str n.component))] true)], .range [(.id g!"_"), (.id g!"fn")] (.id g!"opts") [.expr (.call (.id g!"fn") [(.un g!"&" (.id g!"r"))] false)], .ret [(.id g!"r")]]]

/-- The declarations after the methods. -/
def afterElasticapm : List Go.Decl :=
  []

theorem tmElasticapm_file (u : Uni) (d : Inputs) : tmElasticapm.decls u d =
    beforeElasticapm u d (tmElasticapm.names u d) [] ++ .many (d.sorted.flatMap (tmElasticapm.methodDecls u d)) :: afterElasticapm := by
  have h : ∀ n ct cs mt ms, declsOf (fileFill u d n ct cs mt ms) (filePieces tmElasticapm.pre tmElasticapm.rest) =
      beforeElasticapm u d n cs ++ .many ms :: afterElasticapm := by
    intros; krfl
  exact h _ _ _ _ _

theorem tmElasticapm_around (u : Uni) (d : Inputs) (n : Names) (config : List FieldDecl) :
    Around n.dec (beforeElasticapm u d n config) afterElasticapm (fieldsElasticapm d n) := by
  constructor <;> simp [beforeElasticapm, afterElasticapm, fieldsElasticapm, methodsOf, flatDecls, Decl.flat, Decl.methodOf, Decl.structOf,
    flatFields, FieldDecl.flat, List.filterMap_cons]

/-- The fields of the decorator. -/
def fieldsFallback (d : Inputs) (n : Names) : List FieldDecl :=
  [.named [g!"implementations"] (.slice (.toks (lexed d.type))), .named [g!"interval"] (.qual g!"time" g!"Duration")]

/-- The declarations before the methods. -/
def beforeFallback (u : Uni) (d : Inputs) (n : Names) (config : List FieldDecl) : List Go.Decl :=
  [.imports [(none, g!"errors"), (none, g!"fmt"), (none, g!"strings"), (none, g!"time")],
    .struct n.dec (fieldsFallback d n),
    .func (g!"New" ++ n.dec) [.mk [g!"interval"] (.qual g!"time" g!"Duration"), .mk [g!"impls"] (.dots (.toks (lexed d.type)))] (.one (.name n.dec)) [.ret [(.lit (.name n.dec) [(.pair (.id g!"implementations") (.id g!"impls")), (.pair (.id g!"interval") (.id g!"interval"))] false)]]]

/-- The declarations after the methods. -/
def afterFallback : List Go.Decl :=
  []

theorem tmFallback_file (u : Uni) (d : Inputs) : tmFallback.decls u d =
    beforeFallback u d (tmFallback.names u d) [] ++ .many (d.sorted.flatMap (tmFallback.methodDecls u d)) :: afterFallback := by
  have h : ∀ n ct cs mt ms, declsOf (fileFill u d n ct cs mt ms) (filePieces tmFallback.pre tmFallback.rest) =
      beforeFallback u d n cs ++ .many ms :: afterFallback := by
    intros; krfl
  exact h _ _ _ _ _

theorem tmFallback_around (u : Uni) (d : Inputs) (n : Names) (config : List FieldDecl) :
    Around n.dec (beforeFallback u d n config) afterFallback (fieldsFallback d n) := by
  constructor <;> simp [beforeFallback, afterFallback, fieldsFallback, methodsOf, flatDecls, Decl.flat, Decl.methodOf, Decl.structOf,
    flatFields, FieldDecl.flat, List.filterMap_cons]

/-- The fields of the decorator. -/
def fieldsGrpcValidate (d : Inputs) (n : Names) : List FieldDecl :=
  [.embedded (.toks (lexed d.type))]

/-- The declarations before the methods. -/
def beforeGrpcValidate (u : Uni) (d : Inputs) (n : Names) (config : List FieldDecl) : List Go.Decl :=
  [.imports [(some g!"grpc_codes", g!"google.golang.org/grpc/codes"), (some g!"grpc_status", g!"google.golang.org/grpc/status")],
    .struct n.dec (fieldsGrpcValidate d n),
    .func (g!"New" ++ n.dec) [.mk [g!"base"] (.toks (lexed d.type))] (.one (.name n.dec)) [.ret [(.lit (.name n.dec) [(.pair (.id d.name) (.id g!"base"))] true)]]]

/-- The declarations after the methods. -/
def afterGrpcValidate : List Go.Decl :=
  []

theorem tmGrpcValidate_file (u : Uni) (d : Inputs) : tmGrpcValidate.decls u d =
    beforeGrpcValidate u d (tmGrpcValidate.names u d) [] ++ .many (d.sorted.flatMap (tmGrpcValidate.methodDecls u d)) :: afterGrpcValidate := by
  have h : ∀ n ct cs mt ms, declsOf (fileFill u d n ct cs mt ms) (filePieces tmGrpcValidate.pre tmGrpcValidate.rest) =
      beforeGrpcValidate u d n cs ++ .many ms :: afterGrpcValidate := by
    intros; krfl
  exact h _ _ _ _ _

theorem tmGrpcValidate_around (u : Uni) (d : Inputs) (n : Names) (config : List FieldDecl) :
    Around n.dec (beforeGrpcValidate u d n config) afterGrpcValidate (fieldsGrpcValidate d n) := by
  constructor <;> simp [beforeGrpcValidate, afterGrpcValidate, fieldsGrpcValidate, methodsOf, flatDecls, Decl.flat, Decl.methodOf, Decl.structOf,
    flatFields, FieldDecl.flat, List.filterMap_cons]

/-- The fields of the decorator. -/
def fieldsLog (d : Inputs) (n : Names) : List FieldDecl :=
  [.named [g!"_stdlog", g!"_errlog"] (.ptr (.qual g!"log" g!"Logger")), .named [g!"_base"] (.toks (lexed d.type))]

/-- The declarations before the methods. -/
def beforeLog (u : Uni) (d : Inputs) (n : Names) (config : List FieldDecl) : List Go.Decl :=
  [.imports [(none, g!"io"), (none, g!"log")],
    .struct n.dec (fieldsLog d n),
    .func (g!"New" ++ n.dec) [.mk [g!"base"] (.toks (lexed d.type)), .mk [g!"stdout", g!"stderr"] (.qual g!"io" g!"Writer")] (.one (.name n.dec)) [.ret [(.lit (.name n.dec) [(.pair (.id g!"_base") (.id g!"base")), (.pair (.id g!"_stdlog") (.call (.sel (.id g!"log") g!"New") [(.id g!"stdout"), (.str []), (.sel (.id g!"log") g!"LstdFlags")] false)), (.pair (.id g!"_errlog") (.call (.sel (.id g!"log") g!"New") [(.id g!"stderr"), (.str []), (.sel (.id g!"log") g!"LstdFlags")] false))] true)]]]

/-- The declarations after the methods. -/
def afterLog : List Go.Decl :=
  []

theorem tmLog_file (u : Uni) (d : Inputs) : tmLog.decls u d =
    beforeLog u d (tmLog.names u d) [] ++ .many (d.sorted.flatMap (tmLog.methodDecls u d)) :: afterLog := by
  have h : ∀ n ct cs mt ms, declsOf (fileFill u d n ct cs mt ms) (filePieces tmLog.pre tmLog.rest) =
      beforeLog u d n cs ++ .many ms :: afterLog := by
    intros; krfl
  exact h _ _ _ _ _

theorem tmLog_around (u : Uni) (d : Inputs) (n : Names) (config : List FieldDecl) :
    Around n.dec (beforeLog u d n config) afterLog (fieldsLog d n) := by
  constructor <;> simp [beforeLog, afterLog, fieldsLog, methodsOf, flatDecls, Decl.flat, Decl.methodOf, Decl.structOf,
    flatFields, FieldDecl.flat, List.filterMap_cons]

/-- The fields of the decorator. -/
def fieldsLogrus (d : Inputs) (n : Names) : List FieldDecl :=
  [.named [g!"_log"] (.ptr (.qual g!"logrus" g!"Entry")), .named [g!"_base"] (.toks (lexed d.type))]

/-- The declarations before the methods. -/
def beforeLogrus (u : Uni) (d : Inputs) (n : Names) (config : List FieldDecl) : List Go.Decl :=
  [.imports [(none, g!"io"), (none, g!"github.com/sirupsen/logrus")],
    .struct n.dec (fieldsLogrus d n),
    .func (g!"New" ++ n.dec) [.mk [g!"base"] (.toks (lexed d.type)), .mk [g!"log"] (.ptr (.qual g!"logrus" g!"Entry"))] (.one (.name n.dec)) [.ret [(.lit (.name n.dec) [(.pair (.id g!"_base") (.id g!"base")), (.pair (.id g!"_log") (.id g!"log"))] true)]]]

/-- The declarations after the methods. -/
def afterLogrus : List Go.Decl :=
  []

theorem tmLogrus_file (u : Uni) (d : Inputs) : tmLogrus.decls u d =
    beforeLogrus u d (tmLogrus.names u d) [] ++ .many (d.sorted.flatMap (tmLogrus.methodDecls u d)) :: afterLogrus := by
  have h : ∀ n ct cs mt ms, declsOf (fileFill u d n ct cs mt ms) (filePieces tmLogrus.pre tmLogrus.rest) =
      beforeLogrus u d n cs ++ .many ms :: afterLogrus := by
    intros; krfl
  exact h _ _ _ _ _

theorem tmLogrus_around (u : Uni) (d : Inputs) (n : Names) (config : List FieldDecl) :
    Around n.dec (beforeLogrus u d n config) afterLogrus (fieldsLogrus d n) := by
  constructor <;> simp [beforeLogrus, afterLogrus, fieldsLogrus, methodsOf, flatDecls, Decl.flat, Decl.methodOf, Decl.structOf,
    flatFields, FieldDecl.flat, List.filterMap_cons]

/-- The fields of the decorator. -/
def fieldsOpencensus (d : Inputs) (n : Names) : List FieldDecl :=
  [.embedded (.toks (lexed d.type)), .named [g!"_instance"] (.name g!"string"), .named [g!"_spanDecorator"] (.func [.mk [g!"span"] (.ptr (.qual g!"trace" g!"Span")), .mk [g!"params", g!"results"] mapType] .none)]

/-- The declarations before the methods. -/
def beforeOpencensus (u : Uni) (d : Inputs) (n : Names) (config : List FieldDecl) : List Go.Decl :=
  [.imports [(none, g!"go.opencensus.io/trace")],
    .struct n.dec (fieldsOpencensus d n),
    .func (g!"New" ++ n.dec) [.mk [g!"base"] (.toks (lexed d.type)), .mk [g!"instance"] (.name g!"string"), .mk [g!"spanDecorator"] (.dots (.func [.mk [g!"span"] (.ptr (.qual g!"trace" g!"Span")), .mk [g!"params", g!"results"] mapType] .none))] (.one (.name n.dec)) [.define [(.id g!"d")] [(.lit (.name n.dec) [(.pair (.id d.name) (.id g!"base")), (.pair (.id g!"_instance") (.id g!"instance"))] true)], .cond (.bin g!"&&" (.bin g!">" (.call (.id g!"len") [(.id g!"spanDecorator")] false) (.num g!"0")) (.bin g!"!=" (.index (.id g!"spanDecorator") (.num g!"0")) (.id g!"nil"))) [.assign [(.sel (.id g!"d") g!"_spanDecorator")] [(.index (.id g!"spanDecorator") (.num g!"0"))]], .ret [(.id g!"d")]]]

/-- The declarations after the methods. -/
def afterOpencensus : List Go.Decl :=
  []

theorem tmOpencensus_file (u : Uni) (d : Inputs) : tmOpencensus.decls u d =
    beforeOpencensus u d (tmOpencensus.names u d) [] ++ .many (d.sorted.flatMap (tmOpencensus.methodDecls u d)) :: afterOpencensus := by
  have h : ∀ n ct cs mt ms, declsOf (fileFill u d n ct cs mt ms) (filePieces tmOpencensus.pre tmOpencensus.rest) =
      beforeOpencensus u d n cs ++ .many ms :: afterOpencensus := by
    intros; krfl
  exact h _ _ _ _ _

theorem tmOpencensus_around (u : Uni) (d : Inputs) (n : Names) (config : List FieldDecl) :
    Around n.dec (beforeOpencensus u d n config) afterOpencensus (fieldsOpencensus d n) := by
  constructor <;> simp [beforeOpencensus, afterOpencensus, fieldsOpencensus, methodsOf, flatDecls, Decl.flat, Decl.methodOf, Decl.structOf,
    flatFields, FieldDecl.flat, List.filterMap_cons]

/-- The fields of the decorator. -/
def fieldsOpentelemetry (d : Inputs) (n : Names) : List FieldDecl :=
  [.embedded (.toks (lexed d.type)), .named [g!"_instance"] (.name g!"string"), .named [g!"_spanDecorator"] (.func [.mk [g!"span"] (.qual g!"trace" g!"Span"), .mk [g!"params", g!"results"] mapType] .none)]

/-- The declarations before the methods. -/
def beforeOpentelemetry (u : Uni) (d : Inputs) (n : Names) (config : List FieldDecl) : List Go.Decl :=
  [.imports [(none, g!"context"), (some g!"_codes", g!"go.opentelemetry.io/otel/codes"), (none, g!"go.opentelemetry.io/otel"), (none, g!"go.opentelemetry.io/otel/attribute"), (none, g!"go.opentelemetry.io/otel/trace")],
    .struct n.dec (fieldsOpentelemetry d n),
    .func (g!"New" ++ n.dec) [.mk [g!"base"] (.toks (lexed d.type)), .mk [g!"instance"] (.name g!"string"), .mk [g!"spanDecorator"] (.dots (.func [.mk [g!"span"] (.qual g!"trace" g!"Span"), .mk [g!"params", g!"results"] mapType] .none))] (.one (.name n.dec)) [.define [(.id g!"d")] [(.lit (.name n.dec) [(.pair (.id d.name) (.id g!"base")), (.pair (.id g!"_instance") (.id g!"instance"))] true)], .cond (.bin g!"&&" (.bin g!">" (.call (.id g!"len") [(.id g!"spanDecorator")] false) (.num g!"0")) (.bin g!"!=" (.index (.id g!"spanDecorator") (.num g!"0")) (.id g!"nil"))) [.assign [(.sel (.id g!"d") g!"_spanDecorator")] [(.index (.id g!"spanDecorator") (.num g!"0"))]], .ret [(.id g!"d")]]]

/-- The declarations after the methods. -/
def afterOpentelemetry : List Go.Decl :=
  []

theorem tmOpentelemetry_file (u : Uni) (d : Inputs) : tmOpentelemetry.decls u d =
    beforeOpentelemetry u d (tmOpentelemetry.names u d) [] ++ .many (d.sorted.flatMap (tmOpentelemetry.methodDecls u d)) :: afterOpentelemetry := by
  have h : ∀ n ct cs mt ms, declsOf (fileFill u d n ct cs mt ms) (filePieces tmOpentelemetry.pre tmOpentelemetry.rest) =
      beforeOpentelemetry u d n cs ++ .many ms :: afterOpentelemetry := by
    intros; krfl
  exact h _ _ _ _ _

theorem tmOpentelemetry_around (u : Uni) (d : Inputs) (n : Names) (config : List FieldDecl) :
    Around n.dec (beforeOpentelemetry u d n config) afterOpentelemetry (fieldsOpentelemetry d n) := by
  constructor <;> simp [beforeOpentelemetry, afterOpentelemetry, fieldsOpentelemetry, methodsOf, flatDecls, Decl.flat, Decl.methodOf, Decl.structOf,
    flatFields, FieldDecl.flat, List.filterMap_cons]

/-- The fields of the decorator. -/
def fieldsOpentracing (d : Inputs) (n : Names) : List FieldDecl :=
  [.embedded (.toks (lexed d.type)), .named [g!"_instance"] (.name g!"string"), .named [g!"_spanDecorator"] (.func [.mk [g!"span"] (.qual g!"opentracing" g!"Span"), .mk [g!"params", g!"results"] mapType] .none)]

/-- The declarations before the methods. -/
def beforeOpentracing (u : Uni) (d : Inputs) (n : Names) (config : List FieldDecl) : List Go.Decl :=
  [.imports [(some g!"opentracing", g!"github.com/opentracing/opentracing-go"), (some g!"_ext", g!"github.com/opentracing/opentracing-go/ext"), (some g!"_log", g!"github.com/opentracing/opentracing-go/log")],
    .struct n.dec (fieldsOpentracing d n),
    .func (g!"New" ++ n.dec) [.mk [g!"base"] (.toks (lexed d.type)), .mk [g!"instance"] (.name g!"string"), .mk [g!"spanDecorator"] (.dots (.func [.mk [g!"span"] (.qual g!"opentracing" g!"Span"), .mk [g!"params", g!"results"] mapType] .none))] (.one (.name n.dec)) [.define [(.id g!"d")] [(.lit (.name n.dec) [(.pair (.id d.name) (.id g!"base")), (.pair (.id g!"_instance") (.id g!"instance"))] true)], .cond (.bin g!"&&" (.bin g!">" (.call (.id g!"len") [(.id g!"spanDecorator")] false) (.num g!"0")) (.bin g!"!=" (.index (.id g!"spanDecorator") (.num g!"0")) (.id g!"nil"))) [.assign [(.sel (.id g!"d") g!"_spanDecorator")] [(.index (.id g!"spanDecorator") (.num g!"0"))]], .ret [(.id g!"d")]]]

/-- The declarations after the methods. -/
def afterOpentracing : List Go.Decl :=
  []

theorem tmOpentracing_file (u : Uni) (d : Inputs) : tmOpentracing.decls u d =
    beforeOpentracing u d (tmOpentracing.names u d) [] ++ .many (d.sorted.flatMap (tmOpentracing.methodDecls u d)) :: afterOpentracing := by
  have h : ∀ n ct cs mt ms, declsOf (fileFill u d n ct cs mt ms) (filePieces tmOpentracing.pre tmOpentracing.rest) =
      beforeOpentracing u d n cs ++ .many ms :: afterOpentracing := by
    intros; krfl
  exact h _ _ _ _ _

theorem tmOpentracing_around (u : Uni) (d : Inputs) (n : Names) (config : List FieldDecl) :
    Around n.dec (beforeOpentracing u d n config) afterOpentracing (fieldsOpentracing d n) := by
  constructor <;> simp [beforeOpentracing, afterOpentracing, fieldsOpentracing, methodsOf, flatDecls, Decl.flat, Decl.methodOf, Decl.structOf,
    flatFields, FieldDecl.flat, List.filterMap_cons]

/-- The fields of the decorator. -/
def fieldsPrometheus (d : Inputs) (n : Names) : List FieldDecl :=
  [.named [g!"base"] (.toks (lexed d.type)), .named [g!"instanceName"] (.name g!"string")]

/-- The declarations before the methods. -/
def beforePrometheus (u : Uni) (d : Inputs) (n : Names) (config : List FieldDecl) : List Go.Decl :=
  [.imports [(none, g!"time"), (none, g!"github.com/prometheus/client_golang/prometheus"), (none, g!"github.com/prometheus/client_golang/prometheus/promauto")],
    .struct n.dec (fieldsPrometheus d n),
    .var ((u.lower d.name) ++ g!"DurationSummaryVec") (.call (.sel (.id g!"promauto") g!"NewSummaryVec") [(.lit (.qual g!"prometheus" g!"SummaryOpts") [(.pair (.id g!"Name") (.str n.metric)), (.pair (.id g!"Help") (.str ((u.lower d.name) ++ g!" runtime duration and result"))), (.pair (.id g!"MaxAge") (.sel (.id g!"time") g!"Minute")), (.pair (.id g!"Objectives") (.lit (.map (.name g!"float64") (.name g!"float64")) [(.pair (.num g!"0.5") (.num g!"0.05")), (.pair (.num g!"0.9") (.num g!"0.01")), (.pair (.num g!"0.99") (.num g!"0.001"))] false))] true), (.lit (.slice (.name g!"string")) [(.str g!"instance_name"), (.str g!"method"), (.str g!"result")] false)] false),
    .func (g!"New" ++ n.dec) [.mk [g!"base"] (.toks (lexed d.type)), .mk [g!"instanceName"] (.name g!"string")] (.one (.name n.dec)) [.ret [(.lit (.name n.dec) [(.pair (.id g!"base") (.id g!"base")), (.pair (.id g!"instanceName") (.id g!"instanceName"))] true)]]]

/-- The declarations after the methods. -/
def afterPrometheus : List Go.Decl :=
  []

theorem tmPrometheus_file (u : Uni) (d : Inputs) : tmPrometheus.decls u d =
    beforePrometheus u d (tmPrometheus.names u d) [] ++ .many (d.sorted.flatMap (tmPrometheus.methodDecls u d)) :: afterPrometheus := by
  have h : ∀ n ct cs mt ms, declsOf (fileFill u d n ct cs mt ms) (filePieces tmPrometheus.pre tmPrometheus.rest) =
      beforePrometheus u d n cs ++ .many ms :: afterPrometheus := by
    intros; krfl
  exact h _ _ _ _ _

theorem tmPrometheus_around (u : Uni) (d : Inputs) (n : Names) (config : List FieldDecl) :
    Around n.dec (beforePrometheus u d n config) afterPrometheus (fieldsPrometheus d n) := by
  constructor <;> simp [beforePrometheus, afterPrometheus, fieldsPrometheus, methodsOf, flatDecls, Decl.flat, Decl.methodOf, Decl.structOf,
    flatFields, FieldDecl.flat, List.filterMap_cons]

/-- The fields of the decorator. -/
def fieldsRatelimit (d : Inputs) (n : Names) : List FieldDecl :=
  [.named [g!"_base"] (.toks (lexed d.type)), .named [g!"_ticks"] (.chan (.qual g!"time" g!"Time"))]

/-- The declarations before the methods. -/
def beforeRatelimit (u : Uni) (d : Inputs) (n : Names) (config : List FieldDecl) : List Go.Decl :=
  [.imports [(none, g!"time")],
    .struct n.dec (fieldsRatelimit d n),
    .func (g!"New" ++ n.dec) [.mk [g!"base"] (.toks (lexed d.type)), .mk [g!"burst"] (.name g!"int"), .mk [g!"rps"] (.name g!"float64")] (.one (.ptr (.name n.dec))) [.define [(.id g!"d")] [(.un g!"&" (.lit (.name n.dec) [(.pair (.id g!"_base") (.id g!"base")), (.pair (.id g!"_ticks") (.call (.id g!"make") [(.type (.chan (.qual g!"time" g!"Time"))), (.id g!"burst")] false))] true))], .define [(.id g!"now")] [(.call (.sel (.id g!"time") g!"Now") [] false)], .loop (.define [(.id g!"i")] [(.num g!"0")]) (.bin g!"<" (.id g!"i") (.id g!"burst")) (.inc (.id g!"i")) [.send (.sel (.id g!"d") g!"_ticks") (.id g!"now")], .define [(.id g!"delay")] [(.call (.sel (.id g!"time") g!"Duration") [(.bin g!"/" (.call (.id g!"float64") [(.sel (.id g!"time") g!"Second")] false) (.id g!"rps"))] false)], .go (.call (.fn [] .none [.range [(.id g!"t")] (.call (.sel (.id g!"time") g!"Tick") [(.id g!"delay")] false) [.send (.sel (.id g!"d") g!"_ticks") (.id g!"t")]]) [] false), .ret [(.id g!"d")]]]

/-- The declarations after the methods. -/
def afterRatelimit : List Go.Decl :=
  []

theorem tmRatelimit_file (u : Uni) (d : Inputs) : tmRatelimit.decls u d =
    beforeRatelimit u d (tmRatelimit.names u d) [] ++ .many (d.sorted.flatMap (tmRatelimit.methodDecls u d)) :: afterRatelimit := by
  have h : ∀ n ct cs mt ms, declsOf (fileFill u d n ct cs mt ms) (filePieces tmRatelimit.pre tmRatelimit.rest) =
      beforeRatelimit u d n cs ++ .many ms :: afterRatelimit := by
    intros; krfl
  exact h _ _ _ _ _

theorem tmRatelimit_around (u : Uni) (d : Inputs) (n : Names) (config : List FieldDecl) :
    Around n.dec (beforeRatelimit u d n config) afterRatelimit (fieldsRatelimit d n) := by
  constructor <;> simp [beforeRatelimit, afterRatelimit, fieldsRatelimit, methodsOf, flatDecls, Decl.flat, Decl.methodOf, Decl.structOf,
    flatFields, FieldDecl.flat, List.filterMap_cons]

/-- The fields of the decorator. -/
def fieldsRetry (d : Inputs) (n : Names) : List FieldDecl :=
  [.embedded (.toks (lexed d.type)), .named [g!"_retryCount"] (.name g!"int"), .named [g!"_retryInterval"] (.qual g!"time" g!"Duration")]

/-- The declarations before the methods. -/
def beforeRetry (u : Uni) (d : Inputs) (n : Names) (config : List FieldDecl) : List Go.Decl :=
  [.imports [(none, g!"time")],
    .struct n.dec (fieldsRetry d n),
    .func (g!"New" ++ n.dec) [.mk [g!"base"] (.toks (lexed d.type)), .mk [g!"retryCount"] (.name g!"int"), .mk [g!"retryInterval"] (.qual g!"time" g!"Duration")] (.one (.name n.dec)) [.ret [(.lit (.name n.dec) [(.pair (.id d.name) (.id g!"base")), (.pair (.id g!"_retryCount") (.id g!"retryCount")), (.pair (.id g!"_retryInterval") (.id g!"retryInterval"))] true)]]]

/-- The declarations after the methods. -/
def afterRetry : List Go.Decl :=
  []

theorem tmRetry_file (u : Uni) (d : Inputs) : tmRetry.decls u d =
    beforeRetry u d (tmRetry.names u d) [] ++ .many (d.sorted.flatMap (tmRetry.methodDecls u d)) :: afterRetry := by
  have h : ∀ n ct cs mt ms, declsOf (fileFill u d n ct cs mt ms) (filePieces tmRetry.pre tmRetry.rest) =
      beforeRetry u d n cs ++ .many ms :: afterRetry := by
    intros; krfl
  exact h _ _ _ _ _

theorem tmRetry_around (u : Uni) (d : Inputs) (n : Names) (config : List FieldDecl) :
    Around n.dec (beforeRetry u d n config) afterRetry (fieldsRetry d n) := by
  constructor <;> simp [beforeRetry, afterRetry, fieldsRetry, methodsOf, flatDecls, Decl.flat, Decl.methodOf, Decl.structOf,
    flatFields, FieldDecl.flat, List.filterMap_cons]

/-- The fields of the decorator. -/
def fieldsRobinpool (d : Inputs) (n : Names) : List FieldDecl :=
  [.named [g!"pool"] (.slice (.toks (lexed d.type))), .named [g!"poolSize"] (.name g!"uint32"), .named [g!"counter"] (.name g!"uint32")]

/-- The declarations before the methods. -/
def beforeRobinpool (u : Uni) (d : Inputs) (n : Names) (config : List FieldDecl) : List Go.Decl :=
  [.imports [(none, g!"sync/atomic"), (none, g!"errors")],
    .struct n.dec (fieldsRobinpool d n),
    .func (g!"New" ++ n.dec) [.mk [g!"pool"] (.dots (.toks (lexed d.type)))] (.list [.mk [] (.ptr (.name n.dec)), .mk [] (.name g!"error")]) [.cond (.bin g!"==" (.call (.id g!"len") [(.id g!"pool")] false) (.num g!"0")) [.ret [(.id g!"nil"), (.call (.sel (.id g!"errors") g!"New") [(.str g!"empty pool")] false)]], .ret [(.un g!"&" (.lit (.name n.dec) [(.pair (.id g!"pool") (.id g!"pool")), (.pair (.id g!"poolSize") (.call (.id g!"uint32") [(.call (.id g!"len") [(.id g!"pool")] false)] false))] false)), (.id g!"nil")]],
    .func (g!"MustNew" ++ n.dec) [.mk [g!"pool"] (.dots (.toks (lexed d.type)))] (.one (.ptr (.name n.dec))) [.cond (.bin g!"==" (.call (.id g!"len") [(.id g!"pool")] false) (.num g!"0")) [.expr (.call (.id g!"panic") [(.str g!"empty pool")] false)], .ret [(.un g!"&" (.lit (.name n.dec) [(.pair (.id g!"pool") (.id g!"pool")), (.pair (.id g!"poolSize") (.call (.id g!"uint32") [(.call (.id g!"len") [(.id g!"pool")] false)] false))] false))]]]

/-- The declarations after the methods. -/
def afterRobinpool : List Go.Decl :=
  []

theorem tmRobinpool_file (u : Uni) (d : Inputs) : tmRobinpool.decls u d =
    beforeRobinpool u d (tmRobinpool.names u d) [] ++ .many (d.sorted.flatMap (tmRobinpool.methodDecls u d)) :: afterRobinpool := by
  have h : ∀ n ct cs mt ms, declsOf (fileFill u d n ct cs mt ms) (filePieces tmRobinpool.pre tmRobinpool.rest) =
      beforeRobinpool u d n cs ++ .many ms :: afterRobinpool := by
    intros; krfl
  exact h _ _ _ _ _

theorem tmRobinpool_around (u : Uni) (d : Inputs) (n : Names) (config : List FieldDecl) :
    Around n.dec (beforeRobinpool u d n config) afterRobinpool (fieldsRobinpool d n) := by
  constructor <;> simp [beforeRobinpool, afterRobinpool, fieldsRobinpool, methodsOf, flatDecls, Decl.flat, Decl.methodOf, Decl.structOf,
    flatFields, FieldDecl.flat, List.filterMap_cons]

/-- The fields of the decorator. -/
def fieldsSyncpool (d : Inputs) (n : Names) : List FieldDecl :=
  [.named [g!"pool"] (.chan (.toks (lexed d.type)))]

/-- The declarations before the methods. -/
def beforeSyncpool (u : Uni) (d : Inputs) (n : Names) (config : List FieldDecl) : List Go.Decl :=
  [.struct n.dec (fieldsSyncpool d n),
    .func (g!"New" ++ n.dec) [.mk [g!"impls"] (.dots (.toks (lexed d.type)))] (.one (.name n.dec)) [.cond (.bin g!"==" (.call (.id g!"len") [(.id g!"impls")] false) (.num g!"0")) [.expr (.call (.id g!"panic") [(.str g!"empty pool")] false)], .define [(.id g!"pool")] [(.call (.id g!"make") [(.type (.chan (.toks (lexed d.type)))), (.call (.id g!"len") [(.id g!"impls")] false)] false)], .range [(.id g!"_"), (.id g!"i")] (.id g!"impls") [.send (.id g!"pool") (.id g!"i")], .ret [(.lit (.name n.dec) [(.pair (.id g!"pool") (.id g!"pool"))] false)]]]

/-- The declarations after the methods. -/
def afterSyncpool : List Go.Decl :=
  []

theorem tmSyncpool_file (u : Uni) (d : Inputs) : tmSyncpool.decls u d =
    beforeSyncpool u d (tmSyncpool.names u d) [] ++ .many (d.sorted.flatMap (tmSyncpool.methodDecls u d)) :: afterSyncpool := by
  have h : ∀ n ct cs mt ms, declsOf (fileFill u d n ct cs mt ms) (filePieces tmSyncpool.pre tmSyncpool.rest) =
      beforeSyncpool u d n cs ++ .many ms :: afterSyncpool := by
    intros; krfl
  exact h _ _ _ _ _

theorem tmSyncpool_around (u : Uni) (d : Inputs) (n : Names) (config : List FieldDecl) :
    Around n.dec (beforeSyncpool u d n config) afterSyncpool (fieldsSyncpool d n) := by
  constructor <;> simp [beforeSyncpool, afterSyncpool, fieldsSyncpool, methodsOf, flatDecls, Decl.flat, Decl.methodOf, Decl.structOf,
    flatFields, FieldDecl.flat, List.filterMap_cons]

/-- The fields of the decorator. -/
def fieldsTimeout (d : Inputs) (n : Names) : List FieldDecl :=
  [.embedded (.toks (lexed d.type)), .named [g!"config"] (.name (n.dec ++ g!"Config"))]

/-- The declarations before the methods. -/
def beforeTimeout (u : Uni) (d : Inputs) (n : Names) (config : List FieldDecl) : List Go.Decl :=
  [.imports [(none, g!"context"), (none, g!"time")],
    .struct n.dec (fieldsTimeout d n),
    .struct (n.dec ++ g!"Config") [.many config],
    .func (g!"New" ++ n.dec) [.mk [g!"base"] (.toks (lexed d.type)), .mk [g!"config"] (.name (n.dec ++ g!"Config"))] (.one (.name n.dec)) [.ret [(.lit (.name n.dec) [(.pair (.id d.name) (.id g!"base")), (.pair (.id g!"config") (.id g!"config"))] true)]]]

/-- The declarations after the methods. -/
def afterTimeout : List Go.Decl :=
  []

theorem tmTimeout_file (u : Uni) (d : Inputs) : tmTimeout.decls u d =
    beforeTimeout u d (tmTimeout.names u d) (d.sorted.flatMap (tmTimeout.configFields u d)) ++ .many (d.sorted.flatMap (tmTimeout.methodDecls u d)) :: afterTimeout := by
  have h : ∀ n ct cs mt ms, declsOf (fileFill u d n ct cs mt ms) (filePieces tmTimeout.pre tmTimeout.rest) =
      beforeTimeout u d n cs ++ .many ms :: afterTimeout := by
    intros; krfl
  exact h _ _ _ _ _

theorem tmTimeout_around (u : Uni) (d : Inputs) (n : Names) (config : List FieldDecl) :
    Around n.dec (beforeTimeout u d n config) afterTimeout (fieldsTimeout d n) := by
  constructor <;> simp [beforeTimeout, afterTimeout, fieldsTimeout, methodsOf, flatDecls, Decl.flat, Decl.methodOf, Decl.structOf,
    flatFields, FieldDecl.flat, List.filterMap_cons]

/-- The fields of the decorator. -/
def fieldsTwirpError (d : Inputs) (n : Names) : List FieldDecl :=
  [.embedded (.toks (lexed d.type))]

/-- The declarations before the methods. -/
def beforeTwirpError (u : Uni) (d : Inputs) (n : Names) (config : List FieldDecl) : List Go.Decl :=
  [.imports [(none, g!"github.com/twitchtv/twirp")],
    .struct n.dec (fieldsTwirpError d n),
    .func (g!"New" ++ n.dec) [.mk [g!"base"] (.toks (lexed d.type))] (.one (.name n.dec)) [.ret [(.lit (.name n.dec) [(.pair (.id d.name) (.id g!"base"))] true)]]]

/-- The declarations after the methods. -/
def afterTwirpError : List Go.Decl :=
  [.func g!"injectRequestDataToError" [.mk [g!"req"] (.iface []), .mk [g!"perr"] (.ptr (.name g!"error"))] .none [.define [(.id g!"err")] [(.un g!"*" (.id g!"perr"))], .cond (.bin g!"!=" (.id g!"err") (.id g!"nil")) [.define [(.id g!"twerr"), (.id g!"ok")] [(.assert (.id g!"err") (.qual g!"twirp" g!"Error"))], .cond (.un g!"!" (.id g!"ok")) [.assign [(.id g!"twerr")] [(.call (.sel (.id g!"twirp") g!"InternalErrorWith") [(.id g!"err")] false)]], .define [(.id g!"jsonReq"), (.id g!"_")] [(.call (.sel (.id g!"json") g!"Marshal") [(.id g!"req")] false)], .assign [(.un g!"*" (.id g!"perr"))] [(.call (.sel (.id g!"twerr") g!"WithMeta") [(.str g!"request"), (.call (.id g!"string") [(.id g!"jsonReq")] false)] false)]]]]

theorem tmTwirpError_file (u : Uni) (d : Inputs) : tmTwirpError.decls u d =
    beforeTwirpError u d (tmTwirpError.names u d) [] ++ .many (d.sorted.flatMap (tmTwirpError.methodDecls u d)) :: afterTwirpError := by
  have h : ∀ n ct cs mt ms, declsOf (fileFill u d n ct cs mt ms) (filePieces tmTwirpError.pre tmTwirpError.rest) =
      beforeTwirpError u d n cs ++ .many ms :: afterTwirpError := by
    intros; krfl
  exact h _ _ _ _ _

theorem tmTwirpError_around (u : Uni) (d : Inputs) (n : Names) (config : List FieldDecl) :
    Around n.dec (beforeTwirpError u d n config) afterTwirpError (fieldsTwirpError d n) := by
  constructor <;> simp [beforeTwirpError, afterTwirpError, fieldsTwirpError, methodsOf, flatDecls, Decl.flat, Decl.methodOf, Decl.structOf,
    flatFields, FieldDecl.flat, List.filterMap_cons]

/-- The fields of the decorator. -/
def fieldsTwirpValidate (d : Inputs) (n : Names) : List FieldDecl :=
  [.embedded (.toks (lexed d.type))]

/-- The declarations before the methods. -/
def beforeTwirpValidate (u : Uni) (d : Inputs) (n : Names) (config : List FieldDecl) : List Go.Decl :=
  [.imports [(none, g!"github.com/twitchtv/twirp")],
    .struct n.dec (fieldsTwirpValidate d n),
    .func (g!"New" ++ n.dec) [.mk [g!"base"] (.toks (lexed d.type))] (.one (.name n.dec)) [.ret [(.lit (.name n.dec) [(.pair (.id d.name) (.id g!"base"))] true)]]]

/-- The declarations after the methods. -/
def afterTwirpValidate : List Go.Decl :=
  []

theorem tmTwirpValidate_file (u : Uni) (d : Inputs) : tmTwirpValidate.decls u d =
    beforeTwirpValidate u d (tmTwirpValidate.names u d) [] ++ .many (d.sorted.flatMap (tmTwirpValidate.methodDecls u d)) :: afterTwirpValidate := by
  have h : ∀ n ct cs mt ms, declsOf (fileFill u d n ct cs mt ms) (filePieces tmTwirpValidate.pre tmTwirpValidate.rest) =
      beforeTwirpValidate u d n cs ++ .many ms :: afterTwirpValidate := by
    intros; krfl
  exact h _ _ _ _ _

theorem tmTwirpValidate_around (u : Uni) (d : Inputs) (n : Names) (config : List FieldDecl) :
    Around n.dec (beforeTwirpValidate u d n config) afterTwirpValidate (fieldsTwirpValidate d n) := by
  constructor <;> simp [beforeTwirpValidate, afterTwirpValidate, fieldsTwirpValidate, methodsOf, flatDecls, Decl.flat, Decl.methodOf, Decl.structOf,
    flatFields, FieldDecl.flat, List.filterMap_cons]

/-- The fields of the decorator. -/
def fieldsValidate (d : Inputs) (n : Names) : List FieldDecl :=
  [.embedded (.toks (lexed d.type))]

/-- The declarations before the methods. -/
def beforeValidate (u : Uni) (d : Inputs) (n : Names) (config : List FieldDecl) : List Go.Decl :=
  [.struct n.dec (fieldsValidate d n),
    .func (g!"New" ++ n.dec) [.mk [g!"base"] (.toks (lexed d.type))] (.one (.name n.dec)) [.ret [(.lit (.name n.dec) [(.pair (.id d.name) (.id g!"base"))] true)]]]

/-- The declarations after the methods. -/
def afterValidate : List Go.Decl :=
  []

theorem tmValidate_file (u : Uni) (d : Inputs) : tmValidate.decls u d =
    beforeValidate u d (tmValidate.names u d) [] ++ .many (d.sorted.flatMap (tmValidate.methodDecls u d)) :: afterValidate := by
  have h : ∀ n ct cs mt ms, declsOf (fileFill u d n ct cs mt ms) (filePieces tmValidate.pre tmValidate.rest) =
      beforeValidate u d n cs ++ .many ms :: afterValidate := by
    intros; krfl
  exact h _ _ _ _ _

theorem tmValidate_around (u : Uni) (d : Inputs) (n : Names) (config : List FieldDecl) :
    Around n.dec (beforeValidate u d n config) afterValidate (fieldsValidate d n) := by
  constructor <;> simp [beforeValidate, afterValidate, fieldsValidate, methodsOf, flatDecls, Decl.flat, Decl.methodOf, Decl.structOf,
    flatFields, FieldDecl.flat, List.filterMap_cons]

end Gowrap.Tmpl

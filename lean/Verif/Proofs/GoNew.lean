import Verif.Model.GoNew
import Verif.Proofs.Shape
/-!
# The constructors of the generated files
-/

namespace Gowrap.Tmpl

open Gowrap Go Spec

theorem call_of {d : Inputs} {pre ds : List Go.Decl} {ty : Ty} {w : Method → Bool} {stmts : Method → List Stmt}
    {post : List Go.Decl} (hf : flatDecls ds = flatDecls pre ++ ((d.sorted.filter w).map (methodOn ty stmts) ++ flatDecls post))
    {x : Str} {f : List Group × Results × List Stmt}
    (hx : (flatDecls pre).filterMap (Decl.funcOf x) ++ (flatDecls post).filterMap (Decl.funcOf x) = [f]) (fuel : Nat) (args : List Val) :
    callFunc fuel ds x args = runFunc fuel f args := by
  have hm : ((d.sorted.filter w).map (methodOn ty stmts)).filterMap (Decl.funcOf x) = [] := by
    rw [List.filterMap_eq_nil_iff]
    intro e he
    obtain ⟨m, _, rfl⟩ := List.mem_map.mp he
    rfl
  unfold callFunc
  rw [hf, List.filterMap_append, List.filterMap_append, hm, List.nil_append, hx]

/-! ## The functions -/

/-- The constructor. -/
def newLog (d : Inputs) (n : Names) : List Group × Results × List Stmt :=
  ([.mk [g!"base"] (.toks (lexed d.type)), .mk [g!"stdout", g!"stderr"] (.qual g!"io" g!"Writer")], (.one (.name n.dec)),
    [.ret [(.lit (.name n.dec) [(.pair (.id g!"_base") (.id g!"base")), (.pair (.id g!"_stdlog") (.call (.sel (.id g!"log") g!"New") [(.id g!"stdout"), (.str []), (.sel (.id g!"log") g!"LstdFlags")] false)), (.pair (.id g!"_errlog") (.call (.sel (.id g!"log") g!"New") [(.id g!"stderr"), (.str []), (.sel (.id g!"log") g!"LstdFlags")] false))] true)]])

theorem newLog_of (u : Uni) (d : Inputs) (n : Names) (config : List FieldDecl) :
    (flatDecls (beforeLog u d n config)).filterMap (Decl.funcOf (g!"New" ++ n.dec)) ++
      (flatDecls afterLog).filterMap (Decl.funcOf (g!"New" ++ n.dec)) = [newLog d n] := by
  simp [beforeLog, afterLog, flatDecls, Decl.flat, List.filterMap_cons, Decl.funcOf, newLog]

/-- The constructor. -/
def newLogrus (d : Inputs) (n : Names) : List Group × Results × List Stmt :=
  ([.mk [g!"base"] (.toks (lexed d.type)), .mk [g!"log"] (.ptr (.qual g!"logrus" g!"Entry"))], (.one (.name n.dec)),
    [.ret [(.lit (.name n.dec) [(.pair (.id g!"_base") (.id g!"base")), (.pair (.id g!"_log") (.id g!"log"))] true)]])

theorem newLogrus_of (u : Uni) (d : Inputs) (n : Names) (config : List FieldDecl) :
    (flatDecls (beforeLogrus u d n config)).filterMap (Decl.funcOf (g!"New" ++ n.dec)) ++
      (flatDecls afterLogrus).filterMap (Decl.funcOf (g!"New" ++ n.dec)) = [newLogrus d n] := by
  simp [beforeLogrus, afterLogrus, flatDecls, Decl.flat, List.filterMap_cons, Decl.funcOf, newLogrus]

/-- The constructor. -/
def newPrometheus (d : Inputs) (n : Names) : List Group × Results × List Stmt :=
  ([.mk [g!"base"] (.toks (lexed d.type)), .mk [g!"instanceName"] (.name g!"string")], (.one (.name n.dec)),
    [.ret [(.lit (.name n.dec) [(.pair (.id g!"base") (.id g!"base")), (.pair (.id g!"instanceName") (.id g!"instanceName"))] true)]])

theorem newPrometheus_of (u : Uni) (d : Inputs) (n : Names) (config : List FieldDecl) :
    (flatDecls (beforePrometheus u d n config)).filterMap (Decl.funcOf (g!"New" ++ n.dec)) ++
      (flatDecls afterPrometheus).filterMap (Decl.funcOf (g!"New" ++ n.dec)) = [newPrometheus d n] := by
  simp [beforePrometheus, afterPrometheus, flatDecls, Decl.flat, List.filterMap_cons, Decl.funcOf, newPrometheus]

/-- The constructor. -/
def newOpentracing (d : Inputs) (n : Names) : List Group × Results × List Stmt :=
  ([.mk [g!"base"] (.toks (lexed d.type)), .mk [g!"instance"] (.name g!"string"), .mk [g!"spanDecorator"] (.dots (.func [.mk [g!"span"] (.qual g!"opentracing" g!"Span"), .mk [g!"params", g!"results"] mapType] .none))], (.one (.name n.dec)),
    [.define [(.id g!"d")] [(.lit (.name n.dec) [(.pair (.id d.name) (.id g!"base")), (.pair (.id g!"_instance") (.id g!"instance"))] true)], .cond (.bin g!"&&" (.bin g!">" (.call (.id g!"len") [(.id g!"spanDecorator")] false) (.num g!"0")) (.bin g!"!=" (.index (.id g!"spanDecorator") (.num g!"0")) (.id g!"nil"))) [.assign [(.sel (.id g!"d") g!"_spanDecorator")] [(.index (.id g!"spanDecorator") (.num g!"0"))]], .ret [(.id g!"d")]])

theorem newOpentracing_of (u : Uni) (d : Inputs) (n : Names) (config : List FieldDecl) :
    (flatDecls (beforeOpentracing u d n config)).filterMap (Decl.funcOf (g!"New" ++ n.dec)) ++
      (flatDecls afterOpentracing).filterMap (Decl.funcOf (g!"New" ++ n.dec)) = [newOpentracing d n] := by
  simp [beforeOpentracing, afterOpentracing, flatDecls, Decl.flat, List.filterMap_cons, Decl.funcOf, newOpentracing]

/-- The constructor. -/
def newOpencensus (d : Inputs) (n : Names) : List Group × Results × List Stmt :=
  ([.mk [g!"base"] (.toks (lexed d.type)), .mk [g!"instance"] (.name g!"string"), .mk [g!"spanDecorator"] (.dots (.func [.mk [g!"span"] (.ptr (.qual g!"trace" g!"Span")), .mk [g!"params", g!"results"] mapType] .none))], (.one (.name n.dec)),
    [.define [(.id g!"d")] [(.lit (.name n.dec) [(.pair (.id d.name) (.id g!"base")), (.pair (.id g!"_instance") (.id g!"instance"))] true)], .cond (.bin g!"&&" (.bin g!">" (.call (.id g!"len") [(.id g!"spanDecorator")] false) (.num g!"0")) (.bin g!"!=" (.index (.id g!"spanDecorator") (.num g!"0")) (.id g!"nil"))) [.assign [(.sel (.id g!"d") g!"_spanDecorator")] [(.index (.id g!"spanDecorator") (.num g!"0"))]], .ret [(.id g!"d")]])

theorem newOpencensus_of (u : Uni) (d : Inputs) (n : Names) (config : List FieldDecl) :
    (flatDecls (beforeOpencensus u d n config)).filterMap (Decl.funcOf (g!"New" ++ n.dec)) ++
      (flatDecls afterOpencensus).filterMap (Decl.funcOf (g!"New" ++ n.dec)) = [newOpencensus d n] := by
  simp [beforeOpencensus, afterOpencensus, flatDecls, Decl.flat, List.filterMap_cons, Decl.funcOf, newOpencensus]

/-- The constructor. -/
def newOpentelemetry (d : Inputs) (n : Names) : List Group × Results × List Stmt :=
  ([.mk [g!"base"] (.toks (lexed d.type)), .mk [g!"instance"] (.name g!"string"), .mk [g!"spanDecorator"] (.dots (.func [.mk [g!"span"] (.qual g!"trace" g!"Span"), .mk [g!"params", g!"results"] mapType] .none))], (.one (.name n.dec)),
    [.define [(.id g!"d")] [(.lit (.name n.dec) [(.pair (.id d.name) (.id g!"base")), (.pair (.id g!"_instance") (.id g!"instance"))] true)], .cond (.bin g!"&&" (.bin g!">" (.call (.id g!"len") [(.id g!"spanDecorator")] false) (.num g!"0")) (.bin g!"!=" (.index (.id g!"spanDecorator") (.num g!"0")) (.id g!"nil"))) [.assign [(.sel (.id g!"d") g!"_spanDecorator")] [(.index (.id g!"spanDecorator") (.num g!"0"))]], .ret [(.id g!"d")]])

theorem newOpentelemetry_of (u : Uni) (d : Inputs) (n : Names) (config : List FieldDecl) :
    (flatDecls (beforeOpentelemetry u d n config)).filterMap (Decl.funcOf (g!"New" ++ n.dec)) ++
      (flatDecls afterOpentelemetry).filterMap (Decl.funcOf (g!"New" ++ n.dec)) = [newOpentelemetry d n] := by
  simp [beforeOpentelemetry, afterOpentelemetry, flatDecls, Decl.flat, List.filterMap_cons, Decl.funcOf, newOpentelemetry]

/-- The constructor. -/
def newElasticapm (d : Inputs) (n : Names) : List Group × Results × List Stmt :=
  ([.mk [g!"base"] (.toks (lexed d.type)), .mk [g!"opts"] (.dots (.name (n.dec ++ g!"Option")))], (.one (.name n.dec)),
    [.define [(.id g!"r")] [(.lit (.name n.dec) [(.pair (.id g!"base") (.id g!"base")), (.pair (.id g!"startSpan") (.sel (.id g!"apm") g!"StartSpan")), (.pair (.id g!"endSpan") (.fn [.mk [g!"span"] (.ptr (.qual g!"apm" g!"Span"))] .none [.expr (.call (.sel (.id g!"span") g!"End") [] false)])), (.pair (.id g!"setLabel") (.fn [.mk [g!"span"] (.ptr (.qual g!"apm" g!"Span")), .mk [g!"key"] (.name g!"string"), .mk [g!"value"] (.iface [])] .none [])), (.pair (.id g!"captureError") (.fn [.mk [g!"ctx"] (.qual g!"context" g!"Context"), .mk [g!"err"] (.name g!"error")] .none [.expr (.call (.sel (.call (.sel (.id g!"apm") g!"CaptureError") [(.id g!"ctx"), (.id g!"err")] false) g!"Send") [] false)])), (.pair (.id g!"spanType") (.str n.component))] true)], .range [(.id g!"_"), (.id g!"fn")] (.id g!"opts") [.expr (.call (.id g!"fn") [(.un g!"&" (.id g!"r"))] false)], .ret [(.id g!"r")]])

theorem newElasticapm_of (u : Uni) (d : Inputs) (n : Names) (config : List FieldDecl) :
    (flatDecls (beforeElasticapm u d n config)).filterMap (Decl.funcOf (g!"New" ++ n.dec)) ++
      (flatDecls afterElasticapm).filterMap (Decl.funcOf (g!"New" ++ n.dec)) = [newElasticapm d n] := by
  have h1 : ¬ n.dec ++ g!"WithUsingSetLabel" = g!"New" ++ n.dec := fun h => by simpa using congrArg List.length h
  have h2 : ¬ n.dec ++ g!"WithSpanType" = g!"New" ++ n.dec := fun h => by simpa using congrArg List.length h
  simp only [List.cons_append, List.nil_append] at h1 h2
  simp [beforeElasticapm, afterElasticapm, flatDecls, Decl.flat, List.filterMap_cons, Decl.funcOf, newElasticapm, h1, h2]

/-- The constructor. -/
def newValidate (d : Inputs) (n : Names) : List Group × Results × List Stmt :=
  ([.mk [g!"base"] (.toks (lexed d.type))], (.one (.name n.dec)),
    [.ret [(.lit (.name n.dec) [(.pair (.id d.name) (.id g!"base"))] true)]])

theorem newValidate_of (u : Uni) (d : Inputs) (n : Names) (config : List FieldDecl) :
    (flatDecls (beforeValidate u d n config)).filterMap (Decl.funcOf (g!"New" ++ n.dec)) ++
      (flatDecls afterValidate).filterMap (Decl.funcOf (g!"New" ++ n.dec)) = [newValidate d n] := by
  simp [beforeValidate, afterValidate, flatDecls, Decl.flat, List.filterMap_cons, Decl.funcOf, newValidate]

/-- The constructor. -/
def newTwirpValidate (d : Inputs) (n : Names) : List Group × Results × List Stmt :=
  ([.mk [g!"base"] (.toks (lexed d.type))], (.one (.name n.dec)),
    [.ret [(.lit (.name n.dec) [(.pair (.id d.name) (.id g!"base"))] true)]])

theorem newTwirpValidate_of (u : Uni) (d : Inputs) (n : Names) (config : List FieldDecl) :
    (flatDecls (beforeTwirpValidate u d n config)).filterMap (Decl.funcOf (g!"New" ++ n.dec)) ++
      (flatDecls afterTwirpValidate).filterMap (Decl.funcOf (g!"New" ++ n.dec)) = [newTwirpValidate d n] := by
  simp [beforeTwirpValidate, afterTwirpValidate, flatDecls, Decl.flat, List.filterMap_cons, Decl.funcOf, newTwirpValidate]

/-- The constructor. -/
def newGrpcValidate (d : Inputs) (n : Names) : List Group × Results × List Stmt :=
  ([.mk [g!"base"] (.toks (lexed d.type))], (.one (.name n.dec)),
    [.ret [(.lit (.name n.dec) [(.pair (.id d.name) (.id g!"base"))] true)]])

theorem newGrpcValidate_of (u : Uni) (d : Inputs) (n : Names) (config : List FieldDecl) :
    (flatDecls (beforeGrpcValidate u d n config)).filterMap (Decl.funcOf (g!"New" ++ n.dec)) ++
      (flatDecls afterGrpcValidate).filterMap (Decl.funcOf (g!"New" ++ n.dec)) = [newGrpcValidate d n] := by
  simp [beforeGrpcValidate, afterGrpcValidate, flatDecls, Decl.flat, List.filterMap_cons, Decl.funcOf, newGrpcValidate]

/-- The constructor. -/
def newTwirpError (d : Inputs) (n : Names) : List Group × Results × List Stmt :=
  ([.mk [g!"base"] (.toks (lexed d.type))], (.one (.name n.dec)),
    [.ret [(.lit (.name n.dec) [(.pair (.id d.name) (.id g!"base"))] true)]])

theorem newTwirpError_of (u : Uni) (d : Inputs) (n : Names) (config : List FieldDecl) :
    (flatDecls (beforeTwirpError u d n config)).filterMap (Decl.funcOf (g!"New" ++ n.dec)) ++
      (flatDecls afterTwirpError).filterMap (Decl.funcOf (g!"New" ++ n.dec)) = [newTwirpError d n] := by
  simp [beforeTwirpError, afterTwirpError, flatDecls, Decl.flat, List.filterMap_cons, Decl.funcOf, newTwirpError]

/-- The constructor. -/
def newTimeout (d : Inputs) (n : Names) : List Group × Results × List Stmt :=
  ([.mk [g!"base"] (.toks (lexed d.type)), .mk [g!"config"] (.name (n.dec ++ g!"Config"))], (.one (.name n.dec)),
    [.ret [(.lit (.name n.dec) [(.pair (.id d.name) (.id g!"base")), (.pair (.id g!"config") (.id g!"config"))] true)]])

theorem newTimeout_of (u : Uni) (d : Inputs) (n : Names) (config : List FieldDecl) :
    (flatDecls (beforeTimeout u d n config)).filterMap (Decl.funcOf (g!"New" ++ n.dec)) ++
      (flatDecls afterTimeout).filterMap (Decl.funcOf (g!"New" ++ n.dec)) = [newTimeout d n] := by
  simp [beforeTimeout, afterTimeout, flatDecls, Decl.flat, List.filterMap_cons, Decl.funcOf, newTimeout]

/-- The constructor. -/
def newCircuitbreaker (d : Inputs) (n : Names) : List Group × Results × List Stmt :=
  ([.mk [g!"base"] (.toks (lexed d.type)), .mk [g!"consecutiveErrors"] (.name g!"int"), .mk [g!"openInterval"] (.qual g!"time" g!"Duration"), .mk [g!"ignoreErrors"] (.dots (.name g!"error"))], (.list [.mk [] (.ptr (.name n.dec))]),
    [.ret [(.un g!"&" (.lit (.name n.dec) [(.pair (.id d.name) (.id g!"base")), (.pair (.id g!"_maxConsecutiveErrors") (.id g!"consecutiveErrors")), (.pair (.id g!"_openInterval") (.id g!"openInterval")), (.pair (.id g!"_ignoreErrors") (.id g!"ignoreErrors"))] true))]])

theorem newCircuitbreaker_of (u : Uni) (d : Inputs) (n : Names) (config : List FieldDecl) :
    (flatDecls (beforeCircuitbreaker u d n config)).filterMap (Decl.funcOf (g!"New" ++ n.dec)) ++
      (flatDecls afterCircuitbreaker).filterMap (Decl.funcOf (g!"New" ++ n.dec)) = [newCircuitbreaker d n] := by
  simp [beforeCircuitbreaker, afterCircuitbreaker, flatDecls, Decl.flat, List.filterMap_cons, Decl.funcOf, newCircuitbreaker]

/-- The constructor. -/
def newRetry (d : Inputs) (n : Names) : List Group × Results × List Stmt :=
  ([.mk [g!"base"] (.toks (lexed d.type)), .mk [g!"retryCount"] (.name g!"int"), .mk [g!"retryInterval"] (.qual g!"time" g!"Duration")], (.one (.name n.dec)),
    [.ret [(.lit (.name n.dec) [(.pair (.id d.name) (.id g!"base")), (.pair (.id g!"_retryCount") (.id g!"retryCount")), (.pair (.id g!"_retryInterval") (.id g!"retryInterval"))] true)]])

theorem newRetry_of (u : Uni) (d : Inputs) (n : Names) (config : List FieldDecl) :
    (flatDecls (beforeRetry u d n config)).filterMap (Decl.funcOf (g!"New" ++ n.dec)) ++
      (flatDecls afterRetry).filterMap (Decl.funcOf (g!"New" ++ n.dec)) = [newRetry d n] := by
  simp [beforeRetry, afterRetry, flatDecls, Decl.flat, List.filterMap_cons, Decl.funcOf, newRetry]

/-- The constructor. -/
def newRatelimit (d : Inputs) (n : Names) : List Group × Results × List Stmt :=
  ([.mk [g!"base"] (.toks (lexed d.type)), .mk [g!"burst"] (.name g!"int"), .mk [g!"rps"] (.name g!"float64")], (.one (.ptr (.name n.dec))),
    [.define [(.id g!"d")] [(.un g!"&" (.lit (.name n.dec) [(.pair (.id g!"_base") (.id g!"base")), (.pair (.id g!"_ticks") (.call (.id g!"make") [(.type (.chan (.qual g!"time" g!"Time"))), (.id g!"burst")] false))] true))], .define [(.id g!"now")] [(.call (.sel (.id g!"time") g!"Now") [] false)], .loop (.define [(.id g!"i")] [(.num g!"0")]) (.bin g!"<" (.id g!"i") (.id g!"burst")) (.inc (.id g!"i")) [.send (.sel (.id g!"d") g!"_ticks") (.id g!"now")], .define [(.id g!"delay")] [(.call (.sel (.id g!"time") g!"Duration") [(.bin g!"/" (.call (.id g!"float64") [(.sel (.id g!"time") g!"Second")] false) (.id g!"rps"))] false)], .go (.call (.fn [] .none [.range [(.id g!"t")] (.call (.sel (.id g!"time") g!"Tick") [(.id g!"delay")] false) [.send (.sel (.id g!"d") g!"_ticks") (.id g!"t")]]) [] false), .ret [(.id g!"d")]])

theorem newRatelimit_of (u : Uni) (d : Inputs) (n : Names) (config : List FieldDecl) :
    (flatDecls (beforeRatelimit u d n config)).filterMap (Decl.funcOf (g!"New" ++ n.dec)) ++
      (flatDecls afterRatelimit).filterMap (Decl.funcOf (g!"New" ++ n.dec)) = [newRatelimit d n] := by
  simp [beforeRatelimit, afterRatelimit, flatDecls, Decl.flat, List.filterMap_cons, Decl.funcOf, newRatelimit]

/-- The constructor. -/
def newRobinpool (d : Inputs) (n : Names) : List Group × Results × List Stmt :=
  ([.mk [g!"pool"] (.dots (.toks (lexed d.type)))], (.list [.mk [] (.ptr (.name n.dec)), .mk [] (.name g!"error")]),
    [.cond (.bin g!"==" (.call (.id g!"len") [(.id g!"pool")] false) (.num g!"0")) [.ret [(.id g!"nil"), (.call (.sel (.id g!"errors") g!"New") [(.str g!"empty pool")] false)]], .ret [(.un g!"&" (.lit (.name n.dec) [(.pair (.id g!"pool") (.id g!"pool")), (.pair (.id g!"poolSize") (.call (.id g!"uint32") [(.call (.id g!"len") [(.id g!"pool")] false)] false))] false)), (.id g!"nil")]])

theorem newRobinpool_of (u : Uni) (d : Inputs) (n : Names) (config : List FieldDecl) :
    (flatDecls (beforeRobinpool u d n config)).filterMap (Decl.funcOf (g!"New" ++ n.dec)) ++
      (flatDecls afterRobinpool).filterMap (Decl.funcOf (g!"New" ++ n.dec)) = [newRobinpool d n] := by
  simp [beforeRobinpool, afterRobinpool, flatDecls, Decl.flat, List.filterMap_cons, Decl.funcOf, newRobinpool]

/-- The constructor. -/
def mustNewRobinpool (d : Inputs) (n : Names) : List Group × Results × List Stmt :=
  ([.mk [g!"pool"] (.dots (.toks (lexed d.type)))], (.one (.ptr (.name n.dec))),
    [.cond (.bin g!"==" (.call (.id g!"len") [(.id g!"pool")] false) (.num g!"0")) [.expr (.call (.id g!"panic") [(.str g!"empty pool")] false)], .ret [(.un g!"&" (.lit (.name n.dec) [(.pair (.id g!"pool") (.id g!"pool")), (.pair (.id g!"poolSize") (.call (.id g!"uint32") [(.call (.id g!"len") [(.id g!"pool")] false)] false))] false))]])

theorem mustNewRobinpool_of (u : Uni) (d : Inputs) (n : Names) (config : List FieldDecl) :
    (flatDecls (beforeRobinpool u d n config)).filterMap (Decl.funcOf (g!"MustNew" ++ n.dec)) ++
      (flatDecls afterRobinpool).filterMap (Decl.funcOf (g!"MustNew" ++ n.dec)) = [mustNewRobinpool d n] := by
  simp [beforeRobinpool, afterRobinpool, flatDecls, Decl.flat, List.filterMap_cons, Decl.funcOf, mustNewRobinpool]

/-- The constructor. -/
def newSyncpool (d : Inputs) (n : Names) : List Group × Results × List Stmt :=
  ([.mk [g!"impls"] (.dots (.toks (lexed d.type)))], (.one (.name n.dec)),
    [.cond (.bin g!"==" (.call (.id g!"len") [(.id g!"impls")] false) (.num g!"0")) [.expr (.call (.id g!"panic") [(.str g!"empty pool")] false)], .define [(.id g!"pool")] [(.call (.id g!"make") [(.type (.chan (.toks (lexed d.type)))), (.call (.id g!"len") [(.id g!"impls")] false)] false)], .range [(.id g!"_"), (.id g!"i")] (.id g!"impls") [.send (.id g!"pool") (.id g!"i")], .ret [(.lit (.name n.dec) [(.pair (.id g!"pool") (.id g!"pool"))] false)]])

theorem newSyncpool_of (u : Uni) (d : Inputs) (n : Names) (config : List FieldDecl) :
    (flatDecls (beforeSyncpool u d n config)).filterMap (Decl.funcOf (g!"New" ++ n.dec)) ++
      (flatDecls afterSyncpool).filterMap (Decl.funcOf (g!"New" ++ n.dec)) = [newSyncpool d n] := by
  simp [beforeSyncpool, afterSyncpool, flatDecls, Decl.flat, List.filterMap_cons, Decl.funcOf, newSyncpool]

/-- The constructor. -/
def newFallback (d : Inputs) (n : Names) : List Group × Results × List Stmt :=
  ([.mk [g!"interval"] (.qual g!"time" g!"Duration"), .mk [g!"impls"] (.dots (.toks (lexed d.type)))], (.one (.name n.dec)),
    [.ret [(.lit (.name n.dec) [(.pair (.id g!"implementations") (.id g!"impls")), (.pair (.id g!"interval") (.id g!"interval"))] false)]])

theorem newFallback_of (u : Uni) (d : Inputs) (n : Names) (config : List FieldDecl) :
    (flatDecls (beforeFallback u d n config)).filterMap (Decl.funcOf (g!"New" ++ n.dec)) ++
      (flatDecls afterFallback).filterMap (Decl.funcOf (g!"New" ++ n.dec)) = [newFallback d n] := by
  simp [beforeFallback, afterFallback, flatDecls, Decl.flat, List.filterMap_cons, Decl.funcOf, newFallback]

end Gowrap.Tmpl

import Verif.Spec.Works
import Verif.Model.Links
import Verif.Props.Observe
import Verif.Props.Control
import Verif.Props.BreakerSeq
import Verif.Props.RateLimit
import Verif.Props.RobinPool
import Verif.Props.SyncPool
import Verif.Props.Fallback
import Verif.Props.Progress
/-!
# What the templates promise

For each template, what a call of a method declared in the generated file does; `ds` are the declarations of the file.  The conditions on the
values `D` say how the model of the decorator refers to the generator (names and options); its base, loggers and limits are arbitrary.
-/

namespace Gowrap.Props

open Gowrap Spec Tmpl Go

/-- templates/log: each call is passed on unchanged, with one line in the log before it and one after it. -/
def logPromise (o : Options) (g : Generator) (vars : Str → Option VarValue) (ds : List Go.Decl) : Prop :=
    ∀ (G : GoTypes) (D : Log), D.dec = decoratorName (g.inputs o vars) g!"WithLog" →
    ∀ e ∈ g.methods, ∀ self args, args.length = e.2.params.length → ∀ tr out,
      ((decoratorIn (g.inputs o vars) Spec.logT.1 ds D.base D.link).call G e.2 self args).Run tr out → LibsReturn tr →
      ∃ res logger line, out = passedOn res ∧
        seen tr = [.lib ⟨g!"log.Println", D.lineBefore e.2 args, .ok []⟩, .impl ⟨D.base, e.2.name, args, res⟩,
          .lib ⟨g!"log.Println", logger :: line, .ok []⟩] ∧
        (Failed e.2 res → logger = D.errlog ∧ ∃ vs, res = .ok vs ∧
          line = .str (D.dec ++ g!": " ++ e.2.name ++ g!" returned results:") :: vs) ∧
        (¬ Failed e.2 res → logger = D.stdlog)

/-- templates/logrus: each call is passed on unchanged, with one line in the log before it and one after it. -/
def logrusPromise (o : Options) (g : Generator) (vars : Str → Option VarValue) (ds : List Go.Decl) : Prop :=
    ∀ (G : GoTypes) (D : Logrus), D.dec = decoratorName (g.inputs o vars) g!"WithLogrus" →
    ∀ e ∈ g.methods, ∀ self args, args.length = e.2.params.length → ∀ tr out,
      ((decoratorIn (g.inputs o vars) Spec.logrusT.1 ds D.base D.link).call G e.2 self args).Run tr out → LibsReturn tr →
      ∃ res L1 L2, out = passedOn res ∧ seen tr = L1 ++ .impl ⟨D.base, e.2.name, args, res⟩ :: L2 ∧ D.Before e.2 args L1 ∧
        (Failed e.2 res → ∃ vs, res = .ok vs ∧ D.Line g!"logrus.Error" e.2.rnames vs
          (D.dec ++ g!": method " ++ e.2.name ++ g!" returned an error") L2) ∧
        (¬ Failed e.2 res → e.2.results ≠ [] → D.Line g!"logrus.Debug" e.2.rnames (resultsAfter (e.2.zeros G) res)
          (D.dec ++ g!": method " ++ e.2.name ++ g!" finished") L2) ∧
        (e.2.results = [] → L2 = [.lib ⟨g!"logrus.Debug", [D.log, .str (D.dec ++ g!": " ++ e.2.name ++ g!" finished")], .ok []⟩])

/-- templates/prometheus: each call is passed on unchanged, and its duration is observed with the right labels. -/
def prometheusPromise (o : Options) (g : Generator) (vars : Str → Option VarValue) (w : World) (ds : List Go.Decl) : Prop :=
    ∀ (G : GoTypes) (D : Prometheus), D.iface = o.interfaceName → D.uni = w.uni →
    ∀ e ∈ g.methods, ∀ self args, args.length = e.2.params.length → ∀ tr out,
      ((decoratorIn (g.inputs o vars) Spec.prometheusT.1 ds D.base D.link).call G e.2 self args).Run tr out → LibsReturn tr →
      ∃ (t : Int) (tr' : List Event) (res : _) (label : Str) (observer seconds : Val), out = passedOn res ∧ tr = ⟨.now, t⟩ :: tr' ∧
        seen tr' = [.impl ⟨D.base, e.2.name, args, res⟩,
          .lib ⟨g!"prometheus.WithLabelValues", [.str D.instanceName, .str e.2.name, .str label], .ok [observer]⟩,
          .lib ⟨g!"time.Since", [.int t], .ok [seconds]⟩,
          .lib ⟨g!"prometheus.Observe", [observer, seconds], .ok []⟩] ∧
        (Failed e.2 res → label = g!"error") ∧ (¬ Failed e.2 res → label = g!"ok")

/-- templates/opentracing: each call of a method with a context is made within a span, which is marked if the call failed. -/
def opentracingPromise (o : Options) (g : Generator) (vars : Str → Option VarValue) (ds : List Go.Decl) : Prop :=
    ∀ (G : GoTypes) (D : Tracing), D.iface = ⟨o.interfaceName, (g.inputs o vars).type⟩ →
    ∀ e ∈ g.methods, ∀ self args, args.length = e.2.params.length → ∀ tr out,
      ((decoratorIn (g.inputs o vars) Spec.opentracingT.1 ds D.base D.openTracingLink).call G e.2 self args).Run tr out → LibsReturn tr →
      (e.2.acceptsContext = true →
        ∃ c rest span c' res L, args = c :: rest ∧ out = passedOn res ∧
          seen tr = .lib ⟨g!"opentracing.StartSpanFromContext",
              [c, .str (D.inst ++ g!"." ++ D.iface.type ++ g!"." ++ e.2.name)], .ok [span, c']⟩ ::
            .impl ⟨D.base, e.2.name, c' :: rest, res⟩ :: L ++ [.lib ⟨g!"opentracing.Finish", [span], .ok []⟩] ∧
          Marked D e.2 openTracingMarks span (c' :: rest) (e.2.zeros G) res L) ∧
      (e.2.acceptsContext = false → Transparent D.base e.2 args tr out)

/-- templates/opencensus: likewise. -/
def opencensusPromise (o : Options) (g : Generator) (vars : Str → Option VarValue) (ds : List Go.Decl) : Prop :=
    ∀ (G : GoTypes) (D : Tracing), D.iface = ⟨o.interfaceName, (g.inputs o vars).type⟩ →
    ∀ e ∈ g.methods, ∀ self args, args.length = e.2.params.length → ∀ tr out,
      ((decoratorIn (g.inputs o vars) Spec.opencensusT.1 ds D.base D.openCensusLink).call G e.2 self args).Run tr out → LibsReturn tr →
      (e.2.acceptsContext = true →
        ∃ c rest span c' res L, args = c :: rest ∧ out = passedOn res ∧
          seen tr = .lib ⟨g!"trace.StartSpan",
              [c, .str (D.inst ++ g!"." ++ D.iface.type ++ g!"." ++ e.2.name)], .ok [c', span]⟩ ::
            .impl ⟨D.base, e.2.name, c' :: rest, res⟩ :: L ++ [.lib ⟨g!"trace.End", [span], .ok []⟩] ∧
          Marked D e.2 openCensusMarks span (c' :: rest) (e.2.zeros G) res L) ∧
      (e.2.acceptsContext = false → Transparent D.base e.2 args tr out)

/-- templates/opentelemetry: likewise. -/
def opentelemetryPromise (o : Options) (g : Generator) (vars : Str → Option VarValue) (ds : List Go.Decl) : Prop :=
    ∀ (G : GoTypes) (D : Tracing), D.iface = ⟨o.interfaceName, (g.inputs o vars).type⟩ → D.spanNameType = cliVar (g.inputs o vars) g!"SpanNamePrefix" o.interfaceName →
    ∀ e ∈ g.methods, ∀ self args, args.length = e.2.params.length → ∀ tr out,
      ((decoratorIn (g.inputs o vars) Spec.opentelemetryT.1 ds D.base D.openTelemetryLink).call G e.2 self args).Run tr out → LibsReturn tr →
      (e.2.acceptsContext = true →
        ∃ c rest tracer span c' res L, args = c :: rest ∧ out = passedOn res ∧
          seen tr = .lib ⟨g!"otel.Tracer", [.str D.inst], .ok [tracer]⟩ ::
            .lib ⟨g!"trace.Start", [tracer, c, .str (D.spanNameType ++ g!"." ++ e.2.name)], .ok [c', span]⟩ ::
            .impl ⟨D.base, e.2.name, c' :: rest, res⟩ :: L ++ [.lib ⟨g!"trace.End", [span], .ok []⟩] ∧
          Marked D e.2 openTelemetryMarks span (c' :: rest) (e.2.zeros G) res L) ∧
      (e.2.acceptsContext = false → Transparent D.base e.2 args tr out)

/-- templates/elasticapm: each call is made within a span, and errors are captured. -/
def elasticapmPromise (o : Options) (g : Generator) (vars : Str → Option VarValue) (w : World) (ds : List Go.Decl) : Prop :=
    ∀ (G : GoTypes) (D : Apm), D.uni = w.uni → D.component = cliVar (g.inputs o vars) g!"ComponentName" (w.uni.lower o.interfaceName) →
    ∀ e ∈ g.methods, ∀ self args, args.length = e.2.params.length → ∀ tr out,
      ((decoratorIn (g.inputs o vars) Spec.elasticapmT.1 ds D.base D.link).call G e.2 self args).Run tr out → LibsReturn tr →
      ∃ c rest span c' res L, args = c :: rest ∧ out = passedOn res ∧
        seen tr = .lib ⟨g!"startSpan", [c, .str (D.component ++ g!"." ++ e.2.name), .str D.spanType],
            .ok [span, c']⟩ :: (D.labelCalls span e.2.pnames (c' :: rest) ++
          .impl ⟨D.base, e.2.name, c' :: rest, res⟩ :: L ++ [.lib ⟨g!"endSpan", [span], .ok []⟩]) ∧
        (Failed e.2 res → ∃ vs v, res = .ok vs ∧ vs.getLast? = some v ∧ L = [.lib ⟨g!"captureError", [c', v], .ok []⟩]) ∧
        (¬ Failed e.2 res → L = [])

/-- templates/validate: a call is passed on unchanged if all arguments that can be validated are valid, otherwise the first error is returned. -/
def validatePromise (o : Options) (g : Generator) (vars : Str → Option VarValue) (ds : List Go.Decl) : Prop :=
    ∀ (G : GoTypes) (base : Val),
    ∀ e ∈ g.methods, ∀ self args, args.length = e.2.params.length → ∀ tr out,
      ((decoratorIn (g.inputs o vars) Spec.validateT.1 ds base (validateLink G o.interfaceName base)).call G e.2 self args).Run tr out → LibsReturn tr →
      (e.2.returnsError = true → Rejected (unwrapped) (candidates G e.2 args) (e.2.zeros G) tr out ∨
        Accepted base e.2 args (candidates G e.2 args) tr out) ∧
      (e.2.returnsError = false → Accepted base e.2 args [] tr out)

/-- templates/twirp_validate: the same with an error of Twirp. -/
def twirpValidatePromise (o : Options) (g : Generator) (vars : Str → Option VarValue) (ds : List Go.Decl) : Prop :=
    ∀ (G : GoTypes) (base : Val),
    ∀ e ∈ g.methods, ∀ self args, args.length = e.2.params.length → ∀ tr out,
      ((decoratorIn (g.inputs o vars) Spec.twirpValidateT.1 ds base (twirpValidateLink G o.interfaceName base)).call G e.2 self args).Run tr out → LibsReturn tr →
      (e.2.returnsError = true → Rejected (invalidArgument g!"twirp.NewError") (candidates G e.2 args) (e.2.zeros G) tr out ∨
        Accepted base e.2 args (candidates G e.2 args) tr out) ∧
      (e.2.returnsError = false → Accepted base e.2 args [] tr out)

/-- templates/grpc_validate: the same with an error of gRPC. -/
def grpcValidatePromise (o : Options) (g : Generator) (vars : Str → Option VarValue) (ds : List Go.Decl) : Prop :=
    ∀ (G : GoTypes) (base : Val),
    ∀ e ∈ g.methods, ∀ self args, args.length = e.2.params.length → ∀ tr out,
      ((decoratorIn (g.inputs o vars) Spec.grpcValidateT.1 ds base (grpcValidateLink G o.interfaceName base)).call G e.2 self args).Run tr out → LibsReturn tr →
      (e.2.returnsError = true → Rejected (invalidArgument g!"status.Error") (candidates G e.2 args) (e.2.zeros G) tr out ∨
        Accepted base e.2 args (candidates G e.2 args) tr out) ∧
      (e.2.returnsError = false → Transparent base e.2 args tr out)

/-- templates/twirp_error: calls are passed on unchanged, and an error of Twirp gets the request as metadata. -/
def twirpErrorPromise (o : Options) (g : Generator) (vars : Str → Option VarValue) (ds : List Go.Decl) : Prop :=
    ∀ (G : GoTypes) (base : Val),
    ∀ e ∈ g.methods, ∀ self args, args.length = e.2.params.length → ∀ tr out,
      ((decoratorIn (g.inputs o vars) Spec.twirpErrorT.1 ds base (twirpErrorLink G o.interfaceName base (funcBody g!"injectRequestDataToError" ds))).call G e.2 self args).Run tr out → LibsReturn tr → MetaLaw G tr →
      e.2.returnsError = true → ∀ q qs, requestArgs e.2 args = q :: qs →
      ∃ res, implCalls tr = [⟨base, e.2.name, args, res⟩] ∧ (¬ Failed e.2 res → out = passedOn res ∧ libCalls tr = []) ∧
        (∀ init v, res = .ok (init ++ [v]) → v.isNil = false → Annotated G q init v tr out)

/-- templates/timeout: a method with a timeout is called with a context that ends in time, other calls are passed on unchanged. -/
def timeoutPromise (o : Options) (g : Generator) (vars : Str → Option VarValue) (ds : List Go.Decl) : Prop :=
    ∀ (G : GoTypes) (base : Val) (config : Str → Int) (deadline : Val → Option Int) (now : Int),
    ∀ e ∈ g.methods, ∀ self args, args.length = e.2.params.length → ∀ tr out,
      ((decoratorIn (g.inputs o vars) Spec.timeoutT.1 ds base (fun m => timeoutLink o.interfaceName base (config m.name) m)).call G e.2 self args).Run tr out → LibsReturn tr →
      (e.2.acceptsContext = true → TimeoutLaw deadline now tr →
        (config e.2.name > 0 → Bounded base e.2 deadline now (config e.2.name) args tr out) ∧
        (config e.2.name ≤ 0 → Transparent base e.2 args tr out ∧ libCalls tr = [])) ∧
      (e.2.acceptsContext = false → Transparent base e.2 args tr out)

/-- templates/retry: a call that fails is repeated, at most as often as was asked for, until its context ends; the last results are returned. -/
def retryPromise (o : Options) (g : Generator) (vars : Str → Option VarValue) (ds : List Go.Decl) : Prop :=
    ∀ (G : GoTypes) (D : Retry), D.iface = o.interfaceName → D.retryInterval > 0 →
    ∀ e ∈ g.methods, ∀ self args, args.length = e.2.params.length → ∀ tr out,
      ((decoratorIn (g.inputs o vars) Spec.retryT.1 ds D.base D.link).call G e.2 self args).Run tr out → TickerLaw tr →
      (e.2.returnsError = true →
        Retries e.2 (fun res => ⟨D.base, e.2.name, args, res⟩) (contextOf e.2 args) D.retryCount.toNat (retrySteps tr) out) ∧
      (e.2.returnsError = false → Transparent D.base e.2 args tr out)

/-- templates/circuitbreaker: calls of methods that return an error are made or refused as the calls before them demand, also when they are concurrent;
others are passed on unchanged. -/
def circuitbreakerPromise (o : Options) (g : Generator) (vars : Str → Option VarValue) (ds : List Go.Decl) : Prop :=
    ∀ (G : GoTypes) (D : Breaker), D.iface = o.interfaceName → D.dec = decoratorName (g.inputs o vars) g!"WithCircuitBreaker" →
      (∀ e ∈ g.methods, ∀ self args, args.length = e.2.params.length → ∀ tr out,
        ((decoratorIn (g.inputs o vars) Spec.circuitbreakerT.1 ds D.base D.link).call G e.2 self args).Run tr out → TickerLaw tr → ErrorsIsReturns tr →
        (e.2.returnsError = true → PassesThrough (· = D.base) e.2 args tr out) ∧
        (e.2.returnsError = false → Transparent D.base e.2 args tr out)) ∧
      ∀ (same : Val → Val → Bool) (time : Int) (L : List Label) (c : Conf BreakerState (Tree Outcome)),
        Exec Tree.Step (breakerHandler same) noBackground
          (CallOf G (decoratorIn (g.inputs o vars) Spec.circuitbreakerT.1 ds D.base D.link) fun m => m.returnsError = true ∧ ∃ name, (name, m) ∈ g.methods) (.init time) L c →
        Live (breakerHandler same) noBackground (D.ignore.length + 13) L c ∧ ¬ Race c ∧ (∀ i, WentThrough L c i → FoundClosed (D.policy same) L i) ∧
        (∀ i out, Ended c i out → LibsReturn (mine i L) → WentThrough L c i ∨
          (FoundOpen (D.policy same) L i ∧ ∃ (a : List Val) (vs : Vals 1) (v : Val) (init : List Val), vs.1 = [v] ∧
            (⟨.lib g!"errors.New" a 1, Except.ok vs⟩ : Event) ∈ mine i L ∧ out = .ret (init ++ [v]))) ∧
        (OneByOne L → (∀ i, i < c.threads.length → ∃ out, Ended c i out) → ∀ i, i < c.threads.length →
          Decided (D.policy same) L c i)

/-- templates/ratelimit: each call waits for a token or for the end of its context, and there are only so many tokens for all calls together. -/
def ratelimitPromise (o : Options) (g : Generator) (vars : Str → Option VarValue) (ds : List Go.Decl) : Prop :=
    ∀ (G : GoTypes) (base : Val),
      (∀ e ∈ g.methods, ∀ self args, args.length = e.2.params.length → ∀ tr out,
        ((decoratorIn (g.inputs o vars) Spec.ratelimitT.1 ds base (rateLimitLink base)).call G e.2 self args).Run tr out → LibsReturn tr →
        (∃ res, limitSteps tr = [.token, .call (.impl ⟨base, e.2.name, args, res⟩)] ∧ out = passedOn res) ∨
        e.2.acceptsContext = true ∧ e.2.returnsError = true ∧ ∃ ctx rest v, args = ctx :: rest ∧
          limitSteps tr = [.done ctx, .call (.lib ⟨g!"ctx.Err", [ctx], .ok [v]⟩)] ∧ out = .ret ((e.2.zeros G).dropLast ++ [v])) ∧
      ∀ (burst : Int) (s0 : LimiterState) (L : List Label) (c : Conf LimiterState (Tree Outcome)), LimiterState.new burst = some s0 →
        Exec Tree.Step limiterHandler limiterBackground (CallOf G (decoratorIn (g.inputs o vars) Spec.ratelimitT.1 ds base (rateLimitLink base)) fun m => ∃ name, (name, m) ∈ g.methods) s0 L c →
        Live limiterHandler limiterBackground 2 L c ∧ (starts L : Int) ≤ burst + ticks L ∧ ∀ L1 L2, L = L1 ++ L2 → (starts L2 : Int) ≤ burst + 2 + ticks L2

/-- templates/robinpool: each call is passed on unchanged to an implementation of the pool, and the calls are spread evenly. -/
def robinpoolPromise (o : Options) (g : Generator) (vars : Str → Option VarValue) (ds : List Go.Decl) : Prop :=
    ∀ (G : GoTypes) (pool : List Val),
      (∀ e ∈ g.methods, ∀ self args, args.length = e.2.params.length → ∀ tr out,
        ((decoratorIn (g.inputs o vars) Spec.robinpoolT.1 ds .nil (robinPoolLink pool)).call G e.2 self args).Run tr out → TickerLaw tr → ErrorsIsReturns tr →
        PassesThrough (· ∈ pool) e.2 args tr out) ∧
      ∀ (L : List Label) (c : Conf UInt32 (Tree Outcome)), newRobinPool pool ≠ none → pool.length < 2 ^ 32 → pool.Nodup →
        Exec Tree.Step robinHandler noBackground (CallOf G (decoratorIn (g.inputs o vars) Spec.robinpoolT.1 ds .nil (robinPoolLink pool)) fun m => ∃ name, (name, m) ∈ g.methods) 0 L c →
        Live robinHandler noBackground 2 L c ∧ (∀ i ∈ order L, ∃ v ∈ pool, target L c i = some v) ∧
        ∀ o1 W o3, order L = o1 ++ W ++ o3 →
          (pool.length ∣ 2 ^ 32 ∨ (o1.length + 1) / 2 ^ 32 = (o1.length + W.length) / 2 ^ 32) →
          ∀ v ∈ pool, ∀ v' ∈ pool, served L c W v ≤ served L c W v' + 1

/-- templates/syncpool: each call is passed on unchanged to an implementation taken from the pool, no two calls are made on the same at a time, and none is lost. -/
def syncpoolPromise (o : Options) (g : Generator) (vars : Str → Option VarValue) (ds : List Go.Decl) : Prop :=
    ∀ (G : GoTypes),
      (∀ e ∈ g.methods, ∀ self args, args.length = e.2.params.length → ∀ tr out,
        ((decoratorIn (g.inputs o vars) Spec.syncpoolT.1 ds .nil syncPoolLink).call G e.2 self args).Run tr out → TickerLaw tr → ErrorsIsReturns tr →
        PassesThrough (fun v => ⟨.takeImpl, v⟩ ∈ tr) e.2 args tr out) ∧
      ∀ (impls : List Val) (s0 : PoolState) (L : List Label) (c : Conf PoolState (Tree Outcome)), PoolState.new impls = some s0 →
        Exec Tree.Step poolHandler noBackground (CallOf G (decoratorIn (g.inputs o vars) Spec.syncpoolT.1 ds .nil syncPoolLink) fun m => ∃ name, (name, m) ∈ g.methods) s0 L c →
        Live poolHandler noBackground 3 L c ∧ (∀ i v, Inside c i v → Holds L i v) ∧ (∀ i v, Holds L i v → v ∈ impls) ∧
        (impls.Nodup → ∀ i j v, Holds L i v → Holds L j v → i = j) ∧
        (∀ i out, Ended c i out → ∃ v name args n, ∃ r : Except Val (Vals n),
          mine i L = [⟨.takeImpl, v⟩, ⟨.impl v name args n, r⟩, ⟨.putImpl v, ()⟩] ∧ out = passedOn (plain r)) ∧
        (∀ i k, c.threads[i]? = some (.vis .takeImpl k) → (∃ v ∈ impls, ∀ j, ¬ Holds L j v) → CanStep poolHandler c i) ∧
        ((∀ i, i < c.threads.length → ∃ out, Ended c i out) → c.shared.buffer.Perm impls)

/-- templates/fallback: a call ends with the results of an implementation that did not fail, with the errors of all, or with the end of the context; each
implementation is called at most once, and not too early.  A method with a context returns as soon as an implementation has succeeded, or all have
returned; then the goroutines of the implementations end, too. -/
def fallbackPromise (o : Options) (g : Generator) (vars : Str → Option VarValue) (ds : List Go.Decl) : Prop :=
    ∀ (G : GoTypes) (D : Fallback), ∀ e ∈ g.methods, ∀ self args, args.length = e.2.params.length →
      ∀ (L : List FLabel) (c : FConf (Tree Outcome) (Tree Outcome) (Tree Outcome)) (S : FSys (Tree Outcome) (Tree Outcome) (Tree Outcome)),
        S = goroutinesOf (decoratorIn (g.inputs o vars) Spec.fallbackT.1 ds .nil D.link) e.2 →
        FExec S D.impls.length ((decoratorIn (g.inputs o vars) Spec.fallbackT.1 ds .nil D.link).call G e.2 self args) L c →
        (∀ out, c.main = .ret out → Answer D G e.2 args L out) ∧
        (∀ i, implCalls (childEvents i L) = [] ∨ ∃ a r, Answered D e.2 L i a r ∧ ImplArgs e.2 args L a) ∧
        startCount L ≤ 1 + tickCount L + failureCount e.2 L ∧
        (c.main ≠ .ret .stuck ∧ c.launcher ≠ some (.ret .stuck) ∧ .ret .stuck ∉ c.children) ∧
        L.countP Fallback.FLabel.busy ≤ 8 * D.impls.length + 10 ∧
        (c.Alive S → Quiet S c →
          (e.2.acceptsContext = true → (∃ i a vs, Answered D e.2 L i a (.ok vs) ∧ failedVals e.2 vs = false) → Finished c.main) ∧
          (e.2.acceptsContext = true → 0 < D.impls.length → (∀ t ∈ c.children, ¬ InsideImpl t) → Finished c.main) ∧
          (Finished c.main → ∀ t ∈ c.children, InsideImpl t ∨ Finished t))

/-- What is promised for each template. -/
def promises (w : World) (o : Options) (g : Generator) (vars : Str → Option VarValue) : List ((Builtin × Locals) × (List Go.Decl → Prop)) :=
  [(Spec.logT, logPromise o g vars),
   (Spec.logrusT, logrusPromise o g vars),
   (Spec.prometheusT, prometheusPromise o g vars w),
   (Spec.opentracingT, opentracingPromise o g vars),
   (Spec.opencensusT, opencensusPromise o g vars),
   (Spec.opentelemetryT, opentelemetryPromise o g vars),
   (Spec.elasticapmT, elasticapmPromise o g vars w),
   (Spec.validateT, validatePromise o g vars),
   (Spec.twirpValidateT, twirpValidatePromise o g vars),
   (Spec.grpcValidateT, grpcValidatePromise o g vars),
   (Spec.twirpErrorT, twirpErrorPromise o g vars),
   (Spec.timeoutT, timeoutPromise o g vars),
   (Spec.circuitbreakerT, circuitbreakerPromise o g vars),
   (Spec.retryT, retryPromise o g vars),
   (Spec.ratelimitT, ratelimitPromise o g vars),
   (Spec.robinpoolT, robinpoolPromise o g vars),
   (Spec.syncpoolT, syncpoolPromise o g vars),
   (Spec.fallbackT, fallbackPromise o g vars)]

/-- All built-in templates are among them. -/
theorem promises_templates (w : World) (o : Options) (g : Generator) (vars : Str → Option VarValue) :
    (promises w o g vars).map (·.1) = builtins.zip locals := rfl

/-- The full claim of C80: whatever interface gowrap accepts, the generated decorator compiles and does what its template promises. -/
def C80_full : Prop := ∀ (w : World) (s : Sched) (fuel : Nat) (o : Options) (g : Generator) (vars : Str → Option VarValue),
  s.Fair → SourceOk w → OptionsOk o → newGenerator w s fuel o = .ok g → GoVars (g.inputs o vars) →
  ∀ p ∈ promises w o g vars, Makes w o g vars p.1 p.2

end Gowrap.Props

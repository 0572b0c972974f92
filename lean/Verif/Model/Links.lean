import Verif.Model.GoSem
import Verif.Model.TmplObserve
import Verif.Model.TmplValidate
import Verif.Model.TmplControl
import Verif.Model.TmplFallback
/-!
# What the names in the built-in templates mean

For every template a `Link`: the values of the fields of the decorator, which functions and methods of other
packages are called, and what locks, channels and the clock do.  A method that is called on a receiver that is a
library object has the receiver as its first argument.
-/

namespace Gowrap.Tmpl

open Gowrap Go

/-- Look up a dotted name. -/
def table {α : Type} : List (List Str × α) → List Str → Option α
  | [], _ => none
  | (q, v) :: r, p => if p = q then some v else table r p

/-- A constant. -/
def value (v : Val) : (Val → Stm) → Stm := fun k => k v

/-- The expression is the given dotted name. -/
def isPath (p : List Str) (e : Go.Expr) : Bool := decide (e.path = some p)

/-- A function of a package. -/
def func (fn : Str) : Fn := ⟨.none, .lib fn⟩

/-- A method of an object. -/
def method (fn : Str) : Fn := ⟨.object, .lib fn⟩

/-- A conversion or a function that returns its argument. -/
def same : Meaning := .prim fun vs k => k (vs.headD .nil)

/-- `time.Now` -/
def timeNow : Fn := ⟨.none, .prim fun _ k => .op .now fun t => k (.int t)⟩

/-- Nothing is known but the results of the method. -/
def emptyLink (m : Method) : Link where
  results := m.rnames
  globals := []
  read := fun _ => none
  write := fun _ => none
  fn := fun _ => none
  meth := fun _ => none
  impl := fun _ => false
  asserts := fun _ _ => false
  recvFrom := fun _ => none
  sendTo := fun _ => none
  select := fun _ => none
  spawn := fun _ => none
  closure := fun _ => none
  fuel := 0

/-- templates/log:3-21: `log` of the standard library. -/
def Log.link (d : Log) (m : Method) : Link :=
  { emptyLink m with
    read := table [([g!"_d", g!"_stdlog"], value d.stdlog), ([g!"_d", g!"_errlog"], value d.errlog), ([g!"_d", g!"_base"], value d.base)]
    fn := table [([g!"_d", g!"_stdlog", g!"Println"], method g!"log.Println"), ([g!"_d", g!"_errlog", g!"Println"], method g!"log.Println")]
    impl := isPath [g!"_d", g!"_base"] }

/-- templates/logrus:3-20: `logrus.Fields` is the map type. -/
def Logrus.link (d : Logrus) (m : Method) : Link :=
  { emptyLink m with
    globals := [g!"logrus"]
    read := table [([g!"_d", g!"_log"], value d.log), ([g!"_d", g!"_base"], value d.base)]
    fn := table [([g!"_d", g!"_log", g!"WithFields"], method g!"logrus.WithFields"),
      ([g!"_d", g!"_log", g!"Debug"], method g!"logrus.Debug"), ([g!"logrus", g!"Fields"], ⟨.none, same⟩)]
    meth := fun x => if x = g!"Debug" then some (.lib g!"logrus.Debug") else if x = g!"Error" then some (.lib g!"logrus.Error") else none
    impl := isPath [g!"_d", g!"_base"] }

/-- templates/prometheus:3-33: the result of `time.Since` is a number of seconds. -/
def Prometheus.link (d : Prometheus) (m : Method) : Link :=
  { emptyLink m with
    globals := [g!"time", d.vec]
    read := table [([g!"_d", g!"base"], value d.base), ([g!"_d", g!"instanceName"], value (.str d.instanceName))]
    fn := table [([g!"time", g!"Now"], timeNow), ([g!"time", g!"Since"], func g!"time.Since"),
      ([d.vec, g!"WithLabelValues"], func g!"prometheus.WithLabelValues")]
    meth := fun x => if x = g!"Observe" then some (.lib g!"prometheus.Observe") else if x = g!"Seconds" then some same else none
    impl := isPath [g!"_d", g!"base"] }

/-- The fields of the tracing decorators. -/
def Tracing.fields (d : Tracing) : List (List Str × ((Val → Stm) → Stm)) :=
  [([g!"_d", g!"_instance"], value (.str d.inst)), ([g!"_d", g!"_spanDecorator"], value d.spanDecorator),
    ([g!"_d", d.iface.name], value d.base)]

/-- templates/opentracing:3-28 -/
def Tracing.openTracingLink (d : Tracing) (m : Method) : Link :=
  { emptyLink m with
    globals := [g!"opentracing", g!"_ext", g!"_log"]
    read := table d.fields
    fn := table [([g!"opentracing", g!"StartSpanFromContext"], func g!"opentracing.StartSpanFromContext"),
      ([g!"_d", g!"_spanDecorator"], ⟨.value, .lib g!"_spanDecorator"⟩), ([g!"_ext", g!"Error", g!"Set"], func g!"ext.Error.Set"),
      ([g!"_span", g!"LogFields"], method g!"opentracing.LogFields"), ([g!"_log", g!"String"], func g!"log.String"),
      ([g!"err", g!"Error"], method g!"Error"), ([g!"_span", g!"Finish"], method g!"opentracing.Finish")]
    impl := isPath [g!"_d", d.iface.name] }

/-- templates/opencensus:3-26 -/
def Tracing.openCensusLink (d : Tracing) (m : Method) : Link :=
  { emptyLink m with
    globals := [g!"trace"]
    read := table d.fields
    fn := table [([g!"trace", g!"StartSpan"], func g!"trace.StartSpan"),
      ([g!"_d", g!"_spanDecorator"], ⟨.value, .lib g!"_spanDecorator"⟩), ([g!"_span", g!"AddAttributes"], method g!"trace.AddAttributes"),
      ([g!"trace", g!"BoolAttribute"], func g!"trace.BoolAttribute"), ([g!"trace", g!"StringAttribute"], func g!"trace.StringAttribute"),
      ([g!"err", g!"Error"], method g!"Error"), ([g!"_span", g!"End"], method g!"trace.End")]
    impl := isPath [g!"_d", d.iface.name] }

/-- templates/opentelemetry:3-32; the constant `_codes.Error` is written as its name. -/
def Tracing.openTelemetryLink (d : Tracing) (m : Method) : Link :=
  { emptyLink m with
    globals := [g!"otel", g!"_codes", g!"attribute"]
    read := table (([g!"_codes", g!"Error"], value (.str g!"Error")) :: d.fields)
    fn := table [([g!"otel", g!"Tracer"], func g!"otel.Tracer"),
      ([g!"_d", g!"_spanDecorator"], ⟨.value, .lib g!"_spanDecorator"⟩), ([g!"_span", g!"RecordError"], method g!"trace.RecordError"),
      ([g!"_span", g!"SetStatus"], method g!"trace.SetStatus"), ([g!"_span", g!"SetAttributes"], method g!"trace.SetAttributes"),
      ([g!"attribute", g!"String"], func g!"attribute.String"), ([g!"err", g!"Error"], method g!"Error"), ([g!"_span", g!"End"], method g!"trace.End")]
    meth := fun x => if x = g!"Start" then some (.lib g!"trace.Start") else none
    impl := isPath [g!"_d", d.iface.name] }

/-- templates/elasticapm:5-57 -/
def Apm.link (d : Apm) (m : Method) : Link :=
  { emptyLink m with
    read := table [([g!"_d", g!"base"], value d.base), ([g!"_d", g!"spanType"], value (.str d.spanType))]
    fn := table [([g!"_d", g!"startSpan"], func g!"startSpan"), ([g!"_d", g!"endSpan"], func g!"endSpan"),
      ([g!"_d", g!"setLabel"], func g!"setLabel"), ([g!"_d", g!"captureError"], func g!"captureError")]
    impl := isPath [g!"_d", g!"base"] }

/-- `v.(interface{ Validate() error })` -/
def assertsValidate (G : GoTypes) : Ty → Val → Bool
  | .iface [.mk x [] (.one (.name e))], v => x = g!"Validate" && e = g!"error" && G.validatable v
  | _, _ => false

/-- templates/validate:4-15 -/
def validateLink (G : GoTypes) (iface : Str) (base : Val) (m : Method) : Link :=
  { emptyLink m with
    read := table [([g!"_d", iface], value base)]
    fn := table [([g!"_v", g!"Validate"], method g!"Validate")]
    impl := isPath [g!"_d", iface]
    asserts := assertsValidate G }

/-- templates/grpc_validate:3-21; the constant `codes.InvalidArgument` is written as its name. -/
def grpcValidateLink (G : GoTypes) (iface : Str) (base : Val) (m : Method) : Link :=
  { emptyLink m with
    globals := [g!"grpc_status", g!"grpc_codes"]
    read := table [([g!"_d", iface], value base), ([g!"grpc_codes", g!"InvalidArgument"], value (.str g!"InvalidArgument"))]
    fn := table [([g!"_v", g!"Validate"], method g!"Validate"), ([g!"grpc_status", g!"Error"], func g!"status.Error"),
      ([g!"err", g!"Error"], method g!"Error")]
    impl := isPath [g!"_d", iface]
    asserts := assertsValidate G }

/-- templates/twirp_validate:3-19; the constant `twirp.InvalidArgument` is written as its name. -/
def twirpValidateLink (G : GoTypes) (iface : Str) (base : Val) (m : Method) : Link :=
  { emptyLink m with
    globals := [g!"twirp"]
    read := table [([g!"_d", iface], value base), ([g!"twirp", g!"InvalidArgument"], value (.str g!"InvalidArgument"))]
    fn := table [([g!"_v", g!"Validate"], method g!"Validate"), ([g!"twirp", g!"NewError"], func g!"twirp.NewError"),
      ([g!"err", g!"Error"], method g!"Error")]
    impl := isPath [g!"_d", iface]
    asserts := assertsValidate G }

/-- `v.(twirp.Error)` -/
def assertsTwirp (G : GoTypes) : Ty → Val → Bool
  | .qual p x, v => p = g!"twirp" && x = g!"Error" && G.twirpError v
  | _, _ => false

/-- templates/twirp_error:33-44: in the function `injectRequestDataToError`.  What `perr` points to is kept in a variable `*perr`;
`string(jsonReq)` is taken to be `jsonReq`. -/
def injectLink (G : GoTypes) : Link where
  results := []
  globals := [g!"twirp", g!"json"]
  read := table [([g!"*", g!"perr"], fun k => .get g!"*perr" k)]
  write := table [([g!"*", g!"perr"], fun v k => .seq (.assign g!"*perr" v) k)]
  fn := table [([g!"twirp", g!"InternalErrorWith"], func g!"twirp.InternalErrorWith"), ([g!"json", g!"Marshal"], func g!"json.Marshal"),
    ([g!"twerr", g!"WithMeta"], method g!"twirp.WithMeta"), ([g!"string"], ⟨.none, same⟩)]
  meth := fun _ => none
  impl := fun _ => false
  asserts := assertsTwirp G
  recvFrom := fun _ => none
  sendTo := fun _ => none
  select := fun _ => none
  spawn := fun _ => none
  closure := fun _ => none
  fuel := 0

/-- `injectRequestDataToError(req, &err)` where the function has the given body: it runs with the variables `req`, `perr` and the variable
that `perr` points to, and afterwards `err` has the value of that variable. -/
def callInject (G : GoTypes) (body : List Stmt) (req : Val) : Stm :=
  .get g!"err" fun err => fun env =>
    (denBody (injectLink G) body (((Env.set (fun _ => none) g!"req" req).set g!"perr" (.obj 0)).set g!"*perr" err)).bind fun r =>
      .ret (match r.1 g!"*perr" with
        | some v => env.set g!"err" v
        | none => env, match r.2 with
        | .ret => .next
        | fl => fl)

/-- templates/twirp_error:3-44, where `inject` is the body of `injectRequestDataToError`. -/
def twirpErrorLink (G : GoTypes) (iface : Str) (base : Val) (inject : List Stmt) (m : Method) : Link :=
  { emptyLink m with
    globals := [g!"injectRequestDataToError"]
    read := table [([g!"_d", iface], value base), ([g!"&", g!"err"], value (.obj 0))]
    fn := table [([g!"injectRequestDataToError"], ⟨.none, .prim fun vs k => .seq (callInject G inject (vs.headD .nil)) (k .nil)⟩)]
    impl := isPath [g!"_d", iface] }

/-- templates/timeout:3-26, where `timeout` is the field for the method. -/
def timeoutLink (iface : Str) (base : Val) (timeout : Int) (m : Method) : Link :=
  { emptyLink m with
    globals := [g!"context"]
    read := table [([g!"_d", g!"config", m.name ++ g!"Timeout"], value (.int timeout)), ([g!"_d", iface], value base)]
    fn := table [([g!"context", g!"WithTimeout"], func g!"context.WithTimeout"), ([g!"cancelFunc"], ⟨.value, .lib g!"cancel"⟩)]
    impl := isPath [g!"_d", iface] }

/-- A call without results. -/
def action (o : Op) (k : Stm) : Stm := .op o fun _ => k

/-- templates/circuitbreaker:3-31: times are numbers of nanoseconds, a pointer to a time is a time or nil. -/
def Breaker.link (d : Breaker) (m : Method) : Link :=
  { emptyLink m with
    globals := [g!"errors", g!"time"]
    read := table [([g!"_d", d.iface], value d.base), ([g!"_d", g!"_maxConsecutiveErrors"], value (.int d.maxErrors)),
      ([g!"_d", g!"_openInterval"], value (.int d.openInterval)), ([g!"_d", g!"_ignoreErrors"], value (.slice d.ignore)),
      ([g!"_d", g!"_consecutiveErrors"], fun k => .op .getErrors fun (n : Nat) => k (.int n)),
      ([g!"_d", g!"_closesAt"], fun k => .op .getClosesAt fun (c : Option Int) => match c with
        | none => k .nil
        | some t => k (.int t))]
    write := table [([g!"_d", g!"_consecutiveErrors"], fun v k => match v with
        | .int n => action (.setErrors n.toNat) k
        | _ => .stuck),
      ([g!"_d", g!"_closesAt"], fun v k => match v with
        | .nil => action (.setClosesAt none) k
        | .int t => action (.setClosesAt (some t)) k
        | _ => .stuck)]
    fn := table [([g!"_d", g!"_lock", g!"RLock"], ⟨.none, .prim fun _ k => action .rlock (k .nil)⟩),
      ([g!"_d", g!"_lock", g!"RUnlock"], ⟨.none, .prim fun _ k => action .runlock (k .nil)⟩),
      ([g!"_d", g!"_lock", g!"Lock"], ⟨.none, .prim fun _ k => action .lock (k .nil)⟩),
      ([g!"_d", g!"_lock", g!"Unlock"], ⟨.none, .prim fun _ k => action .unlock (k .nil)⟩),
      ([g!"_d", g!"_closesAt", g!"After"], ⟨.target, .prim fun vs k => match vs with
        | [.int t, .int now] => k (.bool (t > now))
        | _ => .stuck⟩),
      ([g!"time", g!"Now"], timeNow), ([g!"errors", g!"New"], func g!"errors.New"),
      ([g!"errors", g!"Is"], ⟨.none, .prim fun vs k => match vs with
        | [err, target] => .op (.errorsIs err target) (.orPanic fun b => k (.bool b))
        | _ => .stuck⟩)]
    meth := fun x => if x = g!"Add" then some (.prim fun vs k => match vs with
        | [.int t, .int n] => k (.int (t + n))
        | _ => .stuck) else none
    impl := isPath [g!"_d", d.iface] }

/-- templates/retry:3-22: the ticker is an object. -/
def Retry.link (d : Retry) (m : Method) : Link :=
  { emptyLink m with
    globals := [g!"time"]
    read := table [([g!"_d", d.iface], value d.base), ([g!"_d", g!"_retryCount"], value (.int d.retryCount)),
      ([g!"_d", g!"_retryInterval"], value (.int d.retryInterval))]
    fn := table [([g!"time", g!"NewTicker"], ⟨.none, .prim fun vs k => match vs with
        | [.int n] => .op (.newTicker n) (.orPanic fun _ => k (.obj 0))
        | _ => .stuck⟩),
      ([g!"_ticker", g!"Stop"], ⟨.none, .prim fun _ k => action .stopTicker (k .nil)⟩)]
    recvFrom := table [([g!"_ticker", g!"C"], fun k => action .tick (k .nil))]
    select := fun cs => if cs = [.recv [g!"ctx", g!"Done"], .recv [g!"_ticker", g!"C"]] then
        some fun _ k => .get g!"ctx" fun ctx => .op (.doneOrTick ctx) fun
          | .done => k 0 .nil
          | .other => k 1 .nil
      else none
    impl := isPath [g!"_d", d.iface]
    fuel := d.retryCount.toNat + 1 }

/-- templates/ratelimit:3-34 -/
def rateLimitLink (base : Val) (m : Method) : Link :=
  { emptyLink m with
    read := table [([g!"_d", g!"_base"], value base)]
    fn := table [([g!"ctx", g!"Err"], method g!"ctx.Err")]
    recvFrom := table [([g!"_d", g!"_ticks"], fun k => action .takeToken (k .nil))]
    select := fun cs => if cs = [.recv [g!"ctx", g!"Done"], .recv [g!"_d", g!"_ticks"]] then
        some fun _ k => .get g!"ctx" fun ctx => .op (.doneOrToken ctx) fun
          | .done => k 0 .nil
          | .other => k 1 .nil
      else none
    impl := isPath [g!"_d", g!"_base"] }

/-- templates/robinpool:3-33: `poolSize` is `uint32(len(pool))`. -/
def robinPoolLink (pool : List Val) (m : Method) : Link :=
  { emptyLink m with
    globals := [g!"atomic"]
    read := table [([g!"_d", g!"pool"], value (.slice pool)), ([g!"_d", g!"poolSize"], value (.int (UInt32.ofNat pool.length).toNat)),
      ([g!"&", g!"_d", g!"counter"], value (.obj 0))]
    fn := table [([g!"atomic", g!"AddUint32"], ⟨.none, .prim fun vs k => match vs with
        | [_, .int 1] => .op .addCounter fun (c : UInt32) => k (.int c.toNat)
        | _ => .stuck⟩)]
    impl := fun e => match e with
      | .index e _ => isPath [g!"_d", g!"pool"] e
      | _ => false }

/-- templates/syncpool:4-22: `pool` is a channel of implementations. -/
def syncPoolLink (m : Method) : Link :=
  { emptyLink m with
    recvFrom := table [([g!"_d", g!"pool"], fun k => .op .takeImpl fun v => k v)]
    sendTo := table [([g!"_d", g!"pool"], fun v k => action (.putImpl v) k)]
    impl := isPath [g!"_impl"] }

/-- `len(x)` -/
def lenFn : Fn := ⟨.none, .prim fun vs k => match vs with
  | [v] => k (.int (Fallback.lenOf v))
  | _ => .stuck⟩

/-- `append(l, v)` -/
def appendFn : Fn := ⟨.none, .prim fun vs k => match vs with
  | [l, v] => k (Fallback.appendTo l v)
  | _ => .stuck⟩

/-- `make(chan T, n)` -/
def makeFn : Fn := ⟨.none, .prim fun vs k => match vs with
  | [.int n] => k (.int n)
  | _ => .stuck⟩

/-- templates/fallback:1-21: `_res.x` is a field of what was received, `_ch` carries the results of the implementations. -/
def _root_.Gowrap.Fallback.link (d : Fallback) (m : Method) : Link :=
  { emptyLink m with
    globals := [g!"time", g!"context", g!"errors", g!"fmt", g!"strings"]
    read := fun p => match p with
      | [r, x] =>
        if r = g!"_res" then some fun k => .get g!"_res" fun
          | .slice vs => k (((m.rnames.zip vs).lookup x).getD .nil)
          | _ => .stuck
        else if r = g!"_d" then
          if x = g!"implementations" then some (value (.slice d.impls))
          else if x = g!"interval" then some (value (.int d.interval))
          else none
        else none
      | _ => none
    fn := table [([g!"make"], makeFn), ([g!"len"], lenFn), ([g!"append"], appendFn),
      ([g!"time", g!"NewTicker"], ⟨.none, .prim fun vs k => match vs with
        | [.int n] => .op (.newTicker n) (.orPanic fun _ => k (.obj 2))
        | _ => .stuck⟩),
      ([g!"_ticker", g!"Stop"], ⟨.none, .prim fun _ k => action .stopTicker (k .nil)⟩),
      ([g!"context", g!"WithCancel"], func g!"context.WithCancel"), ([g!"_cancelFunc"], ⟨.value, .lib g!"cancel"⟩),
      ([g!"errors", g!"New"], func g!"errors.New"), ([g!"fmt", g!"Errorf"], func g!"fmt.Errorf"),
      ([g!"strings", g!"Join"], func g!"strings.Join"), ([g!"ctx", g!"Err"], method g!"ctx.Err"),
      ([g!"_res", g!"err", g!"Error"], method g!"err.Error")]
    impl := isPath [g!"_impl"]
    recvFrom := table [([g!"_ch"], fun k => .op .recv (Fallback.typed m fun vs => k (.slice vs)))]
    sendTo := table [([g!"_next"], fun _ k => action .sendNext k)]
    select := fun cs =>
      if cs = [.recv [g!"_ch"], .recv [g!"ctx", g!"Done"]] then
        some fun _ k => .get g!"ctx" fun ctx => .op (.recvOrDone ctx) fun
          | some vs => Fallback.typed m (fun vs => k 0 (.slice vs)) vs
          | none => k 1 .nil
      else if cs = [.send [g!"_ch"], .recv [g!"ctx", g!"Done"]] then
        some fun vs k => match vs with
          | [.slice vs] => .get g!"ctx" fun ctx => .op (.sendOrDone ctx vs) fun
            | .other => k 0 .nil
            | .done => k 1 .nil
          | _ => .stuck
      else if cs = [.send [g!"_ch"], .default] then
        some fun vs k => match vs with
          | [.slice vs] => .op (.sendOrSkip vs) fun
            | true => k 0 .nil
            | false => k 1 .nil
          | _ => .stuck
      else if cs = [.recv [g!"_next"], .recv [g!"_ticker", g!"C"]] then
        some fun _ k => .op .nextOrTick fun
          | true => k 0 .nil
          | false => k 1 .nil
      else none
    spawn := fun ps => if ps = [] then some .launcher else if ps = [g!"_impl"] then some .impl else none
    fuel := d.impls.length + 1 }

end Gowrap.Tmpl

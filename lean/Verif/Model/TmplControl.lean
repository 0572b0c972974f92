import Verif.Model.Exec
/-!
# The templates that control calls

templates/circuitbreaker, retry, ratelimit, robinpool, syncpool.  The methods are programs over shared
fields, locks and channels; what these do is described by the transition systems in `Model/Shared.lean`.
-/

namespace Gowrap.Tmpl

open Gowrap

/-! ## templates/circuitbreaker -/

/-- The fields of templates/circuitbreaker:10-19 that are set once in lines 23-30.  A `time.Duration` is
a number of nanoseconds. -/
structure Breaker where
  iface : Str
  dec : Str
  base : Val
  maxErrors : Int
  openInterval : Int
  ignore : List Val

/-- templates/circuitbreaker:50-52, 57-59. -/
def breakerReset : Stm := .op (.setErrors 0) fun _ => .op (.setClosesAt none) fun _ => .ret

/-- templates/circuitbreaker:63-70.  `_consecutiveErrors` counts without overflow. -/
def Breaker.count (d : Breaker) : Stm :=
  .op .getErrors fun (n : Nat) => .op (.setErrors (n + 1)) fun _ =>
  .op .getErrors fun (n : Nat) =>
    if (n : Int) ≥ d.maxErrors then
      .global g!"time" (.op .now fun (t : Int) => .op (.setClosesAt (some (t + d.openInterval))) fun _ => .ret)
    else .ret

/-- templates/circuitbreaker:55-61, the loop over the ignored errors. -/
def Breaker.ignored (d : Breaker) (err : Val) : List Val → Stm
  | [] => d.count
  | e :: es => .global g!"errors" (.op (.errorsIs err e) (.orPanic fun same =>
      .ite same breakerReset (ignored d err es)))

/-- templates/circuitbreaker:45-71: the call and what follows. -/
def Breaker.attempt (d : Breaker) (m : Method) : Stm :=
  m.assignCall d.base (.op .lock fun _ => .deferring (.op .unlock fun _ => .skip)
    (.get g!"err" fun err => .ite err.isNil breakerReset (d.ignored err d.ignore)))

/-- templates/circuitbreaker:39-41. -/
def Breaker.reject (d : Breaker) : Stm :=
  .op .runlock fun _ => .global g!"errors" (.lib1 g!"errors.New" [.str (d.dec ++ g!": circuit is open")]
    fun e => .seq (.assign g!"err" e) .ret)

/-- templates/circuitbreaker:35-71.  The second read of `_closesAt` dereferences the pointer. -/
def Breaker.body (d : Breaker) (m : Method) : Stm :=
  .op .rlock fun _ => .op .getClosesAt fun (c : Option Int) =>
    if c.isNone then .op .runlock fun _ => d.attempt m
    else .op .getClosesAt fun (c : Option Int) =>
      match c with
      | none => fun env => .ret (env, .panic .nil)
      | some t => .global g!"time" (.op .now fun (now : Int) =>
          if t > now then d.reject else .op .runlock fun _ => d.attempt m)

/-- templates/circuitbreaker:10-73: only methods that return an error are declared. -/
def Breaker.decorator (d : Breaker) : Decorator :=
  ⟨[d.iface, g!"_lock", g!"_maxConsecutiveErrors", g!"_consecutiveErrors", g!"_openInterval", g!"_closesAt",
      g!"_ignoreErrors"], true, d.base,
    fun m => if m.returnsError then some (d.body m) else none⟩

/-! ## templates/retry -/

/-- The fields of templates/retry:8-12. -/
structure Retry where
  iface : Str
  base : Val
  retryCount : Int
  retryInterval : Int

/-- The loop of templates/retry:33-44 for `_i = i` and `fuel` remaining iterations; the variable `_i`
hides a parameter of the same name.  `retryCount` is a number of the type `int`. -/
def Retry.loop (d : Retry) (m : Method) : Nat → Nat → Stm
  | 0, _ => .ret
  | fuel + 1, i =>
    .get g!"err" fun err =>
      if err.isNil then .ret
      else
        let again := .block [g!"_i"] [.int i] (m.assignCall d.base .skip)
        if m.acceptsContext then
          .get g!"ctx" fun ctx => .op (.doneOrTick ctx) fun c =>
            match c with
            | .done => .ret
            | .other => .seq again (loop d m fuel (i + 1))
        else .op .tick fun _ => .seq again (loop d m fuel (i + 1))

/-- templates/retry:26-46.  A result called `_i` would be the loop counter: not modelled. -/
def Retry.body (d : Retry) (m : Method) : Stm :=
  m.assignCall d.base (.get g!"err" fun err =>
    if err.isNil || d.retryCount < 1 then .ret
    else if g!"_i" ∈ m.rnames then .stuck
    else .global g!"time" (.op (.newTicker d.retryInterval) (.orPanic fun _ =>
      .seq (.declare g!"_ticker" (.obj 0)) (.deferring (.op .stopTicker fun _ => .skip)
        (d.loop m d.retryCount.toNat 0)))))

/-- templates/retry:8-48: only methods that return an error are declared. -/
def Retry.decorator (d : Retry) : Decorator :=
  ⟨[d.iface, g!"_retryCount", g!"_retryInterval"], true, d.base,
    fun m => if m.returnsError then some (d.body m) else none⟩

/-! ## templates/ratelimit -/

/-- templates/ratelimit:38-50. -/
def rateLimit (base : Val) (m : Method) : Stm :=
  if m.acceptsContext && m.returnsError then
    .get g!"ctx" fun ctx => .op (.doneOrToken ctx) fun c =>
      match c with
      | .done => .get g!"ctx" fun ctx => .lib1 g!"ctx.Err" [ctx] fun e => .seq (.assign g!"err" e) .ret
      | .other => m.passTo base
  else .op .takeToken fun _ => m.passTo base

/-- templates/ratelimit:8-51. -/
def rateLimitDecorator (base : Val) : Decorator :=
  ⟨[g!"_base", g!"_ticks"], false, base, fun m => some (rateLimit base m)⟩

/-! ## templates/robinpool -/

/-- templates/robinpool:37-40.  `uint32(len(pool))` is the length modulo 2³²; dividing by zero and
indexing outside the slice panic. -/
def robinPool (pool : List Val) (m : Method) : Stm :=
  .global g!"atomic" (.op .addCounter fun (c : UInt32) =>
    .seq (.declare g!"_counter" (.int c.toNat))
      (if UInt32.ofNat pool.length = 0 then fun env => .ret (env, .panic .nil)
      else match pool[(c % UInt32.ofNat pool.length).toNat]? with
        | none => fun env => .ret (env, .panic .nil)
        | some impl => m.passTo impl))

/-- `New…RoundRobinPool`, templates/robinpool:17-23; `none` is the error for an empty pool. -/
def newRobinPool (pool : List Val) : Option (Method → Stm) :=
  if pool.length = 0 then none else some (robinPool pool)

/-- templates/robinpool:9-41; there is no single wrapped implementation. -/
def robinPoolDecorator (pool : List Val) : Decorator :=
  ⟨[g!"pool", g!"poolSize", g!"counter"], false, .nil, fun m => some (robinPool pool m)⟩

/-! ## templates/syncpool -/

/-- templates/syncpool:25-31. -/
def syncPool (m : Method) : Stm :=
  .op .takeImpl fun impl => .seq (.declare g!"_impl" impl)
    (.deferring (.get g!"_impl" fun impl => .op (.putImpl impl) fun _ => .skip)
      (.get g!"_impl" fun impl => m.passTo impl))

/-- templates/syncpool:4-32. -/
def syncPoolDecorator : Decorator :=
  ⟨[g!"pool"], false, .nil, fun m => some (syncPool m)⟩

end Gowrap.Tmpl

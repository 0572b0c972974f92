import Verif.Model.Shared
/-!
# templates/fallback

A call of a method starts goroutines: one (the launcher) starts the others, each of which calls one
implementation.  The method and the goroutines are programs like those of the other templates; how they
run together is described by `FExec`.

Calls of methods on the same decorator share nothing but the list of implementations and the interval,
which do not change, so it is enough to look at one call.
-/

namespace Gowrap

open Gowrap

/-! ## The programs -/

/-- The struct of templates/fallback:11-14. -/
structure Fallback where
  impls : List Val
  interval : Int

namespace Fallback

/-- `_res.err`, templates/fallback:74: the fields of `_resultStruct` are named like the results,
generator/types.go:298-304 `ResultsStruct`. -/
def errField (m : Method) (vs : List Val) : Val := ((m.rnames.zip vs).lookup g!"err").getD .nil

/-- `append(_errorsList, s)`. -/
def appendTo (l s : Val) : Val :=
  match l with
  | .slice vs => .slice (vs ++ [s])
  | _ => .slice [s]

/-- `len(_errorsList)`. -/
def lenOf : Val → Nat
  | .slice vs => vs.length
  | _ => 0

/-- templates/fallback:41-45. -/
def wrapErr (m : Method) : Stm :=
  if m.returnsError then
    .get g!"err" fun err => .ite err.isNil .skip
      (.global g!"fmt" (.get g!"_impl" fun impl => .lib1 g!"fmt.Errorf" [.str g!"%T: %v", impl, err]
        fun e => .assign g!"err" e))
  else .skip

/-- templates/fallback:47-57. -/
def send (m : Method) : Stm :=
  .getAll m.rnames fun vs =>
    if m.acceptsContext then .get g!"ctx" fun ctx => .op (.sendOrDone ctx vs) fun _ => .skip
    else .op (.sendOrSkip vs) fun _ => .skip

/-- The goroutine of templates/fallback:39-58.  The results are declared in its body; `_impl` is its
parameter. -/
def child (m : Method) : Stm :=
  .get g!"_impl" fun impl => .getAll m.pnames fun args => .op (.impl impl m.name args m.results.length)
    (.orPanic fun vs => .block m.rnames vs.1 (.seq (wrapErr m) (send m)))

/-- The goroutine of templates/fallback:37-67 for `_i = i` and the implementations from number `i` on.
The variables `_i` and `_impl` hide parameters with the same names. -/
def launch : Nat → List Val → Stm
  | _, [] => .skip
  | i, impl :: rest => fun env =>
    .vis (.go .impl ((env.set g!"_i" (.int i)).set g!"_impl" impl)) fun _ =>
      match rest with
      | [] => .ret (env, .next)
      | rest => .vis .nextOrTick fun _ => launch (i + 1) rest env

/-- `return _res.a, …, _res.err`, generator/types.go:338-348 `ReturnStruct`. -/
def returnRes (m : Method) (vs : List Val) : Stm := .seq (.assignAll m.rnames vs) .ret

/-- templates/fallback:80-81. -/
def allFailed : Stm :=
  .global g!"errors" (.global g!"strings" (.get g!"_errorsList" fun l =>
    .lib1 g!"strings.Join" [l, .str g!";"] fun s => .lib1 g!"errors.New" [s] fun e =>
      .seq (.assign g!"err" e) .ret))

/-- templates/fallback:86-90. -/
def cancelled (m : Method) : Stm :=
  if m.returnsError then
    .global g!"fmt" (.get g!"ctx" fun ctx => .lib1 g!"ctx.Err" [ctx] fun e =>
      .global g!"strings" (.get g!"_errorsList" fun l => .lib1 g!"strings.Join" [l, .str g!";"] fun s =>
        .lib1 g!"fmt.Errorf" [.str g!"%w: %s", e, s] fun e => .seq (.assign g!"err" e) .ret))
  else .ret

/-- What is received from `_ch` is of the type `_resultStruct`, which has a field for every result. -/
def typed (m : Method) (k : List Val → Stm) (vs : List Val) : Stm :=
  if vs.length = m.results.length then k vs else .stuck

/-- The loop of templates/fallback:70-93 with at most `fuel` iterations.  After `n` failures it returns,
so `n + 1` iterations are enough unless there are no implementations; then nothing is ever received.
What would follow is not modelled (`stuck`); `Props.C52_returns` says that it does not happen. -/
def loop (d : Fallback) (m : Method) : Nat → Stm
  | 0 => .stuck
  | fuel + 1 => .get g!"ctx" fun ctx => .op (.recvOrDone ctx) fun r =>
    match r with
    | some vs => typed m (fun vs =>
      if m.returnsError then
        if (errField m vs).isNil then returnRes m vs
        else .op .sendNext fun _ => .get g!"_errorsList" fun l => .lib1 g!"err.Error" [errField m vs] fun s =>
          .seq (.assign g!"_errorsList" (appendTo l s))
            (.get g!"_errorsList" fun l => if lenOf l = d.impls.length then allFailed else loop d m fuel)
      else returnRes m vs) vs
    | none => cancelled m

/-- `go func() {…}()`, templates/fallback:37. -/
def start : Stm := fun env => .vis (.go .launcher env) fun _ => .ret (env, .next)

/-- templates/fallback:32-104, for methods that compile. -/
def work (d : Fallback) (m : Method) : Stm :=
  if m.acceptsContext then
    .global g!"context" (.get g!"ctx" fun ctx => .lib2 g!"context.WithCancel" [ctx] fun ctx' cancel =>
      .seq (.declare g!"_cancelFunc" cancel) (.seq (.assign g!"ctx" ctx')
        (.get g!"_cancelFunc" fun cancel => .deferring (.lib0 g!"cancel" [cancel])
          (.seq start (d.loop m (d.impls.length + 1))))))
  else .seq start (.op .recv (typed m fun vs =>
    if m.hasResults then .seq (.declare g!"_res" (.slice vs)) (returnRes m vs) else returnRes m vs))

/-- templates/fallback:24-105.  A method that returns an error and does not accept a context ends without
`return`, line 100, and does not compile.  `_resultStruct` is a type, `_ch` and `_next` are channels, written as
their capacity; the values of types and tickers do not matter.  A parameter or result with the name `_res` of
lines 72 and 95 is taken for an error. -/
def body (d : Fallback) (m : Method) : Stm :=
  if m.returnsError && !m.acceptsContext then .stuck
  else .global g!"_res" (.seq (.declare g!"_resultStruct" .nil) (.seq (.declare g!"_ch" (.int 0))
    (.seq (.declare g!"_next" (.int d.impls.length))
      (.seq (if m.returnsError then .declare g!"_errorsList" (.slice []) else .skip) (.global g!"time"
        (.op (.newTicker d.interval) (.orPanic fun _ => .seq (.declare g!"_ticker" (.obj 2))
          (.deferring (.op .stopTicker fun _ => .skip) (d.work m)))))))))

/-- templates/fallback:11-106: every method is declared. -/
def decorator (d : Fallback) : Decorator :=
  ⟨[g!"implementations", g!"interval"], false, .nil, fun m => some (d.body m)⟩

/-- The end of a goroutine. -/
def goEnd (r : Env × Flow) : Tree Outcome :=
  match r.2 with
  | .panic v => .ret (.panic v)
  | .stuck => .ret .stuck
  | _ => .ret (.ret [])

/-- What a goroutine does; methods of templates/fallback start no others. -/
def goTree (d : Fallback) (m : Method) (env : Env) : Goroutine → Tree Outcome
  | .launcher => (launch 0 d.impls env).bind goEnd
  | .impl => (child m env).bind goEnd
  | .ticker => .ret .stuck

end Fallback

/-! ## Goroutines, channels, the ticker and the context -/

/-- The channels and other objects of one call. -/
structure FState where
  /-- the number of values in `_next` and its capacity -/
  next : Nat
  cap : Nat
  /-- the ticker runs; there is a tick in its channel, which holds at most one -/
  ticking : Bool
  pending : Bool
  /-- the context returned by `context.WithCancel` -/
  derived : Option Val
  /-- the context of the caller is done -/
  callerDone : Bool
  /-- the cancel function was called -/
  cancelled : Bool
  /-- the method waits at the channel `_ch` -/
  waiting : Bool

/-- Before a call. -/
def FState.init (n : Nat) : FState := ⟨0, n, false, false, none, false, false, false⟩

/-- A context is done: the derived context is done when the context of the caller is or when it was
cancelled. -/
def FState.isDone (s : FState) (ctx : Val) : Prop :=
  s.callerDone = true ∨ (s.cancelled = true ∧ s.derived = some ctx)

/-- What library functions return: `fmt.Errorf` and `errors.New` return errors that are not nil, nothing
panics except `context.WithCancel` (for the context nil). -/
def FState.libs (s : FState) (fn : Str) (r : Except Val (List Val)) (s' : FState) : Prop :=
  if fn = g!"context.WithCancel" then
    (∃ c f, r = .ok [c, f] ∧ s' = { s with derived := some c }) ∨ ((∃ v, r = .error v) ∧ s' = s)
  else if fn = g!"cancel" then r = .ok [] ∧ s' = { s with cancelled := true }
  else if fn = g!"fmt.Errorf" ∨ fn = g!"errors.New" then (∃ e, r = .ok [e] ∧ e.isNil = false) ∧ s' = s
  else (∃ vs, r = .ok vs) ∧ s' = s

/-- The results without the proof of their number. -/
def okVals {n : Nat} : Except Val (Vals n) → Except Val (List Val)
  | .ok vs => .ok vs.1
  | .error v => .error v

/-- Operations of a single goroutine.  The default case of a `select` is taken only if the method does not
wait at the channel; `time.NewTicker` panics if the interval is not positive. -/
def fallbackHandler : Handler FState
  | s, ⟨.newTicker i, r⟩, s' => (0 < i ∧ r = .ok () ∧ s' = { s with ticking := true }) ∨
      (i ≤ 0 ∧ (∃ v, r = .error v) ∧ s' = s)
  | s, ⟨.stopTicker, _⟩, s' => s' = { s with ticking := false }
  | s, ⟨.sendNext, _⟩, s' => s.next < s.cap ∧ s' = { s with next := s.next + 1 }
  | s, ⟨.nextOrTick, true⟩, s' => 0 < s.next ∧ s' = { s with next := s.next - 1 }
  | s, ⟨.nextOrTick, false⟩, s' => s.pending = true ∧ s' = { s with pending := false }
  | s, ⟨.recvOrDone c, none⟩, s' => s.isDone c ∧ s' = { s with waiting := false }
  | s, ⟨.sendOrDone c _, .done⟩, s' => s.isDone c ∧ s' = s
  | s, ⟨.sendOrSkip _, false⟩, s' => s.waiting = false ∧ s' = s
  | s, ⟨.impl _ _ _ _, _⟩, s' => s' = s
  | s, ⟨.lib fn _ _, r⟩, s' => s.libs fn (okVals r) s'
  | _, _, _ => False

/-- What happened in one step of a call. -/
inductive FLabel where
  /-- an operation of the method -/
  | main (e : Event)
  /-- an operation of the launcher -/
  | launcher (e : Event)
  /-- an operation of the goroutine that was started as number `i` -/
  | child (i : Nat) (e : Event)
  /-- the method received `vs` from this goroutine -/
  | comm (i : Nat) (vs : List Val)
  /-- the method has arrived at the channel `_ch` and waits -/
  | wait
  | tick
  /-- the context of the caller is done -/
  | done

/-- A call and its goroutines. -/
structure FConf (M R C : Type) where
  shared : FState
  main : M
  launcher : Option R
  children : List C

/-- What the method and the goroutines of a call do.  `M`, `R` and `C` are the states of the method, of the
launcher and of the other goroutines. -/
structure FSys (M R C : Type) where
  main : M → Event → M → Prop
  launcher : R → Event → R → Prop
  child : C → Event → C → Prop
  /-- what `go` starts -/
  goLauncher : Env → R → Prop
  goImpl : Env → C → Prop
  /-- a goroutine that ended with a panic -/
  panicked : C → Prop

/-- The program was not ended by a panic in a goroutine. -/
def FConf.Alive {M R C : Type} (S : FSys M R C) (c : FConf M R C) : Prop := ∀ x ∈ c.children, ¬ S.panicked x

/-- The method can receive `vs`. -/
def FSys.Receives {M R C : Type} (S : FSys M R C) (x : M) (vs : List Val) (x' : M) : Prop :=
  S.main x ⟨.recv, vs⟩ x' ∨ ∃ ctx, S.main x ⟨.recvOrDone ctx, some vs⟩ x'

/-- A goroutine can send `vs`; it sends in a `select` with a default case only if the method waits. -/
def FSys.Sends {M R C : Type} (S : FSys M R C) (waiting : Bool) (y : C) (vs : List Val) (y' : C) : Prop :=
  (∃ ctx, S.child y ⟨.sendOrDone ctx vs, .other⟩ y') ∨ (waiting = true ∧ S.child y ⟨.sendOrSkip vs, true⟩ y')

/-- One step: the goroutines take turns in any order.  A panic in a goroutine ends the program. -/
inductive FStep {M R C : Type} (S : FSys M R C) : FConf M R C → FLabel → FConf M R C → Prop
  | main {c : FConf M R C} {e : Event} {x' : M} {s' : FState} (ha : c.Alive S) (h : S.main c.main e x')
      (hs : fallbackHandler c.shared e s') : FStep S c (.main e) ⟨s', x', c.launcher, c.children⟩
  /-- templates/fallback:37 -/
  | goLauncher {c : FConf M R C} {env : Env} {x' : M} {r : R} (ha : c.Alive S)
      (h : S.main c.main ⟨.go .launcher env, ()⟩ x') (hr : S.goLauncher env r) :
      FStep S c (.main ⟨.go .launcher env, ()⟩) ⟨c.shared, x', some r, c.children⟩
  | launcher {c : FConf M R C} {e : Event} {r r' : R} {s' : FState} (ha : c.Alive S) (hr : c.launcher = some r)
      (h : S.launcher r e r') (hs : fallbackHandler c.shared e s') :
      FStep S c (.launcher e) ⟨s', c.main, some r', c.children⟩
  /-- templates/fallback:39 -/
  | goImpl {c : FConf M R C} {env : Env} {r r' : R} {y : C} (ha : c.Alive S) (hr : c.launcher = some r)
      (h : S.launcher r ⟨.go .impl env, ()⟩ r') (hy : S.goImpl env y) :
      FStep S c (.launcher ⟨.go .impl env, ()⟩) ⟨c.shared, c.main, some r', c.children ++ [y]⟩
  | child {c : FConf M R C} {i : Nat} {e : Event} {y y' : C} {s' : FState} (ha : c.Alive S)
      (hi : c.children[i]? = some y) (h : S.child y e y') (hs : fallbackHandler c.shared e s') :
      FStep S c (.child i e) ⟨s', c.main, c.launcher, c.children.set i y'⟩
  /-- both sides of the channel `_ch`, which has no buffer -/
  | comm {c : FConf M R C} {i : Nat} {vs : List Val} {x' : M} {y y' : C} (ha : c.Alive S)
      (hi : c.children[i]? = some y) (h : S.Receives c.main vs x') (h' : S.Sends c.shared.waiting y vs y') :
      FStep S c (.comm i vs) ⟨{ c.shared with waiting := false }, x', c.launcher, c.children.set i y'⟩
  | wait {c : FConf M R C} {vs : List Val} {x' : M} (ha : c.Alive S) (h : S.Receives c.main vs x') :
      FStep S c .wait ⟨{ c.shared with waiting := true }, c.main, c.launcher, c.children⟩
  | tick {c : FConf M R C} (ha : c.Alive S) (h : c.shared.ticking = true) :
      FStep S c .tick ⟨{ c.shared with pending := true }, c.main, c.launcher, c.children⟩
  | done {c : FConf M R C} (ha : c.Alive S) :
      FStep S c .done ⟨{ c.shared with callerDone := true }, c.main, c.launcher, c.children⟩

/-- The executions of a call. -/
inductive FExec {M R C : Type} (S : FSys M R C) (n : Nat) (x : M) : List FLabel → FConf M R C → Prop
  | start : FExec S n x [] ⟨.init n, x, none, []⟩
  | step {L : List FLabel} {c c' : FConf M R C} {l : FLabel} (h : FExec S n x L c) (hs : FStep S c l c') :
      FExec S n x (L ++ [l]) c'

/-- The generated programs. -/
def Fallback.sys (d : Fallback) (m : Method) : FSys (Tree Outcome) (Tree Outcome) (Tree Outcome) where
  main := Tree.Step
  launcher := Tree.Step
  child := Tree.Step
  goLauncher env t := t = d.goTree m env .launcher
  goImpl env t := t = d.goTree m env .impl
  panicked t := ∃ v, t = .ret (.panic v)

/-- The executions of a call `d.M(args)`. -/
def Fallback.Exec (d : Fallback) (G : GoTypes) (m : Method) (recv : Str × Val) (args : List Val) :
    List FLabel → FConf (Tree Outcome) (Tree Outcome) (Tree Outcome) → Prop :=
  FExec (d.sys m) d.impls.length (d.decorator.call G m recv args)

end Gowrap

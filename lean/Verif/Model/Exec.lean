import Verif.Model.Types
/-!
# Execution of generated methods

The bodies of the decorator methods in /repo/templates are modelled as programs.  Running a method gives
a tree (`Tree`): it either ends or performs a visible operation (`Op`) and goes on depending on the
response.  All responses come from outside (the wrapped implementation, libraries, the clock, other
goroutines), so statements about all runs of a tree are statements about all environments.

Go variables live in an environment indexed by their *names*: the names of parameters and results come
from `Method` and may coincide with the names that occur in the template.  Go code that would not
compile (a variable declared twice, an unknown name, a package name hidden by a parameter, a missing
`return`) is modelled by the outcome `stuck`.

Not modelled: static types, aliasing between values, `runtime.Goexit`, fatal runtime errors, data races.
-/

namespace Gowrap

/-- Go values.  Anything except `nil`, booleans, numbers, strings and the slices and maps built by the
templates is an opaque object (structs, pointers, contexts, spans, errors, implementations of the
interface). -/
inductive Val where
  | nil
  | int (i : Int)
  | str (s : Str)
  | obj (id : Nat)
  | bool (b : Bool)
  /-- `[]interface{}{…}` -/
  | slice (vs : List Val)
  /-- `map[string]interface{}{…}`, generator/types.go:308-326 -/
  | map (kvs : List (Str × Val))

/-- `v == nil`. -/
def Val.isNil : Val → Bool
  | .nil => true
  | _ => false

/-- What the templates ask about the dynamic types of values. -/
structure GoTypes where
  /-- the zero value of a type -/
  zero : Str → Val
  zero_error : zero g!"error" = .nil
  /-- `v.(interface{ Validate() error })` succeeds -/
  validatable : Val → Bool
  /-- `v.(twirp.Error)` succeeds -/
  twirpError : Val → Bool
  twirpError_nil : twirpError .nil = false

/-- `n` results. -/
abbrev Vals (n : Nat) := { vs : List Val // vs.length = n }

/-- The function literals that templates/fallback and the constructor of templates/ratelimit start with `go`. -/
inductive Goroutine where
  /-- templates/fallback:37-67 -/
  | launcher
  /-- templates/fallback:39-58 -/
  | impl
  /-- templates/ratelimit:27-31 -/
  | ticker
  deriving DecidableEq, Repr

/-- The visible operations of a generated method. -/
inductive Op where
  /-- a call of the wrapped implementation `impl` with `n` results -/
  | impl (impl : Val) (method : Str) (args : List Val) (n : Nat)
  /-- a call of a function or method of some other package with `n` results; methods have their
  receiver as first argument -/
  | lib (fn : Str) (args : List Val) (n : Nat)
  /-- `time.Now()` -/
  | now
  /-- `_lock.RLock()` -/
  | rlock
  /-- `_lock.RUnlock()` -/
  | runlock
  /-- `_lock.Lock()` -/
  | lock
  /-- `_lock.Unlock()` -/
  | unlock
  /-- read `_closesAt`, a pointer to a time or nil -/
  | getClosesAt
  /-- write `_closesAt` -/
  | setClosesAt (t : Option Int)
  /-- read `_consecutiveErrors` -/
  | getErrors
  /-- write `_consecutiveErrors` -/
  | setErrors (n : Nat)
  /-- `errors.Is` -/
  | errorsIs (err target : Val)
  /-- `atomic.AddUint32(&_d.counter, 1)` -/
  | addCounter
  /-- receive an implementation from the pool -/
  | takeImpl
  /-- send an implementation to the pool -/
  | putImpl (impl : Val)
  /-- receive from the channel of the rate limiter -/
  | takeToken
  /-- `select` between `<-ctx.Done()` and the channel of the rate limiter -/
  | doneOrToken (ctx : Val)
  /-- `time.NewTicker` -/
  | newTicker (interval : Int)
  /-- `_ticker.Stop()` -/
  | stopTicker
  /-- `<-_ticker.C` -/
  | tick
  /-- `select` between `<-ctx.Done()` and `<-_ticker.C` -/
  | doneOrTick (ctx : Val)
  /-- `go func() { … }()` with the variables that the function literal captures.  The goroutines of
  templates/fallback do not assign captured variables, and these are not assigned after the `go`. -/
  | go (g : Goroutine) (env : Str → Option Val)
  /-- `select` between `<-_next` (true) and `<-_ticker.C` (false) -/
  | nextOrTick
  /-- `_next <- struct{}{}` -/
  | sendNext
  /-- `<-_ch` -/
  | recv
  /-- `select` between `<-_ch` and `<-ctx.Done()` -/
  | recvOrDone (ctx : Val)
  /-- `select` between sending on `_ch` (true) and `default` (false) -/
  | sendOrSkip (vs : List Val)
  /-- `select` between sending on `_ch` and `<-ctx.Done()` -/
  | sendOrDone (ctx : Val) (vs : List Val)

/-- The way a `select` between `ctx.Done()` and another channel went on. -/
inductive Choice where
  | done
  | other
  deriving DecidableEq, Repr

/-- Responses to operations.  A call may panic with a value instead of returning. -/
@[reducible] def Op.Resp : Op → Type
  | .impl _ _ _ n => Except Val (Vals n)
  | .lib _ _ n => Except Val (Vals n)
  | .now => Int
  | .rlock | .runlock | .lock | .unlock => Unit
  | .getClosesAt => Option Int
  | .setClosesAt _ => Unit
  | .getErrors => Nat
  | .setErrors _ => Unit
  | .errorsIs _ _ => Except Val Bool
  | .addCounter => UInt32
  | .takeImpl => Val
  | .putImpl _ => Unit
  | .takeToken => Unit
  | .doneOrToken _ => Choice
  | .newTicker _ => Except Val Unit
  | .stopTicker => Unit
  | .tick => Unit
  | .doneOrTick _ => Choice
  | .go _ _ => Unit
  | .nextOrTick => Bool
  | .sendNext => Unit
  | .recv => List Val
  | .recvOrDone _ => Option (List Val)
  | .sendOrSkip _ => Bool
  | .sendOrDone _ _ => Choice

/-- A computation that performs operations. -/
inductive Tree (α : Type) where
  | ret (a : α)
  | vis (op : Op) (k : op.Resp → Tree α)

/-- Sequential composition. -/
def Tree.bind {α β : Type} : Tree α → (α → Tree β) → Tree β
  | .ret a, f => f a
  | .vis op k, f => .vis op fun r => (k r).bind f

/-- An operation with its response. -/
abbrev Event := (op : Op) × op.Resp

/-- `t.Run tr a`: some environment makes `t` perform exactly the operations `tr` and end with `a`. -/
def Tree.Run {α : Type} : Tree α → List Event → α → Prop
  | .ret a, tr, b => tr = [] ∧ a = b
  | .vis op k, tr, b => ∃ r tr', tr = ⟨op, r⟩ :: tr' ∧ (k r).Run tr' b

/-- `t.Reaches tr`: some environment makes `t` perform the operations `tr` first (and possibly more). -/
def Tree.Reaches {α : Type} : Tree α → List Event → Prop
  | .ret _, tr => tr = []
  | .vis op k, tr => tr = [] ∨ ∃ r tr', tr = ⟨op, r⟩ :: tr' ∧ (k r).Reaches tr'

/-- The variables in scope. -/
abbrev Env := Str → Option Val

namespace Env

/-- Declare or assign a variable. -/
def set (env : Env) (x : Str) (v : Val) : Env := fun y => if y = x then some v else env y

/-- Leave a scope in which the variables `xs` were declared; `outer` are the variables before it. -/
def leave (env outer : Env) (xs : List Str) : Env := fun y => if y ∈ xs then outer y else env y

/-- The values of a list of variables. -/
def all (env : Env) : List Str → Option (List Val)
  | [] => some []
  | x :: xs =>
    match env x, env.all xs with
    | some v, some vs => some (v :: vs)
    | _, _ => none

/-- Assign a list of variables. -/
def setAll (env : Env) : List Str → List Val → Env
  | x :: xs, v :: vs => setAll (env.set x v) xs vs
  | _, _ => env

end Env

/-- How a statement ends. -/
inductive Flow where
  /-- go on with the next statement -/
  | next
  /-- `return` -/
  | ret
  | panic (v : Val)
  /-- the code does not compile -/
  | stuck

/-- Statements. -/
abbrev Stm := Env → Tree (Env × Flow)

namespace Stm

/-- The empty statement. -/
def skip : Stm := fun env => .ret (env, .next)

/-- `return` with named results. -/
def ret : Stm := fun env => .ret (env, .ret)

/-- Code that does not compile. -/
def stuck : Stm := fun env => .ret (env, .stuck)

/-- `a; b`. -/
def seq (a b : Stm) : Stm := fun env =>
  (a env).bind fun r => match r.2 with
    | .next => b r.1
    | fl => .ret (r.1, fl)

/-- An operation that cannot panic. -/
def op (o : Op) (k : o.Resp → Stm) : Stm := fun env => .vis o fun r => k r env

/-- The continuation of an operation that may panic. -/
def orPanic {α : Type} (k : α → Stm) : Except Val α → Stm
  | .ok a => k a
  | .error v => fun env => .ret (env, .panic v)

/-- The value of a variable. -/
def get (x : Str) (k : Val → Stm) : Stm := fun env =>
  match env x with
  | some v => k v env
  | none => stuck env

/-- The values of several variables. -/
def getAll (xs : List Str) (k : List Val → Stm) : Stm := fun env =>
  match env.all xs with
  | some vs => k vs env
  | none => stuck env

/-- `x = v`. -/
def assign (x : Str) (v : Val) : Stm := fun env =>
  match env x with
  | some _ => .ret (env.set x v, .next)
  | none => stuck env

/-- `x := v` or `var x` at the top level of a function body: parameters and results are declared in the
same scope, so `x` must be new. -/
def declare (x : Str) (v : Val) : Stm := fun env =>
  match env x with
  | some _ => stuck env
  | none => .ret (env.set x v, .next)

/-- `x1, …, xn = v1, …, vn`. -/
def assignAll (xs : List Str) (vs : List Val) : Stm := fun env =>
  match env.all xs with
  | some _ => if xs.length = vs.length then .ret (env.setAll xs vs, .next) else stuck env
  | none => stuck env

/-- A block (or a function literal) in which the variables `xs` are declared with the values `vs`. -/
def block (xs : List Str) (vs : List Val) (body : Stm) : Stm := fun env =>
  (body (env.setAll xs vs)).bind fun r => .ret (r.1.leave env xs, r.2)

/-- A name that the template uses for a package or a package level variable: no local variable may hide
it. -/
def global (x : Str) (k : Stm) : Stm := fun env =>
  match env x with
  | some _ => stuck env
  | none => k env

/-- A call of a library function. -/
def lib (fn : Str) (args : List Val) (n : Nat) (k : List Val → Stm) : Stm :=
  op (.lib fn args n) (orPanic fun vs => k vs.1)

/-- A library function that returns nothing. -/
def lib0 (fn : Str) (args : List Val) : Stm := lib fn args 0 fun _ => skip

/-- A library function that returns one value. -/
def lib1 (fn : Str) (args : List Val) (k : Val → Stm) : Stm :=
  op (.lib fn args 1) (orPanic fun vs => k (vs.1.headD .nil))

/-- A library function that returns two values. -/
def lib2 (fn : Str) (args : List Val) (k : Val → Val → Stm) : Stm :=
  op (.lib fn args 2) (orPanic fun vs => k (vs.1.headD .nil) (vs.1.tail.headD .nil))

/-- `if b { t } else { e }` for a condition that was already evaluated. -/
def ite (b : Bool) (t e : Stm) : Stm := if b then t else e

/-- `defer func() { d }()` followed by the rest of the function.  The deferred function runs when the
rest of the function is over, whether it returned or panicked; a `return` in it only ends the deferred
function and a panic in it replaces the current one. -/
def deferring (d rest : Stm) : Stm := fun env =>
  (rest env).bind fun r => match r.2 with
    | .stuck => .ret (r.1, .stuck)
    | fl => (d r.1).bind fun r' => match r'.2 with
      | .next | .ret => .ret (r'.1, fl)
      | fl' => .ret (r'.1, fl')

end Stm

/-- The outcome of a call of a generated method. -/
inductive Outcome where
  | ret (results : List Val)
  | panic (v : Val)
  /-- the method does not compile -/
  | stuck

namespace Method

/-- Names of the parameters. -/
def pnames (m : Method) : List Str := m.params.map (·.name)

/-- Names of the results. -/
def rnames (m : Method) : List Str := m.results.map (·.name)

/-- The variables at the start of a method body: the receiver, the parameters and the results with
their zero values (generator/types.go:352-369 `Signature`, `Declaration`). -/
def start (G : GoTypes) (m : Method) (recv : Str × Val) (args : List Val) : Env :=
  ((Env.set (fun _ => none) recv.1 recv.2).setAll m.pnames args).setAll m.rnames
    (m.results.map fun r => G.zero r.type)

/-- The parameter list of a function must not declare a name twice, `_` cannot be read, and the number
of arguments is right. -/
def WellDeclared (m : Method) (recv : Str × Val) (args : List Val) : Prop :=
  (recv.1 :: (m.pnames ++ m.rnames)).Nodup ∧ g!"_" ∉ m.pnames ++ m.rnames ∧ args.length = m.params.length

instance (m : Method) (recv : Str × Val) (args : List Val) : Decidable (m.WellDeclared recv args) := by
  unfold WellDeclared; infer_instance

/-- Run a method body.  At the end of the body a function without results returns. -/
def exec (G : GoTypes) (m : Method) (recv : Str × Val) (body : Stm) (args : List Val) : Tree Outcome :=
  if m.WellDeclared recv args then
    (body (m.start G recv args)).bind fun r => match r.2 with
      | .panic v => .ret (.panic v)
      | .stuck => .ret .stuck
      | .next => .ret (if m.results = [] then .ret [] else .stuck)
      | .ret => match r.1.all m.rnames with
        | some vs => .ret (.ret vs)
        | none => .ret .stuck
  else .ret .stuck

/-- `{{$method.ResultsNames}} = recv.{{$method.Call}}`, or without results just the call, followed by
`k`.  The text of `Call` lists all parameters in order, generator/types.go:231-238 and `Props.C08`. -/
def assignCall (m : Method) (recv : Val) (k : Stm) : Stm :=
  .getAll m.pnames fun args => .op (.impl recv m.name args m.results.length)
    (.orPanic fun vs => .seq (.assignAll m.rnames vs.1) k)

/-- `{{$method.Pass "recv."}}`, generator/types.go:242-248: `return recv.Call` if there are results,
otherwise `recv.Call` followed by `return`. -/
def passTo (m : Method) (recv : Val) : Stm := m.assignCall recv .ret

/-- `{{$method.ParamsMap}}`, generator/types.go:308-314, for values `vs` of the parameters. -/
def mapOf (names : List Str) (vs : List Val) : Val := .map (names.zip vs)

end Method

/-- A decorator type generated by a template: the fields of its struct, whether the interface itself is
embedded (field `Interface.Name`), and for each method the declared body, if the template declares it. -/
structure Decorator where
  /-- names of the struct fields; the embedded interface contributes its name -/
  fields : List Str
  /-- the interface is embedded, so methods that are not declared are promoted -/
  embeds : Bool
  /-- the wrapped implementation -/
  base : Val
  body : Method → Option Stm

/-- A call `d.M(args)` on the decorator: the declared method or the promoted method of the embedded
implementation. -/
def Decorator.call (G : GoTypes) (d : Decorator) (m : Method) (recv : Str × Val) (args : List Val) :
    Tree Outcome :=
  match d.body m with
  | some b => m.exec G recv b args
  | none =>
    if d.embeds then
      .vis (.impl d.base m.name args m.results.length) fun
        | .ok vs => .ret (.ret vs.1)
        | .error v => .ret (.panic v)
    else .ret .stuck

end Gowrap

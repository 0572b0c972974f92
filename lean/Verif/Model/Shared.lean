import Verif.Model.TmplControl
/-!
# Decorators used by many goroutines

The calls on one decorator are run by goroutines (threads), each of which executes the tree of its call.
The scheduler interleaves their operations in any order.  What an operation on shared data may respond,
and what it does to the data, is described by a handler.  The memory is sequentially consistent; that the
circuit breaker has no data races is proved (`Props.C62_no_race`), the other decorators only use atomic
operations and channels.

A wrapped implementation may respond anything at any time.  A thread whose next operation is a call of an
implementation is inside that call; the event of the call is its end.
-/

namespace Gowrap

/-- What happened in one step of an execution. -/
inductive Label where
  /-- a goroutine performed an operation -/
  | op (thread : Nat) (e : Event)
  /-- a tick of `time.Tick` -/
  | tick
  /-- a step of a goroutine started by a constructor -/
  | background

/-- The shared data and the goroutines that have called the decorator so far. -/
structure Conf (S T : Type) where
  shared : S
  threads : List T

/-- What operations do: data before, operation with response, data after. -/
abbrev Handler (S : Type) := S → Event → S → Prop

/-- A goroutine performs its next operation. -/
def Tree.Step (t : Tree Outcome) (e : Event) (t' : Tree Outcome) : Prop :=
  ∃ k : e.1.Resp → Tree Outcome, t = .vis e.1 k ∧ t' = k e.2

/-- The executions of a decorator: `Exec … L c` says that the steps `L` can lead to `c`.  `calls` are the
calls that goroutines may make, at any time; `bg` are the steps that do not belong to a call. -/
inductive Exec {S T : Type} (step : T → Event → T → Prop) (H : Handler S) (bg : S → Label → S → Prop)
    (calls : T → Prop) (init : S) : List Label → Conf S T → Prop
  | start : Exec step H bg calls init [] ⟨init, []⟩
  | call {L : List Label} {c : Conf S T} {t : T} (h : Exec step H bg calls init L c) (ht : calls t) :
      Exec step H bg calls init L ⟨c.shared, c.threads ++ [t]⟩
  | step {L : List Label} {c : Conf S T} {i : Nat} {t t' : T} {e : Event} {s' : S}
      (h : Exec step H bg calls init L c) (hi : c.threads[i]? = some t) (ht : step t e t')
      (hs : H c.shared e s') : Exec step H bg calls init (L ++ [.op i e]) ⟨s', c.threads.set i t'⟩
  | bg {L : List Label} {c : Conf S T} {l : Label} {s' : S} (h : Exec step H bg calls init L c)
      (hb : bg c.shared l s') : Exec step H bg calls init (L ++ [l]) ⟨s', c.threads⟩

/-- Nothing runs in the background. -/
def noBackground {S : Type} : S → Label → S → Prop := fun _ _ _ => False

/-- The operations of one thread. -/
def mine (i : Nat) : List Label → List Event
  | [] => []
  | .op j e :: L => if j = i then e :: mine i L else mine i L
  | _ :: L => mine i L

/-! ## circuitbreaker -/

/-- The fields of the struct in templates/circuitbreaker:10-19 that change, the state of the
`sync.RWMutex`, and the clock.  Times are points on a line without bounds. -/
structure BreakerState where
  readers : Nat
  writer : Bool
  closesAt : Option Int
  errors : Nat
  time : Int

/-- templates/circuitbreaker:23-30. -/
def BreakerState.init (time : Int) : BreakerState := ⟨0, false, none, 0, time⟩

/-- Operations of the circuit breaker.  A reader can always lock unless there is a writer (the real
`RWMutex` also makes new readers wait for a waiting writer).  The clock does not go back.  `errors.Is` is
a function `same` that does not panic. -/
def breakerHandler (same : Val → Val → Bool) : Handler BreakerState
  | s, ⟨.rlock, _⟩, s' => s.writer = false ∧ s' = { s with readers := s.readers + 1 }
  | s, ⟨.runlock, _⟩, s' => s' = { s with readers := s.readers - 1 }
  | s, ⟨.lock, _⟩, s' => s.writer = false ∧ s.readers = 0 ∧ s' = { s with writer := true }
  | s, ⟨.unlock, _⟩, s' => s' = { s with writer := false }
  | s, ⟨.getClosesAt, r⟩, s' => r = s.closesAt ∧ s' = s
  | s, ⟨.setClosesAt t, _⟩, s' => s' = { s with closesAt := t }
  | s, ⟨.getErrors, r⟩, s' => r = s.errors ∧ s' = s
  | s, ⟨.setErrors n, _⟩, s' => s' = { s with errors := n }
  | s, ⟨.now, t⟩, s' => s.time ≤ t ∧ s' = { s with time := t }
  | s, ⟨.errorsIs e t, r⟩, s' => r = .ok (same e t) ∧ s' = s
  | s, ⟨.impl _ _ _ _, _⟩, s' => s' = s
  | s, ⟨.lib _ _ _, _⟩, s' => s' = s
  | _, _, _ => False

/-! ## robinpool -/

/-- `atomic.AddUint32`: the counter of templates/robinpool:12 after adding one, modulo 2³². -/
def robinHandler : Handler UInt32
  | s, ⟨.addCounter, r⟩, s' => r = s + 1 ∧ s' = s + 1
  | s, ⟨.impl _ _ _ _, _⟩, s' => s' = s
  | _, _, _ => False

/-! ## syncpool -/

/-- A buffered channel with the capacity `cap`; the list is its buffer, oldest first,
templates/syncpool:5. -/
structure PoolState where
  cap : Nat
  buffer : List Val

/-- `New…Pool`, templates/syncpool:10-21; `none` is the panic for an empty pool. -/
def PoolState.new (impls : List Val) : Option PoolState :=
  if impls.length = 0 then none else some ⟨impls.length, impls⟩

/-- Receiving waits until the buffer is not empty, sending until it is not full. -/
def poolHandler : Handler PoolState
  | s, ⟨.takeImpl, r⟩, s' => ∃ rest, s.buffer = r :: rest ∧ s' = { s with buffer := rest }
  | s, ⟨.putImpl v, _⟩, s' => s.buffer.length < s.cap ∧ s' = { s with buffer := s.buffer ++ [v] }
  | s, ⟨.impl _ _ _ _, _⟩, s' => s' = s
  | _, _, _ => False

/-! ## ratelimit -/

/-- The channel of templates/ratelimit:10 with its capacity and the number of values in it, the channel of
`time.Tick`, which holds at most one tick, and whether the goroutine of lines 27-31 has a tick that it
wants to send. -/
structure LimiterState where
  cap : Nat
  tokens : Nat
  pending : Bool
  holding : Bool

/-- `New…WithRateLimit`, templates/ratelimit:14-34; `none` is the panic of `make` for a negative size.
The loop of lines 21-23 fills the channel. -/
def LimiterState.new (burst : Int) : Option LimiterState :=
  if burst < 0 then none else some ⟨burst.toNat, burst.toNat, false, false⟩

/-- Operations of callers.  A value is taken from the buffer or, if the buffer is empty, directly from the
waiting goroutine.  A `select` may see at any time that the context is done. -/
def limiterHandler : Handler LimiterState
  | s, ⟨.takeToken, _⟩, s' => (s.tokens > 0 ∧ s' = { s with tokens := s.tokens - 1 }) ∨
      (s.tokens = 0 ∧ s.holding = true ∧ s' = { s with holding := false })
  | s, ⟨.doneOrToken _, .other⟩, s' => (s.tokens > 0 ∧ s' = { s with tokens := s.tokens - 1 }) ∨
      (s.tokens = 0 ∧ s.holding = true ∧ s' = { s with holding := false })
  | s, ⟨.doneOrToken _, .done⟩, s' => s' = s
  | s, ⟨.impl _ _ _ _, _⟩, s' => s' = s
  | s, ⟨.lib _ _ _, _⟩, s' => s' = s
  | _, _, _ => False

/-- Steps outside of calls: the ticker ticks (a tick is dropped if the last one was not received yet), the
goroutine receives a tick, templates/ratelimit:28, and sends it, line 29. -/
def limiterBackground : LimiterState → Label → LimiterState → Prop
  | s, .tick, s' => s' = { s with pending := true }
  | s, .background, s' => (s.pending = true ∧ s.holding = false ∧ s' = { s with pending := false, holding := true }) ∨
      (s.holding = true ∧ s.tokens < s.cap ∧ s' = { s with holding := false, tokens := s.tokens + 1 })
  | _, .op _ _, _ => False

end Gowrap

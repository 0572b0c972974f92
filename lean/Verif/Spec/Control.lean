import Verif.Spec.Exec
/-!
# What retry, ratelimit, circuitbreaker and the pools are meant to do with a single call
-/

namespace Gowrap.Spec

open Gowrap

/-- What a caller with retries can see. -/
inductive RetryStep where
  | attempt (c : ImplCall)
  | tick
  /-- the context was seen to be done -/
  | done (ctx : Val)

/-- The attempts, ticks and cancellations of a run, in order. -/
def retrySteps : List Event → List RetryStep
  | [] => []
  | ⟨.impl i m args _, r⟩ :: tr => .attempt ⟨i, m, args, plain r⟩ :: retrySteps tr
  | ⟨.tick, _⟩ :: tr => .tick :: retrySteps tr
  | ⟨.doneOrTick _, .other⟩ :: tr => .tick :: retrySteps tr
  | ⟨.doneOrTick ctx, .done⟩ :: tr => .done ctx :: retrySteps tr
  | _ :: tr => retrySteps tr

/-- At most `n` retries: attempts are made until one does not fail, each after a tick, or the context
`ctx` is done.  The outcome is that of the last attempt. -/
inductive Retries (m : Method) (call : Except Val (List Val) → ImplCall) (ctx : Option Val) :
    Nat → List RetryStep → Outcome → Prop
  | last (n : Nat) (res : Except Val (List Val)) (h : ¬ Failed m res ∨ n = 0) :
      Retries m call ctx n [.attempt (call res)] (passedOn res)
  | cancelled (n : Nat) (res : Except Val (List Val)) (c : Val) (h : Failed m res) (hc : ctx = some c) :
      Retries m call ctx (n + 1) [.attempt (call res), .done c] (passedOn res)
  | again (n : Nat) (res : Except Val (List Val)) (steps : List RetryStep) (o : Outcome) (h : Failed m res)
      (rest : Retries m call ctx n steps o) :
      Retries m call ctx (n + 1) (.attempt (call res) :: .tick :: steps) o

/-- The context of a call. -/
def contextOf (m : Method) (args : List Val) : Option Val := if m.acceptsContext then args.head? else none

/-- `time.NewTicker` panics exactly for intervals that are not positive. -/
def TickerLaw (tr : List Event) : Prop :=
  ∀ i r, (⟨.newTicker i, r⟩ : Event) ∈ tr → ((∃ v, r = .error v) ↔ i ≤ 0)

/-- `errors.Is` does not panic. -/
def ErrorsIsReturns (tr : List Event) : Prop :=
  ∀ e t r, (⟨.errorsIs e t, r⟩ : Event) ∈ tr → ∃ b, r = .ok b

/-- What a caller of the rate limiter can see. -/
inductive LimitStep where
  /-- a value was received from the channel of the limiter -/
  | token
  /-- the context was seen to be done -/
  | done (ctx : Val)
  | call (c : Seen)

/-- The steps of a run through the rate limiter. -/
def limitSteps : List Event → List LimitStep
  | [] => []
  | ⟨.impl i m args _, r⟩ :: tr => .call (.impl ⟨i, m, args, plain r⟩) :: limitSteps tr
  | ⟨.lib f args _, r⟩ :: tr => .call (.lib ⟨f, args, plain r⟩) :: limitSteps tr
  | ⟨.takeToken, _⟩ :: tr => .token :: limitSteps tr
  | ⟨.doneOrToken _, .other⟩ :: tr => .token :: limitSteps tr
  | ⟨.doneOrToken ctx, .done⟩ :: tr => .done ctx :: limitSteps tr
  | _ :: tr => limitSteps tr

/-- Every call of an implementation in the run is one of `m` with exactly these arguments on an
implementation allowed by `P`, and the outcome is that of the last one. -/
def PassesThrough (P : Val → Prop) (m : Method) (args : List Val) (tr : List Event) (o : Outcome) : Prop :=
  (∀ c ∈ implCalls tr, P c.impl ∧ c.method = m.name ∧ c.args = args) ∧
    ∀ c, (implCalls tr).getLast? = some c → o = passedOn c.result

end Gowrap.Spec

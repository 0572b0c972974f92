import Verif.Spec.Stack
import Verif.Spec.Control
/-! # What callers can rely on when decorators are put around each other -/

namespace Gowrap.Spec

open Gowrap

/-- The functions that make a new context from one. -/
def contextMakers : List Str :=
  [g!"opentracing.StartSpanFromContext", g!"trace.StartSpan", g!"trace.Start", g!"startSpan", g!"context.WithTimeout"]

/-- The functions that make errors.  (`ctx.Err` is only called when the context is done.) -/
def errorMakers : List Str :=
  [g!"errors.New", g!"ctx.Err", g!"status.Error", g!"twirp.NewError", g!"twirp.WithMeta"]

/-- The libraries do what their documentation says: functions return (`time.NewTicker` panics exactly if the interval is not positive), and those that make errors
do not return nil. -/
structure Lawful (tr : List Event) : Prop where
  libs : LibsReturn tr
  ticker : TickerLaw tr
  errorsIs : ErrorsIsReturns tr
  makers : ∀ c ∈ libCalls tr, c.fn ∈ errorMakers → ∀ e, c.result = .ok [e] → e.isNil = false

/-- A call of the method `m` with `args` that made the run `tr` and got `o` was honest: implementations (those in `P`) only got the request of the caller, the
caller was told of a success exactly if the last call was one, and no implementation was called again after a success or a panic. -/
structure Honest (P : Val → Prop) (m : Method) (args : List Val) (tr : List Event) (o : Outcome) : Prop where
  /-- Every call is the call of the caller; the context may have been replaced by one made from it. -/
  requests : ∀ x ∈ implCalls tr, P x.impl ∧ x.method = m.name ∧ SameArgs contextMakers m tr args x.args
  /-- Results without an error are those of the last call. -/
  genuine : ∀ vs, o = .ret vs → failedVals m vs = false → ∃ x, (implCalls tr).getLast? = some x ∧ x.result = .ok vs
  /-- If the last call did not fail, the caller gets its results, or its panic. -/
  kept : ∀ x, (implCalls tr).getLast? = some x → ¬ Failed m x.result → o = passedOn x.result
  /-- Only after a failure is there another call. -/
  once : ∀ pre x post, implCalls tr = pre ++ x :: post → post ≠ [] → Failed m x.result
  /-- The call came to an end. -/
  ends : o ≠ .stuck

end Gowrap.Spec

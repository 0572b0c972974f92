import Verif.Spec.Pool
/-!
# Words for the circuit breaker

The specification looks at the calls that have returned, in the order in which they released the lock.
-/

namespace Gowrap.Spec

open Gowrap

/-- A call of the implementation that returned, and the last reading of the clock by the goroutine of the
call. -/
structure Completion where
  results : List Val
  clock : Option Int

/-- When a circuit opens: after `max` consecutive calls for which `counts` is true, for `interval`. -/
structure Policy where
  max : Int
  interval : Int
  counts : List Val → Bool

/-- The policy of a circuit breaker: a call counts if it fails with an error that is not one of `ignore`,
where `same` is `errors.Is`. -/
def Policy.of (max interval : Int) (ignore : List Val) (same : Val → Val → Bool) : Policy :=
  ⟨max, interval, fun vs => match vs.getLast? with
    | none => false
    | some e => !e.isNil && ignore.all fun x => !same e x⟩

/-- The number of calls at the end of a history that count. -/
def Policy.streak (p : Policy) (h : List Completion) : Nat :=
  (h.reverse.takeWhile fun c => p.counts c.results).length

/-- Until when the circuit is open: it opens when the last call counts and is at least number `max` in a
row. -/
def Policy.openUntil (p : Policy) (h : List Completion) : Option Int :=
  match h.getLast? with
  | none => none
  | some c => if p.counts c.results ∧ (p.streak h : Int) ≥ p.max then c.clock.map (· + p.interval) else none

/-- The last reading of the clock. -/
def lastClock : List Event → Option Int
  | [] => none
  | ⟨.now, t⟩ :: tr => (lastClock tr).or (some t)
  | _ :: tr => lastClock tr

/-- The first reading of the clock. -/
def firstClock : List Event → Option Int
  | [] => none
  | ⟨.now, t⟩ :: _ => some t
  | _ :: tr => firstClock tr

/-- The values which the implementation returned to a goroutine. -/
def returnedTo (tr : List Event) : List Val :=
  match implCalls tr with
  | [⟨_, _, _, .ok vs⟩] => vs
  | _ => []

/-- The history after the steps `pre ++ L`, without that of `pre`: a call is complete when it releases the
write lock. -/
def historyFrom (pre : List Label) : List Label → List Completion
  | [] => []
  | .op i ⟨.unlock, r⟩ :: L =>
    ⟨returnedTo (mine i pre), lastClock (mine i pre)⟩ :: historyFrom (pre ++ [.op i ⟨.unlock, r⟩]) L
  | l :: L => historyFrom (pre ++ [l]) L

/-- The history of an execution. -/
def history (L : List Label) : List Completion := historyFrom [] L

/-- The call of a goroutine has gone to the implementation. -/
def WentThrough (L : List Label) (c : Conf S (Tree Outcome)) (i : Nat) : Prop :=
  implCalls (mine i L) ≠ [] ∨ ∃ v, Inside c i v

/-- A goroutine has found the circuit closed, or the time until which it was open over, at a step before its
call of the implementation. -/
def FoundClosed (p : Policy) (L : List Label) (i : Nat) : Prop :=
  ∃ L1 e L2, L = L1 ++ .op i e :: L2 ∧ implCalls (mine i L1) = [] ∧ lastClock (mine i L1) = none ∧
    ((e = ⟨.getClosesAt, none⟩ ∧ p.openUntil (history L1) = none) ∨
      ∃ t u : Int, e = ⟨.now, t⟩ ∧ p.openUntil (history L1) = some u ∧ u ≤ t)

/-- A goroutine has found the circuit open. -/
def FoundOpen (p : Policy) (L : List Label) (i : Nat) : Prop :=
  ∃ (L1 L2 : List Label) (t u : Int), L = L1 ++ .op i ⟨.now, t⟩ :: L2 ∧ implCalls (mine i L1) = [] ∧
    lastClock (mine i L1) = none ∧ p.openUntil (history L1) = some u ∧ t < u

/-- The goroutine of a step. -/
def Label.thread : Label → Nat
  | .op i _ => i
  | _ => 0

/-- The calls were made one after the other: no goroutine does something after a later one has begun. -/
def OneByOne (L : List Label) : Prop := L.Pairwise fun a b => Label.thread a ≤ Label.thread b

/-- What a call contributes to the history. -/
def completionOf (tr : List Event) : Option Completion :=
  match implCalls tr with
  | [⟨_, _, _, .ok vs⟩] => some ⟨vs, lastClock tr⟩
  | _ => none

/-- Accesses to the fields of the circuit breaker that change: the field, and whether it is written. -/
inductive SharedField where
  | closesAt
  | errors

def access : Op → Option (SharedField × Bool)
  | .getClosesAt => some (.closesAt, false)
  | .setClosesAt _ => some (.closesAt, true)
  | .getErrors => some (.errors, false)
  | .setErrors _ => some (.errors, true)
  | _ => none

/-- Two goroutines are about to access the same field, and one of them writes. -/
def Race (c : Conf S (Tree Outcome)) : Prop :=
  ∃ (i j : Nat) (op : Op) (k : op.Resp → Tree Outcome) (op' : Op) (k' : op'.Resp → Tree Outcome) (f : SharedField)
    (w w' : Bool), i ≠ j ∧ c.threads[i]? = some (Tree.vis op k) ∧ c.threads[j]? = some (Tree.vis op' k') ∧
    access op = some (f, w) ∧ access op' = some (f, w') ∧ (w || w') = true

end Gowrap.Spec

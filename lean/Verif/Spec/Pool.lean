import Verif.Model.Shared
import Verif.Spec.Exec
/-!
# Words for the pools and the rate limiter used by many goroutines
-/

namespace Gowrap.Spec

open Gowrap

/-- The threads in the order in which they entered the round robin pool. -/
def order : List Label → List Nat
  | [] => []
  | .op i ⟨.addCounter, _⟩ :: L => i :: order L
  | _ :: L => order L

/-- The implementation that a thread has called or is inside of. -/
def target (L : List Label) (c : Conf S (Tree Outcome)) (i : Nat) : Option Val :=
  match implCalls (mine i L) with
  | call :: _ => some call.impl
  | [] =>
    match c.threads[i]? with
    | some (.vis (.impl v _ _ _) _) => some v
    | _ => none

open Classical in
/-- How many of the threads `W` were given the implementation `v`. -/
noncomputable def served (L : List Label) (c : Conf S (Tree Outcome)) (W : List Nat) (v : Val) : Nat :=
  W.countP fun i => target L c i = some v

/-- A goroutine is inside of a call of `v`. -/
def Inside (c : Conf S (Tree Outcome)) (i : Nat) (v : Val) : Prop :=
  ∃ name args n k, c.threads[i]? = some (.vis (.impl v name args n) k)

/-- A goroutine has taken `v` out of the pool and has not put it back. -/
def Holds (L : List Label) (i : Nat) (v : Val) : Prop :=
  (⟨.takeImpl, v⟩ : Event) ∈ mine i L ∧ (⟨.putImpl v, ()⟩ : Event) ∉ mine i L

/-- A goroutine has ended its call. -/
def Ended (c : Conf S (Tree Outcome)) (i : Nat) (o : Outcome) : Prop := c.threads[i]? = some (.ret o)

/-- A goroutine can perform its next operation. -/
def CanStep (H : Handler S) (c : Conf S (Tree Outcome)) (i : Nat) : Prop :=
  ∃ t e t' s', c.threads[i]? = some t ∧ t.Step e t' ∧ H c.shared e s'

/-- The number of ticks. -/
def ticks : List Label → Nat
  | [] => 0
  | .tick :: L => ticks L + 1
  | _ :: L => ticks L

/-- The number of calls let through: the steps in which a goroutine receives a token. -/
def starts : List Label → Nat
  | [] => 0
  | .op _ ⟨.takeToken, _⟩ :: L => starts L + 1
  | .op _ ⟨.doneOrToken _, .other⟩ :: L => starts L + 1
  | _ :: L => starts L

end Gowrap.Spec

import Verif.Spec.Tower
import Verif.Spec.Validate
/-! # What guards in a tower of decorators are meant to do -/

namespace Gowrap.Spec

open Gowrap

/-- Every argument that can be validated was, and was found to be valid. -/
def Validated (G : GoTypes) (m : Method) (tr : List Event) (args : List Val) : Prop :=
  ∀ v ∈ candidates G m args, ⟨g!"Validate", [v], .ok [.nil]⟩ ∈ libCalls tr

/-- The context was made from one to which `context.WithTimeout` gave the timeout `d`, and which was made from `ctx`. -/
def TimesOut (d : Int) (tr : List Event) (ctx : Val) (args : List Val) : Prop :=
  ∃ ctx1 ctx2 cancel ctx3 rest, args = ctx3 :: rest ∧ FromCtx contextMakers tr ctx ctx1 ∧
    ⟨g!"context.WithTimeout", [ctx1, .int d], .ok [ctx2, cancel]⟩ ∈ libCalls tr ∧ FromCtx contextMakers tr ctx2 ctx3

/-- All circuits were open all the time: whenever the time of closing was read, there was one, and it was later than the clock. -/
def AllOpen (tr : List Event) : Prop :=
  ∀ c : Option Int, ⟨.getClosesAt, c⟩ ∈ tr → ∃ t, c = some t ∧ ∀ now : Int, ⟨.now, now⟩ ∈ tr → now < t

/-- A token was received from the channel of a rate limiter. -/
def isToken : Event → Bool
  | ⟨.takeToken, _⟩ => true
  | ⟨.doneOrToken _, r⟩ => decide (r = Choice.other)
  | _ => false

/-- The number of tokens that were received. -/
def tokens (tr : List Event) : Nat := tr.countP isToken

end Gowrap.Spec

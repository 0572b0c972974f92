import Verif.Model.Exec
/-!
# What can be seen of a call of a generated method

Words used to state the properties of the decorators; nothing here refers to the template programs.
-/

namespace Gowrap.Spec

open Gowrap

/-- A call of a wrapped implementation: receiver, method, arguments, and the results or the panic. -/
structure ImplCall where
  impl : Val
  method : Str
  args : List Val
  result : Except Val (List Val)

/-- The results of a call without the proof of their number. -/
def plain {n : Nat} : Except Val (Vals n) → Except Val (List Val)
  | .ok vs => .ok vs.1
  | .error v => .error v

/-- The calls of wrapped implementations in a run, in order. -/
def implCalls : List Event → List ImplCall
  | [] => []
  | ⟨.impl i m args _, r⟩ :: tr => ⟨i, m, args, plain r⟩ :: implCalls tr
  | _ :: tr => implCalls tr

/-- A call of a library function: its name, its arguments, its results or its panic. -/
structure LibCall where
  fn : Str
  args : List Val
  result : Except Val (List Val)

/-- The calls of library functions in a run, in order. -/
def libCalls : List Event → List LibCall
  | [] => []
  | ⟨.lib f args _, r⟩ :: tr => ⟨f, args, plain r⟩ :: libCalls tr
  | _ :: tr => libCalls tr

/-- The calls of one library function. -/
def callsOf (fn : Str) (tr : List Event) : List LibCall := (libCalls tr).filter (·.fn = fn)

/-- A call made by the decorator. -/
inductive Seen where
  | impl (c : ImplCall)
  | lib (c : LibCall)

/-- All calls of implementations and library functions in a run, in order. -/
def seen : List Event → List Seen
  | [] => []
  | ⟨.impl i m args _, r⟩ :: tr => .impl ⟨i, m, args, plain r⟩ :: seen tr
  | ⟨.lib f args _, r⟩ :: tr => .lib ⟨f, args, plain r⟩ :: seen tr
  | _ :: tr => seen tr

/-- No library function panicked. -/
def LibsReturn (tr : List Event) : Prop := ∀ c ∈ libCalls tr, ∃ vs, c.result = .ok vs

/-- What the caller of the decorated method gets if the decorator returns what the implementation
returned. -/
def passedOn : Except Val (List Val) → Outcome
  | .ok vs => .ret vs
  | .error v => .panic v

/-- The decorated method called the implementation exactly once, with these arguments, and the caller got
exactly what it returned, or its panic. -/
def Transparent (impl : Val) (m : Method) (args : List Val) (tr : List Event) (o : Outcome) : Prop :=
  ∃ res, implCalls tr = [⟨impl, m.name, args, res⟩] ∧ o = passedOn res

/-- What `NewMethod` guarantees about the special names (`Props.C01`, `Props.C04`, `Props.C05`). -/
structure MethodOk (m : Method) : Prop where
  nodup : (m.pnames ++ m.rnames).Nodup
  err : m.returnsError = true → ∃ init last, m.results = init ++ [last] ∧ last.name = g!"err" ∧
    last.type = g!"error"
  ctx : m.acceptsContext = true → ∃ first rest, m.params = first :: rest ∧ first.name = g!"ctx"

/-- The arguments of a call have the right number and the declared names clash neither with the receiver
nor with the identifiers `idents` which the template uses; `_` is not a name. -/
structure Callable (m : Method) (recv : Str × Val) (idents : List Str) (args : List Val) : Prop where
  ok : MethodOk m
  declared : m.WellDeclared recv args
  avoids : ∀ x ∈ idents, x ∉ recv.1 :: (m.pnames ++ m.rnames)

/-- The results of a call say that it failed: the method returns an error and it is not nil. -/
def Failed (m : Method) (r : Except Val (List Val)) : Prop :=
  m.returnsError = true ∧ ∃ vs e, r = .ok vs ∧ vs.getLast? = some e ∧ e.isNil = false

/-- The values of the results say that the call failed. -/
def failedVals (m : Method) (r : List Val) : Bool :=
  m.returnsError && match r.getLast? with
    | some e => !e.isNil
    | none => false

/-- The values of the results after the call: those returned, or the zero values if it panicked. -/
def resultsAfter (zeros : List Val) : Except Val (List Val) → List Val
  | .ok vs => vs
  | .error _ => zeros

end Gowrap.Spec

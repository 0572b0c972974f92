import Verif.Spec.Exec
/-!
# Decorators around decorators

A decorator implements the interface of what it wraps, so that decorators can be put around each other:
`NewFooWithLog(NewFooWithPrometheus(foo, "x"), os.Stdout, os.Stderr)`.
-/

namespace Gowrap.Spec

open Gowrap

/-- The implementations that are programs themselves: `f i` gets the name of the method and the arguments. -/
abbrev Inner := Val → Option (Str → List Val → Tree Outcome)

/-- What the caller gets from a method with `n` results; a program that does not compile gives nothing. -/
def response (n : Nat) : Outcome → Option (Except Val (Vals n))
  | .ret vs => if h : vs.length = n then some (.ok ⟨vs, h⟩) else none
  | .panic v => some (.error v)
  | .stuck => none

/-- The program in which a call of an implementation `i` runs the program that `i` is, if it is one: the caller goes on when it has returned or panicked. -/
def through (f : Inner) : Tree Outcome → Tree Outcome
  | .ret o => .ret o
  | .vis (.impl i name args n) k =>
    match f i with
    | some g => (g name args).bind fun o => match response n o with
      | some r => through f (k r)
      | none => .ret .stuck
    | none => .vis (.impl i name args n) fun r => through f (k r)
  | .vis op k => .vis op fun r => through f (k r)

open Classical in
/-- One implementation is a program. -/
noncomputable def only (i : Val) (g : Str → List Val → Tree Outcome) : Inner := fun j => if j = i then some g else none

/-- A decorator in a stack: the type with its configuration and the value that is the receiver of its methods. -/
abbrev Layer := Decorator × Val

/-- A call of a method through a stack of decorators, the outermost first, around `impl`.  The methods of the interface are `ms`; `recv` is the name of the
receiver in all templates. -/
noncomputable def stackCall (G : GoTypes) (recv : Str) (impl : Val) (ms : List Method) : List Layer → Str → List Val → Tree Outcome
  | [], name, args =>
    match ms.find? (fun m => decide (m.name = name)) with
    | some m => .vis (.impl impl m.name args m.results.length) fun r => .ret (passedOn (plain r))
    | none => .ret .stuck
  | (d, self) :: rest, name, args =>
    match ms.find? (fun m => decide (m.name = name)) with
    | some m => through (only d.base (stackCall G recv impl ms rest)) (d.call G m (recv, self) args)
    | none => .ret .stuck

/-- `FromCtx starts tr ctx ctx'`: the context `ctx'` is `ctx`, or was made from it by the functions `starts` in the run. -/
inductive FromCtx (starts : List Str) (tr : List Event) (ctx : Val) : Val → Prop
  | same : FromCtx starts tr ctx ctx
  | step {ctx1 ctx2 : Val} {c : LibCall} {vs : List Val} (h : FromCtx starts tr ctx ctx1) (hc : c ∈ libCalls tr) (hs : c.fn ∈ starts)
      (ha : ctx1 ∈ c.args) (hr : c.result = .ok vs) (hv : ctx2 ∈ vs) : FromCtx starts tr ctx ctx2

/-- The arguments are the same except that the context may have been replaced by one made from it. -/
def SameArgs (starts : List Str) (m : Method) (tr : List Event) (args args' : List Val) : Prop :=
  args' = args ∨ m.acceptsContext = true ∧ ∃ ctx rest ctx', args = ctx :: rest ∧ args' = ctx' :: rest ∧ FromCtx starts tr ctx ctx'

/-- The calls `cs'` are the calls `cs`, one for one and in the same order, with the same results, made on the implementation inside. -/
inductive CallsInside (P : ImplCall → ImplCall → Prop) : List ImplCall → List ImplCall → Prop
  | nil : CallsInside P [] []
  | cons {c c' : ImplCall} {cs cs' : List ImplCall} (h : P c c') (hs : CallsInside P cs cs') : CallsInside P (c :: cs) (c' :: cs')

end Gowrap.Spec

import Verif.Spec.Exec
/-!
# What the validation templates, twirp_error and timeout are meant to do
-/

namespace Gowrap.Spec

open Gowrap

/-- The arguments other than the context. -/
def requestArgs (m : Method) (args : List Val) : List Val := if m.acceptsContext then args.tail else args

/-- The arguments that are validated. -/
def candidates (G : GoTypes) (m : Method) (args : List Val) : List Val :=
  (requestArgs m args).filter G.validatable

/-- A successful validation. -/
def passes (v : Val) : Seen := .lib ⟨g!"Validate", [v], .ok [.nil]⟩

/-- Validation of `cands` stopped at the first invalid one, whose error `e` was turned into the returned
error `e'` by the calls `L`; the implementation was not called. -/
def Rejected (wrap : Val → Val → List Seen → Prop) (cands zeros : List Val) (tr : List Event) (o : Outcome) :
    Prop :=
  ∃ pre v post e e' L, cands = pre ++ v :: post ∧ e.isNil = false ∧
    seen tr = pre.map passes ++ .lib ⟨g!"Validate", [v], .ok [e]⟩ :: L ∧ wrap e e' L ∧
    o = .ret (zeros.dropLast ++ [e'])

/-- All of `cands` are valid, and the implementation was called once, with the arguments. -/
def Accepted (base : Val) (m : Method) (args cands : List Val) (tr : List Event) (o : Outcome) : Prop :=
  ∃ res, seen tr = cands.map passes ++ [.impl ⟨base, m.name, args, res⟩] ∧ o = passedOn res

/-- The error itself is returned. -/
def unwrapped (e e' : Val) (L : List Seen) : Prop := e' = e ∧ L = []

/-- The text of the error is wrapped into a new error with the code `InvalidArgument`. -/
def invalidArgument (fn : Str) (e e' : Val) (L : List Seen) : Prop :=
  ∃ msg, L = [.lib ⟨g!"Error", [e], .ok [msg]⟩, .lib ⟨fn, [.str g!"InvalidArgument", msg], .ok [e']⟩]

/-- A twirp error made of the error `e`, then the JSON of `q` added to it as metadata. -/
def Annotate (G : GoTypes) (q e : Val) (L : List Seen) (e' : Val) : Prop :=
  if e.isNil then L = [] ∧ e' = e
  else ∃ twerr json x,
    (G.twirpError e = true ∧ twerr = e ∧ L = [.lib ⟨g!"json.Marshal", [q], .ok [json, x]⟩,
      .lib ⟨g!"twirp.WithMeta", [twerr, .str g!"request", json], .ok [e']⟩]) ∨
    (G.twirpError e = false ∧ L = [.lib ⟨g!"twirp.InternalErrorWith", [e], .ok [twerr]⟩,
      .lib ⟨g!"json.Marshal", [q], .ok [json, x]⟩,
      .lib ⟨g!"twirp.WithMeta", [twerr, .str g!"request", json], .ok [e']⟩])

/-- The error `e` is annotated with all of the requestArgs, the first one last. -/
def AnnotateAll (G : GoTypes) (e : Val) : List Val → List Seen → Val → Prop
  | [], L, e' => L = [] ∧ e' = e
  | q :: qs, L, e' => ∃ e1 L1 L2, AnnotateAll G e qs L1 e1 ∧ Annotate G q e1 L2 e' ∧ L = L1 ++ L2

end Gowrap.Spec

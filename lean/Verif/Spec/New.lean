import Verif.Model.GoNew
/-!
# What a constructor has to store
-/

namespace Gowrap.Spec

open Gowrap

/-- A field of a field … of a struct. -/
def fieldAt (v : Val) (p : List Str) : Val := p.foldl Val.field v

/-- In the methods, what can be read from the receiver is what the struct `v` holds; this is not said about the fields
`state`, which the methods change. -/
def Stores (L : Go.Link) (v : Val) (state : List Str) : Prop :=
  ∀ p f, L.read (g!"_d" :: p) = some f → (∃ x ∈ state, p = [x]) ∨ f = fun k => k (fieldAt v p)

/-- A call of a function of another package with one result, or its panic. -/
def callLib (fn : Str) (args : List Val) (k : Val → Tree Outcome) : Tree Outcome :=
  .vis (.lib fn args 1) fun
    | .ok vs => k (vs.1.headD .nil)
    | .error v => .ret (.panic v)

/-- The first of some optional functions. -/
def firstOf : List Val → Val
  | [] => .nil
  | v :: _ => v

end Gowrap.Spec

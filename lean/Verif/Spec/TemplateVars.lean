import Verif.Spec.FlatTemplate
import Verif.Spec.Replace
/-!
# Templates with variables (C101)

The documentation of text/template: "A variable's scope extends to the 'end' action of the control structure ('if', 'with', or 'range') in which it is
declared, or to the end of the template if there is no such control structure."  A variable must be declared before it is used.
-/

namespace Gowrap.Scoped

open Flat

/-- Templates that declare variables, print them and put both into blocks. -/
inductive Prog where
  | done
  /-- `{{$x := "v"}}` -/
  | set (x v : Str) (rest : Prog)
  /-- `{{$x}}` -/
  | use (x : Str) (rest : Prog)
  /-- `{{if true}} ... {{end}}` -/
  | block (body rest : Prog)

/-- The text of the template. -/
def Prog.source : Prog → Str
  | .done => []
  | .set x v rest => g!"{{$" ++ (x ++ (g!" := \"" ++ (v ++ (g!"\"}}" ++ rest.source))))
  | .use x rest => g!"{{$" ++ (x ++ (g!"}}" ++ rest.source))
  | .block body rest => g!"{{if true}}" ++ (body.source ++ (g!"{{end}}" ++ rest.source))

/-- The names are words and the values can stand between quotes. -/
def Prog.Ok : Prog → Prop
  | .done => True
  | .set x v rest => Word x ∧ PlainText v ∧ rest.Ok
  | .use x rest => Word x ∧ rest.Ok
  | .block body rest => body.Ok ∧ rest.Ok

/-- The value that was given to the variable last. -/
inductive Latest : List (Str × Str) → Str → Str → Prop
  | here {x v : Str} {env : List (Str × Str)} : Latest ((x, v) :: env) x v
  | there {x y v w : Str} {env : List (Str × Str)} : y ≠ x → Latest env x v → Latest ((y, w) :: env) x v

/-- What a template prints: what is declared in a block ends with it. -/
inductive Runs : List (Str × Str) → Prog → Str → Prop
  | done {env : List (Str × Str)} : Runs env .done []
  | set {env : List (Str × Str)} {x v out : Str} {rest : Prog} : Runs ((x, v) :: env) rest out → Runs env (.set x v rest) out
  | use {env : List (Str × Str)} {x v out : Str} {rest : Prog} : Latest env x v → Runs env rest out → Runs env (.use x rest) (v ++ out)
  | block {env : List (Str × Str)} {out out' : Str} {body rest : Prog} : Runs env body out → Runs env rest out' → Runs env (.block body rest) (out ++ out')

end Gowrap.Scoped

import Verif.Model.Flags
/-!
# Templates without control structures (C95)

What such a template is and what it should print, independently of how templates are lexed and parsed.
-/

namespace Gowrap.Flat

open Gowrap

/-- What can stand between `{{` and `}}`. -/
inductive Action where
  /-- `/* c */` -/
  | comment (c : Str)
  /-- `.Interface.Name` -/
  | name
  /-- `.Vars.x` -/
  | var (x : Str)

/-- An action, whether it begins with `{{- ` and whether it ends with ` -}}`. -/
structure Item where
  action : Action
  left : Bool
  right : Bool

/-- A word: letters, digits and underscores, at least one, not beginning with a digit (what begins with a digit is a number after a dot). -/
def Word (x : Str) : Prop := x ≠ [] ∧ (∀ c ∈ x, c.isAlphanum = true ∨ c = '_') ∧ ∀ c, x.head? = some c → c.isDigit = false

/-- A comment ends at the first `*/`; the name of a variable is a word. -/
def Action.Ok : Action → Prop
  | .comment c => ¬ g!"*/" <:+: c
  | .name => True
  | .var x => Word x

/-- `t` contains no `{{`, also if an action follows. -/
def Plain (t : Str) : Prop := ¬ g!"{{" <:+: t ++ g!"{"

def Action.source : Action → Str
  | .comment c => g!"/*" ++ (c ++ g!"*/")
  | .name => g!".Interface.Name"
  | .var x => g!".Vars." ++ x

def Item.source (i : Item) : Str :=
  g!"{{" ++ ((if i.left then g!"- " else []) ++ (i.action.source ++ ((if i.right then g!" -" else []) ++ g!"}}")))

/-- A template: a text, then actions, each with the text that follows it. -/
structure Template where
  first : Str
  rest : List (Item × Str)

def Template.source (t : Template) : Str := t.first ++ t.rest.flatMap fun p => p.1.source ++ p.2

def Template.Ok (t : Template) : Prop := Plain t.first ∧ ∀ p ∈ t.rest, p.1.action.Ok ∧ Plain p.2

/-- The text without the spaces, tabs and line breaks at its beginning. -/
def dropFront : Str → Str
  | [] => []
  | c :: s => if c ∈ [' ', '\t', '\r', '\n'] then dropFront s else c :: s

/-- The text without the spaces, tabs and line breaks at its end. -/
def dropBack (s : Str) : Str := (dropFront s.reverse).reverse

/-- What an action prints. -/
def Action.output (name : Str) (vars : Str → Option VarValue) : Action → Str
  | .comment _ => []
  | .name => name
  | .var x => match vars x with
    | some (.text s) => s
    | some .flag => g!"true"
    | none => g!"<no value>"

/-- What a text and the actions and texts after it print; `cut` says whether the action before ends with ` -}}`. -/
def outputFrom (name : Str) (vars : Str → Option VarValue) : Bool → Str → List (Item × Str) → Str
  | cut, t, [] => if cut then dropFront t else t
  | cut, t, (i, t') :: rest =>
    (if i.left then dropBack (if cut then dropFront t else t) else if cut then dropFront t else t) ++
      (i.action.output name vars ++ outputFrom name vars i.right t' rest)

/-- What a template prints for an interface with the given name and the given `-v` flags. -/
def Template.output (t : Template) (name : Str) (vars : Str → Option VarValue) : Str := outputFrom name vars false t.first t.rest

end Gowrap.Flat

import Verif.Spec.FlatTemplate
/-!
# Templates with control structures (C96)

Templates with `if`, `else if`, `else`, `with` and `range`, put into each other in any way, and what they should print,
independently of how templates are lexed, parsed and executed.
-/

namespace Gowrap.Nested

open Gowrap Flat

/-- What can be printed. -/
inductive Shown where
  /-- `{{$.Interface.Name}}` -/
  | name
  /-- `{{$.Vars.x}}` -/
  | var (x : Str)
  /-- `{{.Name}}`, within `range` -/
  | method
  /-- `{{.}}`, within `with` -/
  | dot

mutual

/-- A piece of a template.  Every action comes with the text before it. -/
inductive Block where
  /-- the text at the end -/
  | last (t : Str)
  /-- `{{s}}` -/
  | shown (t : Str) (s : Shown) (rest : Block)
  /-- `{{if $.Vars.x}} ... {{end}}` -/
  | cond (t x : Str) (yes : Block) (no : Tail) (rest : Block)
  /-- `{{with $.Vars.x}} ... {{end}}` -/
  | with_ (t x : Str) (yes : Block) (no : Tail) (rest : Block)
  /-- `{{range $.Interface.Methods}} ... {{end}}` -/
  | each (t : Str) (body : Block) (no : Tail) (rest : Block)

/-- What stands before `{{end}}`. -/
inductive Tail where
  | none
  /-- `{{else}}` -/
  | els (b : Block)
  /-- `{{else if $.Vars.x}}` -/
  | elsIf (x : Str) (yes : Block) (no : Tail)

end

def Shown.source : Shown → Str
  | .name => g!"{{$.Interface.Name}}"
  | .var x => g!"{{$.Vars." ++ (x ++ g!"}}")
  | .method => g!"{{.Name}}"
  | .dot => g!"{{.}}"

mutual

def Block.source : Block → Str
  | .last t => t
  | .shown t s rest => t ++ (s.source ++ rest.source)
  | .cond t x yes no rest =>
    t ++ ((g!"{{if $.Vars." ++ (x ++ g!"}}")) ++ (yes.source ++ (no.source ++ (g!"{{end}}" ++ rest.source))))
  | .with_ t x yes no rest =>
    t ++ ((g!"{{with $.Vars." ++ (x ++ g!"}}")) ++ (yes.source ++ (no.source ++ (g!"{{end}}" ++ rest.source))))
  | .each t body no rest =>
    t ++ (g!"{{range $.Interface.Methods}}" ++ (body.source ++ (no.source ++ (g!"{{end}}" ++ rest.source))))

def Tail.source : Tail → Str
  | .none => []
  | .els b => g!"{{else}}" ++ b.source
  | .elsIf x yes no => (g!"{{else if $.Vars." ++ (x ++ g!"}}")) ++ (yes.source ++ no.source)

end

/-- What `.` is: the data, a method with its name, or the value of a variable. -/
inductive Dot where
  | root
  | method (name : Str)
  | value (v : VarValue)

/-- The kinds of dots. -/
inductive Kind where
  | root
  | method
  | value

def Shown.Ok : Kind → Shown → Prop
  | _, .name => True
  | _, .var x => Word x
  | k, .method => k = .method
  | k, .dot => k = .value

mutual

/-- Texts are plain, names of variables are words, `.Name` occurs within `range` and `.` within `with`, `else if`
belongs to `if`. -/
def Block.Ok : Kind → Block → Prop
  | _, .last t => Plain t
  | k, .shown t s rest => Plain t ∧ s.Ok k ∧ rest.Ok k
  | k, .cond t x yes no rest => Plain t ∧ Word x ∧ yes.Ok k ∧ no.Ok k ∧ rest.Ok k
  | k, .with_ t x yes no rest => Plain t ∧ Word x ∧ yes.Ok .value ∧ no.Simple k ∧ rest.Ok k
  | k, .each t body no rest => Plain t ∧ body.Ok .method ∧ no.Simple k ∧ rest.Ok k

def Tail.Ok : Kind → Tail → Prop
  | _, .none => True
  | k, .els b => b.Ok k
  | k, .elsIf x yes no => Word x ∧ yes.Ok k ∧ no.Ok k

def Tail.Simple : Kind → Tail → Prop
  | _, .none => True
  | k, .els b => b.Ok k
  | _, .elsIf _ _ _ => False

end

/-- What the template can see: the name of the interface, the `-v` flags and the names of the methods in the order in
which they are visited. -/
structure Seen where
  name : Str
  vars : Str → Option VarValue
  methods : List Str

/-- How the value of a variable is printed. -/
def printed : Option VarValue → Str
  | some (.text s) => s
  | some .flag => g!"true"
  | none => g!"<no value>"

/-- A variable counts as true if it was given, and not with an empty value. -/
def isSet (w : Seen) (x : Str) : Prop := ∃ v, w.vars x = some v ∧ v ≠ .text []

def Shown.output (w : Seen) : Dot → Shown → Str
  | _, .name => w.name
  | _, .var x => printed (w.vars x)
  | .method m, .method => m
  | _, .method => []
  | .value v, .dot => printed (some v)
  | _, .dot => []

mutual

/-- `Prints w dot b out`: with the data `w` and `.` being `dot`, `b` prints `out`. -/
inductive Prints (w : Seen) : Dot → Block → Str → Prop
  | last {dot : Dot} {t : Str} : Prints w dot (.last t) t
  | shown {dot : Dot} {t : Str} {s : Shown} {rest : Block} {o : Str} : Prints w dot rest o →
      Prints w dot (.shown t s rest) (t ++ s.output w dot ++ o)
  | condYes {dot : Dot} {t x : Str} {yes : Block} {no : Tail} {rest : Block} {o o' : Str} : isSet w x → Prints w dot yes o →
      Prints w dot rest o' → Prints w dot (.cond t x yes no rest) (t ++ o ++ o')
  | condNo {dot : Dot} {t x : Str} {yes : Block} {no : Tail} {rest : Block} {o o' : Str} : ¬ isSet w x → PrintsTail w dot no o →
      Prints w dot rest o' → Prints w dot (.cond t x yes no rest) (t ++ o ++ o')
  | withYes {dot : Dot} {t x : Str} {v : VarValue} {yes : Block} {no : Tail} {rest : Block} {o o' : Str} : w.vars x = some v →
      v ≠ .text [] → Prints w (.value v) yes o → Prints w dot rest o' → Prints w dot (.with_ t x yes no rest) (t ++ o ++ o')
  | withNo {dot : Dot} {t x : Str} {yes : Block} {no : Tail} {rest : Block} {o o' : Str} : ¬ isSet w x → PrintsTail w dot no o →
      Prints w dot rest o' → Prints w dot (.with_ t x yes no rest) (t ++ o ++ o')
  | eachSome {dot : Dot} {t : Str} {body : Block} {no : Tail} {rest : Block} {o o' : Str} : w.methods ≠ [] →
      PrintsEach w body w.methods o → Prints w dot rest o' → Prints w dot (.each t body no rest) (t ++ o ++ o')
  | eachNone {dot : Dot} {t : Str} {body : Block} {no : Tail} {rest : Block} {o o' : Str} : w.methods = [] →
      PrintsTail w dot no o → Prints w dot rest o' → Prints w dot (.each t body no rest) (t ++ o ++ o')

/-- What stands after the branches that were not taken. -/
inductive PrintsTail (w : Seen) : Dot → Tail → Str → Prop
  | none {dot : Dot} : PrintsTail w dot .none []
  | els {dot : Dot} {b : Block} {o : Str} : Prints w dot b o → PrintsTail w dot (.els b) o
  | yes {dot : Dot} {x : Str} {yes : Block} {no : Tail} {o : Str} : isSet w x → Prints w dot yes o →
      PrintsTail w dot (.elsIf x yes no) o
  | no {dot : Dot} {x : Str} {yes : Block} {no : Tail} {o : Str} : ¬ isSet w x → PrintsTail w dot no o →
      PrintsTail w dot (.elsIf x yes no) o

/-- The body of `range` for every method. -/
inductive PrintsEach (w : Seen) : Block → List Str → Str → Prop
  | nil {body : Block} : PrintsEach w body [] []
  | cons {body : Block} {m : Str} {ms : List Str} {o o' : Str} : Prints w (.method m) body o → PrintsEach w body ms o' →
      PrintsEach w body (m :: ms) (o ++ o')

end

end Gowrap.Nested

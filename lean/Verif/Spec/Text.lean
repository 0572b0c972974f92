import Verif.Model.GoStr
/-!
# Reading generated Go text

A small reader for the pieces of Go text that the renderings of a method produce.  It knows nothing
about how the text was made: it counts brackets, splits at separators outside brackets, and separates a
name from what follows at the first blank.
-/

namespace Gowrap.Spec

open Gowrap

def isOpen (c : Char) : Bool := c = '(' ∨ c = '[' ∨ c = '{'
def isClose (c : Char) : Bool := c = ')' ∨ c = ']' ∨ c = '}'

/-- Bracket depth after reading a text from depth `d`; `none` if a closing bracket has no partner in
the text or the separator occurs outside all brackets of the text. -/
def depth (sep : Char) : Nat → Str → Option Nat
  | d, [] => some d
  | d, c :: s =>
    if isOpen c then depth sep (d + 1) s
    else if isClose c then
      match d with
      | 0 => none
      | d + 1 => depth sep d s
    else if d = 0 ∧ c = sep then none
    else depth sep d s

/-- Brackets are balanced and no comma and no line break is outside them. -/
def Closed (s : Str) : Prop := depth ',' 0 s = some 0 ∧ depth '\n' 0 s = some 0

instance (s : Str) : Decidable (Closed s) := inferInstanceAs (Decidable (_ ∧ _))

/-- Split at the separators outside brackets; `cur` is the current piece, reversed. -/
def splitTop (sep : Char) : Nat → Str → Str → List Str
  | _, cur, [] => [cur.reverse]
  | d, cur, c :: s =>
    if isOpen c then splitTop sep (d + 1) (c :: cur) s
    else if isClose c then splitTop sep (d - 1) (c :: cur) s
    else if d = 0 ∧ c = sep then cur.reverse :: splitTop sep 0 [] s
    else splitTop sep d (c :: cur) s

/-- Drop leading blanks and line breaks. -/
def trimLeft : Str → Str
  | [] => []
  | c :: s => if c = ' ' ∨ c = '\n' then trimLeft s else c :: s

/-- The items of a separated list. -/
def items (sep : Char) (s : Str) : List Str :=
  if s = [] then [] else (splitTop sep 0 [] s).map trimLeft

/-- The contents of a bracket whose opening bracket was just read, and the rest of the text. -/
def group : Nat → Str → Str → Option (Str × Str)
  | _, _, [] => none
  | d, cur, c :: s =>
    if isOpen c then group (d + 1) (c :: cur) s
    else if isClose c then
      match d with
      | 0 => some (cur.reverse, s)
      | d + 1 => group d (c :: cur) s
    else group d (c :: cur) s

/-- Split before the first character `c`. -/
def splitAtChar (c : Char) : Str → Str × Str
  | [] => ([], [])
  | x :: s => if x = c then ([], x :: s) else let (a, b) := splitAtChar c s; (x :: a, b)

/-- `name type` -/
def readVar (s : Str) : Str × Str :=
  let (n, t) := splitAtChar ' ' s
  (n, t.drop 1)

/-- `name` or `name...` -/
def readArg (s : Str) : Str × Bool :=
  if s.drop (s.length - 3) = g!"..." then (s.take (s.length - 3), true) else (s, false)

/-- `Name(a, b...)`: the callee and its arguments, each with the information whether it is spread. -/
def readCall (s : Str) : Option (Str × List (Str × Bool)) :=
  match splitAtChar '(' s with
  | (name, _ :: rest) =>
    match group 0 [] rest with
    | some (args, []) => some (name, (items ',' args).map readArg)
    | _ => none
  | _ => none

/-- `(a T, b U) (c V)`: parameters and results with their types. -/
def readSignature (s : Str) : Option (List (Str × Str) × List (Str × Str)) :=
  match s with
  | '(' :: rest =>
    match group 0 [] rest with
    | some (ps, ' ' :: '(' :: rest) =>
      match group 0 [] rest with
      | some (rs, []) => some ((items ',' ps).map readVar, (items ',' rs).map readVar)
      | _ => none
    | _ => none
  | _ => none

/-- `Name(a T, b U) (c V)` -/
def readDeclaration (s : Str) : Option (Str × List (Str × Str) × List (Str × Str)) :=
  let (name, rest) := splitAtChar '(' s
  (readSignature rest).map fun x => (name, x)

/-- `struct{ a T ⏎ b U }`: the fields with their types. -/
def readStruct (s : Str) : Option (List (Str × Str)) :=
  match s with
  | 's' :: 't' :: 'r' :: 'u' :: 'c' :: 't' :: '{' :: '\n' :: rest =>
    match group 0 [] rest with
    | some (fs, []) => some ((items '\n' fs).map readVar)
    | _ => none
  | _ => none

/-- `"key": value` -/
def readMapEntry (s : Str) : Str × Str :=
  let (k, v) := splitAtChar ':' s
  (((k.drop 1).dropLast), v.drop 2)

/-- `map[string]interface{}{ "a": x, "b": y }`: keys and values. -/
def readMap (s : Str) : Option (List (Str × Str)) :=
  if g!"map[string]interface{}{\n".isPrefixOf s then
    match group 0 [] (s.drop (g!"map[string]interface{}{\n").length) with
    | some (es, []) => some ((items ',' es).map readMapEntry)
    | _ => none
  else none

/-- `return a, b`: the returned expressions. -/
def readReturn (s : Str) : Option (List Str) :=
  if s = g!"return" then some []
  else if g!"return ".isPrefixOf s then some (items ',' (s.drop (g!"return ").length))
  else none

/-- Characters with a meaning for the reader. -/
def isPunct (c : Char) : Bool :=
  isOpen c || isClose c || c = ',' || c = '\n' || c = ' ' || c = '.' || c = ':' || c = '"'

/-- A name: not empty and without punctuation. -/
def PlainName (s : Str) : Prop := s ≠ [] ∧ ∀ c ∈ s, isPunct c = false

instance (s : Str) : Decidable (PlainName s) := inferInstanceAs (Decidable (_ ∧ _))

end Gowrap.Spec

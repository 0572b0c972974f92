import Verif.Model.GoStr
/-!
# How `go generate` turns a comment into a command

This describes cmd/go, not gowrap: the text after `//go:generate ` up to the end of the line is split at
blanks and tabs; an argument that starts with a double quote extends to the next unescaped double quote
and is unquoted as a Go string; environment variables are expanded.

Two parts are left to arbitrary functions: `unq` unquotes a Go string that contains a backslash, `exp`
expands an argument that contains a dollar sign.
-/

namespace Gowrap.Spec

open Gowrap

/-- Blank or tab. -/
def blank (c : Char) : Bool := c = ' ' || c = '\t'

/-- Where the splitter is: between arguments, inside a plain argument, inside a quoted argument (after a
backslash or not), just after a closing quote. -/
inductive Scan where
  | between
  | plain (read : Str)
  | quoted (read : Str)
  | escaped (read : Str)
  | closed

/-- The value of a quoted argument. -/
def unquote (unq : Str → Option Str) (text : Str) : Option Str :=
  if '\\' ∈ text then unq text else some text

/-- Split the rest of the line; `none` is an error message of `go generate`. -/
def split (unq : Str → Option Str) : Scan → Str → Option (List Str)
  | .between, [] => some []
  | .plain w, [] => some [w]
  | .quoted _, [] => none
  | .escaped _, [] => none
  | .closed, [] => some []
  | .between, c :: cs =>
    if blank c then split unq .between cs
    else if c = '"' then split unq (.quoted []) cs
    else split unq (.plain [c]) cs
  | .plain w, c :: cs =>
    if blank c then (split unq .between cs).map (w :: ·) else split unq (.plain (w ++ [c])) cs
  | .quoted w, c :: cs =>
    if c = '"' then
      (unquote unq w).bind fun w => (split unq .closed cs).map (w :: ·)
    else if c = '\\' then split unq (.escaped (w ++ [c])) cs
    else split unq (.quoted (w ++ [c])) cs
  | .escaped w, c :: cs => split unq (.quoted (w ++ [c])) cs
  | .closed, c :: cs => if blank c then split unq .between cs else none

/-- Environment variables. -/
def expand (exp : Str → Str) (w : Str) : Str := if '$' ∈ w then exp w else w

/-- A final carriage return does not count. -/
def dropCR (l : Str) : Str := if l.getLast? = some '\r' then l.dropLast else l

/-- The command run for a comment (the text after `//`). -/
def command (unq : Str → Option Str) (exp : Str → Str) (comment : Str) : Option (List Str) :=
  let line := comment.takeWhile (· ≠ '\n')
  if g!"go:generate " <+: line then
    (split unq .between (dropCR (line.drop 12))).map (·.map (expand exp))
  else none

/-- A text that `go generate` passes on as it is when it stands unquoted between blanks. -/
def Plain (w : Str) : Prop :=
  w ≠ [] ∧ w.head? ≠ some '"' ∧ ∀ c ∈ w, blank c = false ∧ c ≠ '\n' ∧ c ≠ '\r' ∧ c ≠ '$'

/-- A text that `go generate` passes on as it is when it stands between double quotes. -/
def Quotable (w : Str) : Prop := ∀ c ∈ w, c ≠ '"' ∧ c ≠ '\\' ∧ c ≠ '\n' ∧ c ≠ '\r' ∧ c ≠ '$'

end Gowrap.Spec

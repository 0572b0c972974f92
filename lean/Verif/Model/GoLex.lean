import Verif.Model.GoStr
/-!
# The lexical structure of Go source

"Lexical elements" of the Go specification: comments, tokens and automatic semicolons, as far as generated code
uses them.  Not accepted are raw strings, rune literals, escape sequences in strings, `/* */` comments and
numbers that begin with a dot.  All characters beyond ASCII are taken for letters.
-/

namespace Gowrap.Go

open Gowrap

inductive Tok where
  /-- identifiers and keywords -/
  | word (s : Str)
  /-- an interpreted string literal, without the quotes -/
  | str (s : Str)
  | num (s : Str)
  | op (s : Str)
  deriving DecidableEq, Repr

/-- "Letters and digits" of the Go specification. -/
def letter (c : Char) : Bool := c.isAlpha || c = '_' || 128 ≤ c.toNat

def digit (c : Char) : Bool := c.isDigit

/-- The keywords of Go. -/
def keywords : List Str := [g!"break", g!"case", g!"chan", g!"const", g!"continue", g!"default", g!"defer", g!"else",
  g!"fallthrough", g!"for", g!"func", g!"go", g!"goto", g!"if", g!"import", g!"interface", g!"map", g!"package",
  g!"range", g!"return", g!"select", g!"struct", g!"switch", g!"type", g!"var"]

/-- The keywords after which a semicolon is inserted at the end of the line. -/
def endKeywords : List Str := [g!"break", g!"continue", g!"fallthrough", g!"return"]

/-- A semicolon is inserted at the end of the line after this identifier or keyword. -/
def wordEnds (s : Str) : Bool := !(keywords.contains s) || endKeywords.contains s

/-- Operators that are complete. -/
def single (c : Char) : Bool :=
  c = '(' || c = ')' || c = '[' || c = ']' || c = '{' || c = '}' || c = ',' || c = ';'

/-- First characters of operators that may be longer than one character. -/
def opStart (c : Char) : Bool :=
  c = '+' || c = '-' || c = '*' || c = '/' || c = '%' || c = '&' || c = '|' || c = '^' || c = '<' || c = '>' ||
  c = '=' || c = '!' || c = ':' || c = '.' || c = '~'

/-- Operators of more than one character, and the beginning of `...`. -/
def longOps : List Str := [g!":=", g!"==", g!"!=", g!"<=", g!">=", g!"&&", g!"||", g!"++", g!"--", g!"<-", g!"..", g!"...",
  g!"+=", g!"-=", g!"*=", g!"/=", g!"%=", g!"|=", g!"&=", g!"^=", g!"<<", g!">>", g!"&^"]

/-- A semicolon is inserted at the end of the line after this operator. -/
def opEnds (s : Str) : Bool := s = g!"++" || s = g!"--" || s = g!")" || s = g!"]" || s = g!"}"

/-- Where the lexer is; texts are collected in reverse. -/
inductive Mode where
  | start
  | word (acc : Str)
  | num (acc : Str)
  | str (acc : Str)
  | op (acc : Str)
  /-- in a comment up to the end of the line -/
  | comment
  | failed
  deriving DecidableEq, Repr

/-- The state of the lexer: `semi` says that a semicolon is inserted at the end of the line; the tokens are
collected in reverse. -/
structure State where
  mode : Mode
  semi : Bool
  toks : List Tok
  deriving DecidableEq, Repr

/-- Ends the token that is being read. -/
def State.flush (s : State) : State :=
  match s.mode with
  | .word acc => ⟨.start, wordEnds acc.reverse, .word acc.reverse :: s.toks⟩
  | .num acc => ⟨.start, true, .num acc.reverse :: s.toks⟩
  | .op acc => if acc = g!".." then { s with mode := .failed } else ⟨.start, opEnds acc.reverse, .op acc.reverse :: s.toks⟩
  | _ => s

/-- The first character of a token. -/
def State.first (s : State) (c : Char) : State :=
  if c = '\n' then (if s.semi then ⟨.start, false, .op g!";" :: s.toks⟩ else s)
  else if c = ' ' || c = '\t' || c = '\r' then s
  else if letter c then { s with mode := .word [c] }
  else if digit c then { s with mode := .num [c] }
  else if c = '"' then { s with mode := .str [] }
  else if single c then ⟨.start, opEnds [c], .op [c] :: s.toks⟩
  else if opStart c then { s with mode := .op [c] }
  else { s with mode := .failed }

/-- One character. -/
def State.step (s : State) (c : Char) : State :=
  match s.mode with
  | .start => s.first c
  | .word acc => if letter c || digit c then { s with mode := .word (c :: acc) } else s.flush.first c
  | .num acc => if letter c || digit c || c = '.' then { s with mode := .num (c :: acc) } else s.flush.first c
  | .str acc =>
    if c = '"' then ⟨.start, true, .str acc.reverse :: s.toks⟩
    else if c = '\\' || c = '\n' then { s with mode := .failed }
    else { s with mode := .str (c :: acc) }
  | .op acc =>
    if longOps.contains (c :: acc).reverse then { s with mode := .op (c :: acc) }
    else if acc = g!"/" && c = '/' then { s with mode := .comment }
    else if acc = g!"/" && c = '*' then { s with mode := .failed }
    else if acc = g!"." && digit c then { s with mode := .failed }
    else if acc = g!".." then { s with mode := .failed }
    else s.flush.first c
  | .comment => if c = '\n' then ({ s with mode := .start }).first c else s
  | .failed => s

/-- The state after a text. -/
def State.run (s : State) (t : Str) : State := t.foldl State.step s

/-- The tokens of a source file. -/
def tokens (t : Str) : Option (List Tok) :=
  let s := (State.run ⟨.start, false, []⟩ t).flush
  let s := if s.mode = .comment then { s with mode := .start } else s
  match s.mode with
  | .start => some (if s.semi then .op g!";" :: s.toks else s.toks).reverse
  | _ => none

end Gowrap.Go

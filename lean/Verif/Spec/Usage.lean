import Verif.Model.Usage
/-!
# What users read in help texts
-/

namespace Gowrap.Spec

/-- The lines of a text (the last one is what follows the last line feed). -/
def textLines : Str → List Str
  | [] => [[]]
  | c :: cs =>
    if c = '\n' then [] :: textLines cs
    else
      match textLines cs with
      | [] => [[c]]
      | l :: ls => (c :: l) :: ls

/-- An indented line: a word, blanks and a description. -/
def readCommandLine : Str → Option (Str × Str)
  | '\t' :: l => some (l.takeWhile (· ≠ ' '), (l.dropWhile (· ≠ ' ')).dropWhile (· = ' '))
  | _ => none

/-- The table of commands in the usage text: the indented lines below `The commands are:`. -/
def readCommands (text : Str) : List (Str × Str) :=
  ((textLines text).dropWhile (· ≠ g!"The commands are:")).filterMap readCommandLine

/-- `c` is the command that was registered last under the name. -/
def LastRegistered (regs : List (Str × CmdInfo)) (name : Str) (c : CmdInfo) : Prop :=
  ∃ a b, regs = a ++ (name, c) :: b ∧ ∀ e ∈ b, e.1 ≠ name

/-- The commands registered one after the other. -/
def registered (regs : List (Str × CmdInfo)) : Registry := regs.foldl (fun r e => r.register e.1 e.2) []

/-- A description of a flag. -/
structure FlagDoc where
  name : Str
  /-- the placeholder for the argument, empty if there is none -/
  argument : Str
  usage : Str
  deriving DecidableEq, Repr

/-- Lines joined by line feeds. -/
def joinLines : List Str → Str
  | [] => []
  | [l] => l
  | l :: ls => l ++ '\n' :: joinLines ls

/-- Reads the first line of the description of a flag, given the indented lines that follow. -/
def readFlag (l : Str) (below : List Str) : FlagDoc :=
  let name := l.takeWhile fun c => c ≠ ' ' && c ≠ '\t'
  match l.dropWhile fun c => c ≠ ' ' && c ≠ '\t' with
  | '\t' :: u => ⟨name, [], joinLines (u :: below)⟩
  | ' ' :: a => ⟨name, a, joinLines below⟩
  | _ => ⟨name, [], joinLines below⟩

/-- Reads the descriptions of flags from the lines of a text: those that begin with `  -`, with the indented lines that follow; with the indented
lines at the beginning. -/
def readFlags : List Str → List Str × List FlagDoc
  | [] => ([], [])
  | l :: ls =>
    match l with
    | ' ' :: ' ' :: '-' :: r => ([], readFlag r (readFlags ls).1 :: (readFlags ls).2)
    | ' ' :: ' ' :: ' ' :: ' ' :: '\t' :: r => (r :: (readFlags ls).1, (readFlags ls).2)
    | _ => ([], (readFlags ls).2)

/-- The flags that a help text describes. -/
def describedFlags (text : Str) : List FlagDoc := (readFlags (textLines text)).2

/-- What a help text should say about a flag: its name, its argument by the name of its type, and its usage. -/
def documentation (f : FlagDef) : FlagDoc := ⟨f.name, f.kind.name, f.usage⟩

end Gowrap.Spec

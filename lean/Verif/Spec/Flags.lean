import Verif.Model.Flags
/-!
# Command line flags

The grammar of the arguments of a Go program (package `flag`): flags come first, each written `-name=value`
or `-name value`, with one dash or two; a boolean flag may stand alone; `--` ends the flags; the first
argument that is not a flag ends them too.
-/

namespace Gowrap.Spec

open Gowrap

/-- `name` can be the name of a flag in an argument. -/
def FlagWord (name : Str) : Prop := name ≠ [] ∧ name.head? ≠ some '-' ∧ '=' ∉ name

/-- An argument beginning with one dash or two. -/
inductive Dashed : Str → Str → Prop
  | one (w : Str) : Dashed ('-' :: w) w
  | two (w : Str) : Dashed ('-' :: '-' :: w) w

/-- An argument that is not a flag: empty, `-`, or not beginning with a dash. -/
def Positional (s : Str) : Prop := s = g!"-" ∨ s.head? ≠ some '-'

/-- `args` are the assignments `as` followed by the arguments `rest`, when `bool` tells the boolean flags
and `known` the flags. -/
inductive Assigns (known bool : Str → Prop) : List Str → List (Str × Str) → List Str → Prop
  | done : Assigns known bool [] [] []
  | positional (s : Str) (args : List Str) : Positional s → Assigns known bool (s :: args) [] (s :: args)
  | terminator (args : List Str) : Assigns known bool (g!"--" :: args) [] args
  | joined (s name value : Str) (args : List Str) (as : List (Str × Str)) (rest : List Str) :
      Dashed s (name ++ '=' :: value) → FlagWord name → known name → Assigns known bool args as rest →
      Assigns known bool (s :: args) ((name, value) :: as) rest
  | alone (s name : Str) (args : List Str) (as : List (Str × Str)) (rest : List Str) :
      Dashed s name → FlagWord name → known name → bool name → Assigns known bool args as rest →
      Assigns known bool (s :: args) ((name, g!"true") :: as) rest
  | separate (s name value : Str) (args : List Str) (as : List (Str × Str)) (rest : List Str) :
      Dashed s name → FlagWord name → known name → ¬ bool name → Assigns known bool args as rest →
      Assigns known bool (s :: value :: args) ((name, value) :: as) rest

/-- The value given last to a flag. -/
def lastAssigned (name : Str) (as : List (Str × Str)) : Option Str :=
  ((as.filter (fun a => a.1 = name)).getLast?).map (·.2)

/-- All the values given to a flag, in order. -/
def allAssigned (name : Str) (as : List (Str × Str)) : List Str :=
  (as.filter (fun a => a.1 = name)).map (·.2)

/-- The texts for a boolean value. -/
inductive BoolText : Str → Bool → Prop
  | yes (s : Str) : s ∈ [g!"1", g!"t", g!"T", g!"true", g!"TRUE", g!"True"] → BoolText s true
  | no (s : Str) : s ∈ [g!"0", g!"f", g!"F", g!"false", g!"FALSE", g!"False"] → BoolText s false

end Gowrap.Spec

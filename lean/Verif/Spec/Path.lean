import Verif.Model.GoStr
/-!
# What a slash-separated path means

A directory is the list of the names on the way from the root to it.  A path is followed element by
element: an empty element and `.` stay, `..` goes to the parent (the root is its own parent), anything
else goes down.  (Symbolic links are not considered, as in `path/filepath`.)
-/

namespace Gowrap.Spec

open Gowrap

/-- Follow one path element. -/
def follow (dir : List Str) (w : Str) : List Str :=
  if w = [] ∨ w = g!"." then dir
  else if w = g!".." then dir.dropLast
  else dir ++ [w]

/-- Follow path elements from a directory. -/
def walk (dir : List Str) (ws : List Str) : List Str := ws.foldl follow dir

/-- `ws` are the pieces of `p` between the slashes. -/
inductive Pieces : Str → List Str → Prop
  | one (w : Str) : '/' ∉ w → Pieces w [w]
  | cons (w p : Str) (ws : List Str) : '/' ∉ w → Pieces p ws → Pieces (w ++ '/' :: p) (w :: ws)

/-- The file or directory that `p` denotes when the working directory is `cwd`. -/
def Denotes (cwd : List Str) (p : Str) (loc : List Str) : Prop :=
  ∃ ws, Pieces p ws ∧ loc = walk (if p.head? = some '/' then [] else cwd) ws

/-- A real directory name. -/
def IsName (w : Str) : Prop := w ≠ [] ∧ w ≠ g!"." ∧ w ≠ g!".." ∧ '/' ∉ w

/-- A directory: a list of names. -/
def IsDir (l : List Str) : Prop := ∀ w ∈ l, IsName w

end Gowrap.Spec

import Verif.Model.Effects
/-!
# Specification vocabulary for runs of the command line tool

Everything is said about the list of observable events.
-/

namespace Gowrap.Spec

open Gowrap

/-- The URLs requested, in order. -/
def requests (l : List Ev) : List Str := l.filterMap fun | .request u => some u | _ => none

/-- The files written (path, data, success), in order. -/
def writes (l : List Ev) : List (Str × Bytes × Bool) :=
  l.filterMap fun | .writeFile p d s => some (p, d, s) | _ => none

/-- The local files read, in order. -/
def filesRead (l : List Ev) : List Str := l.filterMap fun | .readFile p => some p | _ => none

/-- The text printed. -/
def printed (l : List Ev) : Str := (l.map fun | .stdout t => t | _ => []).flatten

/-- Does the event change the file system? -/
def ChangesFiles : Ev → Prop
  | .writeFile _ _ _ => True
  | .mkdirAll _ => True
  | _ => False

/-- Every response body is closed exactly once, before the next request and before the end, and is not
read after it was closed.  `bodyOpen` says whether a body is open. -/
def BodiesClosed : Bool → List Ev → Prop
  | isOpen, [] => isOpen = false
  | isOpen, .request _ :: l => isOpen = false ∧ BodiesClosed false l
  | isOpen, .response _ :: l => isOpen = false ∧ BodiesClosed true l
  | isOpen, .readBody :: l => isOpen = true ∧ BodiesClosed true l
  | isOpen, .closeBody :: l => isOpen = true ∧ BodiesClosed false l
  | isOpen, _ :: l => BodiesClosed isOpen l

/-- Where GitHub tells the last commit that changed a template. -/
def commitsUrl (name : Str) : Str :=
  g!"https://api.github.com/repos/hexdigest/gowrap/commits?path=templates/" ++ name ++ g!"&per_page=1"

/-- A template at a given commit. -/
def pinnedUrl (commit name : Str) : Str :=
  g!"https://raw.githubusercontent.com/hexdigest/gowrap/" ++ commit ++ g!"/templates/" ++ name

/-- An HTTP(S) URL. -/
def IsUrl (path : Str) : Prop := g!"https://" <+: path ∨ g!"http://" <+: path

/-- A file reference. -/
def IsFileRef (path : Str) : Prop := g!"file://" <+: path

end Gowrap.Spec

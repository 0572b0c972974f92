import Verif.Model.GoStr
/-!
# Model of `path/filepath` (Unix) as used by cmd_generate.go

`filepath` is part of the Go standard library, not of gowrap; the functions here follow its
documentation for slash-separated paths.  The working directory is the list of its path elements.
-/

namespace Gowrap

/-- The slash-separated pieces of a path (`strings.Split(p, "/")`). -/
def pieces : Str → List Str
  | [] => [[]]
  | c :: cs =>
    if c = '/' then [] :: pieces cs
    else
      match pieces cs with
      | [] => [[c]]
      | w :: ws => (c :: w) :: ws

/-- One step of the lexical elimination of `.`, `..` and empty elements.  `keep` tells what to do with
a `..` that has nothing to remove: it stays in a relative path and disappears at the root. -/
def cleanStep (keep : Bool) (acc : List Str) (w : Str) : List Str :=
  if w = [] then acc
  else if w = g!"." then acc
  else if w = g!".." then
    match acc.getLast? with
    | none => if keep then acc ++ [w] else acc
    | some l => if l = g!".." then acc ++ [w] else acc.dropLast
  else acc ++ [w]

/-- The elements of the cleaned path. -/
def cleanPieces (keep : Bool) (start : List Str) (ws : List Str) : List Str :=
  ws.foldl (cleanStep keep) start

/-- `filepath.IsAbs`. -/
def isAbsPath : Str → Bool
  | '/' :: _ => true
  | _ => false

/-- The text of an absolute path. -/
def absText (elems : List Str) : Str := '/' :: join g!"/" elems

/-- `filepath.Clean`. -/
def cleanPath (p : Str) : Str :=
  if isAbsPath p then absText (cleanPieces false [] (pieces p))
  else
    match cleanPieces true [] (pieces p) with
    | [] => g!"."
    | ws => join g!"/" ws

/-- The elements of `filepath.Abs(p)` when the working directory has the elements `cwd`:
`Join(wd, p)` for a relative path, `Clean(p)` for an absolute one. -/
def absElems (cwd : List Str) (p : Str) : List Str :=
  cleanPieces false (if isAbsPath p then [] else cwd) (pieces p)

/-- `filepath.Abs`, cmd_generate.go:140, 175.  (Finding the working directory is assumed to succeed.) -/
def absPath (cwd : List Str) (p : Str) : Str := absText (absElems cwd p)

/-- The part of a path up to and including the last slash. -/
def dirPart (p : Str) : Str := (p.reverse.dropWhile (· ≠ '/')).reverse

/-- The part after the last slash. -/
def filePart (p : Str) : Str := (p.reverse.takeWhile (· ≠ '/')).reverse

/-- `filepath.Dir`, cmd_generate.go:96, 140. -/
def dirPath (p : Str) : Str := cleanPath (dirPart p)

/-- Remove trailing slashes. -/
def trimSlashes (p : Str) : Str := (p.reverse.dropWhile (· = '/')).reverse

/-- `filepath.Base`, cmd_generate.go:133. -/
def basePath (p : Str) : Str :=
  if p = [] then g!"."
  else if trimSlashes p = [] then g!"/"
  else filePart (trimSlashes p)

/-- Remove the common leading elements. -/
def stripCommon : List Str → List Str → List Str × List Str
  | b :: bs, t :: ts => if b = t then stripCommon bs ts else (b :: bs, t :: ts)
  | bs, ts => (bs, ts)

/-- `filepath.Rel` for two absolute paths given by their elements, cmd_generate.go:180. -/
def relElems (base target : List Str) : Str :=
  if base = target then g!"."
  else
    let (b, t) := stripCommon base target
    join g!"/" (b.map (fun _ => g!"..") ++ t)

/-- `filepath.Rel(base, target)` for absolute `base` and `target`; it fails if exactly one of the two
paths is absolute, which does not happen in cmd_generate.go because both come from `Abs`. -/
def relPath (base target : Str) : Option Str :=
  if isAbsPath base && isAbsPath target then
    some (relElems (cleanPieces false [] (pieces base)) (cleanPieces false [] (pieces target)))
  else none

end Gowrap

import Verif.Model.Generator
import Verif.Model.Path
/-!
# Model of pkg/package.go

`packages.Load` (golang.org/x/tools), the file system and go/parser are outside gowrap; `Tools` says what they
answer.  The three functions of the package turn these answers into the `World` on which method discovery
(`Model/Generator.lean`) works.
-/

namespace Gowrap

/-- An entry of a directory; `src` are the package clause and the declarations of a Go file, `none` when
`parser.ParseFile` reports an error for it. -/
structure Entry where
  name : Str
  isDir : Bool := false
  src : Option (Str × File) := none

/-- What pkg/package.go asks of its libraries. -/
structure Tools where
  uni : Uni
  raw : Expr → Str
  title : Str → Str
  /-- `packages.Load`, pkg/package.go:22: the packages matching a pattern, or an error -/
  packages : Str → Except Nat (List PkgId)
  pkg : PkgId → PkgInfo
  /-- `Errors`, `GoFiles` and `OtherFiles` of a `packages.Package` -/
  errors : PkgId → List Nat
  goFiles : PkgId → List Str
  otherFiles : PkgId → List Str
  /-- `os.ReadDir` -/
  readDir : Str → Option (List Entry)

/-- `Load`, pkg/package.go:20-36; the callers do not distinguish the errors. -/
def Tools.load (t : Tools) (path : Str) : Res PkgId :=
  match t.packages path with
  | .error _ => .err (.loadFailed path)
  | .ok pkgs =>
    match pkgs with
    | [] => .err (.loadFailed path)
    | p :: _ =>
      match t.errors p with
      | _ :: _ => .err (.loadFailed path)
      | [] => .ok p

/-- `Dir`, pkg/package.go:59-66. -/
def Tools.dir (t : Tools) (p : PkgId) : Str :=
  match t.goFiles p ++ t.otherFiles p with
  | [] => (t.pkg p).path
  | f :: _ => dirPath f

/-- `pkgs[name].Files[filename] = src`: the map from package names to files, as a list with distinct keys. -/
def addFile (name : Str) (f : File) : List (Str × List File) → List (Str × List File)
  | [] => [(name, [f])]
  | (n, fs) :: rest => if n = name then (n, fs ++ [f]) :: rest else (n, fs) :: addFile name f rest

/-- `!d.IsDir() && strings.HasSuffix(d.Name(), ".go")` -/
def Entry.isGo (e : Entry) : Bool := !e.isDir && g!".go".isSuffixOf e.name

/-- The loop of `parser.ParseDir` without filter (go/parser/interface.go): the packages and whether some file
could not be parsed. -/
def parseEntries : List Entry → List (Str × List File) → Bool → List (Str × List File) × Bool
  | [], pkgs, failed => (pkgs, failed)
  | e :: rest, pkgs, failed =>
    if e.isGo then
      match e.src with
      | some (name, f) => parseEntries rest (addFile name f pkgs) failed
      | none => parseEntries rest pkgs true
    else parseEntries rest pkgs failed

/-- `parser.ParseDir(fs, dir, nil, parser.DeclarationErrors|parser.ParseComments)`, pkg/package.go:43. -/
def Tools.parseDir (t : Tools) (dir : Str) : Option (List (Str × List File)) :=
  match t.readDir dir with
  | none => none
  | some es =>
    match parseEntries es [] false with
    | (_, true) => none
    | (pkgs, false) => some pkgs

/-- `AST`, pkg/package.go:39-56: the `Files` of the result (nil is the empty map). -/
def Tools.files (t : Tools) (p : PkgId) : Res (List File) :=
  match t.parseDir (t.dir p) with
  | none => .err (.parseFailed (t.pkg p).path)
  | some pkgs =>
    match pkgs.lookup (t.pkg p).name with
    | some fs => .ok fs
    | none => .ok []

/-- The world of method discovery. -/
def Tools.world (t : Tools) : World where
  uni := t.uni
  raw := t.raw
  pkg := t.pkg
  files := t.files
  load := t.load
  dir := dirPath
  base := basePath
  title := t.title

end Gowrap

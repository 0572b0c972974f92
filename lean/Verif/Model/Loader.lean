import Verif.Model.Effects
import Verif.Model.Path
/-!
# Model of loader/loader.go
-/

namespace Gowrap

/-- A response: its status, the outcome of reading its whole body and the outcome of closing it. -/
structure Resp where
  status : Nat
  body : Except CErr Bytes
  close : Option CErr

/-- Outcome of reading a local file. -/
inductive ReadRes where
  | contents (b : Bytes)
  | notExist
  | failed (code : Nat)
  deriving DecidableEq, Repr

/-- The outside world of the loader. -/
structure Net where
  /-- `http.NewRequest("GET", url, nil)` fails for malformed URLs -/
  newRequest : Str → Option CErr
  /-- `l.client.Do(req)` -/
  send : List Ev → Str → Except CErr Resp
  /-- `json.Unmarshal` into `[]struct{ SHA string }` -/
  commits : Bytes → Option (List Str)
  /-- `json.Unmarshal` into `struct{ Tree []struct{ Path string } }` -/
  tree : Bytes → Option (List Str)
  /-- does `os.Stat` report that the file does not exist -/
  statMissing : List Ev → Str → Bool
  /-- `os.ReadFile` -/
  readFile : List Ev → Str → ReadRes
  /-- `gitRootPath`, loader/gitpath.go:8-15 -/
  gitRoot : List Ev → Except CErr Str
  /-- the error value that `os.ReadFile` returns for a missing file -/
  missingCode : Nat

/-- `urlFormatCommits`, loader/loader.go:16, 132 -/
def urlCommits (name : Str) : Str :=
  g!"https://api.github.com/repos/hexdigest/gowrap/commits?path=templates/" ++ name ++ g!"&per_page=1"

/-- `urlFormatRaw`, loader/loader.go:17, 146 -/
def urlRaw (sha name : Str) : Str :=
  g!"https://raw.githubusercontent.com/hexdigest/gowrap/" ++ sha ++ g!"/templates/" ++ name

/-- loader/loader.go:18 -/
def urlTree : Str := g!"https://api.github.com/repos/hexdigest/gowrap/git/trees/master?recursive=1"

/-- loader/loader.go:20 -/
def templatesPathPrefix : Str := g!"templates/"

/-- `Loader.get`, loader/loader.go:96-118.  Bytes returned together with an error are dropped: no caller
looks at them. -/
def Net.get (n : Net) (url : Str) : Act Bytes :=
  match n.newRequest url with
  | some e => Act.fail e
  | none => do
    Act.emit (.request url)
    let r ← Act.ask (fun h => n.send h url)
    match r with
    | .error e => Act.fail e
    | .ok resp => do
      Act.emit (.response resp.status)
      let body : Except CErr Bytes ←
        (if resp.status ≠ 200 then pure (.error (.unexpectedStatus resp.status))
         else do Act.emit .readBody; pure resp.body)
      -- the deferred function, loader/loader.go:107-111
      Act.emit .closeBody
      match resp.close with
      | some e => Act.fail e
      | none => Act.lift body

/-- `os.ReadFile` with its error as an error value. -/
def Net.readLocal (n : Net) (path : Str) : Act Bytes := do
  Act.emit (.readFile path)
  let r ← Act.ask (fun h => n.readFile h path)
  match r with
  | .contents b => pure b
  | .notExist => Act.fail (.external n.missingCode)
  | .failed c => Act.fail (.external c)

/-- `filepath.Join(a, b)` for a non-empty `a`; empty elements are ignored. -/
def joinPath (a b : Str) : Str :=
  if a = [] then (if b = [] then [] else cleanPath b)
  else if b = [] then cleanPath a
  else cleanPath (a ++ g!"/" ++ b)

/-- `Loader.absGitPath`, loader/loader.go:120-127. -/
def Net.absGitPath (n : Net) (path : Str) : Act Str := do
  Act.emit .gitRoot
  let r ← Act.ask n.gitRoot
  match r with
  | .error e => Act.fail e
  | .ok root => pure (joinPath root path)

/-- `Loader.fetchFromGithub`, loader/loader.go:131-154.  `errors.Wrap` keeps the cause. -/
def Net.fetchFromGithub (n : Net) (name : Str) : Act (Bytes × Str) := do
  let body ← n.get (urlCommits name)
  match n.commits body with
  | none => Act.fail .badJson
  | some [] => Act.fail .templateNotFound
  | some (sha :: _) => do
    let contents ← n.get (urlRaw sha name)
    pure (contents, urlRaw sha name)

/-- `Loader.Load`, loader/loader.go:44-68. -/
def Net.load (n : Net) (path : Str) : Act (Bytes × Str) :=
  if hasPrefix path g!"https://" || hasPrefix path g!"http://" then do
    let body ← n.get path
    pure (body, path)
  else if hasPrefix path g!"file://" then do
    let templatePath := path.drop 7
    Act.emit (.stat templatePath)
    let missing ← Act.ask (fun h => n.statMissing h templatePath)
    if missing then do
      let p ← n.absGitPath templatePath
      let body ← n.readLocal p
      pure (body, p)
    else do
      let body ← n.readLocal templatePath
      pure (body, templatePath)
  else n.fetchFromGithub path

/-- `strings.Replace(s, old, "", 1)` for a non-empty `old`: remove the first occurrence. -/
def removeFirst (old : Str) : Str → Str
  | [] => []
  | c :: cs => if hasPrefix (c :: cs) old then (c :: cs).drop old.length else c :: removeFirst old cs

/-- The loop of `Loader.List`, loader/loader.go:83-89. -/
def treeTemplates : List Str → List Str
  | [] => []
  | leaf :: rest =>
    if hasPrefix leaf templatesPathPrefix && leaf != templatesPathPrefix then
      removeFirst templatesPathPrefix leaf :: treeTemplates rest
    else treeTemplates rest

/-- `Loader.List`, loader/loader.go:71-92. -/
def Net.list (n : Net) : Act (List Str) := do
  let body ← n.get urlTree
  match n.tree body with
  | none => Act.fail .badJson
  | some leaves => pure (treeTemplates leaves)

end Gowrap

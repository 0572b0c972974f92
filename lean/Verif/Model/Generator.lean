import Verif.Model.Types
/-!
# Model of generator/generator.go: method discovery and `NewGenerator`

Go map iteration is nondeterministic.  Every range over a map is given by a schedule (`Sched`) which may
reorder the map differently on every visit: a visit is identified by its call path.  The functions call
each other recursively and need not terminate; they take a bound `fuel` on the depth of the recursion and
return `diverge` when it is exhausted, so that "does not terminate" means "`diverge` for every bound".
-/

namespace Gowrap

/-- A `*packages.Package`. -/
abbrev PkgId := Nat

/-- The fields of `packages.Package` that are read: `Name`, `PkgPath`, `Imports` (a map from import path
to package, here as a list of pairs). -/
structure PkgInfo where
  name : Str
  path : Str
  imports : List (Str × PkgId)

/-- Everything outside gowrap that method discovery depends on. -/
structure World where
  uni : Uni
  /-- go/printer -/
  raw : Expr → Str
  pkg : PkgId → PkgInfo
  /-- the files `pkg.AST` (pkg/package.go:39-56) finds for a package; the `Files` map as a list -/
  files : PkgId → Res (List File)
  /-- `pkg.Load`, pkg/package.go:20-37 -/
  load : Str → Res PkgId
  /-- `filepath.Dir` -/
  dir : Str → Str
  /-- `filepath.Base` -/
  base : Str → Str
  /-- `cases.Title(language.Und, cases.NoLower).String` -/
  title : Str → Str

/-- `methodsList`, generator/generator.go:137, as a list of key/value pairs with distinct keys.  The order
of the list is immaterial: no function below depends on it except through a schedule. -/
abbrev Methods := List (Str × Method)

/-- Iteration orders of Go maps, for each visit (call path). -/
structure Sched where
  files : List Nat → List File → List File
  imports : List Nat → List (Str × PkgId) → List (Str × PkgId)
  methods : List Nat → Methods → Methods

/-- The schedule reorders and does nothing else. -/
structure Sched.Fair (s : Sched) : Prop where
  files : ∀ path l, (s.files path l).Perm l
  imports : ∀ path l, (s.imports path l).Perm l
  methods : ∀ path l, (s.methods path l).Perm l

/-- `m[name] = method` -/
def upsert (name : Str) (m : Method) : Methods → Methods
  | [] => [(name, m)]
  | (n, x) :: rest => if n = name then (n, m) :: rest else (n, x) :: upsert name m rest

/-- `for name, signature := range from { result[name] = signature }` -/
def upsertAll (result : Methods) (src : Methods) : Methods :=
  src.foldl (fun r p => upsert p.1 p.2 r) result

/-- `mergeMethods`, generator/generator.go:617-634; `none` is a nil map. -/
def mergeMethods : Option Methods → Option Methods → Option Methods
  | some methods, some embedded => some (upsertAll (upsertAll [] embedded) methods)
  | methods, _ => methods

/-- `typeSpecs`, generator/generator.go:454-468. -/
def typeSpecs (f : File) : List TypeSpec :=
  f.decls.flatMap fun d => match d with
    | .types specs => specs
    | .other => []

/-- State of the loops of `iterateFiles`, generator/generator.go:438-452. -/
structure Found where
  selected : Option (TypeSpec × File) := none
  types : List TypeSpec := []

/-- The inner loop of `iterateFiles`, generator/generator.go:441-448. -/
def iterateSpecs (name : Str) (f : File) : Found → List TypeSpec → Found
  | st, [] => st
  | st, ts :: rest =>
    iterateSpecs name f
      { types := st.types ++ [ts], selected := if ts.name = name then some (ts, f) else st.selected } rest

/-- `iterateFiles`, generator/generator.go:438-452, over the files in iteration order.  The selected type
is returned together with its file (whose imports it returns in Go). -/
def iterateFiles (name : Str) (files : List File) : Found :=
  files.foldl (fun st f => iterateSpecs name f st (typeSpecs f)) {}

/-- `strings.Trim(s, "\"")` -/
def trimQuotes (s : Str) : Str := ((s.dropWhile (· = '"')).reverse.dropWhile (· = '"')).reverse

/-- `cleanPath[strings.LastIndex(cleanPath, "/")+1:]`, generator/generator.go:429-430. -/
def lastSegment (s : Str) : Str := (s.reverse.takeWhile (· ≠ '/')).reverse

/-- `findSourcePackage`, generator/generator.go:418-436. -/
def findSourcePackage (ident : Str) : List ImportSpec → Str
  | [] => []
  | imp :: rest =>
    let cleanPath := trimQuotes imp.path
    match imp.name with
    | some n => if ident = n then cleanPath else findSourcePackage ident rest
    | none => if ident = lastSegment cleanPath then cleanPath else findSourcePackage ident rest

/-- `unquote`, generator/generator.go:684-694. -/
def unquote (s : Str) : Res Str :=
  match s with
  | [] => .panic
  | c :: r =>
    let s := if c = '"' then r else c :: r
    match s.getLast? with
    | none => .panic
    | some l => .ok (if l = '"' then s.dropLast else s)

/-- `findImportPathForName`, generator/generator.go:668-682; `pkgImports` is `currentPackage.Imports` in
iteration order. -/
def findImportPathForName (w : World) (name : Str) (imports : List ImportSpec) (pkgImports : List (Str × PkgId)) :
    Res Str :=
  match imports.find? (fun i => i.name = some name) with
  | some i => unquote i.path
  | none =>
    match pkgImports.find? (fun p => (w.pkg p.2).name = name) with
    | some p => .ok p.1
    | none => .err (.unknownSelector name)

/-- `targetProcessInput`, generator/generator.go:139-153, without the file set and with `currentPackage`
and `astPackage.Name`; `file` are the type specs of the file that declares the selected type, among which
the parser resolves `Ident.Obj` (generator/generator.go:381-387). -/
structure Input where
  cur : PkgId
  types : List TypeSpec
  pref : Str
  imports : List ImportSpec
  file : List TypeSpec
  genericTypes : List GType
  genericParams : List GParam

/-- `processOutput`, generator/generator.go:155-159. -/
structure Output where
  genericTypes : List GType
  methods : Option Methods
  imports : List ImportSpec

/-- The environment in which `processInterface` prints, generator/generator.go:554-564. -/
def Input.sigEnv (w : World) (i : Input) : SigEnv :=
  ⟨⟨w.uni, w.raw, i.types.map (·.name), i.pref⟩, i.genericTypes, i.genericParams⟩

/-- The first type of that name, the loop of `processIdent`, generator/generator.go:639-660: `ok none`
leaves `embeddedInterface` nil. -/
def findEmbedded (types : List TypeSpec) (name : Str) (checkInterface : Bool) :
    Res (Option (TypeSpec × List Field)) :=
  match types.find? (fun t => t.name = name) with
  | none => .ok none
  | some t =>
    match t.type with
    | .ifaceT ms => .ok (some (t, ms))
    | _ => if checkInterface then .err (.notAnInterface t.name) else .ok none

/-- `if genericParam.Name != "" { genericParams = append(...) }`, generator/generator.go:506-508, 525-527. -/
def appendParam (ps : List GParam) (p : GParam) : List GParam := if p.name ≠ [] then ps ++ [p] else ps

mutual
/-- `findTarget`, generator/generator.go:344-364; the package's files are visited in the order of the
schedule. -/
def findTarget (w : World) (s : Sched) : Nat → List Nat → PkgId → (astName : Str) → (files : List File) →
    (target : Str) → List GParam → Res Output
  | 0, _, _, _, _, _, _ => .diverge
  | fuel + 1, path, cur, astName, files, target, gps =>
    let found := iterateFiles target (s.files path files)
    match found.selected with
    | none => .err (.targetNotFound target)
    | some (ts, f) => do
      let gts ← buildGenericTypesFromSpec ts (found.types.map (·.name)) astName
      let methods ← findMethods w s fuel (0 :: path) ts
        { cur := cur, types := found.types, pref := astName, imports := f.imports, file := typeSpecs f,
          genericTypes := gts, genericParams := gps }
      return { genericTypes := gts, methods := methods, imports := f.imports }

/-- `findMethods`, generator/generator.go:366-391.  A nil result without error is `ok none`. -/
def findMethods (w : World) (s : Sched) : Nat → List Nat → TypeSpec → Input → Res (Option Methods)
  | 0, _, _, _ => .diverge
  | fuel + 1, path, ts, input =>
    match ts.type with
    | .ifaceT ms => processInterface w s fuel (0 :: path) ms input
    | .selector x sel =>
      match x with
      | .ident a => getMethods w s fuel (0 :: path) sel (findSourcePackage a input.imports)
      | _ => .ok none
    | .ident n =>
      match input.file.find? (fun t => t.name = n) with
      | some ts' => findMethods w s fuel (0 :: path) ts' input
      | none => .ok none
    | _ => .ok none

/-- `getMethods`, generator/generator.go:393-416. -/
def getMethods (w : World) (s : Sched) : Nat → List Nat → (sel : Str) → (srcPackagePath : Str) → Res (Option Methods)
  | 0, _, _, _ => .diverge
  | fuel + 1, path, sel, srcPackagePath => do
    let p ← w.load srcPackagePath
    let files ← w.files p
    let out ← findTarget w s fuel (0 :: path) p (w.pkg p).name files sel []
    return out.methods

/-- `processInterface`, generator/generator.go:547-585 (`it.Methods` is never nil in a parsed file). -/
def processInterface (w : World) (s : Sched) : Nat → List Nat → List Field → Input → Res (Option Methods)
  | 0, _, _, _ => .diverge
  | fuel + 1, path, ms, input => processFields w s fuel (0 :: path) ms input []

/-- The loop of `processInterface`, generator/generator.go:556-582, from the methods found so far. -/
def processFields (w : World) (s : Sched) : Nat → List Nat → List Field → Input → Methods → Res (Option Methods)
  | 0, _, _, _, _ => .diverge
  | _ + 1, _, [], _, methods => .ok (some methods)
  | fuel + 1, path, field :: rest, input, methods =>
    match field.type with
    | .funcT _ _ =>
      match field.names with
      | [] => .panic
      | name :: _ => do
        let method ← newMethod (input.sigEnv w) name field
        processFields w s fuel (1 :: path) rest input (upsert name method methods)
    | _ => do
      let (_, embedded) ← processEmbedded w s fuel (0 :: path) field.type input true
      processFields w s fuel (1 :: path) rest input ((mergeMethods (some methods) embedded).getD [])

/-- `processEmbedded`, generator/generator.go:488-545. -/
def processEmbedded (w : World) (s : Sched) : Nat → List Nat → Expr → Input → (checkInterface : Bool) →
    Res (GParam × Option Methods)
  | 0, _, _, _, _ => .diverge
  | fuel + 1, path, t, input, checkInterface =>
    match t with
    | .index x idx => do
      let gps ← processArgs w s fuel (1 :: path) [idx] input []
      let (p, ms) ← getEmbeddedMethods w s fuel (0 :: path) x { input with genericParams := gps } checkInterface
      return (.mk p.name gps, ms)
    | .indexList x indices => do
      let gps ← processArgs w s fuel (1 :: path) indices input []
      let (p, ms) ← getEmbeddedMethods w s fuel (0 :: path) x { input with genericParams := gps } checkInterface
      return (.mk p.name gps, ms)
    | x => getEmbeddedMethods w s fuel (0 :: path) x { input with genericParams := [] } checkInterface

/-- The type arguments, generator/generator.go:502-508 and 514-529. -/
def processArgs (w : World) (s : Sched) : Nat → List Nat → List Expr → Input → List GParam → Res (List GParam)
  | 0, _, _, _, _ => .diverge
  | _ + 1, _, [], _, gps => .ok gps
  | fuel + 1, path, e :: es, input, gps => do
    let (p, _) ← processEmbedded w s fuel (0 :: path) e input false
    processArgs w s fuel (1 :: path) es input (appendParam gps p)

/-- `getEmbeddedMethods`, generator/generator.go:470-486. -/
def getEmbeddedMethods (w : World) (s : Sched) : Nat → List Nat → Expr → Input → (checkInterface : Bool) →
    Res (GParam × Option Methods)
  | 0, _, _, _, _ => .diverge
  | fuel + 1, path, t, input, checkInterface => do
    let name ← printType (input.sigEnv w).print t
    match t with
    | .selector x sel =>
      let ms ← processSelector w s fuel (0 :: path) x sel input
      return (.mk name [], ms)
    | .ident n =>
      let ms ← processIdent w s fuel (0 :: path) n input checkInterface
      return (.mk name [], ms)
    | _ => return (.mk name [], none)

/-- `processSelector`, generator/generator.go:587-615.  The type assertion at line 589 panics when the
qualifier is not an identifier. -/
def processSelector (w : World) (s : Sched) : Nat → List Nat → Expr → (sel : Str) → Input → Res (Option Methods)
  | 0, _, _, _, _ => .diverge
  | fuel + 1, path, x, sel, input =>
    match x with
    | .ident a => do
      let importPath ← findImportPathForName w a input.imports (s.imports path (w.pkg input.cur).imports)
      match (w.pkg input.cur).imports.lookup importPath with
      | none => .err (.packageNotFound a)
      | some p => do
        let files ← w.files p
        let out ← findTarget w s fuel (0 :: path) p (w.pkg p).name files sel input.genericParams
        return out.methods
    | _ => .panic

/-- `processIdent`, generator/generator.go:638-664. -/
def processIdent (w : World) (s : Sched) : Nat → List Nat → (name : Str) → Input → (checkInterface : Bool) →
    Res (Option Methods)
  | 0, _, _, _, _ => .diverge
  | fuel + 1, path, name, input, checkInterface => do
    match ← findEmbedded input.types name checkInterface with
    | none => return none
    | some (t, ms) =>
      let gts ← buildGenericTypesFromSpec t (input.types.map (·.name)) input.pref
      processInterface w s fuel (0 :: path) ms { input with genericTypes := gts }
end

/-! ### NewGenerator -/

/-- The fields of `Options` (generator/generator.go:97-135) used in `NewGenerator`. -/
structure Options where
  interfaceName : Str
  imports : List Str := []
  sourcePackage : Str := []
  /-- `SourcePackageInstance` -/
  sourceInstance : Option PkgId := none
  sourcePackageAlias : Str := []
  outputFile : Str := []

/-- The fields of `Generator` (generator/generator.go:25-37) that do not just copy an option. -/
structure Generator where
  imports : List Str
  srcPackage : PkgId
  /-- name and import path of the destination package -/
  dstName : Str
  dstPath : Str
  interfaceType : Str
  genericTypes : Str
  genericParams : Str
  methods : Methods

/-- `makeImports`, generator/generator.go:265-276. -/
def makeImports (imports : List ImportSpec) : List Str :=
  imports.map fun im => (im.name.getD []) ++ g!" " ++ im.path

/-- `makePackage`, generator/generator.go:290-299: a package with a name only. -/
def makePackage (w : World) (path : Str) : Res (Str × Str) :=
  if w.base path = g!"/" ∨ w.base path = g!"." then .err .noPackageName else .ok (w.base path, [])

/-- `loadDestinationPackage`, generator/generator.go:278-286: name and import path. -/
def loadDestinationPackage (w : World) (path : Str) : Res (Str × Str) :=
  match w.load path with
  | .ok p => .ok ((w.pkg p).name, (w.pkg p).path)
  | .err _ => makePackage w path
  | .panic => .panic
  | .diverge => .diverge

/-- `filepath.Dir(options.OutputFile)` made relative, generator/generator.go:197-200. -/
def dstPackagePath (w : World) (outputFile : Str) : Str :=
  let d := w.dir outputFile
  if hasPrefix d g!"/" || hasPrefix d g!"./" then d else g!"./" ++ d

/-- generator/generator.go:186-195. -/
def loadSource (w : World) (o : Options) : Res PkgId :=
  match o.sourceInstance with
  | some p => .ok p
  | none => w.load o.sourcePackage

/-- `srcPackageAST.Name` after generator/generator.go:212-225. -/
def sourceSelector (w : World) (o : Options) (src : PkgId) (dstPath : Str) : Str :=
  if (w.pkg src).path = dstPath then []
  else if o.sourcePackageAlias ≠ [] then o.sourcePackageAlias
  else g!"_source" ++ w.title (w.pkg src).name

/-- `interfaceType` and the imports after generator/generator.go:212-225. -/
def interfaceTypeOf (w : World) (o : Options) (src : PkgId) (dstPath : Str) : Str × List Str :=
  if (w.pkg src).path = dstPath then (o.interfaceName, o.imports)
  else
    let selector := sourceSelector w o src dstPath
    (selector ++ g!"." ++ o.interfaceName, o.imports ++ [selector ++ g!" \"" ++ (w.pkg src).path ++ g!"\""])

/-- The loop generator/generator.go:241-245 over the methods in iteration order. -/
def checkExported (w : World) (selector : Str) : Methods → Res Unit
  | [] => .ok ()
  | (_, m) :: rest =>
    if selector ≠ [] then
      match w.uni.looksUnexported m.name with
      | none => .panic
      | some true => .err (.unexportedMethod m.name)
      | some false => checkExported w selector rest
    else checkExported w selector rest

/-- `NewGenerator`, generator/generator.go:164-263, after the two templates have been parsed. -/
def newGenerator (w : World) (s : Sched) (fuel : Nat) (o : Options) : Res Generator := do
  let src ← loadSource w o
  let (dstName, dstPath) ← loadDestinationPackage w (dstPackagePath w o.outputFile)
  let files ← w.files src
  let selector := sourceSelector w o src dstPath
  let (interfaceType, imports) := interfaceTypeOf w o src dstPath
  let output ← findTarget w s fuel [] src selector files o.interfaceName []
  let methods := output.methods.getD []
  if methods = [] then .err .emptyInterface
  else do
    checkExported w selector (s.methods [] methods)
    let (genericTypes, genericParams) := buildVars output.genericTypes
    return { imports := imports ++ makeImports output.imports, srcPackage := src, dstName := dstName,
             dstPath := dstPath, interfaceType := interfaceType, genericTypes := genericTypes,
             genericParams := genericParams, methods := methods }

end Gowrap

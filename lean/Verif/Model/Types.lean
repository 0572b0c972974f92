import Verif.Model.Printer
import Verif.Model.Generics
/-!
# Model of generator/types.go
-/

namespace Gowrap

/-- `Param`, generator/types.go:26-32. -/
structure Param where
  doc : List Str
  comment : List Str
  name : Str
  type : Str
  variadic : Bool
  deriving DecidableEq, Repr

/-- `Method`, generator/types.go:14-23. -/
structure Method where
  doc : List Str
  comment : List Str
  name : Str
  params : List Param
  results : List Param
  returnsError : Bool
  acceptsContext : Bool
  deriving DecidableEq, Repr

/-- `strings.ToLower(t.Name[0:1])`, generator/types.go:215.  `Name[0:1]` is the first *byte*: for an
ASCII first letter it is that letter; otherwise it is an incomplete UTF-8 sequence which
`strings.ToLower` turns into U+FFFD.  On an empty name the slice expression panics. -/
def lowerFirstByte (u : Uni) : Str → Res Str
  | [] => .panic
  | c :: _ => if c.val < 128 then .ok [u.toLower c] else .ok ['�']

/-- `typePrefix`, generator/types.go:196-219. -/
def typePrefix (u : Uni) : Expr → Res Str
  | .selector _ sel => lowerFirstByte u sel
  | .star x => do return (← typePrefix u x) ++ g!"p"
  | .sliceExpr x => do return (← typePrefix u x) ++ g!"s"
  | .array _ elt => do return (← typePrefix u elt) ++ g!"a"
  | .mapT _ _ => .ok g!"m"
  | .chanT _ _ => .ok g!"ch"
  | .structT _ => .ok g!"st"
  | .funcT _ _ => .ok g!"f"
  | .ident name => lowerFirstByte u name
  | _ => .ok g!"p"

/-- The recursion of `genName`, generator/types.go:221-228, with a bound on its depth.  `usedNames` (a
`map[string]bool` holding only `true`) is the list of its keys.  `none` means that the bound was too
small; `Props.C06` shows that this never happens with the bound used in `genName`. -/
def genNameBounded (pre : Str) (used : List Str) : Nat → Nat → Option Str
  | 0, _ => none
  | fuel + 1, n =>
    let name := pre ++ natDec n
    if used.contains name then genNameBounded pre used fuel (n + 1) else some name

/-- `genName`, generator/types.go:221-228. -/
def genName (pre : Str) (n : Nat) (used : List Str) : Res Str :=
  match genNameBounded pre used (used.length + 1) n with
  | some name => .ok name
  | none => .diverge

/-- Everything `NewMethod` and `NewParam` take besides the field: the type printer and the generic
types/params (generator/types.go:69, 129). -/
structure SigEnv where
  print : PrintEnv
  genericTypes : List GType
  genericParams : List GParam

/-- The name given to a parameter, generator/types.go:131-133: the source name unless it is missing or
already used. -/
def chooseName (u : Uni) (name : Str) (typ : Expr) (used : List Str) : Res Str :=
  if name = [] ∨ used.contains name then do
    let pre ← typePrefix u typ
    genName pre 1 used
  else .ok name

/-- `_, variadic := typ.(*ast.Ellipsis)`, generator/types.go:144. -/
def isEllipsis : Expr → Bool
  | .ellipsis _ => true
  | _ => false

/-- `NewParam`, generator/types.go:129-165: the parameter and the updated set of used names. -/
def newParam (env : SigEnv) (name : Str) (fi : Field) (used : List Str) : Res (Param × List Str) := do
  let name ← chooseName env.print.uni name fi.type used
  let used := name :: used
  let typeStr ← printType env.print fi.type
  let typeStr := buildGenericParamsString typeStr env.genericTypes env.genericParams
  return ({ doc := fi.doc, comment := fi.comment, name := name, type := typeStr,
            variadic := isEllipsis fi.type }, used)

/-- The inner loop of `makeParams` over the names of one field, generator/types.go:183-189. -/
def makeNames (env : SigEnv) (fi : Field) : List Str → List Str → Res (List Param × List Str)
  | [], used => .ok ([], used)
  | n :: ns, used => do
    let (p, used) ← newParam env n fi used
    let (ps, used) ← makeNames env fi ns used
    return (p :: ps, used)

/-- The body of the loop of `makeParams`, generator/types.go:176-190: the parameters of one field; an
anonymous field gives one parameter. -/
def makeField (env : SigEnv) (f : Field) (used : List Str) : Res (List Param × List Str) :=
  if f.names = [] then makeNames env f [[]] used
  else makeNames env f f.names used

/-- `makeParams`, generator/types.go:167-194, on a non-nil field list. -/
def makeParams (env : SigEnv) : List Field → List Str → Res (List Param × List Str)
  | [], used => .ok ([], used)
  | f :: fs, used => do
    let (here, used) ← makeField env f used
    let (rest, used) ← makeParams env fs used
    return (here ++ rest, used)

/-- `makeParams`, generator/types.go:168-170, on a possibly nil field list. -/
def makeResults (env : SigEnv) : Option (List Field) → List Str → Res (List Param × List Str)
  | none, used => .ok ([], used)
  | some fs, used => makeParams env fs used

/-- `m.Results[len(m.Results)-1].Name = name`, generator/types.go:118 (panics on an empty slice). -/
def renameLast (name : Str) : List Param → Res (List Param)
  | [] => .panic
  | [p] => .ok [{ p with name := name }]
  | p :: q :: ps => do return p :: (← renameLast name (q :: ps))

/-- `m.Params[0].Name = name`, generator/types.go:122 (panics on an empty slice). -/
def renameFirst (name : Str) : List Param → Res (List Param)
  | [] => .panic
  | p :: ps => .ok ({ p with name := name } :: ps)

/-- Is the expression `*ast.Ident` with `Name == "error"`?  generator/types.go:94-95 -/
def isErrorIdent : Expr → Bool
  | .ident n => n = g!"error"
  | _ => false

/-- generator/types.go:92-97: `ReturnsError` and the names reserved for it.  Indexing the last element
of an empty non-nil list panics. -/
def scanResults : Option (List Field) → Res (Bool × List Str)
  | none => .ok (false, [])
  | some rs =>
    match rs.getLast? with
    | none => .panic
    | some last => .ok (isErrorIdent last.type, [g!"err"])

/-- generator/types.go:99-104: `AcceptsContext` and the names reserved for it. -/
def scanParams : List Field → Bool × List Str
  | [] => (false, [])
  | f :: _ =>
    match f.type with
    | .selector _ sel => (sel = g!"Context", [g!"ctx"])
    | _ => (false, [])

/-- generator/types.go:117-119. -/
def nameError (returnsError : Bool) (rs : List Param) : Res (List Param) :=
  if returnsError then renameLast g!"err" rs else .ok rs

/-- generator/types.go:121-123. -/
def nameContext (acceptsContext : Bool) (ps : List Param) : Res (List Param) :=
  if acceptsContext then renameFirst g!"ctx" ps else .ok ps

/-- `NewMethod`, generator/types.go:69-126. -/
def newMethod (env : SigEnv) (name : Str) (fi : Field) : Res Method :=
  match fi.type with
  | .funcT params results => do
    let (returnsError, used1) ← scanResults results
    let (acceptsContext, used2) := scanParams params
    let (ps, used) ← makeParams env params (used2 ++ used1)
    let (rs, _) ← makeResults env results used
    let rs ← nameError returnsError rs
    let ps ← nameContext acceptsContext ps
    return { doc := fi.doc, comment := fi.comment, name := name, params := ps, results := rs,
             returnsError := returnsError, acceptsContext := acceptsContext }
  | _ => .err (.notAMethod name)

/-! ### String renderings, generator/types.go:37-66 and 230-369 -/

/-- `Param.Pass`, generator/types.go:61-66. -/
def Param.pass (p : Param) : Str := if p.variadic then p.name ++ g!"..." else p.name

/-- `ParamsSlice.String`, generator/types.go:38-45. -/
def paramsString (ps : List Param) : Str := join g!", " (ps.map fun p => p.name ++ g!" " ++ p.type)

/-- `ParamsSlice.Pass`, generator/types.go:50-57. -/
def paramsPass (ps : List Param) : Str := join g!", " (ps.map Param.pass)

/-- `Method.Call`, generator/types.go:231-238. -/
def Method.call (m : Method) : Str :=
  m.name ++ g!"(" ++ join g!", " (m.params.map Param.pass) ++ g!")"

/-- `Method.Pass`, generator/types.go:242-248. -/
def Method.pass (m : Method) (pre : Str) : Str :=
  if m.results.length > 0 then g!"return " ++ pre ++ m.call
  else pre ++ m.call ++ g!"\nreturn"

/-- `Method.ParamsNames`, generator/types.go:251-257. -/
def Method.paramsNames (m : Method) : Str := join g!", " (m.params.map (·.name))

/-- `Method.ResultsNames`, generator/types.go:260-266. -/
def Method.resultsNames (m : Method) : Str := join g!", " (m.results.map (·.name))

/-- `strings.Replace(s, old, new, 1)` for non-empty `old`. -/
def replaceFirst (old new : Str) : Str → Str
  | [] => []
  | c :: s =>
    if old.isPrefixOf (c :: s) then new ++ (c :: s).drop old.length
    else c :: replaceFirst old new s

/-- `Method.ParamsStruct`, generator/types.go:270-280. -/
def Method.paramsStruct (m : Method) : Str :=
  g!"struct{\n" ++ join g!"\n " (m.params.map fun p =>
    if p.variadic then p.name ++ g!" " ++ replaceFirst g!"..." g!"[]" p.type
    else p.name ++ g!" " ++ p.type) ++ g!"}"

/-- `Method.ParamPtrsStruct`, generator/types.go:284-294. -/
def Method.paramPtrsStruct (m : Method) : Str :=
  g!"struct{\n" ++ join g!"\n " (m.params.map fun p =>
    if p.variadic then p.name ++ g!" *" ++ replaceFirst g!"..." g!"[]" p.type
    else p.name ++ g!" *" ++ p.type) ++ g!"}"

/-- `Method.ResultsStruct`, generator/types.go:298-304. -/
def Method.resultsStruct (m : Method) : Str :=
  g!"struct{\n" ++ join g!"\n " (m.results.map fun r => r.name ++ g!" " ++ r.type) ++ g!"}"

/-- `Method.ParamsMap`, generator/types.go:308-314. -/
def Method.paramsMap (m : Method) : Str :=
  g!"map[string]interface{}{\n" ++
    join g!",\n " (m.params.map fun p => g!"\"" ++ p.name ++ g!"\": " ++ p.name) ++ g!"}"

/-- `Method.ResultsMap`, generator/types.go:318-324. -/
def Method.resultsMap (m : Method) : Str :=
  g!"map[string]interface{}{\n" ++
    join g!",\n " (m.results.map fun r => g!"\"" ++ r.name ++ g!"\": " ++ r.name) ++ g!"}"

/-- `Method.HasParams`, generator/types.go:327-329. -/
def Method.hasParams (m : Method) : Bool := m.params.length > 0

/-- `Method.HasResults`, generator/types.go:332-334. -/
def Method.hasResults (m : Method) : Bool := m.results.length > 0

/-- `Method.ReturnStruct`, generator/types.go:338-348. -/
def Method.returnStruct (m : Method) (structName : Str) : Str :=
  if m.results.length = 0 then g!"return"
  else g!"return " ++ join g!", " (m.results.map fun r => structName ++ g!"." ++ r.name)

/-- `Method.Signature`, generator/types.go:352-364. -/
def Method.signature (m : Method) : Str :=
  g!"(" ++ join g!", " (m.params.map fun p => p.name ++ g!" " ++ p.type) ++ g!") (" ++
    join g!", " (m.results.map fun r => r.name ++ g!" " ++ r.type) ++ g!")"

/-- `Method.Declaration`, generator/types.go:367-369. -/
def Method.declaration (m : Method) : Str := m.name ++ m.signature

end Gowrap

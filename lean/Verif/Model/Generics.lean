import Verif.Model.Ast
/-!
# Model of generator/generics.go
-/

namespace Gowrap

/-- `genericParam`, generator/generics.go:25-30 (`genericParams` is `List GParam`). -/
inductive GParam where
  | mk (name : Str) (params : List GParam)
  deriving Repr

def GParam.name : GParam → Str | .mk n _ => n
def GParam.params : GParam → List GParam | .mk _ ps => ps

mutual
/-- `genericParam.String`, generator/generics.go:32-42. -/
def GParam.string : GParam → Str
  | .mk name params =>
    let subParamNames := GParam.strings params
    if params.length > 0 then name ++ (g!"[" ++ join g!", " subParamNames ++ g!"]") else name
/-- the loop generator/generics.go:35-37 -/
def GParam.strings : List GParam → List Str
  | [] => []
  | p :: ps => p.string :: GParam.strings ps
end

/-- `genericType`, generator/generics.go:46-49 (`genericTypes` is `List GType`). -/
structure GType where
  type : Str
  names : List Str
  deriving DecidableEq, Repr

/-- `buildGenericsWithBrackets`, generator/generics.go:51-56. -/
def buildGenericsWithBrackets (t : Str) : Str :=
  if t ≠ [] then g!"[" ++ t ++ g!"]" else t

/-- State of the inner loop of `buildVars`, generator/generics.go:63-70. -/
structure VarsInner where
  paramsByType : Str := []
  paramsByTypeSep : Str := []
  params : Str
  paramsSep : Str

/-- Body of the inner loop of `buildVars`, generator/generics.go:66-69. -/
def varsName (st : VarsInner) (name : Str) : VarsInner :=
  { paramsByType := st.paramsByType ++ st.paramsByTypeSep ++ name
    params := st.params ++ st.paramsSep ++ name
    paramsSep := g!", "
    paramsByTypeSep := g!", " }

/-- State of the outer loop of `buildVars`, generator/generics.go:59-60. -/
structure VarsOuter where
  types : Str := []
  typesSep : Str := []
  params : Str := []
  paramsSep : Str := []

/-- Body of the outer loop of `buildVars`, generator/generics.go:62-76. -/
def varsType (st : VarsOuter) (g : GType) : VarsOuter :=
  let inner := g.names.foldl varsName { params := st.params, paramsSep := st.paramsSep }
  if inner.paramsByType ≠ [] then
    { types := st.types ++ st.typesSep ++ inner.paramsByType ++ g!" " ++ g.type
      typesSep := g!", "
      params := inner.params
      paramsSep := inner.paramsSep }
  else
    { st with params := inner.params, paramsSep := inner.paramsSep }

/-- `genericTypes.buildVars`, generator/generics.go:58-79: the pair (Types, Params). -/
def buildVars (g : List GType) : Str × Str :=
  let st := g.foldl varsType {}
  (buildGenericsWithBrackets st.types, buildGenericsWithBrackets st.params)

/-- `getPrefix`, generator/generics.go:139-152; `allTypes` is represented by the type names. -/
def getPrefix (name : Str) (allTypes : List Str) (typesPrefix : Str) : Str :=
  if typesPrefix = [] then []
  else if allTypes.contains name then typesPrefix ++ g!"." else []

/-- `parseGenericType`, generator/generics.go:119-137, with `parseBinaryExpr`,
generator/generics.go:108-117, inlined.  The unchecked type assertion at line 125 panics when the
qualifier of a selector is not an identifier. -/
def parseGenericType (allTypes : List Str) (typesPrefix : Str) : Expr → Res Str
  | .ident name => .ok (getPrefix name allTypes typesPrefix ++ name)
  | .selector x sel =>
    match x with
    | .ident name => .ok (name ++ g!"." ++ sel)
    | _ => .panic
  | .unary tilde x =>
    if tilde then
      match x with
      | .ident name => .ok (g!"~" ++ name)
      | _ => .ok []
    else .ok []
  | .binary isOr x y =>
    if isOr then do
      let leftPart ← parseGenericType allTypes typesPrefix x
      let rightPart ← parseGenericType allTypes typesPrefix y
      return leftPart ++ g!" | " ++ rightPart
    else .ok []
  | _ => .ok []

/-- The loop of `buildGenericTypesFromSpec`, generator/generics.go:86-103 (parsed field lists contain
no nil fields and no nil names). -/
def genericTypesFromFields (allTypes : List Str) (typesPrefix : Str) : List Field → Res (List GType)
  | [] => .ok []
  | param :: rest => do
    let typeIdentifier ← parseGenericType allTypes typesPrefix param.type
    let types ← genericTypesFromFields allTypes typesPrefix rest
    return { type := typeIdentifier, names := param.names } :: types

/-- `buildGenericTypesFromSpec`, generator/generics.go:81-106. -/
def buildGenericTypesFromSpec (ts : TypeSpec) (allTypes : List Str) (typesPrefix : Str) :
    Res (List GType) :=
  match ts.typeParams with
  | none => .ok []
  | some list => genericTypesFromFields allTypes typesPrefix list

/-- The loops of `buildGenericParamsString`, generator/generics.go:155-165, over the concatenation of
the name lists of all groups (the counter `i` is not reset between groups). -/
def genericParamsLoop (typeStr : Str) (genericParams : List GParam) (i : Nat) : List Str → Str
  | [] => typeStr
  | name :: rest =>
    if name = typeStr then
      match genericParams[i]? with
      | some p => p.string
      | none => genericParamsLoop typeStr genericParams (i + 1) rest
    else genericParamsLoop typeStr genericParams (i + 1) rest

/-- `buildGenericParamsString`, generator/generics.go:154-167. -/
def buildGenericParamsString (typeStr : Str) (genericTypes : List GType)
    (genericParams : List GParam) : Str :=
  genericParamsLoop typeStr genericParams 0 (genericTypes.flatMap (·.names))

end Gowrap

import Verif.Model.Ast
/-!
# Model of printer/printer.go
-/

namespace Gowrap

/-- `printer.Printer` (printer/printer.go:14-32) without its scratch buffer, which is modelled in
`Model/PrinterState.lean`.  Of `p.types` only the names are read (printer/printer.go:137-139).
`raw` is `go/printer.Fprint`, which is outside gowrap and does not fail on the nodes of a parsed file. -/
structure PrintEnv where
  uni : Uni
  raw : Expr → Str
  types : List Str
  pref : Str

/-- `(*Printer).printIdent`, printer/printer.go:136-156.  The loop over `p.types` returns at the first
type whose name is the identifier's.  An empty name would panic at line 144. -/
def printIdent (env : PrintEnv) (name : Str) : Res Str :=
  if env.types.contains name then
    if env.pref.length > 0 then
      match env.uni.looksUnexported name with
      | none => .panic
      | some true => .err (.unexportedType name)
      | some false => .ok (env.pref ++ g!"." ++ name)
    else .ok name
  else .ok (env.raw (.ident name))

/-- `chanTypes`, printer/printer.go:94-98. -/
def chanTypes : ChanDir → Str
  | .both => g!"chan "
  | .send => g!"chan<- "
  | .recv => g!"<-chan "

/-- `(*Printer).Print`, printer/printer.go:35-44, on a possibly nil node. -/
def printRaw (env : PrintEnv) : Option Expr → Str
  | none => []
  | some e => env.raw e

mutual
/-- `(*Printer).PrintType`, printer/printer.go:50-78, with the helper of each case inlined. -/
def printType (env : PrintEnv) : Expr → Res Str
  -- printFunc, printer/printer.go:109-120
  | .funcT params results => do
    let ps ← printFields env params
    let rs ← printResults env results
    return g!"func(" ++ join g!", " ps ++ g!") (" ++ join g!", " rs ++ g!")"
  -- printPointer, printer/printer.go:195-202
  | .star x => do
    let pointerTo ← printType env x
    return g!"*" ++ pointerTo
  -- printVariadicParam, printer/printer.go:213-220
  | .ellipsis elt => do
    let sliceType ← printType env elt
    return g!"..." ++ sliceType
  -- printChan, printer/printer.go:100-107
  | .chanT dir value => do
    let valueType ← printType env value
    return chanTypes dir ++ valueType
  -- printArray, printer/printer.go:80-92
  | .array len elt => do
    let sliceType ← printType env elt
    return g!"[" ++ printRaw env len ++ g!"]" ++ sliceType
  -- printMap, printer/printer.go:122-132
  | .mapT key value => do
    let keyType ← printType env key
    let valueType ← printType env value
    return g!"map[" ++ keyType ++ g!"]" ++ valueType
  -- printStruct, printer/printer.go:204-211
  | .structT fields => do
    let fs ← printFields env fields
    return g!"struct{\n" ++ join g!"\n" fs ++ g!"\n}"
  | .ident name => printIdent env name
  -- printGeneric, printer/printer.go:158-170
  | .index x idx => do
    let t ← printType env x
    let generic ← printType env idx
    return t ++ g!"[" ++ generic ++ g!"]"
  -- printGenericList, printer/printer.go:172-193
  | .indexList x indices => do
    let t ← printType env x
    printIndices env (t ++ g!"[") indices
  -- printer/printer.go:76-77
  | .selector x sel => .ok (env.raw (.selector x sel))
  | .sliceExpr x => .ok (env.raw (.sliceExpr x))
  | .ifaceT ms => .ok (env.raw (.ifaceT ms))
  | .paren x => .ok (env.raw (.paren x))
  | .lit t => .ok (env.raw (.lit t))
  | .unary o x => .ok (env.raw (.unary o x))
  | .binary o x y => .ok (env.raw (.binary o x y))
  | .other t => .ok (env.raw (.other t))

/-- The loop of `printGenericList`, printer/printer.go:179-190, from a given accumulator. -/
def printIndices (env : PrintEnv) (baseStr : Str) : List Expr → Res Str
  | [] => .ok baseStr
  | e :: es => do
    let generic ← printType env e
    if es.isEmpty then
      printIndices env (baseStr ++ generic ++ g!"]") es
    else
      printIndices env (baseStr ++ generic ++ g!", ") es

/-- One iteration of `(*Printer).fieldList`, printer/printer.go:230-240. -/
def printField (env : PrintEnv) : Field → Res Str
  | .mk _ _ names type _ => do
    let paramType ← printType env type
    return join g!", " names ++ g!" " ++ paramType

/-- `(*Printer).fieldList`, printer/printer.go:222-244, on a non-nil list. -/
def printFields (env : PrintEnv) : List Field → Res (List Str)
  | [] => .ok []
  | f :: fs => do
    let s ← printField env f
    let rest ← printFields env fs
    return s :: rest

/-- `(*Printer).fieldList`, printer/printer.go:222-225, on a possibly nil list. -/
def printResults (env : PrintEnv) : Option (List Field) → Res (List Str)
  | none => .ok []
  | some fs => printFields env fs
end

end Gowrap

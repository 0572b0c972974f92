import Verif.Model.GoStr
/-!
# The part of go/ast that gowrap looks at

Positions, and everything that is never inspected by gowrap, are dropped.
-/

namespace Gowrap

/-- `ast.ChanDir`; the Go parser produces exactly these three values (printer/printer.go:94-98). -/
inductive ChanDir where
  | both | send | recv
  deriving DecidableEq, Repr

mutual
/-- `ast.Expr`, the node kinds distinguished in printer/printer.go:53-74,
generator/types.go:197-216, generator/generics.go:119-134 and
generator/generator.go:367-388, 476-484, 493-532.  All remaining kinds are `other`.
Identifiers carry their name only: `Ident.Obj` (used in generator/generator.go:382-385) is the
declaration of the name in the same file and is looked up there by the model. -/
inductive Expr where
  /-- `*ast.Ident` -/
  | ident (name : Str)
  /-- `*ast.SelectorExpr` -/
  | selector (x : Expr) (sel : Str)
  /-- `*ast.StarExpr` -/
  | star (x : Expr)
  /-- `*ast.SliceExpr` -/
  | sliceExpr (x : Expr)
  /-- `*ast.Ellipsis` -/
  | ellipsis (elt : Expr)
  /-- `*ast.ArrayType`; `len = none` for a slice type -/
  | array (len : Option Expr) (elt : Expr)
  /-- `*ast.MapType` -/
  | mapT (key value : Expr)
  /-- `*ast.ChanType` -/
  | chanT (dir : ChanDir) (value : Expr)
  /-- `*ast.FuncType`; `results = none` is a nil `Results` field list -/
  | funcT (params : List Field) (results : Option (List Field))
  /-- `*ast.StructType` -/
  | structT (fields : List Field)
  /-- `*ast.InterfaceType` -/
  | ifaceT (methods : List Field)
  /-- `*ast.IndexExpr` -/
  | index (x idx : Expr)
  /-- `*ast.IndexListExpr` -/
  | indexList (x : Expr) (indices : List Expr)
  /-- `*ast.ParenExpr` -/
  | paren (x : Expr)
  /-- `*ast.BasicLit` -/
  | lit (text : Str)
  /-- `*ast.UnaryExpr`; `tilde` says whether the operator is `~` -/
  | unary (tilde : Bool) (x : Expr)
  /-- `*ast.BinaryExpr`; `isOr` says whether the operator is `|` -/
  | binary (isOr : Bool) (x y : Expr)
  /-- any other node -/
  | other (text : Str)
  deriving Repr

/-- `ast.Field`; `names = []` is `Names == nil` (the Go parser never produces an empty non-nil
list), `doc`/`comment` are the comment texts (`[]` for a nil comment group), `tag` is the struct tag. -/
inductive Field where
  | mk (doc comment : List Str) (names : List Str) (type : Expr) (tag : Option Str)
  deriving Repr
end

instance : Inhabited Expr := ⟨.other []⟩

/-- `Field.Doc.List` texts -/
def Field.doc : Field → List Str | .mk d _ _ _ _ => d
/-- `Field.Comment.List` texts -/
def Field.comment : Field → List Str | .mk _ c _ _ _ => c
/-- `Field.Names` -/
def Field.names : Field → List Str | .mk _ _ n _ _ => n
/-- `Field.Type` -/
def Field.type : Field → Expr | .mk _ _ _ t _ => t

/-- `ast.TypeSpec`; `typeParams = none` is nil. -/
structure TypeSpec where
  name : Str
  typeParams : Option (List Field)
  type : Expr
  deriving Repr

/-- `ast.ImportSpec`; `path` is `Path.Value`, i.e. the string literal with its quotes. -/
structure ImportSpec where
  name : Option Str
  path : Str
  deriving DecidableEq, Repr

/-- `ast.Decl`: a `GenDecl` with token `type` carries type specs; everything else is irrelevant. -/
inductive Decl where
  | types (specs : List TypeSpec)
  | other
  deriving Repr

/-- `ast.File` -/
structure File where
  imports : List ImportSpec
  decls : List Decl
  deriving Repr

end Gowrap

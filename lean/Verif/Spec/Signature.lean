import Verif.Model.Ast
/-!
# Specification vocabulary for method signatures

Nothing here refers to the model functions; only to the AST.
-/

namespace Gowrap.Spec

open Gowrap

/-- The variables declared by a parameter (or result) list, in source order, each with the name the
source gives it (`none` if it is anonymous) and the field it comes from:
`(a, b int, c string)` declares `a`, `b`, `c`; `(int, string)` declares two anonymous ones. -/
def declared (fs : List Field) : List (Option Str × Field) :=
  fs.flatMap fun f => if f.names.isEmpty then [(none, f)] else f.names.map fun n => (some n, f)

/-- A nil result list declares nothing. -/
def declaredOpt (fs : Option (List Field)) : List (Option Str × Field) := declared (fs.getD [])

/-- Is this the type of a variadic parameter? -/
def IsVariadic (e : Expr) : Prop := ∃ elt, e = .ellipsis elt

/-- The predeclared identifier `error` used as a type. -/
def IsErrorType (e : Expr) : Prop := e = .ident g!"error"

/-- The type of the last result is `error`. -/
def LastResultIsError (results : Option (List Field)) : Prop :=
  ∃ fs f, results = some fs ∧ fs.getLast? = some f ∧ IsErrorType f.type

/-- The type of the first parameter is `pkg.Context` for some qualifier `pkg`. -/
def FirstParamIsDotContext (params : List Field) : Prop :=
  ∃ f fs x, params = f :: fs ∧ f.type = .selector x g!"Context"

/-- The type of the first parameter is `context.Context` (the package being imported under its own
name). -/
def FirstParamIsContext (params : List Field) : Prop :=
  ∃ f fs, params = f :: fs ∧ f.type = .selector (.ident g!"context") g!"Context"

/-- A decimal digit. -/
def IsDigit (c : Char) : Prop := c.isDigit = true

mutual
/-- The shape of type expressions guaranteed by the Go parser, as far as it matters for run-time
panics: identifiers (also in selectors) are not empty. -/
def NonEmptyIdents : Expr → Prop
  | .ident n => n ≠ []
  | .selector x s => NonEmptyIdents x ∧ s ≠ []
  | .star x => NonEmptyIdents x
  | .sliceExpr x => NonEmptyIdents x
  | .ellipsis x => NonEmptyIdents x
  | .array _ x => NonEmptyIdents x
  | .mapT k v => NonEmptyIdents k ∧ NonEmptyIdents v
  | .chanT _ v => NonEmptyIdents v
  | .funcT ps rs => NonEmptyIdentsFields ps ∧ NonEmptyIdentsOpt rs
  | .structT fs => NonEmptyIdentsFields fs
  | .ifaceT fs => NonEmptyIdentsFields fs
  | .index x i => NonEmptyIdents x ∧ NonEmptyIdents i
  | .indexList x is => NonEmptyIdents x ∧ NonEmptyIdentsList is
  | .paren x => NonEmptyIdents x
  | .lit _ => True
  | .unary _ x => NonEmptyIdents x
  | .binary _ x y => NonEmptyIdents x ∧ NonEmptyIdents y
  | .other _ => True
def NonEmptyIdentsField : Field → Prop
  | .mk _ _ _ t _ => NonEmptyIdents t
def NonEmptyIdentsFields : List Field → Prop
  | [] => True
  | f :: fs => NonEmptyIdentsField f ∧ NonEmptyIdentsFields fs
def NonEmptyIdentsOpt : Option (List Field) → Prop
  | none => True
  | some fs => NonEmptyIdentsFields fs
def NonEmptyIdentsList : List Expr → Prop
  | [] => True
  | e :: es => NonEmptyIdents e ∧ NonEmptyIdentsList es
end

/-- Names the templates give a meaning to, hence reserved by the generator: `err` as soon as there is a
result list, `ctx` as soon as the first parameter has a qualified type. -/
def reservedNames (params : List Field) (results : Option (List Field)) : List Str :=
  (if results.isSome then [g!"err"] else []) ++
    (match params with
     | f :: _ => (match f.type with | .selector _ _ => [g!"ctx"] | _ => [])
     | [] => [])

/-- Replace the first element. -/
def setHead (x : Str) : List Str → List Str
  | [] => []
  | _ :: t => x :: t

/-- Replace the last element. -/
def setLast (x : Str) (l : List Str) : List Str :=
  match l with
  | [] => []
  | _ => l.dropLast ++ [x]

/-- The named type at the core of a type built with pointers, slices, arrays and package selectors. -/
def coreName : Expr → Option Str
  | .ident n => some n
  | .selector _ s => some s
  | .star x => coreName x
  | .sliceExpr x => coreName x
  | .array _ x => coreName x
  | _ => none

/-- ASCII letters and underscore. -/
def AsciiLetter (c : Char) : Prop := c.isAlpha = true ∨ c = '_'

/-- A Go identifier over a given notion of letter (which includes the underscore). -/
def IsIdentifier (letter : Char → Prop) : Str → Prop
  | [] => False
  | c :: cs => letter c ∧ ∀ d ∈ cs, letter d ∨ IsDigit d

end Gowrap.Spec

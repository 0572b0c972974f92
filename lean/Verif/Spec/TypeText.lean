import Verif.Spec.Text
import Verif.Model.Ast
/-!
# Reading the text of a Go type

`Ty` is what a type says; `readTy` is a recursive-descent reader for the text of a Go type which follows
the Go grammar (an arrow belongs to the leftmost `chan`, a parameter list is either all named or all
anonymous, ...).  `meaning` says what the text of a type expression should say when it is placed in
another package under the selector `pref`.  None of these mention the printer.

Parts that gowrap never looks into (interface literals, parenthesised types, array lengths) are kept as
text.
-/

namespace Gowrap.Spec

open Gowrap

mutual
/-- A Go type as written. -/
inductive Ty where
  | name (pkg : Option Str) (n : Str)
  | inst (base : Ty) (args : List Ty)
  | ptr (t : Ty)
  | slice (t : Ty)
  | arr (len : Str) (t : Ty)
  | variadic (t : Ty)
  | mapT (k v : Ty)
  | chanT (dir : ChanDir) (t : Ty)
  | func (ps rs : List TyField)
  | struct (fs : List TyField)
  | opaque (s : Str)
/-- A field or parameter group; `names = []` for an anonymous one. -/
inductive TyField where
  | mk (names : List Str) (t : Ty)
end

/-- A character that can be part of an identifier. -/
def identChar (c : Char) : Bool := c.isAlphanum || c = '_' || c.val ≥ 128

/-- Words that begin a type other than a named one. -/
def typeKeywords : List Str := [g!"map", g!"chan", g!"func", g!"struct", g!"interface"]

/-- An identifier that can name a type, a field or a package. -/
def IdentOk (n : Str) : Prop := n ≠ [] ∧ (∀ c ∈ n, identChar c = true) ∧ n ∉ typeKeywords

instance (n : Str) : Decidable (IdentOk n) := inferInstanceAs (Decidable (_ ∧ _ ∧ _))

/-- Leading word and the rest. -/
def word : Str → Str × Str
  | [] => ([], [])
  | c :: s => if identChar c then let (w, r) := word s; (c :: w, r) else ([], c :: s)

def skipBlanks : Str → Str
  | [] => []
  | c :: s => if c = ' ' ∨ c = '\n' then skipBlanks s else c :: s

/-- Bracket depth without regard to separators. -/
def bal : Nat → Str → Option Nat
  | d, [] => some d
  | d, c :: s =>
    if isOpen c then bal (d + 1) s
    else if isClose c then
      match d with
      | 0 => none
      | d + 1 => bal d s
    else bal d s

/-- Brackets are balanced. -/
def Balanced (s : Str) : Prop := bal 0 s = some 0

instance (s : Str) : Decidable (Balanced s) := inferInstanceAs (Decidable (_ = _))

/-- One comma-separated piece of a parameter list. -/
inductive Entry where
  | single (t : Ty)
  | named (n : Str) (t : Ty)

def Entry.isNamed : Entry → Bool
  | .named _ _ => true
  | .single _ => false

/-- In a list with named parameters a lone identifier is a further name of the next group. -/
def groupEntries (acc : List Str) : List Entry → Option (List TyField)
  | [] => if acc = [] then some [] else none
  | .single (.name none n) :: es => groupEntries (acc ++ [n]) es
  | .named n t :: es => (groupEntries [] es).map fun fs => .mk (acc ++ [n]) t :: fs
  | .single _ :: _ => none

/-- All parameters are named or none is. -/
def resolve (es : List Entry) : Option (List TyField) :=
  if es.any Entry.isNamed then groupEntries [] es
  else some (es.filterMap fun e => match e with | .single t => some (.mk [] t) | .named _ _ => none)

/-- Does a parameter piece begin with a name followed by a type? -/
def startsNamed (s : Str) : Bool :=
  match word s with
  | (w, ' ' :: r) =>
    w ≠ [] && !typeKeywords.contains w &&
      (match skipBlanks r with
       | [] => false
       | c :: _ => c ≠ ',' && c ≠ ')')
  | _ => false

mutual
/-- Read a type from the front of a text. -/
def readTy : Nat → Str → Option (Ty × Str)
  | 0, _ => none
  | f + 1, s =>
    match s with
    | '*' :: r => (readTy f r).map fun (t, r) => (.ptr t, r)
    | '.' :: '.' :: '.' :: r => (readTy f r).map fun (t, r) => (.variadic t, r)
    | '[' :: ']' :: r => (readTy f r).map fun (t, r) => (.slice t, r)
    | '[' :: r =>
      match group 0 [] r with
      | some (len, r) => (readTy f r).map fun (t, r) => (.arr len t, r)
      | none => none
    | '(' :: r =>
      match group 0 [] r with
      | some (b, r) => some (.opaque (g!"(" ++ b ++ g!")"), r)
      | none => none
    | '<' :: '-' :: 'c' :: 'h' :: 'a' :: 'n' :: ' ' :: r =>
      (readTy f r).map fun (t, r) => (.chanT .recv t, r)
    | s => readWord f (word s).1 (word s).2
/-- Read a type that begins with the word `w`. -/
def readWord : Nat → Str → Str → Option (Ty × Str)
  | 0, _, _ => none
  | f + 1, w, r =>
    if w = g!"map" then
      match r with
      | '[' :: r =>
        match readTy f r with
        | some (k, ']' :: r) => (readTy f r).map fun (v, r) => (.mapT k v, r)
        | _ => none
      | _ => none
    else if w = g!"chan" then
      match skipBlanks r with
      | '<' :: '-' :: r => (readTy f (skipBlanks r)).map fun (t, r) => (.chanT .send t, r)
      | r => (readTy f r).map fun (t, r) => (.chanT .both t, r)
    else if w = g!"func" then
      match r with
      | '(' :: r =>
        match readEntries f r with
        | some (ps, ' ' :: '(' :: r) =>
          match readEntries f r with
          | some (rs, r) =>
            match resolve ps, resolve rs with
            | some ps, some rs => some (.func ps rs, r)
            | _, _ => none
          | none => none
        | _ => none
      | _ => none
    else if w = g!"struct" then
      match r with
      | '{' :: r => (readFields f r).map fun (fs, r) => (.struct fs, r)
      | _ => none
    else if w = g!"interface" then
      match r with
      | '{' :: r =>
        match group 0 [] r with
        | some (b, r) => some (.opaque (g!"interface{" ++ b ++ g!"}"), r)
        | none => none
      | _ => none
    else if w = [] then none
    else
      match r with
      | '.' :: r => readArgs f (.name (some w) (word r).1) (word r).2
      | r => readArgs f (.name none w) r
/-- Type arguments after a named type, if there are any. -/
def readArgs : Nat → Ty → Str → Option (Ty × Str)
  | 0, _, _ => none
  | f + 1, base, r =>
    match r with
    | '[' :: r => (readArgList f r).map fun (as, r) => (.inst base as, r)
    | r => some (base, r)
/-- Type arguments up to the closing bracket. -/
def readArgList : Nat → Str → Option (List Ty × Str)
  | 0, _ => none
  | f + 1, s =>
    match readTy f s with
    | some (t, ']' :: r) => some ([t], r)
    | some (t, ',' :: r) => (readArgList f (skipBlanks r)).map fun (ts, r) => (t :: ts, r)
    | _ => none
/-- Pieces of a parameter list up to and including the closing parenthesis. -/
def readEntries : Nat → Str → Option (List Entry × Str)
  | 0, _ => none
  | f + 1, s =>
    match skipBlanks s with
    | ')' :: r => some ([], r)
    | s =>
      match readEntry f s with
      | some (e, ')' :: r) => some ([e], r)
      | some (e, ',' :: r) => (readEntries f r).map fun (es, r) => (e :: es, r)
      | _ => none
/-- One piece of a parameter list. -/
def readEntry : Nat → Str → Option (Entry × Str)
  | 0, _ => none
  | f + 1, s =>
    if startsNamed s then
      (readTy f (skipBlanks (word s).2)).map fun (t, r) => (.named (word s).1 t, r)
    else (readTy f s).map fun (t, r) => (.single t, r)
/-- Struct fields up to and including the closing brace. -/
def readFields : Nat → Str → Option (List TyField × Str)
  | 0, _ => none
  | f + 1, s =>
    match skipBlanks s with
    | '}' :: r => some ([], r)
    | s =>
      match readField f [] s with
      | some (fd, r) => (readFields f r).map fun (fs, r) => (fd :: fs, r)
      | none => none
/-- One struct field: `a, b T` or an embedded `T`. -/
def readField : Nat → List Str → Str → Option (TyField × Str)
  | 0, _, _ => none
  | f + 1, names, s =>
    if typeKeywords.contains (word s).1 then
      (if names = [] then (readTy f s).map fun (t, r) => (.mk [] t, r) else none)
    else
      match (word s).2 with
      | ',' :: r => if (word s).1 = [] then none else readField f (names ++ [(word s).1]) (skipBlanks r)
      | ' ' :: r => (readTy f (skipBlanks r)).map fun (t, r) => (.mk (names ++ [(word s).1]) t, r)
      | _ => if names = [] then (readTy f s).map fun (t, r) => (.mk [] t, r) else none
end

/-- The text says the type `t`. -/
def Says (s : Str) (t : Ty) : Prop := ∃ N, ∀ f, N ≤ f → readTy f s = some (t, [])

/-- A text says at most one type. -/
theorem Says.unique {s : Str} {t t' : Ty} (h : Says s t) (h' : Says s t') : t = t' := by
  obtain ⟨N, h⟩ := h
  obtain ⟨N', h'⟩ := h'
  have e := (h (max N N') (Nat.le_max_left _ _)).symm.trans (h' (max N N') (Nat.le_max_right _ _))
  simpa using e

mutual
/-- What the text of a type expression should say in a package that refers to the source package as
`pref` (`pref = []`: in the source package itself); `decls` are the type names declared in the source
package, `raw` the text of the parts kept as text. -/
def meaning (raw : Expr → Str) (decls : List Str) (pref : Str) : Expr → Ty
  | .ident n => if n ∈ decls ∧ pref ≠ [] then .name (some pref) n else .name none n
  | .selector (.ident a) b => .name (some a) b
  | .star x => .ptr (meaning raw decls pref x)
  | .ellipsis x => .variadic (meaning raw decls pref x)
  | .array none x => .slice (meaning raw decls pref x)
  | .array (some l) x => .arr (raw l) (meaning raw decls pref x)
  | .mapT k v => .mapT (meaning raw decls pref k) (meaning raw decls pref v)
  | .chanT d v => .chanT d (meaning raw decls pref v)
  | .funcT ps rs => .func (meaningFields raw decls pref ps) (meaningOpt raw decls pref rs)
  | .structT fs => .struct (meaningFields raw decls pref fs)
  | .index x i => .inst (meaning raw decls pref x) [meaning raw decls pref i]
  | .indexList x is => .inst (meaning raw decls pref x) (meaningList raw decls pref is)
  | e => .opaque (raw e)
def meaningField (raw : Expr → Str) (decls : List Str) (pref : Str) : Field → TyField
  | .mk _ _ names t _ => .mk names (meaning raw decls pref t)
def meaningFields (raw : Expr → Str) (decls : List Str) (pref : Str) : List Field → List TyField
  | [] => []
  | f :: fs => meaningField raw decls pref f :: meaningFields raw decls pref fs
def meaningOpt (raw : Expr → Str) (decls : List Str) (pref : Str) : Option (List Field) → List TyField
  | none => []
  | some fs => meaningFields raw decls pref fs
def meaningList (raw : Expr → Str) (decls : List Str) (pref : Str) : List Expr → List Ty
  | [] => []
  | e :: es => meaning raw decls pref e :: meaningList raw decls pref es
end

/-- A named type, possibly of another package. -/
def IsTypeName : Expr → Prop
  | .ident n => IdentOk n
  | .selector (.ident a) b => IdentOk a ∧ IdentOk b
  | _ => False

/-- A parameter list is all named or all anonymous. -/
def Uniform (fs : List Field) : Prop := (∀ f ∈ fs, f.names = []) ∨ (∀ f ∈ fs, f.names ≠ [])

/-- Expressions that occur as array lengths. -/
def LenShape : Expr → Prop
  | .ident n => IdentOk n
  | .selector (.ident a) b => IdentOk a ∧ IdentOk b
  | .lit t => Balanced t ∧ t ≠ []
  | .other t => Balanced t ∧ t ≠ []
  | .unary _ x => LenShape x
  | .binary _ x y => LenShape x ∧ LenShape y
  | .paren x => LenShape x
  | _ => False

def LenShapeOpt : Option Expr → Prop
  | none => True
  | some l => LenShape l

mutual
/-- Type expressions as the Go parser builds them from a parameter, result or field type. -/
def TypeShape : Expr → Prop
  | .ident n => IdentOk n
  | .selector x b => IsTypeName (.selector x b)
  | .star x => TypeShape x
  | .ellipsis x => TypeShape x
  | .array l x => LenShapeOpt l ∧ TypeShape x
  | .mapT k v => TypeShape k ∧ TypeShape v
  | .chanT d v => TypeShape v ∧ (d = .both → ∀ x, v ≠ .chanT .recv x)
  | .funcT ps rs => TypeShapeFields ps ∧ Uniform ps ∧ TypeShapeOpt rs
  | .structT fs => TypeShapeFields fs
  | .index x i => IsTypeName x ∧ TypeShape i
  | .indexList x is => IsTypeName x ∧ is ≠ [] ∧ TypeShapeList is
  | .ifaceT _ => True
  | .paren _ => True
  | _ => False
def TypeShapeField : Field → Prop
  | .mk _ _ names t _ => (∀ n ∈ names, IdentOk n) ∧ TypeShape t
def TypeShapeFields : List Field → Prop
  | [] => True
  | f :: fs => TypeShapeField f ∧ TypeShapeFields fs
def TypeShapeOpt : Option (List Field) → Prop
  | none => True
  | some fs => TypeShapeFields fs ∧ Uniform fs
def TypeShapeList : List Expr → Prop
  | [] => True
  | e :: es => TypeShape e ∧ TypeShapeList es
end

/-- What is assumed of go/printer: it prints names as they are, and the parts gowrap leaves to it are
bracketed text. -/
structure RawOk (raw : Expr → Str) : Prop where
  ident : ∀ n, IdentOk n → raw (.ident n) = n
  selector : ∀ a b, IdentOk a → IdentOk b → raw (.selector (.ident a) b) = a ++ g!"." ++ b
  iface : ∀ ms, ∃ b, Balanced b ∧ raw (.ifaceT ms) = g!"interface{" ++ b ++ g!"}"
  paren : ∀ x, ∃ b, Balanced b ∧ raw (.paren x) = g!"(" ++ b ++ g!")"
  expr : ∀ l, LenShape l → Balanced (raw l) ∧ raw l ≠ []

end Gowrap.Spec

import Verif.Spec.Typ
import Verif.Spec.Scope
import Verif.Spec.Grammar
/-!
# Well-typed files

"Expressions" and "Statements" of the Go specification: the rules about types that a compiler checks besides those of `Spec/Scope.lean`, for
the trees that the templates generate.  `Expr.typ` gives the type of an expression and `Expr.Typed` says that it has one.

Types that are taken from the source of the interface are not looked into, except that no variable of a function has a name that occurs in
them where they stand inside the function, and that `error` and `context.Context` are known.  Two such types are the same if they are
written in the same way.  The values of constants are not computed.
-/

namespace Gowrap.Go

open Gowrap

/-- What a name stands for. -/
inductive Entity where
  | pkg (path : Str)
  | type (t : Typ)
  | var (t : Typ)
  /-- a constant or function -/
  | value (t : Typ)
  /-- a function that is not an ordinary one: `append`, `len`, `make`, `panic` -/
  | builtin

/-- A place in a file. -/
structure Ctx where
  see : Str → Option Entity
  /-- the names declared in the function -/
  inside : List Str
  /-- the variables declared in the current block -/
  block : List Str
  /-- the results of the function -/
  results : List Typ
  /-- the results have names -/
  named : Bool

namespace Ctx

/-- A name, if it is not the blank identifier. -/
def add (Γ : Ctx) (x : Str) (e : Entity) : Ctx :=
  { Γ with see := fun y => if y = x ∧ x ≠ g!"_" then some e else Γ.see y, inside := x :: Γ.inside, block := x :: Γ.block }

/-- New variables. -/
def addVars (Γ : Ctx) : List (Str × Typ) → Ctx
  | [] => Γ
  | (x, t) :: l => (Γ.add x (.var t)).addVars l

/-- In a new block. -/
def inBlock (Γ : Ctx) : Ctx := { Γ with block := [] }

/-- In the body of a function. -/
def enter (Γ : Ctx) (vars : List (Str × Typ)) (results : List Typ) (named : Bool) : Ctx :=
  { ({ Γ with block := [] } : Ctx).addVars vars with results := results, named := named }

/-- The type of the variable or value. -/
def typ (Γ : Ctx) (x : Str) : Typ := match Γ.see x with
  | some (.var t) | some (.value t) => t
  | _ => .bad

end Ctx

/-! ## Types -/

/-- The type in the source. -/
def srcTyp : List Tok → Typ
  | [.word x] => if x = g!"error" then .error else .src [.word x]
  | [.word p, .op o, .word x] => if p = g!"context" ∧ o = g!"." ∧ x = g!"Context" then .lib g!"context" g!"Context" else .src [.word p, .op o, .word x]
  | l => .src l

/-- The tokens of the type of the elements of a variadic parameter. -/
def dotsToks : List Tok → Option (List Tok)
  | .op o :: l => if o = g!"..." then some l else none
  | _ => none

/-- The type of a parameter in the source, as a variable. -/
def srcVar (l : List Tok) : Typ := match dotsToks l with
  | some k => .slice (srcTyp k)
  | none => srcTyp l

mutual

/-- The type that is meant. -/
def Ty.typ (Γ : Ctx) : Ty → Typ
  | .name x => match Γ.see x with
    | some (.type t) => t
    | _ => .bad
  | .qual p x => match Γ.see p with
    | some (.pkg path) => .lib path x
    | _ => .bad
  | .ptr t => .ptr (t.typ Γ)
  | .slice t => .slice (t.typ Γ)
  | .map a b => .map (a.typ Γ) (b.typ Γ)
  | .chan t => .chan (t.typ Γ)
  | .dots t => .slice (t.typ Γ)
  | .func ps r => .func (fixedTyps Γ ps) (dotsTyp Γ ps) (r.typs Γ)
  | .iface ms => .iface (methodTyps Γ ms)
  | .struct gs => .struct (groupVars Γ gs)
  | .toks l => srcVar l
  | .part t => t.typ Γ

/-- The type of the elements, for a variadic parameter. -/
def Ty.dotsTyp (Γ : Ctx) : Ty → Option Typ
  | .dots t => some (t.typ Γ)
  | .toks l => (dotsToks l).map srcTyp
  | _ => none

/-- The names and types of variables. -/
def groupVars (Γ : Ctx) : List Group → List (Str × Typ)
  | [] => []
  | .mk xs t :: gs => xs.map (fun x => (x, t.typ Γ)) ++ groupVars Γ gs

/-- The types of parameters or results, named or not. -/
def groupTyps (Γ : Ctx) : List Group → List Typ
  | [] => []
  | .mk [] t :: gs => t.typ Γ :: groupTyps Γ gs
  | .mk (x :: xs) t :: gs => (x :: xs).map (fun _ => t.typ Γ) ++ groupTyps Γ gs

/-- The types of the parameters before a variadic one. -/
def fixedTyps (Γ : Ctx) : List Group → List Typ
  | [] => []
  | .mk xs t :: gs => match t.dotsTyp Γ with
    | some _ => []
    | none => (match xs with
      | [] => [t.typ Γ]
      | _ => xs.map fun _ => t.typ Γ) ++ fixedTyps Γ gs

/-- The type of the elements of the variadic parameter. -/
def dotsTyp (Γ : Ctx) : List Group → Option Typ
  | [] => none
  | .mk _ t :: gs => match t.dotsTyp Γ with
    | some e => some e
    | none => dotsTyp Γ gs

def Results.typs (Γ : Ctx) : Results → List Typ
  | .none => []
  | .one t => [t.typ Γ]
  | .list gs => groupTyps Γ gs

def methodTyps (Γ : Ctx) : List IfaceMethod → List (Str × Typ)
  | [] => []
  | .mk x ps r :: ms => (x, .func (fixedTyps Γ ps) (dotsTyp Γ ps) (r.typs Γ)) :: methodTyps Γ ms

end

mutual

/-- The names in the type are types. -/
def Ty.Typed (Γ : Ctx) : Ty → Prop
  | .name x => match Γ.see x with
    | some (.type _) => True
    | _ => False
  | .qual p x => match Γ.see p with
    | some (.pkg path) => (Lib.get path x Lib.types).isSome = true
    | _ => False
  | .ptr t | .slice t | .chan t | .dots t | .part t => t.Typed Γ
  | .map a b => a.Typed Γ ∧ b.Typed Γ
  | .func ps r => groupsTyped Γ ps ∧ r.Typed Γ
  | .iface ms => methodsTyped Γ ms
  | .struct gs => groupsTyped Γ gs
  | .toks l => ∀ x ∈ Γ.inside, .word x ∉ l

def groupsTyped (Γ : Ctx) : List Group → Prop
  | [] => True
  | .mk _ t :: gs => t.Typed Γ ∧ groupsTyped Γ gs

def Results.Typed (Γ : Ctx) : Results → Prop
  | .none => True
  | .one t => t.Typed Γ
  | .list gs => groupsTyped Γ gs

def methodsTyped (Γ : Ctx) : List IfaceMethod → Prop
  | [] => True
  | .mk _ ps r :: ms => (groupsTyped Γ ps ∧ r.Typed Γ) ∧ methodsTyped Γ ms

end

/-- The results have names. -/
def Results.named : Results → Bool
  | .list gs => !(boundNames gs).isEmpty
  | _ => false

/-! ## Expressions -/

/-- An element of a composite literal: the name of the field or the constant that is the key, the types of key and value. -/
inductive Elem where
  | one (t : Typ)
  | field (x : Str) (t : Typ)
  | const (c : Tok) (k t : Typ)
  | keyed (k t : Typ)

/-- What stands before the arguments of a call. -/
inductive Callee where
  /-- a type: the call is a conversion -/
  | conv (t : Typ)
  | builtin (x : Str)
  | func (t : Typ)

/-- The type of a call: the value that it returns, or all of them. -/
def resultTyp : List Typ → Typ
  | [t] => t
  | ts => .tuple ts

/-- "Comparison operators". -/
def isComparison (op : Str) : Bool := decide (op ∈ [g!"==", g!"!=", g!"<", g!"<=", g!">", g!">="])

/-- A number with a point is a floating-point number. -/
def numTyp (s : Str) : Typ := if '.' ∈ s then .untyped .float else .untyped .int

/-- What is pointed to. -/
def pointee : Typ → Typ
  | .ptr t => t
  | _ => .bad

/-- The elements of a channel. -/
def received : Typ → Typ
  | .chan t | .recv t => t
  | _ => .bad

/-- The elements of a slice. -/
def indexed : Typ → Typ
  | .slice t => t
  | _ => .bad

/-- The type of an operation with one operand. -/
def unaryTyp (op : Str) (t : Typ) : Typ :=
  if op = g!"&" then .ptr t
  else if op = g!"*" then pointee t
  else if op = g!"<-" then received t
  else if op = g!"!" then t
  else .bad

/-- The type of a call of a function that is not an ordinary one. -/
def builtinTyp (x : Str) (args : List Typ) : Typ :=
  if x = g!"len" then .int
  else if x = g!"panic" then .tuple []
  else if x = g!"append" ∨ x = g!"make" then args.headD .bad
  else .bad

/-- The type of a call. -/
def callTyp (F : FileTypes) (c : Callee) (args : List Typ) : Typ := match c with
  | .conv t => t
  | .builtin x => builtinTyp x args
  | .func t => match t.under F with
    | .func _ _ rs => resultTyp rs
    | _ => .bad

/-- The name before the arguments. -/
def Ctx.callee (Γ : Ctx) (x : Str) : Callee := match Γ.see x with
  | some (.type t) => .conv t
  | some .builtin => .builtin x
  | _ => .func (Γ.typ x)

/-- The type of `x.f`. -/
def Ctx.selected (F : FileTypes) (Γ : Ctx) (x f : Str) : Typ := match Γ.see x with
  | some (.pkg path) => (Lib.get path f Lib.values).getD .bad
  | _ => (Γ.typ x).member F f

/-- `x.f` before arguments. -/
def Ctx.selectedCallee (F : FileTypes) (Γ : Ctx) (x f : Str) : Callee := match Γ.see x with
  | some (.pkg path) => match Lib.get path f Lib.types with
    | some _ => .conv (.lib path f)
    | none => .func ((Lib.get path f Lib.values).getD .bad)
  | _ => .func ((Γ.typ x).member F f)

section
variable (F : FileTypes)

mutual

/-- The type of an expression. -/
def Expr.typ (Γ : Ctx) : Expr → Typ
  | .id x => Γ.typ x
  | .str _ => .untyped .string
  | .num s => numTyp s
  | .sel (.id x) f => Γ.selected F x f
  | .sel e f => (e.typ Γ).member F f
  | .call f args _ => callTyp F (f.callee Γ) (typsOf Γ args)
  | .spread e => .spread (e.typ Γ)
  | .index e _ => indexed (e.typ Γ)
  | .un op e => unaryTyp op (e.typ Γ)
  | .bin op a b => if isComparison op then .untyped .bool else (a.typ Γ).joined (b.typ Γ)
  | .paren e => e.typ Γ
  | .assert _ t => t.typ Γ
  | .lit t _ _ => t.typ Γ
  | .fn ps r _ => .func (fixedTyps Γ ps) (dotsTyp Γ ps) (r.typs Γ)
  | .type t => t.typ Γ
  | .pair _ _ | .many _ => .bad

def Expr.callee (Γ : Ctx) : Expr → Callee
  | .id x => Γ.callee x
  | .type t => .conv (t.typ Γ)
  | .sel (.id x) f => Γ.selectedCallee F x f
  | .sel e f => .func ((e.typ Γ).member F f)
  | .fn ps r _ => .func (.func (fixedTyps Γ ps) (dotsTyp Γ ps) (r.typs Γ))
  | .paren e => e.callee Γ
  | .call f args _ => .func (callTyp F (f.callee Γ) (typsOf Γ args))
  | _ => .func .bad

/-- The types of the expressions of a list. -/
def typsOf (Γ : Ctx) : List Expr → List Typ
  | [] => []
  | .many l :: es => typsOf Γ l ++ typsOf Γ es
  | e :: es => e.typ Γ :: typsOf Γ es

end

/-- The value is stored in a variable. -/
def Expr.addressable (Γ : Ctx) : Expr → Bool
  | .id x => match Γ.see x with
    | some (.var _) => true
    | _ => false
  | .sel (.id x) f => match Γ.see x with
    | some (.var t) => (t.field F f).isSome
    | _ => false
  | .sel e f => ((e.typ F Γ).field F f).isSome && (e.addressable Γ || match e.typ F Γ with
    | .ptr _ => true
    | _ => false)
  | .index _ _ => true
  | .un op _ => decide (op = g!"*")
  | .paren e => e.addressable Γ
  | _ => false

/-- A composite literal. -/
def Expr.isLit : Expr → Bool
  | .lit _ _ _ => true
  | .paren e => e.isLit
  | _ => false

mutual

/-- The elements of a composite literal. -/
def Expr.elems (Γ : Ctx) : Expr → List Elem
  | .pair (.id x) v => [.field x (v.typ F Γ)]
  | .pair (.str s) v => [.const (.str s) (.untyped .string) (v.typ F Γ)]
  | .pair (.num s) v => [.const (.num s) (numTyp s) (v.typ F Γ)]
  | .pair k v => [.keyed (k.typ F Γ) (v.typ F Γ)]
  | .many es => elemsOf Γ es
  | e => [.one (e.typ F Γ)]

def elemsOf (Γ : Ctx) : List Expr → List Elem
  | [] => []
  | e :: es => e.elems Γ ++ elemsOf Γ es

end

/-- The arguments fit the parameters. -/
def Accepts : List Typ → Option Typ → List Typ → Prop
  | p :: ps, d, t :: ts => t.Assignable F p ∧ Accepts ps d ts
  | _ :: _, _, [] => False
  | [], none, ts => ts = []
  | [], some e, ts => (∃ s, ts = [.spread s] ∧ s.Assignable F (.slice e)) ∨ ∀ t ∈ ts, t.Assignable F e

/-- The values fit the variables. -/
def AllAssignable : List Typ → List Typ → Prop
  | [], [] => True
  | v :: vs, t :: ts => v.Assignable F t ∧ AllAssignable vs ts
  | _, _ => False

/-- The arguments of a function that is not an ordinary one. -/
def BuiltinArgs (x : Str) (args : List Typ) : Prop :=
  if x = g!"len" then ∃ t, args = [t] ∧ ((∃ e, t.under F = .slice e) ∨ t.under F = .string)
  else if x = g!"panic" then ∃ t, args = [t] ∧ t.Assignable F .any
  else if x = g!"append" then ∃ e ts, args = .slice e :: ts ∧ ∀ t ∈ ts, t.Assignable F e
  else if x = g!"make" then ∃ e n, args = [.chan e, n] ∧ ((n.default).under F).isInteger = true
  else False

/-- The arguments of a call. -/
def CallOk (c : Callee) (args : List Typ) : Prop := match c with
  | .conv t => ∃ v, args = [v] ∧ v.Convertible F t
  | .builtin x => BuiltinArgs F x args
  | .func t => match t.under F with
    | .func ps d _ => Accepts F ps d args
    | _ => False

/-- The names of fields in a literal. -/
def Elem.fieldNames : Elem → List Str
  | .field x _ => [x]
  | _ => []

/-- The constants that are keys in a literal. -/
def Elem.constants : Elem → List Tok
  | .const c _ _ => [c]
  | _ => []

/-- "Composite literals": a struct with the names of the fields. -/
def FieldElem (fs : List (Str × Typ)) : Elem → Prop
  | .field x t => match find x fs with
    | some a => t.Assignable F a
    | none => False
  | _ => False

/-- A struct with the values of all fields. -/
def PlainElems : List (Str × Typ) → List Elem → Prop
  | [], [] => True
  | (_, a) :: fs, .one t :: es => t.Assignable F a ∧ PlainElems fs es
  | _, _ => False

def SliceElem (a : Typ) : Elem → Prop
  | .one t => t.Assignable F a
  | _ => False

def MapElem (a b : Typ) : Elem → Prop
  | .const _ k t | .keyed k t => k.Assignable F a ∧ t.Assignable F b
  | _ => False

def LitOk (t : Typ) (es : List Elem) : Prop := match t.under F with
  | .struct fs => ((∀ e ∈ es, FieldElem F fs e) ∧ (es.flatMap Elem.fieldNames).Nodup) ∨ PlainElems F fs es
  | .slice a => ∀ e ∈ es, SliceElem F a e
  | .map a b => (∀ e ∈ es, MapElem F a b e) ∧ (es.flatMap Elem.constants).Nodup
  | _ => False

/-- The operand of an operation. -/
def UnaryOk (op : Str) (t : Typ) (stored : Bool) : Prop :=
  if op = g!"&" then stored = true ∧ t.single = true
  else if op = g!"*" then ∃ a, t = .ptr a
  else if op = g!"<-" then ∃ a, t = .chan a ∨ t = .recv a
  else if op = g!"!" then t.default.under F = .bool
  else False

/-- The operands of an operation. -/
def BinaryOk (op : Str) (a b : Typ) : Prop :=
  if op = g!"&&" ∨ op = g!"||" then a.default.under F = .bool ∧ b.default.under F = .bool
  else if op = g!"==" ∨ op = g!"!=" then a.Comparable F b
  else if op = g!"+" then a.Match F b ∧ (((a.joined b).default.under F).isNumeric = true ∨ (a.joined b).default.under F = .string)
  else if op = g!"%" then a.Match F b ∧ ((a.joined b).default.under F).isInteger = true
  else a.Match F b ∧ ((a.joined b).default.under F).isNumeric = true

/-- The type is an interface. -/
def IsInterface (t : Typ) : Prop := ∃ ms, t.under F = .iface ms

/-- `x.f` before a dot. -/
def Ctx.Selects (Γ : Ctx) (x f : Str) : Prop := match Γ.see x with
  | some (.pkg path) => (Lib.get path f Lib.values).isSome = true
  | some (.var t) => t.HasMember F f true
  | some (.value t) => t.HasMember F f false
  | _ => False

/-- `x.f` before arguments. -/
def Ctx.SelectsCallee (Γ : Ctx) (x f : Str) : Prop := match Γ.see x with
  | some (.pkg path) => (Lib.get path f Lib.types).isSome = true ∨ (Lib.get path f Lib.values).isSome = true
  | some (.var t) => t.HasMember F f true
  | some (.value t) => t.HasMember F f false
  | _ => False

/-! ## Statements -/

/-- The call can be a statement: conversions and the functions that only compute a value cannot. -/
def Callee.isStmt : Callee → Bool
  | .conv _ => false
  | .builtin x => decide (x = g!"panic")
  | .func _ => true

/-- An expression that can be a statement. -/
def Expr.isStmt (Γ : Ctx) : Expr → Bool
  | .call f _ _ => (f.callee F Γ).isStmt
  | .un op _ => decide (op = g!"<-")
  | .paren e => e.isStmt Γ
  | _ => false

/-- A call, as in `go` and `defer`. -/
def Expr.isCall (Γ : Ctx) : Expr → Bool
  | .call f _ _ => (f.callee F Γ).isStmt
  | _ => false

/-- The values on the right side: those of one call, or one for each expression; two for `x.(T)` if two are asked for. -/
def rightTyps (Γ : Ctx) (n : Nat) (r : List Expr) : List Typ := match r with
  | [.assert e t] => if n = 2 then [t.typ Γ, .untyped .bool] else typsOf F Γ [.assert e t]
  | r => match typsOf F Γ r with
    | [.tuple ts] => ts
    | ts => ts

/-- Where a value is assigned: a variable, or nothing in the case of the blank identifier. -/
def Expr.Stores (Γ : Ctx) (v : Typ) : Expr → Prop
  | .id x => if x = g!"_" then v.default.single = true else (Expr.id x).addressable F Γ = true ∧ v.Assignable F (Γ.typ x)
  | e => e.addressable F Γ = true ∧ v.Assignable F (e.typ F Γ)

/-- The values are assigned. -/
def AllStore (Γ : Ctx) : List Expr → List Typ → Prop
  | [], [] => True
  | e :: es, v :: vs => e.Stores F Γ v ∧ AllStore Γ es vs
  | _, _ => False

/-- The variables of a short declaration: those that the block declares already are assigned. -/
def Defines (Γ : Ctx) : List Str → List Typ → Prop
  | [], [] => True
  | x :: xs, v :: vs => (if x ∈ Γ.block ∧ x ≠ g!"_" then v.Assignable F (Γ.typ x) else v.default.single = true) ∧ Defines Γ xs vs
  | _, _ => False

/-- The new variables of a short declaration. -/
def newVars (block : List Str) : List Str → List Typ → List (Str × Typ)
  | x :: xs, v :: vs => (if x ∈ block then [] else [(x, v.default)]) ++ newVars block xs vs
  | _, _ => []

/-- The variables of a `range` clause. -/
def rangeTyps (t : Typ) : List Typ := match t.under F with
  | .slice a => [.int, a]
  | .chan a | .recv a => [a]
  | _ => []

mutual

/-- The place after a statement. -/
def Ctx.after (Γ : Ctx) : Stmt → Ctx
  | .define l r => Γ.addVars (newVars Γ.block (idNames l) (rightTyps F Γ (idNames l).length r))
  | .var x t => Γ.add x (.var (t.typ Γ))
  | .varInit x e => Γ.add x (.var (e.typ F Γ).default)
  | .type x t => Γ.add x (.type (.inner x (t.typ Γ)))
  | .many ss => Γ.afterAll ss
  | _ => Γ

def Ctx.afterAll (Γ : Ctx) : List Stmt → Ctx
  | [] => Γ
  | s :: ss => (Γ.after s).afterAll ss

end

mutual

/-- The expression obeys the rules. -/
def Expr.Typed (Γ : Ctx) : Expr → Prop
  | .id x => match Γ.see x with
    | some (.var _) | some (.value _) => True
    | _ => False
  | .str _ | .num _ => True
  | .sel (.id x) f => Γ.Selects F x f
  | .sel e f => e.Typed Γ ∧ (e.typ F Γ).HasMember F f (e.addressable F Γ)
  | .call f args _ => f.CalleeTyped Γ ∧ allTyped Γ args ∧ CallOk F (f.callee F Γ) (typsOf F Γ args)
  | .spread e | .paren e => e.Typed Γ
  | .index e i => e.Typed Γ ∧ i.Typed Γ ∧ (∃ t, e.typ F Γ = .slice t) ∧ ((i.typ F Γ).default.under F).isInteger = true
  | .un op e => e.Typed Γ ∧ UnaryOk F op (e.typ F Γ) (e.addressable F Γ || e.isLit)
  | .bin op a b => a.Typed Γ ∧ b.Typed Γ ∧ BinaryOk F op (a.typ F Γ) (b.typ F Γ)
  | .assert e t => e.Typed Γ ∧ t.Typed Γ ∧ IsInterface F (e.typ F Γ)
  | .lit t es _ => t.Typed Γ ∧ allTyped Γ es ∧ LitOk F (t.typ Γ) (elemsOf F Γ es)
  | .pair (.id _) b => b.Typed Γ
  | .pair a b => a.Typed Γ ∧ b.Typed Γ
  | .fn ps r b => groupsTyped Γ ps ∧ r.Typed Γ ∧
      stmtsTyped (Γ.enter (groupVars Γ ps ++ match r with
        | .list gs => groupVars Γ gs
        | _ => []) (r.typs Γ) r.named) b
  | .type t => t.Typed Γ
  | .many es => allTyped Γ es

def Expr.CalleeTyped (Γ : Ctx) : Expr → Prop
  | .id x => match Γ.see x with
    | some (.pkg _) | none => False
    | _ => True
  | .type t => t.Typed Γ
  | .sel (.id x) f => Γ.SelectsCallee F x f
  | .sel e f => e.Typed Γ ∧ (e.typ F Γ).HasMember F f (e.addressable F Γ)
  | .fn ps r b => groupsTyped Γ ps ∧ r.Typed Γ ∧
      stmtsTyped (Γ.enter (groupVars Γ ps ++ match r with
        | .list gs => groupVars Γ gs
        | _ => []) (r.typs Γ) r.named) b
  | .paren e => e.CalleeTyped Γ
  | .call f args _ => f.CalleeTyped Γ ∧ allTyped Γ args ∧ CallOk F (f.callee F Γ) (typsOf F Γ args)
  | _ => False

def allTyped (Γ : Ctx) : List Expr → Prop
  | [] => True
  | e :: es => e.Typed Γ ∧ allTyped Γ es

/-- The left side of an assignment. -/
def Expr.TargetTyped (Γ : Ctx) : Expr → Prop
  | .id _ => True
  | .many es => targetsTyped Γ es
  | .sel (.id x) f => Γ.Selects F x f
  | .sel e f => e.Typed Γ ∧ (e.typ F Γ).HasMember F f (e.addressable F Γ)
  | .un op e => e.Typed Γ ∧ UnaryOk F op (e.typ F Γ) (e.addressable F Γ || e.isLit)
  | .paren e => e.TargetTyped Γ
  | .index e i => e.Typed Γ ∧ i.Typed Γ ∧ (∃ t, e.typ F Γ = .slice t) ∧ ((i.typ F Γ).default.under F).isInteger = true
  | _ => False

def targetsTyped (Γ : Ctx) : List Expr → Prop
  | [] => True
  | e :: es => e.TargetTyped Γ ∧ targetsTyped Γ es

/-- The statement obeys the rules. -/
def Stmt.Typed (Γ : Ctx) : Stmt → Prop
  | .expr e => e.Typed Γ ∧ e.isStmt F Γ = true
  | .defer e | .go e => e.Typed Γ ∧ e.isCall F Γ = true
  | .inc e => e.Typed Γ ∧ e.addressable F Γ = true ∧ ((e.typ F Γ).under F).isNumeric = true
  | .assign l r => targetsTyped Γ l ∧ allTyped Γ r ∧ AllStore F Γ (flatExprs l) (rightTyps F Γ (flatExprs l).length r)
  | .define l r => allTyped Γ r ∧ Defines F Γ (idNames l) (rightTyps F Γ (idNames l).length r)
  | .send a b => a.Typed Γ ∧ b.Typed Γ ∧ ∃ t, a.typ F Γ = .chan t ∧ (b.typ F Γ).Assignable F t
  | .var _ t => t.Typed Γ
  | .varInit _ e => e.Typed Γ ∧ (e.typ F Γ).default.single = true
  | .type _ t => t.Typed Γ
  | .ret [] => Γ.results = [] ∨ Γ.named = true
  | .ret (e :: es) => e.Typed Γ ∧ allTyped Γ es ∧ AllAssignable F (rightTyps F Γ 1 (e :: es)) Γ.results
  | .cond c b => c.Typed Γ ∧ (c.typ F Γ).default.under F = .bool ∧ stmtsTyped Γ.inBlock b
  | .condElse c a b => c.Typed Γ ∧ (c.typ F Γ).default.under F = .bool ∧ stmtsTyped Γ.inBlock a ∧ stmtsTyped Γ.inBlock b
  | .condElseIf c a s => c.Typed Γ ∧ (c.typ F Γ).default.under F = .bool ∧ stmtsTyped Γ.inBlock a ∧ s.Typed Γ.inBlock
  | .condInit s c b => s.Typed Γ.inBlock ∧ c.Typed (Γ.inBlock.after F s) ∧ (c.typ F (Γ.inBlock.after F s)).default.under F = .bool ∧
      stmtsTyped (Γ.inBlock.after F s).inBlock b
  | .loop s c t b => s.Typed Γ.inBlock ∧ c.Typed (Γ.inBlock.after F s) ∧ (c.typ F (Γ.inBlock.after F s)).default.under F = .bool ∧
      t.Typed (Γ.inBlock.after F s) ∧ stmtsTyped (Γ.inBlock.after F s).inBlock b
  | .forever b => stmtsTyped Γ.inBlock b
  | .range xs e b => e.Typed Γ ∧ (idNames xs).length ≤ (rangeTyps F (e.typ F Γ)).length ∧
      stmtsTyped (Γ.inBlock.addVars ((idNames xs).zip (rangeTyps F (e.typ F Γ)))).inBlock b
  | .select cs => clausesTyped Γ cs
  | .many ss => stmtsTyped Γ ss

/-- The statements of a block. -/
def stmtsTyped (Γ : Ctx) : List Stmt → Prop
  | [] => True
  | s :: r => s.Typed Γ ∧ stmtsTyped (Γ.after F s) r

/-- The clauses of `select`: they send or receive. -/
def clausesTyped (Γ : Ctx) : List Clause → Prop
  | [] => True
  | .case s b :: cs => (s.Typed Γ.inBlock ∧ stmtsTyped (Γ.inBlock.after F s) b) ∧ clausesTyped Γ cs
  | .default b :: cs => stmtsTyped Γ.inBlock b ∧ clausesTyped Γ cs

end

/-! ## Files -/

/-- A function with its parameters, results and body. -/
def FuncTyped (Γ : Ctx) (vars : List (Str × Typ)) (ps : List Group) (r : Results) (body : List Stmt) : Prop :=
  groupsTyped Γ ps ∧ r.Typed Γ ∧ stmtsTyped F (Γ.enter (vars ++ groupVars Γ ps ++ match r with
    | .list gs => groupVars Γ gs
    | _ => []) (r.typs Γ) r.named) body

/-- The name of an embedded field: that of its type without package and type arguments. -/
def Ty.fieldName : Ty → Str
  | .name x | .qual _ x => x
  | .ptr t | .part t => t.fieldName
  | .toks l => match (l.takeWhile fun t => decide (t ≠ .op g!"[")).reverse with
    | .word x :: _ => x
    | _ => []
  | _ => []

/-- The names and types of fields. -/
def FieldDecl.vars (Γ : Ctx) : FieldDecl → List (Str × Typ)
  | .named xs t => xs.map fun x => (x, t.typ Γ)
  | .embedded t => [(t.fieldName, t.typ Γ)]
  | .many _ => []

def FieldDecl.Typed (Γ : Ctx) : FieldDecl → Prop
  | .named _ t | .embedded t => t.Typed Γ
  | .many _ => False

/-- A declaration of a file. -/
def Decl.Typed (Γ : Ctx) : Decl → Prop
  | .imports _ => True
  | .struct _ fs => (∀ f ∈ flatFields fs, f.Typed Γ) ∧ (((flatFields fs).flatMap (FieldDecl.vars Γ)).map (·.1)).Nodup
  | .type _ t => t.Typed Γ
  | .var _ e => e.Typed F Γ ∧ (e.typ F Γ).default.single = true
  | .func _ ps r b => FuncTyped F Γ [] ps r b
  | .method recv t _ ps rs b => t.Typed Γ ∧ FuncTyped F Γ [(recv, t.typ Γ)] ps (.list rs) b
  | .many _ => False

end

/-! ### The names outside functions -/

/-- "Predeclared identifiers" that the templates use. -/
def predeclaredEntity (x : Str) : Option Entity :=
  if x ∈ [g!"bool", g!"byte", g!"error", g!"float64", g!"int", g!"int64", g!"string", g!"uint32"] then some (.type (.basic x))
  else if x = g!"true" ∨ x = g!"false" then some (.value (.untyped .bool))
  else if x = g!"nil" then some (.value (.untyped .nil))
  else if x ∈ [g!"append", g!"len", g!"make", g!"panic"] then some .builtin
  else none

/-- The names of packages with their paths. -/
def Decl.importsOf : Decl → List (Str × Str)
  | .imports specs => specs.map fun s => (importName s, s.2)
  | _ => []

def seePackages (added : List (Str × Str)) (ds : List Decl) : Str → Option Entity := fun x =>
  match find x (ds.flatMap Decl.importsOf ++ added) with
  | some p => some (.pkg p)
  | none => predeclaredEntity x

/-- Packages and types. -/
def seeTypes (added : List (Str × Str)) (ds : List Decl) : Str → Option Entity := fun x =>
  if x ∈ ds.flatMap Decl.types then some (.type (.decl x)) else seePackages added ds x

def typesCtx (added : List (Str × Str)) (ds : List Decl) : Ctx := ⟨seeTypes added ds, [], [], [], false⟩

/-- The functions with their types. -/
def Decl.funcs (Γ : Ctx) : Decl → List (Str × Typ)
  | .func x ps r _ => [(x, .func (fixedTyps Γ ps) (dotsTyp Γ ps) (r.typs Γ))]
  | _ => []

def seeFuncs (added : List (Str × Str)) (ds : List Decl) : Str → Option Entity := fun x =>
  match find x (ds.flatMap (Decl.funcs (typesCtx added ds))) with
  | some t => some (.value t)
  | none => seeTypes added ds x

def funcsCtx (added : List (Str × Str)) (ds : List Decl) : Ctx := ⟨seeFuncs added ds, [], [], [], false⟩

/-- The declared types with their underlying types. -/
def Decl.unders (Γ : Ctx) : Decl → List (Str × Typ)
  | .struct x fs => [(x, .struct ((flatFields fs).flatMap (FieldDecl.vars Γ)))]
  | .type x t => [(x, t.typ Γ)]
  | _ => []

/-- What the file says about types; `iface` is the type of the interface and `methods` are its methods. -/
def fileTypes (added : List (Str × Str)) (iface : List Tok) (methods : List (Str × Typ)) (ds : List Decl) : FileTypes :=
  ⟨ds.flatMap (Decl.unders (typesCtx added ds)), iface, methods⟩

/-- The variables with their types. -/
def Decl.fileVars (F : FileTypes) (Γ : Ctx) : Decl → List (Str × Typ)
  | .var x e => [(x, (e.typ F Γ).default)]
  | _ => []

def fileCtx (added : List (Str × Str)) (F : FileTypes) (ds : List Decl) : Ctx :=
  ⟨fun x => match find x (ds.flatMap (Decl.fileVars F (funcsCtx added ds))) with
    | some t => some (.var t)
    | none => seeFuncs added ds x, [], [], [], false⟩

/-- The file obeys the rules.  The packages `added` are imported by import declarations that are not part of it; `iface` is the type of the
decorated interface, and `methods` are its methods. -/
def FileTyped (added : List (Str × Str)) (iface : List Tok) (methods : List (Str × Typ)) (ds : List Decl) : Prop :=
  let F := fileTypes added iface methods ds
  ∀ x ∈ ds, x.Typed F (fileCtx added F ds)

end Gowrap.Go

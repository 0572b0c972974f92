import Verif.Model.GoFile
/-!
# Declarations and scope

"Blocks", "Declarations and scope", "Short variable declarations" and "Return statements" of the Go specification, and the rule
of "Implementation restriction" of "Variable declarations" that compilers apply: local variables are used.  A file that breaks
one of these rules is refused by the compiler: *undefined: x*, *x redeclared in this block*, *no new variables on left side
of :=*, *declared and not used: x*, *x is not a type*, *result parameter x not in scope at return*.

One rule is stricter than those of Go: a variable of a function that hides a name from outside functions is not used before a dot or
before arguments.  Where a template does that it means the hidden package, variable or function (*x.F undefined*, *invalid
operation: cannot call non-function x*).

Types that are taken from the source of the interface are not looked into.  The trees have no labels, constants and `switch`, and an
identifier that is a key in a composite literal is the name of a field.
-/

namespace Gowrap.Go

open Gowrap

/-- What a name stands for. -/
inductive NameKind
  | pkg
  | type
  /-- a variable, constant or function declared outside functions -/
  | value
  /-- a variable of a function -/
  | local
  /-- a variable of a function that hides a name declared outside functions -/
  | hiding
  deriving DecidableEq

/-- What the names stand for at some place. -/
abbrev Visible := Str → Option NameKind

/-- New names hide others. -/
def Visible.add (v : Visible) (xs : List Str) (k : NameKind) : Visible := fun x => if x ∈ xs then some k else v x

/-- A new variable of a function. -/
def Visible.binds (v : Visible) (x : Str) : NameKind := match v x with
  | none | some .local => .local
  | _ => .hiding

/-- New variables of a function. -/
def Visible.bind (v : Visible) (xs : List Str) : Visible := fun x => if x ∈ xs then some (v.binds x) else v x

/-- The name is an operand. -/
def Visible.Var (v : Visible) (x : Str) : Prop := x ≠ g!"_" ∧ (v x = some .value ∨ v x = some .local ∨ v x = some .hiding)

/-- The name can stand before a dot: a variable that hides a package, or another variable whose fields or methods are meant, cannot. -/
def Visible.Qualifier (v : Visible) (x : Str) : Prop := x ≠ g!"_" ∧ (v x = some .value ∨ v x = some .local ∨ v x = some .pkg)

/-- The name can stand before arguments: a variable that hides a function or type cannot. -/
def Visible.Callee (v : Visible) (x : Str) : Prop := x ≠ g!"_" ∧ (v x = some .value ∨ v x = some .local ∨ v x = some .type)

/-- No name is declared twice; the blank identifier declares nothing. -/
def Distinct (xs : List Str) : Prop := (xs.filter fun x => decide (x ≠ g!"_")).Nodup

def Group.names : Group → List Str
  | .mk xs _ => xs

def boundNames (gs : List Group) : List Str := gs.flatMap Group.names

def Results.names : Results → List Str
  | .list gs => boundNames gs
  | _ => []

/-! ## Types -/

mutual

/-- The names in a type are types, or types of packages. -/
def Ty.Scoped (v : Visible) : Ty → Prop
  | .name x => v x = some .type
  | .qual p _ => v p = some .pkg
  | .ptr t | .slice t | .chan t | .dots t | .part t => t.Scoped v
  | .map a b => a.Scoped v ∧ b.Scoped v
  | .func ps r => groupsScoped v ps ∧ r.Scoped v ∧ Distinct (boundNames ps ++ r.names)
  | .iface ms => methodsScoped v ms
  | .struct gs => groupsScoped v gs ∧ Distinct (boundNames gs)
  | .toks _ => True

def Group.Scoped (v : Visible) : Group → Prop
  | .mk _ t => t.Scoped v

def groupsScoped (v : Visible) : List Group → Prop
  | [] => True
  | g :: gs => g.Scoped v ∧ groupsScoped v gs

def Results.Scoped (v : Visible) : Results → Prop
  | .none => True
  | .one t => t.Scoped v
  | .list gs => groupsScoped v gs

def methodsScoped (v : Visible) : List IfaceMethod → Prop
  | [] => True
  | .mk _ ps r :: ms => (groupsScoped v ps ∧ r.Scoped v ∧ Distinct (boundNames ps ++ r.names)) ∧ methodsScoped v ms

end

/-! ## Declarations of a block -/

mutual

/-- The expressions are names, as on the left side of `:=`. -/
def areNames : List Expr → Bool
  | [] => true
  | e :: es => e.isName && areNames es

def Expr.isName : Expr → Bool
  | .id _ => true
  | .many es => areNames es
  | _ => false

end

mutual

/-- The names in a list of names. -/
def idNames : List Expr → List Str
  | [] => []
  | e :: es => e.idNames ++ idNames es

def Expr.idNames : Expr → List Str
  | .id x => [x]
  | .many es => Gowrap.Go.idNames es
  | _ => []

end

mutual

/-- The names that a statement declares in the block to which it belongs. -/
def Stmt.introduces : Stmt → List Str
  | .define l _ => idNames l
  | .var x _ | .varInit x _ | .type x _ => [x]
  | .many ss => introducedBy ss
  | _ => []

def introducedBy : List Stmt → List Str
  | [] => []
  | s :: ss => s.introduces ++ introducedBy ss

end

/-! ## Uses -/

mutual

/-- The value of the variable `x` is used by the expression. -/
def Expr.uses (x : Str) : Expr → Bool
  | .id y => decide (y = x)
  | .str _ | .num _ | .type _ => false
  | .sel e _ | .spread e | .un _ e | .paren e | .assert e _ => e.uses x
  | .call f es _ => f.uses x || usedByAny x es
  | .index a b | .bin _ a b => a.uses x || b.uses x
  | .pair (.id _) b => b.uses x
  | .pair a b => a.uses x || b.uses x
  | .lit _ es _ => usedByAny x es
  | .fn ps r b => !decide (x ∈ boundNames ps ++ r.names) && usedIn x false b
  | .many es => usedByAny x es

def usedByAny (x : Str) : List Expr → Bool
  | [] => false
  | e :: es => e.uses x || usedByAny x es

/-- An assignment to a variable is no use of it. -/
def Expr.targetUses (x : Str) : Expr → Bool
  | .id _ => false
  | .many es => targetsUse x es
  | .sel e _ | .un _ e | .paren e => e.uses x
  | .index a b => a.uses x || b.uses x
  | _ => false

def targetsUse (x : Str) : List Expr → Bool
  | [] => false
  | e :: es => e.targetUses x || targetsUse x es

/-- The value of `x` is used by the statement; `same` says that the statement belongs to the block in which `x` was declared. -/
def Stmt.uses (x : Str) (same : Bool) : Stmt → Bool
  | .expr e | .varInit _ e | .defer e | .go e => e.uses x
  | .inc e => e.targetUses x
  | .assign l r => targetsUse x l || usedByAny x r
  | .define _ r => usedByAny x r
  | .send a b => a.uses x || b.uses x
  | .var _ _ | .type _ _ => false
  | .ret es => usedByAny x es
  | .cond c b => c.uses x || usedIn x false b
  | .condElse c a b => c.uses x || (usedIn x false a || usedIn x false b)
  | .condElseIf c a s => c.uses x || (usedIn x false a || s.uses x false)
  | .condInit s c b => s.uses x false || (!decide (x ∈ s.introduces) && (c.uses x || usedIn x false b))
  | .loop s c t b => s.uses x false || (!decide (x ∈ s.introduces) && (c.uses x || (t.uses x false || usedIn x false b)))
  | .forever b => usedIn x false b
  | .range xs e b => e.uses x || (!decide (x ∈ idNames xs) && usedIn x false b)
  | .select cs => usedByClause x cs
  | .many ss => usedIn x same ss

/-- The value of `x` is used by one of the statements of a block. -/
def usedIn (x : Str) (same : Bool) : List Stmt → Bool
  | [] => false
  | s :: r => s.uses x same || ((same || !decide (x ∈ s.introduces)) && usedIn x same r)

def usedByClause (x : Str) : List Clause → Bool
  | [] => false
  | .case s b :: cs => (s.uses x false || (!decide (x ∈ s.introduces) && usedIn x false b)) || usedByClause x cs
  | .default b :: cs => usedIn x false b || usedByClause x cs

end

/-! ## Statements -/

/-- A place in a function. -/
structure Place where
  see : Visible
  /-- the names declared in the current block -/
  block : List Str
  /-- the current block is the body of the function -/
  top : Bool
  /-- the names declared in blocks inside the body -/
  inside : List Str
  /-- the results of the function -/
  results : List Str

namespace Place

/-- In the body of a function with these parameters and results. -/
def enter (v : Visible) (names results : List Str) : Place := ⟨v.bind names, names, true, [], results⟩

/-- In a new block. -/
def inner (p : Place) : Place := { p with block := [], top := false }

/-- After a declaration of variables. -/
def declare (p : Place) (xs : List Str) : Place :=
  { p with see := p.see.bind xs, block := xs ++ p.block, inside := if p.top then p.inside else xs ++ p.inside }

/-- After a declaration of a type. -/
def declareType (p : Place) (x : Str) : Place :=
  { p with see := p.see.add [x] .type, block := x :: p.block, inside := if p.top then p.inside else x :: p.inside }

end Place

mutual

/-- The place after the statement. -/
def Place.after (p : Place) : Stmt → Place
  | .define l _ => p.declare (idNames l)
  | .var x _ | .varInit x _ => p.declare [x]
  | .type x _ => p.declareType x
  | .many ss => p.afterAll ss
  | _ => p

def Place.afterAll (p : Place) : List Stmt → Place
  | [] => p
  | s :: ss => (p.after s).afterAll ss

end

mutual

/-- The names in an expression are variables, constants or functions; before a dot they may be packages, and before arguments types. -/
def Expr.Scoped (v : Visible) : Expr → Prop
  | .id x => v.Var x
  | .str _ | .num _ => True
  | .sel (.id x) _ => v.Qualifier x
  | .sel e _ | .spread e | .un _ e | .paren e => e.Scoped v
  | .call (.id f) es _ => v.Callee f ∧ allScoped v es
  | .call f es _ => f.Scoped v ∧ allScoped v es
  | .index a b | .bin _ a b => a.Scoped v ∧ b.Scoped v
  | .assert e t => e.Scoped v ∧ t.Scoped v
  | .pair (.id _) b => b.Scoped v
  | .pair a b => a.Scoped v ∧ b.Scoped v
  | .lit t es _ => t.Scoped v ∧ allScoped v es
  | .fn ps r b => (groupsScoped v ps ∧ r.Scoped v ∧ Distinct (boundNames ps ++ r.names)) ∧
      stmtsScoped (.enter v (boundNames ps ++ r.names) r.names) (fun _ => false) b
  | .type t => t.Scoped v
  | .many es => allScoped v es

def allScoped (v : Visible) : List Expr → Prop
  | [] => True
  | e :: es => e.Scoped v ∧ allScoped v es

/-- The left side of an assignment. -/
def Expr.TargetScoped (v : Visible) : Expr → Prop
  | .id x => x = g!"_" ∨ v.Var x
  | .many es => targetsScoped v es
  | .sel (.id x) _ => v.Qualifier x
  | .sel e _ | .un _ e | .paren e => e.Scoped v
  | .index a b => a.Scoped v ∧ b.Scoped v
  | _ => False

def targetsScoped (v : Visible) : List Expr → Prop
  | [] => True
  | e :: es => e.TargetScoped v ∧ targetsScoped v es

/-- A statement at a place; `later` says which variables are used after it in the same block. -/
def Stmt.Scoped (p : Place) (later : Str → Bool) : Stmt → Prop
  | .expr e | .defer e | .go e => e.Scoped p.see
  | .inc e => e.Scoped p.see
  | .assign l r => targetsScoped p.see l ∧ allScoped p.see r
  | .define l r => allScoped p.see r ∧ areNames l = true ∧ Distinct (idNames l) ∧ (∃ x ∈ idNames l, x ≠ g!"_" ∧ x ∉ p.block) ∧
      ∀ x ∈ idNames l, x ≠ g!"_" → (x ∈ p.block → p.see.Var x) ∧ (x ∉ p.block → later x = true)
  | .send a b => a.Scoped p.see ∧ b.Scoped p.see
  | .var x t => t.Scoped p.see ∧ (x ≠ g!"_" → x ∉ p.block ∧ later x = true)
  | .varInit x e => e.Scoped p.see ∧ (x ≠ g!"_" → x ∉ p.block ∧ later x = true)
  | .type x t => t.Scoped (p.see.add [x] .type) ∧ (x ≠ g!"_" → x ∉ p.block)
  | .ret [] => ∀ x ∈ p.results, x ≠ g!"_" → x ∉ p.inside
  | .ret (e :: es) => e.Scoped p.see ∧ allScoped p.see es
  | .cond c b => c.Scoped p.see ∧ stmtsScoped p.inner (fun _ => false) b
  | .condElse c a b => c.Scoped p.see ∧ stmtsScoped p.inner (fun _ => false) a ∧ stmtsScoped p.inner (fun _ => false) b
  | .condElseIf c a s => c.Scoped p.see ∧ stmtsScoped p.inner (fun _ => false) a ∧ s.Scoped p.inner (fun _ => false)
  | .condInit s c b => s.Scoped p.inner (fun x => c.uses x || usedIn x false b) ∧ c.Scoped (p.inner.after s).see ∧
      stmtsScoped (p.inner.after s).inner (fun _ => false) b
  | .loop s c t b => s.Scoped p.inner (fun x => c.uses x || (t.uses x false || usedIn x false b)) ∧ c.Scoped (p.inner.after s).see ∧
      t.Scoped (p.inner.after s) (fun _ => false) ∧ stmtsScoped (p.inner.after s).inner (fun _ => false) b
  | .forever b => stmtsScoped p.inner (fun _ => false) b
  | .range xs e b => e.Scoped p.see ∧ areNames xs = true ∧ Distinct (idNames xs) ∧ (∀ x ∈ idNames xs, x ≠ g!"_" → usedIn x false b = true) ∧
      stmtsScoped (p.inner.declare (idNames xs)).inner (fun _ => false) b
  | .select cs => clausesScoped p cs
  | .many ss => stmtsScoped p later ss

/-- The statements of a block. -/
def stmtsScoped (p : Place) (later : Str → Bool) : List Stmt → Prop
  | [] => True
  | s :: r => s.Scoped p (fun x => usedIn x true r || later x) ∧ stmtsScoped (p.after s) later r

/-- Every clause is a block. -/
def clausesScoped (p : Place) : List Clause → Prop
  | [] => True
  | .case s b :: cs => (s.Scoped p.inner (fun x => usedIn x true b) ∧ stmtsScoped (p.inner.after s) (fun _ => false) b) ∧ clausesScoped p cs
  | .default b :: cs => stmtsScoped p.inner (fun _ => false) b ∧ clausesScoped p cs

end

/-! ## Files -/

/-- The types of the fields. -/
def FieldDecl.Scoped (v : Visible) : FieldDecl → Prop
  | .named _ t | .embedded t => t.Scoped v
  | .many _ => False

/-- A function with its parameters, results and body. -/
def FuncScoped (v : Visible) (ps : List Group) (names results : List Str) (body : List Stmt) : Prop :=
  groupsScoped v ps ∧ Distinct names ∧ stmtsScoped (.enter v names results) (fun _ => false) body

/-- A declaration of a file. -/
def Decl.Scoped (v : Visible) : Decl → Prop
  | .imports _ => True
  | .struct _ fs => ∀ f ∈ flatFields fs, f.Scoped v
  | .type _ t => t.Scoped v
  | .var _ e => e.Scoped v
  | .func _ ps r b => r.Scoped v ∧ FuncScoped v ps (boundNames ps ++ r.names) r.names b
  | .method recv t _ ps rs b => t.Scoped v ∧ groupsScoped v rs ∧ FuncScoped v ps (recv :: (boundNames ps ++ boundNames rs)) (boundNames rs) b
  | .many _ => False

/-- `v` and digits, the last element of the path of a later version of a package. -/
def isVersion : Str → Bool
  | 'v' :: c :: cs => (c :: cs).all digit
  | _ => false

/-- The name of a package if the import does not give one: the last element of the path that is not a version. -/
def assumedName (path : Str) : Str :=
  match (splitPath path).reverse with
  | [] => []
  | [x] => x
  | x :: y :: _ => if isVersion x then y else x
where
  /-- The elements of a path. -/
  splitPath : Str → List Str
    | [] => [[]]
    | c :: cs =>
      match splitPath cs with
      | [] => [[c]]
      | x :: xs => if c = '/' then [] :: x :: xs else (c :: x) :: xs

def importName : Option Str × Str → Str
  | (some x, _) => x
  | (none, path) => assumedName path

/-- The packages that the declaration imports. -/
def Decl.packages : Decl → List Str
  | .imports specs => specs.map importName
  | _ => []

/-- The type that the declaration declares. -/
def Decl.types : Decl → List Str
  | .struct x _ | .type x _ => [x]
  | _ => []

/-- The variable or function that the declaration declares. -/
def Decl.values : Decl → List Str
  | .var x _ | .func x _ _ _ => [x]
  | _ => []

/-- "Predeclared identifiers". -/
def predeclared : Visible := fun x =>
  if x ∈ [g!"any", g!"bool", g!"byte", g!"comparable", g!"complex64", g!"complex128", g!"error", g!"float32", g!"float64", g!"int", g!"int8", g!"int16",
    g!"int32", g!"int64", g!"rune", g!"string", g!"uint", g!"uint8", g!"uint16", g!"uint32", g!"uint64", g!"uintptr"] then some .type
  else if x ∈ [g!"true", g!"false", g!"iota", g!"nil", g!"append", g!"cap", g!"clear", g!"close", g!"complex", g!"copy", g!"delete", g!"imag", g!"len",
    g!"make", g!"max", g!"min", g!"new", g!"panic", g!"print", g!"println", g!"real", g!"recover"] then some .value
  else none

/-- What the names stand for outside functions, if the packages `added` are imported too. -/
def fileScope (added : List Str) (ds : List Decl) : Visible :=
  ((predeclared.add (ds.flatMap Decl.packages ++ added) .pkg).add (ds.flatMap Decl.values) .value).add (ds.flatMap Decl.types) .type

/-- The file obeys the rules; the packages `added` are imported by import declarations that are not part of it. -/
def FileScoped (added : List Str) (ds : List Decl) : Prop :=
  (∀ x ∈ ds, x.Scoped (fileScope added ds)) ∧
  Distinct (ds.flatMap fun x => x.types ++ x.values) ∧
  ∀ x ∈ ds.flatMap (fun x => x.types ++ x.values), x ∉ ds.flatMap Decl.packages ++ added

end Gowrap.Go

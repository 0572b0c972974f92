import Verif.Model.GoLex
/-!
# Syntax trees of generated code

The part of the Go grammar that the built-in templates use, and the tokens of which the trees consist (`put`
writes them in front of other tokens).  A statement in a block is followed by a semicolon, in the text by the end
of a line.

The types of the interface and its methods are kept as lists of tokens.  Expressions, statements, fields and
declarations that come from a part of the template that depends on the interface are collected in `many`; where a
list is expected it stands for all its elements.
-/

namespace Gowrap.Go

open Gowrap

mutual

/-- Types. -/
inductive Ty where
  | name (x : Str)
  /-- `p.x` -/
  | qual (p x : Str)
  | ptr (t : Ty)
  | slice (t : Ty)
  | map (k v : Ty)
  | chan (t : Ty)
  /-- `...T`, the type of the last parameter -/
  | dots (t : Ty)
  | func (params : List Group) (results : Results)
  | iface (methods : List IfaceMethod)
  | struct (fields : List Group)
  /-- a type that is taken from the source of the interface -/
  | toks (l : List Tok)
  /-- a type that depends on the interface -/
  | part (t : Ty)

/-- Names with their type, or a type alone. -/
inductive Group where
  | mk (names : List Str) (t : Ty)

/-- The results of a function. -/
inductive Results where
  | none
  | one (t : Ty)
  /-- `(a, b T)` -/
  | list (gs : List Group)

/-- A method of an interface type. -/
inductive IfaceMethod where
  | mk (x : Str) (params : List Group) (results : Results)

end

mutual

inductive Expr where
  | id (x : Str)
  | str (s : Str)
  | num (s : Str)
  /-- `e.f` -/
  | sel (e : Expr) (f : Str)
  /-- `f(a, b)`; `comma` says that a comma follows the last argument -/
  | call (f : Expr) (args : List Expr) (comma : Bool)
  /-- `e...`, the last argument of a call -/
  | spread (e : Expr)
  /-- `e[i]` -/
  | index (e i : Expr)
  | un (op : Str) (e : Expr)
  | bin (op : Str) (a b : Expr)
  /-- `(e)` -/
  | paren (e : Expr)
  /-- `e.(T)` -/
  | assert (e : Expr) (t : Ty)
  /-- `T{a, b}` -/
  | lit (t : Ty) (es : List Expr) (comma : Bool)
  /-- `k: v` in a literal -/
  | pair (k v : Expr)
  /-- `func(…) … { … }` -/
  | fn (params : List Group) (results : Results) (body : List Stmt)
  /-- a type, as an argument or in a conversion -/
  | type (t : Ty)
  /-- the elements of a list -/
  | many (es : List Expr)

inductive Stmt where
  | expr (e : Expr)
  /-- `a, b = c, d` -/
  | assign (lhs rhs : List Expr)
  /-- `a, b := c, d` -/
  | define (lhs rhs : List Expr)
  /-- `e++` -/
  | inc (e : Expr)
  /-- `ch <- v` -/
  | send (ch v : Expr)
  /-- `var x T` -/
  | var (x : Str) (t : Ty)
  /-- `var x = e` -/
  | varInit (x : Str) (e : Expr)
  /-- `type x T` -/
  | type (x : Str) (t : Ty)
  /-- `return a, b` -/
  | ret (es : List Expr)
  /-- `if c { … }` -/
  | cond (c : Expr) (body : List Stmt)
  /-- `if c { … } else { … }` -/
  | condElse (c : Expr) (body els : List Stmt)
  /-- `if c { … } else if …` -/
  | condElseIf (c : Expr) (body : List Stmt) (els : Stmt)
  /-- `if init; c { … }` -/
  | condInit (init : Stmt) (c : Expr) (body : List Stmt)
  /-- `for init; c; post { … }` -/
  | loop (init : Stmt) (c : Expr) (post : Stmt) (body : List Stmt)
  /-- `for { … }` -/
  | forever (body : List Stmt)
  /-- `for x, y := range e { … }` -/
  | range (xs : List Expr) (e : Expr) (body : List Stmt)
  /-- `defer f(…)` -/
  | defer (e : Expr)
  /-- `go f(…)` -/
  | go (e : Expr)
  | select (clauses : List Clause)
  /-- several statements of a block -/
  | many (ss : List Stmt)

/-- The clauses of a `select`. -/
inductive Clause where
  /-- `case s:`, where `s` receives or sends -/
  | case (s : Stmt) (body : List Stmt)
  | default (body : List Stmt)

end

/-- Binary operators and their precedence, "Operators" of the Go specification. -/
def binPrec (op : Str) : Option Nat :=
  if op = g!"||" then some 1
  else if op = g!"&&" then some 2
  else if op = g!"==" ∨ op = g!"!=" ∨ op = g!"<" ∨ op = g!"<=" ∨ op = g!">" ∨ op = g!">=" then some 3
  else if op = g!"+" ∨ op = g!"-" ∨ op = g!"|" ∨ op = g!"^" then some 4
  else if op = g!"*" ∨ op = g!"/" ∨ op = g!"%" ∨ op = g!"<<" ∨ op = g!">>" ∨ op = g!"&" ∨ op = g!"&^" then some 5
  else none

/-- The statement stands for several. -/
def Stmt.isMany : Stmt → Bool
  | .many _ => true
  | _ => false

/-- Names with commas in between. -/
def putNames : List Str → List Tok → List Tok
  | [], k => k
  | [x], k => .word x :: k
  | x :: xs, k => .word x :: .op g!"," :: putNames xs k

mutual

/-- The tokens of a type, in front of `k`. -/
def Ty.put : Ty → List Tok → List Tok
  | .name x, k => .word x :: k
  | .qual p x, k => .word p :: .op g!"." :: .word x :: k
  | .ptr t, k => .op g!"*" :: t.put k
  | .slice t, k => .op g!"[" :: .op g!"]" :: t.put k
  | .map a b, k => .word g!"map" :: .op g!"[" :: a.put (.op g!"]" :: b.put k)
  | .chan t, k => .word g!"chan" :: t.put k
  | .dots t, k => .op g!"..." :: t.put k
  | .func ps r, k => .word g!"func" :: .op g!"(" :: putGroups ps (.op g!")" :: r.put k)
  | .iface ms, k => .word g!"interface" :: .op g!"{" :: putMethods ms (.op g!"}" :: k)
  | .struct gs, k => .word g!"struct" :: .op g!"{" :: putStruct gs (.op g!"}" :: k)
  | .toks l, k => l ++ k
  | .part t, k => t.put [] ++ k

def Group.put : Group → List Tok → List Tok
  | .mk xs t, k => putNames xs (t.put k)

/-- Parameters with commas in between. -/
def putGroups : List Group → List Tok → List Tok
  | [], k => k
  | [g], k => g.put k
  | g :: gs, k => g.put (.op g!"," :: putGroups gs k)

/-- Fields with semicolons in between. -/
def putStruct : List Group → List Tok → List Tok
  | [], k => k
  | [g], k => g.put k
  | g :: gs, k => g.put (.op g!";" :: putStruct gs k)

def Results.put : Results → List Tok → List Tok
  | .none, k => k
  | .one t, k => t.put k
  | .list gs, k => .op g!"(" :: putGroups gs (.op g!")" :: k)

/-- Methods with semicolons in between. -/
def putMethods : List IfaceMethod → List Tok → List Tok
  | [], k => k
  | [m], k => m.put k
  | m :: ms, k => m.put (.op g!";" :: putMethods ms k)

def IfaceMethod.put : IfaceMethod → List Tok → List Tok
  | .mk x ps r, k => .word x :: .op g!"(" :: putGroups ps (.op g!")" :: r.put k)

end

mutual

/-- The tokens of an expression, in front of `k`. -/
def Expr.put : Expr → List Tok → List Tok
  | .id x, k => .word x :: k
  | .str s, k => .str s :: k
  | .num s, k => .num s :: k
  | .sel e f, k => e.put (.op g!"." :: .word f :: k)
  | .call f args comma, k => f.put (.op g!"(" :: putExprs args (bif comma then .op g!"," :: .op g!")" :: k else .op g!")" :: k))
  | .spread e, k => e.put (.op g!"..." :: k)
  | .index e i, k => e.put (.op g!"[" :: i.put (.op g!"]" :: k))
  | .un op e, k => .op op :: e.put k
  | .bin op a b, k => a.put (.op op :: b.put k)
  | .paren e, k => .op g!"(" :: e.put (.op g!")" :: k)
  | .assert e t, k => e.put (.op g!"." :: .op g!"(" :: t.put (.op g!")" :: k))
  | .lit t es comma, k => t.put (.op g!"{" :: putExprs es (bif comma then .op g!"," :: .op g!"}" :: k else .op g!"}" :: k))
  | .pair a b, k => a.put (.op g!":" :: b.put k)
  | .fn ps r body, k => .word g!"func" :: .op g!"(" :: putGroups ps (.op g!")" :: r.put (.op g!"{" :: putStmts body (.op g!"}" :: k)))
  | .type t, k => t.put k
  | .many es, k => putExprs es [] ++ k

/-- Expressions with commas in between. -/
def putExprs : List Expr → List Tok → List Tok
  | [], k => k
  | e :: es, k => e.put (putRest es k)

/-- The expressions after the first. -/
def putRest : List Expr → List Tok → List Tok
  | [], k => k
  | e :: es, k => .op g!"," :: e.put (putRest es k)

/-- The tokens of a statement. -/
def Stmt.put : Stmt → List Tok → List Tok
  | .expr e, k => e.put k
  | .assign lhs rhs, k => putExprs lhs (.op g!"=" :: putExprs rhs k)
  | .define lhs rhs, k => putExprs lhs (.op g!":=" :: putExprs rhs k)
  | .inc e, k => e.put (.op g!"++" :: k)
  | .send ch v, k => ch.put (.op g!"<-" :: v.put k)
  | .var x t, k => .word g!"var" :: .word x :: t.put k
  | .varInit x e, k => .word g!"var" :: .word x :: .op g!"=" :: e.put k
  | .type x t, k => .word g!"type" :: .word x :: t.put k
  | .ret es, k => .word g!"return" :: putExprs es k
  | .cond c body, k => .word g!"if" :: c.put (.op g!"{" :: putStmts body (.op g!"}" :: k))
  | .condElse c body els, k => .word g!"if" :: c.put (.op g!"{" :: putStmts body
      (.op g!"}" :: .word g!"else" :: .op g!"{" :: putStmts els (.op g!"}" :: k)))
  | .condElseIf c body els, k => .word g!"if" :: c.put (.op g!"{" :: putStmts body
      (.op g!"}" :: .word g!"else" :: els.put k))
  | .condInit init c body, k => .word g!"if" :: init.put (.op g!";" :: c.put (.op g!"{" :: putStmts body (.op g!"}" :: k)))
  | .loop init c post body, k => .word g!"for" :: init.put (.op g!";" :: c.put (.op g!";" ::
      post.put (.op g!"{" :: putStmts body (.op g!"}" :: k))))
  | .forever body, k => .word g!"for" :: .op g!"{" :: putStmts body (.op g!"}" :: k)
  | .range xs e body, k => .word g!"for" :: putExprs xs (.op g!":=" :: .word g!"range" ::
      e.put (.op g!"{" :: putStmts body (.op g!"}" :: k)))
  | .defer e, k => .word g!"defer" :: e.put k
  | .go e, k => .word g!"go" :: e.put k
  | .select cs, k => .word g!"select" :: .op g!"{" :: putClauses cs (.op g!"}" :: k)
  | .many ss, k => putStmts ss [] ++ k

/-- Statements, each followed by a semicolon. -/
def putStmts : List Stmt → List Tok → List Tok
  | [], k => k
  | s :: ss, k => s.put (bif s.isMany then putStmts ss k else .op g!";" :: putStmts ss k)

def Clause.put : Clause → List Tok → List Tok
  | .case s body, k => .word g!"case" :: s.put (.op g!":" :: putStmts body k)
  | .default body, k => .word g!"default" :: .op g!":" :: putStmts body k

def putClauses : List Clause → List Tok → List Tok
  | [], k => k
  | c :: cs, k => c.put (putClauses cs k)

end

/-- The fields of a struct type. -/
inductive FieldDecl where
  | named (names : List Str) (t : Ty)
  /-- an embedded field -/
  | embedded (t : Ty)
  | many (fs : List FieldDecl)

mutual

def FieldDecl.put : FieldDecl → List Tok → List Tok
  | .named xs t, k => putNames xs (t.put (.op g!";" :: k))
  | .embedded t, k => t.put (.op g!";" :: k)
  | .many fs, k => putFields fs [] ++ k

/-- Fields, each followed by a semicolon. -/
def putFields : List FieldDecl → List Tok → List Tok
  | [], k => k
  | f :: fs, k => f.put (putFields fs k)

end

/-- Declarations. -/
inductive Decl where
  /-- `import ( "a"; b "c" )`, each with its optional name -/
  | imports (specs : List (Option Str × Str))
  /-- `type x struct { … }` -/
  | struct (x : Str) (fields : List FieldDecl)
  /-- `type x T` -/
  | type (x : Str) (t : Ty)
  /-- `var x = e` -/
  | var (x : Str) (e : Expr)
  /-- `func x(…) … { … }` -/
  | func (x : Str) (params : List Group) (results : Results) (body : List Stmt)
  /-- `func (r T) x(…) (…) { … }` -/
  | method (recv : Str) (t : Ty) (x : Str) (params results : List Group) (body : List Stmt)
  | many (ds : List Decl)

def putSpecs : List (Option Str × Str) → List Tok → List Tok
  | [], k => k
  | (none, p) :: r, k => .str p :: .op g!";" :: putSpecs r k
  | (some x, p) :: r, k => .word x :: .str p :: .op g!";" :: putSpecs r k

mutual

/-- The tokens of a declaration and the semicolon after it. -/
def Decl.put : Decl → List Tok → List Tok
  | .imports specs, k => .word g!"import" :: .op g!"(" :: putSpecs specs (.op g!")" :: .op g!";" :: k)
  | .struct x fs, k => .word g!"type" :: .word x :: .word g!"struct" :: .op g!"{" :: putFields fs (.op g!"}" :: .op g!";" :: k)
  | .type x t, k => .word g!"type" :: .word x :: t.put (.op g!";" :: k)
  | .var x e, k => .word g!"var" :: .word x :: .op g!"=" :: e.put (.op g!";" :: k)
  | .func x ps r body, k => .word g!"func" :: .word x :: .op g!"(" :: putGroups ps (.op g!")" :: r.put
      (.op g!"{" :: putStmts body (.op g!"}" :: .op g!";" :: k)))
  | .method r t x ps rs body, k =>
    .word g!"func" :: .op g!"(" :: .word r :: t.put (.op g!")" :: .word x :: .op g!"(" :: (putGroups ps [] ++ .op g!")" ::
      .op g!"(" :: (putGroups rs [] ++ .op g!")" :: .op g!"{" :: putStmts body (.op g!"}" :: .op g!";" :: k))))
  | .many ds, k => putDecls ds [] ++ k

/-- The declarations of a file. -/
def putDecls : List Decl → List Tok → List Tok
  | [], k => k
  | d :: ds, k => d.put (putDecls ds k)

end

end Gowrap.Go

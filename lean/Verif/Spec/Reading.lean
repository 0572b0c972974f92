import Verif.Spec.Reader
/-!
# What is read

The trees of the templates with the distinctions removed that the text does not show: types are the lists of their tokens, and what stands for several
expressions, statements, fields or declarations is replaced by these.
-/

namespace Gowrap.Go

open Gowrap

/-- The type is known by its tokens. -/
def Ty.normal (t : Ty) : Ty := .toks (t.put [])

def Group.normal : Group → Group
  | .mk xs t => .mk xs t.normal

def Results.normal : Results → Results
  | .none => .none
  | .one t => .one t.normal
  | .list gs => .list (gs.map Group.normal)

mutual

def Expr.normal : Expr → Expr
  | .id x => .id x
  | .str s => .str s
  | .num s => .num s
  | .sel e f => .sel e.normal f
  | .call f args comma => .call f.normal (normalExprs args) comma
  | .spread e => .spread e.normal
  | .index e i => .index e.normal i.normal
  | .un op e => .un op e.normal
  | .bin op a b => .bin op a.normal b.normal
  | .paren e => .paren e.normal
  | .assert e t => .assert e.normal t.normal
  | .lit t es comma => .lit t.normal (normalExprs es) comma
  | .pair k v => .pair k.normal v.normal
  | .fn ps r body => .fn (ps.map Group.normal) r.normal (normalStmts body)
  | .type t => .type t.normal
  | .many es => .many (normalExprs es)

def normalExprs : List Expr → List Expr
  | [] => []
  | .many es :: r => normalExprs es ++ normalExprs r
  | e :: r => e.normal :: normalExprs r

def Stmt.normal : Stmt → Stmt
  | .expr e => .expr e.normal
  | .assign l r => .assign (normalExprs l) (normalExprs r)
  | .define l r => .define (normalExprs l) (normalExprs r)
  | .inc e => .inc e.normal
  | .send ch v => .send ch.normal v.normal
  | .var x t => .var x t.normal
  | .varInit x e => .varInit x e.normal
  | .type x t => .type x t.normal
  | .ret es => .ret (normalExprs es)
  | .cond c b => .cond c.normal (normalStmts b)
  | .condElse c b b' => .condElse c.normal (normalStmts b) (normalStmts b')
  | .condElseIf c b s => .condElseIf c.normal (normalStmts b) s.normal
  | .condInit i c b => .condInit i.normal c.normal (normalStmts b)
  | .loop i c p b => .loop i.normal c.normal p.normal (normalStmts b)
  | .forever b => .forever (normalStmts b)
  | .range xs e b => .range (normalExprs xs) e.normal (normalStmts b)
  | .defer e => .defer e.normal
  | .go e => .go e.normal
  | .select cs => .select (normalClauses cs)
  | .many ss => .many (normalStmts ss)

def normalStmts : List Stmt → List Stmt
  | [] => []
  | .many ss :: r => normalStmts ss ++ normalStmts r
  | s :: r => s.normal :: normalStmts r

def Clause.normal : Clause → Clause
  | .case s b => .case s.normal (normalStmts b)
  | .default b => .default (normalStmts b)

def normalClauses : List Clause → List Clause
  | [] => []
  | c :: cs => c.normal :: normalClauses cs

end

def FieldDecl.normal : FieldDecl → FieldDecl
  | .named xs t => .named xs t.normal
  | .embedded t => .embedded t.normal
  | .many fs => .many fs

def Decl.normal : Decl → Decl
  | .imports specs => .imports specs
  | .struct x fs => .struct x ((flatFields fs).map FieldDecl.normal)
  | .type x t => .type x t.normal
  | .var x e => .var x e.normal
  | .func x ps r b => .func x (ps.map Group.normal) r.normal (normalStmts b)
  | .method r t x ps rs b => .method r t x (ps.map Group.normal) (rs.map Group.normal) (normalStmts b)
  | .many ds => .many ds

/-- The declarations as they are read. -/
def normalDecls (ds : List Decl) : List Decl := (flatDecls ds).map Decl.normal

/-- The tokens are read as a file: a package clause, an import declaration, and declarations. -/
def ReadsFile (l : List Tok) (package : Str) (imports : List Tok) (ds : List Decl) : Prop :=
  ∃ r, l = [.word g!"package", .word package, .op g!";", .word g!"import", .op g!"("] ++ imports ++ [.op g!")", .op g!";"] ++ r ∧
    .op g!")" ∉ imports ∧ Reads r ds

end Gowrap.Go

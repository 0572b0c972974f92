import Verif.Spec.Scope
/-!
# Memory that calls and goroutines share

Conditions on the text of a file under which code that runs at the same time shares no memory that changes: functions assign only to
their own variables, take no addresses of others, and what a goroutine sees of the function that started it is not assigned
any more.  What remains is sent over channels, changed by `sync/atomic`, or belongs to libraries and to the wrapped implementation ("The Go
Memory Model": a data race is a write of a variable that happens at the same time as another access to it).
-/

namespace Gowrap.Go

open Gowrap

/-! ## Assigned variables -/

mutual

/-- The variables through which an expression on the left of an assignment leads. -/
def Expr.roots : Expr → List Str
  | .id x => [x]
  | .sel e _ | .index e _ | .un _ e | .paren e => e.roots
  | .many es => rootsOf es
  | _ => []

def rootsOf : List Expr → List Str
  | [] => []
  | e :: es => e.roots ++ rootsOf es

end

mutual

/-- The names to which function literals in the expression assign, wherever they are declared. -/
def Expr.sets : Expr → List Str
  | .id _ | .str _ | .num _ | .type _ => []
  | .sel e _ | .spread e | .un _ e | .paren e | .assert e _ => e.sets
  | .call f es _ => f.sets ++ setsAny es
  | .index a b | .bin _ a b | .pair a b => a.sets ++ b.sets
  | .lit _ es _ => setsAny es
  | .fn _ r b => setsIn true r.names b
  | .many es => setsAny es

def setsAny : List Expr → List Str
  | [] => []
  | e :: es => e.sets ++ setsAny es

/-- The names to which a statement assigns in a function with results `rs`; a `return` with values assigns to the results.  If `all` is
false, only the names to which function literals in the statement assign. -/
def Stmt.sets (all : Bool) (rs : List Str) : Stmt → List Str
  | .expr e | .defer e | .go e => e.sets
  | .assign l r | .define l r => (bif all then rootsOf l else []) ++ (setsAny l ++ setsAny r)
  | .inc e => (bif all then e.roots else []) ++ e.sets
  | .send a b => a.sets ++ b.sets
  | .var x _ => bif all then [x] else []
  | .varInit x e => (bif all then [x] else []) ++ e.sets
  | .type _ _ => []
  | .ret [] => []
  | .ret (e :: es) => (bif all then rs else []) ++ (e.sets ++ setsAny es)
  | .cond c b => c.sets ++ setsIn all rs b
  | .condElse c a b => c.sets ++ (setsIn all rs a ++ setsIn all rs b)
  | .condElseIf c a s => c.sets ++ (setsIn all rs a ++ s.sets all rs)
  | .condInit s c b => s.sets all rs ++ (c.sets ++ setsIn all rs b)
  | .loop s c t b => s.sets all rs ++ (c.sets ++ (t.sets all rs ++ setsIn all rs b))
  | .forever b => setsIn all rs b
  | .range xs e b => (bif all then rootsOf xs else []) ++ (e.sets ++ setsIn all rs b)
  | .select cs => setsClauses all rs cs
  | .many ss => setsIn all rs ss

def setsIn (all : Bool) (rs : List Str) : List Stmt → List Str
  | [] => []
  | s :: ss => s.sets all rs ++ setsIn all rs ss

def setsClauses (all : Bool) (rs : List Str) : List Clause → List Str
  | [] => []
  | .case s b :: cs => s.sets all rs ++ (setsIn all rs b ++ setsClauses all rs cs)
  | .default b :: cs => setsIn all rs b ++ setsClauses all rs cs

end

/-! ## Own variables -/

mutual

/-- The expressions on the left of an assignment are variables in the list. -/
def Expr.ownTarget (own : List Str) : Expr → Bool
  | .id x => decide (x ∈ own)
  | .many es => ownTargets own es
  | _ => false

def ownTargets (own : List Str) : List Expr → Bool
  | [] => true
  | e :: es => e.ownTarget own && ownTargets own es

end

/-- The address of the expression is that of new memory or of a variable in the list. -/
def Expr.ownMemory (own : List Str) : Expr → Bool
  | .lit _ _ _ => true
  | .id x => decide (x ∈ own)
  | _ => false

/-- The function is one of `sync/atomic`. -/
def Expr.isAtomic : Expr → Bool
  | .sel (.id p) _ => decide (p = g!"atomic")
  | _ => false

mutual

/-- Function literals in the expression assign to variables in the list or to their own, and no address of another variable is taken, except
in the first argument of a function of `sync/atomic`. -/
def Expr.keeps (own : List Str) : Expr → Bool
  | .id _ | .str _ | .num _ | .type _ => true
  | .sel e _ | .spread e | .paren e | .assert e _ => e.keeps own
  | .un op e => (decide (op ≠ g!"&") || e.ownMemory own) && e.keeps own
  | .call f (.un op e :: es) _ => f.keeps own && ((f.isAtomic || (decide (op ≠ g!"&") || e.ownMemory own)) && (e.keeps own && keepsAny own es))
  | .call f es _ => f.keeps own && keepsAny own es
  | .index a b | .bin _ a b | .pair a b => a.keeps own && b.keeps own
  | .lit _ es _ => keepsAny own es
  | .fn ps r b => keepsIn (boundNames ps ++ r.names ++ own) b
  | .many es => keepsAny own es

def keepsAny (own : List Str) : List Expr → Bool
  | [] => true
  | e :: es => e.keeps own && keepsAny own es

/-- The statement assigns only to variables in the list or to those it declares itself. -/
def Stmt.keeps (own : List Str) : Stmt → Bool
  | .expr e | .defer e | .go e | .varInit _ e => e.keeps own
  | .assign l r => ownTargets own l && keepsAny own r
  | .define _ r => keepsAny own r
  | .inc e => e.ownTarget own
  | .send a b => a.keeps own && b.keeps own
  | .var _ _ | .type _ _ => true
  | .ret es => keepsAny own es
  | .cond c b => c.keeps own && keepsIn own b
  | .condElse c a b => c.keeps own && (keepsIn own a && keepsIn own b)
  | .condElseIf c a s => c.keeps own && (keepsIn own a && s.keeps own)
  | .condInit s c b => s.keeps own && (c.keeps (s.introduces ++ own) && keepsIn (s.introduces ++ own) b)
  | .loop s c t b => s.keeps own && (c.keeps (s.introduces ++ own) && (t.keeps (s.introduces ++ own) && keepsIn (s.introduces ++ own) b))
  | .forever b => keepsIn own b
  | .range xs e b => e.keeps own && keepsIn (idNames xs ++ own) b
  | .select cs => keepsClauses own cs
  | .many ss => keepsIn own ss

def keepsIn (own : List Str) : List Stmt → Bool
  | [] => true
  | s :: ss => s.keeps own && keepsIn (s.introduces ++ own) ss

def keepsClauses (own : List Str) : List Clause → Bool
  | [] => true
  | .case s b :: cs => s.keeps own && (keepsIn (s.introduces ++ own) b && keepsClauses own cs)
  | .default b :: cs => keepsIn own b && keepsClauses own cs

end

/-! ## Goroutines -/

mutual

/-- Goroutines that are started by function literals in the expression are apart from what is assigned later. -/
def Expr.Apart (later : List Str) : Expr → Prop
  | .id _ | .str _ | .num _ | .type _ => True
  | .sel e _ | .spread e | .un _ e | .paren e | .assert e _ => e.Apart later
  | .call f es _ => f.Apart later ∧ apartAny later es
  | .index a b | .bin _ a b | .pair a b => a.Apart later ∧ b.Apart later
  | .lit _ es _ => apartAny later es
  | .fn _ r b => apartIn r.names (setsIn true r.names b ++ later) b
  | .many es => apartAny later es

def apartAny (later : List Str) : List Expr → Prop
  | [] => True
  | e :: es => e.Apart later ∧ apartAny later es

/-- A goroutine that the statement starts assigns only to its own variables, and it uses no variable of the function that starts it to
which that function assigns later (`later`: the names to which the statements assign that may run after this one). -/
def Stmt.Apart (rs later : List Str) : Stmt → Prop
  | .go (.call (.fn ps r b) es _) => (keepsIn (boundNames ps ++ r.names) b = true ∧
      ∀ x ∈ later, x ∉ boundNames ps ++ r.names → usedIn x false b = false) ∧ apartIn r.names later b ∧ apartAny later es
  | .expr e | .defer e | .go e | .varInit _ e | .inc e => e.Apart later
  | .assign l r | .define l r => apartAny later l ∧ apartAny later r
  | .send a b => a.Apart later ∧ b.Apart later
  | .var _ _ | .type _ _ => True
  | .ret es => apartAny later es
  | .cond c b => c.Apart later ∧ apartIn rs later b
  | .condElse c a b => c.Apart later ∧ apartIn rs later a ∧ apartIn rs later b
  | .condElseIf c a s => c.Apart later ∧ apartIn rs later a ∧ s.Apart rs later
  | .condInit s c b => s.Apart rs (setsIn true rs b ++ later) ∧ c.Apart (setsIn true rs b ++ later) ∧ apartIn rs later b
  | .loop s c t b => s.Apart rs (t.sets true rs ++ (setsIn true rs b ++ later)) ∧ c.Apart (t.sets true rs ++ (setsIn true rs b ++ later)) ∧
      t.Apart rs (t.sets true rs ++ (setsIn true rs b ++ later)) ∧ apartIn rs (t.sets true rs ++ (setsIn true rs b ++ later)) b
  | .forever b => apartIn rs (setsIn true rs b ++ later) b
  | .range xs e b => e.Apart (setsIn true rs b ++ later) ∧ apartIn rs (rootsOf xs ++ (setsIn true rs b ++ later)) b
  | .select cs => apartClauses rs later cs
  | .many ss => apartIn rs later ss

def apartIn (rs later : List Str) : List Stmt → Prop
  | [] => True
  | s :: ss => s.Apart rs (setsIn true rs ss ++ later) ∧ apartIn rs later ss

def apartClauses (rs later : List Str) : List Clause → Prop
  | [] => True
  | .case s b :: cs => (s.Apart rs (setsIn true rs b ++ later) ∧ apartIn rs later b) ∧ apartClauses rs later cs
  | .default b :: cs => apartIn rs later b ∧ apartClauses rs later cs

end

/-- The goroutines that a function or method starts share no variable with it that is assigned after their start.  Function literals may
run at any time. -/
def Decl.Apart : Decl → Prop
  | .func _ _ r b => apartIn r.names (setsIn false r.names b) b
  | .method _ _ _ _ rs b => apartIn (boundNames rs) (setsIn false (boundNames rs) b) b
  | .var _ e => e.Apart []
  | _ => True

/-- The method assigns only to its parameters, its results and its local variables: not to fields of the decorator and not to variables
outside functions.  It takes no addresses of others, except for functions of `sync/atomic`. -/
def Decl.Keeps : Decl → Prop
  | .method _ _ _ ps rs b => keepsIn (boundNames ps ++ boundNames rs) b = true
  | _ => True

end Gowrap.Go

import Verif.Model.GoFile
/-!
# Terminating statements

"Terminating statements" of the Go specification: a function with results has to end in one, otherwise the compiler refuses the file
with "missing return".  The trees have no `break`, `goto`, labels and `switch`.
-/

namespace Gowrap.Go

open Gowrap

mutual

/-- After the statement no other is reached. -/
def Stmt.terminates : Stmt → Bool
  | .ret _ => true
  | .expr (.call (.id f) _ _) => decide (f = g!"panic")
  | .condElse _ b c => endsIn false b && endsIn false c
  | .condElseIf _ b s => endsIn false b && s.terminates
  | .forever _ => true
  | .select cs => clausesTerminate cs
  | _ => false

/-- The list of statements ends in a terminating statement; `last` tells whether the statement before the list is one. -/
def endsIn (last : Bool) : List Stmt → Bool
  | [] => last
  | .many ss :: r => endsIn (endsIn last ss) r
  | s :: r => endsIn s.terminates r

def clausesTerminate : List Clause → Bool
  | [] => true
  | .case _ b :: cs => endsIn false b && clausesTerminate cs
  | .default b :: cs => endsIn false b && clausesTerminate cs

end

/-- The number of results. -/
def groupCount : List Group → Nat
  | [] => 0
  | .mk [] _ :: gs => 1 + groupCount gs
  | .mk xs _ :: gs => xs.length + groupCount gs

def Results.count : Results → Nat
  | .none => 0
  | .one _ => 1
  | .list gs => groupCount gs

mutual

/-- Every function literal of the expression has no results or a body that ends in a terminating statement. -/
def Expr.literalsReturn : Expr → Bool
  | .id _ | .str _ | .num _ | .type _ => true
  | .sel e _ | .spread e | .un _ e | .paren e | .assert e _ => e.literalsReturn
  | .call f es _ => f.literalsReturn && literalsReturnIn es
  | .index a b | .bin _ a b | .pair a b => a.literalsReturn && b.literalsReturn
  | .lit _ es _ => literalsReturnIn es
  | .fn _ r b => (decide (r.count = 0) || endsIn false b) && literalsReturnIns b
  | .many es => literalsReturnIn es

def literalsReturnIn : List Expr → Bool
  | [] => true
  | e :: es => e.literalsReturn && literalsReturnIn es

def Stmt.literalsReturn : Stmt → Bool
  | .expr e | .inc e | .varInit _ e | .defer e | .go e => e.literalsReturn
  | .assign a b | .define a b => literalsReturnIn a && literalsReturnIn b
  | .send a b => a.literalsReturn && b.literalsReturn
  | .var _ _ | .type _ _ => true
  | .ret es => literalsReturnIn es
  | .cond c b => c.literalsReturn && literalsReturnIns b
  | .condElse c a b => c.literalsReturn && (literalsReturnIns a && literalsReturnIns b)
  | .condElseIf c a s => c.literalsReturn && (literalsReturnIns a && s.literalsReturn)
  | .condInit s c b => s.literalsReturn && (c.literalsReturn && literalsReturnIns b)
  | .loop s c t b => s.literalsReturn && (c.literalsReturn && (t.literalsReturn && literalsReturnIns b))
  | .forever b => literalsReturnIns b
  | .range xs e b => literalsReturnIn xs && (e.literalsReturn && literalsReturnIns b)
  | .select cs => clausesLiteralsReturn cs
  | .many ss => literalsReturnIns ss

def literalsReturnIns : List Stmt → Bool
  | [] => true
  | s :: ss => s.literalsReturn && literalsReturnIns ss

def clausesLiteralsReturn : List Clause → Bool
  | [] => true
  | .case s b :: cs => s.literalsReturn && (literalsReturnIns b && clausesLiteralsReturn cs)
  | .default b :: cs => literalsReturnIns b && clausesLiteralsReturn cs

end

/-- A function or method without results, or one whose body ends in a terminating statement; and the same for the function literals in
it. -/
def Decl.Returns : Decl → Prop
  | .func _ _ r b => (r.count = 0 ∨ endsIn false b = true) ∧ literalsReturnIns b = true
  | .method _ _ _ _ rs b => (groupCount rs = 0 ∨ endsIn false b = true) ∧ literalsReturnIns b = true
  | .var _ e => e.literalsReturn = true
  | _ => True

end Gowrap.Go

import Verif.Spec.Grammar
/-!
# Reading Go source

A recursive descent parser for the part of Go that the built-in templates use, in the manner of go/parser: operators by their precedence,
selectors, calls, indices and literals as long as they follow an operand, no composite literals in the headers of statements, and
parameters that are either all named or all unnamed.  It reads a list of tokens in exactly one way, whatever the text was made of.

Types are not looked into: a type is the list of its tokens.  Where it ends is found by `scan`, which knows the grammar of types, including arrays,
channels with a direction, type arguments and parentheses, and skips what is in brackets.

The first argument of most functions limits the depth of the recursion; `Reads` says that the result does not depend on it.
-/

namespace Gowrap.Go.Reader

open Gowrap Go

/-- The operator at the beginning. -/
def headOp : List Tok → Str
  | .op o :: _ => o
  | _ => []

/-- The word at the beginning. -/
def headWord : List Tok → Str
  | .word x :: _ => x
  | _ => []

/-! ## Types -/

/-- What has been read of a type. -/
inductive At where
  /-- a type must follow -/
  | type
  /-- after `map` -/
  | map
  /-- after `chan` -/
  | chan
  /-- after `func` -/
  | func
  /-- after `struct` or `interface` -/
  | body
  /-- after a name -/
  | name
  /-- after a name and a dot -/
  | dot
  /-- after the parameters of a function type: results may follow -/
  | params
  /-- after a type -/
  | done

def isOpen (o : Str) : Bool := o = g!"(" || o = g!"[" || o = g!"{"
def isClose (o : Str) : Bool := o = g!")" || o = g!"]" || o = g!"}"

/-- The first token of a type: what has been read then, and whether a bracket is open. -/
def enter : Tok → Option (At × Nat)
  | .word x =>
    if x = g!"map" then some (.map, 0)
    else if x = g!"chan" then some (.chan, 0)
    else if x = g!"func" then some (.func, 0)
    else if x = g!"struct" then some (.body, 0)
    else if x = g!"interface" then some (.body, 0)
    else if x ∈ keywords then none
    else some (.name, 0)
  | .op o =>
    if o = g!"*" then some (.type, 0)
    else if o = g!"<-" then some (.type, 0)
    else if o = g!"[" then some (.type, 1)
    else if o = g!"(" then some (.done, 1)
    else none
  | _ => none

/-- The next token of a type, outside brackets. -/
inductive Next where
  | go (a : At) (depth : Nat)
  /-- the type ends before the token -/
  | stop
  | fail

def At.next : At → Tok → Next
  | .type, t => match enter t with | some (a, d) => .go a d | none => .fail
  | .map, t => if t = .op g!"[" then .go .type 1 else .fail
  | .chan, t => if t = .op g!"<-" then .go .type 0 else match enter t with | some (a, d) => .go a d | none => .fail
  | .func, t => if t = .op g!"(" then .go .params 1 else .fail
  | .body, t => if t = .op g!"{" then .go .done 1 else .fail
  | .name, t => if t = .op g!"." then .go .dot 0 else if t = .op g!"[" then .go .done 1 else .stop
  | .dot, t => match t with | .word _ => .go .name 0 | _ => .fail
  | .params, t => match enter t with | some (a, d) => .go a d | none => .stop
  | .done, _ => .stop

/-- The end of the tokens. -/
def At.over : At → Bool
  | .name | .params | .done => true
  | _ => false

/-- Reads a type, `d` brackets being open; what follows it. -/
def scan : At → Nat → List Tok → Option (List Tok)
  | a, 0, [] => if a.over then some [] else none
  | a, 0, t :: r => match a.next t with
    | .go b d => scan b d r
    | .stop => some (t :: r)
    | .fail => none
  | _, _ + 1, [] => none
  | a, d + 1, t :: r => match t with
    | .op o => if isOpen o then scan a (d + 2) r else if isClose o then scan a d r else scan a (d + 1) r
    | _ => scan a (d + 1) r

/-- The tokens of a type and what follows. -/
def span (l : List Tok) : Option (List Tok × List Tok) := (scan .type 0 l).map fun r => (l.take (l.length - r.length), r)

/-- The type of a parameter. -/
def paramType (l : List Tok) : Option (List Tok × List Tok) :=
  if headOp l = g!"..." then (span l.tail).map fun t => (.op g!"..." :: t.1, t.2) else span l

/-- Unnamed parameters, up to the closing parenthesis. -/
def types : Nat → List Tok → Option (List Group × List Tok)
  | 0, _ => none
  | n + 1, l => (paramType l).bind fun t =>
    if headOp t.2 = g!")" then some ([.mk [] (.toks t.1)], t.2.tail)
    else if headOp t.2 = g!"," then (types n t.2.tail).map fun y => (.mk [] (.toks t.1) :: y.1, y.2)
    else none

/-- One more name before the first type. -/
def addName (x : Str) : List Group → List Group
  | .mk xs t :: gs => .mk (x :: xs) t :: gs
  | [] => []

/-- Named parameters, up to the closing parenthesis. -/
def named : Nat → List Tok → Option (List Group × List Tok)
  | 0, _ => none
  | n + 1, l => match l with
    | .word x :: r =>
      if headOp r = g!"," then (named n r.tail).map fun y => (addName x y.1, y.2)
      else (paramType r).bind fun t =>
        if headOp t.2 = g!")" then some ([.mk [x] (.toks t.1)], t.2.tail)
        else if headOp t.2 = g!"," then (named n t.2.tail).map fun y => (.mk [x] (.toks t.1) :: y.1, y.2)
        else none
    | _ => none

/-- Parameters, up to the closing parenthesis. -/
def params (n : Nat) (l : List Tok) : Option (List Group × List Tok) :=
  if headOp l = g!")" then some ([], l.tail)
  else match types n l with
    | some r => some r
    | none => named n l

/-- The results of a function before its body. -/
def results (n : Nat) (l : List Tok) : Option (Results × List Tok) :=
  if headOp l = g!"{" then some (.none, l)
  else if headOp l = g!"(" then (params n l.tail).map fun y => (.list y.1, y.2)
  else (span l).map fun t => (.one (.toks t.1), t.2)

/-! ## Expressions and statements -/

/-- The name of a type before the brace of a composite literal. -/
def typeName : Expr → Option (List Tok)
  | .id x => some [.word x]
  | .sel (.id p) x => some [.word p, .op g!".", .word x]
  | _ => none

/-- The keywords with which a type begins that can be an operand. -/
def typeWords : List Str := [g!"map", g!"chan", g!"struct", g!"interface"]

/-- After a token. -/
def after {α : Type} (o : Str) (x : α × List Tok) : Option (α × List Tok) := if headOp x.2 = o then some (x.1, x.2.tail) else none

mutual

/-- An expression; `lit` says whether a brace after a name begins a composite literal, operators bind at least as tight as `q`. -/
def expr : Nat → Bool → Nat → List Tok → Option (Expr × List Tok)
  | 0, _, _, _ => none
  | n + 1, lit, q, l => (unary n lit l).bind fun x => binary n lit q x.1 x.2

/-- The operators that follow an operand. -/
def binary : Nat → Bool → Nat → Expr → List Tok → Option (Expr × List Tok)
  | 0, _, _, _, _ => none
  | n + 1, lit, q, x, l => match binPrec (headOp l) with
    | some p => if q ≤ p then (expr n lit (p + 1) l.tail).bind fun y => binary n lit q (.bin (headOp l) x y.1) y.2 else some (x, l)
    | none => some (x, l)

def unary : Nat → Bool → List Tok → Option (Expr × List Tok)
  | 0, _, _ => none
  | n + 1, lit, l =>
    if headOp l ∈ unaryOps then (unary n lit l.tail).map fun y => (.un (headOp l) y.1, y.2)
    else (operand n l).bind fun x => suffix n lit x.1 x.2

def operand : Nat → List Tok → Option (Expr × List Tok)
  | 0, _ => none
  | n + 1, l => match l with
    | .str s :: r => some (.str s, r)
    | .num s :: r => some (.num s, r)
    | .word x :: r =>
      if x = g!"func" then
        if headOp r = g!"(" then (params n r.tail).bind fun ps => (results n ps.2).bind fun rs =>
          (block n rs.2).map fun b => (.fn ps.1 rs.1 b.1, b.2)
        else none
      else if x ∈ typeWords then typeOperand n l
      else if x ∈ keywords then none
      else some (.id x, r)
    | .op o :: r =>
      if o = g!"(" then (expr n true 0 r).bind fun x => (after g!")" x).map fun y => (.paren y.1, y.2)
      else if o = g!"[" then typeOperand n l
      else none
    | [] => none

/-- A composite literal, or a type. -/
def typeOperand : Nat → List Tok → Option (Expr × List Tok)
  | 0, _ => none
  | n + 1, l => (span l).bind fun t =>
    if headOp t.2 = g!"{" then (items n g!"}" t.2.tail).map fun y => (.lit (.toks t.1) y.1 y.2.1, y.2.2)
    else some (.type (.toks t.1), t.2)

/-- Selectors, calls and so on that follow an operand. -/
def suffix : Nat → Bool → Expr → List Tok → Option (Expr × List Tok)
  | 0, _, _, _ => none
  | n + 1, lit, e, l =>
    if headOp l = g!"." then match l.tail with
      | .word f :: r => suffix n lit (.sel e f) r
      | .op o :: r => if o = g!"(" then (span r).bind fun t => (after g!")" t).bind fun t => suffix n lit (.assert e (.toks t.1)) t.2 else none
      | _ => none
    else if headOp l = g!"(" then (items n g!")" l.tail).bind fun y => suffix n lit (.call e y.1 y.2.1) y.2.2
    else if headOp l = g!"[" then (expr n true 0 l.tail).bind fun x => (after g!"]" x).bind fun y => suffix n lit (.index e y.1) y.2
    else if headOp l = g!"{" ∧ lit = true then match typeName e with
      | some t => (items n g!"}" l.tail).bind fun y => suffix n lit (.lit (.toks t) y.1 y.2.1) y.2.2
      | none => some (e, l)
    else some (e, l)

/-- Arguments or elements up to a bracket, and whether a comma precedes it. -/
def items : Nat → Str → List Tok → Option (List Expr × Bool × List Tok)
  | 0, _, _ => none
  | n + 1, close, l => if headOp l = close then some ([], false, l.tail) else more n close l

/-- At least one. -/
def more : Nat → Str → List Tok → Option (List Expr × Bool × List Tok)
  | 0, _, _ => none
  | n + 1, close, l => (item n l).bind fun x => (rest n close x.2).map fun y => (x.1 :: y.1, y.2)

/-- After an argument or element. -/
def rest : Nat → Str → List Tok → Option (List Expr × Bool × List Tok)
  | 0, _, _ => none
  | n + 1, close, l =>
    if headOp l = close then some ([], false, l.tail)
    else if headOp l = g!"," then
      if headOp l.tail = close then some ([], true, l.tail.tail) else more n close l.tail
    else none

/-- An argument or an element. -/
def item : Nat → List Tok → Option (Expr × List Tok)
  | 0, _ => none
  | n + 1, l => (expr n true 0 l).bind fun x =>
    if headOp x.2 = g!"..." then some (.spread x.1, x.2.tail)
    else if headOp x.2 = g!":" then (expr n true 0 x.2.tail).map fun y => (.pair x.1 y.1, y.2)
    else some x

/-- Expressions with commas in between. -/
def exprs : Nat → Bool → List Tok → Option (List Expr × List Tok)
  | 0, _, _ => none
  | n + 1, lit, l => (expr n lit 0 l).bind fun x =>
    if headOp x.2 = g!"," then (exprs n lit x.2.tail).map fun y => (x.1 :: y.1, y.2) else some ([x.1], x.2)

/-- Statements between braces. -/
def block : Nat → List Tok → Option (List Stmt × List Tok)
  | 0, _ => none
  | n + 1, l => if headOp l = g!"{" then (stmts n l.tail).bind (after g!"}") else none

/-- The statements of a block, up to its end. -/
def stmts : Nat → List Tok → Option (List Stmt × List Tok)
  | 0, _ => none
  | n + 1, l =>
    if headOp l = g!"}" ∨ headWord l = g!"case" ∨ headWord l = g!"default" then some ([], l)
    else (stmt n l).bind fun s => (after g!";" s).bind fun s => (stmts n s.2).map fun y => (s.1 :: y.1, y.2)

def stmt : Nat → List Tok → Option (Stmt × List Tok)
  | 0, _ => none
  | n + 1, l =>
    if headWord l = g!"var" then match l.tail with
      | .word x :: r =>
        if headOp r = g!"=" then (expr n true 0 r.tail).map fun y => (.varInit x y.1, y.2)
        else (span r).map fun t => (.var x (.toks t.1), t.2)
      | _ => none
    else if headWord l = g!"type" then match l.tail with
      | .word x :: r => (span r).map fun t => (.type x (.toks t.1), t.2)
      | _ => none
    else if headWord l = g!"return" then
      if headOp l.tail = g!";" then some (.ret [], l.tail) else (exprs n true l.tail).map fun y => (.ret y.1, y.2)
    else if headWord l = g!"if" then ifStmt n l.tail
    else if headWord l = g!"for" then forStmt n l.tail
    else if headWord l = g!"defer" then (expr n true 0 l.tail).map fun y => (.defer y.1, y.2)
    else if headWord l = g!"go" then (expr n true 0 l.tail).map fun y => (.go y.1, y.2)
    else if headWord l = g!"select" then
      if headOp l.tail = g!"{" then (clauses n l.tail.tail).bind fun c => (after g!"}" c).map fun y => (.select y.1, y.2) else none
    else simple n true l

/-- Expressions, assignments and so on. -/
def simple : Nat → Bool → List Tok → Option (Stmt × List Tok)
  | 0, _, _ => none
  | n + 1, lit, l => (exprs n lit l).bind fun xs => simpleRest n lit xs.1 xs.2

/-- What follows the first expressions of a statement. -/
def simpleRest : Nat → Bool → List Expr → List Tok → Option (Stmt × List Tok)
  | 0, _, _, _ => none
  | n + 1, lit, xs, l =>
    if headOp l = g!"=" then (exprs n lit l.tail).map fun y => (.assign xs y.1, y.2)
    else if headOp l = g!":=" then (exprs n lit l.tail).map fun y => (.define xs y.1, y.2)
    else match xs with
      | [x] =>
        if headOp l = g!"++" then some (.inc x, l.tail)
        else if headOp l = g!"<-" then (expr n lit 0 l.tail).map fun y => (.send x y.1, y.2)
        else some (.expr x, l)
      | _ => none

/-- After `if`. -/
def ifStmt : Nat → List Tok → Option (Stmt × List Tok)
  | 0, _ => none
  | n + 1, l => (simple n false l).bind fun s =>
    if headOp s.2 = g!";" then (expr n false 0 s.2.tail).bind fun c => (block n c.2).map fun b => (.condInit s.1 c.1 b.1, b.2)
    else match s.1 with
      | .expr c => (block n s.2).bind fun b =>
        if headWord b.2 = g!"else" then
          if headWord b.2.tail = g!"if" then (ifStmt n b.2.tail.tail).map fun e => (.condElseIf c b.1 e.1, e.2)
          else (block n b.2.tail).map fun e => (.condElse c b.1 e.1, e.2)
        else some (.cond c b.1, b.2)
      | _ => none

/-- After `for`. -/
def forStmt : Nat → List Tok → Option (Stmt × List Tok)
  | 0, _ => none
  | n + 1, l =>
    if headOp l = g!"{" then (block n l).map fun b => (.forever b.1, b.2)
    else (exprs n false l).bind fun xs =>
      if headOp xs.2 = g!":=" ∧ headWord xs.2.tail = g!"range" then
        (expr n false 0 xs.2.tail.tail).bind fun e => (block n e.2).map fun b => (.range xs.1 e.1 b.1, b.2)
      else (simpleRest n false xs.1 xs.2).bind fun i => (after g!";" i).bind fun i => (expr n false 0 i.2).bind fun c => (after g!";" c).bind fun c =>
        (simple n false c.2).bind fun p => (block n p.2).map fun b => (.loop i.1 c.1 p.1 b.1, b.2)

/-- The clauses of a `select`. -/
def clauses : Nat → List Tok → Option (List Clause × List Tok)
  | 0, _ => none
  | n + 1, l =>
    if headWord l = g!"case" then (simple n true l.tail).bind fun s => (after g!":" s).bind fun s => (stmts n s.2).bind fun b =>
      (clauses n b.2).map fun y => (.case s.1 b.1 :: y.1, y.2)
    else if headWord l = g!"default" then
      if headOp l.tail = g!":" then (stmts n l.tail.tail).bind fun b => (clauses n b.2).map fun y => (.default b.1 :: y.1, y.2) else none
    else some ([], l)

end

/-! ## Declarations -/

/-- The names of a field and its type. -/
def field : Nat → List Tok → Option ((List Str × List Tok) × List Tok)
  | 0, _ => none
  | n + 1, l => match l with
    | .word x :: r =>
      if headOp r = g!"," then (field n r.tail).map fun y => ((x :: y.1.1, y.1.2), y.2)
      else (span r).map fun t => (([x], t.1), t.2)
    | _ => none

/-- The type of an embedded field and the semicolon after it. -/
def embedded (l : List Tok) : Option (List Tok × List Tok) := (span l).bind (after g!";")

/-- The fields of a struct type, up to its end. -/
def fields : Nat → List Tok → Option (List FieldDecl × List Tok)
  | 0, _ => none
  | n + 1, l =>
    if headOp l = g!"}" then some ([], l)
    else match embedded l with
      | some t => (fields n t.2).map fun y => (.embedded (.toks t.1) :: y.1, y.2)
      | none => (field n l).bind fun f => (after g!";" f).bind fun f => (fields n f.2).map fun y => (.named f.1.1 (.toks f.1.2) :: y.1, y.2)

/-- The imports, up to the closing parenthesis. -/
def specs : Nat → List Tok → Option (List (Option Str × Str) × List Tok)
  | 0, _ => none
  | n + 1, l => match l with
    | .str p :: r => if headOp r = g!";" then (specs n r.tail).map fun y => ((none, p) :: y.1, y.2) else none
    | .word x :: .str p :: r => if headOp r = g!";" then (specs n r.tail).map fun y => ((some x, p) :: y.1, y.2) else none
    | _ => some ([], l)

/-- The type of a receiver and the closing parenthesis. -/
def receiver : List Tok → Option (Ty × List Tok)
  | .word t :: r => after g!")" (.name t, r)
  | .op o :: .word t :: r => if o = g!"*" then after g!")" (.ptr (.name t), r) else none
  | _ => none

def decl : Nat → List Tok → Option (Decl × List Tok)
  | 0, _ => none
  | n + 1, l =>
    if headWord l = g!"import" then
      if headOp l.tail = g!"(" then (specs n l.tail.tail).bind fun s => (after g!")" s).map fun s => (.imports s.1, s.2) else none
    else if headWord l = g!"type" then match l.tail with
      | .word x :: r =>
        if headWord r = g!"struct" then
          if headOp r.tail = g!"{" then (fields n r.tail.tail).bind fun f => (after g!"}" f).map fun f => (.struct x f.1, f.2) else none
        else (span r).map fun t => (.type x (.toks t.1), t.2)
      | _ => none
    else if headWord l = g!"var" then match l.tail with
      | .word x :: r => if headOp r = g!"=" then (expr n true 0 r.tail).map fun e => (.var x e.1, e.2) else none
      | _ => none
    else if headWord l = g!"func" then match l.tail with
      | .word x :: r =>
        if headOp r = g!"(" then (params n r.tail).bind fun ps => (results n ps.2).bind fun rs => (block n rs.2).map fun b => (.func x ps.1 rs.1 b.1, b.2) else none
      | .op o :: .word r :: k =>
        if o = g!"(" then (receiver k).bind fun t => match t.2 with
          | .word x :: k =>
            if headOp k = g!"(" then (params n k.tail).bind fun ps =>
              if headOp ps.2 = g!"(" then (params n ps.2.tail).bind fun rs => (block n rs.2).map fun b => (.method r t.1 x ps.1 rs.1 b.1, b.2) else none
            else none
          | _ => none
        else none
      | _ => none
    else none

/-- The declarations of a file. -/
def decls : Nat → List Tok → Option (List Decl)
  | 0, _ => none
  | n + 1, l => match l with
    | [] => some []
    | _ => (decl n l).bind fun d => (after g!";" d).bind fun d => (decls n d.2).map (d.1 :: ·)

end Gowrap.Go.Reader

namespace Gowrap.Go

/-- The tokens are read as these declarations. -/
def Reads (l : List Tok) (ds : List Decl) : Prop := ∃ N, ∀ n, N ≤ n → Reader.decls n l = some ds

end Gowrap.Go

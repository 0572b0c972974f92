import Verif.Proofs.SymExec
/-!
# From tokens with holes to syntax trees

A parser for the tokens that `SState.run` gives for the text of a template.  It is not trusted: the tokens of the
resulting trees are compared with the tokens of the text by computation.
-/

namespace Gowrap.Tmpl.Parse

open Gowrap Go Tmpl

abbrev ST := STok Hole

/-- The tokens, in order. -/
def fwd (f : Fill) : List ST → List Go.Tok
  | [] => []
  | .word s :: r => .word (f.sub.expand s) :: fwd f r
  | .str s :: r => .str (f.sub.expand s) :: fwd f r
  | .num s :: r => .num s :: fwd f r
  | .op s :: r => .op s :: fwd f r
  | .hole h :: r => f.htoks h ++ fwd f r

def kw (t : ST) : Str :=
  match t with
  | .word s => (plain s).getD []
  | _ => []

def opText (t : ST) : Str :=
  match t with
  | .op s => s
  | _ => []

def expect (s : Str) : List ST → Option (List ST)
  | t :: r => if opText t = s then some r else none
  | [] => none

def headOp (ts : List ST) : Str := match ts with
  | t :: _ => opText t
  | [] => []

def headKw (ts : List ST) : Str := match ts with
  | t :: _ => kw t
  | [] => []

/-- An expression that is used as a type. -/
def asType : Go.Expr → Option Ty
  | .id x => some (.name x)
  | .sel (.id a) b => some (.qual a b)
  | .type t => some t
  | _ => none

variable (f : Fill)

def word : ST → Option Str
  | .word s => some (f.sub.expand s)
  | _ => none

/-- Whether a list starts with names and a type. -/
def named : List ST → Bool
  | .word _ :: .op o :: r => if o = g!"," then named r else o = g!"*" ∨ o = g!"[" ∨ o = g!"..."
  | .word _ :: .word _ :: _ => true
  | .word _ :: .hole _ :: _ => true
  | _ => false

/-- Names with commas in between. -/
def names : Nat → List ST → Option (List Str × List ST)
  | 0, _ => none
  | fuel + 1, ts =>
    match ts with
    | .word x :: r =>
      if headOp r = g!"," then do
        let (xs, r) ← names fuel r.tail
        return (f.sub.expand x :: xs, r)
      else some ([f.sub.expand x], r)
    | _ => none

mutual

/-- A type. -/
def type : Nat → List ST → Option (Ty × List ST)
  | 0, _ => none
  | fuel + 1, ts =>
    match ts with
    | [] => none
    | t :: r =>
      match t with
      | .hole .typ => some (.toks (f.htoks .typ), r)
      | .hole .rstruct => some (.part (resultsStructType f.m.results), r)
      | .op o =>
        if o = g!"*" then do
          let (a, r) ← type fuel r
          return (.ptr a, r)
        else if o = g!"..." then do
          let (a, r) ← type fuel r
          return (.dots a, r)
        else if o = g!"[" then do
          let r ← expect g!"]" r
          let (b, r) ← type fuel r
          return (.slice b, r)
        else none
      | .word x =>
        let k := kw t
        if k = g!"map" then do
          let r ← expect g!"[" r
          let (a, r) ← type fuel r
          let r ← expect g!"]" r
          let (b, r) ← type fuel r
          return (.map a b, r)
        else if k = g!"chan" then do
          let (a, r) ← type fuel r
          return (.chan a, r)
        else if k = g!"interface" then do
          let r ← expect g!"{" r
          let (ms, r) ← imethods fuel r
          return (.iface ms, r)
        else if k = g!"struct" then do
          let r ← expect g!"{" r
          let r ← expect g!"}" r
          return (.struct [], r)
        else if k = g!"func" then do
          let (gs, q, r) ← sig fuel r
          return (.func gs q, r)
        else
          match r with
          | u :: v :: r' => match u, v with
            | .op o, .word y => if o = g!"." then some (.qual (f.sub.expand x) (f.sub.expand y), r') else some (.name (f.sub.expand x), r)
            | _, _ => some (.name (f.sub.expand x), r)
          | _ => some (.name (f.sub.expand x), r)
      | _ => none

/-- Parameters up to and including the closing bracket. -/
def groups : Nat → List ST → Option (List Group × List ST)
  | 0, _ => none
  | fuel + 1, ts =>
    if headOp ts = g!")" then some ([], ts.tail)
    else do
      let (xs, r) ← if named ts then names f (fuel + 1) ts else some ([], ts)
      let (t, r) ← type fuel r
      if headOp r = g!"," then do
        let (gs, r) ← groups fuel r.tail
        return (.mk xs t :: gs, r)
      else do
        let r ← expect g!")" r
        return ([.mk xs t], r)

/-- Parameters and results. -/
def sig : Nat → List ST → Option (List Group × Results × List ST)
  | 0, _ => none
  | fuel + 1, ts => do
    let r ← expect g!"(" ts
    let (gs, r) ← groups fuel r
    if headOp r = g!"(" then do
      let (rs, r) ← groups fuel r.tail
      return (gs, .list rs, r)
    else match type fuel r with
      | some (t, r) => return (gs, .one t, r)
      | none => return (gs, .none, r)

def imethods : Nat → List ST → Option (List IfaceMethod × List ST)
  | 0, _ => none
  | fuel + 1, ts =>
    match ts with
    | .word x :: r => do
      let (gs, q, r) ← sig fuel r
      let r ← expect g!"}" r
      return ([.mk (f.sub.expand x) gs q], r)
    | _ => do
      let r ← expect g!"}" ts
      return ([], r)

end

mutual

/-- Binary expressions with operators of at least precedence `p`; `lit` says that literals are allowed. -/
def expr : Nat → Bool → Nat → List ST → Option (Go.Expr × List ST)
  | 0, _, _, _ => none
  | fuel + 1, lit, p, ts => do
    let (e, r) ← unary fuel lit ts
    binary fuel lit p e r

def binary : Nat → Bool → Nat → Go.Expr → List ST → Option (Go.Expr × List ST)
  | 0, _, _, _, _ => none
  | fuel + 1, lit, p, e, ts =>
    match binPrec (headOp ts) with
    | some q =>
      if p ≤ q then do
        let (e', r) ← expr fuel lit (q + 1) ts.tail
        binary fuel lit p (.bin (headOp ts) e e') r
      else some (e, ts)
    | none => some (e, ts)

def unary : Nat → Bool → List ST → Option (Go.Expr × List ST)
  | 0, _, _ => none
  | fuel + 1, lit, ts =>
    let o := headOp ts
    if o = g!"!" ∨ o = g!"&" ∨ o = g!"*" ∨ o = g!"<-" then do
      let (e, r) ← unary fuel lit ts.tail
      return (.un o e, r)
    else do
      let (e, r) ← operand fuel ts
      suffix fuel lit e r

def operand : Nat → List ST → Option (Go.Expr × List ST)
  | 0, _ => none
  | fuel + 1, ts =>
    match ts with
    | [] => none
    | t :: r =>
      match t with
      | .num s => some (.num s, r)
      | .str s => some (.str (f.sub.expand s), r)
      | .op o =>
        if o = g!"(" then do
          let (e, r) ← expr fuel true 1 r
          let r ← expect g!")" r
          return (.paren e, r)
        else do
          let (a, r) ← type f fuel ts
          return (.type a, r)
      | .hole .typ => some (.type (.toks (f.htoks .typ)), r)
      | .hole .pnames => some (.many f.pnames, r)
      | .hole .rnames => some (.many f.rnames, r)
      | .hole .args => some (.many f.args, r)
      | .hole .resFields => some (.many f.resFields, r)
      | .hole .pmap => some (.many [mapExpr f.m.params], r)
      | .hole .rmap => some (.many [mapExpr f.m.results], r)
      | .hole _ => none
      | .word s =>
        let k := kw t
        if k = g!"func" then do
          let (gs, q, r) ← sig f fuel r
          let (b, r) ← block fuel r
          return (.fn gs q b, r)
        else if k = g!"map" ∨ k = g!"chan" ∨ k = g!"interface" ∨ k = g!"struct" then do
          let (a, r) ← type f fuel ts
          return (.type a, r)
        else some (.id (f.sub.expand s), r)

def suffix : Nat → Bool → Go.Expr → List ST → Option (Go.Expr × List ST)
  | 0, _, _, _ => none
  | fuel + 1, lit, e, ts =>
    let o := headOp ts
    let r := ts.tail
    if o = g!"." then
      match r with
      | .word s :: r => suffix fuel lit (.sel e (f.sub.expand s)) r
      | .op _ :: r => do
        let (a, r) ← type f fuel r
        let r ← expect g!")" r
        suffix fuel lit (.assert e a) r
      | _ => none
    else if o = g!"(" then do
      let (es, c, r) ← exprs fuel r
      let r ← expect g!")" r
      suffix fuel lit (.call e es c) r
    else if o = g!"[" then do
      let (i, r) ← expr fuel true 1 r
      let r ← expect g!"]" r
      suffix fuel lit (.index e i) r
    else if o = g!"..." then some (.spread e, r)
    else if o = g!"{" then
      match lit, asType e with
      | true, some t => do
        let (es, c, r) ← exprs fuel r
        let r ← expect g!"}" r
        suffix fuel lit (.lit t es c) r
      | _, _ => some (e, ts)
    else some (e, ts)

/-- Expressions or pairs up to a closing bracket; whether a comma follows the last. -/
def exprs : Nat → List ST → Option (List Go.Expr × Bool × List ST)
  | 0, _ => none
  | fuel + 1, ts =>
    let o := headOp ts
    if o = g!")" ∨ o = g!"}" then some ([], false, ts)
    else do
      let (e, r) ← expr fuel true 1 ts
      let (e, r) ← pair fuel e r
      if headOp r = g!"," then
        if headOp r.tail = g!")" ∨ headOp r.tail = g!"}" then return ([e], true, r.tail)
        else do
          let (es, c, r) ← exprs fuel r.tail
          return (e :: es, c, r)
      else return ([e], false, r)

def pair : Nat → Go.Expr → List ST → Option (Go.Expr × List ST)
  | 0, _, _ => none
  | fuel + 1, e, ts =>
    if headOp ts = g!":" then do
      let (v, r) ← expr fuel true 1 ts.tail
      return (.pair e v, r)
    else some (e, ts)

/-- Expressions with commas in between. -/
def list : Nat → Bool → List ST → Option (List Go.Expr × List ST)
  | 0, _, _ => none
  | fuel + 1, lit, ts => do
    let (e, r) ← expr fuel lit 1 ts
    if headOp r = g!"," then do
      let (es, r) ← list fuel lit r.tail
      return (e :: es, r)
    else return ([e], r)

/-- Statements that may also occur in the header of other statements. -/
def simple : Nat → Bool → List ST → Option (Stmt × List ST)
  | 0, _, _ => none
  | fuel + 1, lit, ts => do
    let (es, r) ← list fuel lit ts
    if headOp r = g!"=" then do
      let (vs, r) ← list fuel lit r.tail
      return (.assign es vs, r)
    else if headOp r = g!":=" then
      if headKw r.tail = g!"range" then none
      else do
        let (vs, r) ← list fuel lit r.tail
        return (.define es vs, r)
    else match es with
      | [e] =>
        if headOp r = g!"++" then return (.inc e, r.tail)
        else if headOp r = g!"<-" then do
          let (v, r) ← expr fuel lit 1 r.tail
          return (.send e v, r)
        else return (.expr e, r)
      | _ => none

def block : Nat → List ST → Option (List Stmt × List ST)
  | 0, _ => none
  | fuel + 1, ts => do
    let r ← expect g!"{" ts
    let (ss, r) ← stmts fuel r
    let r ← expect g!"}" r
    return (ss, r)

/-- Statements up to the end of a block or a clause. -/
def stmts : Nat → List ST → Option (List Stmt × List ST)
  | 0, _ => none
  | fuel + 1, ts =>
    if headOp ts = g!"}" ∨ headKw ts = g!"case" ∨ headKw ts = g!"default" then some ([], ts)
    else match ts with
      | .hole .ploop :: r => do
        let (ss, r) ← stmts fuel r
        return (.many f.ploop :: ss, r)
      | _ => do
        let (s, r) ← stmt fuel ts
        match r with
        | .hole .ploop :: _ => do
          let (ss, r) ← stmts fuel r
          return (s :: ss, r)
        | r => do
          let r ← expect g!";" r
          let (ss, r) ← stmts fuel r
          return (s :: ss, r)

def stmt : Nat → List ST → Option (Stmt × List ST)
  | 0, _ => none
  | fuel + 1, ts =>
    let k := headKw ts
    let r := ts.tail
    if k = g!"var" then
      match r with
      | .word x :: r =>
        if headOp r = g!"=" then do
          let (e, r) ← expr fuel true 1 r.tail
          return (.varInit (f.sub.expand x) e, r)
        else do
          let (a, r) ← type f fuel r
          return (.var (f.sub.expand x) a, r)
      | _ => none
    else if k = g!"type" then
      match r with
      | .word x :: r => do
        let (a, r) ← type f fuel r
        return (.type (f.sub.expand x) a, r)
      | _ => none
    else if k = g!"return" then
      if headOp r = g!";" then some (.ret [], r)
      else do
        let (es, r) ← list fuel true r
        return (.ret es, r)
    else if k = g!"if" then do
      let (s, r) ← simple fuel false r
      if headOp r = g!";" then do
        let (c, r) ← expr fuel false 1 r.tail
        let (b, r) ← block fuel r
        return (.condInit s c b, r)
      else match s with
        | .expr c => do
          let (b, r) ← block fuel r
          if headKw r = g!"else" then
            if headKw r.tail = g!"if" then do
              let (e, r) ← stmt fuel r.tail
              return (.condElseIf c b e, r)
            else do
              let (e, r) ← block fuel r.tail
              return (.condElse c b e, r)
          else return (.cond c b, r)
        | _ => none
    else if k = g!"for" then
      if headOp r = g!"{" then do
        let (b, r) ← block fuel r
        return (.forever b, r)
      else do
        let (xs, r') ← list fuel false r
        if headKw r'.tail = g!"range" then do
          let (e, r) ← expr fuel false 1 r'.tail.tail
          let (b, r) ← block fuel r
          return (.range xs e b, r)
        else do
          let (i, r) ← simple fuel false r
          let r ← expect g!";" r
          let (c, r) ← expr fuel false 1 r
          let r ← expect g!";" r
          let (p, r) ← simple fuel false r
          let (b, r) ← block fuel r
          return (.loop i c p b, r)
    else if k = g!"defer" then do
      let (e, r) ← expr fuel true 1 r
      return (.defer e, r)
    else if k = g!"go" then do
      let (e, r) ← expr fuel true 1 r
      return (.go e, r)
    else if k = g!"select" then do
      let r ← expect g!"{" r
      let (cs, r) ← clauses fuel r
      let r ← expect g!"}" r
      return (.select cs, r)
    else simple fuel true ts

def clauses : Nat → List ST → Option (List Clause × List ST)
  | 0, _ => none
  | fuel + 1, ts =>
    if headKw ts = g!"case" then do
      let (s, r) ← simple fuel true ts.tail
      let r ← expect g!":" r
      let (b, r) ← stmts fuel r
      let (cs, r) ← clauses fuel r
      return (.case s b :: cs, r)
    else if headKw ts = g!"default" then do
      let r ← expect g!":" ts.tail
      let (b, r) ← stmts fuel r
      let (cs, r) ← clauses fuel r
      return (.default b :: cs, r)
    else some ([], ts)

end

def specs : Nat → List ST → Option (List (Option Str × Str) × List ST)
  | 0, _ => none
  | fuel + 1, ts =>
    match ts with
    | .str s :: r => do
      let r ← expect g!";" r
      let (ss, r) ← specs fuel r
      return ((none, f.sub.expand s) :: ss, r)
    | .word x :: .str s :: r => do
      let r ← expect g!";" r
      let (ss, r) ← specs fuel r
      return ((some (f.sub.expand x), f.sub.expand s) :: ss, r)
    | _ => some ([], ts)

def fields : Nat → List ST → Option (List FieldDecl × List ST)
  | 0, _ => none
  | fuel + 1, ts =>
    if headOp ts = g!"}" then some ([], ts)
    else match ts with
      | .hole .config :: r => do
        let (fs, r) ← fields fuel r
        return (.many f.config :: fs, r)
      | .hole .typ :: r => do
        let r ← expect g!";" r
        let (fs, r) ← fields fuel r
        return (.embedded (.toks (f.htoks .typ)) :: fs, r)
      | _ => do
        let (xs, r) ← names f fuel ts
        let (a, r) ← type f fuel r
        let r ← expect g!";" r
        let (fs, r) ← fields fuel r
        return (.named xs a :: fs, r)

def decls : Nat → List ST → Option (List Go.Decl)
  | 0, _ => none
  | fuel + 1, ts =>
    let k := headKw ts
    let r := ts.tail
    match ts with
    | [] => some []
    | .hole .methods :: r => do
      let ds ← decls fuel r
      return .many f.methods :: ds
    | _ =>
      if k = g!"import" then do
        let r ← expect g!"(" r
        let (ss, r) ← specs f fuel r
        let r ← expect g!")" r
        let r ← expect g!";" r
        let ds ← decls fuel r
        return .imports ss :: ds
      else if k = g!"type" then
        match r with
        | .word x :: r =>
          if headKw r = g!"struct" then do
            let r ← expect g!"{" r.tail
            let (fs, r) ← fields f fuel r
            let r ← expect g!"}" r
            let r ← expect g!";" r
            let ds ← decls fuel r
            return .struct (f.sub.expand x) fs :: ds
          else do
            let (a, r) ← type f fuel r
            let r ← expect g!";" r
            let ds ← decls fuel r
            return .type (f.sub.expand x) a :: ds
        | _ => none
      else if k = g!"var" then
        match r with
        | .word x :: r => do
          let r ← expect g!"=" r
          let (e, r) ← expr f fuel true 1 r
          let r ← expect g!";" r
          let ds ← decls fuel r
          return .var (f.sub.expand x) e :: ds
        | _ => none
      else if k = g!"func" then
        match r with
        | .word x :: r => do
          let (gs, q, r) ← sig f fuel r
          let (b, r) ← block f fuel r
          let r ← expect g!";" r
          let ds ← decls fuel r
          return .func (f.sub.expand x) gs q b :: ds
        | .op _ :: .word x :: r => do
          let (a, r) ← type f fuel r
          match r with
          | .op _ :: .word y :: .op _ :: .hole .plist :: .op _ :: .op _ :: .hole .rlist :: .op _ :: r => do
            let (b, r) ← block f fuel r
            let r ← expect g!";" r
            let ds ← decls fuel r
            return .method (f.sub.expand x) a (f.sub.expand y) (paramDecls f.m.params) (paramDecls f.m.results) b :: ds
          | _ => none
        | _ => none
      else none

end Gowrap.Tmpl.Parse

import Verif.Model.Exec
import Verif.Model.GoAst
/-!
# The meaning of generated code

The method bodies in the syntax trees of `Model/GoAst.lean` as programs of `Model/Exec.lean`, following the Go
specification.  What names outside of the method mean (the fields of the decorator, functions of packages and
methods of library types, channels) is given by a `Link`; the links of the built-in templates are in
`Model/Links.lean`.

Simplifications: static types are not checked; `nil`, `true`, `false` and type names are not redeclared; a pointer
to a local variable is the value of the variable (the templates do not assign such a variable afterwards); a
pointer can be nil, otherwise it is the value it points to; a struct is the list of the values of its fields, or
the fields with their names if the literal names them; a channel is its capacity; a goroutine gets a copy of the
variables (the templates do not assign a variable that a goroutine uses after the goroutine was started); a `defer`
statement in a nested block is only accepted if the block declares no variables; loops run at most `fuel` times,
then the program is stuck.
-/

namespace Gowrap.Go

open Gowrap

/-- `a.b.c` followed by the names in `acc`. -/
def Expr.pathTo : Expr → List Str → Option (List Str)
  | .id x, acc => some (x :: acc)
  | .sel e f, acc => e.pathTo (f :: acc)
  | _, _ => none

/-- `a.b.c` -/
def Expr.path (e : Expr) : Option (List Str) := e.pathTo []

/-- The channel in a receive expression: a path, or the call of a method without arguments. -/
def Expr.chan : Expr → Option (List Str)
  | .call f _ _ => f.path
  | e => e.path

/-- What is passed to a function in front of its arguments. -/
inductive Recv where
  | none
  /-- the object whose method is called -/
  | object
  /-- the object that a pointer points to, the call panics if it is nil -/
  | target
  /-- the function value -/
  | value

/-- What a call does. -/
inductive Meaning where
  /-- it calls a function of another package -/
  | lib (fn : Str)
  /-- it has one result -/
  | prim (f : List Val → (Val → Stm) → Stm)

structure Fn where
  recv : Recv
  meaning : Meaning

/-- What a clause of a `select` does. -/
inductive Comm where
  | recv (ch : List Str)
  | send (ch : List Str)
  | default
  deriving DecidableEq

/-- What the names outside of a method mean. -/
structure Link where
  /-- the names of the results of the method -/
  results : List Str
  /-- names of packages and package level variables -/
  globals : List Str
  /-- reading a field of the receiver, a constant of a package, the address (`&`) or the target (`*`) of something -/
  read : List Str → Option ((Val → Stm) → Stm)
  /-- assigning to a field or the target of a pointer -/
  write : List Str → Option (Val → Stm → Stm)
  fn : List Str → Option Fn
  /-- methods of objects that are not variables or fields -/
  meth : Str → Option Meaning
  /-- the expression is a wrapped implementation -/
  impl : Expr → Bool
  /-- a type assertion succeeds -/
  asserts : Ty → Val → Bool
  /-- receiving from a channel -/
  recvFrom : List Str → Option ((Val → Stm) → Stm)
  sendTo : List Str → Option (Val → Stm → Stm)
  /-- the number of the clause that a `select` takes and the value received, given the values to be sent -/
  select : List Comm → Option (List Val → (Nat → Val → Stm) → Stm)
  /-- the goroutine that a function literal with these parameters is -/
  spawn : List Str → Option Goroutine
  /-- the value of a function literal with these parameters that is stored in a field -/
  closure : List Str → Option Val
  fuel : Nat

/-- A call of the wrapped implementation. -/
def implCall (recv : Val) (x : Str) (args : List Val) (n : Nat) (k : List Val → Stm) : Stm :=
  .op (.impl recv x args n) (.orPanic fun vs => k vs.1)

def Meaning.run : Meaning → List Val → Nat → (List Val → Stm) → Stm
  | .lib fn, vs, n, k => .lib fn vs n k
  | .prim f, vs, _, k => f vs fun v => k [v]

/-- The arguments of a variadic function: the elements of the last one if it was passed with `...`. -/
def flatArgs (spread : Bool) (vs : List Val) : List Val :=
  if spread then
    match vs.getLast? with
    | some (.slice ws) => vs.dropLast ++ ws
    | _ => vs
  else vs

/-- The last argument is passed with `...`. -/
def spreads : List Expr → Bool
  | [] => false
  | [.spread _] => true
  | _ :: r => spreads r

/-- Names of packages must not be hidden by variables. -/
def Link.guard (L : Link) (p : List Str) (k : Stm) : Stm :=
  match p with
  | x :: _ => if x ≠ g!"_d" ∧ x ∈ L.globals then .global x k else k
  | [] => k

/-- Comparison with `nil` and of numbers. -/
def eqVal : Val → Val → Option Bool
  | a, .nil => some a.isNil
  | .int i, .int j => some (i = j)
  | _, _ => none

/-- Operators on numbers and strings; the remainder of a division by zero panics.  The only quotient in the templates is one of floating
point numbers, about which nothing is known. -/
def binOp (op : Str) (a b : Val) (k : Val → Stm) : Stm :=
  if op = g!"/" then .lib1 g!"/" [a, b] k
  else if op = g!"==" then match eqVal a b with
    | some r => k (.bool r)
    | none => .stuck
  else if op = g!"!=" then match eqVal a b with
    | some r => k (.bool !r)
    | none => .stuck
  else match a, b with
    | .str s, .str t => if op = g!"+" then k (.str (s ++ t)) else .stuck
    | .int i, .int j =>
      if op = g!"<" then k (.bool (i < j))
      else if op = g!">" then k (.bool (i > j))
      else if op = g!">=" then k (.bool (i ≥ j))
      else if op = g!"-" then k (.int (i - j))
      else if op = g!"%" then if j = 0 then fun env => .ret (env, .panic .nil) else k (.int (i % j))
      else .stuck
    | _, _ => .stuck

/-- The number of a literal. -/
def numeral (s : Str) : Int := s.foldl (fun n c => 10 * n + (c.toNat - '0'.toNat : Nat)) 0

/-- Go on with a boolean. -/
def withBool (k : Bool → Stm) : List Val → Stm
  | .bool b :: _ => k b
  | _ => .stuck

def keyList : List Expr → List Str
  | [] => []
  | .pair (.str s) _ :: r => s :: keyList r
  | _ :: r => keyList r

/-- The names of the fields in a literal. -/
def fieldKeys : List Expr → List Str
  | [] => []
  | .pair (.id f) _ :: r => f :: fieldKeys r
  | _ :: r => fieldKeys r

/-- A struct. -/
def structVal (es : List Expr) (vs : List Val) : Val := match fieldKeys es with
  | [] => .slice vs
  | ks => .map (ks.zip vs)

/-- The names of parameters. -/
def groupNames : List Group → List Str
  | [] => []
  | .mk xs _ :: r => xs ++ groupNames r

mutual

/-- The values of an expression: one, or `n` results of a call, or all the elements of `many`. -/
def ev (L : Link) : Expr → Nat → (List Val → Stm) → Stm
  | .id x, _, k =>
    if x = g!"nil" then k [.nil]
    else if x = g!"true" then k [.bool true]
    else if x = g!"false" then k [.bool false]
    else .get x fun v => k [v]
  | .str s, _, k => k [.str s]
  | .num s, _, k => k [.int (numeral s)]
  | .sel e f, _, k => match Expr.path (.sel e f) with
    | some p => match L.read p with
      | some r => L.guard p (r fun v => k [v])
      | none => .stuck
    | none => .stuck
  | .call f args _, n, k => evFn L f (spreads args) fun call => evs L args fun vs => call vs n k
  | .spread e, _, k => ev L e 1 k
  | .index e i, _, k => ev L e 1 fun a => ev L i 1 fun b => match a.headD .nil, b.headD .nil with
    | .slice vs, .int j => match vs[j.toNat]? with
      | some v => if 0 ≤ j then k [v] else fun env => .ret (env, .panic .nil)
      | none => fun env => .ret (env, .panic .nil)
    | _, _ => .stuck
  | .un op e, _, k =>
    if op = g!"&" then match e.path with
      | some p => match L.read (g!"&" :: p) with
        | some r => r fun v => k [v]
        | none => ev L e 1 k
      | none => ev L e 1 k
    else if op = g!"*" then match e.path with
      | some p => match L.read (g!"*" :: p) with
        | some r => r fun v => k [v]
        | none => .stuck
      | none => .stuck
    else if op = g!"<-" then match e.chan with
      | some p => match L.recvFrom p with
        | some r => r fun v => k [v]
        | none => .stuck
      | none => .stuck
    else if op = g!"!" then ev L e 1 (withBool fun b => k [.bool !b])
    else .stuck
  | .bin op a b, _, k =>
    if op = g!"&&" then ev L a 1 (withBool fun x => if x then ev L b 1 k else k [.bool false])
    else if op = g!"||" then ev L a 1 (withBool fun x => if x then k [.bool true] else ev L b 1 k)
    else ev L a 1 fun x => ev L b 1 fun y => binOp op (x.headD .nil) (y.headD .nil) fun v => k [v]
  | .paren e, _, k => ev L e 1 k
  | .assert e t, _, k => ev L e 1 fun a =>
    if L.asserts t (a.headD .nil) then k [a.headD .nil, .bool true] else k [.nil, .bool false]
  | .lit t es _, _, k => match t with
    | .slice _ => evs L es fun vs => k [.slice vs]
    | .map _ _ => evs L es fun vs => k [.map ((keyList es).zip vs)]
    | .name _ => evs L es fun vs => k [structVal es vs]
    | .struct _ => evs L es fun vs => k [structVal es vs]
    | _ => .stuck
  | .pair _ v, _, k => ev L v 1 k
  | .many es, _, k => evs L es k
  | .fn ps _ _, _, k => match L.closure (groupNames ps) with
    | some v => k [v]
    | none => .stuck
  | .type _, _, k => k []

/-- The values of several expressions. -/
def evs (L : Link) : List Expr → (List Val → Stm) → Stm
  | [], k => k []
  | e :: r, k => ev L e 1 fun vs => evs L r fun ws => k (vs ++ ws)

/-- The function that is called. -/
def evFn (L : Link) : Expr → Bool → ((List Val → Nat → (List Val → Stm) → Stm) → Stm) → Stm
  | .type _, _, k => k fun vs _ k => k vs
  | .id x, sp, k => match L.fn [x] with
    | some ⟨.none, μ⟩ => L.guard [x] (k fun vs => μ.run (flatArgs sp vs))
    | some ⟨.value, μ⟩ => .get x fun v => k fun vs => μ.run (v :: flatArgs sp vs)
    | _ => .stuck
  | .sel e x, sp, k =>
    if L.impl e then ev L e 1 fun r => k (implCall (r.headD .nil) x)
    else match Expr.path (.sel e x) with
      | some p => match L.fn p with
        | some ⟨.none, μ⟩ => L.guard p (k fun vs => μ.run (flatArgs sp vs))
        | some ⟨.object, μ⟩ => ev L e 1 fun r => k fun vs => μ.run (r.headD .nil :: flatArgs sp vs)
        | some ⟨.target, μ⟩ => ev L e 1 fun r =>
          if (r.headD .nil).isNil then fun env => .ret (env, .panic .nil)
          else k fun vs => μ.run (r.headD .nil :: flatArgs sp vs)
        | some ⟨.value, μ⟩ => match L.read p with
          | some r => r fun v => k fun vs => μ.run (v :: flatArgs sp vs)
          | none => .stuck
        | none => .stuck
      | none => match L.meth x with
        | some μ => ev L e 1 fun r => k fun vs => μ.run (r.headD .nil :: flatArgs sp vs)
        | none => .stuck
  | _, _, _ => .stuck

end

/-- The variables on the left of an assignment. -/
def nameList : List Expr → List Str
  | [] => []
  | .id x :: r => x :: nameList r
  | _ :: r => nameList r

/-- The variables on the left of an assignment, where `many` stands for its elements. -/
def leftNames : List Expr → List Str
  | [] => []
  | .many es :: r => nameList es ++ leftNames r
  | .id x :: r => x :: leftNames r
  | _ :: r => leftNames r

/-- The number of operands on the left of an assignment. -/
def leftCount : List Expr → Nat
  | [] => 0
  | .many es :: r => es.length + leftCount r
  | _ :: r => 1 + leftCount r

/-- The variables that a statement declares. -/
def Stmt.declares : Stmt → List Str
  | .define lhs _ => leftNames lhs
  | .var x _ => [x]
  | .varInit x _ => [x]
  | .type x _ => [x]
  | _ => []

/-- The variables that a block declares. -/
def declared : List Stmt → List Str
  | [] => []
  | s :: r => s.declares ++ declared r

/-- The variables declared so far in the block; `none` at the top level of a function, where all variables that
exist are in the same scope. -/
abbrev Block := Option (List Str)

/-- The variable exists in the block. -/
def Block.has (b : Block) (env : Env) (x : Str) : Bool := match b with
  | none => (env x).isSome
  | some l => l.contains x

/-- Assigns values to names except `_`. -/
def bindAll (env : Env) : List Str → List Val → Env
  | x :: xs, v :: vs => bindAll (if x = g!"_" then env else env.set x v) xs vs
  | _, _ => env

/-- `x, y := …`: at least one variable is new in the block. -/
def defineAll (b : Block) (xs : List Str) (vs : List Val) : Stm := fun env =>
  if xs.all (fun x => decide (x = g!"_") || b.has env x) then .ret (env, .stuck)
  else if xs.length = vs.length then .ret (bindAll env xs vs, .next) else .ret (env, .stuck)

/-- The variables `xs` are declared in `body`. -/
def inScope (xs : List Str) (body : Stm) : Stm := fun env =>
  (body env).bind fun r => .ret (r.1.leave env xs, r.2)

/-- The value of a variable that is not initialized. -/
def zeroOf : Ty → Val
  | .slice _ => .slice []
  | _ => .nil

/-- A loop with at most `n` evaluations of the condition. -/
def loopN (cond : (Bool → Stm) → Stm) (post body : Stm) : Nat → Stm
  | 0 => .stuck
  | n + 1 => cond fun b => .ite b (.seq body (.seq post (loopN cond post body n))) .skip

/-- A loop over the elements of a slice. -/
def rangeN (body : Val → Stm) : List Val → Stm
  | [] => .skip
  | v :: vs => .seq (body v) (rangeN body vs)

def Stmt.isDefer : Stmt → Bool
  | .defer _ => true
  | _ => false

/-- The block has a `defer` statement. -/
def hasDefer : List Stmt → Bool
  | [] => false
  | s :: r => s.isDefer || hasDefer r

/-- `lhs = vs` followed by `k`. -/
def assignTo (L : Link) (lhs : List Expr) (vs : List Val) (k : Stm) : Stm :=
  match lhs with
  | [.sel e f] => match Expr.path (.sel e f) with
    | some p => match L.write p with
      | some w => w (vs.headD .nil) k
      | none => .stuck
    | none => .stuck
  | [.un op e] => if op = g!"*" then match e.path with
      | some p => match L.write (g!"*" :: p) with
        | some w => w (vs.headD .nil) k
        | none => .stuck
      | none => .stuck
    else .stuck
  | _ => .seq (.assignAll (leftNames lhs) vs) k

/-- The channel from which an expression receives. -/
def Expr.recvFrom : Expr → Option (List Str)
  | .un op e => if op = g!"<-" then e.chan else none
  | _ => none

def Clause.comm : Clause → Option Comm
  | .case (.expr e) _ => e.recvFrom.map .recv
  | .case (.define _ [e]) _ => e.recvFrom.map .recv
  | .case (.send ch _) _ => ch.path.map .send
  | .default _ => some .default
  | _ => none

def clauseComms : List Clause → Option (List Comm)
  | [] => some []
  | c :: r => match c.comm, clauseComms r with
    | some a, some as => some (a :: as)
    | _, _ => none

/-- The values that the clauses of a `select` send. -/
def sentVals (L : Link) : List Clause → (List Val → Stm) → Stm
  | [], k => k []
  | .case (.send _ v) _ :: r, k => ev L v 1 fun vs => sentVals L r fun ws => k (vs ++ ws)
  | _ :: r, k => sentVals L r k

/-- The variables of a clause that receives. -/
def bindRecv (xs : List Str) (v : Val) : Stm := match xs with
  | [] => .skip
  | xs => defineAll (some []) xs [v]

/-- The values on the right of an assignment to `n` variables. -/
def evRight (L : Link) (rhs : List Expr) (n : Nat) (k : List Val → Stm) : Stm :=
  match rhs with
  | [e] => ev L e n k
  | es => evs L es k

mutual

/-- A statement of a block `b`, followed by `k`. -/
def stm (L : Link) : Stmt → Block → Stm → Stm
  | .expr e, _, k => ev L e 0 fun _ => k
  | .assign lhs rhs, _, k => evRight L rhs (leftCount lhs) fun vs => assignTo L lhs vs k
  | .define lhs rhs, b, k => evRight L rhs (leftCount lhs) fun vs => .seq (defineAll b (leftNames lhs) vs) k
  | .inc e, _, k => ev L e 1 fun
    | .int i :: _ => assignTo L [e] [.int (i + 1)] k
    | _ => .stuck
  | .send ch v, _, k => match ch.path with
    | some p => match L.sendTo p with
      | some w => ev L v 1 fun vs => w (vs.headD .nil) k
      | none => .stuck
    | none => .stuck
  | .var x t, b, k => .seq (defineAll b [x] [zeroOf t]) k
  | .varInit x e, b, k => ev L e 1 fun vs => .seq (defineAll b [x] vs) k
  | .type x _, b, k => .seq (defineAll b [x] [.nil]) k
  | .ret es, _, _ => match es with
    | [] => .ret
    | _ => evRight L es L.results.length fun vs => .seq (.assignAll L.results vs) .ret
  | .cond c body, b, k =>
    if hasDefer body then
      if declared body = [] then ev L c 1 (withBool fun x => .ite x (den L body b k) k) else .stuck
    else ev L c 1 (withBool fun x => .seq (.ite x (inScope (declared body) (den L body (some []) .skip)) .skip) k)
  | .condElse c body els, _, k =>
    if hasDefer body || hasDefer els then .stuck
    else ev L c 1 (withBool fun x => .seq (.ite x (inScope (declared body) (den L body (some []) .skip))
      (inScope (declared els) (den L els (some []) .skip))) k)
  | .condElseIf c body els, b, k =>
    if hasDefer body then .stuck
    else ev L c 1 (withBool fun x => .seq (.ite x (inScope (declared body) (den L body (some []) .skip))
      (stm L els b .skip)) k)
  | .condInit init c body, _, k =>
    if hasDefer body then .stuck
    else .seq (inScope init.declares (stm L init (some []) (ev L c 1 (withBool fun x =>
      .ite x (inScope (declared body) (den L body (some []) .skip)) .skip)))) k
  | .loop init c post body, _, k =>
    if hasDefer body then .stuck
    else .seq (inScope init.declares (stm L init (some []) (loopN (fun k => ev L c 1 (withBool k)) (stm L post (some []) .skip)
      (inScope (declared body) (den L body (some []) .skip)) L.fuel))) k
  | .forever body, _, k =>
    if hasDefer body then .stuck
    else .seq (loopN (fun k => k true) .skip (inScope (declared body) (den L body (some []) .skip)) L.fuel) k
  | .range xs e body, _, k =>
    if hasDefer body then .stuck
    else ev L e 1 fun
      | .slice vs :: _ => .seq (rangeN (fun v => inScope (leftNames xs) (fun env =>
          inScope (declared body) (den L body (some []) .skip) (bindAll env (leftNames xs) [.nil, v]))) vs) k
      | _ => .stuck
  | .defer e, _, k => match e with
    | .call (.fn [] .none body) [] _ =>
      if hasDefer body then .stuck else .deferring (inScope (declared body) (den L body (some []) .skip)) k
    | .call f args _ => evFn L f (spreads args) fun call => evs L args fun vs =>
      .deferring (call vs 0 fun _ => .skip) k
    | _ => .stuck
  | .go e, _, k => match e with
    | .call (.fn ps .none _) args _ => match L.spawn (groupNames ps) with
      | some g => evs L args fun vs env => .vis (.go g (bindAll env (groupNames ps) vs)) fun _ => k env
      | none => .stuck
    | _ => .stuck
  | .select cs, _, k => match clauseComms cs with
    | some comms => match L.select comms with
      | some s => sentVals L cs fun vs => s vs fun i v => .seq (clauses L cs i v) k
      | none => .stuck
    | none => .stuck
  | .many ss, b, k => den L ss b k

/-- The statements of a block, followed by `k`. -/
def den (L : Link) : List Stmt → Block → Stm → Stm
  | [], _, k => k
  | s :: r, b, k => stm L s b (den L r (b.map (· ++ s.declares)) k)

/-- The clause with number `i`, where `v` was received. -/
def clauses (L : Link) : List Clause → Nat → Val → Stm
  | [], _, _ => .stuck
  | .case s body :: _, 0, v =>
    if hasDefer body then .stuck
    else inScope (s.declares ++ declared body) (.seq (bindRecv s.declares v) (den L body (some s.declares) .skip))
  | .default body :: _, 0, _ => if hasDefer body then .stuck else inScope (declared body) (den L body (some []) .skip)
  | _ :: r, i + 1, v => clauses L r i v

end

/-- The body of a goroutine with these parameters. -/
def denGo (L : Link) (params : List Str) (body : List Stmt) : Stm := den L body (some params) .skip

/-- The body of a method. -/
def denBody (L : Link) (body : List Stmt) : Stm := den L body none .skip

end Gowrap.Go

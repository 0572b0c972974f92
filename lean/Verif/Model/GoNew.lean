import Verif.Model.GoFile
import Verif.Model.Links
/-!
# The meaning of constructors

What a call of a function declared in a generated file does, for the functions `New…` of the built-in templates.

Simplifications as in `Model/GoSem.lean`: a struct and a pointer to it are the fields with their values; a channel is its capacity with
the values that it holds, and sending to a full channel, which blocks for ever because no other goroutine knows the channel yet, is
`stuck`; conversions to `float64` and `time.Duration` and floating point division are operations about which nothing is known; the
constant `log.LstdFlags` is written as its name; options of templates/elasticapm are functions about which nothing is known.
-/

namespace Gowrap

/-- The value for a key. -/
def getKey (f : Str) : List (Str × Val) → Val
  | [] => .nil
  | (k, v) :: r => if f = k then v else getKey f r

/-- A field of a struct; fields that are not mentioned in a literal have zero values, here always `nil`. -/
def Val.field (v : Val) (f : Str) : Val :=
  match v with
  | .map kvs => getKey f kvs
  | _ => .nil

/-- Change the value for a key, or add the key. -/
def setKey (f : Str) (x : Val) : List (Str × Val) → List (Str × Val)
  | [] => [(f, x)]
  | (k, v) :: r => if f = k then (k, x) :: r else (k, v) :: setKey f x r

/-- Assign to a field of a struct. -/
def Val.setField (v : Val) (f : Str) (x : Val) : Val :=
  match v with
  | .map kvs => .map (setKey f x kvs)
  | v => v

/-- A channel with its capacity and the values that it holds. -/
def chanVal (cap : Nat) (vs : List Val) : Val := .map [(g!"cap", .int cap), (g!"buf", .slice vs)]

/-- Send to a channel. -/
def sendVal (ch v : Val) : Option Val :=
  match ch with
  | .map [(c, .int cap), (b, .slice vs)] =>
    if c = g!"cap" ∧ b = g!"buf" ∧ (vs.length : Int) < cap then some (.map [(c, .int cap), (b, .slice (vs ++ [v]))]) else none
  | _ => none

namespace Tmpl

open Gowrap Go

/-- `make(chan T, n)`: panics if `n` is negative -/
def makeChanFn : Fn := ⟨.none, .prim fun vs k => match vs with
  | [.int n] => if n < 0 then fun env => .ret (env, .panic .nil) else k (chanVal n.toNat [])
  | _ => .stuck⟩

/-- `panic(v)` -/
def panicFn : Fn := ⟨.none, .prim fun vs _ => fun env => .ret (env, .panic (vs.headD .nil))⟩

/-- `uint32(n)` -/
def uint32Fn : Fn := ⟨.none, .prim fun vs k => match vs with
  | [.int n] => k (.int (n % 4294967296))
  | _ => .stuck⟩

/-- What the names in constructors mean. -/
def newLink (results : List Str) (fuel : Nat) : Link where
  results := results
  globals := [g!"log", g!"errors", g!"time", g!"apm", g!"len", g!"make", g!"panic", g!"uint32", g!"float64"]
  read := table [([g!"log", g!"LstdFlags"], value (.str g!"LstdFlags")), ([g!"time", g!"Second"], value (.int 1000000000)),
    ([g!"apm", g!"StartSpan"], value (.str g!"apm.StartSpan"))]
  write := fun p => match p with
    | [x, f] => some fun v k => .get x fun s => .seq (.assign x (s.setField f v)) k
    | _ => none
  fn := table [([g!"len"], lenFn), ([g!"make"], makeChanFn), ([g!"panic"], panicFn), ([g!"uint32"], uint32Fn),
    ([g!"float64"], func g!"float64"), ([g!"time", g!"Duration"], func g!"time.Duration"), ([g!"time", g!"Now"], timeNow),
    ([g!"log", g!"New"], func g!"log.New"), ([g!"errors", g!"New"], func g!"errors.New"), ([g!"fn"], ⟨.value, .lib g!"option"⟩)]
  meth := fun _ => none
  impl := fun _ => false
  asserts := fun _ _ => false
  recvFrom := fun _ => none
  sendTo := fun p => match p with
    | [x] => some fun v k => .get x fun ch => match sendVal ch v with
      | some ch => .seq (.assign x ch) k
      | none => .stuck
    | [x, f] => some fun v k => .get x fun s => match sendVal (s.field f) v with
      | some ch => .seq (.assign x (s.setField f ch)) k
      | none => .stuck
    | _ => none
  select := fun _ => none
  spawn := fun ps => if ps = [] then some .ticker else none
  closure := fun ps =>
    if ps = [g!"span"] then some (.str g!"endSpan")
    else if ps = [g!"span", g!"key", g!"value"] then some (.str g!"setLabel")
    else if ps = [g!"ctx", g!"err"] then some (.str g!"captureError")
    else none
  fuel := fuel

end Tmpl

namespace Go

/-- Names for the results of a function; in the templates the results of functions have none. -/
def resultNames : Results → List Str
  | .none => []
  | .one _ => [g!"#"]
  | .list gs => (List.range gs.length).map fun i => List.replicate (i + 1) '#'

/-- The parameters and results do not have the same names and the number of arguments is right. -/
def GoodCall (params results : List Str) (args : List Val) : Prop := (params ++ results).Nodup ∧ args.length = params.length

instance (params results : List Str) (args : List Val) : Decidable (GoodCall params results args) := by unfold GoodCall; infer_instance

/-- The end of a function that is not a method. -/
def endFunc (results : List Str) (o : Env × Flow) : Tree Outcome := match o.2 with
  | .panic v => .ret (.panic v)
  | .stuck => .ret .stuck
  | .next => .ret (if results = [] then .ret [] else .stuck)
  | .ret => match o.1.all results with
    | some vs => .ret (.ret vs)
    | none => .ret .stuck

/-- The variables at the beginning of a function that is not a method. -/
def startFunc (params results : List Str) (args : List Val) : Env :=
  (Env.setAll (fun _ => none) params args).setAll results (results.map fun _ => .nil)

/-- Run a function that is not a method. -/
def runFunc (fuel : Nat) (f : List Group × Results × List Stmt) (args : List Val) : Tree Outcome :=
  if GoodCall (groupNames f.1) (resultNames f.2.1) args then
    (denBody (Tmpl.newLink (resultNames f.2.1) fuel) f.2.2 (startFunc (groupNames f.1) (resultNames f.2.1) args)).bind
      (endFunc (resultNames f.2.1))
  else .ret .stuck

/-- Call the function `x` of a file; a variadic parameter gets a slice.  Loops run at most `fuel` times. -/
def callFunc (fuel : Nat) (ds : List Decl) (x : Str) (args : List Val) : Tree Outcome :=
  match (flatDecls ds).filterMap (Decl.funcOf x) with
  | [f] => runFunc fuel f args
  | _ => .ret .stuck

end Go

end Gowrap

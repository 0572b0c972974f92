import Verif.Model.GoSem
/-!
# The meaning of a generated file

From the declarations of a file: the methods of a type, the fields of a struct type, and what a call of a method
does, following "Method declarations", "Struct types" and "Selectors" of the Go specification.

Simplifications: only receivers of the forms `T` and `*T` occur; a struct type embeds at most the decorated interface,
whose field has the name of the interface; types are compared by their tokens; that no field may have the name of a method is
not looked at here but in `Spec.Implements`.
-/

namespace Gowrap.Go

open Gowrap

mutual

/-- The declaration, or the declarations for which it stands. -/
def Decl.flat : Decl → List Decl
  | .many ds => flatDecls ds
  | .imports s => [.imports s]
  | .struct x fs => [.struct x fs]
  | .type x t => [.type x t]
  | .var x e => [.var x e]
  | .func x ps r b => [.func x ps r b]
  | .method r t x ps rs b => [.method r t x ps rs b]

/-- The declarations of a file. -/
def flatDecls : List Decl → List Decl
  | [] => []
  | d :: ds => d.flat ++ flatDecls ds

end

mutual

def FieldDecl.flat : FieldDecl → List FieldDecl
  | .many fs => flatFields fs
  | .named xs t => [.named xs t]
  | .embedded t => [.embedded t]

/-- The fields of a struct type. -/
def flatFields : List FieldDecl → List FieldDecl
  | [] => []
  | f :: fs => f.flat ++ flatFields fs

end

/-- A method; `pointer` if its receiver is a pointer. -/
structure MethodDecl where
  recv : Str
  pointer : Bool
  name : Str
  params : List Group
  results : List Group
  body : List Stmt

/-- The type of a receiver. -/
def Ty.receiver : Ty → Option Str
  | .name t => some t
  | .ptr (.name t) => some t
  | _ => none

/-- A pointer type. -/
def Ty.pointer : Ty → Bool
  | .ptr _ => true
  | _ => false

/-- The declaration is a method of the type `t`. -/
def Decl.methodOf (t : Str) : Decl → Option MethodDecl
  | .method r ty x ps rs b => if ty.receiver = some t then some ⟨r, ty.pointer, x, ps, rs, b⟩ else none
  | _ => none

/-- The methods of the type `t`. -/
def methodsOf (t : Str) (ds : List Decl) : List MethodDecl := (flatDecls ds).filterMap (Decl.methodOf t)

/-- The declaration is the struct type `t`. -/
def Decl.structOf (t : Str) : Decl → Option (List FieldDecl)
  | .struct x fs => if x = t then some (flatFields fs) else none
  | _ => none

/-- The fields of the struct type `t`, if it is declared exactly once. -/
def fieldsOf (t : Str) (ds : List Decl) : List FieldDecl :=
  match (flatDecls ds).filterMap (Decl.structOf t) with
  | [fs] => fs
  | _ => []

/-- The names of fields; `iface` is the name of the embedded interface. -/
def FieldDecl.names (iface : Str) : FieldDecl → List Str
  | .named xs _ => xs
  | .embedded _ => [iface]
  | .many _ => []

/-- The field embeds the type with the given tokens. -/
def FieldDecl.embeds (l : List Tok) : FieldDecl → Bool
  | .embedded t => decide (t.put [] = l)
  | _ => false

/-- The names of the fields that contain a lock or another value of the package `sync`. -/
def FieldDecl.locks : FieldDecl → List Str
  | .named xs (.qual p _) => if p = g!"sync" then xs else []
  | _ => []

/-- The declaration is a function. -/
def Decl.funcOf (x : Str) : Decl → Option (List Group × Results × List Stmt)
  | .func y ps r b => if y = x then some (ps, r, b) else none
  | _ => none

/-- The body of a function, if it is declared exactly once. -/
def funcBody (x : Str) (ds : List Decl) : List Stmt :=
  match (flatDecls ds).filterMap (Decl.funcOf x) with
  | [f] => f.2.2
  | _ => []

mutual

/-- The function literals that are started as goroutines: the names of their parameters and their bodies. -/
def Stmt.goFns : Stmt → List (List Str × List Stmt)
  | .go e => e.goFns
  | .cond _ b => Go.goFns b
  | .condElse _ b c => Go.goFns b ++ Go.goFns c
  | .condElseIf _ b c => Go.goFns b ++ c.goFns
  | .condInit _ _ b => Go.goFns b
  | .loop _ _ _ b => Go.goFns b
  | .forever b => Go.goFns b
  | .range _ _ b => Go.goFns b
  | .select cs => clauseGoFns cs
  | .many ss => Go.goFns ss
  | _ => []

def Expr.goFns : Expr → List (List Str × List Stmt)
  | .call f _ _ => f.goFns
  | .fn ps _ b => (groupNames ps, b) :: Go.goFns b
  | _ => []

def clauseGoFns : List Clause → List (List Str × List Stmt)
  | [] => []
  | c :: cs => c.goFns ++ clauseGoFns cs

def Clause.goFns : Clause → List (List Str × List Stmt)
  | .case _ b => Go.goFns b
  | .default b => Go.goFns b

def goFns : List Stmt → List (List Str × List Stmt)
  | [] => []
  | s :: ss => s.goFns ++ Go.goFns ss

end

/-- The end of a goroutine. -/
def goEnd (r : Env × Flow) : Tree Outcome :=
  match r.2 with
  | .panic v => .ret (.panic v)
  | .stuck => .ret .stuck
  | _ => .ret (.ret [])

/-- The tokens of the text of a type. -/
def typeToks (s : Str) : List Tok :=
  match tokens s with
  | some l => l.dropLast
  | none => []

/-- The names of parameters with the tokens of their types. -/
def groupParams : List Group → List (Str × List Tok)
  | [] => []
  | .mk xs t :: gs => xs.map (fun x => (x, t.put [])) ++ groupParams gs

/-- The declaration has the parameters and results of the method. -/
def MethodDecl.declares (x : MethodDecl) (m : Method) : Prop :=
  groupParams x.params = m.params.map (fun p => (p.name, typeToks p.type)) ∧
  groupParams x.results = m.results.map (fun p => (p.name, typeToks p.type))

instance (x : MethodDecl) (m : Method) : Decidable (x.declares m) := by unfold MethodDecl.declares; infer_instance

/-- In a method whose receiver `r` is not a pointer, the receiver is a copy of the decorator ("Method declarations", "Calls"): an
assignment to one of its fields, the address of one of its fields or a lock that is one of its fields has nothing to do with the
decorator, so these have no meaning. -/
def Link.onCopy (r : Str) (locks : List Str) (L : Link) : Link :=
  { L with
    read := fun p => if p.take 2 = [g!"&", r] then none else L.read p
    write := fun p => if p.take 1 = [r] then none else L.write p
    fn := fun p => if ∃ f ∈ locks, p.take 2 = [r, f] then none else L.fn p }

/-- A generated type: its name, the interface that it decorates, and what the names in its methods mean. -/
structure Generated where
  decls : List Decl
  type : Str
  iface : Str
  ifaceType : Str
  /-- the value of the embedded field -/
  base : Val
  link : Method → Link

namespace Generated

variable (F : Generated)

/-- The names of the fields. -/
def fields : List Str := (fieldsOf F.type F.decls).flatMap (FieldDecl.names F.iface)

/-- The interface is embedded. -/
def embeds : Bool := (fieldsOf F.type F.decls).any (FieldDecl.embeds (typeToks F.ifaceType))

/-- The methods with the given name. -/
def method (x : Str) : List MethodDecl := (methodsOf F.type F.decls).filter fun y => decide (y.name = x)

/-- What the names in a method mean. -/
def linkOf (m : Method) (x : MethodDecl) : Link :=
  if x.pointer then F.link m else (F.link m).onCopy x.recv ((fieldsOf F.type F.decls).flatMap FieldDecl.locks)

/-- A call of a method: the one that is declared, or the one of the embedded field. -/
def call (G : GoTypes) (m : Method) (self : Val) (args : List Val) : Tree Outcome :=
  match F.method m.name with
  | [x] => if x.declares m then m.exec G (x.recv, self) (denBody (F.linkOf m x) x.body) args else .ret .stuck
  | [] =>
    if F.embeds then
      .vis (.impl F.base m.name args m.results.length) fun
        | .ok vs => .ret (.ret vs.1)
        | .error v => .ret (.panic v)
    else .ret .stuck
  | _ => .ret .stuck

end Generated

end Gowrap.Go

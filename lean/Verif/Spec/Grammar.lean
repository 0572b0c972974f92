import Verif.Model.GoFile
/-!
# Grammatical declarations

Which syntax trees are derivations of the grammar of Go ("Types", "Expressions", "Statements", "Declarations and scope"
of the Go specification), so that their tokens are those of a Go file and have no other meaning: operands of an operator bind tighter than
it, composite literals do not occur in the headers of statements, statements are calls, receptions, assignments and
so on, names are identifiers.
-/

namespace Gowrap.Spec

open Gowrap

/-- An identifier ("Identifiers" of the Go specification) that is not a keyword. -/
def GoName (s : Str) : Prop :=
  (∃ c r, s = c :: r ∧ Go.letter c = true) ∧ (∀ c ∈ s, (Go.letter c || Go.digit c) = true) ∧ s ∉ Go.keywords

end Gowrap.Spec

namespace Gowrap.Go

open Gowrap Spec

/-- The token sequences that are types without a closer look: those of the interface. -/
structure Sources where
  type : List Tok → Prop
  /-- the type of a variadic parameter, beginning with `...` -/
  variadic : List Tok → Prop

/-- Either all parameters have names or none has. -/
def NamedAlike (gs : List Group) : Prop :=
  (∀ g ∈ gs, match g with | .mk xs _ => xs ≠ []) ∨ ∀ g ∈ gs, match g with | .mk xs _ => xs = []

mutual

def Ty.Ok (S : Sources) : Ty → Prop
  | .name x => GoName x
  | .qual p x => GoName p ∧ GoName x
  | .ptr t => t.Ok S
  | .slice t => t.Ok S
  | .map k v => k.Ok S ∧ v.Ok S
  | .chan t => t.Ok S
  | .dots _ => False
  | .func ps r => NamedAlike ps ∧ GroupsOk S ps ∧ r.Ok S
  | .iface ms => MethodsOk S ms
  | .struct gs => StructOk S gs
  | .toks l => S.type l
  | .part t => t.Ok S

/-- A parameter, possibly the last one. -/
def Group.Ok (S : Sources) (last : Prop) : Group → Prop
  | .mk xs (.dots t) => (∀ x ∈ xs, GoName x) ∧ last ∧ xs.length ≤ 1 ∧ t.Ok S
  | .mk xs (.toks l) => (∀ x ∈ xs, GoName x) ∧ (S.type l ∨ last ∧ xs.length ≤ 1 ∧ S.variadic l)
  | .mk xs t => (∀ x ∈ xs, GoName x) ∧ t.Ok S

def GroupsOk (S : Sources) : List Group → Prop
  | [] => True
  | g :: gs => g.Ok S (gs = []) ∧ GroupsOk S gs

/-- The fields of a struct type. -/
def StructOk (S : Sources) : List Group → Prop
  | [] => True
  | g :: gs => g.Ok S False ∧ StructOk S gs

/-- A single type in parentheses would be a list. -/
def Results.Ok (S : Sources) : Results → Prop
  | .none => True
  | .one t => (∀ l, t.put [] ≠ .op g!"(" :: l) ∧ t.Ok S
  | .list gs => NamedAlike gs ∧ StructOk S gs

def MethodsOk (S : Sources) : List IfaceMethod → Prop
  | [] => True
  | m :: ms => m.Ok S ∧ MethodsOk S ms

def IfaceMethod.Ok (S : Sources) : IfaceMethod → Prop
  | .mk x ps r => GoName x ∧ NamedAlike ps ∧ GroupsOk S ps ∧ r.Ok S

end

def unaryOps : List Str := [g!"+", g!"-", g!"!", g!"^", g!"*", g!"&", g!"<-"]

/-- The elements of a list of expressions. -/
def flatExprs : List Expr → List Expr
  | [] => []
  | .many es :: r => flatExprs es ++ flatExprs r
  | e :: r => e :: flatExprs r

/-- The element stands for several. -/
def Expr.isMany : Expr → Bool
  | .many _ => true
  | _ => false

/-- The element is an expression, or stands for at least one. -/
def Expr.filled : Expr → Bool
  | .many es => !es.isEmpty && es.all (!·.isMany)
  | _ => true

/-- Commas separate the elements of the list: those of `many` are not empty, or there are no others. -/
def tidy : List Expr → Bool
  | [.many es] => es.all (!·.isMany)
  | es => es.all Expr.filled

/-- The types of composite literals. -/
def Ty.Literal : Ty → Prop
  | .name _ | .qual _ _ | .slice _ | .map _ _ | .struct _ => True
  | _ => False

/-- The types that are arguments of `make`. -/
def Ty.Made : Ty → Prop
  | .slice _ | .map _ _ | .chan _ => True
  | _ => False

/-- The types of conversions; others could be taken for something else, as `*T(x)`. -/
def Ty.Converts : Ty → Prop
  | .iface _ => True
  | _ => False

def Expr.IsCall : Expr → Prop
  | .call _ _ _ => True
  | _ => False

def Expr.IsName : Expr → Prop
  | .id _ => True
  | _ => False

def Expr.Receives : Expr → Prop
  | .un op _ => op = g!"<-"
  | _ => False

/-- Statements that can stand in the header of another. -/
def Stmt.Simple : Stmt → Prop
  | .expr _ | .assign _ _ | .define _ _ | .inc _ | .send _ _ => True
  | _ => False

def Stmt.IsIf : Stmt → Prop
  | .cond _ _ | .condElse _ _ _ | .condElseIf _ _ _ | .condInit _ _ _ => True
  | _ => False

/-- Statements that can follow `case` in a `select`. -/
def Stmt.Communicates : Stmt → Prop
  | .send _ _ => True
  | .expr e => e.Receives
  | .assign l r | .define l r => l.length ≤ 2 ∧ ∃ e, r = [e] ∧ e.Receives
  | _ => False

mutual

/-- An expression; `lit` says whether composite literals may occur outside parentheses, `q` is the least precedence of an
operator outside parentheses (6 for unary operators, 7 for no operator). -/
def Expr.Ok (S : Sources) (lit : Bool) (q : Nat) : Expr → Prop
  | .id x => GoName x
  | .str _ => True
  | .num _ => True
  | .sel e f => e.Ok S lit 7 ∧ GoName f
  | .call (.type t) args comma => (t.Converts ∧ t.Ok S) ∧ (tidy args = true ∧ (comma = true → flatExprs args ≠ [])) ∧ ArgsOk S True args
  | .call f args comma => f.Ok S lit 7 ∧ (tidy args = true ∧ (comma = true → flatExprs args ≠ [])) ∧ ArgsOk S True args
  | .spread _ => False
  | .index e i => e.Ok S lit 7 ∧ i.Ok S true 0
  | .un op e => q ≤ 6 ∧ op ∈ unaryOps ∧ e.Ok S lit 6
  | .bin op a b => match binPrec op with
    | some p => q ≤ p ∧ a.Ok S lit p ∧ b.Ok S lit (p + 1)
    | none => False
  | .paren e => e.Ok S true 0
  | .assert e t => e.Ok S lit 7 ∧ t.Ok S
  | .lit t es comma => lit = true ∧ t.Literal ∧ t.Ok S ∧ (tidy es = true ∧ (comma = true → flatExprs es ≠ [])) ∧ ElemsOk S es
  | .pair _ _ => False
  | .fn ps r body => NamedAlike ps ∧ GroupsOk S ps ∧ r.Ok S ∧ StmtsOk S body
  | .type _ => False
  | .many _ => False

/-- Arguments of a call. -/
def ArgsOk (S : Sources) (last : Prop) : List Expr → Prop
  | [] => True
  | .spread e :: es => last ∧ es = [] ∧ e.Ok S true 0
  | .type t :: es => (t.Made ∧ t.Ok S) ∧ ArgsOk S last es
  | .many es' :: es => ArgsOk S (last ∧ es = []) es' ∧ ArgsOk S last es
  | e :: es => e.Ok S true 0 ∧ ArgsOk S last es

/-- Elements of a composite literal. -/
def ElemsOk (S : Sources) : List Expr → Prop
  | [] => True
  | .pair k v :: es => k.Ok S true 0 ∧ v.Ok S true 0 ∧ ElemsOk S es
  | .many es' :: es => ElemsOk S es' ∧ ElemsOk S es
  | e :: es => e.Ok S true 0 ∧ ElemsOk S es

/-- Expressions on the left or right of an assignment, or that are returned. -/
def ExprsOk (S : Sources) (lit : Bool) : List Expr → Prop
  | [] => True
  | .many es' :: es => ExprsOk S lit es' ∧ ExprsOk S lit es
  | e :: es => e.Ok S lit 0 ∧ ExprsOk S lit es

/-- A statement; `lit` is false in headers. -/
def Stmt.Ok (S : Sources) (lit : Bool) : Stmt → Prop
  | .expr e => (e.IsCall ∨ e.Receives) ∧ e.Ok S lit 0
  | .assign l r => (tidy l = true ∧ flatExprs l ≠ []) ∧ (tidy r = true ∧ flatExprs r ≠ []) ∧ ExprsOk S lit l ∧ ExprsOk S lit r
  | .define l r => (tidy l = true ∧ flatExprs l ≠ []) ∧ (tidy r = true ∧ flatExprs r ≠ []) ∧ (∀ e ∈ flatExprs l, e.IsName) ∧ ExprsOk S lit l ∧ ExprsOk S lit r
  | .inc e => e.Ok S lit 7
  | .send ch v => ch.Ok S lit 0 ∧ v.Ok S lit 0
  | .var x t => GoName x ∧ t.Ok S
  | .varInit x e => GoName x ∧ e.Ok S true 0
  | .type x t => GoName x ∧ t.Ok S
  | .ret es => tidy es = true ∧ ExprsOk S true es
  | .cond c b => c.Ok S false 0 ∧ StmtsOk S b
  | .condElse c b b' => c.Ok S false 0 ∧ StmtsOk S b ∧ StmtsOk S b'
  | .condElseIf c b s => c.Ok S false 0 ∧ StmtsOk S b ∧ s.IsIf ∧ s.Ok S true
  | .condInit i c b => i.Simple ∧ i.Ok S false ∧ c.Ok S false 0 ∧ StmtsOk S b
  | .loop i c p b => i.Simple ∧ i.Ok S false ∧ c.Ok S false 0 ∧ p.Simple ∧ p.Ok S false ∧ StmtsOk S b
  | .forever b => StmtsOk S b
  | .range xs e b => xs ≠ [] ∧ xs.length ≤ 2 ∧ (∀ x ∈ xs, x.IsName) ∧ ExprsOk S false xs ∧ e.Ok S false 0 ∧ StmtsOk S b
  | .defer e => e.IsCall ∧ e.Ok S true 0
  | .go e => e.IsCall ∧ e.Ok S true 0
  | .select cs => ClausesOk S cs
  | .many _ => False

/-- The statements of a block. -/
def StmtsOk (S : Sources) : List Stmt → Prop
  | [] => True
  | .many ss :: r => StmtsOk S ss ∧ StmtsOk S r
  | s :: r => s.Ok S true ∧ StmtsOk S r

def Clause.Ok (S : Sources) : Clause → Prop
  | .case s b => s.Communicates ∧ s.Ok S true ∧ StmtsOk S b
  | .default b => StmtsOk S b

def ClausesOk (S : Sources) : List Clause → Prop
  | [] => True
  | c :: cs => c.Ok S ∧ ClausesOk S cs

end

/-- Not a struct type, for which there is a declaration of its own. -/
def Ty.Plain : Ty → Prop
  | .struct _ | .toks _ | .part _ | .dots _ => False
  | _ => True

/-- The types of embedded fields. -/
def Ty.Embeddable : Ty → Prop
  | .name _ | .qual _ _ | .ptr (.name _) | .ptr (.qual _ _) | .toks _ => True
  | _ => False

mutual

def FieldDecl.Ok (S : Sources) : FieldDecl → Prop
  | .named xs t => xs ≠ [] ∧ (∀ x ∈ xs, GoName x) ∧ t.Ok S
  | .embedded t => t.Embeddable ∧ t.Ok S
  | .many fs => FieldsOk S fs

def FieldsOk (S : Sources) : List FieldDecl → Prop
  | [] => True
  | f :: fs => f.Ok S ∧ FieldsOk S fs

end

mutual

def Decl.Ok (S : Sources) : Decl → Prop
  | .imports specs => ∀ s ∈ specs, ∀ x, s.1 = some x → GoName x
  | .struct x fs => GoName x ∧ FieldsOk S fs
  | .type x t => GoName x ∧ t.Plain ∧ t.Ok S
  | .var x e => GoName x ∧ e.Ok S true 0
  | .func x ps r b => GoName x ∧ NamedAlike ps ∧ GroupsOk S ps ∧ r.Ok S ∧ StmtsOk S b
  | .method r t x ps rs b => GoName r ∧ t.receiver ≠ none ∧ t.Ok S ∧ GoName x ∧ NamedAlike ps ∧ GroupsOk S ps ∧
      NamedAlike rs ∧ StructOk S rs ∧ StmtsOk S b
  | .many ds => DeclsOk S ds

def DeclsOk (S : Sources) : List Decl → Prop
  | [] => True
  | d :: ds => d.Ok S ∧ DeclsOk S ds

end

def Decl.IsImport : Decl → Prop
  | .imports _ => True
  | _ => False

/-- The declarations of a file: imports come first. -/
def Grammatical (S : Sources) (ds : List Decl) : Prop :=
  DeclsOk S ds ∧ (flatDecls ds).Pairwise fun a b => b.IsImport → a.IsImport

end Gowrap.Go

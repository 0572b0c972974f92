import Verif.Model.Generator
import Verif.Spec.Source
import Verif.Spec.MethodSet
import Verif.Spec.TypeText
import Verif.Spec.Signature
/-!
# From the source of an interface to generated declarations

`IsType` is the grammar of types ("Types" of the Go specification) over tokens.  `SrcType` are the type expressions that
the Go parser builds, and `SourceOk` says that the files in which gowrap looks for methods were parsed: names are
identifiers, only last parameters are variadic, and so on.
-/

namespace Gowrap.Spec

open Gowrap

/-! ## Types -/

/-- The parts of a type that gowrap copies from the source without looking into them: interface literals, types in
parentheses, and lengths of arrays. -/
structure Copied where
  type : List Go.Tok → Prop
  len : List Go.Tok → Prop

/-- Token sequences with commas between them. -/
def commaToks : List (List Go.Tok) → List Go.Tok
  | [] => []
  | [l] => l
  | l :: ls => l ++ .op g!"," :: commaToks ls

/-- Names with a type, as in a parameter list or a struct. -/
def fieldToks (f : List Str × List Go.Tok) : List Go.Tok := commaToks (f.1.map fun x => [.word x]) ++ f.2

/-- A type name, possibly of another package. -/
inductive IsTypeNameToks : List Go.Tok → Prop
  | name {x : Str} : GoName x → IsTypeNameToks [.word x]
  | qualified {p x : Str} : GoName p → GoName x → IsTypeNameToks [.word p, .op g!".", .word x]

/-- All parameters have names or none has. -/
def NamedOrNot (fs : List (List Str × List Go.Tok)) : Prop := (∀ f ∈ fs, f.1 = []) ∨ ∀ f ∈ fs, f.1 ≠ []

/-- What can be an embedded field: a type name or a pointer to one, possibly with type arguments. -/
def EmbeddedToks (l : List Go.Tok) : Prop :=
  ∃ n r, IsTypeNameToks n ∧ (l = n ++ r ∨ l = .op g!"*" :: (n ++ r)) ∧ (r = [] ∨ ∃ r', r = .op g!"[" :: r')

/-- "Types" of the Go specification. -/
inductive IsType (K : Copied) : List Go.Tok → Prop
  | name {l} : IsTypeNameToks l → IsType K l
  | inst {l args} : IsTypeNameToks l → args ≠ [] → (∀ a ∈ args, IsType K a) →
      IsType K (l ++ .op g!"[" :: (commaToks args ++ [.op g!"]"]))
  | pointer {l} : IsType K l → IsType K (.op g!"*" :: l)
  | slice {l} : IsType K l → IsType K (.op g!"[" :: .op g!"]" :: l)
  | array {n l} : K.len n → IsType K l → IsType K (.op g!"[" :: (n ++ .op g!"]" :: l))
  | map {k v} : IsType K k → IsType K v → IsType K (.word g!"map" :: .op g!"[" :: (k ++ .op g!"]" :: v))
  | chan {l} : IsType K l → IsType K (.word g!"chan" :: l)
  | chanSend {l} : IsType K l → IsType K (.word g!"chan" :: .op g!"<-" :: l)
  | chanRecv {l} : IsType K l → IsType K (.op g!"<-" :: .word g!"chan" :: l)
  | func {ps rs} : NamedOrNot ps → NamedOrNot rs → (∀ f ∈ ps ++ rs, ∀ x ∈ f.1, GoName x) → (∀ f ∈ ps ++ rs, IsType K f.2) →
      IsType K (.word g!"func" :: .op g!"(" :: (commaToks (ps.map fieldToks) ++
        .op g!")" :: .op g!"(" :: (commaToks (rs.map fieldToks) ++ [.op g!")"])))
  | variadic {ps xs l rs} : NamedOrNot (ps ++ [(xs, l)]) → NamedOrNot rs → xs.length ≤ 1 →
      (∀ f ∈ ps ++ (xs, l) :: rs, ∀ x ∈ f.1, GoName x) → (∀ f ∈ ps ++ (xs, l) :: rs, IsType K f.2) →
      IsType K (.word g!"func" :: .op g!"(" :: (commaToks ((ps ++ [(xs, .op g!"..." :: l)]).map fieldToks) ++
        .op g!")" :: .op g!"(" :: (commaToks (rs.map fieldToks) ++ [.op g!")"])))
  | struct {fs : List (List Str × List Go.Tok)} : (∀ f ∈ fs, ∀ x ∈ f.1, GoName x) → (∀ f ∈ fs, IsType K f.2) → (∀ f ∈ fs, f.1 = [] → EmbeddedToks f.2) →
      IsType K (.word g!"struct" :: .op g!"{" :: ((fs.flatMap fun f => fieldToks f ++ [.op g!";"]) ++ [.op g!"}"]))
  | copied {l} : K.type l → IsType K l

/-! ## Type expressions -/

/-- The brackets of the tokens match. -/
inductive Matched : List Go.Tok → Prop
  | nil : Matched []
  | word {x l} : Matched l → Matched (.word x :: l)
  | str {x l} : Matched l → Matched (.str x :: l)
  | num {x l} : Matched l → Matched (.num x :: l)
  | op {o l} : o ∉ [g!"(", g!")", g!"[", g!"]", g!"{", g!"}"] → Matched l → Matched (.op o :: l)
  | round {l r} : Matched l → Matched r → Matched (.op g!"(" :: (l ++ .op g!")" :: r))
  | square {l r} : Matched l → Matched r → Matched (.op g!"[" :: (l ++ .op g!"]" :: r))
  | curly {l r} : Matched l → Matched r → Matched (.op g!"{" :: (l ++ .op g!"}" :: r))

/-- An interface literal, or something in parentheses. -/
def Enclosed (l : List Go.Tok) : Prop := ∃ p, Matched p ∧
  (l = .word g!"interface" :: .op g!"{" :: (p ++ [.op g!"}"]) ∨ l = .op g!"(" :: (p ++ [.op g!")"]))

/-- The text of a type that gowrap copies: it is the text of an interface literal or of a type in parentheses. -/
def CopiedType (s : Str) : Prop :=
  TypeSource s ∧ (∃ c r, s = c :: r ∧ (Go.letter c = true ∨ c = '(')) ∧ Enclosed (Go.typeToks s)

/-- The text of the length of an array consists of tokens, a closing bracket after it is a token of its own, and brackets match. -/
def CopiedLen (s : Str) : Prop := ∃ l : List Go.Tok, Matched l ∧ ∀ sm ts,
  Go.State.run ⟨.start, sm, ts⟩ (s ++ g!"]") = ⟨.start, true, .op g!"]" :: (l.reverse ++ ts)⟩

/-- What is copied, if `raw` is the text of an expression. -/
def copiedOf (raw : Expr → Str) : Copied where
  type l := ∃ e, ((∃ ms, e = .ifaceT ms) ∨ ∃ x, e = .paren x) ∧ l = Go.typeToks (raw e) ∧ Enclosed l
  len l := ∃ e, Matched l ∧ ∀ sm ts, Go.State.run ⟨.start, sm, ts⟩ (raw e ++ g!"]") = ⟨.start, true, .op g!"]" :: (l.reverse ++ ts)⟩

/-- A type name; go/printer prints it as it is. -/
def SrcName (raw : Expr → Str) : Expr → Prop
  | .ident n => GoName n ∧ raw (.ident n) = n
  | .selector (.ident a) b => GoName a ∧ GoName b ∧ raw (.selector (.ident a) b) = a ++ g!"." ++ b
  | _ => False

/-- The type of an embedded field. -/
def SrcEmbedded : Expr → Prop
  | .ident _ | .selector _ _ | .index _ _ | .indexList _ _ => True
  | .star (.ident _) | .star (.selector _ _) | .star (.index _ _) | .star (.indexList _ _) => True
  | _ => False

mutual

/-- Type expressions of a parsed file; `v` says whether a variadic parameter is possible here. -/
def SrcType (raw : Expr → Str) (v : Prop) : Expr → Prop
  | .ident n => SrcName raw (.ident n)
  | .selector x b => SrcName raw (.selector x b)
  | .star x => SrcType raw False x
  | .ellipsis x => v ∧ SrcType raw False x
  | .array none x => SrcType raw False x
  | .array (some l) x => CopiedLen (raw l) ∧ SrcType raw False x
  | .mapT k t => SrcType raw False k ∧ SrcType raw False t
  | .chanT _ t => SrcType raw False t
  | .funcT ps rs => Uniform ps ∧ SrcFields raw True ps ∧ SrcResults raw rs
  | .structT fs => (∀ f ∈ fs, f.names = [] → SrcEmbedded f.type) ∧ SrcFields raw False fs
  | .index x i => SrcName raw x ∧ SrcType raw False i
  | .indexList x is => SrcName raw x ∧ is ≠ [] ∧ SrcTypes raw is
  | .ifaceT ms => CopiedType (raw (.ifaceT ms))
  | .paren x => CopiedType (raw (.paren x))
  | _ => False

def SrcField (raw : Expr → Str) (v : Prop) : Field → Prop
  | .mk _ _ names t _ => (∀ x ∈ names, GoName x) ∧ SrcType raw (v ∧ names.length ≤ 1) t

/-- A list of fields; the last one may be variadic if `v` holds. -/
def SrcFields (raw : Expr → Str) (v : Prop) : List Field → Prop
  | [] => True
  | f :: fs => SrcField raw (v ∧ fs = []) f ∧ SrcFields raw v fs

def SrcResults (raw : Expr → Str) : Option (List Field) → Prop
  | none => True
  | some rs => Uniform rs ∧ SrcFields raw False rs

def SrcTypes (raw : Expr → Str) : List Expr → Prop
  | [] => True
  | e :: es => SrcType raw False e ∧ SrcTypes raw es

end

/-! ## Packages -/

/-- A method of an interface: `names` are the names of parameters and results that are not names of constants, and types
from which names are made (`C60`) do not begin with a letter outside ASCII. -/
structure SrcMethod (raw : Expr → Str) (name : Str) (params : List Field) (results : Option (List Field)) : Prop where
  name : GoName name
  type : SrcType raw False (.funcT params results)
  plain : ∀ d ∈ declared params ++ declaredOpt results, ∀ n, d.1 = some n → n ∉ [g!"nil", g!"true", g!"false"]
  ascii : ∀ d ∈ declared params ++ declaredOpt results, ∀ c cs, coreName d.2.type = some (c :: cs) → AsciiLetter c

/-- An embedded element of an interface; unions and types of other kinds have no methods. -/
def SrcElement (raw : Expr → Str) : Expr → Prop
  | .index x i => SrcName raw x ∧ SrcType raw False i
  | .indexList x is => SrcName raw x ∧ is ≠ [] ∧ SrcTypes raw is
  | _ => True

/-- A declaration of a type. -/
structure SrcSpec (raw : Expr → Str) (ts : TypeSpec) : Prop where
  params : ∀ fs, ts.typeParams = some fs → ∀ f ∈ fs, ∀ x ∈ f.names, GoName x
  methods : ∀ ms, ts.type = .ifaceT ms → ∀ f ∈ ms, ∀ n ps rs, f.names.head? = some n → f.type = .funcT ps rs → SrcMethod raw n ps rs
  elements : ∀ ms, ts.type = .ifaceT ms → ∀ f ∈ ms, SrcElement raw f.type

/-- The packages in which gowrap looks for methods have been parsed.  Titles of package names are made of letters and digits. -/
structure SourceOk (w : World) : Prop where
  lower : ∀ c, Go.letter c = true → Go.letter (w.uni.toLower c) = true
  names : ∀ p f, FileOf w p f → GoName (w.pkg p).name
  titles : ∀ p f, FileOf w p f → GoName (g!"_source" ++ w.title (w.pkg p).name)
  specs : ∀ p f ts, FileOf w p f → DeclaredIn f ts → SrcSpec w.raw ts

/-- The type of a parameter or result in the generated code: a Go type, with `...` before it if the parameter is variadic. -/
def TypeOf (K : Copied) (p : Param) : Prop :=
  if p.variadic then ∃ l, Go.typeToks p.type = .op g!"..." :: l ∧ IsType K l else IsType K (Go.typeToks p.type)

/-- The types of the grammar, instead of types without a closer look. -/
def goTypes (K : Copied) : Go.Sources where
  type := IsType K
  variadic l := ∃ r, l = .op g!"..." :: r ∧ IsType K r

/-- The text consists of declarations of Go all of whose types are types, but for the parts that are copied. -/
def ConsistsOfGo (w : World) (s : Str) (ds : List Go.Decl) : Prop :=
  Go.tokens s = some (Go.putDecls ds []) ∧ Go.Grammatical (goTypes (copiedOf w.raw)) ds

/-- The command line names the interface and the package. -/
structure OptionsOk (o : Options) : Prop where
  name : GoName o.interfaceName
  alias : o.sourcePackageAlias = [] ∨ GoName o.sourcePackageAlias

end Gowrap.Spec

import Verif.Spec.MethodSet
/-!
# Specification: signatures of embedded methods and instantiation of type parameters
-/

namespace Gowrap.Spec

open Gowrap

/-- The printer sees the package `q`: the names known to it are the type names that package declares, and
they get the selector `pref` in the package `root` and the package's own name elsewhere. -/
structure Views (w : World) (root : PkgId) (pref : Str) (q : PkgId) (env : PrintEnv) : Prop where
  uni : env.uni = w.uni
  raw : env.raw = w.raw
  types : ∀ n, n ∈ env.types ↔ ∃ f ts, FileOf w q f ∧ DeclaredIn f ts ∧ ts.name = n
  pref : q = root ∧ env.pref = pref ∨ env.pref = (w.pkg q).name

mutual
/-- The text of a type argument: that of the type, arguments of an instantiation separated by commas. -/
inductive ArgText (env : PrintEnv) : Expr → Str → Prop where
  | index {x i a t} : printType env x = .ok a → ArgText env i t → ArgText env (.index x i) (a ++ g!"[" ++ t ++ g!"]")
  | indexList {x is a ts} : printType env x = .ok a → is ≠ [] → ArgTexts env is ts →
      ArgText env (.indexList x is) (a ++ g!"[" ++ join g!", " ts ++ g!"]")
  /-- (the parser makes no empty argument lists) -/
  | bare {x a} : printType env x = .ok a → ArgText env (.indexList x []) a
  | plain {e t} : (∀ x i, e ≠ .index x i) → (∀ x is, e ≠ .indexList x is) → printType env e = .ok t →
      ArgText env e t
inductive ArgTexts (env : PrintEnv) : List Expr → List Str → Prop where
  | nil : ArgTexts env [] []
  | cons {e es t ts} : ArgText env e t → ArgTexts env es ts → ArgTexts env (e :: es) (t :: ts)
end

/-- Type parameters and the texts of the arguments given for them. -/
structure Inst where
  params : List Str
  args : List Str

/-- The type parameters of a declaration, in order. -/
def typeParamNames (ts : TypeSpec) : List Str := (ts.typeParams.getD []).flatMap (·.names)

/-- Where a type expression stands: on the right hand side of a type declaration with given type parameters
and arguments, as an element of an interface, or as the name in an instantiation with given arguments. -/
inductive At where
  | rhs (c : Inst)
  | elem
  | inst (args : List Str)

/-- `Provides w root pref pos p f e d c`: gowrap follows the type expression `e` of file `f` of package `p` to
the method declaration `d`, which stands in a declaration with the type parameters `c.params` that was
instantiated with the arguments `c.args`. -/
inductive Provides (w : World) (root : PkgId) (pref : Str) : At → PkgId → File → Expr → MethodDecl → Inst → Prop where
  | declared {p f ms fd ps rs m c} : fd ∈ ms → fd.type = .funcT ps rs → fd.names.head? = some m →
      Provides w root pref (.rhs c) p f (.ifaceT ms) ⟨m, fd, some p⟩ c
  | embedded {p f ms fd d c c'} : fd ∈ ms → Provides w root pref .elem p f fd.type d c' →
      Provides w root pref (.rhs c) p f (.ifaceT ms) d c'
  | alias {p f ts d c c'} : DeclaredIn f ts → Provides w root pref (.rhs c) p f ts.type d c' →
      Provides w root pref (.rhs c) p f (.ident ts.name) d c'
  | rhsSelector {p f a q f' ts d c c'} : ImportedAs w p f a q → FileOf w q f' → DeclaredIn f' ts →
      Provides w root pref (.rhs ⟨typeParamNames ts, []⟩) q f' ts.type d c' →
      Provides w root pref (.rhs c) p f (.selector (.ident a) ts.name) d c'
  /-- an element without arguments -/
  | plain {p f e d c'} : NamesType e → Provides w root pref (.inst []) p f e d c' →
      Provides w root pref .elem p f e d c'
  /-- an element with arguments, which are printed as seen from the package of the element -/
  | index {p f x i env t d c'} : NamesType x → Views w root pref p env → ArgText env i t →
      Provides w root pref (.inst [t]) p f x d c' → Provides w root pref .elem p f (.index x i) d c'
  | indexList {p f x is env ts d c'} : NamesType x → Views w root pref p env → ArgTexts env is ts →
      Provides w root pref (.inst ts) p f x d c' → Provides w root pref .elem p f (.indexList x is) d c'
  | named {p f f' ts d c' args} : FileOf w p f' → DeclaredIn f' ts →
      Provides w root pref (.rhs ⟨typeParamNames ts, args⟩) p f' ts.type d c' →
      Provides w root pref (.inst args) p f (.ident ts.name) d c'
  | selector {p f a q f' ts d c' args} : ImportedAs w p f a q → FileOf w q f' → DeclaredIn f' ts →
      Provides w root pref (.rhs ⟨typeParamNames ts, args⟩) q f' ts.type d c' →
      Provides w root pref (.inst args) p f (.selector (.ident a) ts.name) d c'

def At.pos : At → Pos
  | .rhs _ => .rhs
  | _ => .elem

/-- What is provided is followed. -/
theorem Provides.followed {w : World} {root : PkgId} {pref : Str} {pos : At} {p : PkgId} {f : File} {e : Expr}
    {d : MethodDecl} {c : Inst} (h : Provides w root pref pos p f e d c) : Followed w pos.pos p f e d := by
  induction h with
  | declared h1 h2 h3 => exact .declared h1 h2 h3
  | embedded h1 _ ih => exact .embedded h1 ih
  | alias h1 _ ih => exact .alias h1 ih
  | rhsSelector h1 h2 h3 _ ih => exact .selector h1 h2 h3 ih
  | plain _ _ ih => exact ih
  | index h1 _ _ _ ih => exact .index h1 ih
  | indexList h1 _ _ _ ih => exact .indexList h1 ih
  | named h1 h2 _ ih => exact .named h1 h2 ih
  | selector h1 h2 h3 _ ih => exact .selector h1 h2 h3 ih

/-- `m` is the method made from the declaration `d` in a declaration instantiated as in `c`, with types
printed as seen from the package they are declared in. -/
def SignatureOf (w : World) (root : PkgId) (pref : Str) (d : MethodDecl) (c : Inst) (m : Method) : Prop :=
  ∃ q env, d.pkg = some q ∧ newMethod env d.name d.field = .ok m ∧ Views w root pref q env.print ∧
    env.genericTypes.flatMap (·.names) = c.params ∧ env.genericParams.map (·.string) = c.args

/-- Declared names and printed expressions are not empty. -/
structure Printable (w : World) : Prop where
  raw : ∀ e, w.raw e ≠ []
  names : ∀ p f ts, FileOf w p f → DeclaredIn f ts → ts.name ≠ []

end Gowrap.Spec

namespace Gowrap.Spec

open Gowrap

mutual
/-- The type expression with the type `a` in place of the name `t`, at any depth. -/
def replace (t : Str) (a : Expr) : Expr → Expr
  | .ident n => if n = t then a else .ident n
  | .selector x sel => .selector x sel
  | .star x => .star (replace t a x)
  | .sliceExpr x => .sliceExpr (replace t a x)
  | .ellipsis x => .ellipsis (replace t a x)
  | .array len x => .array len (replace t a x)
  | .mapT k v => .mapT (replace t a k) (replace t a v)
  | .chanT d x => .chanT d (replace t a x)
  | .funcT ps rs => .funcT (replaceFields t a ps) (replaceOpt t a rs)
  | .structT fs => .structT (replaceFields t a fs)
  | .ifaceT ms => .ifaceT (replaceFields t a ms)
  | .index x i => .index (replace t a x) (replace t a i)
  | .indexList x is => .indexList (replace t a x) (replaceAll t a is)
  | .paren x => .paren (replace t a x)
  | .lit s => .lit s
  | .unary b x => .unary b (replace t a x)
  | .binary b x y => .binary b (replace t a x) (replace t a y)
  | .other s => .other s
def replaceField (t : Str) (a : Expr) : Field → Field
  | .mk d c names ty tag => .mk d c names (replace t a ty) tag
def replaceFields (t : Str) (a : Expr) : List Field → List Field
  | [] => []
  | f :: fs => replaceField t a f :: replaceFields t a fs
def replaceOpt (t : Str) (a : Expr) : Option (List Field) → Option (List Field)
  | none => none
  | some fs => some (replaceFields t a fs)
def replaceAll (t : Str) (a : Expr) : List Expr → List Expr
  | [] => []
  | e :: es => replace t a e :: replaceAll t a es
end

/-- The type text `result` made from the printed type `s` of a declaration instantiated as in `c`: the
argument if the type as a whole is a type parameter with an argument, otherwise the type itself. -/
def WholeReplaced (c : Inst) (s result : Str) : Prop :=
  (∃ j : Nat, c.params[j]? = some s ∧ c.args[j]? = some result) ∨
  ((∀ j : Nat, j < c.args.length → c.params[j]? ≠ some s) ∧ result = s)

end Gowrap.Spec

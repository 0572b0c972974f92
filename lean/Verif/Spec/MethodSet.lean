import Verif.Model.Generator
/-!
# Specification: method sets of interfaces over several packages

Written from the Go language specification, independently of generator/generator.go: which package a
qualifier denotes in a file, which type an identifier denotes, and which methods an interface has.
-/

namespace Gowrap.Spec

open Gowrap

/-- `f` is a source file of package `p`. -/
def FileOf (w : World) (p : PkgId) (f : File) : Prop := ∃ fs, w.files p = .ok fs ∧ f ∈ fs

/-- File `f` contains the type declaration `ts`. -/
def DeclaredIn (f : File) (ts : TypeSpec) : Prop := ∃ specs, Decl.types specs ∈ f.decls ∧ ts ∈ specs

/-- The import literal `lit` denotes the import path `path`. -/
def Literal (lit path : Str) : Prop := lit = '"' :: path ++ ['"'] ∨ lit = '`' :: path ++ ['`']

/-- In file `f` of package `p` the name `a` denotes the package `q`. -/
def ImportedAs (w : World) (p : PkgId) (f : File) (a : Str) (q : PkgId) : Prop :=
  ∃ imp ∈ f.imports, ∃ path, Literal imp.path path ∧ (path, q) ∈ (w.pkg p).imports ∧
    (imp.name = some a ∨ imp.name = none ∧ (w.pkg q).name = a)

/-- File `f` imports the names of package `q` with `import . "..."`. -/
def DotImported (w : World) (p : PkgId) (f : File) (q : PkgId) : Prop :=
  ∃ imp ∈ f.imports, ∃ path, Literal imp.path path ∧ (path, q) ∈ (w.pkg p).imports ∧ imp.name = some g!"."

/-- A method declaration: its name, the field that declares it, and the package (`none` for the
predeclared `error`). -/
structure MethodDecl where
  name : Str
  field : Field
  pkg : Option PkgId

/-- The declaration of `Error() string` in the predeclared interface `error`. -/
def errorField : Field :=
  .mk [] [] [g!"Error"] (.funcT [] (some [.mk [] [] [] (.ident g!"string") none])) none

/-- `HasMethod w p f e d`: the type expression `e`, written in file `f` of package `p`, denotes a type
whose underlying interface has the method `d`. -/
inductive HasMethod (w : World) : PkgId → File → Expr → MethodDecl → Prop where
  /-- a method specification of an interface literal; the parser gives it exactly one name -/
  | declared {p f ms fd ps rs m} : fd ∈ ms → fd.type = .funcT ps rs → fd.names.head? = some m →
      HasMethod w p f (.ifaceT ms) ⟨m, fd, some p⟩
  /-- an embedded element of an interface literal -/
  | embedded {p f ms fd d} : fd ∈ ms → HasMethod w p f fd.type d → HasMethod w p f (.ifaceT ms) d
  /-- a type declared in the same package -/
  | named {p f f' ts d} : FileOf w p f' → DeclaredIn f' ts → HasMethod w p f' ts.type d →
      HasMethod w p f (.ident ts.name) d
  /-- the predeclared `error`, unless the package declares a type of that name -/
  | builtin {p f} : (∀ f' ts, FileOf w p f' → DeclaredIn f' ts → ts.name ≠ g!"error") →
      HasMethod w p f (.ident g!"error") ⟨g!"Error", errorField, none⟩
  /-- a type of a dot-imported package -/
  | dot {p f q f' ts d} : DotImported w p f q → FileOf w q f' → DeclaredIn f' ts →
      HasMethod w q f' ts.type d → HasMethod w p f (.ident ts.name) d
  /-- a type of an imported package -/
  | selector {p f a q f' ts d} : ImportedAs w p f a q → FileOf w q f' → DeclaredIn f' ts →
      HasMethod w q f' ts.type d → HasMethod w p f (.selector (.ident a) ts.name) d
  /-- instantiation -/
  | index {p f x i d} : HasMethod w p f x d → HasMethod w p f (.index x i) d
  | indexList {p f x is d} : HasMethod w p f x d → HasMethod w p f (.indexList x is) d
  | paren {p f x d} : HasMethod w p f x d → HasMethod w p f (.paren x) d

/-- Position of a type expression: the right hand side of a type declaration, or an embedded element of an
interface. -/
inductive Pos where
  | rhs | elem

/-- A possibly qualified name (only these can be instantiated in Go). -/
def NamesType (e : Expr) : Prop := (∃ n, e = .ident n) ∨ ∃ a n, e = .selector (.ident a) n

/-- `Followed w pos p f e d`: as `HasMethod`, but only along the kinds of type expressions that gowrap
follows.  Not followed: the predeclared `error`, dot imports, interface literals and parenthesised types as
embedded elements, right hand sides which are instantiations or parenthesised, or which name a type declared
in another file. -/
inductive Followed (w : World) : Pos → PkgId → File → Expr → MethodDecl → Prop where
  | declared {p f ms fd ps rs m} : fd ∈ ms → fd.type = .funcT ps rs → fd.names.head? = some m →
      Followed w .rhs p f (.ifaceT ms) ⟨m, fd, some p⟩
  | embedded {p f ms fd d} : fd ∈ ms → Followed w .elem p f fd.type d → Followed w .rhs p f (.ifaceT ms) d
  /-- `type A B` with `B` declared in the same file -/
  | alias {p f ts d} : DeclaredIn f ts → Followed w .rhs p f ts.type d → Followed w .rhs p f (.ident ts.name) d
  /-- an embedded interface of the same package -/
  | named {p f f' ts d} : FileOf w p f' → DeclaredIn f' ts → Followed w .rhs p f' ts.type d →
      Followed w .elem p f (.ident ts.name) d
  /-- a type of an imported package -/
  | selector {pos p f a q f' ts d} : ImportedAs w p f a q → FileOf w q f' → DeclaredIn f' ts →
      Followed w .rhs q f' ts.type d → Followed w pos p f (.selector (.ident a) ts.name) d
  | index {p f x i d} : NamesType x → Followed w .elem p f x d → Followed w .elem p f (.index x i) d
  | indexList {p f x is d} : NamesType x → Followed w .elem p f x d → Followed w .elem p f (.indexList x is) d

/-- What is followed is part of the method set. -/
theorem Followed.has {w : World} {pos : Pos} {p : PkgId} {f : File} {e : Expr} {d : MethodDecl}
    (hf : FileOf w p f) (h : Followed w pos p f e d) : HasMethod w p f e d := by
  induction h with
  | declared h1 h2 h3 => exact .declared h1 h2 h3
  | embedded h1 _ ih => exact .embedded h1 (ih hf)
  | alias h1 _ ih => exact .named hf h1 (ih hf)
  | named h1 h2 _ ih => exact .named h1 h2 (ih h1)
  | selector h1 h2 h3 _ ih => exact .selector h1 h2 h3 (ih h2)
  | index _ _ ih => exact .index (ih hf)
  | indexList _ _ ih => exact .indexList (ih hf)

/-- Import literals as written in practice: double quotes, no quotes inside, not empty; a package has
one entry per import path. -/
structure PlainImports (w : World) : Prop where
  literal : ∀ p f imp, FileOf w p f → imp ∈ f.imports →
    ∃ path : Str, imp.path = '"' :: path ++ ['"'] ∧ path ≠ [] ∧ '"' ∉ path
  unique : ∀ p path q q', (path, q) ∈ (w.pkg p).imports → (path, q') ∈ (w.pkg p).imports → q = q'

/-- `a` is a package qualifier of an embedded element in the type expression. -/
inductive Qualifies (a : Str) : Expr → Prop where
  | here {sel} : Qualifies a (.selector (.ident a) sel)
  | elem {ms fd} : fd ∈ ms → Qualifies a fd.type → Qualifies a (.ifaceT ms)
  | index {x i} : Qualifies a x → Qualifies a (.index x i)
  | indexList {x is} : Qualifies a x → Qualifies a (.indexList x is)

/-- All files of a package agree on what a qualifier used in an embedded element means: it is imported by
the file that uses it, no other file of the package gives the name to another package, and no other import
of the package is a package of that name. -/
def QualifiersAgree (w : World) : Prop :=
  ∀ p f ts a, FileOf w p f → DeclaredIn f ts → Qualifies a ts.type →
    ∃ q, ImportedAs w p f a q ∧
      (∀ g q', FileOf w p g → ImportedAs w p g a q' → q' = q) ∧
      (∀ path q', (path, q') ∈ (w.pkg p).imports → (w.pkg q').name = a → q' = q)

/-- Loading a package by the path written in an import gives the imported package; if the import has no
name, the name of the package is the last segment of its path; the empty path cannot be loaded. -/
structure LoadsImports (w : World) : Prop where
  empty : ∀ q, w.load [] ≠ .ok q
  imported : ∀ p f imp path q, FileOf w p f → imp ∈ f.imports → imp.path = '"' :: path ++ ['"'] →
    w.load path = .ok q → (path, q) ∈ (w.pkg p).imports
  segment : ∀ p f imp path q, FileOf w p f → imp ∈ f.imports → imp.path = '"' :: path ++ ['"'] →
    w.load path = .ok q → imp.name = none →
    (w.pkg q).name = path ∨ ∃ dir, path = dir ++ '/' :: (w.pkg q).name
  /-- package names contain no slash -/
  name : ∀ q, '/' ∉ (w.pkg q).name

/-- No package declares a type name twice (as it may in files for different build constraints). -/
def UniqueTypes (w : World) : Prop :=
  ∀ p f f' ts ts', FileOf w p f → FileOf w p f' → DeclaredIn f ts → DeclaredIn f' ts' → ts.name = ts'.name →
    ts = ts' ∧ f = f'

end Gowrap.Spec

namespace Gowrap.Spec

open Gowrap

/-- `Reaches w p f e q g ts`: the methods of the type expression `e` of file `f` of package `p` may come from
the declaration `ts` in file `g` of package `q`. -/
inductive Reaches (w : World) : PkgId → File → Expr → PkgId → File → TypeSpec → Prop where
  | elem {p f ms fd q g ts} : fd ∈ ms → Reaches w p f fd.type q g ts → Reaches w p f (.ifaceT ms) q g ts
  | named {p f f' ts} : FileOf w p f' → DeclaredIn f' ts → Reaches w p f (.ident ts.name) p f' ts
  | selector {p f a q f' ts} : ImportedAs w p f a q → FileOf w q f' → DeclaredIn f' ts →
      Reaches w p f (.selector (.ident a) ts.name) q f' ts
  | index {p f x i q g ts} : Reaches w p f x q g ts → Reaches w p f (.index x i) q g ts
  | indexList {p f x is q g ts} : Reaches w p f x q g ts → Reaches w p f (.indexList x is) q g ts
  | step {p f e q g ts q' g' ts'} : Reaches w p f e q g ts → Reaches w q g ts.type q' g' ts' →
      Reaches w p f e q' g' ts'

/-- The identifier denotes nothing outside the package's own declarations that could have methods. -/
def OwnName (w : World) (p : PkgId) (f : File) (n : Str) : Prop :=
  (n = g!"error" → ∃ f' ts, FileOf w p f' ∧ DeclaredIn f' ts ∧ ts.name = g!"error") ∧
  ∀ q f' ts, DotImported w p f q → FileOf w q f' → DeclaredIn f' ts → ts.name ≠ n

/-- An element of an interface that gowrap supports: a method, a possibly instantiated name, or something
without methods. -/
def SupportedElem (w : World) (p : PkgId) (f : File) : Expr → Prop
  | .ident n => OwnName w p f n
  | .index x _ => NamesType x ∧ SupportedElem w p f x
  | .indexList x _ => NamesType x ∧ SupportedElem w p f x
  | .paren _ => False
  | .ifaceT _ => False
  | _ => True

/-- A right hand side of a type declaration that gowrap supports: an interface with supported elements, a
qualified name, or the name of a type of the same file. -/
def SupportedRhs (w : World) (p : PkgId) (f : File) : Expr → Prop
  | .ifaceT ms => ∀ fd ∈ ms, SupportedElem w p f fd.type
  | .ident n => OwnName w p f n ∧ ∀ f' ts, FileOf w p f' → DeclaredIn f' ts → ts.name = n → f' = f
  | .selector _ _ => True
  | .index _ _ => False
  | .indexList _ _ => False
  | .paren _ => False
  | _ => True

/-- The type expression and all declarations its methods may come from are supported. -/
def Supported (w : World) (p : PkgId) (f : File) (e : Expr) : Prop :=
  SupportedRhs w p f e ∧ ∀ q g ts, Reaches w p f e q g ts → SupportedRhs w q g ts.type

/-- The selector of the source package `src` in a file of the package with import path `dst`: none if they
are the same package, otherwise the alias given by the user or else `_source` and the capitalised name. -/
def Selector (w : World) (o : Options) (src : PkgId) (dst sel : Str) : Prop :=
  (w.pkg src).path = dst ∧ sel = [] ∨
  (w.pkg src).path ≠ dst ∧ o.sourcePackageAlias ≠ [] ∧ sel = o.sourcePackageAlias ∨
  (w.pkg src).path ≠ dst ∧ o.sourcePackageAlias = [] ∧ sel = g!"_source" ++ w.title (w.pkg src).name

end Gowrap.Spec

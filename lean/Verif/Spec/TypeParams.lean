import Verif.Spec.Text
import Verif.Spec.TypeText
/-!
# Reading type parameter lists and constraints
-/

namespace Gowrap.Spec

open Gowrap

/-- Remove the surrounding brackets; the empty text is an empty list. -/
def unbracket : Str → Option Str
  | [] => some []
  | '[' :: r =>
    match r.getLast? with
    | some ']' => some r.dropLast
    | _ => none
  | _ => none

/-- Collect `a`, `b C` into groups `([a, b], C)`. -/
def collect (acc : List Str) : List Str → Option (List (List Str × Str))
  | [] => if acc = [] then some [] else none
  | p :: ps =>
    match splitAtChar ' ' p with
    | (n, []) => collect (acc ++ [n]) ps
    | (n, _ :: c) => (collect [] ps).map fun gs => (acc ++ [n], c) :: gs

/-- Read a type parameter declaration list `[A, B C, D E]`: groups of names with their constraint. -/
def readTypeParams (s : Str) : Option (List (List Str × Str)) :=
  (unbracket s).bind fun r => collect [] (items ',' r)

/-- Read a list of type arguments that are plain names. -/
def readTypeArgs (s : Str) : Option (List Str) := (unbracket s).map fun r => items ',' r

/-- Split at every `|`. -/
def splitBar (cur : Str) : Str → List Str
  | [] => [cur.reverse]
  | c :: s => if c = '|' then cur.reverse :: splitBar [] s else splitBar (c :: cur) s

/-- Remove spaces on both sides. -/
def trimSpaces (s : Str) : Str := (trimLeft (trimLeft s).reverse).reverse

/-- A term of a union: `T` or `~T`. -/
structure Term where
  tilde : Bool
  type : Ty

/-- The text is the given term. -/
def SaysTerm (s : Str) (t : Term) : Prop :=
  match s with
  | '~' :: r => t.tilde = true ∧ Says r t.type
  | r => t.tilde = false ∧ Says r t.type

/-- The text is the union of the given terms. -/
def SaysUnion (s : Str) (ts : List Term) : Prop :=
  let pieces := (splitBar [] s).map trimSpaces
  pieces.length = ts.length ∧ ∀ (i : Nat) p t, pieces[i]? = some p → ts[i]? = some t → SaysTerm p t

/-- What a constraint says in a package that refers to the source package as `pref`. -/
def unionMeaning (raw : Expr → Str) (decls : List Str) (pref : Str) : Expr → List Term
  | .binary true x y => unionMeaning raw decls pref x ++ unionMeaning raw decls pref y
  | .unary true x => [⟨true, meaning raw decls pref x⟩]
  | x => [⟨false, meaning raw decls pref x⟩]

/-- Constraints as the Go parser accepts them: unions of types and `~` types. -/
def ConstraintShape : Expr → Prop
  | .binary o x y => o = true ∧ ConstraintShape x ∧ ConstraintShape y
  | .unary o x => o = true ∧ TypeShape x
  | x => TypeShape x

end Gowrap.Spec

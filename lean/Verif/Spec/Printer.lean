import Verif.Spec.TypeText
/-!
# Specification vocabulary for printed types
-/

namespace Gowrap.Spec

open Gowrap

mutual
/-- The type names a type expression refers to without a selector, outside interface literals,
parenthesised types and array lengths. -/
def typeNames : Expr → List Str
  | .ident n => [n]
  | .star x => typeNames x
  | .ellipsis x => typeNames x
  | .array _ x => typeNames x
  | .mapT k v => typeNames k ++ typeNames v
  | .chanT _ v => typeNames v
  | .funcT ps rs => typeNamesFields ps ++ typeNamesOpt rs
  | .structT fs => typeNamesFields fs
  | .index x i => typeNames x ++ typeNames i
  | .indexList x is => typeNames x ++ typeNamesList is
  | _ => []
def typeNamesField : Field → List Str
  | .mk _ _ _ t _ => typeNames t
def typeNamesFields : List Field → List Str
  | [] => []
  | f :: fs => typeNamesField f ++ typeNamesFields fs
def typeNamesOpt : Option (List Field) → List Str
  | none => []
  | some fs => typeNamesFields fs
def typeNamesList : List Expr → List Str
  | [] => []
  | e :: es => typeNames e ++ typeNamesList es
end

/-- The name is exported: its first letter is an upper case letter. -/
def Exported (u : Uni) (n : Str) : Prop := ∃ c r, n = c :: r ∧ u.isUpper c = true

/-- Words of a text that stand alone, i.e. are neither a qualifier nor qualified. -/
def scanWords (prev : Char) (cur : Str) : Str → List Str
  | [] => if cur = [] ∨ prev = '.' then [] else [cur.reverse]
  | c :: s =>
    if identChar c then scanWords prev (c :: cur) s
    else if cur = [] ∨ prev = '.' ∨ c = '.' then scanWords c [] s
    else cur.reverse :: scanWords c [] s

mutual
/-- The names used without a selector in a type. -/
def bareNames : Ty → List Str
  | .name none n => [n]
  | .name (some _) _ => []
  | .inst b as => bareNames b ++ bareNamesList as
  | .ptr t => bareNames t
  | .slice t => bareNames t
  | .arr l t => scanWords ' ' [] l ++ bareNames t
  | .variadic t => bareNames t
  | .mapT k v => bareNames k ++ bareNames v
  | .chanT _ t => bareNames t
  | .func ps rs => bareNamesFields ps ++ bareNamesFields rs
  | .struct fs => bareNamesFields fs
  | .opaque s => scanWords ' ' [] s
def bareNamesField : TyField → List Str
  | .mk _ t => bareNames t
def bareNamesFields : List TyField → List Str
  | [] => []
  | f :: fs => bareNamesField f ++ bareNamesFields fs
def bareNamesList : List Ty → List Str
  | [] => []
  | t :: ts => bareNames t ++ bareNamesList ts
end

mutual
/-- The parts of a type expression that are interface literals, parenthesised types or array lengths. -/
def rawParts : Expr → List Expr
  | .star x => rawParts x
  | .ellipsis x => rawParts x
  | .array none x => rawParts x
  | .array (some l) x => l :: rawParts x
  | .mapT k v => rawParts k ++ rawParts v
  | .chanT _ v => rawParts v
  | .funcT ps rs => rawPartsFields ps ++ rawPartsOpt rs
  | .structT fs => rawPartsFields fs
  | .index x i => rawParts x ++ rawParts i
  | .indexList x is => rawParts x ++ rawPartsList is
  | .ifaceT ms => [.ifaceT ms]
  | .paren x => [.paren x]
  | _ => []
def rawPartsField : Field → List Expr
  | .mk _ _ _ t _ => rawParts t
def rawPartsFields : List Field → List Expr
  | [] => []
  | f :: fs => rawPartsField f ++ rawPartsFields fs
def rawPartsOpt : Option (List Field) → List Expr
  | none => []
  | some fs => rawPartsFields fs
def rawPartsList : List Expr → List Expr
  | [] => []
  | e :: es => rawParts e ++ rawPartsList es
end

mutual
/-- Struct tags of a type, in order. -/
def tags : Expr → List (Option Str)
  | .star x => tags x
  | .ellipsis x => tags x
  | .array _ x => tags x
  | .mapT k v => tags k ++ tags v
  | .chanT _ v => tags v
  | .funcT ps rs => tagsFields false ps ++ tagsOpt rs
  | .structT fs => tagsFields true fs
  | .index x i => tags x ++ tags i
  | .indexList x is => tags x ++ tagsList is
  | _ => []
def tagsField (own : Bool) : Field → List (Option Str)
  | .mk _ _ _ t tag => (if own then [tag] else []) ++ tags t
def tagsFields (own : Bool) : List Field → List (Option Str)
  | [] => []
  | f :: fs => tagsField own f ++ tagsFields own fs
def tagsOpt : Option (List Field) → List (Option Str)
  | none => []
  | some fs => tagsFields false fs
def tagsList : List Expr → List (Option Str)
  | [] => []
  | e :: es => tags e ++ tagsList es
end

mutual
/-- The selectors `a.B` used in a type expression. -/
def selectors : Expr → List (Str × Str)
  | .selector (.ident a) b => [(a, b)]
  | .star x => selectors x
  | .ellipsis x => selectors x
  | .array _ x => selectors x
  | .mapT k v => selectors k ++ selectors v
  | .chanT _ v => selectors v
  | .funcT ps rs => selectorsFields ps ++ selectorsOpt rs
  | .structT fs => selectorsFields fs
  | .index x i => selectors x ++ selectors i
  | .indexList x is => selectors x ++ selectorsList is
  | _ => []
def selectorsField : Field → List (Str × Str)
  | .mk _ _ _ t _ => selectors t
def selectorsFields : List Field → List (Str × Str)
  | [] => []
  | f :: fs => selectorsField f ++ selectorsFields fs
def selectorsOpt : Option (List Field) → List (Str × Str)
  | none => []
  | some fs => selectorsFields fs
def selectorsList : List Expr → List (Str × Str)
  | [] => []
  | e :: es => selectors e ++ selectorsList es
end

end Gowrap.Spec

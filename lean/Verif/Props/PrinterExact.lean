import Verif.Props.Printer
/-!
# C16: exactly what the printed text of a type preserves
-/

namespace Gowrap.Props

open Gowrap Gowrap.Spec Gowrap.Demo

mutual
/-- The text of a type, given what it means. -/
def tyText : Ty → Str
  | .name none n => n
  | .name (some p) n => p ++ g!"." ++ n
  | .inst b as => tyText b ++ g!"[" ++ join g!", " (tyTexts as) ++ g!"]"
  | .ptr t => g!"*" ++ tyText t
  | .slice t => g!"[" ++ g!"]" ++ tyText t
  | .arr l t => g!"[" ++ l ++ g!"]" ++ tyText t
  | .variadic t => g!"..." ++ tyText t
  | .mapT k v => g!"map[" ++ tyText k ++ g!"]" ++ tyText v
  | .chanT d t => chanTypes d ++ tyText t
  | .func ps rs => g!"func(" ++ join g!", " (tyTextFields ps) ++ g!") (" ++ join g!", " (tyTextFields rs) ++ g!")"
  | .struct fs => g!"struct{\n" ++ join g!"\n" (tyTextFields fs) ++ g!"\n}"
  | .opaque s => s
def tyTextField : TyField → Str
  | .mk names t => join g!", " names ++ g!" " ++ tyText t
def tyTextFields : List TyField → List Str
  | [] => []
  | f :: fs => tyTextField f :: tyTextFields fs
def tyTexts : List Ty → List Str
  | [] => []
  | t :: ts => tyText t :: tyTexts ts
end

theorem typeName_shape {x : Expr} (h : IsTypeName x) : TypeShape x := by
  cases x <;> simp_all [IsTypeName, TypeShape]

theorem bind_ok {α β : Type} {x : Res α} {f : α → Res β} {b : β} (h : (x >>= f) = .ok b) : ∃ a, x = .ok a ∧ f a = .ok b := by
  cases x with
  | ok a => exact ⟨a, rfl, h⟩
  | err _ => cases h
  | panic => cases h
  | diverge => cases h

variable {env : PrintEnv} (hraw : RawOk env.raw)
include hraw

mutual
/-- The printed text is a function of the meaning. -/
theorem printType_text : ∀ (e : Expr) (s : Str), TypeShape e → printType env e = .ok s → s = tyText (meaning env.raw env.types env.pref e)
  | .ident n, s, he, h => by
    simp only [TypeShape] at he
    simp only [printType, printIdent] at h
    simp only [meaning]
    by_cases hm : n ∈ env.types
    · rw [if_pos (by simpa using hm)] at h
      by_cases hp : env.pref = []
      · rw [if_neg (by simp [hp])] at h
        rw [if_neg (by simp [hp])]
        cases h; rfl
      · rw [if_pos (List.length_pos_iff.2 hp)] at h
        rw [if_pos ⟨hm, hp⟩]
        split at h
        · cases h
        · cases h
        · cases h; rfl
    · rw [if_neg (by simpa using hm)] at h
      rw [if_neg (by simp [hm])]
      cases h
      exact hraw.ident n he
  | .selector x b, s, he, h => by
    simp only [TypeShape] at he
    simp only [printType] at h
    cases x with
    | ident a =>
      simp only [IsTypeName] at he
      cases h
      exact hraw.selector a b he.1 he.2
    | _ => simp [IsTypeName] at he
  | .star x, s, he, h => by
    simp only [TypeShape] at he
    simp only [printType] at h
    obtain ⟨t, h1, h2⟩ := bind_ok h
    cases h2
    simp only [meaning, tyText, printType_text x t he h1]
  | .ellipsis x, s, he, h => by
    simp only [TypeShape] at he
    simp only [printType] at h
    obtain ⟨t, h1, h2⟩ := bind_ok h
    cases h2
    simp only [meaning, tyText, printType_text x t he h1]
  | .array l x, s, he, h => by
    simp only [TypeShape] at he
    simp only [printType] at h
    obtain ⟨t, h1, h2⟩ := bind_ok h
    cases h2
    cases l <;> simp only [meaning, tyText, printType_text x t he.2 h1, printRaw, List.append_nil]
  | .mapT k v, s, he, h => by
    simp only [TypeShape] at he
    simp only [printType] at h
    obtain ⟨t, h1, h2⟩ := bind_ok h
    obtain ⟨u, h3, h4⟩ := bind_ok h2
    cases h4
    simp only [meaning, tyText, printType_text k t he.1 h1, printType_text v u he.2 h3]
  | .chanT d v, s, he, h => by
    simp only [TypeShape] at he
    simp only [printType] at h
    obtain ⟨t, h1, h2⟩ := bind_ok h
    cases h2
    simp only [meaning, tyText, printType_text v t he.1 h1]
  | .funcT ps rs, s, he, h => by
    simp only [TypeShape] at he
    simp only [printType] at h
    obtain ⟨t, h1, h2⟩ := bind_ok h
    obtain ⟨u, h3, h4⟩ := bind_ok h2
    cases h4
    simp only [meaning, tyText, printFields_text ps t he.1 h1, printResults_text rs u he.2.2 h3]
  | .structT fs, s, he, h => by
    simp only [TypeShape] at he
    simp only [printType] at h
    obtain ⟨t, h1, h2⟩ := bind_ok h
    cases h2
    simp only [meaning, tyText, printFields_text fs t he h1]
  | .index x i, s, he, h => by
    simp only [TypeShape] at he
    simp only [printType] at h
    obtain ⟨t, h1, h2⟩ := bind_ok h
    obtain ⟨u, h3, h4⟩ := bind_ok h2
    cases h4
    have hx : TypeShape x := typeName_shape he.1
    simp only [meaning, tyText, tyTexts, join, printType_text x t hx h1, printType_text i u he.2 h3]
  | .indexList x is, s, he, h => by
    simp only [TypeShape] at he
    simp only [printType] at h
    obtain ⟨t, h1, h2⟩ := bind_ok h
    have hx : TypeShape x := typeName_shape he.1
    rw [printIndices_text is (t ++ g!"[") s he.2.1 he.2.2 h2]
    simp only [meaning, tyText, printType_text x t hx h1, List.append_assoc]
  | .ifaceT ms, s, he, h => by
    simp only [printType] at h
    cases h
    simp only [meaning, tyText]
  | .paren x, s, he, h => by
    simp only [printType] at h
    cases h
    simp only [meaning, tyText]
  | .sliceExpr _, s, he, h => by simp [TypeShape] at he
  | .lit _, s, he, h => by simp [TypeShape] at he
  | .unary _ _, s, he, h => by simp [TypeShape] at he
  | .binary _ _ _, s, he, h => by simp [TypeShape] at he
  | .other _, s, he, h => by simp [TypeShape] at he
theorem printIndices_text : ∀ (es : List Expr) (b s : Str), es ≠ [] → TypeShapeList es → printIndices env b es = .ok s →
    s = b ++ join g!", " (tyTexts (meaningList env.raw env.types env.pref es)) ++ g!"]"
  | [], _, _, hne, _, _ => absurd rfl hne
  | [e], b, s, _, he, h => by
    simp only [TypeShapeList] at he
    simp only [printIndices] at h
    obtain ⟨t, h1, h2⟩ := bind_ok h
    cases h2
    simp only [meaningList, tyTexts, join, printType_text e t he.1 h1, List.append_assoc]
  | e :: e' :: es, b, s, _, he, h => by
    simp only [TypeShapeList] at he
    rw [printIndices] at h
    obtain ⟨t, h1, h2⟩ := bind_ok h
    rw [if_neg (by simp)] at h2
    rw [printIndices_text (e' :: es) _ s (by simp) (by simpa only [TypeShapeList] using he.2) h2]
    simp only [meaningList, tyTexts, join, printType_text e t he.1 h1, List.append_assoc]
theorem printField_text : ∀ (f : Field) (s : Str), TypeShapeField f → printField env f = .ok s →
    s = tyTextField (meaningField env.raw env.types env.pref f)
  | .mk _ _ names t _, s, he, h => by
    simp only [TypeShapeField] at he
    simp only [printField] at h
    obtain ⟨u, h1, h2⟩ := bind_ok h
    cases h2
    simp only [meaningField, tyTextField, printType_text t u (by first | exact he | exact he.2 | exact he.1) h1]
theorem printFields_text : ∀ (fs : List Field) (ss : List Str), TypeShapeFields fs → printFields env fs = .ok ss →
    ss = tyTextFields (meaningFields env.raw env.types env.pref fs)
  | [], ss, _, h => by
    simp only [printFields] at h
    cases h
    simp only [meaningFields, tyTextFields]
  | f :: fs, ss, he, h => by
    simp only [TypeShapeFields] at he
    simp only [printFields] at h
    obtain ⟨t, h1, h2⟩ := bind_ok h
    obtain ⟨u, h3, h4⟩ := bind_ok h2
    cases h4
    simp only [meaningFields, tyTextFields, printField_text f t he.1 h1, printFields_text fs u he.2 h3]
theorem printResults_text : ∀ (fs : Option (List Field)) (ss : List Str), TypeShapeOpt fs → printResults env fs = .ok ss →
    ss = tyTextFields (meaningOpt env.raw env.types env.pref fs)
  | none, ss, _, h => by
    simp only [printResults] at h
    cases h
    simp only [meaningOpt, tyTextFields]
  | some fs, ss, he, h => by
    simp only [TypeShapeOpt] at he
    simp only [printResults] at h
    simp only [meaningOpt]
    exact printFields_text fs ss (by first | exact he | exact he.1) h
end

omit hraw

mutual
/-- The type as another package has to write it, from the type as its own package writes it. -/
def qual (decls : List Str) (pref : Str) : Ty → Ty
  | .name none n => if n ∈ decls ∧ pref ≠ [] then .name (some pref) n else .name none n
  | .name (some p) n => .name (some p) n
  | .inst b as => .inst (qual decls pref b) (qualList decls pref as)
  | .ptr t => .ptr (qual decls pref t)
  | .slice t => .slice (qual decls pref t)
  | .arr l t => .arr l (qual decls pref t)
  | .variadic t => .variadic (qual decls pref t)
  | .mapT k v => .mapT (qual decls pref k) (qual decls pref v)
  | .chanT d t => .chanT d (qual decls pref t)
  | .func ps rs => .func (qualFields decls pref ps) (qualFields decls pref rs)
  | .struct fs => .struct (qualFields decls pref fs)
  | .opaque s => .opaque s
def qualField (decls : List Str) (pref : Str) : TyField → TyField
  | .mk names t => .mk names (qual decls pref t)
def qualFields (decls : List Str) (pref : Str) : List TyField → List TyField
  | [] => []
  | f :: fs => qualField decls pref f :: qualFields decls pref fs
def qualList (decls : List Str) (pref : Str) : List Ty → List Ty
  | [] => []
  | t :: ts => qual decls pref t :: qualList decls pref ts
end

mutual
theorem qual_meaning (raw : Expr → Str) (D : List Str) (p : Str) : ∀ e : Expr, qual D p (meaning raw [] [] e) = meaning raw D p e
  | .ident n => by simp [meaning, qual]
  | .selector x b => by cases x <;> simp [meaning, qual]
  | .star x => by simp only [meaning, qual, qual_meaning raw D p x]
  | .ellipsis x => by simp only [meaning, qual, qual_meaning raw D p x]
  | .array none x => by simp only [meaning, qual, qual_meaning raw D p x]
  | .array (some l) x => by simp only [meaning, qual, qual_meaning raw D p x]
  | .mapT k v => by simp only [meaning, qual, qual_meaning raw D p k, qual_meaning raw D p v]
  | .chanT d v => by simp only [meaning, qual, qual_meaning raw D p v]
  | .funcT ps rs => by simp only [meaning, qual, qualFields_meaning raw D p ps, qualOpt_meaning raw D p rs]
  | .structT fs => by simp only [meaning, qual, qualFields_meaning raw D p fs]
  | .index x i => by simp only [meaning, qual, qualList, qual_meaning raw D p x, qual_meaning raw D p i]
  | .indexList x is => by simp only [meaning, qual, qual_meaning raw D p x, qualList_meaning raw D p is]
  | .ifaceT _ => by simp [meaning, qual]
  | .paren _ => by simp [meaning, qual]
  | .unary _ _ => by simp [meaning, qual]
  | .binary _ _ _ => by simp [meaning, qual]
  | .lit _ => by simp [meaning, qual]
  | .other _ => by simp [meaning, qual]
  | .sliceExpr _ => by simp [meaning, qual]
theorem qualField_meaning (raw : Expr → Str) (D : List Str) (p : Str) : ∀ f : Field, qualField D p (meaningField raw [] [] f) = meaningField raw D p f
  | .mk _ _ _ t _ => by simp only [meaningField, qualField, qual_meaning raw D p t]
theorem qualFields_meaning (raw : Expr → Str) (D : List Str) (p : Str) : ∀ fs : List Field,
    qualFields D p (meaningFields raw [] [] fs) = meaningFields raw D p fs
  | [] => by simp [meaningFields, qualFields]
  | f :: fs => by simp only [meaningFields, qualFields, qualField_meaning raw D p f, qualFields_meaning raw D p fs]
theorem qualOpt_meaning (raw : Expr → Str) (D : List Str) (p : Str) : ∀ fs : Option (List Field),
    qualFields D p (meaningOpt raw [] [] fs) = meaningOpt raw D p fs
  | none => by simp [meaningOpt, qualFields]
  | some fs => by simp only [meaningOpt, qualFields_meaning raw D p fs]
theorem qualList_meaning (raw : Expr → Str) (D : List Str) (p : Str) : ∀ es : List Expr,
    qualList D p (meaningList raw [] [] es) = meaningList raw D p es
  | [] => by simp [meaningList, qualList]
  | e :: es => by simp only [meaningList, qualList, qual_meaning raw D p e, qualList_meaning raw D p es]
end

/-- **C16** (exact): two types print to the same text exactly if they are the same type apart from struct tags, once references to the types of
the source package are written with its selector; and apart from a selector clash with that name, exactly if they are the same type as the
source package writes them.  So struct tags and the clash are all that the text loses. -/
theorem C16_exact (env : PrintEnv) (e e' : Expr) (s s' : Str) (hraw : RawOk env.raw) (hpref : env.pref = [] ∨ IdentOk env.pref)
    (he : TypeShape e) (he' : TypeShape e') (h : printType env e = .ok s) (h' : printType env e' = .ok s') :
    (s = s' ↔ meaning env.raw env.types env.pref e = meaning env.raw env.types env.pref e') ∧
    ((∀ p ∈ selectors e ++ selectors e', ¬ (p.1 = env.pref ∧ p.2 ∈ env.types)) →
      (s = s' ↔ meaning env.raw [] [] e = meaning env.raw [] [] e')) := by
  have key : s = s' ↔ meaning env.raw env.types env.pref e = meaning env.raw env.types env.pref e' := by
    constructor
    · intro hs
      subst hs
      exact (printType_meaning ⟨hraw, hpref⟩ he h).unique (printType_meaning ⟨hraw, hpref⟩ he' h')
    · intro hm
      rw [printType_text hraw e s he h, printType_text hraw e' s' he' h', hm]
  refine ⟨key, fun hsel => ⟨?_, ?_⟩⟩
  · intro hs
    subst hs
    exact C16_injective_partial env e e' s hraw hpref he he' hsel h h'
  · intro hm
    rw [key, ← qual_meaning, ← qual_meaning env.raw env.types env.pref e', hm]

/-- Two structs which differ in a tag print alike; two which differ in the name of a field do not. -/
example : ∃ s s' : Str,
    printType foreign (.structT [.mk [] [] [g!"A"] int_ (some g!"`json:\"a\"`")]) = .ok s ∧
    printType foreign (.structT [.mk [] [] [g!"A"] int_ none]) = .ok s ∧
    printType foreign (.structT [.mk [] [] [g!"B"] int_ none]) = .ok s' ∧ s ≠ s' :=
  ⟨g!"struct{\nA int\n}", g!"struct{\nB int\n}", by rfl, by rfl, by rfl, by decide⟩

/-- The premises hold for a nested type, whose text is the one its meaning gives. -/
example : printType foreign demoType = .ok (tyText (meaning rawDemo foreign.types foreign.pref demoType)) ∧ TypeShape demoType ∧
    RawOk foreign.raw ∧ ∀ p ∈ selectors demoType ++ selectors demoType, ¬ (p.1 = foreign.pref ∧ p.2 ∈ foreign.types) := by
  refine ⟨by rfl, demoType_shape, rawDemo_ok, ?_⟩
  simp [demoType, selectors, selectorsFields, selectorsField, selectorsOpt, selectorsList, fld, string_, foreign]

end Gowrap.Props

import Verif.Props.Instance
import Verif.Props.PrinterExact
/-!
# C05 and C19: exactly which contexts are recognised rightly and which types of generic interfaces are right
-/

namespace Gowrap.Props

open Gowrap Gowrap.Spec Gowrap.Demo

/-- **C05** (exact): `AcceptsContext` is right exactly if the first parameter is not a `Context` with another qualifier than `context`. -/
theorem C05_exact (env : SigEnv) (name : Str) (params : List Field) (results : Option (List Field)) (fi : Field) (m : Method)
    (ht : fi.type = .funcT params results) (h : newMethod env name fi = .ok m) :
    (m.acceptsContext = true ↔ FirstParamIsContext params) ↔
      ¬ ∃ f fs x, params = f :: fs ∧ f.type = .selector x g!"Context" ∧ x ≠ .ident g!"context" := by
  obtain ⟨ps, rs, h1, h2, h3, _⟩ := C05_context_param_partial env name fi m h
  obtain ⟨rfl, rfl⟩ : params = ps ∧ results = rs := by
    have := ht.symm.trans h1
    exact ⟨(Expr.funcT.inj this).1, (Expr.funcT.inj this).2⟩
  rw [h2]
  constructor
  · rintro hiff ⟨f, fs, x, hp, hx, hne⟩
    obtain ⟨f', fs', hp', hx'⟩ := hiff.1 ⟨f, fs, x, hp, hx⟩
    rw [hp] at hp'
    cases hp'
    rw [hx] at hx'
    exact hne (Expr.selector.inj hx').1
  · intro hno
    constructor
    · rintro ⟨f, fs, x, hp, hx⟩
      refine ⟨f, fs, hp, ?_⟩
      by_cases hc : x = .ident g!"context"
      · rw [hx, hc]
      · exact absurd ⟨f, fs, x, hp, hx, hc⟩ hno
    · rintro ⟨f, fs, hp, hx⟩
      exact ⟨f, fs, _, hp, hx⟩

/-- Both sides hold for `M(context.Context)` and both fail for `M(gin.Context)`. -/
example :
    (∃ m, newMethod Demo.env g!"M" (fld [g!"M"] (.funcT [fld [] (.selector (.ident g!"context") g!"Context")] none)) = .ok m ∧ m.acceptsContext = true) ∧
    (∃ m, newMethod Demo.env g!"M" (fld [g!"M"] (.funcT [fld [] (.selector (.ident g!"gin") g!"Context")] none)) = .ok m ∧ m.acceptsContext = true) :=
  ⟨⟨_, rfl, rfl⟩, ⟨_, rfl, rfl⟩⟩

mutual
/-- Nothing in the type is left to go/printer except the lengths of arrays and the names of types: no interface literal, no parentheses. -/
def NoLiterals : Expr → Prop
  | .ident _ => True
  | .selector _ _ => True
  | .star x => NoLiterals x
  | .ellipsis x => NoLiterals x
  | .array _ x => NoLiterals x
  | .mapT k v => NoLiterals k ∧ NoLiterals v
  | .chanT _ v => NoLiterals v
  | .funcT ps rs => NoLiteralsFields ps ∧ NoLiteralsOpt rs
  | .structT fs => NoLiteralsFields fs
  | .index x i => NoLiterals x ∧ NoLiterals i
  | .indexList x is => NoLiterals x ∧ NoLiteralsList is
  | _ => False
def NoLiteralsField : Field → Prop
  | .mk _ _ _ t _ => NoLiterals t
def NoLiteralsFields : List Field → Prop
  | [] => True
  | f :: fs => NoLiteralsField f ∧ NoLiteralsFields fs
def NoLiteralsOpt : Option (List Field) → Prop
  | none => True
  | some fs => NoLiteralsFields fs
def NoLiteralsList : List Expr → Prop
  | [] => True
  | e :: es => NoLiterals e ∧ NoLiteralsList es
end

section
variable {raw : Expr → Str} {D : List Str} {p t : Str} {A : Expr}

/-- Only the name itself means the name. -/
theorem meaning_name {e : Expr} (h : meaning raw D p e = .name none t) : e = .ident t := by
  cases e with
  | ident n =>
    simp only [meaning] at h
    split at h
    · cases h
    · cases h; rfl
  | selector x b => cases x <;> simp [meaning] at h
  | array l x => cases l <;> simp [meaning] at h
  | _ => simp [meaning] at h

variable (htD : t ∉ D) (hA : A ≠ .ident t)
include htD hA

mutual
/-- Replacing a name changes a type exactly if the name occurs in it. -/
theorem replace_same : ∀ e : Expr, NoLiterals e → (meaning raw D p e = meaning raw D p (replace t A e) ↔ t ∉ typeNames e)
  | .ident n, _ => by
    simp only [replace, typeNames, List.mem_singleton]
    by_cases hn : n = t
    · subst hn
      rw [if_pos rfl]
      simp only [not_true_eq_false, iff_false]
      intro h
      rw [meaning, if_neg (by simp [htD])] at h
      exact hA (meaning_name h.symm)
    · rw [if_neg hn]
      simp [Ne.symm hn]
  | .selector x b, _ => by simp [replace, typeNames]
  | .star x, h => by simp only [NoLiterals] at h; simp only [meaning, replace, typeNames, Ty.ptr.injEq]; exact replace_same x h
  | .ellipsis x, h => by simp only [NoLiterals] at h; simp only [meaning, replace, typeNames, Ty.variadic.injEq]; exact replace_same x h
  | .array none x, h => by simp only [NoLiterals] at h; simp only [meaning, replace, typeNames, Ty.slice.injEq]; exact replace_same x h
  | .array (some l) x, h => by
    simp only [NoLiterals] at h; simp only [meaning, replace, typeNames, Ty.arr.injEq, true_and]; exact replace_same x h
  | .mapT k v, h => by
    simp only [NoLiterals] at h
    simp only [meaning, replace, typeNames, Ty.mapT.injEq, replace_same k h.1, replace_same v h.2, List.mem_append, not_or]
  | .chanT d v, h => by
    simp only [NoLiterals] at h; simp only [meaning, replace, typeNames, Ty.chanT.injEq, true_and]; exact replace_same v h
  | .funcT ps rs, h => by
    simp only [NoLiterals] at h
    simp only [meaning, replace, typeNames, Ty.func.injEq, replaceFields_same ps h.1, replaceOpt_same rs h.2, List.mem_append, not_or]
  | .structT fs, h => by
    simp only [NoLiterals] at h; simp only [meaning, replace, typeNames, Ty.struct.injEq]; exact replaceFields_same fs h
  | .index x i, h => by
    simp only [NoLiterals] at h
    simp only [meaning, replace, typeNames, Ty.inst.injEq, List.cons.injEq, and_true, replace_same x h.1, replace_same i h.2, List.mem_append, not_or]
  | .indexList x is, h => by
    simp only [NoLiterals] at h
    simp only [meaning, replace, typeNames, Ty.inst.injEq, replace_same x h.1, replaceAll_same is h.2, List.mem_append, not_or]
  | .ifaceT _, h => by simp [NoLiterals] at h
  | .paren _, h => by simp [NoLiterals] at h
  | .unary _ _, h => by simp [NoLiterals] at h
  | .binary _ _ _, h => by simp [NoLiterals] at h
  | .lit _, h => by simp [NoLiterals] at h
  | .other _, h => by simp [NoLiterals] at h
  | .sliceExpr _, h => by simp [NoLiterals] at h
theorem replaceField_same : ∀ f : Field, NoLiteralsField f →
    (meaningField raw D p f = meaningField raw D p (replaceField t A f) ↔ t ∉ typeNamesField f)
  | .mk _ _ _ ty _, h => by
    simp only [NoLiteralsField] at h
    simp only [meaningField, replaceField, typeNamesField, TyField.mk.injEq, true_and]; exact replace_same ty h
theorem replaceFields_same : ∀ fs : List Field, NoLiteralsFields fs →
    (meaningFields raw D p fs = meaningFields raw D p (replaceFields t A fs) ↔ t ∉ typeNamesFields fs)
  | [], _ => by simp [meaningFields, replaceFields, typeNamesFields]
  | f :: fs, h => by
    simp only [NoLiteralsFields] at h
    simp only [meaningFields, replaceFields, typeNamesFields, List.cons.injEq, replaceField_same f h.1, replaceFields_same fs h.2, List.mem_append, not_or]
theorem replaceOpt_same : ∀ fs : Option (List Field), NoLiteralsOpt fs →
    (meaningOpt raw D p fs = meaningOpt raw D p (replaceOpt t A fs) ↔ t ∉ typeNamesOpt fs)
  | none, _ => by simp [meaningOpt, replaceOpt, typeNamesOpt]
  | some fs, h => by
    simp only [NoLiteralsOpt] at h
    simp only [meaningOpt, replaceOpt, typeNamesOpt]; exact replaceFields_same fs h
theorem replaceAll_same : ∀ es : List Expr, NoLiteralsList es →
    (meaningList raw D p es = meaningList raw D p (replaceAll t A es) ↔ t ∉ typeNamesList es)
  | [], _ => by simp [meaningList, replaceAll, typeNamesList]
  | e :: es, h => by
    simp only [NoLiteralsList] at h
    simp only [meaningList, replaceAll, typeNamesList, List.cons.injEq, replace_same e h.1, replaceAll_same es h.2, List.mem_append, not_or]
end
end

/-- **C19** (exact): in a method of an interface `G[t]` which is embedded as `G[A]`, the type `e` of a parameter or result becomes the type with
`A` in place of `t` exactly if `e` is `t` itself or `t` does not occur in it.  (`WholeReplaced` is what C19_arguments_partial shows of every
generated method; interface literals and parentheses in `e` are left aside.) -/
theorem C19_exact (env : PrintEnv) (t : Str) (A e : Expr) (s arg r result : Str) (hraw : RawOk env.raw)
    (hpref : env.pref = [] ∨ IdentOk env.pref) (ht : IdentOk t) (htD : t ∉ env.types) (hA : A ≠ .ident t) (he : TypeShape e)
    (hre : TypeShape (replace t A e)) (hl : NoLiterals e) (hs : printType env e = .ok s) (harg : printType env A = .ok arg)
    (hr : printType env (replace t A e) = .ok r) (hw : WholeReplaced ⟨[t], [arg]⟩ s result) :
    result = r ↔ e = .ident t ∨ t ∉ typeNames e := by
  have hpt : printType env (.ident t) = .ok t := by
    simp only [printType, printIdent]
    rw [if_neg (by simpa using htD), hraw.ident t ht]
  by_cases hst : s = t
  · -- the type is the parameter
    have hx : e = .ident t := by
      have := (C16_exact env e (.ident t) s t hraw hpref he (by simpa only [TypeShape] using ht) hs hpt).1.1 hst
      rw [meaning, if_neg (by simp [htD])] at this
      exact meaning_name this
    subst hx
    simp only [true_or, iff_true]
    rw [replace, if_pos rfl, harg] at hr
    rcases hw with ⟨j, h1, h2⟩ | ⟨h1, _⟩
    · match j with
      | 0 => simp at h2; rw [← h2]; exact Res.ok.inj hr
      | j + 1 => simp at h1
    · exact absurd (by simp [hst]) (h1 0 (by simp))
  · have hne : e ≠ .ident t := by
      rintro rfl
      exact hst (Res.ok.inj (hs.symm.trans hpt))
    have hres : result = s := by
      rcases hw with ⟨j, h1, _⟩ | ⟨_, h2⟩
      · match j with
        | 0 => simp at h1; exact absurd h1.symm hst
        | j + 1 => simp at h1
      · exact h2
    rw [hres, (C16_exact env e (replace t A e) s r hraw hpref he hre hs hr).1, replace_same htD hA e hl]
    simp [hne]

/-- The premises hold for `map[string][]T` in an interface embedded as `G[*Bar]`: the text keeps `T`, so the type is wrong, as the theorem says. -/
example :
    let e : Expr := .mapT string_ (.array none (.ident g!"T"))
    let A : Expr := .star (.ident g!"Bar")
    TypeShape e ∧ TypeShape (replace g!"T" A e) ∧ NoLiterals e ∧ g!"T" ∉ foreign.types ∧
    printType foreign e = .ok g!"map[string][]T" ∧ printType foreign A = .ok g!"*foo.Bar" ∧
    printType foreign (replace g!"T" A e) = .ok g!"map[string][]*foo.Bar" ∧
    WholeReplaced ⟨[g!"T"], [g!"*foo.Bar"]⟩ g!"map[string][]T" g!"map[string][]T" ∧ g!"T" ∈ typeNames e := by
  have i : IdentOk g!"string" ∧ IdentOk g!"T" ∧ IdentOk g!"Bar" := by decide
  refine ⟨?_, ?_, ?_, by decide, by rfl, by rfl, by rfl, ?_, by decide⟩
  · simp [TypeShape, LenShapeOpt, string_, i]
  · simp [replace, TypeShape, LenShapeOpt, string_, i]
  · simp [NoLiterals, string_]
  · refine Or.inr ⟨fun j hj => ?_, rfl⟩
    match j, hj with
    | 0, _ => decide

end Gowrap.Props

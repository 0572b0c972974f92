import Verif.Props.Printer
/-!
# C11 and C15: exactly which types keep their meaning when they are printed for another package
-/

namespace Gowrap.Props

open Gowrap Spec

variable (raw : Expr → Str) (D D' : List Str) (pref : Str)

mutual
/-- Two sets of declared types give a type the same meaning exactly if they agree on the names in it. -/
theorem meaning_eq_iff (hp : pref ≠ []) : ∀ e : Expr, meaning raw D pref e = meaning raw D' pref e ↔ ∀ n ∈ typeNames e, n ∈ D ↔ n ∈ D'
  | .ident n => by
    simp only [meaning, typeNames, hp, ne_eq, not_false_eq_true, and_true, List.mem_singleton, forall_eq]
    by_cases h : n ∈ D <;> by_cases h' : n ∈ D' <;> simp [h, h']
  | .star x => by simp only [meaning, typeNames, Ty.ptr.injEq]; exact meaning_eq_iff hp x
  | .ellipsis x => by simp only [meaning, typeNames, Ty.variadic.injEq]; exact meaning_eq_iff hp x
  | .array none x => by simp only [meaning, typeNames, Ty.slice.injEq]; exact meaning_eq_iff hp x
  | .array (some l) x => by simp only [meaning, typeNames, Ty.arr.injEq, true_and]; exact meaning_eq_iff hp x
  | .mapT k v => by
    simp only [meaning, typeNames, Ty.mapT.injEq, meaning_eq_iff hp k, meaning_eq_iff hp v, List.mem_append, or_imp, forall_and]
  | .chanT d v => by simp only [meaning, typeNames, Ty.chanT.injEq, true_and]; exact meaning_eq_iff hp v
  | .funcT ps rs => by
    simp only [meaning, typeNames, Ty.func.injEq, meaningFields_eq_iff hp ps, meaningOpt_eq_iff hp rs, List.mem_append, or_imp, forall_and]
  | .structT fs => by simp only [meaning, typeNames, Ty.struct.injEq]; exact meaningFields_eq_iff hp fs
  | .index x i => by
    simp only [meaning, typeNames, Ty.inst.injEq, List.cons.injEq, and_true, meaning_eq_iff hp x, meaning_eq_iff hp i, List.mem_append, or_imp, forall_and]
  | .indexList x is => by
    simp only [meaning, typeNames, Ty.inst.injEq, meaning_eq_iff hp x, meaningList_eq_iff hp is, List.mem_append, or_imp, forall_and]
  | .selector x b => by
    cases x <;> simp [meaning, typeNames]
  | .ifaceT _ => by simp [meaning, typeNames]
  | .paren _ => by simp [meaning, typeNames]
  | .unary _ _ => by simp [meaning, typeNames]
  | .binary _ _ _ => by simp [meaning, typeNames]
  | .lit _ => by simp [meaning, typeNames]
  | .other _ => by simp [meaning, typeNames]
  | .sliceExpr _ => by simp [meaning, typeNames]
theorem meaningField_eq_iff (hp : pref ≠ []) : ∀ f : Field, meaningField raw D pref f = meaningField raw D' pref f ↔ ∀ n ∈ typeNamesField f, n ∈ D ↔ n ∈ D'
  | .mk _ _ _ t _ => by simp only [meaningField, typeNamesField, TyField.mk.injEq, true_and]; exact meaning_eq_iff hp t
theorem meaningFields_eq_iff (hp : pref ≠ []) : ∀ fs : List Field,
    meaningFields raw D pref fs = meaningFields raw D' pref fs ↔ ∀ n ∈ typeNamesFields fs, n ∈ D ↔ n ∈ D'
  | [] => by simp [meaningFields, typeNamesFields]
  | f :: fs => by
    simp only [meaningFields, typeNamesFields, List.cons.injEq, meaningField_eq_iff hp f, meaningFields_eq_iff hp fs, List.mem_append, or_imp, forall_and]
theorem meaningOpt_eq_iff (hp : pref ≠ []) : ∀ fs : Option (List Field),
    meaningOpt raw D pref fs = meaningOpt raw D' pref fs ↔ ∀ n ∈ typeNamesOpt fs, n ∈ D ↔ n ∈ D'
  | none => by simp [meaningOpt, typeNamesOpt]
  | some fs => by simp only [meaningOpt, typeNamesOpt]; exact meaningFields_eq_iff hp fs
theorem meaningList_eq_iff (hp : pref ≠ []) : ∀ es : List Expr,
    meaningList raw D pref es = meaningList raw D' pref es ↔ ∀ n ∈ typeNamesList es, n ∈ D ↔ n ∈ D'
  | [] => by simp [meaningList, typeNamesList]
  | e :: es => by
    simp only [meaningList, typeNamesList, List.cons.injEq, meaning_eq_iff hp e, meaningList_eq_iff hp es, List.mem_append, or_imp, forall_and]
end

/-- **C11** (exact): the printed type says what the type means in the interface exactly if no type parameter which occurs in it has the name of a
declared type. -/
theorem C11_exact (env : PrintEnv) (tps : List Str) (e : Expr) (s : Str) (hraw : RawOk env.raw) (hpref : IdentOk env.pref) (he : TypeShape e)
    (h : printType env e = .ok s) :
    Says s (meaning env.raw (env.types.filter fun n => !tps.contains n) env.pref e) ↔ ∀ n ∈ typeNames e, n ∈ tps → n ∉ env.types := by
  have h0 := C11_qualified_partial env [] e s hraw hpref he (by simp) h
  have hf : (env.types.filter fun n => !([] : List Str).contains n) = env.types := by simp
  rw [hf] at h0
  have hp : env.pref ≠ [] := by
    intro hn
    rw [hn] at hpref
    exact absurd rfl hpref.1
  have hiff : Says s (meaning env.raw (env.types.filter fun n => !tps.contains n) env.pref e) ↔
      meaning env.raw env.types env.pref e = meaning env.raw (env.types.filter fun n => !tps.contains n) env.pref e :=
    ⟨fun h' => h0.unique h', fun h' => h' ▸ h0⟩
  rw [hiff, meaning_eq_iff _ _ _ _ hp]
  refine forall_congr' fun n => forall_congr' fun _ => ?_
  by_cases h1 : n ∈ env.types <;> by_cases h2 : n ∈ tps <;> simp [h1, h2]

/-- A type parameter `Bar` hides the declared type of this name, which does no harm to `map[string]T` and changes the meaning of `[]Bar`. -/
example : Says g!"map[string]T" (meaning foreign.raw (foreign.types.filter fun n => ![g!"Bar"].contains n) foreign.pref
      (.mapT (.ident g!"string") (.ident g!"T"))) :=
  (C11_exact foreign [g!"Bar"] _ _ rawDemo_ok (by decide) (by simp only [TypeShape]; decide) (by rfl)).2 (by decide)

example : ¬ Says g!"[]foo.Bar" (meaning foreign.raw (foreign.types.filter fun n => ![g!"Bar"].contains n) foreign.pref (.array none (.ident g!"Bar"))) :=
  fun h => absurd ((C11_exact foreign [g!"Bar"] _ _ rawDemo_ok (by decide) (by simp only [TypeShape, LenShapeOpt]; decide) (by rfl)).1 h) (by decide)

mutual
/-- What is copied as text is not qualified. -/
theorem bare_raw (D : List Str) (pref : Str) (p : Expr) (n : Str) (hn : n ∈ scanWords ' ' [] (raw p)) : ∀ e : Expr,
    p ∈ rawParts e → n ∈ bareNames (meaning raw D pref e)
  | .star x, h => by simp only [meaning, bareNames]; exact bare_raw D pref p n hn x (by simpa only [rawParts] using h)
  | .ellipsis x, h => by simp only [meaning, bareNames]; exact bare_raw D pref p n hn x (by simpa only [rawParts] using h)
  | .array none x, h => by simp only [meaning, bareNames]; exact bare_raw D pref p n hn x (by simpa only [rawParts] using h)
  | .array (some l) x, h => by
    simp only [meaning, bareNames, List.mem_append]
    simp only [rawParts, List.mem_cons] at h
    rcases h with rfl | h
    · exact .inl hn
    · exact .inr (bare_raw D pref p n hn x h)
  | .mapT k v, h => by
    simp only [meaning, bareNames, List.mem_append]
    simp only [rawParts, List.mem_append] at h
    exact h.imp (bare_raw D pref p n hn k) (bare_raw D pref p n hn v)
  | .chanT d v, h => by simp only [meaning, bareNames]; exact bare_raw D pref p n hn v (by simpa only [rawParts] using h)
  | .funcT ps rs, h => by
    simp only [meaning, bareNames, List.mem_append]
    simp only [rawParts, List.mem_append] at h
    exact h.imp (bare_rawFields D pref p n hn ps) (bare_rawOpt D pref p n hn rs)
  | .structT fs, h => by simp only [meaning, bareNames]; exact bare_rawFields D pref p n hn fs (by simpa only [rawParts] using h)
  | .index x i, h => by
    simp only [meaning, bareNames, bareNamesList, List.mem_append, List.not_mem_nil, or_false]
    simp only [rawParts, List.mem_append] at h
    exact h.imp (bare_raw D pref p n hn x) (bare_raw D pref p n hn i)
  | .indexList x is, h => by
    simp only [meaning, bareNames, List.mem_append]
    simp only [rawParts, List.mem_append] at h
    exact h.imp (bare_raw D pref p n hn x) (bare_rawList D pref p n hn is)
  | .ifaceT ms, h => by
    simp only [rawParts, List.mem_singleton] at h
    subst h
    simpa only [meaning, bareNames] using hn
  | .paren x, h => by
    simp only [rawParts, List.mem_singleton] at h
    subst h
    simpa only [meaning, bareNames] using hn
  | .ident _, h => by simp [rawParts] at h
  | .selector _ _, h => by simp [rawParts] at h
  | .unary _ _, h => by simp [rawParts] at h
  | .binary _ _ _, h => by simp [rawParts] at h
  | .lit _, h => by simp [rawParts] at h
  | .other _, h => by simp [rawParts] at h
  | .sliceExpr _, h => by simp [rawParts] at h
theorem bare_rawField (D : List Str) (pref : Str) (p : Expr) (n : Str) (hn : n ∈ scanWords ' ' [] (raw p)) : ∀ f : Field,
    p ∈ rawPartsField f → n ∈ bareNamesField (meaningField raw D pref f)
  | .mk _ _ _ t _, h => by
    simp only [meaningField, bareNamesField]
    exact bare_raw D pref p n hn t (by simpa only [rawPartsField] using h)
theorem bare_rawFields (D : List Str) (pref : Str) (p : Expr) (n : Str) (hn : n ∈ scanWords ' ' [] (raw p)) : ∀ fs : List Field,
    p ∈ rawPartsFields fs → n ∈ bareNamesFields (meaningFields raw D pref fs)
  | [], h => by simp [rawPartsFields] at h
  | f :: fs, h => by
    simp only [meaningFields, bareNamesFields, List.mem_append]
    simp only [rawPartsFields, List.mem_append] at h
    exact h.imp (bare_rawField D pref p n hn f) (bare_rawFields D pref p n hn fs)
theorem bare_rawOpt (D : List Str) (pref : Str) (p : Expr) (n : Str) (hn : n ∈ scanWords ' ' [] (raw p)) : ∀ fs : Option (List Field),
    p ∈ rawPartsOpt fs → n ∈ bareNamesFields (meaningOpt raw D pref fs)
  | none, h => by simp [rawPartsOpt] at h
  | some fs, h => by
    simp only [meaningOpt]
    exact bare_rawFields D pref p n hn fs (by simpa only [rawPartsOpt] using h)
theorem bare_rawList (D : List Str) (pref : Str) (p : Expr) (n : Str) (hn : n ∈ scanWords ' ' [] (raw p)) : ∀ es : List Expr,
    p ∈ rawPartsList es → n ∈ bareNamesList (meaningList raw D pref es)
  | [], h => by simp [rawPartsList] at h
  | e :: es, h => by
    simp only [meaningList, bareNamesList, List.mem_append]
    simp only [rawPartsList, List.mem_append] at h
    exact h.imp (bare_raw D pref p n hn e) (bare_rawList D pref p n hn es)
end

/-- **C15** (exact): the declarations that are named without the selector in the printed text are exactly those named in an interface literal, a
parenthesised type or an array length of the type. -/
theorem C15_exact (env : PrintEnv) (decls : List Str) (e : Expr) (s : Str) (hraw : RawOk env.raw)
    (hpref : IdentOk env.pref) (he : TypeShape e) (htypes : ∀ n ∈ typeNames e, n ∈ decls → n ∈ env.types)
    (h : printType env e = .ok s) :
    ∃ t, Says s t ∧ ∀ n ∈ decls, n ∈ bareNames t ↔ ∃ p ∈ rawParts e, n ∈ scanWords ' ' [] (env.raw p) := by
  obtain ⟨t, ht, hb⟩ := C15_unqualified_partial env decls e s hraw hpref he htypes h
  refine ⟨t, ht, fun n hd => ⟨fun hn => hb n hn hd, ?_⟩⟩
  rintro ⟨p, hp, hn⟩
  rw [ht.unique (printType_meaning ⟨hraw, Or.inr hpref⟩ he h)]
  exact bare_raw env.raw env.types env.pref p n hn e hp

/-- `[N]Bar`: the constant is left unqualified, the type is not. -/
example : ∃ t, Says g!"[N]foo.Bar" t ∧ g!"N" ∈ bareNames t ∧ g!"Bar" ∉ bareNames t := by
  obtain ⟨t, h1, h2⟩ := C15_exact foreign [g!"N", g!"Bar"] (.array (some (.ident g!"N")) (.ident g!"Bar")) g!"[N]foo.Bar" rawDemo_ok (by decide)
    (by simp only [TypeShape, LenShapeOpt, LenShape]; decide) (by decide) (by rfl)
  exact ⟨t, h1, (h2 g!"N" (by simp)).2 ⟨.ident g!"N", by simp [rawParts], by decide⟩, fun hb => by
    obtain ⟨p, hp, hn⟩ := (h2 g!"Bar" (by simp)).1 hb
    have : p = .ident g!"N" := by simpa [rawParts] using hp
    subst this
    revert hn
    decide⟩

end Gowrap.Props

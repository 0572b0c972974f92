import Verif.Spec.Printer
import Verif.Model.Printer
/-! Which names decide whether a type can be printed, and where names of a printed type come from -/

namespace Gowrap

open Spec

/-- A computation that succeeds if all names can be printed and otherwise fails like one of them. -/
def Lifts (env : PrintEnv) {α : Type} (r : Res α) (names : List Str) : Prop :=
  (∃ a, r = .ok a ∧ ∀ n ∈ names, ∃ t, printIdent env n = .ok t) ∨
  (∃ n ∈ names, (∃ e, printIdent env n = .err e ∧ r = .err e) ∨ (printIdent env n = .panic ∧ r = .panic))

theorem Lifts.bind {env : PrintEnv} {α β : Type} {r : Res α} {ns ms : List Str} (h : Lifts env r ns)
    {k : α → Res β} (hk : ∀ a, Lifts env (k a) ms) : Lifts env (r >>= k) (ns ++ ms) := by
  rcases h with ⟨a, rfl, hn⟩ | ⟨n, hn, ⟨e, h1, rfl⟩ | ⟨h1, rfl⟩⟩
  · rcases hk a with ⟨b, hb, hm⟩ | ⟨m, hm, hb⟩
    · refine Or.inl ⟨b, hb, ?_⟩
      intro n h
      rcases List.mem_append.1 h with h | h
      · exact hn n h
      · exact hm n h
    · exact Or.inr ⟨m, List.mem_append_right _ hm, hb⟩
  · exact Or.inr ⟨n, List.mem_append_left _ hn, Or.inl ⟨e, h1, rfl⟩⟩
  · exact Or.inr ⟨n, List.mem_append_left _ hn, Or.inr ⟨h1, rfl⟩⟩

theorem Lifts.pure (env : PrintEnv) {α : Type} (a : α) : Lifts env (.ok a : Res α) [] :=
  Or.inl ⟨a, rfl, by simp⟩

theorem Lifts.map {env : PrintEnv} {α β : Type} {r : Res α} {ns : List Str} (h : Lifts env r ns)
    (k : α → β) : Lifts env (r >>= fun a => .ok (k a)) ns := by
  have := h.bind (ms := []) (k := fun a => .ok (k a)) (fun a => Lifts.pure env _)
  simpa using this

mutual
theorem printType_lifts (env : PrintEnv) : ∀ e : Expr, Lifts env (printType env e) (typeNames e)
  | .ident n => by
    simp only [printType, typeNames]
    cases h : printIdent env n with
    | ok t => exact Or.inl ⟨t, rfl, by simp [h]⟩
    | err e => exact Or.inr ⟨n, by simp, Or.inl ⟨e, h, rfl⟩⟩
    | panic => exact Or.inr ⟨n, by simp, Or.inr ⟨h, rfl⟩⟩
    | diverge =>
      unfold printIdent at h
      split at h
      · split at h
        · split at h <;> cases h
        · cases h
      · cases h
  | .star x => by simp only [printType, typeNames]; exact (printType_lifts env x).map _
  | .ellipsis x => by simp only [printType, typeNames]; exact (printType_lifts env x).map _
  | .array l x => by simp only [printType, typeNames]; exact (printType_lifts env x).map _
  | .chanT d x => by simp only [printType, typeNames]; exact (printType_lifts env x).map _
  | .mapT k v => by
    simp only [printType, typeNames]
    exact (printType_lifts env k).bind fun a => (printType_lifts env v).map _
  | .funcT ps rs => by
    simp only [printType, typeNames]
    exact (printFields_lifts env ps).bind fun a => (printResults_lifts env rs).map _
  | .structT fs => by simp only [printType, typeNames]; exact (printFields_lifts env fs).map _
  | .index x i => by
    simp only [printType, typeNames]
    exact (printType_lifts env x).bind fun a => (printType_lifts env i).map _
  | .indexList x is => by
    rw [printType, typeNames]
    exact (printType_lifts env x).bind fun a => printIndices_lifts env is _
  | .selector x s => by simp only [printType, typeNames]; exact Lifts.pure env _
  | .sliceExpr x => by simp only [printType, typeNames]; exact Lifts.pure env _
  | .ifaceT ms => by simp only [printType, typeNames]; exact Lifts.pure env _
  | .paren x => by simp only [printType, typeNames]; exact Lifts.pure env _
  | .lit t => by simp only [printType, typeNames]; exact Lifts.pure env _
  | .unary o x => by simp only [printType, typeNames]; exact Lifts.pure env _
  | .binary o x y => by simp only [printType, typeNames]; exact Lifts.pure env _
  | .other t => by simp only [printType, typeNames]; exact Lifts.pure env _
theorem printIndices_lifts (env : PrintEnv) : ∀ (es : List Expr) (b : Str),
    Lifts env (printIndices env b es) (typeNamesList es)
  | [], b => by simp only [printIndices, typeNamesList]; exact Lifts.pure env _
  | e :: es, b => by
    simp only [printIndices, typeNamesList]
    refine (printType_lifts env e).bind fun s => ?_
    split
    · exact printIndices_lifts env es _
    · exact printIndices_lifts env es _
theorem printField_lifts (env : PrintEnv) : ∀ f : Field, Lifts env (printField env f) (typeNamesField f)
  | .mk _ _ names t _ => by simp only [printField, typeNamesField]; exact (printType_lifts env t).map _
theorem printFields_lifts (env : PrintEnv) : ∀ fs : List Field, Lifts env (printFields env fs) (typeNamesFields fs)
  | [] => by simp only [printFields, typeNamesFields]; exact Lifts.pure env _
  | f :: fs => by
    simp only [printFields, typeNamesFields]
    exact (printField_lifts env f).bind fun a => (printFields_lifts env fs).map _
theorem printResults_lifts (env : PrintEnv) : ∀ fs : Option (List Field),
    Lifts env (printResults env fs) (typeNamesOpt fs)
  | none => by simp only [printResults, typeNamesOpt]; exact Lifts.pure env _
  | some fs => by simp only [printResults, typeNamesOpt]; exact printFields_lifts env fs
end

/-! ### Where the unqualified names of a printed type come from -/

/-- A name is a type name left unqualified or stands in a raw part. -/
def FromSource (raw : Expr → Str) (decls : List Str) (pref : Str) (names : List Str) (parts : List Expr)
    (n : Str) : Prop :=
  (n ∈ names ∧ ¬ (n ∈ decls ∧ pref ≠ [])) ∨ ∃ p ∈ parts, n ∈ scanWords ' ' [] (raw p)

theorem FromSource.left {raw decls pref ns ns' ps ps' n} (h : FromSource raw decls pref ns ps n) :
    FromSource raw decls pref (ns ++ ns') (ps ++ ps') n := by
  rcases h with ⟨h1, h2⟩ | ⟨p, h1, h2⟩
  · exact Or.inl ⟨List.mem_append_left _ h1, h2⟩
  · exact Or.inr ⟨p, List.mem_append_left _ h1, h2⟩

theorem FromSource.right {raw decls pref ns ns' ps ps' n} (h : FromSource raw decls pref ns' ps' n) :
    FromSource raw decls pref (ns ++ ns') (ps ++ ps') n := by
  rcases h with ⟨h1, h2⟩ | ⟨p, h1, h2⟩
  · exact Or.inl ⟨List.mem_append_right _ h1, h2⟩
  · exact Or.inr ⟨p, List.mem_append_right _ h1, h2⟩

theorem isTypeName_bare {raw decls pref} {x : Expr} (hx : IsTypeName x) {n : Str}
    (h : n ∈ bareNames (meaning raw decls pref x)) : FromSource raw decls pref (typeNames x) (rawParts x) n := by
  cases x with
  | ident m =>
    simp only [meaning] at h
    split at h
    · simp [bareNames] at h
    · rename_i hn
      simp only [bareNames, List.mem_singleton] at h
      subst h
      exact Or.inl ⟨by simp [typeNames], hn⟩
  | selector y b =>
    cases y <;> simp only [IsTypeName] at hx
    simp [meaning, bareNames] at h
  | _ => simp [IsTypeName] at hx

mutual
theorem bare_meaning (raw : Expr → Str) (decls : List Str) (pref : Str) : ∀ (e : Expr), TypeShape e →
    ∀ n ∈ bareNames (meaning raw decls pref e), FromSource raw decls pref (typeNames e) (rawParts e) n
  | .ident m, ht, n, h => isTypeName_bare (by simpa [IsTypeName, TypeShape] using ht) h
  | .selector x b, ht, n, h => isTypeName_bare (by simpa [TypeShape] using ht) h
  | .star x, ht, n, h => by
    simp only [meaning, bareNames, TypeShape, typeNames, rawParts] at *
    exact bare_meaning raw decls pref x ht n h
  | .ellipsis x, ht, n, h => by
    simp only [meaning, bareNames, TypeShape, typeNames, rawParts] at *
    exact bare_meaning raw decls pref x ht n h
  | .array none x, ht, n, h => by
    simp only [meaning, bareNames, TypeShape, typeNames, rawParts] at *
    exact bare_meaning raw decls pref x ht.2 n h
  | .array (some l) x, ht, n, h => by
    simp only [meaning, bareNames, TypeShape, typeNames, rawParts, List.mem_append] at *
    rcases h with h | h
    · exact Or.inr ⟨l, by simp, h⟩
    · rcases bare_meaning raw decls pref x ht.2 n h with h | ⟨p, h1, h2⟩
      · exact Or.inl h
      · exact Or.inr ⟨p, by simp [h1], h2⟩
  | .mapT k v, ht, n, h => by
    simp only [meaning, bareNames, TypeShape, typeNames, rawParts, List.mem_append] at *
    rcases h with h | h
    · exact (bare_meaning raw decls pref k ht.1 n h).left
    · exact (bare_meaning raw decls pref v ht.2 n h).right
  | .chanT d x, ht, n, h => by
    simp only [meaning, bareNames, TypeShape, typeNames, rawParts] at *
    exact bare_meaning raw decls pref x ht.1 n h
  | .funcT ps rs, ht, n, h => by
    simp only [meaning, bareNames, TypeShape, typeNames, rawParts, List.mem_append] at *
    rcases h with h | h
    · exact (bare_fields raw decls pref ps ht.1 n h).left
    · exact (bare_opt raw decls pref rs ht.2.2 n h).right
  | .structT fs, ht, n, h => by
    simp only [meaning, bareNames, TypeShape, typeNames, rawParts] at *
    exact bare_fields raw decls pref fs ht n h
  | .index x i, ht, n, h => by
    simp only [meaning, bareNames, bareNamesList, TypeShape, typeNames, rawParts, List.append_nil, List.mem_append] at *
    rcases h with h | h
    · exact (isTypeName_bare ht.1 h).left
    · exact (bare_meaning raw decls pref i ht.2 n h).right
  | .indexList x is, ht, n, h => by
    simp only [meaning, bareNames, TypeShape, typeNames, rawParts, List.mem_append] at *
    rcases h with h | h
    · exact (isTypeName_bare ht.1 h).left
    · exact (bare_list raw decls pref is ht.2.2 n h).right
  | .ifaceT ms, ht, n, h => by
    simp only [meaning, bareNames] at h
    exact Or.inr ⟨_, by simp [rawParts], h⟩
  | .paren x, ht, n, h => by
    simp only [meaning, bareNames] at h
    exact Or.inr ⟨_, by simp [rawParts], h⟩
  | .sliceExpr _, ht, _, _ => by simp [TypeShape] at ht
  | .lit _, ht, _, _ => by simp [TypeShape] at ht
  | .unary _ _, ht, _, _ => by simp [TypeShape] at ht
  | .binary _ _ _, ht, _, _ => by simp [TypeShape] at ht
  | .other _, ht, _, _ => by simp [TypeShape] at ht
theorem bare_field (raw : Expr → Str) (decls : List Str) (pref : Str) : ∀ (f : Field), TypeShapeField f →
    ∀ n ∈ bareNamesField (meaningField raw decls pref f), FromSource raw decls pref (typeNamesField f) (rawPartsField f) n
  | .mk _ _ names t _, ht, n, h => by
    simp only [meaningField, bareNamesField, TypeShapeField, typeNamesField, rawPartsField] at *
    exact bare_meaning raw decls pref t ht.2 n h
theorem bare_fields (raw : Expr → Str) (decls : List Str) (pref : Str) : ∀ (fs : List Field), TypeShapeFields fs →
    ∀ n ∈ bareNamesFields (meaningFields raw decls pref fs),
      FromSource raw decls pref (typeNamesFields fs) (rawPartsFields fs) n
  | [], _, n, h => by simp [meaningFields, bareNamesFields] at h
  | f :: fs, ht, n, h => by
    simp only [meaningFields, bareNamesFields, TypeShapeFields, typeNamesFields, rawPartsFields, List.mem_append] at *
    rcases h with h | h
    · exact (bare_field raw decls pref f ht.1 n h).left
    · exact (bare_fields raw decls pref fs ht.2 n h).right
theorem bare_opt (raw : Expr → Str) (decls : List Str) (pref : Str) : ∀ (fs : Option (List Field)), TypeShapeOpt fs →
    ∀ n ∈ bareNamesFields (meaningOpt raw decls pref fs),
      FromSource raw decls pref (typeNamesOpt fs) (rawPartsOpt fs) n
  | none, _, n, h => by simp [meaningOpt, bareNamesFields] at h
  | some fs, ht, n, h => by
    simp only [meaningOpt, TypeShapeOpt, typeNamesOpt, rawPartsOpt] at *
    exact bare_fields raw decls pref fs ht.1 n h
theorem bare_list (raw : Expr → Str) (decls : List Str) (pref : Str) : ∀ (es : List Expr), TypeShapeList es →
    ∀ n ∈ bareNamesList (meaningList raw decls pref es),
      FromSource raw decls pref (typeNamesList es) (rawPartsList es) n
  | [], _, n, h => by simp [meaningList, bareNamesList] at h
  | e :: es, ht, n, h => by
    simp only [meaningList, bareNamesList, TypeShapeList, typeNamesList, rawPartsList, List.mem_append] at *
    rcases h with h | h
    · exact (bare_meaning raw decls pref e ht.1 n h).left
    · exact (bare_list raw decls pref es ht.2 n h).right
end

/-! ### Undoing the qualification -/

mutual
/-- Remove the selector `pref` from declared names. -/
def unqual (decls : List Str) (pref : Str) : Ty → Ty
  | .name (some p) n => if p = pref ∧ n ∈ decls then .name none n else .name (some p) n
  | .name none n => .name none n
  | .inst b as => .inst (unqual decls pref b) (unqualList decls pref as)
  | .ptr t => .ptr (unqual decls pref t)
  | .slice t => .slice (unqual decls pref t)
  | .arr l t => .arr l (unqual decls pref t)
  | .variadic t => .variadic (unqual decls pref t)
  | .mapT k v => .mapT (unqual decls pref k) (unqual decls pref v)
  | .chanT d t => .chanT d (unqual decls pref t)
  | .func ps rs => .func (unqualFields decls pref ps) (unqualFields decls pref rs)
  | .struct fs => .struct (unqualFields decls pref fs)
  | .opaque s => .opaque s
def unqualField (decls : List Str) (pref : Str) : TyField → TyField
  | .mk names t => .mk names (unqual decls pref t)
def unqualFields (decls : List Str) (pref : Str) : List TyField → List TyField
  | [] => []
  | f :: fs => unqualField decls pref f :: unqualFields decls pref fs
def unqualList (decls : List Str) (pref : Str) : List Ty → List Ty
  | [] => []
  | t :: ts => unqual decls pref t :: unqualList decls pref ts
end

/-- No selector can be mistaken for a qualified source type. -/
def NoClash (decls : List Str) (pref : Str) (sels : List (Str × Str)) : Prop :=
  ∀ p ∈ sels, ¬ (p.1 = pref ∧ p.2 ∈ decls)

theorem NoClash.left {d p a b} (h : NoClash d p (a ++ b)) : NoClash d p a :=
  fun x hx => h x (List.mem_append_left _ hx)
theorem NoClash.right {d p a b} (h : NoClash d p (a ++ b)) : NoClash d p b :=
  fun x hx => h x (List.mem_append_right _ hx)

mutual
theorem unqual_meaning (raw : Expr → Str) (decls : List Str) (pref : Str) : ∀ (e : Expr),
    NoClash decls pref (selectors e) →
    unqual decls pref (meaning raw decls pref e) = meaning raw [] [] e
  | .ident m, h => by
    simp only [meaning, List.not_mem_nil, false_and, if_false]
    split
    · rename_i hm; simp [unqual, hm.1]
    · simp [unqual]
  | .selector x b, h => by
    cases x with
    | ident a =>
      simp only [meaning, unqual]
      rw [if_neg (h (a, b) (by simp [selectors]))]
    | _ => simp [meaning, unqual]
  | .star x, h => by
    simp only [meaning, unqual, selectors] at *; rw [unqual_meaning raw decls pref x h]
  | .ellipsis x, h => by
    simp only [meaning, unqual, selectors] at *; rw [unqual_meaning raw decls pref x h]
  | .array none x, h => by
    simp only [meaning, unqual, selectors] at *; rw [unqual_meaning raw decls pref x h]
  | .array (some l) x, h => by
    simp only [meaning, unqual, selectors] at *; rw [unqual_meaning raw decls pref x h]
  | .mapT k v, h => by
    simp only [meaning, unqual, selectors] at *
    rw [unqual_meaning raw decls pref k h.left, unqual_meaning raw decls pref v h.right]
  | .chanT d x, h => by
    simp only [meaning, unqual, selectors] at *; rw [unqual_meaning raw decls pref x h]
  | .funcT ps rs, h => by
    simp only [meaning, unqual, selectors] at *
    rw [unqual_fields raw decls pref ps h.left, unqual_opt raw decls pref rs h.right]
  | .structT fs, h => by
    simp only [meaning, unqual, selectors] at *
    rw [unqual_fields raw decls pref fs h]
  | .index x i, h => by
    simp only [meaning, unqual, unqualList, selectors] at *
    rw [unqual_meaning raw decls pref x h.left, unqual_meaning raw decls pref i h.right]
  | .indexList x is, h => by
    simp only [meaning, unqual, selectors] at *
    rw [unqual_meaning raw decls pref x h.left, unqual_list raw decls pref is h.right]
  | .ifaceT ms, _ => by simp only [meaning, unqual]
  | .paren x, _ => by simp only [meaning, unqual]
  | .sliceExpr _, _ => by simp only [meaning, unqual]
  | .lit _, _ => by simp only [meaning, unqual]
  | .unary _ _, _ => by simp only [meaning, unqual]
  | .binary _ _ _, _ => by simp only [meaning, unqual]
  | .other _, _ => by simp only [meaning, unqual]
theorem unqual_field (raw : Expr → Str) (decls : List Str) (pref : Str) : ∀ (f : Field),
    NoClash decls pref (selectorsField f) →
    unqualField decls pref (meaningField raw decls pref f) = meaningField raw [] [] f
  | .mk _ _ names t _, h => by
    simp only [meaningField, unqualField, selectorsField] at *; rw [unqual_meaning raw decls pref t h]
theorem unqual_fields (raw : Expr → Str) (decls : List Str) (pref : Str) : ∀ (fs : List Field),
    NoClash decls pref (selectorsFields fs) →
    unqualFields decls pref (meaningFields raw decls pref fs) = meaningFields raw [] [] fs
  | [], _ => by simp only [meaningFields, unqualFields]
  | f :: fs, h => by
    simp only [meaningFields, unqualFields, selectorsFields] at *
    rw [unqual_field raw decls pref f h.left, unqual_fields raw decls pref fs h.right]
theorem unqual_opt (raw : Expr → Str) (decls : List Str) (pref : Str) : ∀ (fs : Option (List Field)),
    NoClash decls pref (selectorsOpt fs) →
    unqualFields decls pref (meaningOpt raw decls pref fs) = meaningOpt raw [] [] fs
  | none, _ => by simp only [meaningOpt, unqualFields]
  | some fs, h => by
    simp only [meaningOpt, selectorsOpt] at *; exact unqual_fields raw decls pref fs h
theorem unqual_list (raw : Expr → Str) (decls : List Str) (pref : Str) : ∀ (es : List Expr),
    NoClash decls pref (selectorsList es) →
    unqualList decls pref (meaningList raw decls pref es) = meaningList raw [] [] es
  | [], _ => by simp only [meaningList, unqualList]
  | e :: es, h => by
    simp only [meaningList, unqualList, selectorsList] at *
    rw [unqual_meaning raw decls pref e h.left, unqual_list raw decls pref es h.right]
end

end Gowrap

import Verif.Proofs.Discover
/-!
# The result does not depend on map iteration orders
-/

namespace Gowrap

open Gowrap.Spec

mutual
theorem printType_types (env : PrintEnv) (types : List Str) (h : ∀ n, n ∈ env.types ↔ n ∈ types) : ∀ e,
    printType env e = printType { env with types := types } e
  | .ident n => by
    have : env.types.contains n = types.contains n := by
      have := h n
      rw [← List.contains_iff_mem, ← List.contains_iff_mem] at this
      exact Bool.eq_iff_iff.2 this
    simp only [printType, printIdent, this]
  | .selector x b => by simp only [printType]
  | .star x => by simp only [printType, printType_types env types h x]
  | .ellipsis x => by simp only [printType, printType_types env types h x]
  | .array l x => by
    simp only [printType, printType_types env types h x]
    cases l <;> rfl
  | .mapT k v => by simp only [printType, printType_types env types h k, printType_types env types h v]
  | .chanT d x => by simp only [printType, printType_types env types h x]
  | .funcT ps rs => by
    simp only [printType, printFields_types env types h ps, printResults_types env types h rs]
  | .structT fs => by simp only [printType, printFields_types env types h fs]
  | .index x i => by simp only [printType, printType_types env types h x, printType_types env types h i]
  | .indexList x is => by
    rw [printType, printType, printType_types env types h x]
    congr 1
    funext t
    exact printIndices_types env types h is _
  | .ifaceT ms => by simp only [printType]
  | .paren x => by simp only [printType]
  | .sliceExpr _ => by simp only [printType]
  | .lit _ => by simp only [printType]
  | .unary _ _ => by simp only [printType]
  | .binary _ _ _ => by simp only [printType]
  | .other _ => by simp only [printType]
theorem printIndices_types (env : PrintEnv) (types : List Str) (h : ∀ n, n ∈ env.types ↔ n ∈ types) : ∀ es b,
    printIndices env b es = printIndices { env with types := types } b es
  | [], b => by simp only [printIndices]
  | e :: es, b => by
    simp only [printIndices, printType_types env types h e]
    congr 1
    funext t
    split
    · exact printIndices_types env types h es _
    · exact printIndices_types env types h es _
theorem printField_types (env : PrintEnv) (types : List Str) (h : ∀ n, n ∈ env.types ↔ n ∈ types) : ∀ f,
    printField env f = printField { env with types := types } f
  | .mk _ _ names t _ => by simp only [printField, printType_types env types h t]
theorem printFields_types (env : PrintEnv) (types : List Str) (h : ∀ n, n ∈ env.types ↔ n ∈ types) : ∀ fs,
    printFields env fs = printFields { env with types := types } fs
  | [] => by simp only [printFields]
  | f :: fs => by
    simp only [printFields, printField_types env types h f, printFields_types env types h fs]
theorem printResults_types (env : PrintEnv) (types : List Str) (h : ∀ n, n ∈ env.types ↔ n ∈ types) : ∀ fs,
    printResults env fs = printResults { env with types := types } fs
  | none => by simp only [printResults]
  | some fs => by simp only [printResults, printFields_types env types h fs]
end

theorem newParam_types (env : SigEnv) (types : List Str) (h : ∀ n, n ∈ env.print.types ↔ n ∈ types)
    (name : Str) (fi : Field) (used : List Str) :
    newParam env name fi used = newParam { env with print := { env.print with types := types } } name fi used := by
  unfold newParam
  rw [printType_types env.print types h]

theorem makeNames_types (env : SigEnv) (types : List Str) (h : ∀ n, n ∈ env.print.types ↔ n ∈ types)
    (fi : Field) (ns : List Str) : ∀ used,
    makeNames env fi ns used = makeNames { env with print := { env.print with types := types } } fi ns used := by
  induction ns with
  | nil => intro used; rfl
  | cons n ns ih => intro used; simp only [makeNames, newParam_types env types h, ih]

theorem makeParams_types (env : SigEnv) (types : List Str) (h : ∀ n, n ∈ env.print.types ↔ n ∈ types)
    (fs : List Field) : ∀ used,
    makeParams env fs used = makeParams { env with print := { env.print with types := types } } fs used := by
  induction fs with
  | nil => intro used; rfl
  | cons f fs ih => intro used; simp only [makeParams, makeField, makeNames_types env types h, ih]

theorem newMethod_types (env : SigEnv) (types : List Str) (h : ∀ n, n ∈ env.print.types ↔ n ∈ types)
    (name : Str) (fi : Field) :
    newMethod env name fi = newMethod { env with print := { env.print with types := types } } name fi := by
  unfold newMethod
  split
  · next ps rs _ =>
    have hr : ∀ used, makeResults env rs used =
        makeResults { env with print := { env.print with types := types } } rs used := by
      intro used
      cases rs with
      | none => rfl
      | some rs => exact makeParams_types env types h rs used
    simp only [makeParams_types env types h, hr]
  · rfl

theorem getPrefix_types {types types' : List Str} (h : ∀ n, n ∈ types ↔ n ∈ types') (name pref : Str) :
    getPrefix name types pref = getPrefix name types' pref := by
  have : types.contains name = types'.contains name := by
    have := h name
    rw [← List.contains_iff_mem, ← List.contains_iff_mem] at this
    exact Bool.eq_iff_iff.2 this
  unfold getPrefix
  rw [this]

theorem parseGenericType_types {types types' : List Str} (h : ∀ n, n ∈ types ↔ n ∈ types') (pref : Str)
    (e : Expr) : parseGenericType types pref e = parseGenericType types' pref e := by
  induction e using parseGenericType.induct <;>
    simp_all [parseGenericType, getPrefix_types h]

theorem buildGenericTypes_types {types types' : List Str} (h : ∀ n, n ∈ types ↔ n ∈ types') (pref : Str)
    (ts : TypeSpec) : buildGenericTypesFromSpec ts types pref = buildGenericTypesFromSpec ts types' pref := by
  have hf : ∀ fs, genericTypesFromFields types pref fs = genericTypesFromFields types' pref fs := by
    intro fs
    induction fs with
    | nil => rfl
    | cons f fs ih => simp only [genericTypesFromFields, parseGenericType_types h, ih]
  unfold buildGenericTypesFromSpec
  split
  · rfl
  · exact hf _

/-- The inputs differ at most in the order of the types; type names are unique. -/
structure SameInput (i i' : Input) : Prop where
  eq : i' = { i with types := i'.types }
  mem : ∀ ts, ts ∈ i.types ↔ ts ∈ i'.types
  unique : ∀ t ∈ i.types, ∀ t' ∈ i.types, t.name = t'.name → t = t'

theorem SameInput.names {i i' : Input} (h : SameInput i i') (n : Str) :
    n ∈ i.types.map (·.name) ↔ n ∈ i'.types.map (·.name) := by
  simp only [List.mem_map, h.mem]

theorem SameInput.sigEnv {i i' : Input} (h : SameInput i i') (w : World) :
    i'.sigEnv w = { i.sigEnv w with print := { (i.sigEnv w).print with types := i'.types.map (·.name) } } := by
  have := h.eq
  rw [this]
  rfl

theorem find_unique {l l' : List TypeSpec} (hm : ∀ ts, ts ∈ l ↔ ts ∈ l')
    (hu : ∀ t ∈ l, ∀ t' ∈ l, t.name = t'.name → t = t') (n : Str) :
    l.find? (fun t => t.name = n) = l'.find? (fun t => t.name = n) := by
  cases h : l.find? (fun t => t.name = n) with
  | none =>
    symm
    rw [List.find?_eq_none] at h ⊢
    intro x hx
    exact h x ((hm x).2 hx)
  | some t =>
    have h1 := List.mem_of_find?_eq_some h
    have h2 : t.name = n := by simpa using List.find?_some h
    cases h' : l'.find? (fun t => t.name = n) with
    | none =>
      rw [List.find?_eq_none] at h'
      have := h' t ((hm t).1 h1)
      simp [h2] at this
    | some t' =>
      have h1' := (hm t').2 (List.mem_of_find?_eq_some h')
      have h2' : t'.name = n := by simpa using List.find?_some h'
      rw [hu t h1 t' h1' (h2.trans h2'.symm)]

theorem findEmbedded_same {i i' : Input} (h : SameInput i i') (n : Str) (b : Bool) :
    findEmbedded i.types n b = findEmbedded i'.types n b := by
  unfold findEmbedded
  rw [find_unique h.mem h.unique]

/-- No two imports of a package are packages of the same name. -/
def UniqueImports (w : World) : Prop :=
  ∀ p path q path' q', (path, q) ∈ (w.pkg p).imports → (path', q') ∈ (w.pkg p).imports →
    (w.pkg q).name = (w.pkg q').name → path = path'

theorem findImport_same {w : World} (hu : UniqueImports w) (p : PkgId) (a : Str) (imports : List ImportSpec)
    {l l' : List (Str × PkgId)} (h : l.Perm (w.pkg p).imports) (h' : l'.Perm (w.pkg p).imports) :
    findImportPathForName w a imports l = findImportPathForName w a imports l' := by
  unfold findImportPathForName
  split
  · rfl
  · cases e : l.find? (fun x => (w.pkg x.2).name = a) with
    | none =>
      have : l'.find? (fun x => (w.pkg x.2).name = a) = none := by
        rw [List.find?_eq_none] at e ⊢
        intro x hx
        exact e x (h.mem_iff.2 (h'.mem_iff.1 hx))
      rw [this]
    | some x =>
      have h1 := h.mem_iff.1 (List.mem_of_find?_eq_some e)
      have h2 : (w.pkg x.2).name = a := by simpa using List.find?_some e
      cases e' : l'.find? (fun x => (w.pkg x.2).name = a) with
      | none =>
        rw [List.find?_eq_none] at e'
        have := e' x (h'.mem_iff.2 h1)
        simp [h2] at this
      | some x' =>
        have h1' := h'.mem_iff.1 (List.mem_of_find?_eq_some e')
        have h2' : (w.pkg x'.2).name = a := by simpa using List.find?_some e'
        simp only
        rw [hu p x.1 x.2 x'.1 x'.2 h1 h1' (h2.trans h2'.symm)]

/-- With unique type names the order of the files does not matter for the selected type. -/
theorem selected_same {files l l' : List File} (h : l.Perm files) (h' : l'.Perm files) (name : Str)
    (hu : ∀ f ∈ files, ∀ f' ∈ files, ∀ ts ts', DeclaredIn f ts → DeclaredIn f' ts' → ts.name = ts'.name →
      ts = ts' ∧ f = f') :
    (iterateFiles name l).selected = (iterateFiles name l').selected := by
  cases e : (iterateFiles name l).selected with
  | none =>
    cases e' : (iterateFiles name l').selected with
    | none => rfl
    | some x =>
      obtain ⟨h1, h2, h3⟩ := iterateFiles_some e'
      exact absurd h3 (iterateFiles_none e _ (h.mem_iff.2 (h'.mem_iff.1 h1)) _ h2)
  | some x =>
    obtain ⟨h1, h2, h3⟩ := iterateFiles_some e
    obtain ⟨x', e'⟩ := iterateFiles_isSome (h'.mem_iff.2 (h.mem_iff.1 h1)) h2 h3
    obtain ⟨h1', h2', h3'⟩ := iterateFiles_some e'
    obtain ⟨e1, e2⟩ := hu _ (h.mem_iff.1 h1) _ (h'.mem_iff.1 h1') _ _ h2 h2' (h3.trans h3'.symm)
    rw [e', Option.some.injEq]
    exact Prod.ext e1 e2

/-- Equal results under both schedules, at one recursion bound. -/
structure SameAt (w : World) (s s' : Sched) (n : Nat) : Prop where
  target : ∀ path path' cur pref files name gps, w.files cur = .ok files →
    findTarget w s n path cur pref files name gps = findTarget w s' n path' cur pref files name gps
  methods : ∀ path path' ts i i', SameInput i i' → findMethods w s n path ts i = findMethods w s' n path' ts i'
  get : ∀ path path' sel src, getMethods w s n path sel src = getMethods w s' n path' sel src
  iface : ∀ path path' ms i i', SameInput i i' →
    processInterface w s n path ms i = processInterface w s' n path' ms i'
  fields : ∀ path path' ms i i' acc, SameInput i i' →
    processFields w s n path ms i acc = processFields w s' n path' ms i' acc
  embedded : ∀ path path' e i i' b, SameInput i i' →
    processEmbedded w s n path e i b = processEmbedded w s' n path' e i' b
  args : ∀ path path' es i i' acc, SameInput i i' →
    processArgs w s n path es i acc = processArgs w s' n path' es i' acc
  getEmbedded : ∀ path path' e i i' b, SameInput i i' →
    getEmbeddedMethods w s n path e i b = getEmbeddedMethods w s' n path' e i' b
  selector : ∀ path path' x sel i i', SameInput i i' →
    processSelector w s n path x sel i = processSelector w s' n path' x sel i'
  ident : ∀ path path' name i i' b, SameInput i i' →
    processIdent w s n path name i b = processIdent w s' n path' name i' b

theorem same_zero (w : World) (s s' : Sched) : SameAt w s s' 0 where
  target := by intros; simp [findTarget]
  methods := by intros; simp [findMethods]
  get := by intros; simp [getMethods]
  iface := by intros; simp [processInterface]
  fields := by intros; simp [processFields]
  embedded := by intros; simp [processEmbedded]
  args := by intros; simp [processArgs]
  getEmbedded := by intros; simp [getEmbeddedMethods]
  selector := by intros; simp [processSelector]
  ident := by intros; simp [processIdent]

theorem bind_congr' {α β : Type} {x y : Res α} {f g : α → Res β} (h : x = y) (hf : ∀ a, f a = g a) :
    (x >>= f) = (y >>= g) := by
  subst h
  congr 1
  funext a
  exact hf a

theorem SameInput.generics {i i' : Input} (h : SameInput i i') (gts : List GType) (gps : List GParam) :
    SameInput { i with genericTypes := gts, genericParams := gps }
      { i' with genericTypes := gts, genericParams := gps } := by
  refine ⟨?_, h.mem, h.unique⟩
  rw [h.eq]

theorem same_succ {w : World} {s s' : Sched} (hs : s.Fair) (hs' : s'.Fair) (hu : UniqueTypes w)
    (hi : UniqueImports w) {n : Nat} (ih : SameAt w s s' n) : SameAt w s s' (n + 1) where
  target := by
    intro path path' cur pref files name gps hf
    have huf : ∀ f ∈ files, ∀ f' ∈ files, ∀ ts ts', DeclaredIn f ts → DeclaredIn f' ts' → ts.name = ts'.name →
      ts = ts' ∧ f = f' := fun f h1 f' h2 ts ts' h3 h4 h5 =>
      hu cur f f' ts ts' ⟨files, hf, h1⟩ ⟨files, hf, h2⟩ h3 h4 h5
    have hsel := selected_same (hs.files path files) (hs'.files path' files) name huf
    have hmem : ∀ t, t ∈ (iterateFiles name (s.files path files)).types ↔
        t ∈ (iterateFiles name (s'.files path' files)).types := by
      intro t
      simp only [mem_types, (hs.files path files).mem_iff, (hs'.files path' files).mem_iff]
    have hnames : ∀ n, n ∈ (iterateFiles name (s.files path files)).types.map (·.name) ↔
        n ∈ (iterateFiles name (s'.files path' files)).types.map (·.name) := by
      intro n; simp only [List.mem_map, hmem]
    simp only [findTarget, ← hsel]
    split
    · rfl
    · next ts f _ =>
      refine bind_congr' (buildGenericTypes_types hnames _ _) fun gts => ?_
      refine bind_congr' (ih.methods _ _ _ _ _ ⟨rfl, hmem, ?_⟩) fun r => rfl
      intro t ht t' ht' hn
      obtain ⟨f, hf1, hf2⟩ := (mem_types t).1 ht
      obtain ⟨f', hf1', hf2'⟩ := (mem_types t').1 ht'
      exact (huf f ((hs.files path files).mem_iff.1 hf1) f' ((hs.files path files).mem_iff.1 hf1') _ _ hf2 hf2' hn).1
  methods := by
    intro path path' ts i i' h
    have h1 : i'.imports = i.imports := by rw [h.eq]
    have h2 : i'.file = i.file := by rw [h.eq]
    simp only [findMethods, h1, h2]
    split
    · exact ih.iface _ _ _ _ _ h
    · split
      · exact ih.get _ _ _ _
      · rfl
    · split
      · exact ih.methods _ _ _ _ _ h
      · rfl
    · rfl
  get := by
    intro path path' sel src
    simp only [getMethods]
    refine bind_congr' rfl fun p => ?_
    cases hf : w.files p with
    | ok files =>
      simp only [Res.ok_bind]
      exact bind_congr' (ih.target _ _ _ _ _ _ _ hf) fun out => rfl
    | err e => rfl
    | panic => rfl
    | diverge => rfl
  iface := by
    intro path path' ms i i' h
    simp only [processInterface]
    exact ih.fields _ _ _ _ _ _ h
  fields := by
    intro path path' ms i i' acc h
    cases ms with
    | nil => simp only [processFields]
    | cons fd rest =>
      simp only [processFields]
      split
      · split
        · rfl
        · next name names _ =>
          refine bind_congr' ?_ fun m => ih.fields _ _ _ _ _ _ h
          rw [h.sigEnv w]
          exact newMethod_types _ _ (fun n => h.names n) _ _
      · refine bind_congr' (ih.embedded _ _ _ _ _ _ h) fun x => ?_
        exact ih.fields _ _ _ _ _ _ h
  embedded := by
    intro path path' e i i' b h
    simp only [processEmbedded]
    split
    · refine bind_congr' (ih.args _ _ _ _ _ _ h) fun gps => ?_
      refine bind_congr' (ih.getEmbedded _ _ _ _ _ _ ?_) fun x => rfl
      have := h.generics i.genericTypes gps
      rw [h.eq] at this ⊢
      exact this
    · refine bind_congr' (ih.args _ _ _ _ _ _ h) fun gps => ?_
      refine bind_congr' (ih.getEmbedded _ _ _ _ _ _ ?_) fun x => rfl
      have := h.generics i.genericTypes gps
      rw [h.eq] at this ⊢
      exact this
    · refine ih.getEmbedded _ _ _ _ _ _ ?_
      have := h.generics i.genericTypes []
      rw [h.eq] at this ⊢
      exact this
  args := by
    intro path path' es i i' acc h
    cases es with
    | nil => simp only [processArgs]
    | cons e es =>
      simp only [processArgs]
      refine bind_congr' (ih.embedded _ _ _ _ _ _ h) fun x => ?_
      exact ih.args _ _ _ _ _ _ h
  getEmbedded := by
    intro path path' e i i' b h
    simp only [getEmbeddedMethods]
    refine bind_congr' ?_ fun name => ?_
    · rw [h.sigEnv w]
      exact printType_types _ _ (fun n => h.names n) _
    · split
      · exact bind_congr' (ih.selector _ _ _ _ _ _ h) fun x => rfl
      · exact bind_congr' (ih.ident _ _ _ _ _ _ h) fun x => rfl
      · rfl
  selector := by
    intro path path' x sel i i' h
    have h1 : i'.imports = i.imports := by rw [h.eq]
    have h2 : i'.cur = i.cur := by rw [h.eq]
    have h3 : i'.genericParams = i.genericParams := by rw [h.eq]
    simp only [processSelector, h1, h2, h3]
    split
    · refine bind_congr' (findImport_same hi i.cur _ _ (hs.imports path _) (hs'.imports path' _)) fun ip => ?_
      split
      · rfl
      · next p _ =>
        cases hf : w.files p with
        | ok files =>
          simp only [Res.ok_bind]
          exact bind_congr' (ih.target _ _ _ _ _ _ _ hf) fun out => rfl
        | err e => rfl
        | panic => rfl
        | diverge => rfl
    · rfl
  ident := by
    intro path path' name i i' b h
    have h1 : i'.pref = i.pref := by rw [h.eq]
    simp only [processIdent, findEmbedded_same h]
    refine bind_congr' rfl fun fe => ?_
    split
    · rfl
    · next t ms =>
      rw [h1]
      refine bind_congr' (buildGenericTypes_types (fun n => h.names n) _ _) fun gts => ?_
      refine ih.iface _ _ _ _ _ ?_
      have := h.generics gts i.genericParams
      rw [h.eq] at this ⊢
      exact this

theorem same {w : World} {s s' : Sched} (hs : s.Fair) (hs' : s'.Fair) (hu : UniqueTypes w)
    (hi : UniqueImports w) : ∀ n, SameAt w s s' n
  | 0 => same_zero w s s'
  | n + 1 => same_succ hs hs' hu hi (same hs hs' hu hi n)

end Gowrap

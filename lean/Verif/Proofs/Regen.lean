import Verif.Spec.Regen
import Verif.Proofs.Order
/-!
# A file added to the package does not change what is found
-/

namespace Gowrap

open Gowrap.Spec

mutual
theorem printType_idents (env : PrintEnv) (types : List Str) (h : ∀ n, printIdent env n = printIdent { env with types := types } n) : ∀ e,
    printType env e = printType { env with types := types } e
  | .ident n => by simp only [printType, h n]
  | .selector x b => by simp only [printType]
  | .star x => by simp only [printType, printType_idents env types h x]
  | .ellipsis x => by simp only [printType, printType_idents env types h x]
  | .array l x => by
    simp only [printType, printType_idents env types h x]
    cases l <;> rfl
  | .mapT k v => by simp only [printType, printType_idents env types h k, printType_idents env types h v]
  | .chanT d x => by simp only [printType, printType_idents env types h x]
  | .funcT ps rs => by
    simp only [printType, printFields_idents env types h ps, printResults_idents env types h rs]
  | .structT fs => by simp only [printType, printFields_idents env types h fs]
  | .index x i => by simp only [printType, printType_idents env types h x, printType_idents env types h i]
  | .indexList x is => by
    rw [printType, printType, printType_idents env types h x]
    congr 1
    funext t
    exact printIndices_idents env types h is _
  | .ifaceT ms => by simp only [printType]
  | .paren x => by simp only [printType]
  | .sliceExpr _ => by simp only [printType]
  | .lit _ => by simp only [printType]
  | .unary _ _ => by simp only [printType]
  | .binary _ _ _ => by simp only [printType]
  | .other _ => by simp only [printType]
theorem printIndices_idents (env : PrintEnv) (types : List Str) (h : ∀ n, printIdent env n = printIdent { env with types := types } n) : ∀ es b,
    printIndices env b es = printIndices { env with types := types } b es
  | [], b => by simp only [printIndices]
  | e :: es, b => by
    simp only [printIndices, printType_idents env types h e]
    congr 1
    funext t
    split
    · exact printIndices_idents env types h es _
    · exact printIndices_idents env types h es _
theorem printField_idents (env : PrintEnv) (types : List Str) (h : ∀ n, printIdent env n = printIdent { env with types := types } n) : ∀ f,
    printField env f = printField { env with types := types } f
  | .mk _ _ names t _ => by simp only [printField, printType_idents env types h t]
theorem printFields_idents (env : PrintEnv) (types : List Str) (h : ∀ n, printIdent env n = printIdent { env with types := types } n) : ∀ fs,
    printFields env fs = printFields { env with types := types } fs
  | [] => by simp only [printFields]
  | f :: fs => by
    simp only [printFields, printField_idents env types h f, printFields_idents env types h fs]
theorem printResults_idents (env : PrintEnv) (types : List Str) (h : ∀ n, printIdent env n = printIdent { env with types := types } n) : ∀ fs,
    printResults env fs = printResults { env with types := types } fs
  | none => by simp only [printResults]
  | some fs => by simp only [printResults, printFields_idents env types h fs]
end

theorem newParam_idents (env : SigEnv) (types : List Str) (h : ∀ n, printIdent env.print n = printIdent { env.print with types := types } n)
    (name : Str) (fi : Field) (used : List Str) :
    newParam env name fi used = newParam { env with print := { env.print with types := types } } name fi used := by
  unfold newParam
  rw [printType_idents env.print types h]

theorem makeNames_idents (env : SigEnv) (types : List Str) (h : ∀ n, printIdent env.print n = printIdent { env.print with types := types } n)
    (fi : Field) (ns : List Str) : ∀ used,
    makeNames env fi ns used = makeNames { env with print := { env.print with types := types } } fi ns used := by
  induction ns with
  | nil => intro used; rfl
  | cons n ns ih => intro used; simp only [makeNames, newParam_idents env types h, ih]

theorem makeParams_idents (env : SigEnv) (types : List Str) (h : ∀ n, printIdent env.print n = printIdent { env.print with types := types } n)
    (fs : List Field) : ∀ used,
    makeParams env fs used = makeParams { env with print := { env.print with types := types } } fs used := by
  induction fs with
  | nil => intro used; rfl
  | cons f fs ih => intro used; simp only [makeParams, makeField, makeNames_idents env types h, ih]

theorem newMethod_idents (env : SigEnv) (types : List Str) (h : ∀ n, printIdent env.print n = printIdent { env.print with types := types } n)
    (name : Str) (fi : Field) :
    newMethod env name fi = newMethod { env with print := { env.print with types := types } } name fi := by
  unfold newMethod
  split
  · next ps rs _ =>
    have hr : ∀ used, makeResults env rs used =
        makeResults { env with print := { env.print with types := types } } rs used := by
      intro used
      cases rs with
      | none => rfl
      | some rs => exact makeParams_idents env types h rs used
    simp only [makeParams_idents env types h, hr]
  · rfl

/-- Without a package prefix, names print as themselves whether or not the package declares them. -/
theorem printIdent_bare (env : PrintEnv) (more : List Str) (hp : env.pref = [])
    (hraw : ∀ n ∈ more, env.raw (.ident n) = n) (n : Str) :
    printIdent env n = printIdent { env with types := env.types ++ more } n := by
  simp only [printIdent, hp, List.contains_eq_mem, List.mem_append, decide_eq_true_eq, List.length_nil,
    Nat.lt_irrefl, if_false, gt_iff_lt]
  by_cases h1 : n ∈ env.types
  · simp [h1]
  · by_cases h2 : n ∈ more
    · simp [h1, h2, hraw n h2]
    · simp [h1, h2]

theorem parseGenericType_bare (types types' : List Str) (e : Expr) :
    parseGenericType types [] e = parseGenericType types' [] e := by
  induction e using parseGenericType.induct <;> simp_all [parseGenericType, getPrefix]

theorem buildGenericTypes_bare (types types' : List Str) (ts : TypeSpec) :
    buildGenericTypesFromSpec ts types [] = buildGenericTypesFromSpec ts types' [] := by
  have hf : ∀ fs, genericTypesFromFields types [] fs = genericTypesFromFields types' [] fs := by
    intro fs
    induction fs with
    | nil => rfl
    | cons f fs ih => simp only [genericTypesFromFields, parseGenericType_bare types types', ih]
  unfold buildGenericTypesFromSpec
  split
  · rfl
  · exact hf _

theorem iterateSpecs_other (name : Str) (f : File) : ∀ (specs : List TypeSpec) (st : Found),
    (∀ ts ∈ specs, ts.name ≠ name) →
    iterateSpecs name f st specs = { selected := st.selected, types := st.types ++ specs }
  | [], st, _ => by simp [iterateSpecs]
  | ts :: rest, st, h => by
    rw [iterateSpecs, iterateSpecs_other name f rest _ (fun t ht => h t (List.mem_cons_of_mem _ ht))]
    simp [h ts (List.mem_cons_self ..)]

theorem findSourcePackage_mem (a : Str) : ∀ imports : List ImportSpec,
    findSourcePackage a imports = [] ∨ ∃ imp ∈ imports, findSourcePackage a imports = trimQuotes imp.path
  | [] => .inl rfl
  | imp :: rest => by
    have ih := findSourcePackage_mem a rest
    have ih' : findSourcePackage a rest = [] ∨
        ∃ i ∈ imp :: rest, findSourcePackage a rest = trimQuotes i.path :=
      ih.imp id fun ⟨i, hi, e⟩ => ⟨i, List.mem_cons_of_mem _ hi, e⟩
    simp only [findSourcePackage]
    split <;> split
    · exact .inr ⟨imp, List.mem_cons_self .., rfl⟩
    · exact ih'
    · exact .inr ⟨imp, List.mem_cons_self .., rfl⟩
    · exact ih'

section
variable {w : World} {q : PkgId} {f : File} {new : List (Str × PkgId)}

theorem addFile_files_other {p : PkgId} (h : p ≠ q) : (addFile w q f new).files p = w.files p := by
  simp [addFile, h]

theorem addFile_pkg_other {p : PkgId} (h : p ≠ q) : (addFile w q f new).pkg p = w.pkg p := by
  simp [addFile, h]

theorem addFile_name (p : PkgId) : ((addFile w q f new).pkg p).name = (w.pkg p).name := by
  by_cases h : p = q
  · subst h; simp [addFile]
  · rw [addFile_pkg_other h]

theorem addFile_path (p : PkgId) : ((addFile w q f new).pkg p).path = (w.pkg p).path := by
  by_cases h : p = q
  · subst h; simp [addFile]
  · rw [addFile_pkg_other h]

theorem addFile_imports (p : PkgId) :
    ∃ more, ((addFile w q f new).pkg p).imports = (w.pkg p).imports ++ more := by
  by_cases h : p = q
  · subst h; exact ⟨new, by simp [addFile]⟩
  · exact ⟨[], by rw [addFile_pkg_other h]; simp⟩

theorem lookup_append {k : Str} {p : PkgId} : ∀ {l m : List (Str × PkgId)}, l.lookup k = some p →
    (l ++ m).lookup k = some p
  | [], _, h => by cases h
  | (k', p') :: l, m, h => by
    simp only [List.cons_append, List.lookup_cons] at h ⊢
    split
    · next hk => simpa [hk] using h
    · next hk => simp only [hk] at h; exact lookup_append h

theorem findImport_add {a : Str} {imports : List ImportSpec} {p : PkgId} {r : Str}
    (h : findImportPathForName w a imports (w.pkg p).imports = .ok r) :
    findImportPathForName (addFile w q f new) a imports ((addFile w q f new).pkg p).imports = .ok r := by
  unfold findImportPathForName at h ⊢
  split
  · next hi => simpa [hi] using h
  · next hi =>
    simp only [hi] at h
    obtain ⟨more, hm⟩ := addFile_imports (w := w) (q := q) (f := f) (new := new) p
    simp only [addFile_name, hm, List.find?_append]
    cases hx : (w.pkg p).imports.find? (fun x => (w.pkg x.2).name = a) with
    | none => simp [hx] at h
    | some x => simpa [hx] using h

/-- The inputs before and after the file was added. -/
structure Grown (w : World) (q : PkgId) (f : File) (i i' : Input) : Prop where
  eq : i' = { i with types := i'.types }
  off : i.cur ≠ q → i'.types = i.types
  on : i.cur = q → i.pref = [] ∧ i'.types = i.types ++ typeSpecs f
  types : ∀ t ∈ i.types, ∃ g, FileOf w i.cur g ∧ DeclaredIn g t
  file : ∀ t ∈ i.file, t ∈ i.types
  imports : ∃ g, FileOf w i.cur g ∧ i.imports = g.imports
  nocycle : ¬ DependsOn w i.cur q

theorem Grown.generics {i i' : Input} (h : Grown w q f i i') (gts : List GType) (gps : List GParam) :
    Grown w q f { i with genericTypes := gts, genericParams := gps }
      { i' with genericTypes := gts, genericParams := gps } := by
  refine ⟨?_, h.off, h.on, h.types, h.file, h.imports, h.nocycle⟩
  rw [h.eq]

theorem Grown.sigEnv {i i' : Input} (h : Grown w q f i i') :
    i'.sigEnv (addFile w q f new) =
      { i.sigEnv w with print := { (i.sigEnv w).print with types := i'.types.map (·.name) } } := by
  rw [h.eq]
  rfl

theorem Grown.idents {i i' : Input} (h : Grown w q f i i') (hraw : ∀ ts, DeclaredIn f ts → w.raw (.ident ts.name) = ts.name) (n : Str) :
    printIdent (i.sigEnv w).print n =
      printIdent { (i.sigEnv w).print with types := i'.types.map (·.name) } n := by
  by_cases hc : i.cur = q
  · rw [(h.on hc).2, List.map_append]
    refine printIdent_bare (i.sigEnv w).print _ (h.on hc).1 ?_ n
    intro n hn
    obtain ⟨ts, hts, rfl⟩ := List.mem_map.1 hn
    exact hraw ts ((mem_typeSpecs _ _).1 hts)
  · rw [h.off hc]; rfl

theorem Grown.buildGeneric {i i' : Input} (h : Grown w q f i i') (ts : TypeSpec) :
    buildGenericTypesFromSpec ts (i.types.map (·.name)) i.pref =
      buildGenericTypesFromSpec ts (i'.types.map (·.name)) i'.pref := by
  have hp : i'.pref = i.pref := by rw [h.eq]
  rw [hp]
  by_cases hc : i.cur = q
  · rw [(h.on hc).1]; exact buildGenericTypes_bare _ _ _
  · rw [h.off hc]

/-- The elements of an interface of package `q` do not embed the types of `f`. -/
def Apart (q : PkgId) (f : File) (cur : PkgId) (e : Expr) : Prop :=
  cur = q → ∀ ts, DeclaredIn f ts → ¬ Embeds ts.name e

theorem Grown.findEmbedded {i i' : Input} (h : Grown w q f i i') {n : Str} (ha : Apart q f i.cur (.ident n))
    (b : Bool) : Gowrap.findEmbedded i'.types n b = Gowrap.findEmbedded i.types n b := by
  by_cases hc : i.cur = q
  · have : i'.types.find? (fun t => t.name = n) = i.types.find? (fun t => t.name = n) := by
      rw [(h.on hc).2, List.find?_append]
      have : (typeSpecs f).find? (fun t => t.name = n) = none := by
        rw [List.find?_eq_none]
        intro t ht he
        have he : t.name = n := by simpa using he
        exact ha hc t ((mem_typeSpecs _ _).1 ht) (he ▸ .ident)
      rw [this]
      simp
    unfold Gowrap.findEmbedded
    rw [this]
  · rw [h.off hc]

/-- What was found before is found after the file was added, at one recursion bound, reading maps in order. -/
structure KeptAt (w : World) (q : PkgId) (f : File) (new : List (Str × PkgId)) (s : Sched) (n : Nat) : Prop where
  target : ∀ path cur pref files files' name gps r, w.files cur = .ok files →
    (addFile w q f new).files cur = .ok files' → ¬ DependsOn w cur q → (cur = q → pref = []) →
    findTarget w s n path cur pref files name gps = .ok r →
    findTarget (addFile w q f new) s n path cur pref files' name gps = .ok r
  methods : ∀ path ts i i' r, Grown w q f i i' → ts ∈ i.types → findMethods w s n path ts i = .ok r →
    findMethods (addFile w q f new) s n path ts i' = .ok r
  get : ∀ path sel src r, (∀ p, w.load src = .ok p → p ≠ q ∧ ¬ DependsOn w p q) →
    getMethods w s n path sel src = .ok r → getMethods (addFile w q f new) s n path sel src = .ok r
  iface : ∀ path ms i i' r, Grown w q f i i' → (∀ fd ∈ ms, Apart q f i.cur fd.type) →
    processInterface w s n path ms i = .ok r → processInterface (addFile w q f new) s n path ms i' = .ok r
  fields : ∀ path ms i i' acc r, Grown w q f i i' → (∀ fd ∈ ms, Apart q f i.cur fd.type) →
    processFields w s n path ms i acc = .ok r → processFields (addFile w q f new) s n path ms i' acc = .ok r
  embedded : ∀ path e i i' b r, Grown w q f i i' → Apart q f i.cur e →
    processEmbedded w s n path e i b = .ok r → processEmbedded (addFile w q f new) s n path e i' b = .ok r
  args : ∀ path es i i' acc r, Grown w q f i i' → (∀ e ∈ es, Apart q f i.cur e) →
    processArgs w s n path es i acc = .ok r → processArgs (addFile w q f new) s n path es i' acc = .ok r
  getEmbedded : ∀ path e i i' b r, Grown w q f i i' → Apart q f i.cur e →
    getEmbeddedMethods w s n path e i b = .ok r → getEmbeddedMethods (addFile w q f new) s n path e i' b = .ok r
  selector : ∀ path x sel i i' r, Grown w q f i i' →
    processSelector w s n path x sel i = .ok r → processSelector (addFile w q f new) s n path x sel i' = .ok r
  ident : ∀ path name i i' b r, Grown w q f i i' → Apart q f i.cur (.ident name) →
    processIdent w s n path name i b = .ok r → processIdent (addFile w q f new) s n path name i' b = .ok r

theorem kept_zero (s : Sched) : KeptAt w q f new s 0 where
  target := by intros; simp_all [findTarget]
  methods := by intros; simp_all [findMethods]
  get := by intros; simp_all [getMethods]
  iface := by intros; simp_all [processInterface]
  fields := by intros; simp_all [processFields]
  embedded := by intros; simp_all [processEmbedded]
  args := by intros; simp_all [processArgs]
  getEmbedded := by intros; simp_all [getEmbeddedMethods]
  selector := by intros; simp_all [processSelector]
  ident := by intros; simp_all [processIdent]

theorem kept_succ {s : Sched} (hsf : ∀ path l, s.files path l = l) (hsi : ∀ path l, s.imports path l = l)
    (hraw : ∀ ts, DeclaredIn f ts → w.raw (.ident ts.name) = ts.name) (hu : UniqueTypes (addFile w q f new)) (hnew : ¬ FileOf w q f)
    (hfresh : Unembedded w q f)
    {n : Nat} (ih : KeptAt w q f new s n) : KeptAt w q f new s (n + 1) where
  target := by
    intro path cur pref files files' name gps r hf hf' hc hp h
    simp only [findTarget, hsf] at h ⊢
    split at h
    · cases h
    · next ts g hsel =>
      obtain ⟨h1, h2, h3⟩ := iterateFiles_some hsel
      have hty : ∀ t ∈ (iterateFiles name files).types, ∃ g, FileOf w cur g ∧ DeclaredIn g t := by
        intro t ht
        obtain ⟨g, hg, hd⟩ := (mem_types t).1 ht
        exact ⟨g, ⟨files, hf, hg⟩, hd⟩
      have hfile : ∀ t ∈ typeSpecs g, t ∈ (iterateFiles name files).types :=
        fun t ht => (mem_types t).2 ⟨g, h1, (mem_typeSpecs _ _).1 ht⟩
      by_cases hq : cur = q
      · subst hq
        have hfs : files' = files ++ [f] := by
          simp only [addFile, if_true, hf, Res.ok_bind] at hf'
          exact (Res.ok.inj hf').symm
        subst hfs
        have hne : ∀ t ∈ typeSpecs f, t.name ≠ name := by
          intro t ht he
          have e := hu cur g f ts t ⟨_, hf', List.mem_append_left _ h1⟩ ⟨_, hf', by simp⟩ h2
            ((mem_typeSpecs _ _).1 ht) (h3.trans he.symm)
          exact hnew ⟨files, hf, e.2 ▸ h1⟩
        have hit : iterateFiles name (files ++ [f]) =
            { selected := some (ts, g), types := (iterateFiles name files).types ++ typeSpecs f } := by
          have : iterateFiles name (files ++ [f]) = iterateSpecs name f (iterateFiles name files) (typeSpecs f) := by
            simp [iterateFiles, List.foldl_append]
          rw [this, iterateSpecs_other name f _ _ hne, hsel]
        rw [hit]
        simp only
        have hpe := hp rfl
        subst hpe
        rw [Res.bind_eq_ok] at h ⊢
        obtain ⟨gts, hg1, h⟩ := h
        refine ⟨gts, by rw [← hg1]; exact buildGenericTypes_bare _ _ _, ?_⟩
        rw [Res.bind_eq_ok] at h ⊢
        obtain ⟨ms, hg2, h⟩ := h
        refine ⟨ms, ih.methods _ _ _ _ _ ⟨rfl, fun hx => absurd rfl hx, fun _ => ⟨rfl, rfl⟩, hty, hfile,
          ⟨g, ⟨files, hf, h1⟩, rfl⟩, hc⟩ ((mem_types ts).2 ⟨g, h1, h2⟩) hg2, h⟩
      · rw [addFile_files_other hq, hf] at hf'
        have := Res.ok.inj hf'
        subst this
        rw [hsel]
        simp only
        rw [Res.bind_eq_ok] at h ⊢
        obtain ⟨gts, hg1, h⟩ := h
        refine ⟨gts, hg1, ?_⟩
        rw [Res.bind_eq_ok] at h ⊢
        obtain ⟨ms, hg2, h⟩ := h
        refine ⟨ms, ih.methods _ _ _ _ _ ⟨rfl, fun _ => rfl, fun hx => absurd hx hq, hty, hfile,
          ⟨g, ⟨files, hf, h1⟩, rfl⟩, hc⟩ ((mem_types ts).2 ⟨g, h1, h2⟩) hg2, h⟩
  methods := by
    intro path ts i i' r hi hts h
    have h1 : i'.imports = i.imports := by rw [hi.eq]
    have h2 : i'.file = i.file := by rw [hi.eq]
    simp only [findMethods, h1, h2] at h ⊢
    split at h
    · next ms hty =>
      refine ih.iface _ _ _ _ _ hi ?_ h
      intro fd hfd hc t ht
      obtain ⟨g, hg, hd⟩ := hi.types ts hts
      exact hfresh g ts ms fd t (hc ▸ hg) hd hty hfd ht
    · next x sel _ =>
      cases x with
      | ident a =>
        simp only at h ⊢
        refine ih.get _ _ _ _ ?_ h
        intro p hp
        obtain ⟨g, hg, him⟩ := hi.imports
        have hd : DependsOn w i.cur p := by
          rcases findSourcePackage_mem a i.imports with e | ⟨imp, hm, e⟩
          · exact .loadEmpty hg (e ▸ hp)
          · exact .load hg (him ▸ hm) (e ▸ hp)
        exact ⟨fun e => hi.nocycle (e ▸ hd), fun hx => hi.nocycle (.trans hd hx)⟩
      | _ => exact h
    · next n _ =>
      cases hfind : i.file.find? (fun t => t.name = n) with
      | some t =>
        simp only [hfind] at h ⊢
        exact ih.methods _ _ _ _ _ hi (hi.file _ (List.mem_of_find?_eq_some hfind)) h
      | none =>
        simp only [hfind] at h ⊢
        exact h
    · exact h
  get := by
    intro path sel src r hp h
    simp only [getMethods, Res.bind_eq_ok] at h ⊢
    obtain ⟨p, h1, files, h2, out, h3, h⟩ := h
    obtain ⟨hq, hc⟩ := hp p h1
    refine ⟨p, h1, files, by rw [addFile_files_other hq, h2], out, ?_, h⟩
    rw [addFile_name]
    exact ih.target _ _ _ _ _ _ _ _ h2 (by rw [addFile_files_other hq, h2]) hc (fun e => absurd e hq) h3
  iface := by
    intro path ms i i' r hi ha h
    simp only [processInterface] at h ⊢
    exact ih.fields _ _ _ _ _ _ hi ha h
  fields := by
    intro path ms i i' acc r hi ha h
    cases ms with
    | nil => simpa only [processFields] using h
    | cons fd rest =>
      have hrest : ∀ x ∈ rest, Apart q f i.cur x.type := fun x hx => ha x (List.mem_cons_of_mem _ hx)
      simp only [processFields] at h ⊢
      split at h
      · split at h
        · cases h
        · next name names _ =>
          rw [Res.bind_eq_ok] at h ⊢
          obtain ⟨m, h1, h⟩ := h
          refine ⟨m, ?_, ih.fields _ _ _ _ _ _ hi hrest h⟩
          rw [hi.sigEnv, ← h1]
          exact (newMethod_idents _ _ (hi.idents hraw) _ _).symm
      · rw [Res.bind_eq_ok] at h ⊢
        obtain ⟨x, h1, h⟩ := h
        exact ⟨x, ih.embedded _ _ _ _ _ _ hi (ha fd (List.mem_cons_self ..)) h1,
          ih.fields _ _ _ _ _ _ hi hrest h⟩
  embedded := by
    intro path e i i' b r hi ha h
    simp only [processEmbedded] at h ⊢
    split at h
    · rw [Res.bind_eq_ok] at h ⊢
      obtain ⟨gps, h1, h⟩ := h
      refine ⟨gps, ih.args _ _ _ _ _ _ hi ?_ h1, ?_⟩
      · intro e he hc ts hts hn
        rw [List.mem_singleton] at he
        subst he
        exact ha hc ts hts (.indexArg hn)
      · rw [Res.bind_eq_ok] at h ⊢
        obtain ⟨x, h2, h⟩ := h
        refine ⟨x, ih.getEmbedded _ _ { i with genericParams := gps } _ _ _ ?_ (fun hc ts hts hn => ha hc ts hts (.index hn)) h2, h⟩
        have := hi.generics i.genericTypes gps
        rw [hi.eq] at this ⊢
        exact this
    · rw [Res.bind_eq_ok] at h ⊢
      obtain ⟨gps, h1, h⟩ := h
      refine ⟨gps, ih.args _ _ _ _ _ _ hi ?_ h1, ?_⟩
      · intro e he hc ts hts hn
        exact ha hc ts hts (.indexListArg he hn)
      · rw [Res.bind_eq_ok] at h ⊢
        obtain ⟨x, h2, h⟩ := h
        refine ⟨x, ih.getEmbedded _ _ { i with genericParams := gps } _ _ _ ?_ (fun hc ts hts hn => ha hc ts hts (.indexList hn)) h2, h⟩
        have := hi.generics i.genericTypes gps
        rw [hi.eq] at this ⊢
        exact this
    · refine ih.getEmbedded _ _ { i with genericParams := [] } _ _ _ ?_ ha h
      have := hi.generics i.genericTypes []
      rw [hi.eq] at this ⊢
      exact this
  args := by
    intro path es i i' acc r hi ha h
    cases es with
    | nil => simpa only [processArgs] using h
    | cons e es =>
      simp only [processArgs, Res.bind_eq_ok] at h ⊢
      obtain ⟨x, h1, h⟩ := h
      exact ⟨x, ih.embedded _ _ _ _ _ _ hi (ha e (List.mem_cons_self ..)) h1,
        ih.args _ _ _ _ _ _ hi (fun y hy => ha y (List.mem_cons_of_mem _ hy)) h⟩
  getEmbedded := by
    intro path e i i' b r hi ha h
    simp only [getEmbeddedMethods] at h ⊢
    rw [Res.bind_eq_ok] at h ⊢
    obtain ⟨name, h1, h⟩ := h
    refine ⟨name, ?_, ?_⟩
    · rw [hi.sigEnv, ← h1]
      exact (printType_idents _ _ (hi.idents hraw) _).symm
    · split at h
      · rw [Res.bind_eq_ok] at h ⊢
        obtain ⟨x, h2, h⟩ := h
        exact ⟨x, ih.selector _ _ _ _ _ _ hi h2, h⟩
      · rw [Res.bind_eq_ok] at h ⊢
        obtain ⟨x, h2, h⟩ := h
        exact ⟨x, ih.ident _ _ _ _ _ _ hi ha h2, h⟩
      · exact h
  selector := by
    intro path x sel i i' r hi h
    have h1 : i'.imports = i.imports := by rw [hi.eq]
    have h2 : i'.cur = i.cur := by rw [hi.eq]
    have h3 : i'.genericParams = i.genericParams := by rw [hi.eq]
    simp only [processSelector, h1, h2, h3, hsi] at h ⊢
    split at h
    · rw [Res.bind_eq_ok] at h ⊢
      obtain ⟨ip, h4, h⟩ := h
      refine ⟨ip, findImport_add h4, ?_⟩
      split at h
      · cases h
      · next p hl =>
        obtain ⟨more, hm⟩ := addFile_imports (w := w) (q := q) (f := f) (new := new) i.cur
        have hl' : ((addFile w q f new).pkg i.cur).imports.lookup ip = some p := by
          rw [hm]; exact lookup_append hl
        simp only [hl']
        have hd : DependsOn w i.cur p := .imports (lookup_mem hl)
        have hq : p ≠ q := fun e => hi.nocycle (e ▸ hd)
        rw [Res.bind_eq_ok] at h ⊢
        obtain ⟨files, h5, h⟩ := h
        refine ⟨files, by rw [addFile_files_other hq, h5], ?_⟩
        rw [Res.bind_eq_ok] at h ⊢
        obtain ⟨out, h6, h⟩ := h
        refine ⟨out, ?_, h⟩
        rw [addFile_name]
        exact ih.target _ _ _ _ _ _ _ _ h5 (by rw [addFile_files_other hq, h5])
          (fun hx => hi.nocycle (.trans hd hx)) (fun e => absurd e hq) h6
    · cases h
  ident := by
    intro path name i i' b r hi ha h
    simp only [processIdent, hi.findEmbedded ha] at h ⊢
    rw [Res.bind_eq_ok] at h ⊢
    obtain ⟨fe, h1, h⟩ := h
    refine ⟨fe, h1, ?_⟩
    split at h
    · exact h
    · next t ms =>
      rw [Res.bind_eq_ok] at h ⊢
      obtain ⟨gts, h2, h⟩ := h
      refine ⟨gts, by rw [← h2]; exact (hi.buildGeneric t).symm, ?_⟩
      have hg := hi.generics gts i.genericParams
      refine ih.iface _ _ _ _ _ ?_ ?_ h
      · rw [hi.eq] at hg ⊢
        exact hg
      · intro fd hfd hc ts hts
        have hx : t ∈ i.types ∧ t.type = .ifaceT ms := by
          unfold Gowrap.findEmbedded at h1
          split at h1
          · cases h1
          · next t' hf =>
            split at h1
            · next ms' hty =>
              cases h1
              exact ⟨List.mem_of_find?_eq_some hf, hty⟩
            · split at h1 <;> cases h1
        obtain ⟨g, hgf, hgd⟩ := hi.types t hx.1
        exact hfresh g t ms fd ts (hc ▸ hgf) hgd hx.2 hfd hts

theorem kept {s : Sched} (hsf : ∀ path l, s.files path l = l) (hsi : ∀ path l, s.imports path l = l)
    (hraw : ∀ ts, DeclaredIn f ts → w.raw (.ident ts.name) = ts.name) (hu : UniqueTypes (addFile w q f new)) (hnew : ¬ FileOf w q f)
    (hfresh : Unembedded w q f) :
    ∀ n, KeptAt w q f new s n
  | 0 => kept_zero s
  | n + 1 => kept_succ hsf hsi hraw hu hnew hfresh (kept hsf hsi hraw hu hnew hfresh n)

end

end Gowrap

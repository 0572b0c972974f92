import Verif.Props.Package
import Verif.Props.Imports
/-!
# The exact boundaries of claims about what is read (C26, C30, C73, C74)

As in `Props/Exact`: the partial theorems say where the claims hold, here is shown what happens elsewhere.
-/

namespace Gowrap.Props

open Gowrap Spec

/-! ## C26 -/

theorem checkExported_fails {w : World} {sel : Str} {ms : Methods} (hsel : sel ≠ [])
    (hn : ∀ k m, (k, m) ∈ ms → m.name ≠ []) (h : ∃ k m, (k, m) ∈ ms ∧ w.uni.looksUnexported m.name = some true) :
    ∃ k m, (k, m) ∈ ms ∧ w.uni.looksUnexported m.name = some true ∧ checkExported w sel ms = .err (.unexportedMethod m.name) := by
  induction ms with
  | nil => simp at h
  | cons x ms ih =>
    obtain ⟨k, m⟩ := x
    unfold checkExported
    rw [if_pos hsel]
    cases hu : w.uni.looksUnexported m.name with
    | none =>
      have := hn k m (by simp)
      cases hm : m.name with
      | nil => exact absurd hm this
      | cons c r => rw [hm] at hu; cases hu
    | some b =>
      cases b with
      | true => exact ⟨k, m, by simp, hu, rfl⟩
      | false =>
        obtain ⟨k', m', h1, h2⟩ := h
        have hmem : (k', m') ∈ ms := by
          rcases List.mem_cons.1 h1 with e | e
          · cases e; rw [hu] at h2; cases h2
          · exact e
        obtain ⟨k2, m2, h3, h4, h5⟩ := ih (fun k m hm => hn k m (by simp [hm])) ⟨k', m', hmem, h2⟩
        exact ⟨k2, m2, by simp [h3], h4, h5⟩

/-- **C26** In another package, the methods found are accepted exactly if lower-casing changes the first letter of every one of them; otherwise
one of those with an unchanged letter is reported.  So of the letters that are not upper case exactly those that have a lower case slip
through. -/
theorem C26_exact {w : World} {s : Sched} (hs : s.Fair) {fuel : Nat} {o : Options} {src : PkgId} {dn dp : Str}
    {files : List File} {out : Output} {ms : Methods} (h1 : loadSource w o = .ok src)
    (h2 : loadDestinationPackage w (dstPackagePath w o.outputFile) = .ok (dn, dp)) (h3 : w.files src = .ok files)
    (hdst : (w.pkg src).path ≠ dp)
    (h4 : findTarget w s fuel [] src (sourceSelector w o src dp) files o.interfaceName [] = .ok out)
    (h5 : out.methods = some ms) (hne : ms ≠ []) (hn : ∀ k m, (k, m) ∈ ms → m.name ≠ []) :
    ((∃ g, newGenerator w s fuel o = .ok g ∧ g.methods = ms) ↔
      ∀ k m c r, (k, m) ∈ ms → m.name = c :: r → w.uni.toLower c ≠ c) ∧
    ((∃ k m c r, (k, m) ∈ ms ∧ m.name = c :: r ∧ w.uni.toLower c = c) →
      ∃ k m c r, (k, m) ∈ ms ∧ m.name = c :: r ∧ w.uni.toLower c = c ∧
        newGenerator w s fuel o = .err (.unexportedMethod m.name)) := by
  have hsel : sourceSelector w o src dp ≠ [] := by
    rcases sourceSelector_spec w o src dp with ⟨h, _⟩ | ⟨_, h1, h2⟩ | ⟨_, _, h2⟩
    · exact absurd h hdst
    · rw [h2]; exact h1
    · rw [h2]; simp
  have hgen : newGenerator w s fuel o = (do
      checkExported w (sourceSelector w o src dp) (s.methods [] ms)
      let (genericTypes, genericParams) := buildVars out.genericTypes
      return { imports := (interfaceTypeOf w o src dp).2 ++ makeImports out.imports, srcPackage := src, dstName := dn,
               dstPath := dp, interfaceType := (interfaceTypeOf w o src dp).1, genericTypes := genericTypes,
               genericParams := genericParams, methods := ms }) := by
    simp only [newGenerator, h1, h2, h3, Res.ok_bind, h4, h5, Option.getD_some, if_neg hne]
  have hfail : (∃ k m c r, (k, m) ∈ ms ∧ m.name = c :: r ∧ w.uni.toLower c = c) →
      ∃ k m c r, (k, m) ∈ ms ∧ m.name = c :: r ∧ w.uni.toLower c = c ∧
        newGenerator w s fuel o = .err (.unexportedMethod m.name) := by
    rintro ⟨k, m, c, r, hm, hmn, hc⟩
    obtain ⟨k', m', g1, g2, g3⟩ := checkExported_fails (w := w) (ms := s.methods [] ms) hsel
      (fun k m hk => hn k m ((hs.methods _ _).mem_iff.1 hk))
      ⟨k, m, (hs.methods _ _).mem_iff.2 hm, by rw [hmn]; simp [Uni.looksUnexported, hc]⟩
    have hk' := (hs.methods _ _).mem_iff.1 g1
    cases hm' : m'.name with
    | nil => exact absurd hm' (hn k' m' hk')
    | cons c' r' =>
      rw [hm'] at g2
      refine ⟨k', m', c', r', hk', hm', ?_, ?_⟩
      · simp only [Uni.looksUnexported, Option.some.injEq, beq_iff_eq] at g2
        exact g2.symm
      · rw [hgen, g3]; rfl
  refine ⟨⟨?_, ?_⟩, hfail⟩
  · rintro ⟨g, hg, _⟩ k m c r hm hmn hc
    obtain ⟨_, _, _, _, _, _, _, he⟩ := hfail ⟨k, m, c, r, hm, hmn, hc⟩
    rw [he] at hg
    cases hg
  · intro hall
    have hc : checkExported w (sourceSelector w o src dp) (s.methods [] ms) = .ok () := by
      rw [checkExported_ok]
      intro _ k m hk
      have hk := (hs.methods _ _).mem_iff.1 hk
      cases hm : m.name with
      | nil => exact absurd hm (hn k m hk)
      | cons c r =>
        have := hall k m c r hk hm
        simp only [Uni.looksUnexported, Option.some.injEq, beq_eq_false_iff_ne, ne_eq]
        exact fun h => this h.symm
    rw [hgen, hc]
    exact ⟨_, rfl, rfl⟩

/-- Both sides occur: `Get` is accepted in another package, `get` is reported. -/
example : found (newGenerator (Demo.solo [Demo.iface g!"Svc" [Demo.meth g!"Get" Demo.string_]]) Demo.inOrder 20
      { interfaceName := g!"Svc", sourcePackage := g!"ex/app", outputFile := g!"./dst/x.go" }) = some [g!"Get"] ∧
    newGenerator (Demo.solo [Demo.iface g!"Svc" [Demo.meth g!"Get" Demo.string_, Demo.meth g!"get" Demo.string_]]) Demo.inOrder 20
      { interfaceName := g!"Svc", sourcePackage := g!"ex/app", outputFile := g!"./dst/x.go" } =
      .err (.unexportedMethod g!"get") := ⟨by decide +kernel, by rfl⟩

/-! ## C30 -/

theorem trimSpace_nil {s : Str} : trimSpace s = [] ↔ ∀ c ∈ s, c ∈ blanks := by
  constructor
  · intro h
    obtain ⟨⟨l, r, e, h1, h2⟩, _⟩ := trimSpace_trims s
    rw [h] at e
    intro c hc
    rw [e] at hc
    simp only [List.append_nil, List.mem_append] at hc
    rcases hc with hc | hc
    · exact h1 c hc
    · exact h2 c hc
  · intro h
    exact trims_unique ⟨⟨s, [], by simp, h, by simp⟩, by simp, by simp⟩

/-- **C30** An argument of `Import` panics exactly if it is blank; otherwise it is trimmed, and a quote is put wherever it does not begin or end
with one. -/
theorem C30_exact (s : Str) :
    (quoteImport s = .panic ↔ ∀ c ∈ s, c ∈ blanks) ∧
    ∀ t c z, Trims s t → t.head? = some c → t.getLast? = some z →
      quoteImport s = .ok ((if c = '"' then [] else g!"\"") ++ t ++ (if z = '"' then [] else g!"\"")) := by
  have key : ∀ t c z, trimSpace s = t → t.head? = some c → t.getLast? = some z →
      quoteImport s = .ok ((if c = '"' then [] else g!"\"") ++ t ++ (if z = '"' then [] else g!"\"")) := by
    intro t c z ht hc hz
    unfold quoteImport
    rw [ht]
    simp only [hz]
    obtain ⟨t', rfl⟩ : ∃ t', t = c :: t' := by
      cases t with
      | nil => simp at hc
      | cons a t' => simp at hc; exact ⟨t', by rw [hc]⟩
    by_cases h1 : z = '"' <;> by_cases h2 : c = '"' <;> simp [h1, h2]
  constructor
  · rw [← trimSpace_nil]
    constructor
    · intro h
      cases ht : trimSpace s with
      | nil => rfl
      | cons c t' =>
        obtain ⟨z, hz⟩ : ∃ z, (c :: t').getLast? = some z := ⟨_, List.getLast?_eq_some_getLast (by simp)⟩
        rw [key _ c z ht rfl hz] at h
        cases h
    · intro h
      unfold quoteImport
      rw [h]
      rfl
  · intro t c z h
    exact key t c z (trims_unique h)

theorem addTemplateImports_panic (imports : List Str) : ∀ set, addTemplateImports set imports = .panic ↔
    ∃ i ∈ imports, i ≠ [] ∧ ∀ c ∈ i, c ∈ blanks := by
  induction imports with
  | nil => intro set; simp [addTemplateImports]
  | cons i rest ih =>
    intro set
    unfold addTemplateImports
    by_cases hi : i = []
    · subst hi; simp [ih]
    · rw [if_neg (by simpa using hi)]
      by_cases hb : ∀ c ∈ i, c ∈ blanks
      · rw [(C30_exact i).1.2 hb]
        exact iff_of_true rfl ⟨i, by simp, hi, hb⟩
      · have ht : trimSpace i ≠ [] := fun h => hb (trimSpace_nil.1 h)
        obtain ⟨c, t', ht'⟩ := List.exists_cons_of_ne_nil ht
        obtain ⟨z, hz⟩ : ∃ z, (trimSpace i).getLast? = some z := ⟨_, List.getLast?_eq_some_getLast ht⟩
        rw [(C30_exact i).2 _ c z (trimSpace_trims i) (by rw [ht']; rfl) hz, Res.ok_bind, ih]
        constructor
        · rintro ⟨j, hj, h⟩; exact ⟨j, by simp [hj], h⟩
        · rintro ⟨j, hj, h⟩
          rcases List.mem_cons.1 hj with rfl | hj
          · exact absurd h.2 hb
          · exact ⟨j, hj, h⟩

/-- **C30** `Import` panics exactly if one of the arguments consists of blanks only and is not empty. -/
theorem C30_panics_exact (order : List Str → List Str) (source imports : List Str) :
    importBlock order source imports = .panic ↔ ∃ i ∈ imports, i ≠ [] ∧ ∀ c ∈ i, c ∈ blanks := by
  rw [← addTemplateImports_panic imports (source.foldl (fun set i => insertKey (trimSpace i) set) [])]
  unfold importBlock allImports
  cases addTemplateImports (source.foldl (fun set i => insertKey (trimSpace i) set) []) imports <;> simp [Bind.bind, Res.bind, Pure.pure]

/-- **C30** An import with an alias never survives: it gets a third quote in front. -/
theorem C30_alias_exact (n p s : Str) (hn : CleanPath n) (h : Padded (n ++ g!" \"" ++ p ++ g!"\"") s) :
    quoteImport s = .ok (g!"\"" ++ n ++ g!" \"" ++ p ++ g!"\"") := by
  obtain ⟨hne, hh, _⟩ := hn
  obtain ⟨c, n', rfl⟩ := List.exists_cons_of_ne_nil hne
  have hc := hh c (by simp)
  have hz : ((c :: n') ++ g!" \"" ++ p ++ g!"\"").getLast? = some '"' := List.getLast?_concat
  have := (C30_exact s).2 _ c '"' ⟨h, by intro d hd; simp at hd; subst hd; exact hc.1,
    by rw [hz]; intro d hd; simp at hd; subst hd; decide⟩ (by simp) hz
  rw [this, if_neg hc.2]
  simp

example : CleanPath g!"foo" ∧ Padded (g!"foo" ++ g!" \"" ++ g!"bar" ++ g!"\"") g!"foo \"bar\"" ∧
    quoteImport g!"foo \"bar\"" = .ok g!"\"foo \"bar\"" ∧ quoteImport g!" \t" = .panic ∧
    quoteImport g!"\"net" = .ok g!"\"net\"" := by
  refine ⟨⟨by decide, by decide, by decide⟩, ⟨[], [], by decide, by decide, by decide⟩, by decide, by decide, by decide⟩

/-! ## C73 -/

/-- The entry is a Go file that belongs to the package `name`. -/
def BelongsTo (name : Str) (e : Entry) : Prop :=
  e.isDir = false ∧ (∃ base, e.name = base ++ g!".go") ∧ ∃ f, e.src = some (name, f)

theorem filesNamed_longer {name : Str} {es : List Entry} {sel : Entry → Bool}
    (hsrc : ∀ e ∈ es, sel e = true → BelongsTo name e) :
    (compiled es sel).length ≤ (filesNamed name es).length ∧
      ((∃ e ∈ es, sel e = false ∧ BelongsTo name e) → (compiled es sel).length < (filesNamed name es).length) := by
  induction es with
  | nil => simp [compiled, filesNamed]
  | cons x rest ih =>
    have ih := ih (fun e he => hsrc e (List.mem_cons_of_mem _ he))
    cases hs : sel x with
    | true =>
      obtain ⟨h1, h2, f, h3⟩ := hsrc x (by simp) hs
      have hg := (isGo_iff x).2 ⟨h1, h2⟩
      have e1 : compiled (x :: rest) sel = f :: compiled rest sel := by simp [compiled, hs, h3]
      have e2 : filesNamed name (x :: rest) = f :: filesNamed name rest := by simp [filesNamed, hg, h3]
      rw [e1, e2]
      simp only [List.length_cons]
      refine ⟨by omega, ?_⟩
      rintro ⟨e, he, hse, hb⟩
      rcases List.mem_cons.1 he with rfl | he
      · rw [hs] at hse; cases hse
      · have := ih.2 ⟨e, he, hse, hb⟩; omega
    | false =>
      have e1 : compiled (x :: rest) sel = compiled rest sel := by simp [compiled, hs]
      rw [e1]
      have hle : (filesNamed name rest).length ≤ (filesNamed name (x :: rest)).length := by
        simp only [filesNamed, List.filterMap_cons]
        split <;> simp
      refine ⟨by omega, ?_⟩
      rintro ⟨e, he, hse, hb⟩
      rcases List.mem_cons.1 he with rfl | he
      · obtain ⟨h1, h2, f, h3⟩ := hb
        have hg := (isGo_iff e).2 ⟨h1, h2⟩
        have e2 : filesNamed name (e :: rest) = f :: filesNamed name rest := by simp [filesNamed, hg, h3]
        rw [e2, List.length_cons]
        omega
      · have := ih.2 ⟨e, he, hse, hb⟩; omega

/-- **C73** The declarations that are read are those of the files of the package exactly if all other Go files of the directory parse and belong
to other packages; reading fails exactly if some Go file of the directory does not parse. -/
theorem C73_exact {t : Tools} {p : PkgId} {d : Str} {es : List Entry} {sel : Entry → Bool} (h : IsPackage t p d es sel) :
    (t.files p = .ok (compiled es sel) ↔ OthersForeign (t.pkg p).name es sel) ∧
    ((∀ fs, t.files p ≠ .ok fs) ↔ ∃ e ∈ es, e.isDir = false ∧ (∃ base, e.name = base ++ g!".go") ∧ e.src = none) := by
  have hread : t.readDir (t.dir p) = some es := by rw [dir_of_package h]; exact h.read
  have e := files_eq hread
  have hbad : es.any (fun e => e.isGo && e.src.isNone) = true ↔
      ∃ e ∈ es, e.isDir = false ∧ (∃ base, e.name = base ++ g!".go") ∧ e.src = none := by
    simp only [List.any_eq_true, Bool.and_eq_true, isGo_iff, Option.isNone_iff_eq_none, and_assoc]
  constructor
  · refine ⟨fun hf => ?_, (C73_files_partial h).2⟩
    rw [e] at hf
    split at hf
    · cases hf
    · rename_i hok
      have hf := Res.ok.inj hf
      intro x hx hsx
      by_cases h1 : x.isDir = true
      · exact .inl h1
      · by_cases h2 : ∃ base, x.name = base ++ g!".go"
        · right; right
          have h1 : x.isDir = false := by simpa using h1
          cases hs : x.src with
          | none => exact absurd (hbad.2 ⟨x, hx, h1, h2, hs⟩) hok
          | some nf =>
            obtain ⟨n, f⟩ := nf
            refine ⟨n, f, rfl, fun hn => ?_⟩
            subst hn
            have := (filesNamed_longer h.source).2 ⟨x, hx, hsx, h1, h2, f, hs⟩
            rw [hf] at this
            omega
        · exact .inr (.inl h2)
  · rw [← hbad, e]
    split
    · rename_i hb
      exact iff_of_true (fun fs => nofun) hb
    · rename_i hb
      exact iff_of_false (fun hc => hc _ rfl) hb

/-- Both sides of the first equivalence hold for the package `tidy` and fail for the package with files for two platforms; in the package `broken`
there is a file that does not parse. -/
example : (∃ fs, (PackageDemo.tools PackageDemo.tidy PackageDemo.tidySel).files 0 = .ok fs) ∧
    ¬ OthersForeign ((PackageDemo.tools PackageDemo.platforms PackageDemo.linux).pkg 0).name PackageDemo.platforms PackageDemo.linux ∧
    ∀ fs, (PackageDemo.tools PackageDemo.broken PackageDemo.unbroken).files 0 ≠ .ok fs :=
  ⟨⟨_, (C73_exact (PackageDemo.tidy_package 0)).1.2 PackageDemo.tidy_foreign⟩,
    fun h => by
      rcases h _ (List.mem_cons_of_mem _ (List.mem_singleton.2 rfl)) rfl with h | h | ⟨other, f, h, hn⟩
      · cases h
      · exact h ⟨g!"store_windows", rfl⟩
      · exact hn (congrArg Prod.fst (Option.some.inj h)).symm,
    (C73_exact (PackageDemo.broken_package 0)).2.2 ⟨_, List.mem_cons_of_mem _ (List.mem_singleton.2 rfl), rfl, ⟨g!"old_plan9", rfl⟩, rfl⟩⟩

/-! ## C74 -/

/-- **C74** `Load` succeeds exactly if the first of the matching packages has no errors, and returns that one. -/
theorem C74_exact (t : Tools) (path : Str) (p : PkgId) :
    t.load path = .ok p ↔ ∃ rest, t.packages path = .ok (p :: rest) ∧ t.errors p = [] := by
  unfold Tools.load
  rcases hp : t.packages path with e | ps
  · simp
  · rcases ps with _ | ⟨q, qs⟩
    · simp
    · simp only [Except.ok.injEq, List.cons.injEq]
      rcases he : t.errors q with _ | ⟨e, es⟩
      · constructor
        · intro h
          cases Res.ok.inj h
          exact ⟨qs, ⟨rfl, rfl⟩, he⟩
        · rintro ⟨_, ⟨rfl, _⟩, _⟩
          rfl
      · constructor
        · nofun
        · rintro ⟨_, ⟨rfl, _⟩, h⟩
          rw [he] at h
          cases h

example : ∃ t : Tools, t.load g!"./..." = .ok 0 ∧ t.packages g!"./..." = .ok [0, 1] :=
  ⟨{ PackageDemo.tools PackageDemo.tidy PackageDemo.tidySel with packages := fun _ => .ok [0, 1] }, rfl, rfl⟩

end Gowrap.Props

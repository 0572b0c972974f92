import Verif.Spec.Package
import Verif.Props.Discovery
/-!
# C73, C74: which package and which files are read
-/

namespace Gowrap.Props

open Gowrap Gowrap.Spec

/-! ## parser.ParseDir -/

theorem lookup_addFile (name n : Str) (f : File) (pkgs : List (Str × List File)) :
    ((addFile n f pkgs).lookup name).getD [] =
      (pkgs.lookup name).getD [] ++ (if n = name then [f] else []) := by
  induction pkgs with
  | nil =>
    by_cases h : n = name
    · simp [addFile, List.lookup, h]
    · have : (name == n) = false := by simpa using fun e => h e.symm
      simp [addFile, List.lookup, this, h]
  | cons x rest ih =>
    obtain ⟨k, fs⟩ := x
    by_cases hk : k = n
    · subst hk
      by_cases h : k = name
      · subst h; simp [addFile, List.lookup]
      · have : (name == k) = false := by simpa using fun e => h e.symm
        simp [addFile, List.lookup, this, h]
    · by_cases h : k = name
      · subst h
        have : ¬ n = k := fun e => hk e.symm
        simp [addFile, List.lookup, hk, this]
      · have h' : (name == k) = false := by simpa using fun e => h e.symm
        simp [addFile, hk, List.lookup, h', ih]

/-- The files of a package that `ParseDir` finds. -/
def filesNamed (name : Str) (es : List Entry) : List File :=
  es.filterMap fun e =>
    if e.isGo then match e.src with
      | some (n, f) => if n = name then some f else none
      | none => none
    else none

theorem parseEntries_lookup (name : Str) (es : List Entry) (pkgs : List (Str × List File)) (b : Bool) :
    ((parseEntries es pkgs b).1.lookup name).getD [] = (pkgs.lookup name).getD [] ++ filesNamed name es := by
  induction es generalizing pkgs b with
  | nil => simp [parseEntries, filesNamed]
  | cons e rest ih =>
    unfold parseEntries
    by_cases hg : e.isGo
    · rw [if_pos hg]
      rcases hs : e.src with _ | ⟨n, f⟩
      · simp [ih, filesNamed, hg, hs]
      · simp only [ih, lookup_addFile, filesNamed, List.filterMap_cons, hg, hs, if_true]
        by_cases hn : n = name <;> simp [hn]
    · rw [if_neg hg, ih]
      simp [filesNamed, hg]

theorem parseEntries_failed (es : List Entry) (pkgs : List (Str × List File)) (b : Bool) :
    (parseEntries es pkgs b).2 = true ↔ b = true ∨ ∃ e ∈ es, e.isGo = true ∧ e.src = none := by
  induction es generalizing pkgs b with
  | nil => simp [parseEntries]
  | cons e rest ih =>
    unfold parseEntries
    by_cases hg : e.isGo
    · rw [if_pos hg]
      rcases hs : e.src with _ | ⟨n, f⟩ <;> simp [ih, hg, hs]
    · rw [if_neg hg]
      simp [ih, hg]

/-- `AST` gives all Go files of the directory with the name of the package, selected or not, and fails if any Go
file of the directory does not parse. -/
theorem files_eq {t : Tools} {p : PkgId} {es : List Entry} (h : t.readDir (t.dir p) = some es) :
    t.files p = if es.any (fun e => e.isGo && e.src.isNone) then .err (.parseFailed (t.pkg p).path)
      else .ok (filesNamed (t.pkg p).name es) := by
  unfold Tools.files Tools.parseDir
  rw [h]
  simp only
  have hf := parseEntries_failed es [] false
  have hl := parseEntries_lookup (t.pkg p).name es [] false
  rcases hp : parseEntries es [] false with ⟨pkgs, b⟩
  rw [hp] at hf hl
  have hany : es.any (fun e => e.isGo && e.src.isNone) = b := by
    rw [Bool.eq_iff_iff, hf]
    simp [List.any_eq_true, Option.isNone_iff_eq_none]
  rw [hany]
  cases b with
  | true => rfl
  | false =>
    simp only [List.lookup, Option.getD_none, List.nil_append] at hl
    simp only [Bool.false_eq_true, if_false]
    rw [← hl]
    cases pkgs.lookup (t.pkg p).name <;> rfl

theorem isGo_iff (e : Entry) : e.isGo = true ↔ e.isDir = false ∧ ∃ base, e.name = base ++ g!".go" := by
  unfold Entry.isGo
  simp only [Bool.and_eq_true, Bool.not_eq_true', List.isSuffixOf_iff_suffix]
  exact and_congr_right fun _ => ⟨fun ⟨b, h⟩ => ⟨b, h.symm⟩, fun ⟨b, h⟩ => ⟨b, h.symm⟩⟩

theorem dir_of_package {t : Tools} {p : PkgId} {d : Str} {es : List Entry} {sel : Entry → Bool}
    (h : IsPackage t p d es sel) : t.dir p = d := by
  unfold Tools.dir
  have hn := h.nonempty
  have hd := h.dir
  cases hg : t.goFiles p with
  | nil => exact absurd hg hn
  | cons f fs => exact hd f (by simp [hg])

/-! ## C73: the declarations come from the files of the package -/

/-- The full claim: of a package that the go command found, exactly the files that it selected are read. -/
def C73_full : Prop :=
  ∀ (t : Tools) (p : PkgId) (d : Str) (es : List Entry) (sel : Entry → Bool), IsPackage t p d es sel →
    t.files p = .ok (compiled es sel)

/-- **C73** (partial).  No selected file is left out: if `AST` succeeds, the declarations of the selected files
are among those it returns, in the same order.  If all other Go files of the directory parse and belong to other
packages it succeeds and returns the selected files exactly.  Missing for the full claim: directories with
further files of the package, for tests or other platforms, or with files that do not parse. -/
theorem C73_files_partial {t : Tools} {p : PkgId} {d : Str} {es : List Entry} {sel : Entry → Bool}
    (h : IsPackage t p d es sel) :
    (∀ fs, t.files p = .ok fs → (compiled es sel).Sublist fs) ∧
      (OthersForeign (t.pkg p).name es sel → t.files p = .ok (compiled es sel)) := by
  have hread : t.readDir (t.dir p) = some es := by rw [dir_of_package h]; exact h.read
  have hsrc := h.source
  have e := files_eq hread
  constructor
  · intro fs hfs
    rw [e] at hfs
    split at hfs
    · cases hfs
    · cases Res.ok.inj hfs
      clear hfs e hread h
      induction es with
      | nil => simp [compiled, filesNamed]
      | cons x rest ih =>
        have ih := ih (fun e he => hsrc e (List.mem_cons_of_mem _ he))
          (by next hany => intro hc; exact hany (by rw [List.any_cons, hc, Bool.or_true]))
        cases hs : sel x with
        | true =>
          obtain ⟨h1, h2, f, h3⟩ := hsrc x (by simp) hs
          have hg := (isGo_iff x).2 ⟨h1, h2⟩
          simp only [compiled, filesNamed, List.filter_cons, hs, if_true, List.filterMap_cons, h3, hg,
            Option.map_some]
          exact ih.cons₂ _
        | false =>
          simp only [compiled, filesNamed, List.filter_cons, hs, Bool.false_eq_true, if_false,
            List.filterMap_cons]
          split
          · exact ih
          · exact ih.cons _
  · intro ho
    rw [e]
    have hany : es.any (fun e => e.isGo && e.src.isNone) = false := by
      rw [List.any_eq_false]
      intro x hx hc
      simp only [Bool.and_eq_true] at hc
      have hg := (isGo_iff x).1 hc.1
      cases hs : sel x with
      | true =>
        obtain ⟨_, _, f, h3⟩ := hsrc x hx hs
        simp [h3] at hc
      | false =>
        rcases ho x hx hs with h1 | h1 | ⟨q, f, h1, _⟩
        · rw [hg.1] at h1; cases h1
        · exact h1 hg.2
        · simp [h1] at hc
    rw [hany]
    simp only [Bool.false_eq_true, if_false]
    congr 1
    clear e hany hread h
    induction es with
    | nil => simp [compiled, filesNamed]
    | cons x rest ih =>
      have ih := ih (fun e he => hsrc e (List.mem_cons_of_mem _ he)) (fun e he => ho e (List.mem_cons_of_mem _ he))
      simp only [compiled, filesNamed] at ih
      cases hs : sel x with
      | true =>
        obtain ⟨h1, h2, f, h3⟩ := hsrc x (by simp) hs
        have hg := (isGo_iff x).2 ⟨h1, h2⟩
        simp only [compiled, filesNamed, List.filter_cons, hs, if_true, List.filterMap_cons, h3, hg,
          Option.map_some, ih]
      | false =>
        simp only [compiled, filesNamed, List.filter_cons, hs, Bool.false_eq_true, if_false,
          List.filterMap_cons]
        rcases ho x (by simp) hs with h1 | h1 | ⟨q, f, h1, h2⟩
        · have hg : x.isGo = false := by simp [Entry.isGo, h1]
          simp only [hg, Bool.false_eq_true, if_false, ih]
        · have hg : x.isGo = false := by
            rw [Bool.eq_false_iff]
            exact fun hc => h1 ((isGo_iff x).1 hc).2
          simp only [hg, Bool.false_eq_true, if_false, ih]
        · simp only [h1, h2, if_false, ite_self, ih]

/-- **C73** (partial).  If that is so for every package with Go files, generation gives what it gives on the files
that are compiled. -/
theorem C73_generator_partial {t : Tools} (b : Build)
    (hp : ∀ p, t.goFiles p ≠ [] → IsPackage t p (b.dir p) (b.entries p) (b.sel p) ∧
      OthersForeign (t.pkg p).name (b.entries p) (b.sel p)) (s : Sched) (fuel : Nat) (o : Options) :
    newGenerator t.world s fuel o = newGenerator (b.world t) s fuel o := by
  have : b.world t = t.world := by
    unfold Build.world
    have hf : (fun p => if t.goFiles p = [] then t.files p else Res.ok (compiled (b.entries p) (b.sel p))) =
        t.world.files := by
      funext p
      by_cases hg : t.goFiles p = []
      · rw [if_pos hg]; rfl
      · rw [if_neg hg]
        exact ((C73_files_partial (hp p hg).1).2 (hp p hg).2).symm
    rw [hf]
  rw [this]

namespace PackageDemo

/-- One package, `ex/app` in `/src/app`, with the given directory entries of which `sel` are selected. -/
def tools (es : List Entry) (sel : Entry → Bool) : Tools where
  uni := Uni.ascii
  raw := Demo.raw
  title s := s
  packages path := if path = g!"ex/app" ∨ path = g!"/src/app" then .ok [0] else .ok []
  pkg _ := ⟨g!"app", g!"ex/app", []⟩
  errors _ := []
  goFiles _ := (es.filter sel).map fun e => inDir g!"/src/app" e.name
  otherFiles _ := []
  readDir d := if d = g!"/src/app" then some es else none

/-- `type Store interface { m() error }` -/
def store (m : Str) : File := Demo.file [] [Demo.iface g!"Store" [Demo.meth m Demo.error_]]

def options : Options :=
  { interfaceName := g!"Store", sourcePackage := g!"ex/app", outputFile := g!"/src/app/x.go" }

/-- A package, an external test, a main program that is ignored, a directory and a README. -/
def tidy : List Entry :=
  [{ name := g!"README.md" }, { name := g!"gen.go", src := some (g!"main", store g!"X") },
   { name := g!"store.go", src := some (g!"app", store g!"Get") },
   { name := g!"store_test.go", src := some (g!"app_test", store g!"Y") },
   { name := g!"sub", isDir := true }, { name := g!"util.go", src := some (g!"app", ⟨[], []⟩) }]

def tidySel (e : Entry) : Bool := e.name == g!"store.go" || e.name == g!"util.go"

/-- `Store` is declared for two platforms; the second file is not selected on the first. -/
def platforms : List Entry :=
  [{ name := g!"store_linux.go", src := some (g!"app", store g!"Get") },
   { name := g!"store_windows.go", src := some (g!"app", store g!"Open") }]

def linux (e : Entry) : Bool := e.name == g!"store_linux.go"

/-- `Store` is declared in a test only. -/
def tested : List Entry :=
  [{ name := g!"app.go", src := some (g!"app", ⟨[], []⟩) },
   { name := g!"app_test.go", src := some (g!"app", store g!"Get") }]

def nonTest (e : Entry) : Bool := e.name == g!"app.go"

/-- A file for another platform does not parse. -/
def broken : List Entry :=
  [{ name := g!"store.go", src := some (g!"app", store g!"Get") }, { name := g!"old_plan9.go" }]

def unbroken (e : Entry) : Bool := e.name == g!"store.go"

/-- Checks `IsPackage` for the directories above. -/
theorem isPackage {es : List Entry} {sel : Entry → Bool} {p : PkgId} (hne : (es.filter sel) ≠ [])
    (hdir : ∀ e ∈ es, sel e = true → dirPath (inDir g!"/src/app" e.name) = g!"/src/app")
    (hsrc : (es.filter sel).all (fun e => !e.isDir && g!".go".isSuffixOf e.name &&
      e.src.map Prod.fst == some g!"app") = true) :
    IsPackage (tools es sel) p g!"/src/app" es sel where
  read := by simp [tools]
  files := rfl
  nonempty := by simpa [tools] using hne
  dir := by
    intro f hf
    simp only [tools, List.mem_map, List.mem_filter] at hf
    obtain ⟨e, ⟨h1, h2⟩, rfl⟩ := hf
    exact hdir e h1 h2
  source := by
    intro e he hs
    have := List.all_eq_true.1 hsrc e (List.mem_filter.2 ⟨he, hs⟩)
    simp only [Bool.and_eq_true, Bool.not_eq_true', beq_iff_eq] at this
    obtain ⟨⟨h1, h2⟩, h3⟩ := this
    obtain ⟨b, hb⟩ := List.isSuffixOf_iff_suffix.1 h2
    refine ⟨h1, ⟨b, hb.symm⟩, ?_⟩
    rcases hx : e.src with _ | ⟨n, f⟩
    · rw [hx] at h3; cases h3
    · rw [hx] at h3
      simp only [Option.map_some, Option.some.injEq] at h3
      exact ⟨f, by rw [h3]; simp [tools]⟩

theorem tidy_package (p : PkgId) : IsPackage (tools tidy tidySel) p g!"/src/app" tidy tidySel :=
  isPackage (by simp [tidy, tidySel]) (by simp only [tidy, List.forall_mem_cons]; decide)
    (by decide +kernel)

theorem tidy_foreign : OthersForeign g!"app" tidy tidySel := by
  intro e he hs
  simp only [tidy, List.mem_cons, List.not_mem_nil, or_false] at he
  rcases he with rfl | rfl | rfl | rfl | rfl | rfl
  · refine .inr (.inl ?_)
    rintro ⟨b, hb⟩
    have : g!".go".isSuffixOf g!"README.md" = true := List.isSuffixOf_iff_suffix.2 ⟨b, hb.symm⟩
    exact absurd this (by decide)
  · exact .inr (.inr ⟨_, _, rfl, by decide⟩)
  · exact absurd hs (by decide)
  · exact .inr (.inr ⟨_, _, rfl, by decide⟩)
  · exact .inl rfl
  · exact absurd hs (by decide)

theorem platforms_package (p : PkgId) : IsPackage (tools platforms linux) p g!"/src/app" platforms linux :=
  isPackage (by simp [platforms, linux]) (by simp only [platforms, List.forall_mem_cons]; decide)
    (by decide +kernel)

theorem tested_package (p : PkgId) : IsPackage (tools tested nonTest) p g!"/src/app" tested nonTest :=
  isPackage (by simp [tested, nonTest]) (by simp only [tested, List.forall_mem_cons]; decide)
    (by decide +kernel)

theorem broken_package (p : PkgId) : IsPackage (tools broken unbroken) p g!"/src/app" broken unbroken :=
  isPackage (by simp [broken, unbroken]) (by simp only [broken, List.forall_mem_cons]; decide)
    (by decide +kernel)

end PackageDemo

open PackageDemo

/-- The hypotheses hold for the package `tidy`, whose two files are read. -/
example : (tools tidy tidySel).files 0 = .ok [store g!"Get", ⟨[], []⟩] :=
  (C73_files_partial (tidy_package 0)).2 tidy_foreign

/-- Generation finds the method of the selected declaration of `Store`. -/
example : newGenerator (tools tidy tidySel).world Demo.inOrder 20 options =
      newGenerator (Build.world ⟨fun _ => g!"/src/app", fun _ => tidy, fun _ => tidySel⟩ (tools tidy tidySel))
        Demo.inOrder 20 options ∧
    found (newGenerator (tools tidy tidySel).world Demo.inOrder 20 options) = some [g!"Get"] :=
  ⟨C73_generator_partial _ (fun p _ => ⟨tidy_package p, tidy_foreign⟩) _ _ _, by decide +kernel⟩

/-- The full claim is false: files for other platforms are read too. -/
theorem C73_full_false : ¬ C73_full := by
  intro h
  have := h _ 0 _ _ _ (platforms_package 0)
  have h2 : (match (tools platforms linux).files 0 with | .ok fs => fs.length | _ => 0) = 2 := by decide +kernel
  rw [this] at h2
  exact absurd h2 (by decide +kernel)

/-- For a package that declares `Store` once on each platform, the iteration order of a Go map decides for which
platform the decorator is generated. -/
theorem C73_platform : IsPackage (tools platforms linux) 0 g!"/src/app" platforms linux ∧
    found (newGenerator (tools platforms linux).world Demo.backwards 20 options) = some [g!"Get"] ∧
    found (newGenerator (tools platforms linux).world Demo.inOrder 20 options) = some [g!"Open"] :=
  ⟨platforms_package 0, by decide +kernel, by decide +kernel⟩

/-- An interface declared only in a test of the package is found, although the package has no such type. -/
theorem C73_test : IsPackage (tools tested nonTest) 0 g!"/src/app" tested nonTest ∧
    (∀ f ∈ compiled tested nonTest, ∀ ts, ¬ DeclaredIn f ts) ∧
    found (newGenerator (tools tested nonTest).world Demo.inOrder 20 options) = some [g!"Get"] := by
  refine ⟨tested_package 0, ?_, by decide +kernel⟩
  intro f hf ts ⟨specs, h, _⟩
  simp [compiled, tested, nonTest] at hf
  subst hf
  simp at h

/-- A file that does not parse stops generation even if it is not part of the package. -/
theorem C73_broken : IsPackage (tools broken unbroken) 0 g!"/src/app" broken unbroken ∧
    found (newGenerator (tools broken unbroken).world Demo.inOrder 20 options) = none ∧
    found (newGenerator (Build.world ⟨fun _ => g!"/src/app", fun _ => broken, fun _ => unbroken⟩
      (tools broken unbroken)) Demo.inOrder 20 options) = some [g!"Get"] :=
  ⟨broken_package 0, by decide +kernel, by decide +kernel⟩

/-! ## C74: the package that is loaded -/

/-- The full claim: `Load` succeeds exactly if the pattern matches one package and that has no errors, and returns
it. -/
def C74_full : Prop :=
  ∀ (t : Tools) (path : Str) (p : PkgId), t.load path = .ok p ↔ t.packages path = .ok [p] ∧ t.errors p = []

/-- **C74** (partial).  `Load` never returns a package that does not match or that has errors; if the pattern
matches at most one package it succeeds exactly if there is one without errors; otherwise it reports an error.
Missing for the full claim: patterns that match several packages, of which the first is returned. -/
theorem C74_load_partial (t : Tools) (path : Str) :
    (∀ p, t.load path = .ok p → (∃ ps, t.packages path = .ok ps ∧ p ∈ ps) ∧ t.errors p = []) ∧
    ((∀ ps, t.packages path = .ok ps → ps.length ≤ 1) →
      ∀ p, t.load path = .ok p ↔ t.packages path = .ok [p] ∧ t.errors p = []) ∧
    ((∃ p, t.load path = .ok p) ∨ t.load path = .err (.loadFailed path)) := by
  unfold Tools.load
  rcases hp : t.packages path with e | ps
  · simp
  · rcases ps with _ | ⟨q, qs⟩
    · simp
    · simp only
      rcases he : t.errors q with _ | ⟨e, es⟩
      · refine ⟨?_, ?_, ?_⟩
        · intro p h
          cases Res.ok.inj h
          exact ⟨⟨_, rfl, by simp⟩, he⟩
        · intro h1 p
          have : qs = [] := by
            have := h1 _ rfl
            simp at this
            exact this
          subst this
          constructor
          · intro h
            cases Res.ok.inj h
            exact ⟨rfl, he⟩
          · rintro ⟨h, _⟩
            cases h
            rfl
        · exact .inl ⟨_, rfl⟩
      · simp only
        refine ⟨nofun, ?_, by simp⟩
        intro _ p
        constructor
        · nofun
        · rintro ⟨h, h2⟩
          cases h
          rw [he] at h2
          cases h2

/-- A pattern matching one package, and one matching none. -/
example : (tools tidy tidySel).load g!"ex/app" = .ok 0 ∧
    (tools tidy tidySel).load g!"ex/none" = .err (.loadFailed g!"ex/none") := by decide +kernel

/-- The full claim is false: `-p ./...` is accepted and means the first package. -/
theorem C74_full_false : ¬ C74_full := by
  intro h
  have := (h { tools tidy tidySel with packages := fun _ => .ok [0, 1] } g!"./..." 0).1 rfl
  cases this.1

end Gowrap.Props

import Verif.Props.Demo
import Verif.Spec.Instance
/-! Concrete package graphs used only in the non-vacuity examples and counterexamples. -/

namespace Gowrap.Demo

open Gowrap Gowrap.Spec

/-- A package with its files. -/
structure Pkg where
  name : Str
  path : Str
  imports : List (Str × PkgId)
  files : List File

/-- Packages are numbered by their position and loaded by import path (`./dst` is a directory without Go
files). -/
def world (pkgs : List Pkg) : World where
  uni := Uni.ascii
  raw := raw
  pkg p := match pkgs[p]? with
    | some x => ⟨x.name, x.path, x.imports⟩
    | none => ⟨[], [], []⟩
  files p := match pkgs[p]? with
    | some x => .ok x.files
    | none => .err (.parseFailed [])
  load path := match pkgs.findIdx? (fun x => x.path = path) with
    | some p => .ok p
    | none => .err (.loadFailed path)
  dir s := (s.reverse.dropWhile (· ≠ '/')).tail.reverse
  base s := lastSegment s
  title s := match s with
    | [] => []
    | c :: r => Uni.ascii.toUpper c :: r

/-- Iteration in source order. -/
def inOrder : Sched := ⟨fun _ l => l, fun _ l => l, fun _ l => l⟩

/-- Iteration in reverse order. -/
def backwards : Sched := ⟨fun _ l => l.reverse, fun _ l => l.reverse, fun _ l => l.reverse⟩

theorem inOrder_fair : inOrder.Fair := ⟨fun _ _ => .refl _, fun _ _ => .refl _, fun _ _ => .refl _⟩
theorem backwards_fair : backwards.Fair :=
  ⟨fun _ l => l.reverse_perm, fun _ l => l.reverse_perm, fun _ l => l.reverse_perm⟩

/-- `type name interface { ms }` -/
def iface (name : Str) (ms : List Field) : TypeSpec := ⟨name, none, .ifaceT ms⟩

/-- A method without parameters, with one result. -/
def meth (name : Str) (res : Expr) : Field := fld [name] (.funcT [] (some [fld [] res]))

/-- A file with one type declaration per spec. -/
def file (imports : List ImportSpec) (specs : List TypeSpec) : File :=
  ⟨imports, specs.map fun s => .types [s]⟩

theorem fileOf_world {pkgs : List Pkg} {p : PkgId} {f : File} :
    FileOf (world pkgs) p f ↔ ∃ x, pkgs[p]? = some x ∧ f ∈ x.files := by
  unfold FileOf world
  simp only
  cases h : pkgs[p]? with
  | none => simp
  | some x => simp

theorem declaredIn_file {imports : List ImportSpec} {specs : List TypeSpec} {ts : TypeSpec} :
    DeclaredIn (file imports specs) ts ↔ ts ∈ specs := by
  unfold DeclaredIn file
  constructor
  · rintro ⟨l, h1, h2⟩
    simp only [List.mem_map] at h1
    obtain ⟨s, h3, h4⟩ := h1
    cases h4
    simp at h2
    exact h2 ▸ h3
  · intro h
    exact ⟨[ts], List.mem_map.2 ⟨ts, h, rfl⟩, by simp⟩

theorem raw_ne (e : Expr) : raw e ≠ [] := by
  unfold raw
  split <;> simp

theorem printable_of_check {pkgs : List Pkg}
    (h : ∀ x ∈ pkgs, ∀ f ∈ x.files, ∀ ts ∈ typeSpecs f, ts.name ≠ []) : Printable (world pkgs) where
  raw := raw_ne
  names := by
    intro p f ts hf hd
    obtain ⟨x, hx, hfx⟩ := fileOf_world.1 hf
    refine h x (List.mem_of_getElem? hx) f hfx ts ?_
    obtain ⟨specs, h1, h2⟩ := hd
    exact List.mem_flatMap.2 ⟨_, h1, h2⟩

theorem lit_inj {a b : Str} (h : '"' :: a ++ ['"'] = '"' :: b ++ ['"']) : b = a := by
  simpa using h.symm

/-! The package `app`, in two files, uses the package `store`:

    // app/a.go
    import "ex/store"
    type Svc interface { Base; store.Reader; Get() string }
    // app/b.go
    type Base interface { Close() error }
    type Extra interface { Svc; Ping() error }
    // store/store.go
    type Key string
    type Reader interface { Read() Key }
    type Writer Reader
-/

def fileA : File := file [⟨none, g!"\"ex/store\""⟩]
  [iface g!"Svc" [fld [] (.ident g!"Base"), fld [] (.selector (.ident g!"store") g!"Reader"), meth g!"Get" string_]]
def fileB : File := file []
  [iface g!"Base" [meth g!"Close" error_], iface g!"Extra" [fld [] (.ident g!"Svc"), meth g!"Ping" error_]]
def fileS : File := file []
  [⟨g!"Key", none, .ident g!"string"⟩, iface g!"Reader" [meth g!"Read" (.ident g!"Key")],
   ⟨g!"Writer", none, .ident g!"Reader"⟩]

def app : World := world
  [⟨g!"app", g!"ex/app", [(g!"ex/store", 1)], [fileA, fileB]⟩, ⟨g!"store", g!"ex/store", [], [fileS]⟩]

theorem app_files {p : PkgId} {f : File} :
    FileOf app p f ↔ p = 0 ∧ (f = fileA ∨ f = fileB) ∨ p = 1 ∧ f = fileS := by
  unfold app
  rw [fileOf_world]
  match p with
  | 0 => simp
  | 1 => simp
  | n + 2 => simp

theorem app_plain : PlainImports app where
  literal := by
    intro p f imp hf hi
    rw [app_files] at hf
    rcases hf with ⟨rfl, rfl | rfl⟩ | ⟨rfl, rfl⟩
    · simp [fileA, file] at hi
      subst hi
      exact ⟨g!"ex/store", rfl, by decide, by decide⟩
    · simp [fileB, file] at hi
    · simp [fileS, file] at hi
  unique := by
    intro p path q q' h h'
    match p with
    | 0 => simp [app, world] at h h'; rw [h.2, h'.2]
    | 1 => simp [app, world] at h
    | n + 2 => simp [app, world] at h

theorem app_loads : LoadsImports app where
  empty := by intro q; simp [app, world, List.findIdx?, List.findIdx?.go]
  imported := by
    intro p f imp path q hf hi hp hq
    rw [app_files] at hf
    rcases hf with ⟨rfl, rfl | rfl⟩ | ⟨rfl, rfl⟩
    · simp [fileA, file] at hi
      subst hi
      have : path = g!"ex/store" := lit_inj hp
      subst this
      have : q = 1 := (Res.ok.inj hq).symm
      subst this
      simp [app, world]
    · simp [fileB, file] at hi
    · simp [fileS, file] at hi
  segment := by
    intro p f imp path q hf hi hp hq _
    rw [app_files] at hf
    rcases hf with ⟨rfl, rfl | rfl⟩ | ⟨rfl, rfl⟩
    · simp [fileA, file] at hi
      subst hi
      have : path = g!"ex/store" := lit_inj hp
      subst this
      have : q = 1 := (Res.ok.inj hq).symm
      subst this
      exact Or.inr ⟨g!"ex", rfl⟩
    · simp [fileB, file] at hi
    · simp [fileS, file] at hi
  name := by
    intro q
    match q with
    | 0 => decide
    | 1 => decide
    | n + 2 => simp [app, world]

theorem app_unique : UniqueTypes app := by
  intro p f f' ts ts' hf hf' hd hd' hn
  rw [app_files] at hf hf'
  rcases hf with ⟨rfl, rfl | rfl⟩ | ⟨rfl, rfl⟩ <;> rcases hf' with ⟨h, rfl | rfl⟩ | ⟨h, rfl⟩ <;>
    first
      | (cases h; done)
      | (simp only [fileA, fileB, fileS, declaredIn_file, List.mem_cons, List.not_mem_nil, or_false] at hd hd'
         rcases hd with rfl | rfl | rfl <;> rcases hd' with rfl | rfl | rfl <;> simp_all [iface])
      | (simp only [fileA, fileB, fileS, declaredIn_file, List.mem_cons, List.not_mem_nil, or_false] at hd hd'
         rcases hd with rfl | rfl <;> rcases hd' with rfl | rfl <;> simp_all [iface])
      | (simp only [fileA, fileB, fileS, declaredIn_file, List.mem_cons, List.not_mem_nil, or_false] at hd hd'
         rcases hd with rfl | rfl <;> rcases hd' with rfl <;> simp_all [iface])
      | (simp only [fileA, fileB, fileS, declaredIn_file, List.mem_cons, List.not_mem_nil, or_false] at hd hd'
         rcases hd with rfl <;> rcases hd' with rfl | rfl <;> simp_all [iface])
      | (simp only [fileA, fileB, fileS, declaredIn_file, List.mem_cons, List.not_mem_nil, or_false] at hd hd'
         rcases hd with rfl <;> rcases hd' with rfl <;> simp_all [iface])

theorem app_printable : Printable app := printable_of_check (by decide)

theorem app_agree : QualifiersAgree app := by
  intro p f ts a hf hd hq
  have hcase : p = 0 ∧ f = fileA ∧ a = g!"store" := by
    rw [app_files] at hf
    rcases hf with ⟨rfl, rfl | rfl⟩ | ⟨rfl, rfl⟩
    · simp only [fileA, declaredIn_file, List.mem_cons, List.not_mem_nil, or_false] at hd
      subst hd
      simp only [iface] at hq
      cases hq with
      | elem h1 h2 =>
        simp only [List.mem_cons, List.not_mem_nil, or_false] at h1
        rcases h1 with rfl | rfl | rfl
        · cases h2
        · cases h2; exact ⟨rfl, rfl, rfl⟩
        · cases h2
    · simp only [fileB, declaredIn_file, List.mem_cons, List.not_mem_nil, or_false] at hd
      rcases hd with rfl | rfl <;> simp only [iface] at hq
      · cases hq with
        | elem h1 h2 =>
          simp only [List.mem_cons, List.not_mem_nil, or_false] at h1
          subst h1
          cases h2
      · cases hq with
        | elem h1 h2 =>
          simp only [List.mem_cons, List.not_mem_nil, or_false] at h1
          rcases h1 with rfl | rfl <;> cases h2
    · simp only [fileS, declaredIn_file, List.mem_cons, List.not_mem_nil, or_false] at hd
      rcases hd with rfl | rfl | rfl <;> simp only [iface] at hq
      · cases hq
      · cases hq with
        | elem h1 h2 =>
          simp only [List.mem_cons, List.not_mem_nil, or_false] at h1
          subst h1
          cases h2
      · cases hq
  obtain ⟨rfl, rfl, rfl⟩ := hcase
  refine ⟨1, ⟨⟨none, g!"\"ex/store\""⟩, by simp [fileA, file], g!"ex/store", Or.inl rfl, by simp [app, world], Or.inr ⟨rfl, rfl⟩⟩, ?_, ?_⟩
  · rintro g q' hg ⟨imp, hi, path, hl, hm, hn⟩
    simp [app, world] at hm
    exact hm.2
  · intro path q' hm hn
    simp [app, world] at hm
    exact hm.2

/-- Every declaration of `app` is of a supported kind. -/
theorem app_supported {p : PkgId} {f : File} {ts : TypeSpec} (hf : FileOf app p f) (hd : DeclaredIn f ts) :
    SupportedRhs app p f ts.type := by
  have own : ∀ n, n ≠ g!"error" → OwnName app p f n := by
    intro n hn
    refine ⟨fun h => absurd h hn, ?_⟩
    rintro q f' ts' ⟨imp, hi, path, _, _, hdot⟩ _ _ _
    rw [app_files] at hf
    rcases hf with ⟨rfl, rfl | rfl⟩ | ⟨rfl, rfl⟩ <;> simp [fileA, fileB, fileS, file] at hi
    subst hi
    simp at hdot
  have hf' := hf
  rw [app_files] at hf
  rcases hf with ⟨rfl, rfl | rfl⟩ | ⟨rfl, rfl⟩
  · simp only [fileA, declaredIn_file, List.mem_cons, List.not_mem_nil, or_false] at hd
    subst hd
    intro fd hfd
    simp only [List.mem_cons, List.not_mem_nil, or_false] at hfd
    rcases hfd with rfl | rfl | rfl
    · exact own _ (by decide)
    · trivial
    · trivial
  · simp only [fileB, declaredIn_file, List.mem_cons, List.not_mem_nil, or_false] at hd
    rcases hd with rfl | rfl <;> intro fd hfd <;>
      simp only [List.mem_cons, List.not_mem_nil, or_false] at hfd
    · subst hfd; trivial
    · rcases hfd with rfl | rfl
      · exact own _ (by decide)
      · trivial
  · have one : ∀ f', FileOf app 1 f' → f' = fileS := by
      intro f' h
      rw [app_files] at h
      rcases h with ⟨h, _⟩ | ⟨_, h⟩
      · cases h
      · exact h
    simp only [fileS, declaredIn_file, List.mem_cons, List.not_mem_nil, or_false] at hd
    rcases hd with rfl | rfl | rfl
    · exact ⟨own _ (by decide), fun f' ts h _ _ => one f' h⟩
    · intro fd hfd
      simp only [List.mem_cons, List.not_mem_nil, or_false] at hfd
      subst hfd
      trivial
    · exact ⟨own _ (by decide), fun f' ts h _ _ => one f' h⟩

/-! A single package of one file without imports. -/

def solo (specs : List TypeSpec) : World := world [⟨g!"app", g!"ex/app", [], [file [] specs]⟩]

theorem solo_files {specs : List TypeSpec} {p : PkgId} {f : File} :
    FileOf (solo specs) p f ↔ p = 0 ∧ f = file [] specs := by
  unfold solo
  rw [fileOf_world]
  match p with
  | 0 => simp
  | n + 1 => simp

theorem solo_imports {specs : List TypeSpec} {p : PkgId} : ((solo specs).pkg p).imports = [] := by
  match p with
  | 0 => rfl
  | n + 1 => rfl

theorem solo_plain (specs : List TypeSpec) : PlainImports (solo specs) where
  literal := by
    intro p f imp hf hi
    rw [solo_files] at hf
    rw [hf.2] at hi
    simp [file] at hi
  unique := by
    intro p path q q' h
    rw [solo_imports] at h
    cases h

theorem solo_loads (specs : List TypeSpec) : LoadsImports (solo specs) where
  empty := by intro q; simp [solo, world, List.findIdx?, List.findIdx?.go]
  imported := by
    intro p f imp path q hf hi
    rw [solo_files] at hf
    rw [hf.2] at hi
    simp [file] at hi
  segment := by
    intro p f imp path q hf hi
    rw [solo_files] at hf
    rw [hf.2] at hi
    simp [file] at hi
  name := by
    intro q
    match q with
    | 0 => exact (by decide : '/' ∉ g!"app")
    | n + 1 => exact (by decide : '/' ∉ ([] : Str))

theorem solo_unique {specs : List TypeSpec}
    (h : ∀ a ∈ specs, ∀ b ∈ specs, a.name = b.name → a = b) : UniqueTypes (solo specs) := by
  intro p f f' ts ts' hf hf' hd hd' hn
  rw [solo_files] at hf hf'
  obtain ⟨rfl, rfl⟩ := hf
  obtain ⟨_, rfl⟩ := hf'
  rw [declaredIn_file] at hd hd'
  exact ⟨h _ hd _ hd' hn, rfl⟩

theorem solo_agree {specs : List TypeSpec} (h : ∀ ts ∈ specs, ∀ a, ¬ Qualifies a ts.type) :
    QualifiersAgree (solo specs) := by
  intro p f ts a hf hd hq
  rw [solo_files] at hf
  obtain ⟨rfl, rfl⟩ := hf
  rw [declaredIn_file] at hd
  exact absurd hq (h _ hd a)

theorem solo_printable {specs : List TypeSpec} (h : ∀ ts ∈ specs, ts.name ≠ []) : Printable (solo specs) where
  raw := raw_ne
  names := by
    intro p f ts hf hd
    obtain ⟨rfl, rfl⟩ := solo_files.1 hf
    exact h ts (declaredIn_file.1 hd)

/-- The generator options for an interface of the package `app`, in the package itself. -/
def local_ (name : Str) : Options :=
  { interfaceName := name, sourcePackage := g!"ex/app", outputFile := g!"/x.go" }

end Gowrap.Demo

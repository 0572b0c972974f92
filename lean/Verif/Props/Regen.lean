import Verif.Proofs.Regen
import Verif.Props.Discovery
import Verif.Model.Command
/-!
# C97: generating again

`go generate` runs gowrap again when the generated file already is part of the package.
-/

namespace Gowrap.Props

open Gowrap Gowrap.Spec

theorem fileOf_add {w : World} {q : PkgId} {f : File} {new : List (Str × PkgId)} {p : PkgId} {g : File}
    (h : FileOf w p g) : FileOf (addFile w q f new) p g := by
  obtain ⟨fs, h1, h2⟩ := h
  by_cases hp : p = q
  · subst hp
    exact ⟨fs ++ [f], by simp [addFile, h1], List.mem_append_left _ h2⟩
  · exact ⟨fs, by rw [addFile_files_other hp, h1], h2⟩

theorem unique_of_add {w : World} {q : PkgId} {f : File} {new : List (Str × PkgId)}
    (h : UniqueTypes (addFile w q f new)) : UniqueTypes w :=
  fun p g g' ts ts' h1 h2 => h p g g' ts ts' (fileOf_add h1) (fileOf_add h2)

theorem uniqueImports_of_add {w : World} {q : PkgId} {f : File} {new : List (Str × PkgId)}
    (h : UniqueImports (addFile w q f new)) : UniqueImports w := by
  intro p path x path' x' h1 h2 hn
  obtain ⟨more, hm⟩ := addFile_imports (w := w) (q := q) (f := f) (new := new) p
  refine h p path x path' x' ?_ ?_ (by rw [addFile_name, addFile_name, hn])
  · rw [hm]; exact List.mem_append_left _ h1
  · rw [hm]; exact List.mem_append_left _ h2

/-- The full claim: if gowrap succeeds, then it finds exactly the same after any file `f` was added to the
destination package, be it the source package or another; if the package remains without duplicate types,
the types in `f` are not embedded anywhere, and the source package does not depend on the destination. -/
def C97_full : Prop :=
  ∀ (w : World) (s s' : Sched) (fuel : Nat) (o : Options) (src q : PkgId) (f : File) (new : List (Str × PkgId))
    (g : Generator), s.Fair → s'.Fair → (∀ ts, DeclaredIn f ts → w.raw (.ident ts.name) = ts.name) → UniqueTypes (addFile w q f new) →
    UniqueImports w → ¬ FileOf w q f → Unembedded w q f → loadSource w o = .ok src →
    w.load (dstPackagePath w o.outputFile) = .ok q → ¬ DependsOn w src q →
    newGenerator w s fuel o = .ok g → newGenerator (addFile w q f new) s' fuel o = .ok g

/-- **C97** (partial).  If gowrap succeeds, then it finds exactly the same after the generated file `f` (or any
other) was added to the destination package, for all orders of reading maps in both runs, and header and body
of the new file are the same bytes for every template and all options.  Missing for the full claim: files that
import a package with the same name as another import of the package. -/
theorem C97_again_partial {w : World} {s s' : Sched} {fuel : Nat} {o : Options} {src q : PkgId} {f : File}
    {new : List (Str × PkgId)} {g : Generator} (hs : s.Fair) (hs' : s'.Fair) (hraw : ∀ ts, DeclaredIn f ts → w.raw (.ident ts.name) = ts.name)
    (hu : UniqueTypes (addFile w q f new)) (hi : UniqueImports (addFile w q f new)) (hnew : ¬ FileOf w q f)
    (hfresh : Unembedded w q f) (hsrc : loadSource w o = .ok src)
    (hdst : w.load (dstPackagePath w o.outputFile) = .ok q) (hcyc : ¬ DependsOn w src q)
    (h : newGenerator w s fuel o = .ok g) :
    newGenerator (addFile w q f new) s' fuel o = .ok g ∧
      ∀ go, (addFile w q f new).header g go = w.header g go ∧ (addFile w q f new).body g go = w.body g go := by
  constructor
  · let sid : Sched := ⟨fun _ l => l, fun _ l => l, fun _ l => l⟩
    have hid : sid.Fair := ⟨fun _ _ => .refl _, fun _ _ => .refl _, fun _ _ => .refl _⟩
    have h' := (C23_order_independent_partial hs hid (unique_of_add hu) (uniqueImports_of_add hi) g).1 h
    refine (C23_order_independent_partial hid hs' hu hi g).1 ?_
    have hld : loadDestinationPackage w (dstPackagePath w o.outputFile) = .ok ((w.pkg q).name, (w.pkg q).path) := by
      unfold loadDestinationPackage
      rw [hdst]
    have hld' : loadDestinationPackage (addFile w q f new) (dstPackagePath (addFile w q f new) o.outputFile) =
        .ok ((w.pkg q).name, (w.pkg q).path) := by
      have : (addFile w q f new).load (dstPackagePath (addFile w q f new) o.outputFile) = .ok q := hdst
      unfold loadDestinationPackage
      rw [this]
      simp only [addFile_name, addFile_path]
    have hsrc' : loadSource (addFile w q f new) o = .ok src := hsrc
    have hsel : ∀ d, sourceSelector (addFile w q f new) o src d = sourceSelector w o src d := by
      intro d
      simp only [sourceSelector, addFile_name, addFile_path]
      rfl
    have hity : ∀ d, interfaceTypeOf (addFile w q f new) o src d = interfaceTypeOf w o src d := by
      intro d
      simp only [interfaceTypeOf, hsel, addFile_path]
    simp only [newGenerator, hsrc, hld, Res.ok_bind] at h'
    simp only [newGenerator, hsrc', hld', Res.ok_bind, hsel, hity]
    rw [Res.bind_eq_ok] at h' ⊢
    obtain ⟨files, h1, h'⟩ := h'
    rw [Res.bind_eq_ok] at h'
    obtain ⟨out, h2, h'⟩ := h'
    obtain ⟨files', h1'⟩ : ∃ files', (addFile w q f new).files src = .ok files' := by
      by_cases hq : src = q
      · subst hq; exact ⟨files ++ [f], by simp [addFile, h1]⟩
      · exact ⟨files, by rw [addFile_files_other hq, h1]⟩
    refine ⟨files', h1', ?_⟩
    rw [Res.bind_eq_ok]
    refine ⟨out, ?_, ?_⟩
    · refine (kept (fun _ _ => rfl) (fun _ _ => rfl) hraw hu hnew hfresh fuel).target _ _ _ _ _ _ _ _ h1 h1' hcyc
        ?_ h2
      rintro rfl
      simp [sourceSelector]
    · have hce : ∀ sel ms, checkExported (addFile w q f new) sel ms = checkExported w sel ms := by
        intro sel ms
        induction ms with
        | nil => rfl
        | cons m ms ih => simp only [checkExported, ih]; rfl
      simp only [hce]
      exact h'
  · intro go
    refine ⟨?_, rfl⟩
    have : g.header (addFile w q f new) go = g.header w go := by
      simp only [Generator.header, addFile_path]
    simp only [World.header, this]
    rfl

/-! ### Examples -/

/-- A package with an interface that embeds one of a package `log`:

    // app.go
    import "ex/log"
    type Svc interface { log.Logger; Get() error }
-/
def regenPkgs : List Demo.Pkg :=
  [⟨g!"app", g!"/app", [(g!"ex/log", 1)],
    [Demo.file [⟨none, g!"\"ex/log\""⟩] [Demo.iface g!"Svc"
      [Demo.fld [] (.selector (.ident g!"log") g!"Logger"), Demo.meth g!"Get" Demo.error_]]]⟩,
   ⟨g!"log", g!"ex/log", [], [Demo.file [] [Demo.iface g!"Logger" [Demo.meth g!"A" Demo.error_]]]⟩,
   ⟨g!"log", g!"log", [], [Demo.file [] [⟨g!"Logger", none, .structT []⟩]]⟩,
   ⟨g!"time", g!"time", [], []⟩]

/-- The file generated with the template `log`: it imports the package `log` of the standard library and
declares a struct. -/
def withLog : File := Demo.file [⟨none, g!"\"log\""⟩] [⟨g!"SvcWithLog", none, .structT []⟩]

/-- The file generated with the template `timeout`. -/
def withTimeout : File := Demo.file [⟨none, g!"\"time\""⟩] [⟨g!"SvcWithTimeout", none, .structT []⟩]

/-- `gowrap gen -i Svc -o x.go` in the directory of the package. -/
def regenOptions : Options := { interfaceName := g!"Svc", sourcePackage := g!"/app", outputFile := g!"/app/x.go" }

/-- The package after the file was written. -/
def regenAfter (f : File) (path : Str) (n : PkgId) : List Demo.Pkg :=
  match regenPkgs with
  | p :: ps => { p with imports := p.imports ++ [(path, n)], files := p.files ++ [f] } :: ps
  | [] => []

theorem regen_add (f : File) (path : Str) (n : PkgId) :
    addFile (Demo.world regenPkgs) 0 f [(path, n)] = Demo.world (regenAfter f path n) := by
  have hp : (addFile (Demo.world regenPkgs) 0 f [(path, n)]).pkg = (Demo.world (regenAfter f path n)).pkg := by
    funext p
    match p with
    | 0 => rfl
    | p + 1 => rfl
  have hf : (addFile (Demo.world regenPkgs) 0 f [(path, n)]).files = (Demo.world (regenAfter f path n)).files := by
    funext p
    match p with
    | 0 => rfl
    | p + 1 => rfl
  have hl : (addFile (Demo.world regenPkgs) 0 f [(path, n)]).load = (Demo.world (regenAfter f path n)).load := rfl
  calc addFile (Demo.world regenPkgs) 0 f [(path, n)]
      = { Demo.world regenPkgs with
          pkg := (addFile (Demo.world regenPkgs) 0 f [(path, n)]).pkg
          files := (addFile (Demo.world regenPkgs) 0 f [(path, n)]).files
          load := (addFile (Demo.world regenPkgs) 0 f [(path, n)]).load } := rfl
    _ = _ := by rw [hp, hf, hl]; rfl

theorem regen_acyclic {p q : PkgId} (h : DependsOn (Demo.world regenPkgs) p q) : p < q := by
  induction h with
  | @imports p q path h =>
    match p with
    | 0 =>
      simp [Demo.world, regenPkgs] at h
      rw [h.2]
      decide
    | 1 | 2 | 3 => simp [Demo.world, regenPkgs] at h
    | p + 4 => simp [Demo.world, regenPkgs] at h
  | @load p q f imp hf hi hl =>
    rw [Demo.fileOf_world] at hf
    obtain ⟨x, hx, hf⟩ := hf
    match p with
    | 0 =>
      simp [regenPkgs] at hx
      subst hx
      simp [Demo.file] at hf
      subst hf
      simp at hi
      subst hi
      have : (Demo.world regenPkgs).load (trimQuotes g!"\"ex/log\"") = .ok 1 := by decide +kernel
      rw [this] at hl
      cases hl
      decide
    | 1 | 2 | 3 =>
      simp [regenPkgs] at hx
      subst hx
      simp [Demo.file] at hf
      try subst hf
      try simp at hi
    | p + 4 => simp [regenPkgs] at hx
  | @loadEmpty p q f hf hl =>
    have : (Demo.world regenPkgs).load [] = .err (.loadFailed []) := by decide +kernel
    rw [this] at hl
    cases hl
  | trans _ _ ih1 ih2 => exact Nat.lt_trans ih1 ih2

theorem regen_unembedded (f : File) : Unembedded (Demo.world regenPkgs) 0 f := by
  intro g t ms fd ts hg hd ht hfd hts he
  rw [Demo.fileOf_world] at hg
  obtain ⟨x, hx, hg⟩ := hg
  simp [regenPkgs] at hx
  subst hx
  simp only [List.mem_singleton] at hg
  subst hg
  rw [Demo.declaredIn_file] at hd
  simp only [List.mem_singleton] at hd
  subst hd
  simp only [Demo.iface, Expr.ifaceT.injEq] at ht
  subst ht
  rcases List.mem_cons.1 hfd with rfl | hfd
  · cases he
  · rw [List.mem_singleton] at hfd
    subst hfd
    cases he

theorem regen_uniqueImports : UniqueImports (Demo.world regenPkgs) := by
  intro p path q path' q' h h' _
  match p with
  | 0 => simp [Demo.world, regenPkgs] at h h'; rw [h.1, h'.1]
  | 1 | 2 | 3 => simp [Demo.world, regenPkgs] at h
  | p + 4 => simp [Demo.world, regenPkgs] at h

theorem regen_new {f : File} (h : f.imports ≠ [⟨none, g!"\"ex/log\""⟩]) : ¬ FileOf (Demo.world regenPkgs) 0 f := by
  rw [Demo.fileOf_world]
  rintro ⟨x, hx, hf⟩
  simp [regenPkgs] at hx
  subst hx
  simp only [List.mem_singleton] at hf
  subst hf
  exact h rfl

theorem regen_raw {imports : List ImportSpec} {c : Char} {n : Str} {e : Expr} (ts : TypeSpec)
    (h : DeclaredIn (Demo.file imports [⟨c :: n, none, e⟩]) ts) :
    (Demo.world regenPkgs).raw (.ident ts.name) = ts.name := by
  rw [Demo.declaredIn_file, List.mem_singleton] at h
  subst h
  rfl

theorem regen_before :
    found (newGenerator (Demo.world regenPkgs) Demo.inOrder 20 regenOptions) = some [g!"A", g!"Get"] := by decide +kernel

theorem regen_after : found (newGenerator (Demo.world (regenAfter withLog g!"log" 2)) Demo.backwards 20 regenOptions) =
    some [g!"Get"] := by decide +kernel

theorem regen_timeout_imports :
    UniqueImports (addFile (Demo.world regenPkgs) 0 withTimeout [(g!"time", 3)]) := by
  rw [regen_add]
  intro p path q path' q' h h' hn
  match p with
  | 0 =>
    simp [Demo.world, regenPkgs, regenAfter] at h h'
    rcases h with ⟨rfl, rfl⟩ | ⟨rfl, rfl⟩ <;> rcases h' with ⟨rfl, rfl⟩ | ⟨rfl, rfl⟩
    · rfl
    · exact absurd hn (by decide +kernel)
    · exact absurd hn (by decide +kernel)
    · rfl
  | 1 | 2 | 3 => simp [Demo.world, regenPkgs, regenAfter] at h
  | p + 4 => simp [Demo.world, regenPkgs, regenAfter] at h

/-- The hypotheses hold for the template `timeout`, and the conclusion is not vacuous there. -/
example : ∃ g, newGenerator (Demo.world regenPkgs) Demo.inOrder 20 regenOptions = .ok g ∧
    newGenerator (addFile (Demo.world regenPkgs) 0 withTimeout [(g!"time", 3)]) Demo.backwards 20 regenOptions = .ok g := by
  obtain ⟨g, hg, _⟩ := found_some regen_before
  refine ⟨g, hg, (C97_again_partial (src := 0) Demo.inOrder_fair Demo.backwards_fair regen_raw ?_ regen_timeout_imports
    (regen_new (by decide)) (regen_unembedded _) (by decide +kernel) (by decide +kernel)
    (fun h => absurd (regen_acyclic h) (by decide)) hg).1⟩
  rw [regen_add]; exact Demo.unique_of_check (by decide +kernel)

/-- The full claim is false: after the template `log` was used for an interface that embeds an interface of
another package `log`, generating again may look for it in the package `log` of the standard library, which
the generated file imports; its methods then are missing from the decorator. -/
theorem C97_full_false : ¬ C97_full := by
  intro hfull
  obtain ⟨g, hg, hks⟩ := found_some regen_before
  have := hfull (Demo.world regenPkgs) Demo.inOrder Demo.backwards 20 regenOptions 0 0 withLog [(g!"log", 2)] g
    Demo.inOrder_fair Demo.backwards_fair regen_raw (by rw [regen_add]; exact Demo.unique_of_check (by decide +kernel))
    regen_uniqueImports (regen_new (by decide)) (regen_unembedded _) (by decide +kernel) (by decide +kernel) (fun h => absurd (regen_acyclic h) (by decide)) hg
  obtain ⟨g', hg', hks'⟩ := found_some regen_after
  rw [regen_add, hg'] at this
  cases this
  rw [hks] at hks'
  exact absurd hks' (by decide)

end Gowrap.Props

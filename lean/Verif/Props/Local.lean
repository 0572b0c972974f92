import Verif.Proofs.Local
import Verif.Props.Regen
/-!
# C98: only the packages that the source package depends on matter; C97 for a new directory
-/

namespace Gowrap.Props

open Gowrap Gowrap.Spec

theorem interfaceTypeOf_eq {w w' : World} {o : Options} {src : PkgId} (hpkg : w'.pkg src = w.pkg src)
    (htitle : w'.title = w.title) (d : Str) :
    sourceSelector w' o src d = sourceSelector w o src d ∧ interfaceTypeOf w' o src d = interfaceTypeOf w o src d := by
  have h : sourceSelector w' o src d = sourceSelector w o src d := by
    simp only [sourceSelector, hpkg, htitle]
  exact ⟨h, by simp only [interfaceTypeOf, h, hpkg]⟩

theorem checkExported_eq {w w' : World} (h : w'.uni = w.uni) (sel : Str) (ms : Methods) :
    checkExported w' sel ms = checkExported w sel ms := by
  induction ms with
  | nil => rfl
  | cons m ms ih => simp only [checkExported, ih, h]

/-- **C98**.  If two worlds have the same packages and files as far as the source package depends on them, and
the same destination package, then gowrap does the same in both: it finds the same interface, methods, type
parameters and imports, fails with the same error, panics or does not terminate in both. -/
theorem C98_local {w w' : World} {s : Sched} {fuel : Nat} {o : Options} {src : PkgId} (hs : s.Fair)
    (hsrc : loadSource w o = .ok src) (hsrc' : loadSource w' o = .ok src) (hw : SameAround w w' src)
    (hdst : loadDestinationPackage w' (dstPackagePath w' o.outputFile) =
      loadDestinationPackage w (dstPackagePath w o.outputFile)) (htitle : w'.title = w.title) :
    newGenerator w' s fuel o = newGenerator w s fuel o := by
  have hity := interfaceTypeOf_eq (o := o) (hw.pkg src (.inl rfl)) htitle
  simp only [newGenerator, hsrc, hsrc', hdst, Res.ok_bind]
  refine bind_congr' rfl fun d => ?_
  simp only [(hity _).1, (hity _).2, hw.files src (.inl rfl)]
  cases hf : w.files src with
  | ok files =>
    simp only [Res.ok_bind]
    refine bind_congr' ((local_all hs hw fuel).target _ _ _ _ _ _ (.inl rfl) hf) fun out => ?_
    simp only [checkExported_eq hw.uni]
  | err e => rfl
  | panic => rfl
  | diverge => rfl

/-- `w` without the contents of the packages that `src` does not depend on. -/
noncomputable def prune (w : World) (src : PkgId) : World :=
  open Classical in
  { w with
    pkg := fun p => if Around w src p then w.pkg p else ⟨(w.pkg p).name, (w.pkg p).path, []⟩
    files := fun p => if Around w src p then w.files p else .ok [] }

theorem prune_name (w : World) (src p : PkgId) : ((prune w src).pkg p).name = (w.pkg p).name := by
  simp only [prune]
  split <;> rfl

theorem prune_path (w : World) (src p : PkgId) : ((prune w src).pkg p).path = (w.pkg p).path := by
  simp only [prune]
  split <;> rfl

theorem prune_same (w : World) (src : PkgId) : SameAround w (prune w src) src where
  uni := rfl
  raw := rfl
  pkg := fun p hp => by simp [prune, hp]
  files := fun p hp => by simp [prune, hp]
  load := fun _ _ _ _ _ _ => rfl
  loadEmpty := rfl

theorem prune_types {w : World} {src : PkgId} (h : UniqueTypesAround w src) : UniqueTypes (prune w src) := by
  intro p f f' ts ts' hf hf' hd hd' hn
  by_cases hp : Around w src p
  · have e : (prune w src).files p = w.files p := by simp [prune, hp]
    refine h p f f' ts ts' hp ?_ ?_ hd hd' hn
    · unfold FileOf at hf ⊢; rwa [e] at hf
    · unfold FileOf at hf' ⊢; rwa [e] at hf'
  · obtain ⟨fs, h1, h2⟩ := hf
    simp only [prune, if_neg hp] at h1
    rw [← Res.ok.inj h1] at h2
    cases h2

theorem prune_imports {w : World} {src : PkgId} (h : UniqueImportsAround w src) : UniqueImports (prune w src) := by
  intro p path q path' q' h1 h2 hn
  rw [prune_name, prune_name] at hn
  by_cases hp : Around w src p
  · simp only [prune, if_pos hp] at h1 h2
    exact h p path q path' q' hp h1 h2 hn
  · simp only [prune, if_neg hp] at h1
    cases h1

/-- **C23** (partial), with conditions on the packages that the source package depends on only: if none of them
declares a type twice or imports two packages of the same name, then gowrap finds the same for all orders of
reading maps, whatever the rest of the workspace contains. -/
theorem C23_dependencies_partial {w : World} {s s' : Sched} {fuel : Nat} {o : Options} {src : PkgId} (hs : s.Fair)
    (hs' : s'.Fair) (hsrc : loadSource w o = .ok src) (hu : UniqueTypesAround w src)
    (hi : UniqueImportsAround w src) (g : Generator) :
    newGenerator w s fuel o = .ok g ↔ newGenerator w s' fuel o = .ok g := by
  have hdst : loadDestinationPackage (prune w src) (dstPackagePath (prune w src) o.outputFile) =
      loadDestinationPackage w (dstPackagePath w o.outputFile) := by
    have e1 : dstPackagePath (prune w src) o.outputFile = dstPackagePath w o.outputFile := rfl
    have e2 : (prune w src).load = w.load := rfl
    unfold loadDestinationPackage
    rw [e1, e2]
    simp only [prune_name, prune_path]
    rfl
  have key : ∀ s : Sched, s.Fair → newGenerator (prune w src) s fuel o = newGenerator w s fuel o :=
    fun s hs => C98_local hs hsrc hsrc (prune_same w src) hdst rfl
  rw [← key s hs, ← key s' hs']
  exact C23_order_independent_partial hs hs' (prune_types hu) (prune_imports hi) g

theorem types_around {w : World} (h : UniqueTypes w) (src : PkgId) : UniqueTypesAround w src :=
  fun p f f' ts ts' _ => h p f f' ts ts'

theorem imports_around {w : World} (h : UniqueImports w) (src : PkgId) : UniqueImportsAround w src :=
  fun p path q path' q' _ => h p path q path' q'

/-- **C97** for a destination directory without Go files.  The second run, which finds the package in `dir`
that the first one created, finds exactly the same, for all orders of reading maps in both runs, and writes the same
header and body; only the import path of the destination package is known now. -/
theorem C97_new_directory {w : World} {s s' : Sched} {fuel : Nat} {o : Options} {src q : PkgId} {f : File}
    {info : PkgInfo} {e : Err} {g : Generator} (hs : s.Fair) (hs' : s'.Fair) (hu : UniqueTypesAround w src)
    (hi : UniqueImportsAround w src) (hsrc : loadSource w o = .ok src) (hdir : w.load (dstPackagePath w o.outputFile) = .err e)
    (hq : ¬ Around w src q) (hname : info.name = g.dstName) (hpath : info.path ≠ (w.pkg src).path)
    (hne : (w.pkg src).path ≠ []) (hempty : dstPackagePath w o.outputFile ≠ [])
    (himp : ∀ p h imp, Around w src p → FileOf w p h → imp ∈ h.imports →
      trimQuotes imp.path ≠ dstPackagePath w o.outputFile)
    (h : newGenerator w s fuel o = .ok g) :
    newGenerator (addPackage w (dstPackagePath w o.outputFile) q info f) s' fuel o =
        .ok { g with dstPath := info.path } ∧
      ∀ go, (addPackage w (dstPackagePath w o.outputFile) q info f).header { g with dstPath := info.path } go =
          w.header g go ∧
        (addPackage w (dstPackagePath w o.outputFile) q info f).body { g with dstPath := info.path } go =
          w.body g go := by
  have h' := (C23_dependencies_partial hs hs' hsrc hu hi g).1 h
  obtain ⟨dir, hd⟩ : ∃ dir, dstPackagePath w o.outputFile = dir := ⟨_, rfl⟩
  rw [hd] at hdir hempty himp ⊢
  have hother : ∀ p, Around w src p → p ≠ q := fun p hp e => hq (e ▸ hp)
  have hw : SameAround w (addPackage w dir q info f) src :=
    { uni := rfl
      raw := rfl
      pkg := fun p hp => by simp [addPackage, hother p hp]
      files := fun p hp => by simp [addPackage, hother p hp]
      load := fun p h imp hp hf hm => by simp [addPackage, himp p h imp hp hf hm]
      loadEmpty := by simp [addPackage, Ne.symm hempty] }
  have hgsrc : g.srcPackage = src := by
    simp only [newGenerator, hsrc, Res.ok_bind, Res.bind_eq_ok] at h
    obtain ⟨_, _, _, _, _, _, h⟩ := h
    split at h
    · cases h
    · rw [Res.bind_eq_ok] at h
      obtain ⟨_, _, h⟩ := h
      rw [← Res.ok.inj h]
  refine ⟨?_, fun go => ⟨?_, rfl⟩⟩
  · have hsrc' : loadSource (addPackage w dir q info f) o = .ok src := by
      unfold loadSource at hsrc ⊢
      split at hsrc
      · exact hsrc
      · have : o.sourcePackage ≠ dir := by
          intro e
          rw [e, hdir] at hsrc
          cases hsrc
        simp only [addPackage, if_neg this]
        exact hsrc
    have hld' : loadDestinationPackage (addPackage w dir q info f)
        (dstPackagePath (addPackage w dir q info f) o.outputFile) =
        .ok (info.name, info.path) := by
      have : (addPackage w dir q info f).load (dstPackagePath (addPackage w dir q info f) o.outputFile) = .ok q := by
        have e : dstPackagePath (addPackage w dir q info f) o.outputFile = dir := hd
        rw [e]
        simp [addPackage]
      unfold loadDestinationPackage
      rw [this]
      simp [addPackage]
    obtain ⟨b, hb⟩ : ∃ b, loadDestinationPackage w dir = .ok (b, []) := by
      cases hm : loadDestinationPackage w dir with
      | ok x =>
        unfold loadDestinationPackage makePackage at hm
        rw [hdir] at hm
        simp only at hm
        split at hm
        · cases hm
        · rw [← Res.ok.inj hm]; exact ⟨_, rfl⟩
      | err e => simp [newGenerator, hsrc, hd, hm] at h
      | panic => simp [newGenerator, hsrc, hd, hm] at h
      | diverge => simp [newGenerator, hsrc, hd, hm] at h
    have hity := interfaceTypeOf_eq (w' := addPackage w dir q info f) (o := o) (hw.pkg src (.inl rfl)) rfl
    have hsel : sourceSelector w o src info.path = sourceSelector w o src [] := by
      simp only [sourceSelector, if_neg (Ne.symm hpath), if_neg hne]
    have hit : interfaceTypeOf w o src info.path = interfaceTypeOf w o src [] := by
      simp only [interfaceTypeOf, if_neg (Ne.symm hpath), if_neg hne, hsel]
    simp only [newGenerator, hsrc, hd, hb, Res.ok_bind] at h'
    simp only [newGenerator, hsrc', hld', Res.ok_bind, (hity _).1, (hity _).2, hsel, hit, hw.files src (.inl rfl)]
    rw [Res.bind_eq_ok] at h' ⊢
    obtain ⟨files, h1, h'⟩ := h'
    refine ⟨files, h1, ?_⟩
    rw [Res.bind_eq_ok] at h' ⊢
    obtain ⟨out, h2, h'⟩ := h'
    refine ⟨out, by rw [(local_all hs' hw fuel).target _ _ _ _ _ _ (.inl rfl) h1]; exact h2, ?_⟩
    simp only [checkExported_eq hw.uni]
    split at h'
    · cases h'
    · next hm =>
      rw [if_neg hm]
      rw [Res.bind_eq_ok] at h' ⊢
      obtain ⟨u, h3, h'⟩ := h'
      refine ⟨u, h3, ?_⟩
      have := Res.ok.inj h'
      subst this
      simp only at hname
      rw [hname]
      rfl
  · have : Generator.header { g with dstPath := info.path } (addPackage w dir q info f) go = g.header w go := by
      simp only [Generator.header, hgsrc, hw.pkg src (.inl rfl)]
    simp only [World.header, this]
    rfl

/-! ### Examples -/

/-- The package graph of C97 with everything that `app` does not depend on changed: the package `log` of the
standard library has another type, and `time` is gone. -/
def elsewhere : List Demo.Pkg :=
  (regenPkgs.take 2) ++ [⟨g!"log", g!"log", [(g!"ex/log", 1)], [Demo.file [] [⟨g!"Other", none, .structT []⟩]]⟩]

theorem regen_around {p : PkgId} (h : DependsOn (Demo.world regenPkgs) 0 p) : p = 1 := by
  have key : ∀ a b, DependsOn (Demo.world regenPkgs) a b → b = 1 ∧ a = 0 := by
    intro a b hab
    induction hab with
    | @imports p q path h =>
      match p with
      | 0 =>
        simp [Demo.world, regenPkgs] at h
        exact ⟨h.2, rfl⟩
      | 1 | 2 | 3 => simp [Demo.world, regenPkgs] at h
      | p + 4 => simp [Demo.world, regenPkgs] at h
    | @load p q f imp hf hi hl =>
      rw [Demo.fileOf_world] at hf
      obtain ⟨x, hx, hf⟩ := hf
      match p with
      | 0 =>
        simp [regenPkgs] at hx
        subst hx
        simp [Demo.file] at hf
        subst hf
        simp at hi
        subst hi
        have : (Demo.world regenPkgs).load (trimQuotes g!"\"ex/log\"") = .ok 1 := by decide +kernel
        rw [this] at hl
        cases hl
        exact ⟨rfl, rfl⟩
      | 1 | 2 | 3 =>
        simp [regenPkgs] at hx
        subst hx
        simp [Demo.file] at hf
        try subst hf
        try simp at hi
      | p + 4 => simp [regenPkgs] at hx
    | @loadEmpty p q f hf hl =>
      have : (Demo.world regenPkgs).load [] = .err (.loadFailed []) := by decide +kernel
      rw [this] at hl
      cases hl
    | trans _ _ ih1 ih2 =>
      have := ih1.1.symm.trans ih2.2
      cases this
  exact (key 0 p h).1

/-- The hypotheses of C98 hold there, and gowrap succeeds. -/
example : newGenerator (Demo.world elsewhere) Demo.backwards 20 regenOptions =
      newGenerator (Demo.world regenPkgs) Demo.backwards 20 regenOptions ∧
    found (newGenerator (Demo.world elsewhere) Demo.backwards 20 regenOptions) = some [g!"A", g!"Get"] := by
  refine ⟨C98_local (src := 0) Demo.backwards_fair (by decide +kernel) (by decide +kernel) ?_ (by decide +kernel) rfl,
    by decide +kernel⟩
  refine ⟨rfl, rfl, ?_, ?_, ?_, by decide +kernel⟩
  · rintro p (rfl | h)
    · rfl
    · rw [regen_around h]; rfl
  · rintro p (rfl | h)
    · rfl
    · rw [regen_around h]; rfl
  · rintro p f imp hp hf hi
    rw [Demo.fileOf_world] at hf
    obtain ⟨x, hx, hf⟩ := hf
    rcases hp with rfl | h
    · simp [regenPkgs] at hx
      subst hx
      simp [Demo.file] at hf
      subst hf
      simp at hi
      subst hi
      decide +kernel
    · rw [regen_around h] at hx
      simp [regenPkgs] at hx
      subst hx
      simp [Demo.file] at hf
      subst hf
      simp at hi

/-- Elsewhere in the workspace a package declares a type twice and imports two packages of the same name. -/
def messy : List Demo.Pkg :=
  regenPkgs ++ [⟨g!"old", g!"/old", [(g!"ex/log", 1), (g!"log", 2)],
    [Demo.file [] [Demo.iface g!"T" []], Demo.file [] [Demo.iface g!"T" [Demo.meth g!"M" Demo.error_]]]⟩]

theorem messy_around {p : PkgId} (h : DependsOn (Demo.world messy) 0 p) : p = 1 := by
  have key : ∀ a b, DependsOn (Demo.world messy) a b → a ≤ 1 → b = 1 ∧ a = 0 := by
    intro a b hab
    induction hab with
    | @imports p q path h =>
      intro hp
      match p with
      | 0 =>
        simp [Demo.world, messy, regenPkgs] at h
        exact ⟨h.2, rfl⟩
      | 1 => simp [Demo.world, messy, regenPkgs] at h
    | @load p q f imp hf hi hl =>
      intro hp
      rw [Demo.fileOf_world] at hf
      obtain ⟨x, hx, hf⟩ := hf
      match p with
      | 0 =>
        simp [messy, regenPkgs] at hx
        subst hx
        simp [Demo.file] at hf
        subst hf
        simp at hi
        subst hi
        have : (Demo.world messy).load (trimQuotes g!"\"ex/log\"") = .ok 1 := by decide +kernel
        rw [this] at hl
        cases hl
        exact ⟨rfl, rfl⟩
      | 1 =>
        simp [messy, regenPkgs] at hx
        subst hx
        simp [Demo.file] at hf
        subst hf
        simp at hi
    | @loadEmpty p q f hf hl =>
      have : (Demo.world messy).load [] = .err (.loadFailed []) := by decide +kernel
      rw [this] at hl
      cases hl
    | trans _ _ ih1 ih2 =>
      intro hp
      have e1 := ih1 hp
      have e2 := ih2 (by rw [e1.1]; decide)
      have := e1.1.symm.trans e2.2
      cases this
  exact (key 0 p h (by decide)).1

theorem messy_types : UniqueTypesAround (Demo.world messy) 0 := by
  have hu : UniqueTypes (Demo.world regenPkgs) := Demo.unique_of_check (by decide +kernel)
  intro p f f' ts ts' hp h1 h2
  have e : (Demo.world messy).files p = (Demo.world regenPkgs).files p := by
    rcases hp with rfl | h
    · rfl
    · rw [messy_around h]; rfl
  refine hu p f f' ts ts' ?_ ?_
  · unfold FileOf at h1 ⊢; rwa [e] at h1
  · unfold FileOf at h2 ⊢; rwa [e] at h2

theorem messy_imports : UniqueImportsAround (Demo.world messy) 0 := by
  intro p path q path' q' hp h h' _
  rcases hp with rfl | hp
  · simp [Demo.world, messy, regenPkgs] at h h'; rw [h.1, h'.1]
  · rw [messy_around hp] at h
    simp [Demo.world, messy, regenPkgs] at h

theorem messy_not_unique : ¬ UniqueImports (Demo.world messy) := by
  intro h
  have := h 4 g!"ex/log" 1 g!"log" 2 (by decide +kernel) (by decide +kernel) (by decide +kernel)
  exact absurd this (by decide)

/-- The hypotheses on the dependencies hold there, those on the whole workspace do not, and gowrap succeeds. -/
example : (∃ g, newGenerator (Demo.world messy) Demo.inOrder 20 regenOptions = .ok g ∧
    newGenerator (Demo.world messy) Demo.backwards 20 regenOptions = .ok g) ∧ ¬ UniqueImports (Demo.world messy) := by
  have hf : found (newGenerator (Demo.world messy) Demo.inOrder 20 regenOptions) = some [g!"A", g!"Get"] := by
    decide +kernel
  obtain ⟨g, hg, _⟩ := found_some hf
  exact ⟨⟨g, hg, (C23_dependencies_partial (src := 0) Demo.inOrder_fair Demo.backwards_fair (by decide +kernel)
    messy_types messy_imports g).1 hg⟩, messy_not_unique⟩

/-- `gowrap gen -p ex/app -i Svc -o ./dst/x.go` where `dst` has no Go files. -/
def newDirOptions : Options := { interfaceName := g!"Svc", sourcePackage := g!"/app", outputFile := g!"./dst/x.go" }

theorem regen_no_dst (p : PkgId) (f : File) (imp : ImportSpec) (hp : Around (Demo.world regenPkgs) 0 p)
    (hf : FileOf (Demo.world regenPkgs) p f) (hi : imp ∈ f.imports) : trimQuotes imp.path ≠ g!"./dst" := by
  rw [Demo.fileOf_world] at hf
  obtain ⟨x, hx, hf⟩ := hf
  rcases hp with rfl | h
  · simp [regenPkgs] at hx
    subst hx
    simp [Demo.file] at hf
    subst hf
    simp at hi
    subst hi
    decide +kernel
  · rw [regen_around h] at hx
    simp [regenPkgs] at hx
    subst hx
    simp [Demo.file] at hf
    subst hf
    simp at hi

/-- The hypotheses of C97 for a new directory hold there, and gowrap succeeds. -/
example : ∃ g, newGenerator (Demo.world regenPkgs) Demo.inOrder 20 newDirOptions = .ok g ∧
    newGenerator (addPackage (Demo.world regenPkgs) g!"./dst" 7 ⟨g!"dst", g!"ex/dst", [(g!"log", 2), (g!"/app", 0)]⟩ withLog)
      Demo.backwards 20 newDirOptions = .ok { g with dstPath := g!"ex/dst" } := by
  have hf : found (newGenerator (Demo.world regenPkgs) Demo.inOrder 20 newDirOptions) = some [g!"A", g!"Get"] := by
    decide +kernel
  obtain ⟨g, hg, _⟩ := found_some hf
  have hn : (match newGenerator (Demo.world regenPkgs) Demo.inOrder 20 newDirOptions with
      | .ok g => g.dstName | _ => []) = g!"dst" := by decide +kernel
  rw [hg] at hn
  refine ⟨g, hg, ?_⟩
  have hd : dstPackagePath (Demo.world regenPkgs) newDirOptions.outputFile = g!"./dst" := by decide +kernel
  have := (C97_new_directory (src := 0) (q := 7) (f := withLog) (e := .loadFailed g!"./dst")
    (info := ⟨g!"dst", g!"ex/dst", [(g!"log", 2), (g!"/app", 0)]⟩) Demo.inOrder_fair
    Demo.backwards_fair (types_around (w := Demo.world regenPkgs) (Demo.unique_of_check (by decide +kernel)) _) (imports_around regen_uniqueImports _) (by decide +kernel)
    (by decide +kernel) ?_ hn.symm (by decide +kernel) (by decide +kernel) (by decide +kernel) ?_ hg).1
  · rw [hd] at this
    exact this
  · rintro (h | h)
    · cases h
    · exact absurd (regen_around h) (by decide)
  · rw [hd]; exact regen_no_dst

end Gowrap.Props

import Verif.Props.Local
import Verif.Props.Deterministic
/-!
# C97 for the whole process
-/

namespace Gowrap.Props

open Gowrap Spec Tmpl

/-- If `x` succeeds then `y` does exactly the same. -/
def Follows {α : Type} (x y : Act α) : Prop := ∀ h a h', x h = (.ok a, h') → y h = (.ok a, h')

theorem Follows.bind {α β : Type} {x y : Act α} {f g : α → Act β} (h : Follows x y)
    (hf : ∀ k a k', x k = (.ok a, k') → Follows (f a) (g a)) : Follows (x >>= f) (y >>= g) := by
  intro k b k' hx
  rw [Act.run_bind] at hx ⊢
  cases hr : x k with
  | mk r k1 =>
    rw [hr] at hx
    cases r with
    | error e => cases hx
    | ok a =>
      rw [h k a k1 hr]
      exact hf k a k1 hr _ _ _ hx

theorem Follows.rfl {α : Type} {x : Act α} : Follows x x := fun _ _ _ h => h

/-- A run of the process that succeeds is the same in another world, if the source package has the same import path
there and the generator finds what gives the same header and body. -/
theorem process_follows {w w' : World} {sched sched' : Sched} {fuel : Nat} {s : Sys} {p : Proc} {args rest : List Str}
    {h : List Ev} {f : GenFlags} (ha : Words args (g!"gen" :: rest)) (hf : Usable rest f)
    (hl : w'.loadPackage (if f.sourcePkg = [] then g!"./" else f.sourcePkg) =
      w.loadPackage (if f.sourcePkg = [] then g!"./" else f.sourcePkg))
    (hg : ∀ o g, OptionsOf (w.sys sched fuel s) f o → w.newGenerator sched fuel o = .ok g →
      ∃ g', w'.newGenerator sched' fuel o = .ok g' ∧ w'.header g' o = w.header g o ∧ w'.body g' o = w.body g o)
    (h0 : (({ p with sys := w.sys sched fuel s } : Proc).main args h).1 = .code 0) :
    ({ p with sys := w'.sys sched' fuel s } : Proc).main args h = ({ p with sys := w.sys sched fuel s } : Proc).main args h := by
  have hopt : (w'.sys sched' fuel s).getOptions f = (w.sys sched fuel s).getOptions f := by
    unfold Sys.getOptions
    have : (fun h => (w'.sys sched' fuel s).loadPackage h (if f.sourcePkg = [] then g!"./" else f.sourcePkg)) =
        (fun h => (w.sys sched fuel s).loadPackage h (if f.sourcePkg = [] then g!"./" else f.sourcePkg)) := by
      funext h
      exact hl
    simp only [this]
    rfl
  have hgen : ∀ k o k', (w.sys sched fuel s).getOptions f k = (.ok o, k') →
      Follows ((w.sys sched fuel s).generate o) ((w'.sys sched' fuel s).generate o) := by
    intro k o k' ho
    cases hn : w.newGenerator sched fuel o with
    | ok g =>
      obtain ⟨g', h1, h2, h3⟩ := hg o g (optionsOf ho) hn
      have e : (w'.sys sched' fuel s).generate o = (w.sys sched fuel s).generate o := by
        have en : (fun h => (w'.sys sched' fuel s).newGenerator h o) = fun h => (w.sys sched fuel s).newGenerator h o := by
          funext h
          show (do let _ ← w'.newGenerator sched' fuel o; return ()) = (do let _ ← w.newGenerator sched fuel o; return ())
          rw [hn, h1]
          rfl
        have eh : (fun h => (w'.sys sched' fuel s).header h o) = fun h => (w.sys sched fuel s).header h o := by
          funext h
          show orElse (w'.newGenerator sched' fuel o) (fun g => w'.header g o) (s.header h o) =
            orElse (w.newGenerator sched fuel o) (fun g => w.header g o) (s.header h o)
          rw [hn, h1]
          simp only [orElse, h2]
        have eb : (fun h => (w'.sys sched' fuel s).body h o) = fun h => (w.sys sched fuel s).body h o := by
          funext h
          show orElse (w'.newGenerator sched' fuel o) (fun g => w'.body g o) (s.body h o) =
            orElse (w.newGenerator sched fuel o) (fun g => w.body g o) (s.body h o)
          rw [hn, h1]
          simp only [orElse, h3]
        unfold Sys.generate
        rw [en, eh, eb]
        rfl
      rw [e]
      exact .rfl
    | _ =>
      intro k a k' hx
      exfalso
      unfold Sys.generate at hx
      simp only [Act.run_emit_bind, Act.run_ask_bind] at hx
      have : ∀ h, (w.sys sched fuel s).newGenerator h o = (do let _ ← w.newGenerator sched fuel o; return ()) := fun _ => rfl
      rw [this, hn, Act.run_bind] at hx
      cases hx
  have hrun : Follows ((w.sys sched fuel s).runGen rest) ((w'.sys sched' fuel s).runGen rest) := by
    rw [runGen_usable hf, runGen_usable hf]
    unfold Sys.runChecked
    rw [hopt]
    exact Follows.rfl.bind fun k o k' ho => (hgen k o k' ho).bind fun _ src _ _ => .rfl
  rw [main_gen ha] at h0
  rw [main_gen ha, main_gen ha]
  have h1 := (dispatch_gen { p with sys := w.sys sched fuel s } rest h).1.1 h0
  have h2 : (w'.sys sched' fuel s).runGen rest h = (w.sys sched fuel s).runGen rest h := by
    cases hr : (w.sys sched fuel s).runGen rest h with
    | mk r k =>
      simp only [hr] at h1
      subst h1
      exact hrun _ _ _ hr
  have d1 := dispatch_gen { p with sys := w.sys sched fuel s } rest h
  have d2 := dispatch_gen { p with sys := w'.sys sched' fuel s } rest h
  simp only [h2] at d2
  refine Prod.ext ?_ (d2.2.trans d1.2.symm)
  rw [h0]
  exact d2.1.2 h1

/-- **C97** for the whole process (partial).  If `gowrap gen` with flags `f` exits with code 0, then so it does after the
generated file was added to the destination package, with the same effects: it writes the same bytes to the same file,
for all orders of reading maps in both runs, and if everything outside answers the same. -/
theorem C97_process_partial {w : World} {sched sched' : Sched} {fuel : Nat} {s : Sys} {p : Proc} {args rest : List Str}
    {h : List Ev} {f : GenFlags} {src q : PkgId} {file : File} {new : List (Str × PkgId)}
    (ha : Words args (g!"gen" :: rest)) (hf : Usable rest f) (hs : sched.Fair) (hs' : sched'.Fair)
    (hraw : ∀ ts, DeclaredIn file ts → w.raw (.ident ts.name) = ts.name) (hu : UniqueTypes (addFile w q file new))
    (hi : UniqueImports (addFile w q file new)) (hnew : ¬ FileOf w q file) (hfresh : Unembedded w q file)
    (hsrc : w.load (if f.sourcePkg = [] then g!"./" else f.sourcePkg) = .ok src)
    (hdst : w.load (dstPackagePath w f.outputFile) = .ok q) (hcyc : ¬ DependsOn w src q)
    (h0 : (({ p with sys := w.sys sched fuel s } : Proc).main args h).1 = .code 0) :
    ({ p with sys := (addFile w q file new).sys sched' fuel s } : Proc).main args h =
      ({ p with sys := w.sys sched fuel s } : Proc).main args h := by
  refine process_follows ha hf ?_ ?_ h0
  · have : (addFile w q file new).load = w.load := rfl
    unfold World.loadPackage
    rw [this, hsrc]
    simp only [addFile_path]
  · intro o g ho hg
    have hos : o.source = src := by
      obtain ⟨k, hk⟩ := ho.package
      have hk : w.loadPackage (if f.sourcePkg = [] then g!"./" else f.sourcePkg) = .ok (o.source, o.sourcePackage) := hk
      unfold World.loadPackage at hk
      rw [hsrc] at hk
      simp only [Except.ok.injEq, Prod.mk.injEq] at hk
      exact hk.1.symm
    have hod : w.load (dstPackagePath w (o.forGenerator o.source).outputFile) = .ok q := by
      have : (o.forGenerator o.source).outputFile = f.outputFile := ho.outputFile
      rw [this]; exact hdst
    obtain ⟨h1, h2⟩ := C97_again_partial hs hs' hraw hu hi hnew hfresh (src := src) (by rw [← hos]; rfl) hod hcyc hg
    exact ⟨g, h1, h2 o⟩

/-- **C97** for the whole process, for a directory without Go files. -/
theorem C97_process_new_directory {w : World} {sched sched' : Sched} {fuel : Nat} {s : Sys} {p : Proc}
    {args rest : List Str} {h : List Ev} {f : GenFlags} {src q : PkgId} {file : File} {info : PkgInfo} {e : Err}
    (ha : Words args (g!"gen" :: rest)) (hf : Usable rest f) (hs : sched.Fair) (hs' : sched'.Fair)
    (hu : UniqueTypesAround w src) (hi : UniqueImportsAround w src)
    (hsrc : w.load (if f.sourcePkg = [] then g!"./" else f.sourcePkg) = .ok src)
    (hdir : w.load (dstPackagePath w f.outputFile) = .err e) (hq : ¬ Around w src q)
    (hname : info.name = w.base (dstPackagePath w f.outputFile)) (hpath : info.path ≠ (w.pkg src).path)
    (hne : (w.pkg src).path ≠ []) (hempty : dstPackagePath w f.outputFile ≠ [])
    (himp : ∀ p h imp, Around w src p → FileOf w p h → imp ∈ h.imports →
      trimQuotes imp.path ≠ dstPackagePath w f.outputFile)
    (h0 : (({ p with sys := w.sys sched fuel s } : Proc).main args h).1 = .code 0) :
    ({ p with sys := (addPackage w (dstPackagePath w f.outputFile) q info file).sys sched' fuel s } : Proc).main args h =
      ({ p with sys := w.sys sched fuel s } : Proc).main args h := by
  have hsd : (if f.sourcePkg = [] then g!"./" else f.sourcePkg) ≠ dstPackagePath w f.outputFile := by
    intro e
    rw [e, hdir] at hsrc
    cases hsrc
  have hsq : src ≠ q := fun e => hq (.inl e.symm)
  refine process_follows ha hf ?_ ?_ h0
  · have : (addPackage w (dstPackagePath w f.outputFile) q info file).load
        (if f.sourcePkg = [] then g!"./" else f.sourcePkg) = .ok src := by
      simp only [addPackage]
      rw [if_neg hsd]
      exact hsrc
    unfold World.loadPackage
    rw [this, hsrc]
    simp [addPackage, hsq]
  · intro o g ho hg
    have hos : o.source = src := by
      obtain ⟨k, hk⟩ := ho.package
      have hk : w.loadPackage (if f.sourcePkg = [] then g!"./" else f.sourcePkg) = .ok (o.source, o.sourcePackage) := hk
      unfold World.loadPackage at hk
      rw [hsrc] at hk
      simp only [Except.ok.injEq, Prod.mk.injEq] at hk
      exact hk.1.symm
    have hof : (o.forGenerator o.source).outputFile = f.outputFile := ho.outputFile
    have hdn : g.dstName = w.base (dstPackagePath w f.outputFile) := by
      obtain ⟨_, _, _, h2, _⟩ := newGenerator_ok hg
      rw [hof] at h2
      unfold loadDestinationPackage makePackage at h2
      rw [hdir] at h2
      simp only at h2
      split at h2
      · cases h2
      · exact (Prod.mk.inj (Res.ok.inj h2)).1.symm
    have := C97_new_directory (src := src) (q := q) (f := file) (info := info) (o := o.forGenerator o.source) (g := g) hs hs' hu hi
      (by rw [← hos]; rfl) (by rw [hof]; exact hdir) hq (by rw [hname, hdn]) hpath hne (by rw [hof]; exact hempty)
      (by rw [hof]; exact himp) hg
    rw [hof] at this
    exact ⟨_, this.1, this.2 o⟩

/-! ### Examples -/

/-- `gowrap gen -p /app -i Svc -t templates/t -o <out>`, where `templates/t` prints the names of the methods. -/
def regenArgs (out : Str) : List Str := [g!"-p", g!"/app", g!"-i", g!"Svc", g!"-t", g!"templates/t", g!"-o", out]

def regenFlags (out : Str) : GenFlags :=
  { interfaceName := g!"Svc", sourcePkg := g!"/app", outputFile := out, template := g!"templates/t" }

def regenRun (w : World) (sched : Sched) (out : Str) : Exit × List Ev :=
  ({ Demo.proc with sys := w.sys sched 20 (Gowrap.Demo.disk namesTemplate) } : Proc).main (g!"gen" :: regenArgs out) []

theorem regen_words (out : Str) : Words (g!"gen" :: regenArgs out) (g!"gen" :: regenArgs out) :=
  .plain _ _ (.inr (by decide))

theorem regen_flags {out : Str} (h : out ≠ []) : Usable (regenArgs out) (regenFlags out) :=
  ⟨⟨[], (C35_flags _ _ _).1 rfl⟩, h, by simp [regenFlags], by simp [regenFlags]⟩

/-- The first run writes one file, and the second one, with the generated file present, does the same. -/
example : regenRun (addFile (Gowrap.Demo.world regenPkgs) 0 withTimeout [(g!"time", 3)]) Gowrap.Demo.backwards g!"/app/x.go" =
      regenRun (Gowrap.Demo.world regenPkgs) Gowrap.Demo.inOrder g!"/app/x.go" ∧
    (regenRun (Gowrap.Demo.world regenPkgs) Gowrap.Demo.inOrder g!"/app/x.go").1 = .code 0 ∧
    (written (regenRun (Gowrap.Demo.world regenPkgs) Gowrap.Demo.inOrder g!"/app/x.go").2).length = 1 := by
  have h0 : (regenRun (Gowrap.Demo.world regenPkgs) Gowrap.Demo.inOrder g!"/app/x.go").1 = .code 0 := by decide +kernel
  refine ⟨?_, h0, by decide +kernel⟩
  exact C97_process_partial (src := 0) (f := regenFlags g!"/app/x.go") (regen_words _) (regen_flags (by decide))
    Gowrap.Demo.inOrder_fair Gowrap.Demo.backwards_fair regen_raw
    (by rw [regen_add]; exact Gowrap.Demo.unique_of_check (by decide +kernel)) regen_timeout_imports
    (regen_new (by decide)) (regen_unembedded _) (by decide +kernel) (by decide +kernel)
    (fun h => absurd (regen_acyclic h) (by decide)) h0

/-- The same for a directory without Go files. -/
example : regenRun (addPackage (Gowrap.Demo.world regenPkgs) g!"./dst" 7 ⟨g!"dst", g!"ex/dst", [(g!"log", 2), (g!"/app", 0)]⟩ withLog)
        Gowrap.Demo.backwards g!"./dst/x.go" =
      regenRun (Gowrap.Demo.world regenPkgs) Gowrap.Demo.inOrder g!"./dst/x.go" ∧
    (regenRun (Gowrap.Demo.world regenPkgs) Gowrap.Demo.inOrder g!"./dst/x.go").1 = .code 0 ∧
    (written (regenRun (Gowrap.Demo.world regenPkgs) Gowrap.Demo.inOrder g!"./dst/x.go").2).length = 1 := by
  have h0 : (regenRun (Gowrap.Demo.world regenPkgs) Gowrap.Demo.inOrder g!"./dst/x.go").1 = .code 0 := by decide +kernel
  refine ⟨?_, h0, by decide +kernel⟩
  have hd : dstPackagePath (Gowrap.Demo.world regenPkgs) (regenFlags g!"./dst/x.go").outputFile = g!"./dst" := by decide +kernel
  have := C97_process_new_directory (w := Gowrap.Demo.world regenPkgs) (sched := Gowrap.Demo.inOrder) (fuel := 20)
    (s := Gowrap.Demo.disk namesTemplate) (p := Demo.proc) (h := []) (src := 0) (q := 7) (file := withLog)
    (info := ⟨g!"dst", g!"ex/dst", [(g!"log", 2), (g!"/app", 0)]⟩) (e := .loadFailed g!"./dst")
    (f := regenFlags g!"./dst/x.go") (regen_words _) (regen_flags (by decide))
    Gowrap.Demo.inOrder_fair Gowrap.Demo.backwards_fair (types_around (Gowrap.Demo.unique_of_check (by decide +kernel)) _)
    (imports_around regen_uniqueImports _)
    (by decide +kernel) (by decide +kernel)
    (by
      rintro (h | h)
      · cases h
      · exact absurd (regen_around h) (by decide))
    (by decide +kernel) (by decide +kernel) (by decide +kernel) (by decide +kernel)
    (by rw [hd]; exact regen_no_dst) h0
  rw [hd] at this
  exact this

end Gowrap.Props

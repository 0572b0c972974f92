import Verif.Props.SourceFile
import Verif.Props.CompilesDemo
/-!
# Examples for C78

The interface `Cache` of `CompilesDemo`, generated into other directories.
-/

namespace Gowrap.Demo

open Gowrap Spec Tmpl Go

def cacheGen (dir : Str) (vars : List VarFlag) : GenOptions where
  interfaceName := g!"Cache"
  outputFile := g!"/home/" ++ dir ++ g!"/x.go"
  disableGoGenerate := false
  outputFileName := g!"x.go"
  varsArgs := varsToArgs vars
  vars := varsMap vars
  localPrefix := []
  sourcePackage := g!"ex/app"
  source := 0
  bodyTemplate := []
  template := g!"../templates/log"

theorem cache_imports : ∀ p f, FileOf cacheWorld p f → ∀ im ∈ f.imports, ImportOk im := by
  intro p f hf im him
  obtain ⟨rfl, rfl⟩ := cache_files.1 hf
  cases List.mem_singleton.1 him
  exact ⟨.inl rfl, g!"context", rfl, by unfold InQuotes; decide⟩

theorem cache_paths (p : PkgId) : InQuotes (cacheWorld.pkg p).path := by
  match p with
  | 0 => show InQuotes g!"ex/app"; unfold InQuotes; decide
  | 1 => show InQuotes g!"context"; unfold InQuotes; decide
  | n + 2 => exact fun c hc => nomatch hc

def outClear : Bool :=
  match newGenerator cacheWorld inOrder 20 ((cacheGen g!"out" []).forGenerator 0) with
  | .ok g => g.dstName = g!"out" && g.methods.all (fun e => e.2.acceptsContext) &&
    (builtins.zip locals).all fun bl => clear cacheWorld.uni (g.inputs ((cacheGen g!"out" []).forGenerator 0) fun _ => none) bl.1 bl.2
  | _ => false

theorem out_clear : outClear = true := by decide +kernel

theorem out_line : OneLine (cacheGen g!"out" []) := ⟨by decide, by decide, by decide, by decide, by decide⟩

/-- Non-vacuity of C78: the whole file compiles for every template. -/
example : ∃ g, newGenerator cacheWorld inOrder 20 ((cacheGen g!"out" []).forGenerator 0) = .ok g ∧ ∀ bl ∈ builtins.zip locals,
    Props.IsSourceFile cacheWorld g (cacheGen g!"out" []) bl.1 ∧
    ∃ t f ts ds, g.source cacheWorld (cacheGen g!"out" []) bl.1.text = some t ∧ FileOf cacheWorld g.srcPackage f ∧ DeclaredIn f ts ∧
      ts.name = g!"Cache" ∧
      Go.tokens t = some (fileToks g.dstName
        (neededImports cacheWorld ((cacheGen g!"out" []).forGenerator g.srcPackage) g.srcPackage g.dstPath f) ds) ∧
      Go.Grammatical (goTypes (copiedOf cacheWorld.raw)) ds ∧
      Compiles (g.inputs ((cacheGen g!"out" []).forGenerator 0) fun _ => none) bl.1 bl.2 ds := by
  have h := out_clear
  unfold outClear at h
  split at h
  · next g hg =>
    rw [Bool.and_eq_true, Bool.and_eq_true] at h
    have hn : GoName g.dstName := by
      rw [of_decide_eq_true h.1.1]
      exact goName_of (by decide +kernel)
    have hc : ∀ e ∈ g.methods, e.2.acceptsContext = true := List.all_eq_true.mp h.1.2
    have hv : GoVars (g.inputs ((cacheGen g!"out" []).forGenerator 0) (cacheGen g!"out" []).vars) := no_vars rfl
    refine ⟨g, hg, fun bl hb => ⟨?_, ?_⟩⟩
    · exact Props.C78_source_file_partial inOrder_fair cache_source cache_imports (goName_of (by decide +kernel)) rfl (cache_paths 0) hg hv
        out_line hn bl.1 (List.of_mem_zip hb).1
    · exact Props.C78_compiles_partial inOrder_fair cache_source cache_imports (goName_of (by decide +kernel)) rfl (cache_paths 0) hg hv
        out_line hn bl hb (unambiguous_of (List.all_eq_true.mp h.2 bl hb) (List.of_mem_zip hb).1 rfl) ⟨fun _ => hc, fun _ e he _ => hc e he⟩
  · cases h

/-- The first tokens of a file. -/
def start (dir : Str) (vars : List VarFlag) (b : Str) : Option (List Go.Tok) :=
  match newGenerator cacheWorld inOrder 20 ((cacheGen dir vars).forGenerator 0) with
  | .ok g => do
    let t ← g.source cacheWorld (cacheGen dir vars) b
    let l ← Go.tokens t
    return l.take 5
  | _ => none

end Gowrap.Demo

namespace Gowrap.Props

open Gowrap Spec Tmpl Go

/-- A finding: the package of a new directory `my-pkg` gets the name of the directory, which is not an identifier. -/
theorem C78_directory : Demo.start g!"my-pkg" [] Text.log =
    some [.word g!"package", .word g!"my", .op g!"-", .word g!"pkg", .op g!";"] := by
  decide +kernel

/-- A finding: a line break in a template variable ends the comment in which the header repeats the command line. -/
theorem C78_line_break : Demo.start g!"out" [⟨g!"Text", .text g!"a\nvar b"⟩] Text.log =
    some [.word g!"package", .word g!"out", .op g!";", .word g!"var", .word g!"b"] := by
  decide +kernel

/-- **C78** The full claim fails. -/
theorem C78_full_false : ¬ C78_full := by
  intro h
  have hd := C78_directory
  unfold Demo.start at hd
  split at hd
  · next g hg =>
    obtain ⟨t, f, ts, ds, h1, _, _, _, h5, _⟩ := h Demo.cacheWorld Demo.inOrder Demo.inOrder_fair Demo.cache_source Demo.cache_imports
      Demo.cache_paths 20 (Demo.cacheGen g!"my-pkg" []) 0 (Demo.goName_of (by decide +kernel)) rfl g hg (Demo.no_vars rfl) _
      (List.mem_cons_self ..)
    simp only at h1
    rw [h1] at hd
    simp only [Option.bind_eq_bind, Option.bind_some, h5, Option.pure_def, Option.some.injEq] at hd
    have : (fileToks g.dstName (neededImports Demo.cacheWorld ((Demo.cacheGen g!"my-pkg" []).forGenerator g.srcPackage) g.srcPackage g.dstPath f)
        ds)[2]? = some (.op g!"-") := by
      have := congrArg (·[2]?) hd
      simpa using this
    simp [fileToks] at this
  · cases hd

end Gowrap.Props

import Verif.Props.Command
import Verif.Props.WorksDemo
import Verif.Props.SourceFileDemo
/-!
# Examples for C81

`gowrap gen -p ex/app -i Cache -t templates/t -o <dir>/x.go` for the interface `Cache` of Props/CompilesDemo, with a built-in template in the
file `templates/t`.
-/

namespace Gowrap.Demo

open Gowrap Props Spec Tmpl Go

/-- Files can be written, and goimports leaves the text as it is. -/
def disk (b : Str) : Sys := { Props.Demo.sys with
  net := { Props.Demo.net (fun _ => ⟨404, .ok [], none⟩) with
    readFile := fun _ p => if p = g!"templates/t" then .contents (utf8 b) else .notExist }
  process := fun _ _ _ bs => .ok bs
  writeFile := fun _ _ _ => none }

def shell (b : Str) : Proc := { Props.Demo.proc with sys := cacheWorld.sys inOrder 20 (disk b) }

def genArgs (dir : Str) : List Str :=
  [g!"-p", g!"ex/app", g!"-i", g!"Cache", g!"-t", g!"templates/t", g!"-o", dir ++ g!"/x.go"]

def genFlags (dir : Str) : GenFlags := { interfaceName := g!"Cache", sourcePkg := g!"ex/app", outputFile := dir ++ g!"/x.go", template := g!"templates/t" }

theorem gen_words (dir : Str) : Words (g!"gen" :: genArgs dir) (g!"gen" :: genArgs dir) := .plain _ _ (.inr (by decide))

theorem gen_flags (dir : Str) : Usable (genArgs dir) (genFlags dir) :=
  ⟨⟨[], (C35_flags _ _ _).1 rfl⟩, by cases dir <;> simp [genFlags], by simp [genFlags], by simp [genFlags]⟩

/-- The flags determine the options. -/
theorem gen_options {dir b : Str} {f : GenFlags} {o : GenOptions} (hf : Usable (genArgs dir) f)
    (ho : OptionsOf (cacheWorld.sys inOrder 20 (disk b)) f o) :
    f = genFlags dir ∧ o.interfaceName = g!"Cache" ∧ o.outputFile = dir ++ g!"/x.go" ∧ o.sourcePackage = g!"ex/app" ∧ o.source = 0 ∧
    o.vars = (fun _ => none) ∧ o.localPrefix = [] ∧ o.varsArgs = [] ∧ o.outputFileName = basePath (dir ++ g!"/x.go") ∧ o.bodyTemplate = utf8 b := by
  obtain ⟨rest, hr⟩ := hf.1
  have hf' : f = genFlags dir := by
    have h1 := (C35_flags _ _ _).2 hr
    have h2 : parseGen {} (genArgs dir) = .ok (genFlags dir, []) := rfl
    rw [h2] at h1
    cases h1
    rfl
  subst hf'
  obtain ⟨_, hp⟩ := ho.package
  have hp' : (Except.ok (0, g!"ex/app") : Except CErr (PkgId × Str)) = .ok (o.source, o.sourcePackage) := hp
  obtain ⟨k, k', url, ht⟩ := ho.template
  have ht' : (disk b).loaderLoad g!"templates/t" k = (.ok (o.bodyTemplate, url), k') := ht
  rw [(C36_local_first (disk b) g!"templates/t" k).1 (utf8 b) rfl] at ht'
  simp only [Except.ok.injEq, Prod.mk.injEq] at hp' ht'
  refine ⟨rfl, ho.interfaceName, ho.outputFile, hp'.2.symm, hp'.1.symm, ?_, ho.localPrefix, ho.header.2.2, ho.header.2.1, ht'.1.1.symm⟩
  funext n
  rw [ho.vars n]
  rfl

/-- The reference to the template. -/
theorem gen_reference {dir b ref : Str} {f : GenFlags} {o : GenOptions} (hf : Usable (genArgs dir) f)
    (ho : OptionsOf (cacheWorld.sys inOrder 20 (disk b)) f o)
    (hr : relPath (absPath [g!"home", g!"u"] (dirPath (dir ++ g!"/x.go"))) (absPath [g!"home", g!"u"] g!"templates/t") = some ref) :
    o.template = ref := by
  obtain ⟨k, k', ht⟩ := ho.reference
  obtain ⟨rfl, _⟩ := gen_options hf ho
  have ht' : (disk b).loadTemplate (genFlags dir) (absPath [g!"home", g!"u"] (dirPath (dir ++ g!"/x.go"))) k =
    (.ok (o.bodyTemplate, o.template), k') := ht
  unfold Sys.loadTemplate at ht'
  have e : (disk b).loaderLoad (genFlags dir).template k = (.ok (utf8 b, g!"templates/t"), k ++ [.readFile g!"templates/t"]) :=
    (C36_local_first (disk b) g!"templates/t" k).1 (utf8 b) rfl
  rw [Act.run_bind, e] at ht'
  have e2 : (disk b).cwd = [g!"home", g!"u"] := rfl
  have e3 : hasPrefix g!"templates/t" g!"https://" = false := by decide
  simp only [e2, e3, hr, Bool.false_eq_true, if_false] at ht'
  simp only [Act.run_pure, Prod.mk.injEq, Except.ok.injEq] at ht'
  exact ht'.1.2.symm

def outOptions (dir : Str) : Options :=
  { interfaceName := g!"Cache", sourcePackage := g!"ex/app", sourceInstance := some 0, outputFile := dir ++ g!"/x.go" }

theorem gen_generator {dir b : Str} {f : GenFlags} {o : GenOptions} (hf : Usable (genArgs dir) f)
    (ho : OptionsOf (cacheWorld.sys inOrder 20 (disk b)) f o) : o.forGenerator o.source = outOptions dir ∧ o.forGenerator 0 = outOptions dir := by
  obtain ⟨_, h1, h2, h3, h4, _⟩ := gen_options hf ho
  constructor <;> simp only [GenOptions.forGenerator, outOptions, h1, h2, h3, h4]

/-- The interface is accepted, no names are confused, and errors are errors. -/
def outReady (dir name : Str) : Bool :=
  match newGenerator cacheWorld inOrder 20 (outOptions dir) with
  | .ok g => g.dstName = name && g.srcPackage = 0 && g.methods.all (fun e => e.2.acceptsContext) &&
    (g.methods.all fun e => e.2.results.all fun p => decide (p.name = g!"err" → p.type = g!"error")) &&
    (builtins.zip locals).all fun bl => clear cacheWorld.uni (g.inputs (outOptions dir) fun _ => none) bl.1 bl.2
  | _ => false

theorem out_ready : outReady g!"out" g!"out" = true := by decide +kernel

theorem cache_name : GoName g!"Cache" := goName_of (by decide +kernel)

/-- `gowrap gen` exits with code 0 for all built-in templates. -/
theorem gen_succeeds (dir : Str) {g : Generator} (hg : newGenerator cacheWorld inOrder 20 (outOptions dir) = .ok g) {b : Builtin} (hb : b ∈ builtins)
    (h : List Ev) : ((shell b.text).main (g!"gen" :: genArgs dir) h).1 = .code 0 := by
  refine C81_succeeds (w := cacheWorld) (sched := inOrder) (fuel := 20) (s := disk b.text) rfl inOrder_fair cache_source (gen_words dir) (gen_flags dir)
    cache_name (src := 0) rfl hb (fun h => ?_) (fun o ho _ => ⟨g, ?_, no_vars ?_⟩) (fun _ bs => ⟨bs, rfl⟩) (fun _ => rfl) (fun _ _ => rfl)
  · exact ⟨_, _, _, (C36_local_first (disk b.text) g!"templates/t" h).1 (utf8 b.text) rfl, encodes_utf8 _⟩
  · rw [(gen_generator (gen_flags dir) ho).2]; exact hg
  · exact (gen_options (gen_flags dir) ho).2.2.2.2.2.1

/-- Non-vacuity of C81: for every built-in template `gowrap gen` exits with code 0, and the file that it writes contains the decorator. -/
theorem cache_written (p : Builtin × Locals) (hp : p ∈ builtins.zip locals) :
    ((shell p.1.text).main (g!"gen" :: genArgs g!"out") []).1 = .code 0 ∧
    ∃ ev f o g input, ((shell p.1.text).main (g!"gen" :: genArgs g!"out") []).2 = ev ∧
      GenRun cacheWorld inOrder 20 (disk p.1.text) (genArgs g!"out") ev f o g input ∧
      ∃ q ∈ promises cacheWorld (o.forGenerator o.source) g o.vars, q.1 = p ∧ ∃ text, Encodes text input ∧ DecoratorFile cacheWorld g o q.1 q.2 text := by
  have h := out_ready
  unfold outReady at h
  split at h
  · next g hg =>
    simp only [Bool.and_eq_true] at h
    obtain ⟨⟨⟨⟨hd, hs⟩, hc⟩, he⟩, hcl⟩ := h
    have hc' : ∀ e ∈ g.methods, e.2.acceptsContext = true := List.all_eq_true.mp hc
    have h0 := gen_succeeds g!"out" hg (List.of_mem_zip hp).1 []
    refine ⟨h0, ?_⟩
    obtain ⟨ev, f, o, g', input, h1, h2, h3⟩ := C81_gen_partial (w := cacheWorld) (sched := inOrder) (fuel := 20) (s := disk p.1.text) rfl
      (gen_words g!"out") h0
    have hgo := (gen_generator h2.flags h2.options).1
    obtain ⟨hf, ho1, ho2, ho3, ho4, ho5, ho6, ho7, ho8, ho9⟩ := gen_options h2.flags h2.options
    have hgg : g' = g := by
      have := h2.generator
      rw [hgo, hg] at this
      exact (Res.ok.inj this).symm
    subst hgg
    have hq : p ∈ (promises cacheWorld (o.forGenerator o.source) g' o.vars).map (·.1) := by rw [promises_templates]; exact hp
    obtain ⟨q, hq1, hq2⟩ := List.mem_map.mp hq
    refine ⟨ev, f, o, g', input, by simpa using h1, h2, q, hq1, hq2, h3 q hq1 ?_ ?_ ?_⟩
    · rw [hq2, ho9]; exact encodes_utf8 _
    · refine ⟨cache_imports, cache_paths _, ?_, ?_⟩
      · have := gen_reference h2.flags h2.options (ref := g!"../templates/t") (by decide +kernel)
        exact ⟨by rw [this]; decide, by rw [ho1]; decide, by rw [ho8]; decide, by rw [ho7]; decide, by rw [ho6]; decide⟩
      · rw [of_decide_eq_true hd]
        exact goName_of (by decide +kernel)
    · rw [hgo, ho5]
      exact {
        fair := inOrder_fair
        source := cache_source
        options := ⟨goName_of (by decide +kernel), .inl rfl⟩
        found := hg
        given := no_vars rfl
        names := unambiguous_of (by rw [hq2]; exact List.all_eq_true.mp hcl p hp) (by rw [hq2]; exact (List.of_mem_zip hp).1) rfl
        suits := ⟨fun _ e he => hc' e he, fun _ e he _ => hc' e he⟩
        error := fun e hem _ r hr hn => by
          have := List.all_eq_true.mp (List.all_eq_true.mp he e hem) r hr
          exact of_decide_eq_true this hn }
  · cases h

end Gowrap.Demo

namespace Gowrap.Props

open Gowrap Spec Tmpl Go

/-- The options of the command for the directory `my-pkg`. -/
def Demo.myOptions (body : Bytes) : GenOptions where
  interfaceName := g!"Cache"
  outputFile := g!"my-pkg/x.go"
  disableGoGenerate := false
  outputFileName := g!"x.go"
  varsArgs := []
  vars := fun _ => none
  localPrefix := []
  sourcePackage := g!"ex/app"
  source := 0
  bodyTemplate := body
  template := g!"../templates/t"

/-- The first tokens of the generated file. -/
def Demo.myPkg : Option (List Go.Tok) :=
  match newGenerator Demo.cacheWorld Demo.inOrder 20 (Demo.outOptions g!"my-pkg") with
  | .ok g => do
    let t ← g.source Demo.cacheWorld (Demo.myOptions []) Text.log
    let l ← Go.tokens t
    return l.take 5
  | _ => none

theorem Demo.my_pkg : Demo.myPkg = some [.word g!"package", .word g!"my", .op g!"-", .word g!"pkg", .op g!";"] := by decide +kernel

theorem Demo.my_options {b : Str} {f : GenFlags} {o : GenOptions} (hf : Usable (Demo.genArgs g!"my-pkg") f)
    (ho : OptionsOf (Demo.cacheWorld.sys Demo.inOrder 20 (Demo.disk b)) f o) : o = Demo.myOptions (utf8 b) := by
  have h1 := Demo.gen_reference hf ho (ref := g!"../templates/t") (by decide +kernel)
  obtain ⟨e, h2, h3, h4, h5, h6, h7, h8, h9, h10⟩ := Demo.gen_options hf ho
  have h11 := ho.header.1
  rw [e] at h11
  cases o
  simp only at h1 h2 h3 h4 h5 h6 h7 h8 h9 h10 h11
  subst h1 h2 h3 h4 h5 h6 h7 h8 h9 h10 h11
  rfl

/-- The full claim fails: in a new directory `my-pkg` the command exits with code 0 (if goimports does not object) and writes a file that is not
a Go file. -/
theorem C81_full_false : ¬ C81_full := by
  intro hfull
  have h := Demo.my_pkg
  unfold Demo.myPkg at h
  split at h
  · next g hg =>
    have hb : Spec.logT.1 ∈ builtins := (List.of_mem_zip (b := Spec.logT.2) (l₂ := locals) (List.mem_cons_self ..)).1
    have h0 := Demo.gen_succeeds g!"my-pkg" hg hb []
    have gen : ∀ {g' : Generator} {o : GenOptions} {f : GenFlags}, Usable (Demo.genArgs g!"my-pkg") f →
        OptionsOf (Demo.cacheWorld.sys Demo.inOrder 20 (Demo.disk Spec.logT.1.text)) f o →
        newGenerator Demo.cacheWorld Demo.inOrder 20 (o.forGenerator o.source) = .ok g' → g' = g := by
      intro g' o f hf ho hn
      rw [(Demo.gen_generator hf ho).1, hg] at hn
      exact (Res.ok.inj hn).symm
    have wr : ∀ {ev : List Ev} {f : GenFlags} {o : GenOptions} {g : Generator} {input : Bytes},
        GenRun Demo.cacheWorld Demo.inOrder 20 (Demo.disk Spec.logT.1.text) (Demo.genArgs g!"my-pkg") ev f o g input →
        ev.filter (fun e => decide (ChangesFiles e)) = [.mkdirAll (dirPath f.outputFile), .writeFile f.outputFile input true] := by
      intro ev f o g input hr
      obtain ⟨k, source, hp, hw⟩ := hr.written
      have : (Except.ok input : Except CErr Bytes) = .ok source := hp
      cases this
      exact hw
    obtain ⟨ev, f, o, g', input, h1, h2, h3⟩ := hfull Demo.cacheWorld Demo.inOrder 20 (Demo.disk Spec.logT.1.text) _ rfl Demo.inOrder_fair
      Demo.cache_source Demo.cache_imports Demo.cache_paths _ _ [] (Demo.gen_words g!"my-pkg") h0
    obtain ⟨ev', f', o', g'', input', h4, h5, h6⟩ := run_gen (w := Demo.cacheWorld) (sched := Demo.inOrder) (fuel := 20)
      (s := Demo.disk Spec.logT.1.text) (p := Demo.shell Spec.logT.1.text) rfl (Demo.gen_words g!"my-pkg") h0
    have hev : ev = ev' := by
      rw [h1] at h4
      simpa using h4
    subst hev
    have hin : input = input' := by
      have := wr h2
      rw [wr h5] at this
      simp only [List.cons.injEq, Ev.writeFile.injEq] at this
      exact this.2.1.2.1.symm
    subst hin
    have e1 := gen h2.flags h2.options h2.generator
    have e2 := gen h5.flags h5.options h5.generator
    have e3 := Demo.my_options h2.flags h2.options
    have e4 := Demo.my_options h5.flags h5.options
    subst e3 e4
    rw [e1] at h3
    rw [e2] at h6
    obtain ⟨text, t1, fl, ts, ds, t2, t3, t4, t5, _⟩ := h3 Demo.cache_name (Demo.no_vars rfl)
      (Spec.logT, logPromise ((Demo.myOptions (utf8 Spec.logT.1.text)).forGenerator 0) g fun _ => none) (List.mem_cons_self ..) (encodes_utf8 _)
    have hsrc : ∀ b, g.source Demo.cacheWorld (Demo.myOptions b) Text.log = g.source Demo.cacheWorld (Demo.myOptions []) Text.log := fun _ => rfl
    cases hx : g.source Demo.cacheWorld (Demo.myOptions []) Text.log with
    | none => rw [hx] at h; cases h
    | some t =>
      have := h6 Text.log t (encodes_utf8 _) (by rw [hsrc]; exact hx)
      rw [encodes_iff.1 t1] at this
      rw [hx, ← utf8_inj this] at h
      simp only [Option.bind_eq_bind, Option.bind_some, t5, Option.pure_def, Option.some.injEq] at h
      have := congrArg (·[2]?) h
      simp [fileToks] at this
  · cases h

end Gowrap.Props

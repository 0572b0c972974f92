import Verif.Props.Exits
import Verif.Props.CommandDemo
/-!
# Examples and counterexamples for C83
-/

namespace Gowrap.Demo

open Gowrap Spec Props

/-- What the parser returns for a package of one file without imports. -/
theorem solo_parsed {specs : List TypeSpec} (h : ∀ ts ∈ specs, ParsedSpec ts) : ParsedPackages (solo specs) where
  specs := by
    intro p f ts hf hd
    obtain ⟨rfl, rfl⟩ := solo_files.1 hf
    exact h ts (declaredIn_file.1 hd)
  imports := by
    intro p f hf im him
    obtain ⟨rfl, rfl⟩ := solo_files.1 hf
    simp [file] at him
  returns := ⟨by
    intro p
    match p with
    | 0 => intro h; cases h
    | n + 1 => simp [solo, world], by
    intro path
    simp only [solo, world]
    split <;> simp⟩
  files := by
    intro p
    match p with
    | 0 => intro h; cases h
    | n + 1 => simp [solo, world]
  load := by
    intro path
    simp only [solo, world]
    split <;> simp

theorem solo_acyclicImports {specs : List TypeSpec} : AcyclicImports (solo specs) := by
  refine ⟨fun p => ⟨_, ?_⟩⟩
  rintro q ⟨path, h⟩
  rw [solo_imports] at h
  cases h

theorem solo_packages {specs : List TypeSpec} (h : ∀ ts ∈ specs, ParsedSpec ts) : GoPackages (solo specs) :=
  ⟨solo_parsed h, solo_plain _, solo_loads _, solo_acyclicImports⟩

/-- A process in a system where files can be written, with an empty template. -/
def terminal : Proc := { Props.Demo.proc with sys := disk [] }

/-! ## The hypotheses hold for the packages of `app` -/

theorem app_packages : GoPackages app where
  plain := app_plain
  loads := app_loads
  imports := app_acyclicImports
  parsed :=
    { returns := app_returns
      files := by
        intro p
        match p with
        | 0 => intro h; cases h
        | 1 => intro h; cases h
        | n + 2 => simp [app, world]
      load := by
        intro path
        simp only [app, world]
        split <;> simp
      imports := by
        intro p f hf im him
        rcases app_files.1 hf with ⟨_, rfl | rfl⟩ | ⟨_, rfl⟩
        · simp [fileA, file] at him
          subst him
          decide
        · simp [fileB, file] at him
        · simp [fileS, file] at him
      specs := by
        intro p f ts hf hd
        have := app_declares ⟨f, hf, hd⟩
        simp only [typeSpecs, fileA, fileB, fileS, file, List.map_cons, List.map_nil, List.flatMap_cons, List.flatMap_nil, List.append_nil,
          List.cons_append, List.nil_append, List.mem_cons, List.not_mem_nil, or_false] at this
        rcases this with rfl | rfl | rfl | rfl | rfl | rfl <;> refine ⟨nofun, fun ms hm => ?_⟩ <;>
          simp only [iface, Expr.ifaceT.injEq, reduceCtorEq] at hm <;> subst hm <;>
          simp [fld, meth, Field.type, Field.names, NonEmptyIdents, Qualified, NonEmptyIdentsFields, NonEmptyIdentsOpt, string_, error_,
            NonEmptyIdentsField] }

theorem app_usual : UsualMembers app := by
  intro p f ts hf hd ms hm fd hfd ps rs hft
  have := app_declares ⟨f, hf, hd⟩
  simp only [typeSpecs, fileA, fileB, fileS, file, List.map_cons, List.map_nil, List.flatMap_cons, List.flatMap_nil, List.append_nil,
    List.cons_append, List.nil_append, List.mem_cons, List.not_mem_nil, or_false] at this
  rcases this with rfl | rfl | rfl | rfl | rfl | rfl <;>
    simp only [iface, Expr.ifaceT.injEq, reduceCtorEq] at hm <;> subst hm <;>
    simp only [List.mem_cons, List.not_mem_nil, or_false] at hfd <;> (try rcases hfd with rfl | rfl | rfl) <;> (try rcases hfd with rfl | rfl) <;>
    (try subst hfd) <;> simp [fld, meth, Field.type, Field.names] at hft ⊢ <;> simp [← hft.2]

/-- Non-vacuity of C83: `gowrap` exits, whatever it is asked to do in the packages of `app`. -/
example (s : Sched) (hs : s.Fair) (args : List Str) (h : args ≠ [g!"--"]) : Exits app s terminal args [] :=
  C83_exits_partial hs app_packages app_usual app_acyclicTypes terminal args h []

/-! ## Crashes -/

/-- `type Cache interface { M() () }` -/
def unitResults : TypeSpec := iface g!"Cache" [fld [g!"M"] (.funcT [] (some []))]

/-- `type Cache interface { M() error; func() }` -/
def funcElement : TypeSpec := iface g!"Cache" [meth g!"M" error_, fld [] (.funcT [] none)]

theorem unitResults_crashes (fuel : Nat) :
    ({ terminal with sys := (solo [unitResults]).sys inOrder (fuel + 20) terminal.sys }.main (g!"gen" :: genArgs g!"out") []).1 = .crash := by
  krfl

theorem funcElement_crashes (fuel : Nat) :
    ({ terminal with sys := (solo [funcElement]).sys inOrder (fuel + 20) terminal.sys }.main (g!"gen" :: genArgs g!"out") []).1 = .crash := by
  krfl

theorem unitResults_parsed : ParsedSpec unitResults := by
  refine ⟨nofun, fun ms hm => ?_⟩
  simp only [unitResults, iface, Expr.ifaceT.injEq] at hm
  subst hm
  simp [fld, Field.type, Field.names, NonEmptyIdents, Qualified, NonEmptyIdentsFields, NonEmptyIdentsOpt]

theorem funcElement_parsed : ParsedSpec funcElement := by
  refine ⟨nofun, fun ms hm => ?_⟩
  simp only [funcElement, iface, Expr.ifaceT.injEq] at hm
  subst hm
  simp [fld, meth, Field.type, Field.names, NonEmptyIdents, Qualified, NonEmptyIdentsFields, NonEmptyIdentsOpt, NonEmptyIdentsField, error_]

/-- No interface of these packages embeds a type of the package. -/
theorem solo_acyclicTypes {ts : TypeSpec} {R : Str → Expr → Prop} (h : ¬ R ts.name ts.type) : AcyclicTypes (solo [ts]) R := by
  refine acyclic_of_rank (fun _ => 0) ?_
  rintro p a b ⟨f', hf', hd'⟩ ⟨f, hf, hd⟩ hm
  rw [solo_files] at hf hf'
  obtain ⟨rfl, rfl⟩ := hf
  obtain ⟨_, rfl⟩ := hf'
  rw [declaredIn_file] at hd hd'
  simp only [List.mem_cons, List.not_mem_nil, or_false] at hd hd'
  subst hd hd'
  exact absurd hm h

theorem not_exits {w : World} {s : Sched} {p : Proc} {args : List Str} {h : List Ev} {e : Exit} (he : ∀ c, e ≠ .code c) (k : Nat)
    (hc : ∀ fuel, ({ p with sys := w.sys s (fuel + k) p.sys }.main args h).1 = e) : ¬ Exits w s p args h := by
  rintro ⟨N, c, h', _, hN⟩
  have h1 := hN (N + k) (by omega)
  have h2 := hc N
  rw [h1] at h2
  exact he c h2.symm

end Gowrap.Demo

namespace Gowrap.Props

open Gowrap Spec

/-- The full claim is false: gowrap crashes on an interface with the method `M() ()`, which is valid Go. -/
theorem C83_full_false : ¬ C83_full := fun h =>
  Demo.not_exits (e := .crash) nofun 20 Demo.unitResults_crashes (h (Demo.solo [Demo.unitResults]) Demo.inOrder Demo.terminal (g!"gen" :: Demo.genArgs g!"out") []
    Demo.inOrder_fair (Demo.solo_packages (by simpa using Demo.unitResults_parsed)) (Demo.solo_acyclicTypes fun hm => by
      cases hm with
      | elem h1 h2 =>
        simp only [List.mem_cons, List.not_mem_nil, or_false] at h1
        subst h1
        cases h2) (by decide))

/-- It also fails for an interface with the element `func()`, which is valid in a constraint: no method has empty results here. -/
theorem C83_element_crashes : ¬ Exits (Demo.solo [Demo.funcElement]) Demo.inOrder Demo.terminal (g!"gen" :: Demo.genArgs g!"out") [] ∧
    GoPackages (Demo.solo [Demo.funcElement]) ∧ AcyclicTypes (Demo.solo [Demo.funcElement]) MentionsName :=
  ⟨Demo.not_exits (e := .crash) nofun 20 Demo.funcElement_crashes, Demo.solo_packages (by simpa using Demo.funcElement_parsed),
    Demo.solo_acyclicTypes fun hm => by
      have := mentioned_of hm
      revert this
      decide⟩

/-- gowrap never returns for the interface `Item` of Props/Termination.lean. -/
theorem C83_recursion : ¬ Exits recursive Demo.inOrder Demo.terminal
      [g!"gen", g!"-p", g!"ex/app", g!"-i", g!"Item", g!"-t", g!"templates/t", g!"-o", g!"out/x.go"] [] ∧
    GoPackages recursive ∧ UsualMembers recursive ∧ AcyclicTypes recursive EmbedsName := by
  refine ⟨Demo.not_exits (e := .diverge) nofun 0 fun fuel => ?_, Demo.solo_packages ?_, ?_, recursive_acyclicTypes⟩
  · obtain ⟨o, h', ho, h1, h2, h3⟩ : ∃ o h', (recursive.sys Demo.inOrder fuel Demo.terminal.sys).getOptions
        { interfaceName := g!"Item", sourcePkg := g!"ex/app", outputFile := g!"out/x.go", template := g!"templates/t" } [] = (.ok o, h') ∧
        o.interfaceName = g!"Item" ∧ o.source = 0 ∧ o.outputFile = g!"out/x.go" := 
      ⟨{ interfaceName := g!"Item", outputFile := g!"out/x.go", disableGoGenerate := false, outputFileName := g!"x.go", varsArgs := [],
         vars := varsMap [], localPrefix := [], sourcePackage := g!"ex/app", source := 0, bodyTemplate := [], template := g!"../templates/t" },
        [.loadPackage g!"ex/app", .readFile g!"templates/t"], by krfl, rfl, rfl, rfl⟩
    have hg : recursive.newGenerator Demo.inOrder fuel o = .diverge := by
      refine recursive_newGenerator fuel h1 (by show loadSource recursive (o.forGenerator o.source) = _; rw [h2]; rfl) ?_
      show ∃ d, loadDestinationPackage recursive (dstPackagePath recursive o.outputFile) = _
      rw [h3]
      exact ⟨(g!"out", []), by krfl⟩
    have hr : (recursive.sys Demo.inOrder fuel Demo.terminal.sys).runGen
        [g!"-p", g!"ex/app", g!"-i", g!"Item", g!"-t", g!"templates/t", g!"-o", g!"out/x.go"] [] = (.error .diverge, h' ++ [.generate]) := by
      show (recursive.sys Demo.inOrder fuel Demo.terminal.sys).runChecked
        { interfaceName := g!"Item", sourcePkg := g!"ex/app", outputFile := g!"out/x.go", template := g!"templates/t" } [] = _
      unfold Sys.runChecked
      rw [Act.run_bind, ho]
      simp only
      rw [Act.run_bind]
      have : (recursive.sys Demo.inOrder fuel Demo.terminal.sys).generate o h' = (.error .diverge, h' ++ [.generate]) := by
        unfold Sys.generate
        rw [Act.run_emit_bind, Act.run_ask_bind]
        have e : (recursive.sys Demo.inOrder fuel Demo.terminal.sys).newGenerator (h' ++ [.generate]) o = .diverge := by
          show (recursive.newGenerator Demo.inOrder fuel o >>= fun _ => Res.ok ()) = _
          rw [hg]
          rfl
        rw [e]
        rfl
      rw [this]
    show (({ Demo.terminal with sys := recursive.sys Demo.inOrder fuel Demo.terminal.sys } : Proc).dispatch
      (g!"gen" :: [g!"-p", g!"ex/app", g!"-i", g!"Item", g!"-t", g!"templates/t", g!"-o", g!"out/x.go"]) []).1 = _
    rw [Proc.dispatch, if_neg (by decide)]
    show (match (recursive.sys Demo.inOrder fuel Demo.terminal.sys).runGen
        [g!"-p", g!"ex/app", g!"-i", g!"Item", g!"-t", g!"templates/t", g!"-o", g!"out/x.go"] [] with
        | (.ok (), h') => ((.code 0 : Exit), h')
        | (.error (.error (.commandLine _)), h') => (Demo.terminal.die 2, h')
        | (.error (.error _), h') => (Demo.terminal.die 1, h')
        | (.error .panic, h') => (.crash, h')
        | (.error .diverge, h') => (.diverge, h')).1 = _
    rw [hr]
  · intro ts hts
    simp only [List.mem_cons, List.not_mem_nil, or_false] at hts
    rcases hts with rfl | rfl
    · refine ⟨fun fs hfs => ?_, fun ms hm => ?_⟩
      · simp only [ordered, Option.some.injEq] at hfs
        subst hfs
        simp [Demo.fld, Field.type, Qualified]
      · simp only [ordered, Expr.ifaceT.injEq] at hm
        subst hm
        simp [Demo.fld, Demo.meth, Field.type, Field.names, NonEmptyIdents, Qualified, NonEmptyIdentsFields, NonEmptyIdentsOpt, NonEmptyIdentsField]
    · refine ⟨nofun, fun ms hm => ?_⟩
      simp only [item, Demo.iface, Expr.ifaceT.injEq] at hm
      subst hm
      simp [Demo.fld, Field.type, Field.names, NonEmptyIdents, Qualified]
  · intro p f ts hf hd ms hm fd hfd ps rs hft
    obtain ⟨rfl, rfl⟩ := Demo.solo_files.1 hf
    have hts := Demo.declaredIn_file.1 hd
    simp only [List.mem_cons, List.not_mem_nil, or_false] at hts
    rcases hts with rfl | rfl
    · simp only [ordered, Expr.ifaceT.injEq] at hm
      subst hm
      simp only [List.mem_cons, List.not_mem_nil, or_false] at hfd
      subst hfd
      simp only [Demo.meth, Demo.fld, Field.type, Field.names, Expr.funcT.injEq] at hft ⊢
      exact ⟨nofun, by rw [← hft.2]; nofun⟩
    · simp only [item, Demo.iface, Expr.ifaceT.injEq] at hm
      subst hm
      simp only [List.mem_cons, List.not_mem_nil, or_false] at hfd
      subst hfd
      simp [Demo.fld, Field.type] at hft

end Gowrap.Props

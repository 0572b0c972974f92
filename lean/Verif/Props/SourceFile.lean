import Verif.Spec.SourceFile
import Verif.Proofs.Krfl
import Verif.Props.Compiles
import Verif.Props.Discovery
/-!
# C78: the text that is formatted is a Go source file
-/

namespace Gowrap.Props

open Gowrap Spec Tmpl Go

/-! ## The text of the header -/

/-- The nodes of the header. -/
def headerNodes : List Node := [
  .text g!"// Code generated by gowrap. DO NOT EDIT.\n// template: ",
  .print [.dot [g!"Options", g!"HeaderVars", g!"Template"]],
  .text g!"\n// gowrap: http://github.com/hexdigest/gowrap\n\npackage ",
  .print [.dot [g!"Package", g!"Name"]],
  .text g!"\n\n",
  .cond [.paren [.fn g!"not", .dot [g!"Options", g!"HeaderVars", g!"DisableGoGenerate"]]]
    [.text g!"\n//", .print [.str g!"go:generate"], .text g!" gowrap gen -p ", .print [.dot [g!"SourcePackage", g!"PkgPath"]],
     .text g!" -i ", .print [.dot [g!"Options", g!"InterfaceName"]], .text g!" -t ", .print [.dot [g!"Options", g!"HeaderVars", g!"Template"]],
     .text g!" -o ", .print [.dot [g!"Options", g!"HeaderVars", g!"OutputFileName"]], .print [.dot [g!"Options", g!"HeaderVars", g!"VarsArgs"]],
     .text g!" -l \"", .print [.dot [g!"Options", g!"LocalPrefix"]], .text g!"\"\n"] [],
  .text g!"\nimport(\n",
  .range g!"import" [.dot [g!"Options", g!"Imports"]] [.print [.var g!"import" []], .text g!"\n\t"] [],
  .text g!"\n)\n"]

set_option maxRecDepth 100000 in
theorem header_parse : parse Text.header = some headerNodes := by krfl

/-- The loop over the imports. -/
theorem header_imports (u : Uni) (sc : Scope) : ∀ (l : List Str) (w : Str),
    rangeLoop (fun v w => execNodes u { sc.bind g!"import" v with dot := v } [.print [.var g!"import" []], .text g!"\n\t"] w)
      (l.map .str) w = some (w ++ l.flatMap (fun i => i ++ g!"\n\t")) := by
  intro l
  induction l with
  | nil => intro w; simp [rangeLoop]
  | cons i l ih =>
    intro w
    have : execNodes u { sc.bind g!"import" (.str i) with dot := .str i } [.print [.var g!"import" []], .text g!"\n\t"] w
        = some (w ++ (i ++ g!"\n\t")) := by
      simp [execNodes, execNode, evalCmd, evalArgs, Scope.bind, TVal.chain, TVal.print, List.lookup]
    rw [List.map_cons, rangeLoop, this]
    show rangeLoop _ _ (w ++ (i ++ g!"\n\t")) = _
    rw [ih]
    simp

set_option maxRecDepth 4000 in
/-- **C78** The header of every file. -/
theorem C78_header (u : Uni) (h : HeaderData) (hp : h.sourcePath = h.options.sourcePackage) :
    renderHeader u h = some (headerText h.package h.options h.imports) := by
  unfold renderHeader
  rw [header_parse]
  show execNodes u ⟨[([], h.value)], h.value⟩ headerNodes [] = _
  have hr : ∀ w, execNode u ⟨[([], h.value)], h.value⟩
      (.range g!"import" [.dot [g!"Options", g!"Imports"]] [.print [.var g!"import" []], .text g!"\n\t"] []) w =
      some (w ++ h.imports.flatMap (fun i => i ++ g!"\n\t")) := by
    intro w
    rw [execNode]
    have : evalCmd u ⟨[([], h.value)], h.value⟩ [.dot [g!"Options", g!"Imports"]] = some (.list (h.imports.map .str)) := by
      simp [evalCmd, evalArgs, HeaderData.value, TVal.chain, TVal.access, List.lookup]
    rw [this]
    simp only [Option.bind_eq_bind, Option.bind_some, TVal.elements]
    cases hi : h.imports with
    | nil => simp [execNodes]
    | cons i l =>
      rw [← hi]
      have := header_imports u ⟨[([], h.value)], h.value⟩ h.imports w
      rw [hi] at this ⊢
      exact this
  unfold headerNodes
  cases hd : h.options.disableGoGenerate with
  | true =>
    simp [execNodes, hr]
    simp [execNode, execNodes, evalCmd, evalArg, evalArgs, HeaderData.value, TVal.chain, TVal.access, List.lookup, TVal.print, TVal.truth, TVal.opaque, callFn,
      headerText, commentText, headerComment, hd]
  | false =>
    simp [execNodes, hr]
    simp [execNode, execNodes, evalCmd, evalArg, evalArgs, HeaderData.value, TVal.chain, TVal.access, List.lookup, TVal.print, TVal.truth, TVal.opaque, callFn,
      headerText, commentText, headerComment, generateLine, hd, hp]

/-! ## The tokens of the header -/

theorem run_line (sm : Bool) (ts : List Go.Tok) : ∀ s : Str, '\n' ∉ s → State.run ⟨.comment, sm, ts⟩ s = ⟨.comment, sm, ts⟩ := by
  intro s
  induction s with
  | nil => intro _; rfl
  | cons c s ih =>
    intro h
    rw [List.mem_cons, not_or] at h
    show State.run (State.step _ c) s = _
    simp only [State.step]
    rw [if_neg (fun e => h.1 e.symm), ih h.2]

theorem run_quoted (sm : Bool) (ts : List Go.Tok) (p : Str) (hp : InQuotes p) :
    State.run ⟨.start, sm, ts⟩ (g!"\"" ++ p ++ g!"\"") = ⟨.start, true, .str p :: ts⟩ := by
  rw [State.run_append, State.run_append]
  rw [show State.run ⟨.start, sm, ts⟩ g!"\"" = ⟨.str [], sm, ts⟩ from rfl, run_str _ _ _ p hp]
  show State.run _ ['"'] = _
  simp [State.run, State.step]

theorem goName_word {x : Str} (h : GoName x) : IsWord x := ⟨h.1, h.2.1⟩

/-- One import. -/
theorem run_import (ts : List Go.Tok) (im : ImportSpec) (h : ImportOk im) :
    State.run ⟨.start, false, ts⟩ (im.name.getD [] ++ g!" " ++ im.path ++ g!"\n\t") =
      ⟨.start, false, (importToks im ++ [Go.Tok.op g!";"]).reverse ++ ts⟩ := by
  obtain ⟨p, hp, hq⟩ := h.path
  have hcut : (im.path.drop 1).dropLast = p := by rw [hp]; simp
  have hn : ∃ sm, State.run ⟨.start, false, ts⟩ (im.name.getD [] ++ g!" ") = ⟨.start, sm, (match im.name with
      | none => []
      | some x => if x = g!"." then [.op g!"."] else [.word x]) ++ ts⟩ := by
    rcases h.name with e | e | ⟨x, e, hx⟩
    · rw [e]; exact ⟨_, rfl⟩
    · rw [e]; exact ⟨_, rfl⟩
    · rw [e]
      have hne : x ≠ g!"." := by
        rintro rfl
        exact absurd (hx.2.1 '.' (by simp)) (by decide)
      refine ⟨wordEnds x, ?_⟩
      rw [State.run_append]
      simp only [Option.getD_some]
      rw [run_name x (goName_word hx)]
      simp [State.run, State.step, State.flush, State.first, letter, digit, hne]
  obtain ⟨sm, hn⟩ := hn
  rw [State.run_append, State.run_append, hn, hp, run_quoted _ _ _ hq]
  unfold importToks
  rw [hcut]
  have : ∀ k : List Go.Tok, State.run ⟨.start, true, k⟩ g!"\n\t" = ⟨.start, false, .op g!";" :: k⟩ := fun _ => rfl
  rw [this]
  cases im.name with
  | none => simp
  | some x => simp only; split <;> simp

theorem run_imports : ∀ (ims : List ImportSpec) (ts : List Go.Tok), (∀ im ∈ ims, ImportOk im) →
    State.run ⟨.start, false, ts⟩ ((makeImports ims).flatMap (fun i => i ++ g!"\n\t")) =
      ⟨.start, false, (ims.flatMap (fun im => importToks im ++ [Go.Tok.op g!";"])).reverse ++ ts⟩ := by
  intro ims
  induction ims with
  | nil => intro ts _; rfl
  | cons im ims ih =>
    intro ts h
    have e : (makeImports (im :: ims)).flatMap (fun i => i ++ g!"\n\t") =
        (im.name.getD [] ++ g!" " ++ im.path ++ g!"\n\t") ++ (makeImports ims).flatMap (fun i => i ++ g!"\n\t") := by
      simp [makeImports]
    rw [e, State.run_append, run_import _ _ (h im (by simp)), ih _ (fun i hi => h i (by simp [hi]))]
    simp

theorem generateLine_line {o : GenOptions} (h : OneLine o) (hp : '\n' ∉ o.sourcePackage) : '\n' ∉ generateLine o := by
  unfold generateLine
  simp only [List.mem_append, not_or]
  refine ⟨⟨⟨⟨⟨⟨⟨⟨⟨⟨⟨?_, hp⟩, ?_⟩, h.name⟩, ?_⟩, h.template⟩, ?_⟩, h.output⟩, h.vars⟩, ?_⟩, h.pref⟩, ?_⟩ <;> decide

/-- The tokens of the header. -/
theorem run_header {package : Str} (hpkg : GoName package) {o : GenOptions} (ho : OneLine o) (hp : '\n' ∉ o.sourcePackage)
    {ims : List ImportSpec} (hi : ∀ im ∈ ims, ImportOk im) :
    State.run ⟨.start, false, []⟩ (headerText package o (makeImports ims)) = ⟨.start, false, (fileToks package ims []).reverse⟩ := by
  unfold headerText
  rw [State.run_append, State.run_append, State.run_append, State.run_append, State.run_append, State.run_append, State.run_append,
    State.run_append, State.run_append]
  rw [show State.run (State.run ⟨.start, false, []⟩ g!"// Code generated by gowrap. DO NOT EDIT.\n") g!"// template: " = ⟨.comment, false, []⟩ by
    decide +kernel]
  rw [run_line _ _ _ ho.template]
  rw [show State.run ⟨.comment, false, []⟩ g!"\n// gowrap: http://github.com/hexdigest/gowrap\n\npackage " = ⟨.start, false, [.word g!"package"]⟩ by
    decide +kernel]
  rw [run_name _ (goName_word hpkg)]
  have h1 : State.run ⟨.word package.reverse, false, [.word g!"package"]⟩ g!"\n\n" =
      ⟨.start, false, [.op g!";", .word package, .word g!"package"]⟩ := by
    have := name_ends package ⟨goName_word hpkg, hpkg.2.2⟩
    simp [State.run, State.step, State.flush, State.first, letter, digit, this]
  rw [h1]
  have h2 : ∀ k, State.run ⟨.start, false, k⟩ (commentText (headerComment o)) = ⟨.start, false, k⟩ := by
    intro k
    unfold headerComment
    split
    · rfl
    · rw [commentText, State.run_append, State.run_append, show State.run ⟨.start, false, k⟩ g!"\n//" = ⟨.comment, false, k⟩ from rfl,
          run_line _ _ _ (generateLine_line ho hp)]
      rfl
  rw [h2]
  have h3 : ∀ k, State.run ⟨.start, false, k⟩ g!"\nimport(\n" = ⟨.start, false, .op g!"(" :: .word g!"import" :: k⟩ := fun _ => rfl
  have h4 : ∀ k, State.run ⟨.start, false, k⟩ g!"\n)\n" = ⟨.start, false, .op g!";" :: .op g!")" :: k⟩ := fun _ => rfl
  rw [h3, run_imports _ _ hi, h4]
  simp [fileToks, putDecls]

/-- Tokens before the text. -/
theorem tokens_after {a b : Str} {k l : List Go.Tok} (ha : State.run ⟨.start, false, []⟩ a = ⟨.start, false, k.reverse⟩)
    (hb : Go.tokens b = some l) : Go.tokens (a ++ b) = some (k ++ l) := by
  unfold Go.tokens at *
  rw [State.run_append, ha, run_base]
  generalize State.run ⟨.start, false, []⟩ b = r at *
  rw [flush_add]
  generalize r.flush = r at *
  obtain ⟨m, sm, t⟩ := r
  cases m with
  | start =>
    cases sm <;> simp [State.add] at hb ⊢ <;> rw [← hb]
  | comment =>
    cases sm <;> simp [State.add] at hb ⊢ <;> rw [← hb]
  | word _ => simp at hb
  | num _ => simp at hb
  | str _ => simp at hb
  | op _ => simp at hb
  | failed => simp at hb

/-! ## The file -/

/-- The imports that the generator puts into the header. -/
theorem generator_imports {w : World} {s : Sched} (hs : s.Fair) {fuel : Nat} {o : Options} {g : Generator}
    (h : newGenerator w s fuel o = .ok g) (ho : o.imports = []) : ∃ f ts, FileOf w g.srcPackage f ∧ DeclaredIn f ts ∧ ts.name = o.interfaceName ∧
      g.imports = makeImports (neededImports w o g.srcPackage g.dstPath f) := by
  obtain ⟨f, ts, hf, hd, hn, h1, h2⟩ := C28_interface_type hs h
  refine ⟨f, ts, hf, hd, hn, ?_⟩
  unfold neededImports
  by_cases hp : (w.pkg g.srcPackage).path = g.dstPath
  · rw [(h2 hp).2, ho, if_pos hp]; rfl
  · obtain ⟨sel, _, hsel, _, he⟩ := h1 hp
    rw [he, ho, if_neg hp]
    rcases hsel with ⟨e, _⟩ | ⟨_, e1, e2⟩ | ⟨_, e1, e2⟩
    · exact absurd e hp
    · simp [makeImports, e1, e2]
    · simp [makeImports, e1, e2]

/-- What `gen` passes to goimports is a Go source file: package clause, imports, declarations. -/
def IsSourceFile (w : World) (g : Generator) (o : GenOptions) (b : Builtin) : Prop :=
  ∃ t f ts ds, g.source w o b.text = some t ∧ FileOf w g.srcPackage f ∧ DeclaredIn f ts ∧ ts.name = o.interfaceName ∧
    Go.tokens t = some (fileToks g.dstName (neededImports w (o.forGenerator g.srcPackage) g.srcPackage g.dstPath f) ds) ∧
    Go.Grammatical (goTypes (copiedOf w.raw)) ds

/-- The text that `gen` formats is a Go source file. -/
def C78_full : Prop := ∀ (w : World) (s : Sched), s.Fair → SourceOk w → (∀ p f, FileOf w p f → ∀ im ∈ f.imports, ImportOk im) →
  (∀ p, InQuotes (w.pkg p).path) → ∀ (fuel : Nat) (o : GenOptions) (src : PkgId), GoName o.interfaceName → o.sourcePackage = (w.pkg src).path →
  ∀ g : Generator, newGenerator w s fuel (o.forGenerator src) = .ok g → GoVars (g.inputs (o.forGenerator src) o.vars) →
  ∀ b ∈ builtins, IsSourceFile w g o b

/-- The declarations of a rendered body after the header. -/
theorem source_tokens {w : World} {s : Sched} (hs : s.Fair) (hw : SourceOk w) (hi : ∀ p f, FileOf w p f → ∀ im ∈ f.imports, ImportOk im)
    {fuel : Nat} {o : GenOptions} {src : PkgId} (hp : o.sourcePackage = (w.pkg src).path) (hq : InQuotes (w.pkg src).path)
    {g : Generator} (h : newGenerator w s fuel (o.forGenerator src) = .ok g) (ho : OneLine o) (hd : GoName g.dstName) {b : Builtin} {t : Str}
    (hr : render w.uni b.text (g.inputs (o.forGenerator src) o.vars) = some t) {ds : List Go.Decl} (hc : ConsistsOfGo w t ds) :
    ∃ t f ts, g.source w o b.text = some t ∧ FileOf w g.srcPackage f ∧ DeclaredIn f ts ∧ ts.name = o.interfaceName ∧
      Go.tokens t = some (fileToks g.dstName (neededImports w (o.forGenerator g.srcPackage) g.srcPackage g.dstPath f) ds) := by
  have hsrc : g.srcPackage = src := by
    obtain ⟨_, _, h1, _⟩ := newGenerator_ok h
    simpa [loadSource, GenOptions.forGenerator] using h1.symm
  obtain ⟨f, ts, hf, hdc, hn, he⟩ := generator_imports hs h rfl
  rw [hsrc] at he hf
  have him : ∀ im ∈ neededImports w (o.forGenerator src) src g.dstPath f, ImportOk im := by
    intro im him
    unfold neededImports at him
    rcases List.mem_append.1 him with h1 | h1
    · split at h1
      · cases h1
      · rw [List.mem_singleton] at h1
        subst h1
        exact ⟨.inr (.inr ⟨_, rfl, by rw [if_neg (fun hne => hne rfl)]; exact hw.titles src f hf⟩), _, rfl, hq⟩
    · exact hi _ _ hf im h1
  have hh := C78_header w.uni (g.header w o) (by rw [Generator.header, hsrc]; exact hp.symm)
  have hh' : renderHeader w.uni (g.header w o) = some (headerText g.dstName o g.imports) := hh
  rw [he] at hh'
  refine ⟨_, f, ts, by rw [Generator.source, hh', hsrc, hr]; rfl, hsrc ▸ hf, hdc, hn, ?_⟩
  have hnl : '\n' ∉ o.sourcePackage := fun hm => (hq _ (hp ▸ hm)).2.2 rfl
  rw [tokens_after (run_header hd ho hnl him) hc.1, hsrc]
  simp [fileToks, putDecls]

/-- **C78** The text that `gen` formats is a Go source file, if the name of the package is an identifier and what is written into comments does not
contain line breaks. -/
theorem C78_source_file_partial {w : World} {s : Sched} (hs : s.Fair) (hw : SourceOk w)
    (hi : ∀ p f, FileOf w p f → ∀ im ∈ f.imports, ImportOk im) {fuel : Nat} {o : GenOptions} {src : PkgId} (hn : GoName o.interfaceName)
    (hp : o.sourcePackage = (w.pkg src).path) (hq : InQuotes (w.pkg src).path)
    {g : Generator} (h : newGenerator w s fuel (o.forGenerator src) = .ok g) (hv : GoVars (g.inputs (o.forGenerator src) o.vars))
    (ho : OneLine o) (hd : GoName g.dstName) (b : Builtin) (hb : b ∈ builtins) : IsSourceFile w g o b := by
  obtain ⟨t, ds, h1, h2, _⟩ := C69_source_to_declarations hs hw ⟨hn, .inl rfl⟩ h hv b hb
  obtain ⟨t', f, ts, h3, h4, h5, h6, h7⟩ := source_tokens hs hw hi hp hq h ho hd h1 h2
  exact ⟨t', f, ts, ds, h3, h4, h5, h6, h7, h2.2⟩

/-- **C78** with C76: if moreover no names are confused and the template suits the interface, then the file compiles. -/
theorem C78_compiles_partial {w : World} {s : Sched} (hs : s.Fair) (hw : SourceOk w)
    (hi : ∀ p f, FileOf w p f → ∀ im ∈ f.imports, ImportOk im) {fuel : Nat} {o : GenOptions} {src : PkgId} (hn : GoName o.interfaceName)
    (hp : o.sourcePackage = (w.pkg src).path) (hq : InQuotes (w.pkg src).path)
    {g : Generator} (h : newGenerator w s fuel (o.forGenerator src) = .ok g) (hv : GoVars (g.inputs (o.forGenerator src) o.vars))
    (ho : OneLine o) (hd : GoName g.dstName) (bl : Builtin × Locals) (hb : bl ∈ builtins.zip locals)
    (hu : Unambiguous w.uni (g.inputs (o.forGenerator src) o.vars) bl.1 bl.2) (hf : Suits (g.inputs (o.forGenerator src) o.vars) bl.1) :
    ∃ t f ts ds, g.source w o bl.1.text = some t ∧ FileOf w g.srcPackage f ∧ DeclaredIn f ts ∧ ts.name = o.interfaceName ∧
      Go.tokens t = some (fileToks g.dstName (neededImports w (o.forGenerator g.srcPackage) g.srcPackage g.dstPath f) ds) ∧
      Go.Grammatical (goTypes (copiedOf w.raw)) ds ∧ Compiles (g.inputs (o.forGenerator src) o.vars) bl.1 bl.2 ds := by
  obtain ⟨t, ds, h1, h2, hc⟩ := C76_compiles_partial hs hw ⟨hn, .inl rfl⟩ h hv bl hb hu hf
  obtain ⟨t', f, ts, h3, h4, h5, h6, h7⟩ := source_tokens hs hw hi hp hq h ho hd h1 h2
  exact ⟨t', f, ts, ds, h3, h4, h5, h6, h7, h2.2, hc⟩

end Gowrap.Props

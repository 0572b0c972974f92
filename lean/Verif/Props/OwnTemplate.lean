import Verif.Props.GoGenerate
import Verif.Props.NestedLang
/-!
# A template of one's own, from the command line to the written bytes (C100)
-/

namespace Gowrap.Props

open Gowrap Spec Tmpl

/-- What a successful run wrote, and what it was made of: the options, what the generator found, and the header and the body that were handed to
goimports. -/
theorem run_parts {w : World} {sched : Sched} {fuel : Nat} {s : Sys} {p : Proc} {args rest : List Str} {h : List Ev} {f : GenFlags}
    (ha : Words args (g!"gen" :: rest)) (hf : Usable rest f)
    (h0 : (({ p with sys := w.sys sched fuel s } : Proc).main args h).1 = .code 0) :
    ∃ o g header body source before k, OptionsOf (w.sys sched fuel s) f o ∧ w.newGenerator sched fuel o = .ok g ∧
      (w.sys sched fuel s).body k o = .ok body ∧ s.process k f.localPrefix f.outputFile (header ++ body) = .ok source ∧
      (({ p with sys := w.sys sched fuel s } : Proc).main args h).2 =
        before ++ [.mkdirAll (dirPath f.outputFile), .writeFile f.outputFile source true] := by
  rw [main_gen ha] at h0 ⊢
  have h1 := (dispatch_gen { p with sys := w.sys sched fuel s } rest h).1.1 h0
  rw [(dispatch_gen { p with sys := w.sys sched fuel s } rest h).2]
  simp only [runGen_usable hf] at h1 ⊢
  cases hr : (w.sys sched fuel s).runChecked f h with
  | mk r kk =>
    rw [hr] at h1
    simp only at h1 ⊢
    subst h1
    obtain ⟨o, k1, src, k2, g1, g2, g3, g4, rfl⟩ := runChecked_ok.1 hr
    obtain ⟨rfl, g5, header, body, g6, g7, g8⟩ := generate_ok.1 g2
    have g5 : (do let _ ← w.newGenerator sched fuel o; return ()) = Res.ok () := g5
    have ho := optionsOf g1
    rw [ho.localPrefix, ho.outputFile] at g8
    cases hg : w.newGenerator sched fuel o with
    | ok g => exact ⟨o, g, header, body, src, _, _, ho, hg, g7, g8, rfl⟩
    | _ => rw [hg] at g5; cases g5

/-- The body is what the template prints. -/
theorem body_rendered {w : World} {sched : Sched} {fuel : Nat} {s : Sys} {o : GenOptions} {g : Generator} {k : List Ev} {b out : Str} {body : Bytes}
    (hg : w.newGenerator sched fuel o = .ok g) (hb : (w.sys sched fuel s).body k o = .ok body) (ht : o.bodyTemplate = utf8 b)
    (hr : render w.uni b (g.inputs (o.forGenerator o.source) o.vars) = some out) : body = utf8 out := by
  have e : w.body g o = some (utf8 out) := by
    unfold World.body
    rw [ht, textOf_utf8 b _ (Nat.le_refl _)]
    show (render w.uni b (g.inputs (o.forGenerator o.source) o.vars)).bind _ = _
    rw [hr]
    rfl
  rw [sys_body, hg] at hb
  unfold orElse at hb
  simp only [e, Except.ok.injEq] at hb
  exact hb.symm

/-- **C100** If the template that is loaded for `-t` consists of texts, comments, `{{.Interface.Name}}` and `{{.Vars.x}}`, with or without trim
markers, and gowrap exits with code 0, then the file that it writes is what goimports makes of the header and exactly the text of the template with
the value of `-i` and the values of the last `-v` flags in place. -/
theorem C100_flat {w : World} {sched : Sched} {fuel : Nat} {s : Sys} {p : Proc} {args rest : List Str} {h : List Ev} {f : GenFlags}
    (ha : Words args (g!"gen" :: rest)) (hf : Usable rest f) (t : Flat.Template) (ht : t.Ok)
    (hl : ∀ k k' b url, s.loaderLoad f.template k = (.ok (b, url), k') → b = utf8 t.source)
    (h0 : (({ p with sys := w.sys sched fuel s } : Proc).main args h).1 = .code 0) :
    ∃ header source before k, s.process k f.localPrefix f.outputFile (header ++ utf8 (t.output f.interfaceName (lastValue f.vars))) = .ok source ∧
      (({ p with sys := w.sys sched fuel s } : Proc).main args h).2 =
        before ++ [.mkdirAll (dirPath f.outputFile), .writeFile f.outputFile source true] := by
  obtain ⟨o, g, header, body, source, before, k, ho, hg, hb, hp, he⟩ := run_parts ha hf h0
  refine ⟨header, source, before, k, ?_, he⟩
  obtain ⟨k1, k2, url, h1⟩ := ho.template
  have hv : o.vars = lastValue f.vars := funext ho.vars
  have := body_rendered hg hb (hl _ _ _ _ h1) (C95_flat w.uni (g.inputs (o.forGenerator o.source) o.vars) t ht)
  rw [this] at hp
  rw [← ho.interfaceName, ← hv]
  exact hp

/-- No method is found twice. -/
theorem found_nodup {w : World} {sched : Sched} {fuel : Nat} {o : GenOptions} {g : Generator} (h : w.newGenerator sched fuel o = .ok g) :
    (g.methods.map (·.1)).Nodup := by
  obtain ⟨_, _, _, _, _, h4, h5, _⟩ := newGenerator_ok h
  rw [h5]
  exact (nodup_discovered w sched fuel).target _ _ _ _ _ _ _ h4

/-- **C100** for templates with `if`, `else if`, `with` and `range` over the methods, put into each other to any depth.  The methods are those that the
generator found, in the order of their names. -/
theorem C100_nested {w : World} {sched : Sched} {fuel : Nat} {s : Sys} {p : Proc} {args rest : List Str} {h : List Ev} {f : GenFlags}
    (ha : Words args (g!"gen" :: rest)) (hf : Usable rest f) (t : Nested.Block) (ht : t.Ok .root)
    (hl : ∀ k k' b url, s.loaderLoad f.template k = (.ok (b, url), k') → b = utf8 t.source)
    (h0 : (({ p with sys := w.sys sched fuel s } : Proc).main args h).1 = .code 0) :
    ∃ o g header out source before k, ∃ es : Methods, OptionsOf (w.sys sched fuel s) f o ∧ w.newGenerator sched fuel o = .ok g ∧
      es.Perm g.methods ∧ es.Pairwise (fun a b => a.1 < b.1) ∧ Nested.Prints ⟨f.interfaceName, lastValue f.vars, es.map (·.2.name)⟩ .root t out ∧
      s.process k f.localPrefix f.outputFile (header ++ utf8 out) = .ok source ∧
      (({ p with sys := w.sys sched fuel s } : Proc).main args h).2 =
        before ++ [.mkdirAll (dirPath f.outputFile), .writeFile f.outputFile source true] := by
  obtain ⟨o, g, header, body, source, before, k, ho, hg, hb, hp, he⟩ := run_parts ha hf h0
  obtain ⟨out, hr⟩ := C96_accepted w.uni (g.inputs (o.forGenerator o.source) o.vars) t ht
  obtain ⟨k1, k2, url, h1⟩ := ho.template
  have hv : o.vars = lastValue f.vars := funext ho.vars
  have := body_rendered hg hb (hl _ _ _ _ h1) hr
  rw [this] at hp
  have hs := Gowrap.Spec.sorted_keys (fun e : Str × Method => e.1) g.methods (found_nodup hg)
  rw [List.pairwise_map] at hs
  refine ⟨o, g, header, out, source, before, k, _, ho, hg, sortBy_perm _ _, hs, ?_, hp, he⟩
  have := (C96_nested w.uni _ t ht _ ⟨_, sortBy_perm _ _, hs, rfl⟩ out).1 hr
  rw [← hv, ← ho.interfaceName]
  exact this

/-- **C100** with the methods of the declared interface: where method discovery is exact (the conditions are those of C20), `range` visits exactly
the names of the method set of the interface called `-i`, each once and in ascending order. -/
theorem C100_method_set {w : World} {sched : Sched} {fuel : Nat} {s : Sys} {p : Proc} {args rest : List Str} {h : List Ev} {f : GenFlags}
    (hs : sched.Fair) (hp : PlainImports w) (hi : LoadsImports w) (hq : QualifiersAgree w) (hu : UniqueTypes w) (hpr : Printable w)
    (hsup : ∀ o g, OptionsOf (w.sys sched fuel s) f o → w.newGenerator sched fuel o = .ok g →
      ∀ file ts, FileOf w g.srcPackage file → DeclaredIn file ts → ts.name = f.interfaceName → Supported w g.srcPackage file ts.type)
    (ha : Words args (g!"gen" :: rest)) (hf : Usable rest f) (t : Nested.Block) (ht : t.Ok .root)
    (hl : ∀ k k' b url, s.loaderLoad f.template k = (.ok (b, url), k') → b = utf8 t.source)
    (h0 : (({ p with sys := w.sys sched fuel s } : Proc).main args h).1 = .code 0) :
    ∃ src file ts names header out source before k, FileOf w src file ∧ DeclaredIn file ts ∧ ts.name = f.interfaceName ∧
      names.Pairwise (· < ·) ∧ (∀ n, n ∈ names ↔ ∃ d, HasMethod w src file ts.type d ∧ d.name = n) ∧
      Nested.Prints ⟨f.interfaceName, lastValue f.vars, names⟩ .root t out ∧
      s.process k f.localPrefix f.outputFile (header ++ utf8 out) = .ok source ∧
      (({ p with sys := w.sys sched fuel s } : Proc).main args h).2 =
        before ++ [.mkdirAll (dirPath f.outputFile), .writeFile f.outputFile source true] := by
  obtain ⟨o, g, header, out, source, before, k, es, ho, hg, h1, h2, h3, h4, h5⟩ := C100_nested ha hf t ht hl h0
  have hn : (o.forGenerator o.source).interfaceName = f.interfaceName := ho.interfaceName
  obtain ⟨file, ts, k1, k2, k3, k4, k5, sel, k6, k7⟩ := C20_supported_partial hs hp hi hq hu hpr
    (fun file ts a b c => hsup o g ho hg file ts a b (c.trans hn)) hg
  have key : es.map (·.2.name) = es.map (·.1) := by
    refine List.map_congr_left fun e he => ?_
    obtain ⟨d, c, _, e1, q, env, _, e2, _⟩ := k7 e.1 e.2 (h1.mem_iff.1 he)
    obtain ⟨_, _, _, e3, _⟩ := C02_signature_preserved _ _ _ _ e2
    rw [e3, e1]
  rw [key] at h3
  refine ⟨g.srcPackage, file, ts, _, header, out, source, before, k, k1, k2, k3.trans hn, List.pairwise_map.2 h2, fun n => ?_, h3, h4, h5⟩
  rw [← k4 n]
  exact (h1.map (·.1)).mem_iff

/-! ## Fields that begin with a digit -/

theorem failed_run (toks : List Tok) : ∀ s : Str, s.foldl Lex.step ⟨.failed, toks⟩ = ⟨.failed, toks⟩
  | [] => rfl
  | _ :: s => failed_run toks s

/-- C95: a name that begins with a digit is not the name of a field, whatever follows: the template is not accepted. -/
theorem C95_digit (u : Uni) (d : Inputs) (c : Char) (hc : c.isDigit = true) (rest : Str) : render u (g!"{{.Vars." ++ c :: rest) d = none := by
  have e1 : g!"{{.Vars.".foldl Lex.step ⟨.text [], []⟩ = ⟨.field [], [.field g!"Vars", .left]⟩ := by decide
  have e2 : Lex.step ⟨.field [], [.field g!"Vars", .left]⟩ c = ⟨.failed, [.field g!"Vars", .left]⟩ := by
    simp only [Lex.step]
    rw [if_pos (by simp [hc])]
  have : lex (g!"{{.Vars." ++ c :: rest) = none := by
    unfold lex
    rw [List.foldl_append, e1, List.foldl_cons, e2, failed_run]
  unfold render parse
  rw [this]
  rfl

example : render Uni.ascii g!"{{.Vars.5}}" Demo93.reader = none := C95_digit _ _ '5' (by decide) _

/-! ## Examples -/

/-- `gowrap gen -p /app -i Svc -t templates/t -o /old/x.go -v mode=fast`, where `templates/t` is `// {{.Interface.Name}}: {{.Vars.mode}}`. -/
def ownFlat : Flat.Template := ⟨g!"package x // ", [(⟨.name, false, false⟩, g!": "), (⟨.var g!"mode", false, false⟩, g!"")]⟩

theorem ownFlat_ok : ownFlat.Ok := by
  refine ⟨Demo95.noInfix (by decide), fun p hp => ?_⟩
  simp only [ownFlat, List.mem_cons, List.not_mem_nil, or_false] at hp
  rcases hp with rfl | rfl
  · exact ⟨trivial, Demo95.noInfix (by decide)⟩
  · exact ⟨⟨by decide, by decide, by simp⟩, Demo95.noInfix (by decide)⟩

example : ownFlat.output g!"Svc" (lastValue [varOf g!"mode=slow", varOf g!"mode=fast"]) = g!"package x // Svc: fast" := by decide +kernel

example : ∃ header source before k,
    (Gowrap.Demo.disk ownFlat.source).process k [] g!"/old/x.go" (header ++ utf8 (ownFlat.output g!"Svc" (lastValue [varOf g!"mode=fast"]))) = .ok source ∧
      (({ Demo.proc with sys := (Gowrap.Demo.world messy).sys Gowrap.Demo.inOrder 20 (Gowrap.Demo.disk ownFlat.source) } : Proc).main
          (g!"gen" :: lineArgs g!"/old/x.go") []).2 =
        before ++ [.mkdirAll (dirPath g!"/old/x.go"), .writeFile g!"/old/x.go" source true] := by
  refine C100_flat (f := lineFlags g!"/old/x.go") (rest := lineArgs g!"/old/x.go") (.plain _ _ (.inr (by decide))) (line_flags (by decide)) ownFlat
    ownFlat_ok ?_ (by decide +kernel)
  intro k k' b url hl
  have e : (Gowrap.Demo.disk ownFlat.source).loaderLoad (lineFlags g!"/old/x.go").template k =
    (.ok (utf8 ownFlat.source, g!"templates/t"), k ++ [.readFile g!"templates/t"]) := rfl
  rw [e] at hl
  injection hl with hl _
  injection hl with hl
  exact (Prod.mk.inj hl).1.symm

/-- A template that lists the methods, if the variable is given. -/
def ownNested : Nested.Block :=
  .cond g!"package x // " g!"mode" (.each g!"" (.shown g!"" .method (.last g!" ")) .none (.last g!"")) .none (.last g!"")

theorem ownNested_ok : ownNested.Ok .root := by
  have hp : ∀ {s : Str}, (∀ p ∈ (s ++ g!"{").zip (s ++ g!"{").tail, p ≠ ('{', '{')) → Flat.Plain s := fun h => Demo95.noInfix h
  simp only [ownNested, Nested.Block.Ok, Nested.Tail.Ok, Nested.Tail.Simple, Nested.Shown.Ok, and_true, true_and]
  exact ⟨hp (by decide), ⟨by decide, by decide, by simp⟩, ⟨hp (by decide), ⟨hp (by decide), hp (by decide)⟩, hp (by decide)⟩, hp (by decide)⟩

/-- The interface `Extra` of the workspace `app`, see Props/MethodSet.lean. -/
def ownFlags : GenFlags :=
  { interfaceName := g!"Extra", template := g!"templates/t", outputFile := g!"./dst/x.go", sourcePkg := g!"ex/app", vars := [varOf g!"mode=fast"] }

def ownArgs : List Str := [g!"-p", g!"ex/app", g!"-i", g!"Extra", g!"-t", g!"templates/t", g!"-o", g!"./dst/x.go", g!"-v", g!"mode=fast"]

theorem own_flags : Usable ownArgs ownFlags := ⟨⟨[], (C35_flags _ _ _).1 rfl⟩, by decide, by decide, by decide⟩

theorem own_loaded {t : Str} : ∀ k k' b url, (Gowrap.Demo.disk t).loaderLoad ownFlags.template k = (.ok (b, url), k') → b = utf8 t := by
  intro k k' b url hl
  have e : (Gowrap.Demo.disk t).loaderLoad ownFlags.template k = (.ok (utf8 t, g!"templates/t"), k ++ [.readFile g!"templates/t"]) := rfl
  rw [e] at hl
  injection hl with hl _
  injection hl with hl
  exact (Prod.mk.inj hl).1.symm

theorem own_exit : (({ Demo.proc with sys := Gowrap.Demo.app.sys Gowrap.Demo.backwards 20 (Gowrap.Demo.disk ownNested.source) } : Proc).main
    (g!"gen" :: ownArgs) []).1 = .code 0 := by decide +kernel

/-- The process of these examples. -/
def ownProc : Proc := { Demo.proc with sys := Gowrap.Demo.app.sys Gowrap.Demo.backwards 20 (Gowrap.Demo.disk ownNested.source) }

example : ∃ o g header out source before k, ∃ es : Methods,
      OptionsOf ownProc.sys ownFlags o ∧ Gowrap.Demo.app.newGenerator Gowrap.Demo.backwards 20 o = .ok g ∧
      es.Perm g.methods ∧ es.Pairwise (fun a b => a.1 < b.1) ∧
      Nested.Prints ⟨g!"Extra", lastValue [varOf g!"mode=fast"], es.map (·.2.name)⟩ .root ownNested out ∧
      (Gowrap.Demo.disk ownNested.source).process k [] g!"./dst/x.go" (header ++ utf8 out) = .ok source ∧
      (ownProc.main (g!"gen" :: ownArgs) []).2 = before ++ [.mkdirAll (dirPath g!"./dst/x.go"), .writeFile g!"./dst/x.go" source true] :=
  C100_nested (f := ownFlags) (rest := ownArgs) (.plain _ _ (.inr (by decide))) own_flags ownNested ownNested_ok own_loaded own_exit

example : ∃ src file ts names header out source before k, FileOf Gowrap.Demo.app src file ∧ DeclaredIn file ts ∧ ts.name = g!"Extra" ∧
      names.Pairwise (· < ·) ∧ (∀ n, n ∈ names ↔ ∃ d, HasMethod Gowrap.Demo.app src file ts.type d ∧ d.name = n) ∧
      Nested.Prints ⟨g!"Extra", lastValue [varOf g!"mode=fast"], names⟩ .root ownNested out ∧
      (Gowrap.Demo.disk ownNested.source).process k [] g!"./dst/x.go" (header ++ utf8 out) = .ok source ∧
      (ownProc.main (g!"gen" :: ownArgs) []).2 = before ++ [.mkdirAll (dirPath g!"./dst/x.go"), .writeFile g!"./dst/x.go" source true] :=
  C100_method_set (f := ownFlags) (rest := ownArgs) Gowrap.Demo.backwards_fair Gowrap.Demo.app_plain Gowrap.Demo.app_loads
    Gowrap.Demo.app_agree Gowrap.Demo.app_unique Gowrap.Demo.app_printable
    (fun _ _ _ _ _ _ hf hd _ => ⟨Gowrap.Demo.app_supported hf hd, fun _ _ _ hr =>
      Gowrap.Demo.app_supported (reaches_declared hr).1 (reaches_declared hr).2⟩)
    (.plain _ _ (.inr (by decide))) own_flags ownNested ownNested_ok own_loaded own_exit

end Gowrap.Props

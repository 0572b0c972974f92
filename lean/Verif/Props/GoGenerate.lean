import Verif.Props.LocalRegen
import Verif.Props.ExactMore
/-!
# Executing the go:generate line writes the same text (C99)
-/

namespace Gowrap.Props

open Gowrap Spec Tmpl

theorem locate_nil (cwd : List Str) : locate cwd [] = cwd := rfl

/-- The reference to a template is the same when it is computed again from the reference, in the directory of the output file. -/
theorem reference_again {s s' : Sys} (hc : IsDir s.cwd) {f : GenFlags} {h h' : List Ev} {body : Bytes} {ref : Str} {d name : Str}
    (ho : f.outputFile = d ++ name) (hn : '/' ∉ name) (hd : d = [] ∨ d.getLast? = some '/')
    (hl : s.loadTemplate f (absPath s.cwd (dirPath f.outputFile)) h = (.ok (body, ref), h')) (hcwd : s'.cwd = locate s.cwd d)
    {f' : GenFlags} (ht : f'.template = ref) {k k' : List Ev} (hl' : s'.loaderLoad ref k = (.ok (body, ref), k')) :
    s'.loadTemplate f' (absPath s'.cwd (dirPath name)) k = (.ok (body, ref), k') := by
  obtain ⟨url, _, h2⟩ := run_loadTemplate hl
  unfold Sys.loadTemplate
  rw [Act.run_bind, ht, hl']
  simp only
  have hbd : IsDir (locate s.cwd d) := locate_dir hc d
  have htd : IsDir (locate s.cwd url) := locate_dir hc url
  rcases h2 with ⟨h2, h3⟩ | ⟨h2, h3⟩
  · subst h3
    rw [if_pos ((hasPrefix_iff _ _).2 h2)]
    rfl
  · rw [ho, outputDir_eq hc hn hd] at h3
    unfold absPath at h3
    rw [absElems_eq hc] at h3
    unfold relPath at h3
    rw [isAbs_absText, isAbs_absText, cleanPieces_absText hbd, cleanPieces_absText htd] at h3
    simp only [Bool.and_self, if_true, Option.some.injEq] at h3
    have hno : ¬ hasPrefix ref g!"https://" = true := by
      intro hp
      obtain ⟨t, ht⟩ := (hasPrefix_iff _ _).1 hp
      refine relElems_no_empty (base := locate s.cwd d) htd ?_
      rw [h3, ← ht]
      have : g!"https://" ++ t = g!"https:" ++ '/' :: ([] ++ '/' :: t) := rfl
      rw [this, pieces_cons _ _ (by decide), pieces_cons _ _ (by decide)]
      simp
    rw [if_neg hno]
    have e1 : absPath s'.cwd (dirPath name) = absText (locate s.cwd d) := by
      have := outputDir_eq (cwd := s'.cwd) (d := []) (name := name) (by rw [hcwd]; exact hbd) hn (.inl rfl)
      rw [List.nil_append] at this
      rw [this, locate_nil, hcwd]
    have e2 : absPath s'.cwd ref = absText (locate s.cwd url) := by
      unfold absPath
      rw [hcwd, absElems_eq hbd, ← h3, locate_relElems hbd htd]
    rw [e1, e2]
    unfold relPath
    rw [isAbs_absText, isAbs_absText, cleanPieces_absText hbd, cleanPieces_absText htd]
    simp only [Bool.and_self, if_true, h3]
    rfl

/-- **C99** (partial, options).  If no option value has blanks, quotes, dollar signs or line breaks: executing the `go:generate` line in the directory
of the output file runs `gowrap gen` with complete flags, and the options handed to the generator are all the same as those of the invocation that
wrote the line (interface, variables, package, template, local prefix, everything the header mentions), except that the output file is given by its
name in that directory.  Required: the import path loads the same package and the reference to the template the same text. -/
theorem C99_options_partial (s s' : Sys) (hc : IsDir s.cwd) (f : GenFlags) (h h' : List Ev) (o : GenOptions)
    (hg : s.getOptions f h = (.ok o, h')) (as : List Str) (has : f.vars = as.map varOf)
    (hs : Survives o as) (d name : Str) (ho : f.outputFile = d ++ name) (hn : '/' ∉ name) (hne : name ≠ [])
    (hd : d = [] ∨ d.getLast? = some '/') (comment : Str) (hcom : headerComment o = some comment)
    (unq : Str → Option Str) (exp : Str → Str) (hcwd : Denotes s.cwd d s'.cwd)
    (hload : ∀ k, s'.loadPackage k o.sourcePackage = .ok (o.source, o.sourcePackage))
    (htmpl : ∀ k, ∃ k', s'.loaderLoad o.template k = (.ok (o.bodyTemplate, o.template), k')) :
    ∃ args f', command unq exp comment = some (g!"gowrap" :: g!"gen" :: args) ∧ Usable args f' ∧
      ∀ k, ∃ k', s'.getOptions f' k = (.ok { o with outputFile := name }, k') := by
  obtain ⟨h1, h2, h3, h4, h5, h6, h7, ⟨hp1, hp⟩, ⟨hl1, hl⟩⟩ := getOptions_ok hg
  have hcom' : o.disableGoGenerate = false ∧ comment = generateLine o := by
    unfold headerComment at hcom
    split at hcom
    · cases hcom
    · rename_i hd'
      exact ⟨by simpa using hd', by simpa using hcom.symm⟩
  obtain ⟨hdis, rfl⟩ := hcom'
  have hname : o.outputFileName = name := by rw [h4, ho, basePath_append hn hne hd]
  refine ⟨rerunArgs o as, _, command_generateLine unq exp o as (by rw [h5, has]) hs,
    ⟨⟨[], (C35_flags _ _ _).1 (parse_rerun o as)⟩, ?_, hs.interfaceName.1, hs.template.1⟩, ?_⟩
  · show o.outputFileName ≠ []
    rw [hname]; exact hne
  · intro k
    obtain ⟨k', hk⟩ := htmpl (k ++ [.loadPackage o.sourcePackage])
    refine ⟨k', ?_⟩
    rw [denotes_iff] at hcwd
    have href := reference_again (s := s) (s' := s') hc ho hn hd hl hcwd (f' := {
      interfaceName := o.interfaceName, sourcePkg := o.sourcePackage, outputFile := o.outputFileName,
      template := o.template, vars := as.map varOf, localPrefix := o.localPrefix }) rfl hk
    have hbase : basePath name = name := by
      have := basePath_append (d := []) hn hne (.inl rfl)
      simpa using this
    unfold Sys.getOptions
    simp only [Act.run_emit_bind, Act.run_ask_bind]
    simp only [if_neg hs.package.1, hload]
    rw [Act.run_bind]
    simp only [Act.run_lift_ok]
    rw [Act.run_bind]
    rw [← hname] at href
    rw [href]
    simp only [hname, hbase]
    rw [← has, ← h5, ← h6]
    obtain ⟨i, out, dis, on, va, vs, lp, sp, so, bt, te⟩ := o
    subst hdis hname
    rfl

/-! ## The generator -/

/-- **C98** for an output file that is given differently: only the destination package that is found matters. -/
theorem C98_moved {w w' : World} {s : Sched} {fuel : Nat} {o : Options} {out : Str} {src : PkgId} (hs : s.Fair)
    (hsrc : loadSource w o = .ok src) (hsrc' : loadSource w' o = .ok src) (hw : SameAround w w' src)
    (hdst : loadDestinationPackage w' (dstPackagePath w' out) = loadDestinationPackage w (dstPackagePath w o.outputFile))
    (htitle : w'.title = w.title) :
    newGenerator w' s fuel { o with outputFile := out } = newGenerator w s fuel o := by
  have hity := interfaceTypeOf_eq (o := o) (hw.pkg src (.inl rfl)) htitle
  have hsrc'' : loadSource w' { o with outputFile := out } = .ok src := hsrc'
  have hsel : ∀ d, sourceSelector w' { o with outputFile := out } src d = sourceSelector w' o src d := fun _ => rfl
  have hit : ∀ d, interfaceTypeOf w' { o with outputFile := out } src d = interfaceTypeOf w' o src d := fun _ => rfl
  simp only [newGenerator, hsrc, hsrc'', hdst, Res.ok_bind]
  refine bind_congr' rfl fun d => ?_
  simp only [hsel, hit, (hity _).1, (hity _).2, hw.files src (.inl rfl)]
  cases hf : w.files src with
  | ok files =>
    simp only [Res.ok_bind]
    refine bind_congr' ((local_all hs hw fuel).target _ _ _ _ _ _ (.inl rfl) hf) fun out => ?_
    simp only [checkExported_eq hw.uni]
  | err e => rfl
  | panic => rfl
  | diverge => rfl

theorem renderHeader_congr (u : Uni) {a b : HeaderData} (h : a.value = b.value) : renderHeader u a = renderHeader u b := by
  unfold renderHeader
  simp only [h]

/-- Header and body do not depend on how the output file is given. -/
theorem output_moved {w w' : World} {g : Generator} (hu : w'.uni = w.uni) (hp : w'.pkg g.srcPackage = w.pkg g.srcPackage) (o : GenOptions) (name : Str) :
    w'.header g { o with outputFile := name } = w.header g o ∧ w'.body g { o with outputFile := name } = w.body g o := by
  constructor
  · unfold World.header
    have : (g.header w' { o with outputFile := name }).value = (g.header w o).value := by
      unfold HeaderData.value Generator.header
      simp only [hp]
    rw [renderHeader_congr _ this, hu]
  · unfold World.body
    rw [hu]
    rfl

/-! ## The whole process -/

theorem generate_ok {s : Sys} {o : GenOptions} {h k : List Ev} {src : Bytes} : s.generate o h = (.ok src, k) ↔
    k = h ++ [.generate] ∧ s.newGenerator k o = .ok () ∧
      ∃ header body, s.header k o = .ok header ∧ s.body k o = .ok body ∧ s.process k o.localPrefix o.outputFile (header ++ body) = .ok src := by
  have e : s.generate o h = match s.newGenerator (h ++ [.generate]) o, s.header (h ++ [.generate]) o, s.body (h ++ [.generate]) o with
      | .ok (), .ok header, .ok body =>
        (match s.process (h ++ [.generate]) o.localPrefix o.outputFile (header ++ body) with
        | .ok src => .ok src
        | .error e => .error (.error e), h ++ [.generate])
      | .ok (), .ok _, .error e => (.error (.error e), h ++ [.generate])
      | .ok (), .error e, _ => (.error (.error e), h ++ [.generate])
      | .err e, _, _ => (.error (.error (.generator e)), h ++ [.generate])
      | .panic, _, _ => (.error .panic, h ++ [.generate])
      | .diverge, _, _ => (.error .diverge, h ++ [.generate]) := by
    unfold Sys.generate
    simp only [Act.run_emit_bind, Act.run_ask_bind]
    cases hn : s.newGenerator (h ++ [.generate]) o with
    | ok u =>
      cases hh : s.header (h ++ [.generate]) o with
      | ok header =>
        cases hb : s.body (h ++ [.generate]) o with
        | ok body =>
          cases hp : s.process (h ++ [.generate]) o.localPrefix o.outputFile (header ++ body) with
          | ok src =>
            rw [Act.run_bind, Act.run_ofRes_ok]
            simp only [Act.run_ask_bind, hh]
            rw [Act.run_bind, Act.run_lift_ok]
            simp only [Act.run_ask_bind, hb]
            rw [Act.run_bind, Act.run_lift_ok]
            simp only [Act.run_ask_bind, hp]
            rfl
          | error e =>
            rw [Act.run_bind, Act.run_ofRes_ok]
            simp only [Act.run_ask_bind, hh]
            rw [Act.run_bind, Act.run_lift_ok]
            simp only [Act.run_ask_bind, hb]
            rw [Act.run_bind, Act.run_lift_ok]
            simp only [Act.run_ask_bind, hp]
            rfl
        | error e =>
          rw [Act.run_bind, Act.run_ofRes_ok]
          simp only [Act.run_ask_bind, hh]
          rw [Act.run_bind, Act.run_lift_ok]
          simp only [Act.run_ask_bind, hb]
          rfl
      | error e =>
        rw [Act.run_bind, Act.run_ofRes_ok]
        simp only [Act.run_ask_bind, hh]
        rfl
    | err e => rfl
    | panic => rfl
    | diverge => rfl
  constructor
  · intro hx
    rw [e] at hx
    split at hx
    · next header body hn hh hb =>
      injection hx with h1 h2
      subst h2
      refine ⟨rfl, hn, header, body, hh, hb, ?_⟩
      split at h1
      · next hp => rw [hp]; injection h1 with h1; rw [h1]
      · cases h1
    all_goals cases hx
  · rintro ⟨rfl, hn, header, body, hh, hb, hp⟩
    rw [e, hn, hh, hb]
    simp only [hp]

theorem runChecked_ok {s : Sys} {f : GenFlags} {h k : List Ev} : s.runChecked f h = (.ok (), k) ↔
    ∃ o k1 src k2, s.getOptions f h = (.ok o, k1) ∧ s.generate o k1 = (.ok src, k2) ∧ s.mkdirAll k2 (dirPath f.outputFile) = none ∧
      s.writeFile (k2 ++ [.mkdirAll (dirPath f.outputFile)]) f.outputFile src = none ∧
      k = k2 ++ [.mkdirAll (dirPath f.outputFile), .writeFile f.outputFile src true] := by
  unfold Sys.runChecked
  rw [Act.run_bind]
  cases h1 : s.getOptions f h with
  | mk r k1 =>
    cases r with
    | error e => exact ⟨fun hx => (by cases hx), fun ⟨_, _, _, _, hx, _⟩ => (by cases hx)⟩
    | ok o =>
      simp only
      rw [Act.run_bind]
      cases h2 : s.generate o k1 with
      | mk r k2 =>
        cases r with
        | error e =>
          refine ⟨fun hx => (by cases hx), ?_⟩
          rintro ⟨o', k1', src, k2', hx, hy, _⟩
          cases hx
          rw [h2] at hy
          cases hy
        | ok src =>
          simp only [Act.run_emit_bind, Act.run_ask_bind]
          cases h3 : s.mkdirAll k2 (dirPath f.outputFile) with
          | some e =>
            refine ⟨fun hx => (by cases hx), ?_⟩
            rintro ⟨o', k1', src', k2', hx, hy, hz, _⟩
            cases hx
            rw [h2] at hy
            cases hy
            rw [h3] at hz
            cases hz
          | none =>
            unfold Sys.write
            simp only [Act.run_ask_bind]
            cases h4 : s.writeFile (k2 ++ [.mkdirAll (dirPath f.outputFile)]) f.outputFile src with
            | some e =>
              refine ⟨fun hx => (by cases hx), ?_⟩
              rintro ⟨o', k1', src', k2', hx, hy, _, hz, _⟩
              cases hx
              rw [h2] at hy
              cases hy
              rw [h4] at hz
              cases hz
            | none =>
              constructor
              · intro hx
                refine ⟨o, k1, src, k2, rfl, h2, h3, h4, ?_⟩
                have := (Prod.mk.inj hx).2
                rw [← this]
                simp
              · rintro ⟨o', k1', src', k2', hx, hy, _, _, rfl⟩
                cases hx
                rw [h2] at hy
                cases hy
                simp [Act.run_emit]

theorem sys_header (w : World) (sched : Sched) (fuel : Nat) (s : Sys) (h : List Ev) (o : GenOptions) :
    (w.sys sched fuel s).header h o = orElse (w.newGenerator sched fuel o) (fun g => w.header g o) (s.header h o) := rfl

theorem sys_body (w : World) (sched : Sched) (fuel : Nat) (s : Sys) (h : List Ev) (o : GenOptions) :
    (w.sys sched fuel s).body h o = orElse (w.newGenerator sched fuel o) (fun g => w.body g o) (s.body h o) := rfl

theorem orElse_congr {α : Type} {r r' : Res Generator} {g : Generator} {x y : Generator → Option α} {a b : Except CErr α}
    (h : r = .ok g) (h' : r' = .ok g) (hxy : x g = y g) (hab : a = b) : orElse r x a = orElse r' y b := by
  subst h h' hab
  unfold orElse
  simp only [hxy]

/-- What gowrap finds on the machine when it runs in the directory of the file: the template that the comment refers to has the same text;
the parts of the generator that are not modelled and the formatter of imports answer the same for the same file, given by its name; the file can be
written. -/
structure SameTools (s s' : Sys) (o : GenOptions) (name : Str) : Prop where
  template : ∀ k, ∃ k', s'.loaderLoad o.template k = (.ok (o.bodyTemplate, o.template), k')
  header : ∀ k k', s'.header k' { o with outputFile := name } = s.header k o
  body : ∀ k k', s'.body k' { o with outputFile := name } = s.body k o
  process : ∀ k k' src, s'.process k' o.localPrefix name src = s.process k o.localPrefix o.outputFile src
  mkdirAll : ∀ k, s'.mkdirAll k (dirPath name) = none
  writeFile : ∀ k src, s'.writeFile k name src = none

/-- **C99** (partial).  If `gowrap gen` exits with code 0 and no option value has blanks, quotes, dollar signs or line breaks, then the command of the
`go:generate` comment, run in the directory of the output file, exits with code 0 and writes the same bytes to the same file, for all iteration
orders of maps in both runs.  Required: the import path of the source package, the packages it depends on and the destination package are found
there as before; the template that the comment refers to has the same text; among the dependencies no package declares a type twice or imports two
packages of the same name. -/
theorem C99_process_partial {w w' : World} {sched sched' : Sched} {fuel : Nat} {s s' : Sys} {p p' : Proc} {args rest : List Str}
    {h k1 : List Ev} {f : GenFlags} {o : GenOptions} {as : List Str} {d name comment : Str}
    (ha : Words args (g!"gen" :: rest)) (hf : Usable rest f) (hs : sched.Fair) (hs' : sched'.Fair) (hc : IsDir s.cwd)
    (h0 : (({ p with sys := w.sys sched fuel s } : Proc).main args h).1 = .code 0)
    (hopt : (w.sys sched fuel s).getOptions f h = (.ok o, k1)) (has : f.vars = as.map varOf) (hsv : Survives o as)
    (ho : f.outputFile = d ++ name) (hn : '/' ∉ name) (hne : name ≠ []) (hd : d = [] ∨ d.getLast? = some '/')
    (hcom : headerComment o = some comment) (unq : Str → Option Str) (exp : Str → Str)
    (hcwd : Denotes s.cwd d s'.cwd) (htools : SameTools s s' o name)
    (hsrc : w'.load o.sourcePackage = .ok o.source) (hw : SameAround w w' o.source) (htitle : w'.title = w.title)
    (hdst : loadDestinationPackage w' (dstPackagePath w' name) = loadDestinationPackage w (dstPackagePath w f.outputFile))
    (hu : UniqueTypesAround w o.source) (hi : UniqueImportsAround w o.source) :
    ∃ args' source before, command unq exp comment = some (g!"gowrap" :: g!"gen" :: args') ∧
      (({ p with sys := w.sys sched fuel s } : Proc).main args h).2 =
        before ++ [.mkdirAll (dirPath f.outputFile), .writeFile f.outputFile source true] ∧
      (∀ loc, Denotes s.cwd f.outputFile loc → Denotes s'.cwd name loc) ∧
      ∀ k, ∃ before', ({ p' with sys := w'.sys sched' fuel s' } : Proc).main (g!"gen" :: args') k =
        (.code 0, before' ++ [.mkdirAll (dirPath name), .writeFile name source true]) := by
  obtain ⟨e1, e2, e3, e4, e5, e6, e7, ⟨hp1, hp⟩, _⟩ := getOptions_ok hopt
  -- the source package
  have hl : w.loadPackage (if f.sourcePkg = [] then g!"./" else f.sourcePkg) = .ok (o.source, o.sourcePackage) := hp
  have hpath : (w.pkg o.source).path = o.sourcePackage := by
    unfold World.loadPackage at hl
    generalize w.load (if f.sourcePkg = [] then g!"./" else f.sourcePkg) = r at hl
    cases r with
    | ok q =>
      simp only [Except.ok.injEq, Prod.mk.injEq] at hl
      rw [← hl.2, hl.1]
    | _ => cases hl
  have hl' : ∀ k, (w'.sys sched' fuel s').loadPackage k o.sourcePackage = .ok (o.source, o.sourcePackage) := by
    intro k
    show w'.loadPackage o.sourcePackage = _
    unfold World.loadPackage
    rw [hsrc]
    simp only [hw.pkg o.source (.inl rfl), hpath]
  obtain ⟨args', f', hcmd, hf', hopt'⟩ := C99_options_partial (w.sys sched fuel s) (w'.sys sched' fuel s') hc f h k1 o hopt as has hsv d name ho hn hne hd
    comment hcom unq exp hcwd hl' htools.template
  have hname : o.outputFileName = name := by rw [e4, ho, basePath_append hn hne hd]
  -- the first run
  rw [main_gen ha] at h0 ⊢
  have h1 := (dispatch_gen { p with sys := w.sys sched fuel s } rest h).1.1 h0
  rw [(dispatch_gen { p with sys := w.sys sched fuel s } rest h).2]
  simp only [runGen_usable hf] at h1 ⊢
  cases hr : (w.sys sched fuel s).runChecked f h with
  | mk r kk =>
    rw [hr] at h1
    simp only at h1 ⊢
    subst h1
    obtain ⟨o1, k1', src, k2, g1, g2, g3, g4, rfl⟩ := runChecked_ok.1 hr
    rw [hopt] at g1
    cases g1
    obtain ⟨rfl, g5, header, body, g6, g7, g8⟩ := generate_ok.1 g2
    refine ⟨args', src, _, hcmd, rfl, ?_, ?_⟩
    · intro loc hloc
      rw [denotes_iff] at hcwd hloc ⊢
      subst hloc
      rw [hcwd, ho, locate_file hn hne hd]
    · intro k
      obtain ⟨k', hk⟩ := hopt' k
      have g5 : (do let _ ← w.newGenerator sched fuel o; return ()) = Res.ok () := g5
      cases hg : w.newGenerator sched fuel o with
      | ok g =>
        have hg' : w'.newGenerator sched' fuel { o with outputFile := name } = .ok g := by
          show newGenerator w' sched' fuel { (o.forGenerator o.source) with outputFile := name } = .ok g
          rw [C98_moved (w := w) (w' := w') (src := o.source) hs' rfl rfl hw (by rw [show (o.forGenerator o.source).outputFile = f.outputFile from e2]; exact hdst) htitle]
          exact (C23_dependencies_partial hs hs' rfl hu hi g).1 hg
        have hgs : g.srcPackage = o.source := by
          obtain ⟨_, _, q1, _⟩ := newGenerator_ok hg
          exact (Res.ok.inj q1).symm
        obtain ⟨m1, m2⟩ := output_moved (g := g) hw.uni (by rw [hgs]; exact hw.pkg _ (.inl rfl)) o name
        have hrun : (w'.sys sched' fuel s').runChecked f' k = (.ok (), (k' ++ [.generate]) ++ [.mkdirAll (dirPath name), .writeFile name src true]) := by
          have hfo : f'.outputFile = name := (getOptions_ok hk).2.1.symm
          rw [← hfo]
          refine runChecked_ok.2 ⟨_, _, src, k' ++ [.generate], hk, generate_ok.2 ⟨rfl, ?_, header, body, ?_, ?_, ?_⟩, ?_, ?_, rfl⟩
          · show (do let _ ← w'.newGenerator sched' fuel { o with outputFile := name }; return ()) = Res.ok ()
            rw [hg']
            rfl
          · rw [← g6]
            rw [sys_header, sys_header]
            exact orElse_congr (g := g) (x := fun g => w'.header g { o with outputFile := name }) (y := fun g => w.header g o) hg' hg m1
              (htools.header _ _)
          · rw [← g7]
            rw [sys_body, sys_body]
            exact orElse_congr (g := g) (x := fun g => w'.body g { o with outputFile := name }) (y := fun g => w.body g o) hg' hg m2
              (htools.body _ _)
          · rw [← g8]
            exact htools.process _ _ _
          · rw [hfo]; exact htools.mkdirAll _
          · rw [hfo]; exact htools.writeFile _ _
        refine ⟨k' ++ [.generate], ?_⟩
        rw [main_gen (Words.plain _ _ (.inr (by decide)))]
        have d2 := dispatch_gen { p' with sys := w'.sys sched' fuel s' } args' k
        simp only [runGen_usable hf', hrun] at d2
        exact Prod.ext (d2.1.2 trivial) d2.2
      | _ => rw [hg] at g5; cases g5

/-- **C99** (partial), with the generated file in place.  The situation in which `go generate` runs: the first run in the workspace `w` wrote the file,
so that the destination package, which may be the source package, now contains it; then the line is executed in the directory of the file, in a
workspace `w'` in which the packages are found that way. -/
theorem C99_regenerate_partial {w w' : World} {sched sched' : Sched} {fuel : Nat} {s s' : Sys} {p p' : Proc} {args rest : List Str}
    {h k1 : List Ev} {f : GenFlags} {o : GenOptions} {as : List Str} {d name comment : Str} {q : PkgId} {file : File} {new : List (Str × PkgId)}
    (ha : Words args (g!"gen" :: rest)) (hf : Usable rest f) (hs : sched.Fair) (hs' : sched'.Fair) (hc : IsDir s.cwd)
    (h0 : (({ p with sys := w.sys sched fuel s } : Proc).main args h).1 = .code 0)
    (hopt : (w.sys sched fuel s).getOptions f h = (.ok o, k1)) (has : f.vars = as.map varOf) (hsv : Survives o as)
    (ho : f.outputFile = d ++ name) (hn : '/' ∉ name) (hne : name ≠ []) (hd : d = [] ∨ d.getLast? = some '/')
    (hcom : headerComment o = some comment) (unq : Str → Option Str) (exp : Str → Str)
    (hcwd : Denotes s.cwd d s'.cwd) (htools : SameTools s s' o name)
    (hraw : ∀ ts, DeclaredIn file ts → w.raw (.ident ts.name) = ts.name) (hu : UniqueTypesAround (addFile w q file new) o.source)
    (hi : UniqueImportsAround (addFile w q file new) o.source) (hnew : ¬ FileOf w q file) (hfresh : Unembedded w q file)
    (hdst : w.load (dstPackagePath w f.outputFile) = .ok q) (hcyc : ¬ DependsOn w o.source q)
    (hsrc : w'.load o.sourcePackage = .ok o.source) (hw : SameAround (addFile w q file new) w' o.source) (htitle : w'.title = w.title)
    (hdst' : loadDestinationPackage w' (dstPackagePath w' name) = loadDestinationPackage w (dstPackagePath w f.outputFile)) :
    ∃ args' source before, command unq exp comment = some (g!"gowrap" :: g!"gen" :: args') ∧
      (({ p with sys := w.sys sched fuel s } : Proc).main args h).2 =
        before ++ [.mkdirAll (dirPath f.outputFile), .writeFile f.outputFile source true] ∧
      (∀ loc, Denotes s.cwd f.outputFile loc → Denotes s'.cwd name loc) ∧
      ∀ k, ∃ before', ({ p' with sys := w'.sys sched' fuel s' } : Proc).main (g!"gen" :: args') k =
        (.code 0, before' ++ [.mkdirAll (dirPath name), .writeFile name source true]) := by
  have hload : (addFile w q file new).loadPackage = w.loadPackage := by
    funext path
    unfold World.loadPackage
    have : (addFile w q file new).load = w.load := rfl
    rw [this]
    simp only [addFile_path]
  have hl : w.loadPackage (if f.sourcePkg = [] then g!"./" else f.sourcePkg) = .ok (o.source, o.sourcePackage) := (getOptions_ok hopt).2.2.2.2.2.2.2.1.elim fun _ h => h
  have hsrc0 : w.load (if f.sourcePkg = [] then g!"./" else f.sourcePkg) = .ok o.source := by
    unfold World.loadPackage at hl
    generalize w.load (if f.sourcePkg = [] then g!"./" else f.sourcePkg) = r at hl ⊢
    cases r with
    | ok p =>
      simp only [Except.ok.injEq, Prod.mk.injEq] at hl
      rw [hl.1]
    | _ => cases hl
  have e := C97_process_dependencies_partial (p := p) (s := s) ha hf hs hs hraw hu hi hnew hfresh hsrc0 hdst hcyc h0
  have hopt' : ((addFile w q file new).sys sched fuel s).getOptions f h = (.ok o, k1) := by
    rw [← hopt]
    unfold Sys.getOptions
    have : (fun h => ((addFile w q file new).sys sched fuel s).loadPackage h (if f.sourcePkg = [] then g!"./" else f.sourcePkg)) =
        (fun h => (w.sys sched fuel s).loadPackage h (if f.sourcePkg = [] then g!"./" else f.sourcePkg)) := by
      funext h
      show (addFile w q file new).loadPackage _ = w.loadPackage _
      rw [hload]
    simp only [this]
    rfl
  rw [← e] at h0 ⊢
  have hda := dst_add (w := w) (o := o.forGenerator o.source) (q := q) (f := file) (new := new) (r := q)
    (by rw [show (o.forGenerator o.source).outputFile = f.outputFile from (getOptions_ok hopt).2.1]; exact hdst)
  rw [show (o.forGenerator o.source).outputFile = f.outputFile from (getOptions_ok hopt).2.1] at hda
  exact C99_process_partial ha hf hs hs' hc h0 hopt' has hsv ho hn hne hd hcom unq exp hcwd htools hsrc hw htitle (hdst'.trans hda.symm) hu hi

/-- The full claim C99 (a part of it): whatever the option values, executing the line gives the generator the same options. -/
def C99_full : Prop := ∀ (s s' : Sys) (f : GenFlags) (h h' : List Ev) (o : GenOptions) (as : List Str) (d name comment : Str)
    (unq : Str → Option Str) (exp : Str → Str), IsDir s.cwd → s.getOptions f h = (.ok o, h') → f.vars = as.map varOf →
  f.outputFile = d ++ name → '/' ∉ name → name ≠ [] → (d = [] ∨ d.getLast? = some '/') → headerComment o = some comment →
  Denotes s.cwd d s'.cwd → (∀ k, s'.loadPackage k o.sourcePackage = .ok (o.source, o.sourcePackage)) →
  (∀ k, ∃ k', s'.loaderLoad o.template k = (.ok (o.bodyTemplate, o.template), k')) →
  ∃ args f', command unq exp comment = some (g!"gowrap" :: g!"gen" :: args) ∧ Usable args f' ∧
    ∀ k, ∃ k', s'.getOptions f' k = (.ok { o with outputFile := name }, k')

/-- The flags of `gowrap gen -i I -t https://h/t -o d/x.go -v "m=a b"`. -/
def blankFlags : GenFlags := { interfaceName := g!"I", outputFile := g!"d/x.go", template := g!"https://h/t", vars := [varOf g!"m=a b"] }

/-- A value with a blank is cut off: the decorator is generated with another value of the variable. -/
theorem C99_full_false : ¬ C99_full := by
  intro hfull
  have hcwd : IsDir Demo.sys.cwd := by unfold IsDir IsName; decide
  obtain ⟨args, f', h1, h2, h3⟩ := hfull Demo.sys { Demo.sys with cwd := [g!"home", g!"u", g!"d"] } blankFlags [] _ _ [g!"m=a b"] g!"d/" g!"x.go" _
    (fun _ => none) id hcwd rfl rfl rfl (by decide) (by decide) (.inr rfl) rfl ((denotes_iff _ _ _).2 rfl) (fun _ => rfl) (fun k => ⟨_, rfl⟩)
  have e : command (fun _ => none) id g!"go:generate gowrap gen -p example.org/p -i I -t https://h/t -o x.go -v m=a b -l \"\"" = some [g!"gowrap", g!"gen",
    g!"-p", g!"example.org/p", g!"-i", g!"I", g!"-t", g!"https://h/t", g!"-o", g!"x.go", g!"-v", g!"m=a", g!"b", g!"-l", []] := rfl
  have h1 := e.symm.trans h1
  simp only [Option.some.injEq, List.cons.injEq, true_and] at h1
  subst h1
  obtain ⟨⟨r, hr⟩, _⟩ := h2
  have hr := (C35_flags _ _ _).2 hr
  have e2 : parseGen {} [g!"-p", g!"example.org/p", g!"-i", g!"I", g!"-t", g!"https://h/t", g!"-o", g!"x.go", g!"-v", g!"m=a", g!"b", g!"-l", []] =
    .ok (⟨false, g!"I", g!"example.org/p", g!"x.go", g!"https://h/t", [⟨g!"m", .text g!"a"⟩], []⟩, [g!"b", g!"-l", []]) := rfl
  rw [e2] at hr
  simp only [Except.ok.injEq, Prod.mk.injEq] at hr
  obtain ⟨rfl, _⟩ := hr
  obtain ⟨k', hk⟩ := h3 []
  have := (getOptions_ok hk).2.2.2.2.1
  exact absurd this (by decide)

/-! ### Examples -/

/-- `gowrap gen -p /app -i Svc -t templates/t -o <out> -v mode=fast` in `/home/u`. -/
def lineFlags (out : Str) : GenFlags := { regenFlags out with vars := [varOf g!"mode=fast"] }

def lineArgs (out : Str) : List Str := regenArgs out ++ [g!"-v", g!"mode=fast"]

theorem line_flags {out : Str} (h : out ≠ []) : Usable (lineArgs out) (lineFlags out) :=
  ⟨⟨[], (C35_flags _ _ _).1 rfl⟩, h, by simp [lineFlags, regenFlags], by simp [lineFlags, regenFlags]⟩

def lineOptions (out : Str) : GenOptions where
  interfaceName := g!"Svc"
  outputFile := out
  disableGoGenerate := false
  outputFileName := g!"x.go"
  varsArgs := g!" -v mode=fast"
  vars := varsMap [varOf g!"mode=fast"]
  localPrefix := []
  sourcePackage := g!"/app"
  source := 0
  bodyTemplate := utf8 namesTemplate
  template := g!"../home/u/templates/t"

theorem line_survives (out : Str) : Survives (lineOptions out) [g!"mode=fast"] where
  package := show Plain g!"/app" from ⟨by decide, by decide, by decide⟩
  interfaceName := show Plain g!"Svc" from ⟨by decide, by decide, by decide⟩
  template := show Plain g!"../home/u/templates/t" from ⟨by decide, by decide, by decide⟩
  outputFileName := show Plain g!"x.go" from ⟨by decide, by decide, by decide⟩
  vars := by unfold Plain; decide
  localPrefix := show Quotable [] by unfold Quotable; decide

/-- The machine as seen from the directory `/dir`. -/
def inDir (dir : Str) : Sys := { Gowrap.Demo.disk namesTemplate with
  cwd := [dir]
  net := { (Gowrap.Demo.disk namesTemplate).net with
    readFile := fun _ p => if p = g!"../home/u/templates/t" then .contents (utf8 namesTemplate) else .notExist } }

theorem line_tools (out dir : Str) : SameTools (Gowrap.Demo.disk namesTemplate) (inDir dir) (lineOptions out) g!"x.go" :=
  ⟨fun k => ⟨k ++ [.readFile g!"../home/u/templates/t"], by krfl⟩, fun _ _ => rfl, fun _ _ => rfl, fun _ _ _ => rfl, fun _ => rfl, fun _ _ => rfl⟩

theorem line_dir : IsDir (Gowrap.Demo.disk namesTemplate).cwd := by
  show IsDir [g!"home", g!"u"]
  unfold IsDir IsName
  decide

/-- The packages as seen from the directory of package `q`. -/
def fromDir (pkgs : List Gowrap.Demo.Pkg) (q : PkgId) : World := { Gowrap.Demo.world pkgs with
  load := fun path => if path = g!"./" then .ok q else (Gowrap.Demo.world pkgs).load path }

theorem line_world {pkgs : List Gowrap.Demo.Pkg} (q : PkgId)
    (hall : pkgs.all (fun x => x.files.all (fun f => f.imports.all (fun i => decide (trimQuotes i.path ≠ g!"./")))) = true) :
    SameAround (Gowrap.Demo.world pkgs) (fromDir pkgs q) 0 :=
  { uni := rfl
    raw := rfl
    pkg := fun _ _ => rfl
    files := fun _ _ => rfl
    load := fun p f imp _ hf hi => by
      rw [Gowrap.Demo.fileOf_world] at hf
      obtain ⟨x, hx, hf⟩ := hf
      simp only [List.all_eq_true] at hall
      exact if_neg (of_decide_eq_true (hall x (List.mem_iff_getElem?.2 ⟨p, hx⟩) f hf imp hi))
    loadEmpty := rfl }

/-- The line in the file generated in `/old` runs gowrap there, which writes the same file. -/
example : ∃ args' source before,
    command (fun _ => none) id g!"go:generate gowrap gen -p /app -i Svc -t ../home/u/templates/t -o x.go -v mode=fast -l \"\"" =
      some (g!"gowrap" :: g!"gen" :: args') ∧
    (({ Demo.proc with sys := (Gowrap.Demo.world messy).sys Gowrap.Demo.inOrder 20 (Gowrap.Demo.disk namesTemplate) } : Proc).main
        (g!"gen" :: lineArgs g!"/old/x.go") []).2 = before ++ [.mkdirAll g!"/old", .writeFile g!"/old/x.go" source true] ∧
    (∀ loc, Denotes [g!"home", g!"u"] g!"/old/x.go" loc → Denotes [g!"old"] g!"x.go" loc) ∧
    ∀ k, ∃ before', ({ Demo.proc with sys := (fromDir messy 4).sys Gowrap.Demo.backwards 20 (inDir g!"old") } : Proc).main (g!"gen" :: args') k =
      (.code 0, before' ++ [.mkdirAll g!".", .writeFile g!"x.go" source true]) :=
  C99_process_partial (w := Gowrap.Demo.world messy) (w' := fromDir messy 4) (s := Gowrap.Demo.disk namesTemplate) (s' := inDir g!"old")
    (f := lineFlags g!"/old/x.go") (o := lineOptions g!"/old/x.go") (as := [g!"mode=fast"]) (d := g!"/old/") (rest := lineArgs g!"/old/x.go")
    (.plain _ _ (.inr (by decide))) (line_flags (by decide))
    Gowrap.Demo.inOrder_fair Gowrap.Demo.backwards_fair line_dir (by decide +kernel)
    (k1 := [.loadPackage g!"/app", .readFile g!"templates/t"]) (by krfl) rfl
    (line_survives _) rfl (by decide) (by decide) (.inr rfl) rfl _ _ ((denotes_iff _ _ _).2 rfl) (line_tools _ _)
    (by decide +kernel) (line_world 4 (by decide +kernel)) rfl (by decide +kernel) messy_types messy_imports

/-- The decorator is written into the source package; then the line is executed there, with the generated file among the files of the package. -/
example : ∃ args' source before,
    command (fun _ => none) id g!"go:generate gowrap gen -p /app -i Svc -t ../home/u/templates/t -o x.go -v mode=fast -l \"\"" =
      some (g!"gowrap" :: g!"gen" :: args') ∧
    (({ Demo.proc with sys := (Gowrap.Demo.world regenPkgs).sys Gowrap.Demo.inOrder 20 (Gowrap.Demo.disk namesTemplate) } : Proc).main
        (g!"gen" :: lineArgs g!"/app/x.go") []).2 = before ++ [.mkdirAll g!"/app", .writeFile g!"/app/x.go" source true] ∧
    (∀ loc, Denotes [g!"home", g!"u"] g!"/app/x.go" loc → Denotes [g!"app"] g!"x.go" loc) ∧
    ∀ k, ∃ before', ({ Demo.proc with sys := (fromDir (regenAfter withTimeout g!"time" 3) 0).sys Gowrap.Demo.backwards 20 (inDir g!"app") } : Proc).main
        (g!"gen" :: args') k =
      (.code 0, before' ++ [.mkdirAll g!".", .writeFile g!"x.go" source true]) :=
  C99_regenerate_partial (w := Gowrap.Demo.world regenPkgs) (w' := fromDir (regenAfter withTimeout g!"time" 3) 0)
    (s := Gowrap.Demo.disk namesTemplate) (s' := inDir g!"app")
    (f := lineFlags g!"/app/x.go") (o := lineOptions g!"/app/x.go") (as := [g!"mode=fast"]) (d := g!"/app/") (rest := lineArgs g!"/app/x.go")
    (q := 0) (file := withTimeout) (new := [(g!"time", 3)])
    (.plain _ _ (.inr (by decide))) (line_flags (by decide))
    Gowrap.Demo.inOrder_fair Gowrap.Demo.backwards_fair line_dir (by decide +kernel)
    (k1 := [.loadPackage g!"/app", .readFile g!"templates/t"]) (by krfl) rfl
    (line_survives _) rfl (by decide) (by decide) (.inr rfl) rfl _ _ ((denotes_iff _ _ _).2 rfl) (line_tools _ _)
    regen_raw (types_around (by rw [regen_add]; exact Gowrap.Demo.unique_of_check (by decide +kernel)) _) (imports_around regen_timeout_imports _)
    (regen_new (by decide)) (regen_unembedded _) (by decide +kernel) (fun h => absurd (regen_acyclic h) (by decide))
    (by decide +kernel) (by rw [regen_add]; exact line_world 0 (by decide +kernel)) rfl (by decide +kernel)

end Gowrap.Props

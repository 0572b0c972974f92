import Verif.Props.ExitCode
import Verif.Props.Utf8
import Verif.Props.SourceFile
import Verif.Props.Works
import Verif.Model.Command
import Verif.Spec.Command
/-!
# The gen command from the arguments to the file (C81)
-/

namespace Gowrap.Props

open Gowrap Spec Tmpl Go

/-! ## Texts and bytes -/

theorem char_scalar (c : Char) : Scalar c.toNat := by
  rcases c.valid with h | ⟨h1, h2⟩
  · exact .inl h
  · exact .inr ⟨by show 0xE000 ≤ c.val.toNat; omega, by show c.val.toNat ≤ _; omega⟩

theorem utf8_cons (c : Char) (s : Str) : utf8 (c :: s) = encodeRune c.toNat ++ utf8 s := rfl

theorem utf8_append (s t : Str) : utf8 (s ++ t) = utf8 s ++ utf8 t := by
  unfold utf8
  rw [List.flatMap_append]

theorem encodes_utf8 : ∀ s : Str, Encodes s (utf8 s)
  | [] => .nil
  | c :: s => .cons c _ s _ (encodeRune_scalar (char_scalar c)) (encodes_utf8 s)

theorem encodes_iff {s : Str} {b : Bytes} : Encodes s b ↔ b = utf8 s := by
  constructor
  · intro h
    induction h with
    | nil => rfl
    | cons c bs s rest h1 _ ih => rw [ih, utf8_cons, utf8_unique h1 (encodeRune_scalar (char_scalar c))]
  · rintro rfl
    exact encodes_utf8 s

theorem utf8_length_pos {r : Nat} {bs : Bytes} (h : Utf8 r bs) : 0 < bs.length := by cases h <;> simp

theorem textOf_utf8 : ∀ (s : Str) (n : Nat), (utf8 s).length ≤ n → textOf n (utf8 s) = some s
  | [], n, _ => by cases n <;> rfl
  | c :: s, n, hn => by
    have he := encodeRune_scalar (char_scalar c)
    have hp := utf8_length_pos he
    rw [utf8_cons] at hn ⊢
    rw [List.length_append] at hn
    have hd := decode_utf8 he (utf8 s)
    generalize hb : encodeRune c.toNat ++ utf8 s = b at hd
    match n, b with
    | 0, _ => omega
    | n + 1, [] => rw [List.append_eq_nil_iff] at hb; rw [hb.1] at hp; cases hp
    | n + 1, x :: xs =>
      rw [textOf, hd, ← hb, List.take_left, if_pos rfl, List.drop_left, textOf_utf8 s n (by omega), Option.map_some, Char.ofNat_toNat]

/-- Different texts have different encodings. -/
theorem utf8_inj {s t : Str} (h : utf8 s = utf8 t) : s = t := by
  have h1 := textOf_utf8 s _ (Nat.le_refl _)
  rw [h, textOf_utf8 t _ (Nat.le_refl _)] at h1
  exact (Option.some.inj h1).symm

/-! ## The command -/

theorem main_gen {p : Proc} {args rest : List Str} (hw : Words args (g!"gen" :: rest)) (h : List Ev) :
    p.main args h = p.dispatch (g!"gen" :: rest) h := by
  generalize hm : p.main args h = r
  have hc := main_case p args h
  rw [hm] at hc
  cases hc with
  | noArgs h1 => subst h1; cases hw
  | flag s rest' h1 h2 h3 =>
    subst h1
    cases hw with
    | plain _ _ hp => exact absurd hp h2
    | dashes => exact absurd rfl h3
  | words ws h1 => rw [words_unique h1 hw]

theorem dispatch_gen (p : Proc) (rest : List Str) (h : List Ev) :
    ((p.dispatch (g!"gen" :: rest) h).1 = .code 0 ↔ (p.sys.runGen rest h).1 = .ok ()) ∧
    (p.dispatch (g!"gen" :: rest) h).2 = (p.sys.runGen rest h).2 := by
  have e : p.dispatch (g!"gen" :: rest) h = match p.sys.runGen rest h with
        | (.ok (), h') => (.code 0, h')
        | (.error (.error (.commandLine _)), h') => (p.die 2, h')
        | (.error (.error _), h') => (p.die 1, h')
        | (.error .panic, h') => (.crash, h')
        | (.error .diverge, h') => (.diverge, h') := rfl
  have hd : ∀ n, n ≠ 0 → p.die n ≠ .code 0 := by
    intro n hn hx
    unfold Proc.die at hx
    split at hx
    · exact hn (Exit.code.inj hx)
    · cases hx
  rw [e]
  rcases p.sys.runGen rest h with ⟨(_ | _ | _) | _, h'⟩
  · next ce =>
    cases ce <;> simp [hd]
  · simp
  · simp
  · simp

theorem newGenerator_src {w : World} {s : Sched} {fuel : Nat} {o : GenOptions} {src : PkgId} {g : Generator}
    (h : newGenerator w s fuel (o.forGenerator src) = .ok g) : g.srcPackage = src := by
  obtain ⟨_, _, h1, _⟩ := newGenerator_ok h
  simpa [loadSource, GenOptions.forGenerator] using h1.symm

theorem load_of {w : World} {path : Str} {r : PkgId × Str} (h : w.loadPackage path = .ok r) : w.load path = .ok r.1 ∧ r.2 = (w.pkg r.1).path := by
  unfold World.loadPackage at h
  cases hl : w.load path with
  | ok p => rw [hl] at h; cases h; exact ⟨rfl, rfl⟩
  | err e => rw [hl] at h; cases h
  | panic => rw [hl] at h; cases h
  | diverge => rw [hl] at h; cases h

theorem generator_of {w : World} {sched : Sched} {fuel : Nat} {s : Sys} {h : List Ev} {o : GenOptions}
    (hg : (w.sys sched fuel s).newGenerator h o = .ok ()) : ∃ g, newGenerator w sched fuel (o.forGenerator o.source) = .ok g := by
  have hg' : (do let _ ← w.newGenerator sched fuel o; return () : Res Unit) = .ok () := hg
  unfold World.newGenerator at hg'
  cases hn : newGenerator w sched fuel (o.forGenerator o.source) with
  | ok g => exact ⟨g, rfl⟩
  | err e => rw [hn] at hg'; cases hg'
  | panic => rw [hn] at hg'; cases hg'
  | diverge => rw [hn] at hg'; cases hg'

/-- What the command passes to goimports. -/
theorem passed {w : World} {sched : Sched} {fuel : Nat} {s : Sys} {o : GenOptions} {g : Generator} {h2 h3 : List Ev} {header body : Bytes}
    (hg : newGenerator w sched fuel (o.forGenerator o.source) = .ok g) (hh : (w.sys sched fuel s).header h2 o = .ok header)
    (hb : (w.sys sched fuel s).body h3 o = .ok body) {b : Str} (ht : Encodes b o.bodyTemplate) {text : Str} (hx : g.source w o b = some text) :
    header ++ body = utf8 text := by
  have hsrc := newGenerator_src hg
  unfold Generator.source at hx
  rw [hsrc] at hx
  cases hr : renderHeader w.uni (g.header w o) with
  | none => rw [hr] at hx; cases hx
  | some hd =>
    rw [hr] at hx
    cases hy : render w.uni b (g.inputs (o.forGenerator o.source) o.vars) with
    | none => rw [hy] at hx; cases hx
    | some bd =>
      rw [hy] at hx
      have e : hd ++ bd = text := Option.some.inj hx
      have e1 : (w.sys sched fuel s).header h2 o = .ok (utf8 hd) := by
        show orElse (w.newGenerator sched fuel o) (fun g => w.header g o) (s.header h2 o) = _
        have : w.newGenerator sched fuel o = .ok g := hg
        rw [this]
        simp only [orElse, World.header, hr, Option.map_some]
      have e2 : (w.sys sched fuel s).body h3 o = .ok (utf8 bd) := by
        show orElse (w.newGenerator sched fuel o) (fun g => w.body g o) (s.body h3 o) = _
        have : w.newGenerator sched fuel o = .ok g := hg
        rw [this]
        have ht' : textOf o.bodyTemplate.length o.bodyTemplate = some b := by
          rw [encodes_iff.1 ht]
          exact textOf_utf8 b _ (Nat.le_refl _)
        simp only [orElse, World.body, ht', Option.bind_eq_bind, Option.bind_some, hy, Option.pure_def]
      rw [hh] at e1
      rw [hb] at e2
      cases e1
      cases e2
      rw [← utf8_append, e]

/-- What a successful run of `gowrap gen` has done: the flags have been understood, the package that they name has been loaded, the
interface has been accepted, and the output file has been written with what goimports has made of the `input`. -/
structure GenRun (w : World) (sched : Sched) (fuel : Nat) (s : Sys) (args : List Str) (ev : List Ev) (f : GenFlags) (o : GenOptions)
    (g : Generator) (input : Bytes) : Prop where
  flags : Usable args f
  options : OptionsOf (w.sys sched fuel s) f o
  package : w.load (if f.sourcePkg = [] then g!"./" else f.sourcePkg) = .ok o.source
  path : o.sourcePackage = (w.pkg o.source).path
  generator : newGenerator w sched fuel (o.forGenerator o.source) = .ok g
  written : ∃ h source, s.process h f.localPrefix f.outputFile input = .ok source ∧
    ev.filter (fun e => decide (ChangesFiles e)) = [.mkdirAll (dirPath f.outputFile), .writeFile f.outputFile source true]

/-- The full claim of C81: whenever `gowrap gen` with a built-in template exits with code 0, the file it has written is what goimports makes of
a Go file with a decorator that compiles and does what the template promises. -/
def C81_full : Prop := ∀ (w : World) (sched : Sched) (fuel : Nat) (s : Sys) (p : Proc), p.sys = w.sys sched fuel s → sched.Fair → SourceOk w →
  (∀ p f, FileOf w p f → ∀ im ∈ f.imports, ImportOk im) → (∀ p, InQuotes (w.pkg p).path) →
  ∀ args rest h, Words args (g!"gen" :: rest) → (p.main args h).1 = .code 0 →
  ∃ ev f o g input, (p.main args h).2 = h ++ ev ∧ GenRun w sched fuel s rest ev f o g input ∧
    (GoName o.interfaceName → GoVars (g.inputs (o.forGenerator o.source) o.vars) →
      ∀ q ∈ promises w (o.forGenerator o.source) g o.vars, Encodes q.1.1.text o.bodyTemplate →
      ∃ text, Encodes text input ∧ DecoratorFile w g o q.1 q.2 text)

/-- A successful run. -/
theorem run_gen {w : World} {sched : Sched} {fuel : Nat} {s : Sys} {p : Proc} (hp : p.sys = w.sys sched fuel s)
    {args rest : List Str} (hw : Words args (g!"gen" :: rest)) {h : List Ev} (h0 : (p.main args h).1 = .code 0) :
    ∃ ev f o g input, (p.main args h).2 = h ++ ev ∧ GenRun w sched fuel s rest ev f o g input ∧
      ∀ b text, Encodes b o.bodyTemplate → g.source w o b = some text → input = utf8 text := by
  rw [main_gen hw] at h0 ⊢
  obtain ⟨hc, hh⟩ := dispatch_gen p rest h
  rw [hh]
  have hok := hc.1 h0
  rw [hp] at hok ⊢
  obtain ⟨ev, h1, h2⟩ := C34_atomic_output (w.sys sched fuel s) rest h
  rcases h2 with ⟨_, e, he⟩ | ⟨f, hf, he⟩
  · rw [hok] at he; cases he
  · rw [hok] at he
    generalize hev : ev.filter (fun e => decide (ChangesFiles e)) = fe at he
    cases he with
    | done source hs =>
      obtain ⟨o, k1, k2, k3, k4, header, body, ho, hn, hd, hb, hpr⟩ := hs
      obtain ⟨g, hg⟩ := generator_of hn
      obtain ⟨k0, hl⟩ := ho.package
      obtain ⟨hl1, hl2⟩ := load_of hl
      exact ⟨ev, f, o, g, header ++ body, h1, ⟨hf, ho, hl1, hl2, hg, k4, source, hpr, hev⟩, fun b text ht hx => passed hg hd hb ht hx⟩

/-- **C81** Whenever `gowrap gen` exits with code 0, it has loaded the package and the template that the flags name, the generator has accepted
the interface, and the only file written is the output file, whose contents is what goimports makes of the generated text.  For a built-in
template that text is a Go file with a decorator that compiles and does what the template promises.  Missing: names and options for which C78
or C80 fail, see `C81_full_false`. -/
theorem C81_gen_partial {w : World} {sched : Sched} {fuel : Nat} {s : Sys} {p : Proc} (hp : p.sys = w.sys sched fuel s)
    {args rest : List Str} (hw : Words args (g!"gen" :: rest)) {h : List Ev} (h0 : (p.main args h).1 = .code 0) :
    ∃ ev f o g input, (p.main args h).2 = h ++ ev ∧ GenRun w sched fuel s rest ev f o g input ∧
      ∀ q ∈ promises w (o.forGenerator o.source) g o.vars, Encodes q.1.1.text o.bodyTemplate → HeaderReady w g o →
        Ready w sched fuel (o.forGenerator o.source) g o.vars q.1 → ∃ text, Encodes text input ∧ DecoratorFile w g o q.1 q.2 text := by
  obtain ⟨ev, f, o, g, input, h1, h2, h3⟩ := run_gen hp hw h0
  refine ⟨ev, f, o, g, input, h1, h2, fun q hq ht hr hy => ?_⟩
  obtain ⟨t, ds, r1, r2, r3, r4⟩ := C80_works_partial q hq hy
  have hsrc := newGenerator_src h2.generator
  obtain ⟨text, fl, ts, x1, x2, x3, x4, x5⟩ := source_tokens hy.fair hy.source hr.imports h2.path (hsrc ▸ hr.path) h2.generator hr.lines hr.package r1 r2
  refine ⟨text, encodes_iff.2 (h3 _ _ ht x1), fl, ts, ds, x2, x3, x4, x5, r2.2, ?_, r4⟩
  rw [hsrc]
  exact r3

/-- **C81**, the other direction: `gowrap gen` exits with code 0 if the flags are complete, the package and the template can be loaded, the generator
accepts the interface, and goimports and the file system do their work. -/
theorem C81_succeeds {w : World} {sched : Sched} {fuel : Nat} {s : Sys} {p : Proc} (hp : p.sys = w.sys sched fuel s)
    (hs : sched.Fair) (hw : SourceOk w) {args rest : List Str} (ha : Words args (g!"gen" :: rest)) {f : GenFlags} (hf : Usable rest f)
    (hn : GoName f.interfaceName) {src : PkgId} (hl : w.load (if f.sourcePkg = [] then g!"./" else f.sourcePkg) = .ok src)
    {b : Builtin} (hb : b ∈ builtins) {h : List Ev}
    (ht : ∀ h, ∃ body url h', s.loaderLoad f.template h = (.ok (body, url), h') ∧ Encodes b.text body)
    (hg : ∀ o, OptionsOf (w.sys sched fuel s) f o → o.source = src → ∃ g, newGenerator w sched fuel (o.forGenerator src) = .ok g ∧
      GoVars (g.inputs (o.forGenerator src) o.vars))
    (hi : ∀ h bs, ∃ out, s.process h f.localPrefix f.outputFile bs = .ok out)
    (hm : ∀ h, s.mkdirAll h (dirPath f.outputFile) = none) (hwr : ∀ h out, s.writeFile h f.outputFile out = none) :
    (p.main args h).1 = .code 0 := by
  rw [main_gen ha]
  refine (dispatch_gen p rest h).1.2 ?_
  rw [hp, runGen_usable hf]
  have hlp : ∀ h, (w.sys sched fuel s).loadPackage h (if f.sourcePkg = [] then g!"./" else f.sourcePkg) = .ok (src, (w.pkg src).path) := by
    intro h
    show w.loadPackage _ = _
    unfold World.loadPackage
    rw [hl]
  unfold Sys.runChecked
  rw [Act.run_bind]
  cases hopt : (w.sys sched fuel s).getOptions f h with
  | mk r h1 =>
    cases r with
    | error e =>
      exfalso
      unfold Sys.getOptions at hopt
      simp only [Act.run_emit_bind, Act.run_ask_bind] at hopt
      rw [hlp, Act.run_bind, Act.run_lift_ok] at hopt
      simp only at hopt
      rw [Act.run_bind] at hopt
      obtain ⟨body, url, h', e1, _⟩ := ht (h ++ [.loadPackage (if f.sourcePkg = [] then g!"./" else f.sourcePkg)])
      obtain ⟨ref, e2⟩ := C37_total (w.sys sched fuel s) f _ h' body url e1
      rw [e2] at hopt
      cases hopt
    | ok o =>
      have ho := optionsOf hopt
      obtain ⟨k, hk⟩ := ho.package
      rw [hlp] at hk
      obtain ⟨k1, k2, url, e1⟩ := ho.template
      obtain ⟨body, url', h', e2, e3⟩ := ht k1
      have e4 : s.loaderLoad f.template k1 = (.ok (o.bodyTemplate, url), k2) := e1
      rw [e4] at e2
      have hsrc : src = o.source ∧ (w.pkg src).path = o.sourcePackage := by simpa using hk
      have hbt : o.bodyTemplate = body := by
        simp only [Prod.mk.injEq, Except.ok.injEq] at e2
        exact e2.1.1
      obtain ⟨g, hgo, hv⟩ := hg o ho hsrc.1.symm
      obtain ⟨t, ds, h5, _⟩ := C69_source_to_declarations hs hw (show OptionsOk (o.forGenerator src) from ⟨by rw [GenOptions.forGenerator, ho.interfaceName]; exact hn, .inl rfl⟩) hgo hv b hb
      have hh := C78_header w.uni (g.header w o) (by
        show (w.pkg g.srcPackage).path = _
        rw [newGenerator_src hgo]
        exact hsrc.2)
      rw [hsrc.1] at hgo h5
      have hgo' : w.newGenerator sched fuel o = .ok g := hgo
      have x1 : ∀ h, (w.sys sched fuel s).newGenerator h o = .ok () := by
        intro h
        show (do let _ ← w.newGenerator sched fuel o; return () : Res Unit) = _
        rw [hgo']
        rfl
      have x2 : ∀ h, ∃ bs, (w.sys sched fuel s).header h o = .ok bs := by
        intro h
        show ∃ bs, orElse (w.newGenerator sched fuel o) (fun g => w.header g o) (s.header h o) = .ok bs
        rw [hgo']
        simp only [orElse, World.header, hh, Option.map_some]
        exact ⟨_, rfl⟩
      have x3 : ∀ h, ∃ bs, (w.sys sched fuel s).body h o = .ok bs := by
        intro h
        show ∃ bs, orElse (w.newGenerator sched fuel o) (fun g => w.body g o) (s.body h o) = .ok bs
        rw [hgo']
        have ht' : textOf o.bodyTemplate.length o.bodyTemplate = some b.text := by
          rw [hbt, encodes_iff.1 e3]
          exact textOf_utf8 _ _ (Nat.le_refl _)
        simp only [orElse, World.body, ht', Option.bind_eq_bind, Option.bind_some, h5, Option.pure_def]
        exact ⟨_, rfl⟩
      simp only
      rw [Act.run_bind]
      have x4 : ∃ out h', (w.sys sched fuel s).generate o h1 = (.ok out, h') := by
        unfold Sys.generate
        simp only [Act.run_emit_bind, Act.run_ask_bind]
        rw [x1, Act.run_bind, Act.run_ofRes_ok]
        simp only [Act.run_ask_bind]
        obtain ⟨b1, y1⟩ := x2 (h1 ++ [.generate])
        rw [y1, Act.run_bind, Act.run_lift_ok]
        simp only [Act.run_ask_bind]
        obtain ⟨b2, y2⟩ := x3 (h1 ++ [.generate])
        rw [y2, Act.run_bind, Act.run_lift_ok]
        simp only [Act.run_ask_bind]
        obtain ⟨out, y3⟩ := hi (h1 ++ [.generate]) (b1 ++ b2)
        have y4 : (w.sys sched fuel s).process (h1 ++ [.generate]) o.localPrefix o.outputFile (b1 ++ b2) = .ok out := by
          rw [ho.localPrefix, ho.outputFile]
          exact y3
        rw [y4, Act.run_lift_ok]
        exact ⟨_, _, rfl⟩
      obtain ⟨out, h', y⟩ := x4
      rw [y]
      simp only [Act.run_ask_bind, Act.run_emit_bind]
      have y5 : (w.sys sched fuel s).mkdirAll h' (dirPath f.outputFile) = none := hm h'
      rw [y5]
      simp only [Sys.write, Act.run_ask_bind]
      have y6 : ∀ h, (w.sys sched fuel s).writeFile h f.outputFile out = none := fun h => hwr h out
      rw [y6]
      rfl

end Gowrap.Props

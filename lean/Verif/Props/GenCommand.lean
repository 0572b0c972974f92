import Verif.Props.Loader
import Verif.Props.Flags
/-!
# Properties of the gen and template commands (C34–C36, C38, C39 second half)

`s : Sys` is an arbitrary outside world; its answers may depend on the whole history of events.
-/

namespace Gowrap.Props

open Gowrap Spec

/-! ## C35 -/

/-- The command line is usable: it follows the grammar of flags and the three required ones are there. -/
def Usable (args : List Str) (f : GenFlags) : Prop :=
  (∃ rest, GivesFlags args f rest) ∧ f.outputFile ≠ [] ∧ f.interfaceName ≠ [] ∧ f.template ≠ []

theorem checkFlags_none (f : GenFlags) : checkFlags f = none ↔
    f.outputFile ≠ [] ∧ f.interfaceName ≠ [] ∧ f.template ≠ [] := by
  unfold checkFlags
  split
  · simp_all
  · split
    · simp_all
    · split <;> simp_all

theorem checkFlags_some {f : GenFlags} {e : CErr} (h : checkFlags f = some e) :
    ∃ m, e = .commandLine m := by
  unfold checkFlags at h
  split at h
  · cases h; exact ⟨_, rfl⟩
  · split at h
    · cases h; exact ⟨_, rfl⟩
    · split at h
      · cases h; exact ⟨_, rfl⟩
      · cases h

theorem runGen_usable {s : Sys} {args : List Str} {f : GenFlags} (h : Usable args f) :
    s.runGen args = s.runChecked f := by
  obtain ⟨⟨rest, hp⟩, ho⟩ := h
  unfold Sys.runGen
  rw [(C35_flags _ _ _).2 hp]
  simp only [(checkFlags_none f).2 ho]

theorem runGen_unusable {s : Sys} {args : List Str} (h : ¬ ∃ f, Usable args f) (h0 : List Ev) :
    ∃ m, s.runGen args h0 = (.error (.error (.commandLine m)), h0) := by
  unfold Sys.runGen
  cases hp : parseGen {} args with
  | error e => exact ⟨_, rfl⟩
  | ok r =>
    obtain ⟨f, rest⟩ := r
    simp only
    cases hc : checkFlags f with
    | none => exact absurd ⟨f, ⟨rest, (C35_flags _ _ _).1 hp⟩, (checkFlags_none f).1 hc⟩ h
    | some e =>
      obtain ⟨m, rfl⟩ := checkFlags_some hc
      exact ⟨m, rfl⟩

/-- The error is not a command line error. -/
def NotUsage (f : Fail) : Prop := ∀ m, f ≠ .error (.commandLine m)

/-- The outside world does not itself produce command line errors (they are a type of gowrap). -/
structure Foreign (s : Sys) : Prop where
  newRequest : ∀ u e, s.net.newRequest u = some e → NotUsage (.error e)
  send : ∀ h u e, s.net.send h u = .error e → NotUsage (.error e)
  body : ∀ h u r e, s.net.send h u = .ok r → r.body = .error e → NotUsage (.error e)
  close : ∀ h u r e, s.net.send h u = .ok r → r.close = some e → NotUsage (.error e)
  gitRoot : ∀ h e, s.net.gitRoot h = .error e → NotUsage (.error e)
  loadPackage : ∀ h p e, s.loadPackage h p = .error e → NotUsage (.error e)
  header : ∀ h o e, s.header h o = .error e → NotUsage (.error e)
  template : ∀ h o e, s.body h o = .error e → NotUsage (.error e)
  process : ∀ h l p b e, s.process h l p b = .error e → NotUsage (.error e)
  mkdirAll : ∀ h p e, s.mkdirAll h p = some e → NotUsage (.error e)
  writeFile : ∀ h p b e, s.writeFile h p b = some e → NotUsage (.error e)

/-- Whatever fails, it is not a command line error. -/
def Clean {α : Type} (x : Act α) : Prop := ∀ h f, (x h).1 = .error f → NotUsage f

theorem Clean.bind {α β : Type} {x : Act α} {g : α → Act β} (hx : Clean x) (hg : ∀ a, Clean (g a)) :
    Clean (x >>= g) := by
  intro h f hf
  rw [Act.run_bind] at hf
  cases hr : x h with
  | mk r h' =>
    rw [hr] at hf
    cases r with
    | ok a => exact hg a h' f hf
    | error e => simp only [Except.error.injEq] at hf; subst hf; exact hx h e (by rw [hr])

theorem Clean.pure {α : Type} (a : α) : Clean (Pure.pure a : Act α) := by
  intro h f hf; simp at hf

theorem Clean.emit (e : Ev) : Clean (Act.emit e) := by
  intro h f hf; simp at hf

theorem Clean.fail {α : Type} {e : CErr} (he : NotUsage (.error e)) : Clean (Act.fail e : Act α) := by
  intro h f hf; simp at hf; subst hf; exact he

/-- Asking an oracle and continuing: the answer is one the oracle can give. -/
theorem Clean.ask {α β : Type} {o : List Ev → α} {g : α → Act β}
    (hg : ∀ h, Clean (g (o h))) : Clean (Act.ask o >>= g) := by
  intro h f hf
  exact hg h h f hf

theorem Clean.lift {α : Type} {r : Except CErr α} (hr : ∀ e, r = .error e → NotUsage (.error e)) :
    Clean (Act.lift r) := by
  intro h f hf
  cases r with
  | ok a => simp at hf
  | error e => simp at hf; subst hf; exact hr e rfl

theorem Clean.ofRes {α : Type} (r : Res α) : Clean (Act.ofRes r) := by
  intro h f hf
  cases r <;> simp [Act.ofRes] at hf <;> subst hf <;> intro m hm <;> cases hm

theorem clean_get {s : Sys} (F : Foreign s) (url : Str) : Clean (s.net.get url) := by
  intro h f hf
  obtain ⟨ev, _, h2⟩ := get_run s.net url h
  rw [hf] at h2
  cases h2 with
  | badUrl e hn => exact F.newRequest _ _ hn
  | noAnswer e hn hs => exact F.send _ _ _ hs
  | status r e hn hs hst he =>
    subst he
    cases hc : r.close with
    | none => intro m hm; simp at hm
    | some e => exact F.close _ _ _ _ hs hc
  | closeFailed r e hn hs _ hc => exact F.close _ _ _ _ hs hc
  | readFailed r e hn hs _ _ hb => exact F.body _ _ _ _ hs hb

theorem notUsage_external (c : Nat) : NotUsage (.error (.external c)) := by intro m hm; cases hm

theorem clean_readLocal (n : Net) (p : Str) : Clean (n.readLocal p) := by
  refine .bind (.emit _) fun _ => .ask fun h => ?_
  cases n.readFile h p with
  | contents b => exact .pure _
  | notExist => exact .fail (notUsage_external _)
  | failed c => exact .fail (notUsage_external _)

theorem clean_load {s : Sys} (F : Foreign s) (p : Str) : Clean (s.net.load p) := by
  unfold Net.load
  split
  · exact .bind (clean_get F _) fun _ => .pure _
  · split
    · refine .bind (.emit _) fun _ => .ask fun h => ?_
      split
      · refine .bind ?_ fun q => .bind (clean_readLocal _ _) fun _ => .pure _
        refine .bind (.emit _) fun _ => .ask fun h => ?_
        cases hr : s.net.gitRoot h with
        | error e => exact .fail (F.gitRoot _ _ hr)
        | ok r => exact .pure _
      · exact .bind (clean_readLocal _ _) fun _ => .pure _
    · refine .bind (clean_get F _) fun b => ?_
      rcases s.net.commits b with _ | (_ | ⟨c, o⟩)
      · exact .fail (by intro m hm; cases hm)
      · exact .fail (by intro m hm; cases hm)
      · exact .bind (clean_get F _) fun _ => .pure _

theorem clean_loadTemplate {s : Sys} (F : Foreign s) (f : GenFlags) (d : Str) :
    Clean (s.loadTemplate f d) := by
  refine .bind ?_ fun r => ?_
  · refine .bind (.emit _) fun _ => .ask fun h => ?_
    cases s.net.readFile h f.template with
    | contents b => exact .pure _
    | notExist => exact clean_load F _
    | failed c => exact .fail (notUsage_external _)
  · obtain ⟨body, url⟩ := r
    simp only
    split
    · exact .pure _
    · cases relPath d (absPath s.cwd url) with
      | some ref => exact .pure _
      | none => exact .fail (notUsage_external _)

theorem clean_write {s : Sys} (F : Foreign s) (p : Str) (b : Bytes) : Clean (s.write p b) := by
  refine .ask fun h => ?_
  cases hw : s.writeFile h p b with
  | none => exact .emit _
  | some e => exact .bind (.emit _) fun _ => .fail (F.writeFile _ _ _ _ hw)

theorem clean_generate {s : Sys} (F : Foreign s) (o : GenOptions) : Clean (s.generate o) := by
  refine .bind (.emit _) fun _ => .ask fun h => .bind (.ofRes _) fun _ => .ask fun h => ?_
  refine .bind (.lift fun e he => F.header _ _ _ he) fun _ => .ask fun h => ?_
  refine .bind (.lift fun e he => F.template _ _ _ he) fun _ => .ask fun h => ?_
  exact .lift fun e he => F.process _ _ _ _ _ he

theorem clean_runChecked {s : Sys} (F : Foreign s) (f : GenFlags) : Clean (s.runChecked f) := by
  refine .bind ?_ fun o => .bind (clean_generate F o) fun b => ?_
  · refine .bind (.emit _) fun _ => .ask fun h => ?_
    refine .bind (.lift fun e he => F.loadPackage _ _ _ he) fun p => ?_
    refine .bind (clean_loadTemplate F f _) fun r => ?_
    obtain ⟨x, y⟩ := r
    exact .pure _
  · refine .ask fun h => .bind (.emit _) fun _ => ?_
    cases hm : s.mkdirAll h (dirPath f.outputFile) with
    | none => exact clean_write F _ _
    | some e => exact .fail (F.mkdirAll _ _ _ hm)

/-- **C35** The gen command fails with a command line error exactly when the flags do not parse or the
output file, interface name or template is missing; it then has had no effect at all (no file or package
was read, nothing was requested or written). -/
theorem C35_required_flags (s : Sys) (F : Foreign s) (args : List Str) (h : List Ev) :
    ((∃ m, (s.runGen args h).1 = .error (.error (.commandLine m))) ↔ ¬ ∃ f, Usable args f) ∧
    ((¬ ∃ f, Usable args f) → (s.runGen args h).2 = h) := by
  refine ⟨⟨?_, ?_⟩, ?_⟩
  · rintro ⟨m, hm⟩ ⟨f, hf⟩
    rw [runGen_usable hf] at hm
    exact clean_runChecked F f h _ hm m rfl
  · intro hn
    obtain ⟨m, hm⟩ := runGen_unusable (s := s) hn h
    exact ⟨m, by rw [hm]⟩
  · intro hn
    obtain ⟨m, hm⟩ := runGen_unusable (s := s) hn h
    rw [hm]

/-! ## C34 -/

/-- What happens before the output is written. -/
theorem getOptions_extends (s : Sys) (f : GenFlags) :
    Act.Extends (fun l => ∀ e ∈ l, ¬ ChangesFiles e) (s.getOptions f) := by
  have happ : ∀ a b : List Ev, (∀ e ∈ a, ¬ ChangesFiles e) → (∀ e ∈ b, ¬ ChangesFiles e) →
      ∀ e ∈ a ++ b, ¬ ChangesFiles e := by
    intro a b ha hb e he
    rcases List.mem_append.1 he with h | h
    · exact ha e h
    · exact hb e h
  have hnil : ∀ e ∈ ([] : List Ev), ¬ ChangesFiles e := by simp
  have hload : ∀ p, Act.Extends (fun l => ∀ e ∈ l, ¬ ChangesFiles e) (s.net.load p) := fun p =>
    (loader_inv.load s.net p).mono fun l hl e he hc => by
      have := hl e he
      cases e <;> simp [LoaderEvent] at this <;> simp [ChangesFiles] at hc
  refine .bind happ (.emit (by simp [ChangesFiles])) fun _ => .bind happ (.ask hnil _) fun r =>
    .bind happ (.lift hnil _) fun p => .bind happ ?_ fun r => ?_
  · refine .bind happ ?_ fun r => ?_
    · refine .bind happ (.emit (by simp [ChangesFiles])) fun _ => .bind happ (.ask hnil _) fun r => ?_
      cases r with
      | contents b => exact .pure hnil _
      | notExist => exact hload _
      | failed c => exact .fail hnil _
    · obtain ⟨body, url⟩ := r
      simp only
      split
      · exact .pure hnil _
      · cases relPath (absPath s.cwd (dirPath f.outputFile)) (absPath s.cwd url) with
        | some ref => exact .pure hnil _
        | none => exact .fail hnil _
  · obtain ⟨x, y⟩ := r
    exact .pure hnil _

theorem generate_extends (s : Sys) (o : GenOptions) :
    Act.Extends (fun l => ∀ e ∈ l, ¬ ChangesFiles e) (s.generate o) := by
  have happ : ∀ a b : List Ev, (∀ e ∈ a, ¬ ChangesFiles e) → (∀ e ∈ b, ¬ ChangesFiles e) →
      ∀ e ∈ a ++ b, ¬ ChangesFiles e := by
    intro a b ha hb e he
    rcases List.mem_append.1 he with h | h
    · exact ha e h
    · exact hb e h
  have hnil : ∀ e ∈ ([] : List Ev), ¬ ChangesFiles e := by simp
  exact .bind happ (.emit (by simp [ChangesFiles])) fun _ => .bind happ (.ask hnil _) fun _ =>
    .bind happ (.ofRes hnil _) fun _ => .bind happ (.ask hnil _) fun _ => .bind happ (.lift hnil _) fun _ =>
    .bind happ (.ask hnil _) fun _ => .bind happ (.lift hnil _) fun _ => .bind happ (.ask hnil _) fun _ =>
    .lift hnil _

/-- The options handed to the generator are what the flags say: interface, output file, local prefix,
variables (the last value of a name counts), the package that `-p` (or else `./`) loads, and the template
that `-t` loads; the reference to the template is the one of C37. -/
structure OptionsOf (s : Sys) (f : GenFlags) (o : GenOptions) : Prop where
  interfaceName : o.interfaceName = f.interfaceName
  outputFile : o.outputFile = f.outputFile
  localPrefix : o.localPrefix = f.localPrefix
  header : o.disableGoGenerate = f.noGenerate ∧ o.outputFileName = basePath f.outputFile ∧ o.varsArgs = varsToArgs f.vars
  vars : ∀ n, o.vars n = lastValue f.vars n
  package : ∃ h, s.loadPackage h (if f.sourcePkg = [] then g!"./" else f.sourcePkg) = .ok (o.source, o.sourcePackage)
  template : ∃ h h' url, s.loaderLoad f.template h = (.ok (o.bodyTemplate, url), h')
  reference : ∃ h h', s.loadTemplate f (absPath s.cwd (dirPath f.outputFile)) h = (.ok (o.bodyTemplate, o.template), h')

/-- The source generated for the flags: the header and the body of the template, formatted. -/
def Generated (s : Sys) (f : GenFlags) (source : Bytes) : Prop :=
  ∃ o h1 h2 h3 h4 header body, OptionsOf s f o ∧ s.newGenerator h1 o = .ok () ∧
    s.header h2 o = .ok header ∧ s.body h3 o = .ok body ∧
    s.process h4 f.localPrefix f.outputFile (header ++ body) = .ok source

/-- What the gen command did to the files: nothing (and it failed); or it only tried to create the
directory (and it failed); or it created the directory and wrote the output file, once, with a
generated source, and it succeeded exactly if the write did. -/
inductive GenEffect (s : Sys) (f : GenFlags) : Except Fail Unit → List Ev → Prop
  | nothing (e : Fail) : GenEffect s f (.error e) []
  | mkdirFailed (e : CErr) : GenEffect s f (.error (.error e)) [.mkdirAll (dirPath f.outputFile)]
  | writeFailed (e : CErr) (source : Bytes) : Generated s f source →
      GenEffect s f (.error (.error e))
        [.mkdirAll (dirPath f.outputFile), .writeFile f.outputFile source false]
  | done (source : Bytes) : Generated s f source →
      GenEffect s f (.ok ()) [.mkdirAll (dirPath f.outputFile), .writeFile f.outputFile source true]

instance : DecidablePred ChangesFiles := fun e => by
  cases e <;> simp only [ChangesFiles] <;> infer_instance

theorem filter_none {l : List Ev} (h : ∀ e ∈ l, ¬ ChangesFiles e) :
    l.filter (fun e => decide (ChangesFiles e)) = [] := by
  rw [List.filter_eq_nil_iff]
  intro e he; simpa using h e he

theorem getOptions_ok {s : Sys} {f : GenFlags} {h h' : List Ev} {o : GenOptions}
    (hg : s.getOptions f h = (.ok o, h')) :
    o.interfaceName = f.interfaceName ∧ o.outputFile = f.outputFile ∧
    o.disableGoGenerate = f.noGenerate ∧ o.outputFileName = basePath f.outputFile ∧
    o.varsArgs = varsToArgs f.vars ∧ o.vars = varsMap f.vars ∧ o.localPrefix = f.localPrefix ∧
    (∃ h1, s.loadPackage h1 (if f.sourcePkg = [] then g!"./" else f.sourcePkg) = .ok (o.source, o.sourcePackage)) ∧
    ∃ h1, s.loadTemplate f (absPath s.cwd (dirPath f.outputFile)) h1 = (.ok (o.bodyTemplate, o.template), h') := by
  unfold Sys.getOptions at hg
  simp only [Act.run_emit_bind, Act.run_ask_bind] at hg
  rw [Act.run_bind] at hg
  cases hp : s.loadPackage (h ++ [.loadPackage (if f.sourcePkg = [] then g!"./" else f.sourcePkg)])
      (if f.sourcePkg = [] then g!"./" else f.sourcePkg) with
  | error e => rw [hp] at hg; cases hg
  | ok path =>
    rw [hp] at hg
    simp only [Act.run_lift_ok] at hg
    rw [Act.run_bind] at hg
    cases hl : s.loadTemplate f (absPath s.cwd (dirPath f.outputFile))
        (h ++ [.loadPackage (if f.sourcePkg = [] then g!"./" else f.sourcePkg)]) with
    | mk r h2 =>
      rw [hl] at hg
      cases r with
      | error e => cases hg
      | ok p =>
        obtain ⟨body, ref⟩ := p
        simp only [Act.run_pure, Prod.mk.injEq, Except.ok.injEq] at hg
        obtain ⟨rfl, rfl⟩ := hg
        exact ⟨rfl, rfl, rfl, rfl, rfl, rfl, rfl, ⟨_, hp⟩, _, hl⟩

theorem optionsOf {s : Sys} {f : GenFlags} {h h' : List Ev} {o : GenOptions}
    (hg : s.getOptions f h = (.ok o, h')) : OptionsOf s f o := by
  obtain ⟨h1, h2, h3, h4, h5, h6, h7, hp, ⟨hl1, hl⟩⟩ := getOptions_ok hg
  refine ⟨h1, h2, h7, ⟨h3, h4, h5⟩, fun n => by rw [h6, varsMap_eq], hp, ?_, ⟨hl1, _, hl⟩⟩
  unfold Sys.loadTemplate at hl
  rw [Act.run_bind] at hl
  cases hr : s.loaderLoad f.template hl1 with
  | mk r h3 =>
    rw [hr] at hl
    cases r with
    | error e => cases hl
    | ok p =>
      obtain ⟨b, url⟩ := p
      simp only at hl
      refine ⟨hl1, h3, url, ?_⟩
      by_cases hu : hasPrefix url g!"https://" = true
      · rw [if_pos hu] at hl
        simp only [Act.run_pure, Prod.mk.injEq, Except.ok.injEq] at hl
        rw [hr, hl.1.1]
      · rw [if_neg hu] at hl
        generalize relPath _ _ = rel at hl
        cases rel with
        | some ref =>
          simp only [Act.run_pure, Prod.mk.injEq, Except.ok.injEq] at hl
          rw [hr, hl.1.1]
        | none => cases hl

/-- **C34** For every run of the gen command: the events which change files are those of `GenEffect`.  In
particular a failure before the output file is written leaves all files alone (except for a created
directory), nothing but the output file is ever written, it is written at most once, and on success it
holds the generated source. -/
theorem C34_atomic_output (s : Sys) (args : List Str) (h : List Ev) :
    ∃ ev, (s.runGen args h).2 = h ++ ev ∧
      ((ev = [] ∧ ∃ e, (s.runGen args h).1 = .error e) ∨
       ∃ f, Usable args f ∧
        GenEffect s f (s.runGen args h).1 (ev.filter (fun e => decide (ChangesFiles e)))) := by
  by_cases hu : ∃ f, Usable args f
  · obtain ⟨f, hf⟩ := hu
    rw [runGen_usable hf]
    suffices hs : ∃ ev, (s.runChecked f h).2 = h ++ ev ∧
        GenEffect s f (s.runChecked f h).1 (ev.filter (fun e => decide (ChangesFiles e))) by
      obtain ⟨ev, h1, h2⟩ := hs
      exact ⟨ev, h1, Or.inr ⟨f, hf, h2⟩⟩
    unfold Sys.runChecked
    rw [Act.run_bind]
    obtain ⟨ev1, e1, hev1⟩ := getOptions_extends s f h
    cases ho : s.getOptions f h with
    | mk r h1 =>
      rw [ho] at e1
      simp only at e1
      subst e1
      cases r with
      | error e =>
        exact ⟨ev1, rfl, by simp only [filter_none hev1]; exact .nothing e⟩
      | ok o =>
        have hopt := optionsOf ho
        have hout := hopt.outputFile
        simp only
        rw [Act.run_bind]
        obtain ⟨ev2, e2, hev2⟩ := generate_extends s o (h ++ ev1)
        have hgen : ∀ b h2, s.generate o (h ++ ev1) = (.ok b, h2) → Generated s f b := by
          intro b h2 hg
          unfold Sys.generate at hg
          simp only [Act.run_emit_bind, Act.run_ask_bind] at hg
          rw [Act.run_bind] at hg
          cases hn : s.newGenerator (h ++ ev1 ++ [Ev.generate]) o with
          | ok u =>
            rw [hn] at hg
            simp only [Act.run_ofRes_ok, Act.run_ask_bind] at hg
            rw [Act.run_bind] at hg
            cases hh : s.header (h ++ ev1 ++ [Ev.generate]) o with
            | error e => rw [hh] at hg; simp at hg
            | ok hd =>
              rw [hh] at hg
              simp only [Act.run_lift_ok, Act.run_ask_bind] at hg
              rw [Act.run_bind] at hg
              cases hb : s.body (h ++ ev1 ++ [Ev.generate]) o with
              | error e => rw [hb] at hg; simp at hg
              | ok bd =>
                rw [hb] at hg
                simp only [Act.run_lift_ok, Act.run_ask_bind] at hg
                cases hp : s.process (h ++ ev1 ++ [Ev.generate]) o.localPrefix o.outputFile (hd ++ bd) with
                | error e => rw [hp] at hg; simp at hg
                | ok src =>
                  rw [hp] at hg
                  simp only [Act.run_lift_ok, Prod.mk.injEq, Except.ok.injEq] at hg
                  obtain ⟨rfl, _⟩ := hg
                  exact ⟨o, _, _, _, _, hd, bd, hopt, hn, hh, hb, by rw [← hout, ← hopt.localPrefix]; exact hp⟩
          | err e => rw [hn] at hg; simp [Act.ofRes] at hg
          | panic => rw [hn] at hg; simp [Act.ofRes] at hg
          | diverge => rw [hn] at hg; simp [Act.ofRes] at hg
        cases hg : s.generate o (h ++ ev1) with
        | mk r2 h2 =>
          rw [hg] at e2
          simp only at e2
          subst e2
          cases r2 with
          | error e =>
            refine ⟨ev1 ++ ev2, by simp, ?_⟩
            rw [List.filter_append, filter_none hev1, filter_none hev2]
            exact .nothing e
          | ok src =>
            have hsrc := hgen src _ hg
            simp only [Act.run_ask_bind, Act.run_emit_bind]
            cases hm : s.mkdirAll (h ++ ev1 ++ ev2) (dirPath f.outputFile) with
            | some e =>
              refine ⟨ev1 ++ ev2 ++ [.mkdirAll (dirPath f.outputFile)], by simp, ?_⟩
              rw [List.filter_append, List.filter_append, filter_none hev1, filter_none hev2]
              exact .mkdirFailed e
            | none =>
              simp only
              unfold Sys.write
              simp only [Act.run_ask_bind]
              cases hw : s.writeFile (h ++ ev1 ++ ev2 ++ [.mkdirAll (dirPath f.outputFile)])
                  f.outputFile src with
              | none =>
                refine ⟨ev1 ++ ev2 ++ [.mkdirAll (dirPath f.outputFile), .writeFile f.outputFile src true],
                  by simp, ?_⟩
                rw [List.filter_append, List.filter_append, filter_none hev1, filter_none hev2]
                exact .done src hsrc
              | some e =>
                refine ⟨ev1 ++ ev2 ++ [.mkdirAll (dirPath f.outputFile), .writeFile f.outputFile src false],
                  by simp, ?_⟩
                rw [List.filter_append, List.filter_append, filter_none hev1, filter_none hev2]
                exact .writeFailed e src hsrc
  · obtain ⟨m, hm⟩ := runGen_unusable (s := s) hu h
    exact ⟨[], by rw [hm]; simp, Or.inl ⟨rfl, _, by rw [hm]⟩⟩

/-- A world for the examples: in `/home/u`; no local files; every request is answered with `[9]`. -/
def Demo.sys : Sys where
  net := Demo.net fun _ => ⟨200, .ok [9], none⟩
  cwd := [g!"home", g!"u"]
  loadPackage := fun _ _ => .ok (0, g!"example.org/p")
  newGenerator := fun _ _ => .ok ()
  header := fun _ _ => .ok [1]
  body := fun _ o => .ok o.bodyTemplate
  process := fun _ _ _ b => .ok b
  mkdirAll := fun _ _ => none
  writeFile := fun _ p _ => if p = g!"d/full.go" then some (.external 28) else none

/-- Non-vacuity of C34 and C35: a successful run, a run that cannot write, and unusable command lines. -/
example : Usable [g!"-i", g!"I", g!"-t=http://h/t", g!"--o", g!"d/x.go"] ⟨false, g!"I", [], g!"d/x.go", g!"http://h/t", [], []⟩ ∧
    Demo.sys.runGen [g!"-i", g!"I", g!"-t=http://h/t", g!"--o", g!"d/x.go"] [] = (.ok (),
      [.loadPackage g!"./", .readFile g!"http://h/t", .request g!"http://h/t", .response 200, .readBody,
       .closeBody, .generate, .mkdirAll g!"d", .writeFile g!"d/x.go" [1, 9] true]) ∧
    (Demo.sys.runGen [g!"-i", g!"I", g!"-t=http://h/t", g!"-o", g!"d/full.go"] []).1 = .error (.error (.external 28)) :=
  ⟨⟨⟨[], (C35_flags _ _ _).1 rfl⟩, by decide⟩, rfl, rfl⟩

example : (Demo.sys.runGen [g!"-i", g!"I", g!"-x"] []).1 =
      .error (.error (.commandLine g!"flag provided but not defined: -x")) ∧
    (Demo.sys.runGen [g!"-i", g!"I", g!"x", g!"-t", g!"t", g!"-o", g!"x.go"] []).1 =
      .error (.error (.commandLine g!"output file is not specified")) := ⟨rfl, rfl⟩

theorem Demo.sys_foreign : Foreign Demo.sys where
  newRequest := by intro u e h; cases h
  send := by intro h u e he; cases he
  body := by intro h u r e hr he; cases hr; cases he
  close := by intro h u r e hr he; cases hr; cases he
  gitRoot := by intro h e he; cases he
  loadPackage := by intro h p e he; cases he
  header := by intro h o e he; cases he
  template := by intro h o e he; cases he
  process := by intro h l p b e he; cases he
  mkdirAll := by intro h p e he; cases he
  writeFile := by
    intro h p b e he
    simp only [Demo.sys] at he
    split at he
    · cases he; intro m hm; cases hm
    · cases he

/-! ## C36 -/

/-- **C36** The template comes from the local file when that can be read; the remote loader is run
exactly if the file does not exist, and then decides the result; any other read error is returned and
nothing else happens. -/
theorem C36_local_first (s : Sys) (template : Str) (h : List Ev) :
    (∀ b, s.net.readFile (h ++ [.readFile template]) template = .contents b →
      s.loaderLoad template h = (.ok (b, template), h ++ [.readFile template])) ∧
    (s.net.readFile (h ++ [.readFile template]) template = .notExist →
      s.loaderLoad template h = s.net.load template (h ++ [.readFile template])) ∧
    (∀ c, s.net.readFile (h ++ [.readFile template]) template = .failed c →
      s.loaderLoad template h = (.error (.error (.external c)), h ++ [.readFile template])) := by
  unfold Sys.loaderLoad
  simp only [Act.run_emit_bind, Act.run_ask_bind]
  refine ⟨?_, ?_, ?_⟩
  · intro b hb; rw [hb]; rfl
  · intro hn; rw [hn]
  · intro c hc; rw [hc]; rfl

/-- Non-vacuity of C36: all three outcomes. -/
example (r : ReadRes) : ∃ s : Sys, s.net.readFile [.readFile g!"t"] g!"t" = r :=
  ⟨{ Demo.sys with net := { Demo.sys.net with readFile := fun _ _ => r } }, rfl⟩

/-! ## C38 -/

/-- **C38** `template copy name file …`: if the template cannot be fetched, the error is returned and
nothing is written; otherwise exactly the fetched bytes are written to the file, once, and success is
reported (and the message printed) exactly if the write succeeded.  With fewer arguments the command
fails without any effect. -/
theorem C38_copy (s : Sys) (args : List Str) (h : List Ev) :
    (args.length < 2 → ∃ m, s.runTemplate (g!"copy" :: args) h = (.error (.error (.commandLine m)), h)) ∧
    (∀ name file rest, args = name :: file :: rest →
      (∀ f h', s.net.load name h = (.error f, h') →
        s.runTemplate (g!"copy" :: args) h = (.error f, h') ∧ writes (h'.drop h.length) = []) ∧
      (∀ b url h', s.net.load name h = (.ok (b, url), h') →
        (s.writeFile h' file b = none → s.runTemplate (g!"copy" :: args) h = (.ok (),
          h' ++ [.writeFile file b true, .stdout (g!"successfully copied from " ++ url ++ g!"\n")])) ∧
        (∀ e, s.writeFile h' file b = some e →
          s.runTemplate (g!"copy" :: args) h = (.error (.error e), h' ++ [.writeFile file b false])) ∧
        writes (h'.drop h.length) = [])) := by
  have hrun : s.runTemplate (g!"copy" :: args) = s.templateFetch args := by
    unfold Sys.runTemplate
    simp
  rw [hrun]
  refine ⟨?_, ?_⟩
  · intro hl
    match args with
    | [] => exact ⟨_, rfl⟩
    | [_] => exact ⟨_, rfl⟩
    | _ :: _ :: _ => exact absurd hl (by simp)
  · rintro name file rest rfl
    have hw : ∀ r h', s.net.load name h = (r, h') → writes (h'.drop h.length) = [] := by
      intro r h' hl
      obtain ⟨ev, h1, h2⟩ := loader_inv.load s.net name h
      rw [hl] at h1
      simp only at h1
      subst h1
      rw [List.drop_left]
      simp only [writes, List.filterMap_eq_nil_iff]
      intro e he
      have := h2 e he
      cases e <;> simp [LoaderEvent] at this <;> rfl
    unfold Sys.templateFetch
    simp only
    rw [Act.run_bind]
    refine ⟨?_, ?_⟩
    · intro f h' hl
      rw [hl]
      exact ⟨rfl, hw _ _ hl⟩
    · intro b url h' hl
      rw [hl]
      simp only
      rw [Act.run_bind]
      refine ⟨?_, ?_, hw _ _ hl⟩
      · intro hn
        unfold Sys.write
        simp only [Act.run_ask_bind, hn, Act.run_emit, List.append_assoc, List.cons_append, List.nil_append]
      · intro e he
        unfold Sys.write
        simp only [Act.run_ask_bind, he, Act.run_emit_bind, Act.run_fail]

/-- Non-vacuity of C38: a copy and a failed write. -/
example : (Demo.sys.runTemplate [g!"copy", g!"http://h/t", g!"x"] []) = (.ok (),
      [.request g!"http://h/t", .response 200, .readBody, .closeBody, .writeFile g!"x" [9] true,
       .stdout g!"successfully copied from http://h/t\n"]) ∧
    (Demo.sys.runTemplate [g!"copy", g!"http://h/t", g!"d/full.go"] []).1 = .error (.error (.external 28)) :=
  ⟨rfl, rfl⟩

/-! ## C39, printing -/

theorem printAll_run (ts : List Str) : ∀ h, Sys.templateList.printAll ts h =
    (.ok (), h ++ ts.map (fun t => Ev.stdout (g!"  " ++ t ++ g!"\n"))) := by
  induction ts with
  | nil => intro h; simp [Sys.templateList.printAll]
  | cons t ts ih => intro h; simp [Sys.templateList.printAll, ih]

/-- **C39** `template list` prints a heading and one line per template, fails if there is none and
passes on the error if the list cannot be obtained; in the last two cases it prints nothing. -/
theorem C39_prints (s : Sys) (args : List Str) (h : List Ev) :
    (∀ f h', s.net.list h = (.error f, h') → s.runTemplate (g!"list" :: args) h = (.error f, h')) ∧
    (∀ h', s.net.list h = (.ok [], h') →
      s.runTemplate (g!"list" :: args) h = (.error (.error .noTemplatesFound), h')) ∧
    (∀ names h', s.net.list h = (.ok names, h') → names ≠ [] →
      ∃ ev, s.runTemplate (g!"list" :: args) h = (.ok (), h' ++ ev) ∧
        printed ev = g!"List of available remote templates:\n" ++
          (names.map (fun t => g!"  " ++ t ++ g!"\n")).flatten) ∧
    printed ((s.net.list h).2.drop h.length) = [] := by
  have hrun : s.runTemplate (g!"list" :: args) = s.templateList := by
    unfold Sys.runTemplate
    simp
  rw [hrun]
  unfold Sys.templateList
  rw [Act.run_bind]
  refine ⟨?_, ?_, ?_, ?_⟩
  · intro f h' hl; rw [hl]
  · intro h' hl; rw [hl]; rfl
  · intro names h' hl hne
    rw [hl]
    simp only
    rw [if_neg (by simpa using hne)]
    simp only [Act.run_emit_bind, printAll_run]
    refine ⟨_, by rw [List.append_assoc], ?_⟩
    simp only [printed, List.map_cons, List.map_map, List.cons_append, List.nil_append, List.flatten_cons]
    congr 1
  · obtain ⟨ev, h1, h2⟩ := loader_inv.list s.net h
    rw [h1, List.drop_left]
    simp only [printed, List.flatten_eq_nil_iff, List.mem_map]
    rintro l ⟨e, he, rfl⟩
    have := h2 e he
    cases e <;> simp [LoaderEvent] at this <;> rfl

/-- Non-vacuity of C39: a list, and an empty tree. -/
example : printed (({ Demo.sys with net := Demo.net fun _ => ⟨200, .ok [3], none⟩ } : Sys).runTemplate
      [g!"list"] []).2 = g!"List of available remote templates:\n  log\n  templates/x\n" ∧
    (({ Demo.sys with net := { Demo.net (fun _ => ⟨200, .ok [3], none⟩) with tree := fun _ => some [] } } :
      Sys).runTemplate [g!"list"] []).1 = .error (.error .noTemplatesFound) := ⟨rfl, rfl⟩

end Gowrap.Props

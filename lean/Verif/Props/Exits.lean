import Verif.Proofs.NoPanic
import Verif.Proofs.Krfl
import Verif.Props.Termination
import Verif.Props.ExitCode
import Verif.Model.Command
/-!
# gowrap always exits with an exit code (C83)
-/

namespace Gowrap.Props

open Gowrap Spec

/-- The process ends, and with one of the exit codes 0, 1 and 2; it neither panics nor runs forever.  (A larger bound on the recursion depth
changes nothing.) -/
def Exits (w : World) (s : Sched) (p : Proc) (args : List Str) (h : List Ev) : Prop :=
  ∃ N c h', (c = 0 ∨ c = 1 ∨ c = 2) ∧ ∀ fuel, N ≤ fuel → ({ p with sys := w.sys s fuel p.sys } : Proc).main args h = (.code c, h')

/-- Packages as the Go tools deliver them, with acyclic imports. -/
structure GoPackages (w : World) : Prop where
  parsed : ParsedPackages w
  plain : PlainImports w
  loads : LoadsImports w
  imports : AcyclicImports w

/-- The full claim: with every command line but `--` (C44), and for all packages whose interfaces do not embed themselves, gowrap exits. -/
def C83_full : Prop :=
  ∀ (w : World) (s : Sched) (p : Proc) (args : List Str) (h : List Ev), s.Fair → GoPackages w → AcyclicTypes w EmbedsName → args ≠ [g!"--"] →
    Exits w s p args h

/-! ## Commands that do not panic -/

/-- What fails, fails with an error. -/
def Ends {α : Type} (x : Act α) : Prop := ∀ h f, (x h).1 = .error f → ∃ e, f = .error e

theorem Ends.bind {α β : Type} {x : Act α} {g : α → Act β} (hx : Ends x) (hg : ∀ a, Ends (g a)) : Ends (x >>= g) := by
  intro h f hf
  rw [Act.run_bind] at hf
  cases hr : x h with
  | mk r h' =>
    rw [hr] at hf
    cases r with
    | ok a => exact hg a h' f hf
    | error e => simp only [Except.error.injEq] at hf; subst hf; exact hx h e (by rw [hr])

theorem Ends.pure {α : Type} (a : α) : Ends (Pure.pure a : Act α) := by
  intro h f hf; simp at hf

theorem Ends.emit (e : Ev) : Ends (Act.emit e) := by
  intro h f hf; simp at hf

theorem Ends.fail {α : Type} (e : CErr) : Ends (Act.fail e : Act α) := by
  intro h f hf; simp at hf; exact ⟨e, hf.symm⟩

theorem Ends.ask {α : Type} (o : List Ev → α) : Ends (Act.ask o) := by
  intro h f hf; simp at hf

theorem Ends.lift {α : Type} (r : Except CErr α) : Ends (Act.lift r) := by
  intro h f hf
  cases r with
  | ok a => simp at hf
  | error e => simp at hf; exact ⟨e, hf.symm⟩

theorem Ends.ofRes {α : Type} {r : Res α} (h1 : r ≠ .panic) (h2 : r ≠ .diverge) : Ends (Act.ofRes r) := by
  intro h f hf
  cases r with
  | ok a => simp at hf
  | err e => simp only [Act.ofRes, Except.error.injEq] at hf; exact ⟨_, hf.symm⟩
  | panic => exact absurd rfl h1
  | diverge => exact absurd rfl h2

theorem ends_get (n : Net) (url : Str) : Ends (n.get url) := by
  unfold Net.get
  split
  · exact .fail _
  · refine .bind (.emit _) fun _ => .bind (.ask _) fun r => ?_
    split
    · exact .fail _
    · refine .bind (.emit _) fun _ => .bind ?_ fun body => .bind (.emit _) fun _ => ?_
      · split
        · exact .pure _
        · exact .bind (.emit _) fun _ => .pure _
      · split
        · exact .fail _
        · exact .lift _

theorem ends_readLocal (n : Net) (p : Str) : Ends (n.readLocal p) := by
  refine .bind (.emit _) fun _ => .bind (.ask _) fun r => ?_
  cases r with
  | contents b => exact .pure _
  | notExist => exact .fail _
  | failed c => exact .fail _

theorem ends_load (n : Net) (p : Str) : Ends (n.load p) := by
  unfold Net.load
  split
  · exact .bind (ends_get _ _) fun _ => .pure _
  · split
    · refine .bind (.emit _) fun _ => .bind (.ask _) fun m => ?_
      split
      · refine .bind ?_ fun q => .bind (ends_readLocal _ _) fun _ => .pure _
        refine .bind (.emit _) fun _ => .bind (.ask _) fun r => ?_
        cases r with
        | error e => exact .fail _
        | ok r => exact .pure _
      · exact .bind (ends_readLocal _ _) fun _ => .pure _
    · refine .bind (ends_get _ _) fun b => ?_
      split
      · exact .fail _
      · exact .fail _
      · exact .bind (ends_get _ _) fun _ => .pure _

theorem ends_write (s : Sys) (p : Str) (b : Bytes) : Ends (s.write p b) := by
  refine .bind (.ask _) fun r => ?_
  cases r with
  | none => exact .emit _
  | some e => exact .bind (.emit _) fun _ => .fail _

theorem ends_getOptions (s : Sys) (f : GenFlags) : Ends (s.getOptions f) := by
  refine .bind (.emit _) fun _ => .bind (.ask _) fun r => .bind (.lift _) fun q => .bind ?_ fun r => ?_
  · refine .bind ?_ fun r => ?_
    · refine .bind (.emit _) fun _ => .bind (.ask _) fun r => ?_
      cases r with
      | contents b => exact .pure _
      | notExist => exact ends_load _ _
      | failed c => exact .fail _
    · obtain ⟨body, url⟩ := r
      simp only
      split
      · exact .pure _
      · split
        · exact .pure _
        · exact .fail _
  · obtain ⟨x, y⟩ := r
    exact .pure _

theorem ends_generate {s : Sys} {o : GenOptions} (hg : ∀ h, s.newGenerator h o ≠ .panic ∧ s.newGenerator h o ≠ .diverge) : Ends (s.generate o) := by
  refine .bind (.emit _) fun _ => fun h f hf => ?_
  exact Ends.bind (.ofRes (hg h).1 (hg h).2) (fun _ => .bind (.ask _) fun r => .bind (.lift _) fun _ => .bind (.ask _) fun r =>
    .bind (.lift _) fun _ => .bind (.ask _) fun r => .lift _) h f hf

theorem ends_printAll : ∀ l : List Str, Ends (Sys.templateList.printAll l)
  | [] => .pure _
  | _ :: ts => .bind (.emit _) fun _ => ends_printAll ts

theorem ends_runTemplate (s : Sys) (args : List Str) : Ends (s.runTemplate args) := by
  unfold Sys.runTemplate
  split
  · exact .fail _
  · split
    · refine .bind ?_ fun l => ?_
      · refine .bind (ends_get _ _) fun b => ?_
        split
        · exact .fail _
        · exact .pure _
      · split
        · exact .fail _
        · exact .bind (.emit _) fun _ => ends_printAll l
    · split
      · unfold Sys.templateFetch
        split
        · refine .bind (ends_load _ _) fun r => ?_
          obtain ⟨body, url⟩ := r
          exact .bind (ends_write _ _ _) fun _ => .emit _
        · exact .fail _
      · exact .fail _

theorem generate_congr {w : World} {s : Sched} {a b : Nat} {o : GenOptions} (sys : Sys) (e : w.newGenerator s a o = w.newGenerator s b o) :
    (w.sys s a sys).generate o = (w.sys s b sys).generate o := by
  unfold Sys.generate World.sys
  simp only [e]

/-- From some recursion bound on, the gen command returns. -/
theorem ends_runGen {w : World} {s : Sched} (hs : s.Fair) (hw : GoPackages w) (hu : UsualMembers w) (ha : AcyclicTypes w MentionsName) (sys : Sys)
    (args : List Str) (h : List Ev) :
    ∃ N r h', (∀ f, r = .error f → ∃ e, f = .error e) ∧ ∀ fuel, N ≤ fuel → (w.sys s fuel sys).runGen args h = (r, h') := by
  have hfail : ∀ e : CErr, ∀ f, (Except.error (.error e) : Except Fail Unit) = .error f → ∃ e, f = .error e := by
    intro e f hf
    cases hf
    exact ⟨_, rfl⟩
  cases hp : parseGen {} args with
  | error e => exact ⟨0, _, h, hfail (.commandLine (flagMessage e)), fun fuel _ => by unfold Sys.runGen; rw [hp]; rfl⟩
  | ok r =>
    obtain ⟨flags, rest⟩ := r
    cases hc : checkFlags flags with
    | some e => exact ⟨0, _, h, hfail e, fun fuel _ => by unfold Sys.runGen; rw [hp]; simp only [hc]; rfl⟩
    | none =>
      have e : ∀ fuel, (w.sys s fuel sys).runGen args h = (w.sys s fuel sys).runChecked flags h := fun fuel => by
        unfold Sys.runGen
        rw [hp]
        simp only [hc]
      have eo : ∀ fuel, (w.sys s fuel sys).getOptions flags = (w.sys s 0 sys).getOptions flags := fun _ => rfl
      cases hr : (w.sys s 0 sys).getOptions flags h with
      | mk r h' =>
        cases r with
        | error e' => exact ⟨0, .error e', h', fun f hf => by
              cases hf
              exact ends_getOptions _ _ h e' (by rw [hr]), fun fuel _ => by
            rw [e]
            unfold Sys.runChecked
            rw [Act.run_bind, eo, hr]⟩
        | ok o =>
          obtain ⟨N, r, hd, hN⟩ := C25_terminates_partial (o := o.forGenerator o.source) hs hw.parsed.returns hw.plain hw.loads hw.imports ha
          have hng : ∀ fuel, N ≤ fuel → (w.sys s fuel sys).generate o = (w.sys s N sys).generate o := fun fuel hf =>
            generate_congr sys ((hN fuel hf).trans (hN N (Nat.le_refl _)).symm)
          refine ⟨N, ((w.sys s N sys).runChecked flags h).1, ((w.sys s N sys).runChecked flags h).2, ?_, fun fuel hfuel => ?_⟩
          · intro f hf
            unfold Sys.runChecked at hf
            rw [Act.run_bind, eo, hr] at hf
            refine Ends.bind (ends_generate fun h0 => ?_) (fun source => .bind (.ask _) fun m => .bind (.emit _) fun _ => ?_) h' f hf
            · show (newGenerator w s N (o.forGenerator o.source) >>= fun _ => Res.ok ()) ≠ .panic ∧ _
              show _ ∧ (newGenerator w s N (o.forGenerator o.source) >>= fun _ => Res.ok ()) ≠ .diverge
              cases hx : newGenerator w s N (o.forGenerator o.source) with
              | ok g => exact ⟨nofun, nofun⟩
              | err e => exact ⟨nofun, nofun⟩
              | panic => exact absurd hx (newGenerator_calm hs hw.parsed hu _ _)
              | diverge => rw [hN N (Nat.le_refl _)] at hx; exact absurd hx hd
            · cases m with
              | none => exact ends_write _ _ _
              | some e => exact .fail _
          · rw [e]
            unfold Sys.runChecked
            rw [Act.run_bind, Act.run_bind, eo, eo N, hr]
            simp only
            rw [Act.run_bind, Act.run_bind, hng fuel hfuel]
            rfl

/-- **C83** (partial).  gowrap neither panics nor runs forever, whatever the command line, the packages, the templates and the answers of the
network and the file system: it exits with code 0, 1 or 2.  Missing for the full claim: interfaces with a method whose results are `()`, or
with a function type among their elements (`C83_full_false`, `C83_element_crashes`), and interfaces which occur in a type argument of an
interface they embed (`C25_full_false`, `C83_recursion`). -/
theorem C83_exits_partial {w : World} {s : Sched} (hs : s.Fair) (hw : GoPackages w) (hu : UsualMembers w) (ha : AcyclicTypes w MentionsName)
    (p : Proc) (args : List Str) (hargs : args ≠ [g!"--"]) (h : List Ev) : Exits w s p args h := by
  have hdie : ∀ n, n = 1 ∨ n = 2 → ∃ c, (c = 0 ∨ c = 1 ∨ c = 2) ∧ p.die n = .code c := by
    intro n hn
    unfold Proc.die
    split
    · exact ⟨n, by omega, rfl⟩
    · exact ⟨1, by omega, rfl⟩
  have hdie' : ∀ n, n = 1 ∨ n = 2 → ∀ h' : List Ev, ∃ c h'', (c = 0 ∨ c = 1 ∨ c = 2) ∧ (p.die n, h') = (Exit.code c, h'') := by
    intro n hn h'
    obtain ⟨c, h1, h2⟩ := hdie n hn
    exact ⟨c, h', h1, by rw [h2]⟩
  have constant : ∀ out : Exit × List Ev, (∃ c h', (c = 0 ∨ c = 1 ∨ c = 2) ∧ out = (.code c, h')) →
      (∀ fuel, ({ p with sys := w.sys s fuel p.sys } : Proc).main args h = out) → Exits w s p args h := by
    rintro out ⟨c, h', hc, rfl⟩ he
    exact ⟨0, c, h', hc, fun fuel _ => he fuel⟩
  have hwords : ∀ ws, Words args ws → (∀ fuel, ({ p with sys := w.sys s fuel p.sys } : Proc).main args h =
      ({ p with sys := w.sys s fuel p.sys } : Proc).dispatch ws h) → Exits w s p args h := by
    intro ws hws hm
    cases ws with
    | nil => cases hws; exact absurd rfl hargs
    | cons name rest =>
      by_cases hh : name = g!"help"
      · refine constant (match p.help rest with | some _ => (p.die 2, h) | none => (.code 0, h)) ?_ fun fuel => ?_
        · cases p.help rest with
          | some e => exact hdie' 2 (.inr rfl) h
          | none => exact ⟨0, h, by simp, rfl⟩
        · rw [hm, Proc.dispatch, if_pos hh]
          rfl
      · cases hc : getCommand name with
        | none =>
          refine constant (p.die 2, h) (hdie' 2 (.inr rfl) h) fun fuel => ?_
          rw [hm, Proc.dispatch, if_neg hh, hc]
          rfl
        | some c =>
          have hrun : ∃ N r h', (∀ f, r = .error f → ∃ e, f = .error e) ∧
              ∀ fuel, N ≤ fuel → ({ p with sys := w.sys s fuel p.sys } : Proc).run c rest h = (r, h') := by
            cases c with
            | gen => exact ends_runGen hs hw hu ha p.sys rest h
            | template =>
              refine ⟨0, (p.sys.runTemplate rest h).1, (p.sys.runTemplate rest h).2, ends_runTemplate p.sys rest h, fun fuel _ => ?_⟩
              rfl
          obtain ⟨N, r, h', hr, hN⟩ := hrun
          have key : ∃ c0 h0, (c0 = 0 ∨ c0 = 1 ∨ c0 = 2) ∧ (match (r, h') with
              | (.ok (), h') => ((.code 0 : Exit), h')
              | (.error (.error (.commandLine _)), h') => (p.die 2, h')
              | (.error (.error _), h') => (p.die 1, h')
              | (.error .panic, h') => (.crash, h')
              | (.error .diverge, h') => (.diverge, h')) = (.code c0, h0) := by
            cases r with
            | ok u => exact ⟨0, h', by simp, rfl⟩
            | error f =>
              obtain ⟨e, rfl⟩ := hr f rfl
              cases e <;> first | exact hdie' 2 (.inr rfl) h' | exact hdie' 1 (.inl rfl) h'
          obtain ⟨c0, h0, hc0, hk⟩ := key
          refine ⟨N, c0, h0, hc0, fun fuel hf => ?_⟩
          rw [hm, Proc.dispatch, if_neg hh, hc]
          simp only
          rw [hN fuel hf]
          exact hk
  cases args with
  | nil =>
    refine constant (match p.usage true with | some _ => (p.die 1, h) | none => (.code 2, h)) ?_ fun fuel => rfl
    cases p.usage true with
    | some e => exact hdie' 1 (.inl rfl) h
    | none => exact ⟨2, h, by simp, rfl⟩
  | cons a rest =>
    rcases flagTok_spec a with ⟨h1, h2⟩ | ⟨h1, h2⟩ | ⟨e, h1⟩ | ⟨n, v, h1, _⟩
    · exact hwords _ (.plain a rest h2) fun fuel => by rw [Proc.main, h1]
    · subst h2
      exact hwords _ (.dashes rest) fun fuel => by rw [Proc.main, h1]
    · exact constant (p.die 2, h) (hdie' 2 (.inr rfl) h) fun fuel => by rw [Proc.main, h1]; rfl
    · exact constant (p.die 2, h) (hdie' 2 (.inr rfl) h) fun fuel => by rw [Proc.main, h1]; rfl

end Gowrap.Props

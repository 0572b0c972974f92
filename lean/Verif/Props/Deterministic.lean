import Verif.Proofs.MapOrder
import Verif.Props.Discovery
import Verif.Props.CommandDemo
/-!
# The same invocation writes the same file (C84)

Go does not fix the order in which maps are visited.  `Sched` is the order in which `NewGenerator` visits the files, imports and methods, and
`order` is the order of the map of methods that the template is given.
-/

namespace Gowrap.Props

open Gowrap Spec Tmpl

/-- **C84** (templates).  Whatever a template does with the data it is given, the order of the map of methods does not matter. -/
theorem C84_any_template (u : Uni) (body : Str) (d : Inputs) (ms : Methods) (hn : (d.methods.map (·.1)).Nodup) (hp : ms.Perm d.methods) :
    render u body { d with methods := ms } = render u body d := render_perm u body d hn hp

/-- A template of a user, which asks for a method by its name, declares variables and goes over the methods twice. -/
def userTemplate : Str := g!"{{$all := .Interface.Methods}}{{if $all.Close}}// has Close\n{{end}}{{range $m := $all}}{{$m.Name}}({{range $p := $m.Params}}{{$p.Name}} {{end}}) {{end}}
{{range $m := .Interface.Methods}}func {{$m.Declaration}}\n{{else}}// nothing{{end}}"

example : ∃ d : Inputs, (d.methods.map (·.1)).Nodup ∧ ({ d with methods := d.methods.reverse } : Inputs).methods ≠ d.methods ∧
    render Demo.cacheWorld.uni userTemplate { d with methods := d.methods.reverse } =
      some g!"// has Close\nClose() Read(n ) \nfunc Close() ()\nfunc Read(n int) (err error)\n" := by
  refine ⟨⟨g!"R", g!"a.R", [], [], [(g!"Read", ⟨[], [], g!"Read", [⟨[], [], g!"n", g!"int", false⟩], [⟨[], [], g!"err", g!"error", false⟩], true, false⟩),
    (g!"Close", emptyMethod g!"Close")], fun _ => none, []⟩, by decide, by decide, by decide +kernel⟩

/-- The body when the template sees the map of methods in the order `order`. -/
def bodyIn (w : World) (order : Methods → Methods) (g : Generator) (o : GenOptions) : Option Bytes := do
  let template ← textOf o.bodyTemplate.length o.bodyTemplate
  let d := g.inputs (o.forGenerator o.source) o.vars
  let t ← render w.uni template { d with methods := order d.methods }
  return utf8 t

/-- The system of `w` with these iteration orders. -/
def sysIn (w : World) (order : Methods → Methods) (sched : Sched) (fuel : Nat) (s : Sys) : Sys := { w.sys sched fuel s with
  body := fun h o => orElse (w.newGenerator sched fuel o) (fun g => bodyIn w order g o) (s.body h o) }

/-- The process neither crashes nor runs forever. -/
def Finishes (e : Exit) : Prop := e ≠ .crash ∧ e ≠ .diverge

/-- The full claim: for programs that declare no type twice, two invocations that find the same packages, templates and files do the same, whatever
the iteration orders are. -/
def C84_full : Prop :=
  ∀ (w : World) (sched sched' : Sched) (order order' : Methods → Methods) (fuel : Nat) (s : Sys) (p : Proc) (args : List Str) (h : List Ev),
    sched.Fair → sched'.Fair → (∀ l, (order l).Perm l) → (∀ l, (order' l).Perm l) → PlainImports w → LoadsImports w → UniqueTypes w →
    Finishes (({ p with sys := sysIn w order sched fuel s } : Proc).main args h).1 →
    Finishes (({ p with sys := sysIn w order' sched' fuel s } : Proc).main args h).1 →
    ({ p with sys := sysIn w order sched fuel s } : Proc).main args h = ({ p with sys := sysIn w order' sched' fuel s } : Proc).main args h

/-! ## Computations that agree -/

/-- The computation panics or runs forever. -/
def Bad {α : Type} (r : Except Fail α × List Ev) : Prop := r.1 = .error .panic ∨ r.1 = .error .diverge

/-- Two outcomes are the same, or both are errors of `NewGenerator`. -/
inductive SameOutcome {α : Type} : Except Fail α × List Ev → Except Fail α × List Ev → Prop
  | same (r) : SameOutcome r r
  | errors (e e' : Err) (h : List Ev) : SameOutcome (.error (.error (.generator e)), h) (.error (.error (.generator e')), h)
  | left {r r'} (h : Bad r) : SameOutcome r r'
  | right {r r'} (h : Bad r') : SameOutcome r r'

/-- Two computations do the same. -/
def Agree {α : Type} (x y : Act α) : Prop := ∀ h, SameOutcome (x h) (y h)

theorem Agree.then {α β : Type} {x y : Act α} {f : α → Act β} (h : Agree x y) : Agree (x >>= f) (y >>= f) := by
  intro k
  rw [Act.run_bind, Act.run_bind]
  have := h k
  generalize x k = r at this ⊢
  generalize y k = r' at this ⊢
  cases this with
  | same => exact .same _
  | errors e e' k => exact .errors e e' k
  | left hb =>
    refine .left ?_
    obtain ⟨r, k⟩ := r
    rcases hb with hb | hb <;> (simp only at hb; subst hb)
    · exact .inl rfl
    · exact .inr rfl
  | right hb =>
    refine .right ?_
    obtain ⟨r, k⟩ := r'
    rcases hb with hb | hb <;> (simp only at hb; subst hb)
    · exact .inl rfl
    · exact .inr rfl

theorem Agree.after {α β : Type} (x : Act α) {f g : α → Act β} (h : ∀ a, Agree (f a) (g a)) : Agree (x >>= f) (x >>= g) := by
  intro k
  rw [Act.run_bind, Act.run_bind]
  split
  · exact h _ _
  · exact .same _

/-- Generators that are found are the same. -/
theorem orders_agree {w : World} {sched sched' : Sched} {order order' : Methods → Methods} {fuel : Nat} (s : Sys) {o : GenOptions}
    (ho : ∀ l, (order l).Perm l) (ho' : ∀ l, (order' l).Perm l)
    (key : ∀ g, w.newGenerator sched fuel o = .ok g ↔ w.newGenerator sched' fuel o = .ok g) :
    Agree ((sysIn w order sched fuel s).generate o) ((sysIn w order' sched' fuel s).generate o) := by
  refine Agree.after _ fun _ => ?_
  intro h
  simp only [Act.run_ask_bind]
  show SameOutcome ((Act.ofRes (do let _ ← w.newGenerator sched fuel o; return ()) >>= _) h) ((Act.ofRes (do let _ ← w.newGenerator sched' fuel o; return ()) >>= _) h)
  cases hg : w.newGenerator sched fuel o with
  | ok g =>
    have hg' : w.newGenerator sched' fuel o = .ok g := (key g).1 hg
    have hb : ∀ h, (sysIn w order sched fuel s).body h o = (sysIn w order' sched' fuel s).body h o := by
      intro h
      have hn : (g.methods.map (·.1)).Nodup := by
        obtain ⟨_, _, _, _, _, h4, h5, _⟩ := newGenerator_ok hg
        rw [h5]
        exact (nodup_discovered w sched fuel).target _ _ _ _ _ _ _ h4
      have e : ∀ order : Methods → Methods, (∀ l, (order l).Perm l) → bodyIn w order g o = w.body g o := by
        intro order ho
        unfold bodyIn World.body
        cases textOf o.bodyTemplate.length o.bodyTemplate with
        | none => rfl
        | some t =>
          have := render_perm w.uni t (g.inputs (o.forGenerator o.source) o.vars) hn (ho _)
          simp only [Option.bind_eq_bind, Option.bind_some, this]
      show orElse (w.newGenerator sched fuel o) (fun g => bodyIn w order g o) (s.body h o) =
        orElse (w.newGenerator sched' fuel o) (fun g => bodyIn w order' g o) (s.body h o)
      rw [hg, hg']
      simp only [orElse, e order ho, e order' ho']
    have hh : ∀ h, (sysIn w order sched fuel s).header h o = (sysIn w order' sched' fuel s).header h o := by
      intro h
      show orElse (w.newGenerator sched fuel o) (fun g => w.header g o) (s.header h o) =
        orElse (w.newGenerator sched' fuel o) (fun g => w.header g o) (s.header h o)
      rw [hg, hg']
    rw [hg']
    have := Agree.after (Act.ofRes (do let _ ← (Res.ok g); return ()) : Act Unit)
      (f := fun _ => do
        let r ← Act.ask (fun h => (sysIn w order sched fuel s).header h o)
        let header ← Act.lift r
        let r ← Act.ask (fun h => (sysIn w order sched fuel s).body h o)
        let body ← Act.lift r
        let r ← Act.ask (fun h => s.process h o.localPrefix o.outputFile (header ++ body))
        Act.lift r)
      (g := fun _ => do
        let r ← Act.ask (fun h => (sysIn w order' sched' fuel s).header h o)
        let header ← Act.lift r
        let r ← Act.ask (fun h => (sysIn w order' sched' fuel s).body h o)
        let body ← Act.lift r
        let r ← Act.ask (fun h => s.process h o.localPrefix o.outputFile (header ++ body))
        Act.lift r)
      (fun _ => by simp only [hh, hb]; exact fun h => .same _)
    exact this h
  | err e =>
    cases hg' : w.newGenerator sched' fuel o with
    | ok g =>
      have : w.newGenerator sched fuel o = .ok g := (key g).2 hg'
      rw [this] at hg
      cases hg
    | err e' => exact .errors e e' h
    | panic => exact .right (.inl rfl)
    | diverge => exact .right (.inr rfl)
  | panic => exact .left (.inl rfl)
  | diverge => exact .left (.inr rfl)

/-- Processes of which `gen` agrees do the same. -/
theorem same_run_of {w : World} {sched sched' : Sched} {order order' : Methods → Methods} {fuel : Nat} {s : Sys} {p : Proc} {args : List Str}
    {h : List Ev}
    (hgen : ∀ rest, Words args (g!"gen" :: rest) → Agree ((sysIn w order sched fuel s).runGen rest) ((sysIn w order' sched' fuel s).runGen rest))
    (hf : Finishes (({ p with sys := sysIn w order sched fuel s } : Proc).main args h).1)
    (hf' : Finishes (({ p with sys := sysIn w order' sched' fuel s } : Proc).main args h).1) :
    ({ p with sys := sysIn w order sched fuel s } : Proc).main args h = ({ p with sys := sysIn w order' sched' fuel s } : Proc).main args h := by
  have hrun : ∀ name c args', Words args (name :: args') → getCommand name = some c → Agree (({ p with sys := sysIn w order sched fuel s } : Proc).run c args') (({ p with sys := sysIn w order' sched' fuel s } : Proc).run c args') := by
    intro name c args' hw hc
    cases c with
    | gen =>
      refine hgen args' ?_
      unfold getCommand at hc
      split at hc
      · next hn => rwa [hn] at hw
      · split at hc <;> cases hc
    | template => exact fun _ => .same _
  have hdis : ∀ args', Words args args' → Finishes (({ p with sys := sysIn w order sched fuel s } : Proc).dispatch args' h).1 →
      Finishes (({ p with sys := sysIn w order' sched' fuel s } : Proc).dispatch args' h).1 →
      ({ p with sys := sysIn w order sched fuel s } : Proc).dispatch args' h = ({ p with sys := sysIn w order' sched' fuel s } : Proc).dispatch args' h := by
    intro args' hw hf hf'
    unfold Proc.dispatch at hf hf' ⊢
    cases args' with
    | nil => rfl
    | cons name rest =>
      simp only at hf hf' ⊢
      split
      · rfl
      · next hne =>
        rw [if_neg hne] at hf hf'
        cases hc : getCommand name with
        | none => rfl
        | some c =>
          simp only [hc] at hf hf' ⊢
          have := hrun name c rest hw hc h
          generalize ({ p with sys := sysIn w order sched fuel s } : Proc).run c rest h = r at this hf ⊢
          generalize ({ p with sys := sysIn w order' sched' fuel s } : Proc).run c rest h = r' at this hf' ⊢
          cases this with
          | same => rfl
          | errors => rfl
          | left hb =>
            obtain ⟨r, k⟩ := r
            rcases hb with hb | hb <;> (simp only at hb; subst hb)
            · exact absurd rfl hf.1
            · exact absurd rfl hf.2
          | right hb =>
            obtain ⟨r, k⟩ := r'
            rcases hb with hb | hb <;> (simp only at hb; subst hb)
            · exact absurd rfl hf'.1
            · exact absurd rfl hf'.2
  unfold Proc.main at hf hf' ⊢
  cases args with
  | nil => rfl
  | cons a rest =>
    simp only at hf hf' ⊢
    rcases flagTok_spec a with ⟨ht, h2⟩ | ⟨ht, h2⟩ | ⟨e, ht⟩ | ⟨n, v, ht, _⟩
    · simp only [ht] at hf hf' ⊢; exact hdis _ (.plain a rest h2) hf hf'
    · simp only [ht] at hf hf' ⊢; subst h2; exact hdis _ (.dashes rest) hf hf'
    · simp only [ht]; rfl
    · simp only [ht]; rfl

/-- **C84** (partial).  For programs in which no package declares a type twice or imports two packages of the same name: two invocations of gowrap
that find the same packages, templates and files do exactly the same, to the last byte, whatever the iteration orders of maps are (unless one of
them crashes, see C83).  Missing for the full claim: packages that import two packages of the same name. -/
theorem C84_same_run_partial {w : World} {sched sched' : Sched} {order order' : Methods → Methods} {fuel : Nat} {s : Sys} {p : Proc} {args : List Str}
    {h : List Ev} (hs : sched.Fair) (hs' : sched'.Fair) (ho : ∀ l, (order l).Perm l) (ho' : ∀ l, (order' l).Perm l) (hu : UniqueTypes w)
    (hi : UniqueImports w) (hf : Finishes (({ p with sys := sysIn w order sched fuel s } : Proc).main args h).1)
    (hf' : Finishes (({ p with sys := sysIn w order' sched' fuel s } : Proc).main args h).1) :
    ({ p with sys := sysIn w order sched fuel s } : Proc).main args h = ({ p with sys := sysIn w order' sched' fuel s } : Proc).main args h := by
  refine same_run_of (fun rest _ => ?_) hf hf'
  unfold Sys.runGen
  split
  · exact fun _ => .same _
  · split
    · exact fun _ => .same _
    · exact Agree.after _ fun o => Agree.then (orders_agree s ho ho' (C23_order_independent_partial hs hs' hu hi))

/-! ## Examples -/

/-- The contents of the files that were written. -/
def written : List Ev → List Bytes
  | [] => []
  | .writeFile _ b true :: evs => b :: written evs
  | _ :: evs => written evs

/-- `gowrap gen -p ex/app -i <name> -t templates/t -o out/x.go`, where `templates/t` contains `t`. -/
def invoke (w : World) (order : Methods → Methods) (sched : Sched) (name t : Str) : Exit × List Ev :=
  ({ Demo.proc with sys := sysIn w order sched 20 (Gowrap.Demo.disk t) } : Proc).main
    [g!"gen", g!"-p", g!"ex/app", g!"-i", name, g!"-t", g!"templates/t", g!"-o", g!"out/x.go"] []

theorem cache_uniqueImports : UniqueImports Gowrap.Demo.cacheWorld := by
  intro p path q path' q' h h' _
  match p with
  | 0 => simp [Gowrap.Demo.cacheWorld, Gowrap.Demo.world] at h h'; rw [h.1, h'.1]
  | 1 => simp [Gowrap.Demo.cacheWorld, Gowrap.Demo.world] at h
  | n + 2 => simp [Gowrap.Demo.cacheWorld, Gowrap.Demo.world] at h

/-- Non-vacuity of C84: the invocation writes one file, and does the same with both orders. -/
example : invoke Gowrap.Demo.cacheWorld id Gowrap.Demo.inOrder g!"Cache" userTemplate =
      invoke Gowrap.Demo.cacheWorld List.reverse Gowrap.Demo.backwards g!"Cache" userTemplate ∧
    (invoke Gowrap.Demo.cacheWorld id Gowrap.Demo.inOrder g!"Cache" userTemplate).1 = .code 0 ∧
    (written (invoke Gowrap.Demo.cacheWorld id Gowrap.Demo.inOrder g!"Cache" userTemplate).2).length = 1 := by
  have h0 : (invoke Gowrap.Demo.cacheWorld id Gowrap.Demo.inOrder g!"Cache" userTemplate).1 = .code 0 := by decide +kernel
  have h1 : (invoke Gowrap.Demo.cacheWorld List.reverse Gowrap.Demo.backwards g!"Cache" userTemplate).1 = .code 0 := by decide +kernel
  refine ⟨?_, h0, by decide +kernel⟩
  exact C84_same_run_partial Gowrap.Demo.inOrder_fair Gowrap.Demo.backwards_fair (fun _ => .refl _) List.reverse_perm
    (Gowrap.Demo.unique_of_check (by decide)) cache_uniqueImports (s := Gowrap.Demo.disk userTemplate) (p := Demo.proc)
    (by
      show Finishes (invoke Gowrap.Demo.cacheWorld id Gowrap.Demo.inOrder g!"Cache" userTemplate).1
      rw [h0]; exact ⟨Exit.noConfusion, Exit.noConfusion⟩)
    (by
      show Finishes (invoke Gowrap.Demo.cacheWorld List.reverse Gowrap.Demo.backwards g!"Cache" userTemplate).1
      rw [h1]; exact ⟨Exit.noConfusion, Exit.noConfusion⟩)

/-- A template that prints the names of the methods. -/
def namesTemplate : Str := g!"{{range $m := .Interface.Methods}}{{$m.Name}} {{end}}"

/-- The full claim is false: in a package with files that import different packages of the same name, the order decides whether the decorator has
the method `A` or the method `B`. -/
theorem C84_full_false : ¬ C84_full := by
  intro hfull
  have h0 : (invoke (Gowrap.Demo.world twoLogs) id Gowrap.Demo.inOrder g!"Svc" namesTemplate).1 = .code 0 := by decide +kernel
  have h1 : (invoke (Gowrap.Demo.world twoLogs) id Gowrap.Demo.backwards g!"Svc" namesTemplate).1 = .code 0 := by decide +kernel
  have hw : written (invoke (Gowrap.Demo.world twoLogs) id Gowrap.Demo.inOrder g!"Svc" namesTemplate).2 ≠
      written (invoke (Gowrap.Demo.world twoLogs) id Gowrap.Demo.backwards g!"Svc" namesTemplate).2 := by decide +kernel
  have heq : invoke (Gowrap.Demo.world twoLogs) id Gowrap.Demo.inOrder g!"Svc" namesTemplate =
      invoke (Gowrap.Demo.world twoLogs) id Gowrap.Demo.backwards g!"Svc" namesTemplate := hfull (Gowrap.Demo.world twoLogs) Gowrap.Demo.inOrder Gowrap.Demo.backwards id id 20 (Gowrap.Demo.disk namesTemplate) Demo.proc _ []
    Gowrap.Demo.inOrder_fair Gowrap.Demo.backwards_fair (fun _ => .refl _) (fun _ => .refl _)
    (Gowrap.Demo.plain_of_check (by decide)) (Gowrap.Demo.loads_of_check (by decide)) (Gowrap.Demo.unique_of_check (by decide))
    (by
      show Finishes (invoke (Gowrap.Demo.world twoLogs) id Gowrap.Demo.inOrder g!"Svc" namesTemplate).1
      rw [h0]; exact ⟨Exit.noConfusion, Exit.noConfusion⟩)
    (by
      show Finishes (invoke (Gowrap.Demo.world twoLogs) id Gowrap.Demo.backwards g!"Svc" namesTemplate).1
      rw [h1]; exact ⟨Exit.noConfusion, Exit.noConfusion⟩)
  exact hw (by rw [heq])

end Gowrap.Props

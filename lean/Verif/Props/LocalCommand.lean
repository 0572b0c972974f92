import Verif.Props.RegenCommand
/-!
# C84 with conditions on dependencies only
-/

namespace Gowrap.Props

open Gowrap Spec Tmpl

/-- `Agree.after` with what is known of the outcome of the first computation. -/
theorem Agree.after_of {α β : Type} (x : Act α) {f g : α → Act β} (h : ∀ k a k', x k = (.ok a, k') → Agree (f a) (g a)) :
    Agree (x >>= f) (x >>= g) := by
  intro k
  rw [Act.run_bind, Act.run_bind]
  cases hr : x k with
  | mk r k1 =>
    cases r with
    | ok a => exact h k a k1 hr _
    | error e => exact .same _

/-- **C84** (partial), with conditions on the dependencies of the source package only: if neither the package given with `-p` nor any package it
depends on declares a type twice or imports two packages of the same name, then two invocations of gowrap that find the same packages, templates
and files do exactly the same, whatever the iteration orders of maps are and whatever the rest of the workspace contains (unless one of them
crashes, see C83). -/
theorem C84_dependencies_partial {w : World} {sched sched' : Sched} {order order' : Methods → Methods} {fuel : Nat} {s : Sys} {p : Proc}
    {args : List Str} {h : List Ev} (hs : sched.Fair) (hs' : sched'.Fair) (ho : ∀ l, (order l).Perm l) (ho' : ∀ l, (order' l).Perm l)
    (hdep : ∀ rest f src, Words args (g!"gen" :: rest) → Usable rest f →
      w.load (if f.sourcePkg = [] then g!"./" else f.sourcePkg) = .ok src → UniqueTypesAround w src ∧ UniqueImportsAround w src)
    (hf : Finishes (({ p with sys := sysIn w order sched fuel s } : Proc).main args h).1)
    (hf' : Finishes (({ p with sys := sysIn w order' sched' fuel s } : Proc).main args h).1) :
    ({ p with sys := sysIn w order sched fuel s } : Proc).main args h = ({ p with sys := sysIn w order' sched' fuel s } : Proc).main args h := by
  refine same_run_of (fun rest hw => ?_) hf hf'
  by_cases hu : ∃ f, Usable rest f
  · obtain ⟨f, hu⟩ := hu
    rw [runGen_usable hu, runGen_usable hu]
    refine Agree.after_of ((sysIn w order sched fuel s).getOptions f) fun k o k' hk => Agree.then (orders_agree s ho ho' ?_)
    obtain ⟨h', hl⟩ := (optionsOf hk).package
    have hl : w.loadPackage (if f.sourcePkg = [] then g!"./" else f.sourcePkg) = .ok (o.source, o.sourcePackage) := hl
    have hsrc : w.load (if f.sourcePkg = [] then g!"./" else f.sourcePkg) = .ok o.source := by
      unfold World.loadPackage at hl
      generalize w.load (if f.sourcePkg = [] then g!"./" else f.sourcePkg) = r at hl ⊢
      cases r with
      | ok p =>
        simp only [Except.ok.injEq, Prod.mk.injEq] at hl
        rw [hl.1]
      | _ => cases hl
    obtain ⟨h1, h2⟩ := hdep rest f o.source hw hu hsrc
    exact C23_dependencies_partial hs hs' rfl h1 h2
  · unfold Sys.runGen
    split
    · exact fun _ => .same _
    · next f _ hp =>
      split
      · exact fun _ => .same _
      · next hc => exact absurd ⟨f, ⟨_, (C35_flags _ _ _).1 hp⟩, (checkFlags_none f).1 hc⟩ hu

/-- In a workspace in which a package that has nothing to do with the source package imports two packages called log, gowrap writes the same for
all orders. -/
example : ({ Demo.proc with sys := sysIn (Gowrap.Demo.world messy) List.reverse Gowrap.Demo.backwards 20 (Gowrap.Demo.disk namesTemplate) } : Proc).main
        (g!"gen" :: regenArgs g!"/app/x.go") [] =
      ({ Demo.proc with sys := sysIn (Gowrap.Demo.world messy) id Gowrap.Demo.inOrder 20 (Gowrap.Demo.disk namesTemplate) } : Proc).main
        (g!"gen" :: regenArgs g!"/app/x.go") [] ∧
    (written (({ Demo.proc with sys := sysIn (Gowrap.Demo.world messy) id Gowrap.Demo.inOrder 20 (Gowrap.Demo.disk namesTemplate) } : Proc).main
        (g!"gen" :: regenArgs g!"/app/x.go") []).2).length = 1 ∧ ¬ UniqueImports (Gowrap.Demo.world messy) := by
  refine ⟨C84_dependencies_partial Gowrap.Demo.backwards_fair Gowrap.Demo.inOrder_fair (fun l => List.reverse_perm l) (fun l => .refl l) ?_
    ⟨by decide +kernel, by decide +kernel⟩ ⟨by decide +kernel, by decide +kernel⟩, by decide +kernel, messy_not_unique⟩
  intro rest f src hw hu hl
  have hr := words_unique hw (regen_words g!"/app/x.go")
  injection hr with _ hr
  subst hr
  have hfl : f = regenFlags g!"/app/x.go" := by
    obtain ⟨⟨r, h1⟩, _⟩ := hu
    obtain ⟨⟨r', h2⟩, _⟩ := regen_flags (out := g!"/app/x.go") (by decide)
    have h1 := (C35_flags _ _ _).2 h1
    rw [(C35_flags _ _ _).2 h2] at h1
    injection h1 with h1
    exact (Prod.mk.inj h1).1.symm
  subst hfl
  have : (Gowrap.Demo.world messy).load (if (regenFlags g!"/app/x.go").sourcePkg = [] then g!"./" else (regenFlags g!"/app/x.go").sourcePkg) = .ok 0 := by
    decide +kernel
  rw [this] at hl
  cases hl
  exact ⟨messy_types, messy_imports⟩

end Gowrap.Props

import Verif.Props.Works
import Verif.Props.CompilesDemo
/-!
# An example for C80

The interface `Cache` of Props/CompilesDemo.
-/

namespace Gowrap.Props

open Gowrap Spec Tmpl Go

/-- templates/elasticapm declares no methods without a context, see `C76_full_false`. -/
theorem C80_full_false : ¬ C80_full := by
  intro h
  refine C76_full_false fun w s hs hw fuel o ho g hg vars hv bl hb => ?_
  rw [← promises_templates w o g vars] at hb
  obtain ⟨p, hp, rfl⟩ := List.mem_map.mp hb
  obtain ⟨t, ds, h1, h2, h3, _⟩ := h w s fuel o g vars hs hw ho hg hv p hp
  exact ⟨t, ds, h1, h2, h3⟩

end Gowrap.Props

namespace Gowrap.Demo

open Gowrap Props Spec Tmpl Go

def cacheErrors : Bool :=
  match newGenerator cacheWorld inOrder 20 cacheOptions with
  | .ok g => g.methods.all fun e => e.2.results.all fun p => decide (p.name = g!"err" → p.type = g!"error")
  | _ => false

theorem cache_errors : cacheErrors = true := by decide +kernel

/-- The interface is accepted, and all templates can be used for it. -/
theorem cache_ready : ∃ g, newGenerator cacheWorld inOrder 20 cacheOptions = .ok g ∧ ∀ bl ∈ builtins.zip locals,
    Ready cacheWorld inOrder 20 cacheOptions g (fun _ => none) bl := by
  have h := cache_clear
  have h' := cache_errors
  unfold cacheErrors at h'
  unfold cacheClear at h
  split at h
  · next g hg =>
    rw [hg] at h'
    rw [Bool.and_eq_true, List.all_eq_true] at h
    refine ⟨g, hg, fun bl hb => ?_⟩
    exact {
      fair := inOrder_fair
      source := cache_source
      options := ⟨goName_of (by decide +kernel), .inl rfl⟩
      found := hg
      given := no_vars rfl
      names := unambiguous_of (List.all_eq_true.mp h.2 bl hb) (List.of_mem_zip hb).1 rfl
      suits := ⟨fun _ e he => h.1 e he, fun _ e he _ => h.1 e he⟩
      error := fun e he _ p hp hn => by
        have := List.all_eq_true.mp (List.all_eq_true.mp h' e he) p hp
        exact of_decide_eq_true this hn }
  · cases h

/-- Hence all generated decorators do what their templates promise. -/
example : ∃ g, newGenerator cacheWorld inOrder 20 cacheOptions = .ok g ∧ ∀ p ∈ promises cacheWorld cacheOptions g (fun _ => none),
    Makes cacheWorld cacheOptions g (fun _ => none) p.1 p.2 := by
  obtain ⟨g, hg, h⟩ := cache_ready
  refine ⟨g, hg, fun p hp => C80_works_partial p hp (h p.1 ?_)⟩
  rw [← promises_templates cacheWorld cacheOptions g fun _ => none]
  exact List.mem_map_of_mem hp

end Gowrap.Demo

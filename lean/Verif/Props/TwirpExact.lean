import Verif.Props.Exact
/-!
# C58: exactly which errors are returned as twirp errors
-/

namespace Gowrap.Props

open Gowrap Gowrap.Spec Gowrap.Tmpl

/-- **C58** (exact): an error of the implementation is returned as a twirp error exactly if the method has a request argument or the error
already is a twirp error. -/
theorem C58_exact (G : GoTypes) (iface : Str) (base : Val) (m : Method) (recv : Str × Val) (args : List Val) (tr : List Event) (o : Outcome)
    (h : Callable m recv [g!"injectRequestDataToError"] args) (hret : m.returnsError = true)
    (hr : ((twirpErrorDecorator G iface base).call G m recv args).Run tr o) (hl : LibsReturn tr) (hlaw : MetaLaw G tr)
    (init : List Val) (e : Val) (hc : implCalls tr = [⟨base, m.name, args, .ok (init ++ [e])⟩]) (he : e.isNil = false) :
    (∃ e', o = .ret (init ++ [e']) ∧ G.twirpError e' = true) ↔ requestArgs m args ≠ [] ∨ G.twirpError e = true := by
  cases hq : requestArgs m args with
  | cons q qs =>
    obtain ⟨res, h1, _, h3⟩ := C58_twirp_error_partial G iface base m recv args tr o q qs h hret hq hr hl hlaw
    have hres : res = .ok (init ++ [e]) := by
      rw [hc] at h1
      simpa using h1.symm
    obtain ⟨e', _, _, _, _, ho, ht, _⟩ := h3 init e hres he
    simp only [ne_eq, reduceCtorEq, not_false_eq_true, true_or, iff_true]
    exact ⟨e', ho, ht⟩
  | nil =>
    obtain ⟨⟨res, h1, ho⟩, _⟩ := C58_no_request G iface base m recv args tr o h hret hq hr hl
    have hres : res = .ok (init ++ [e]) := by
      rw [hc] at h1
      simpa using h1.symm
    subst hres
    simp only [ne_eq, not_true_eq_false, false_or, ho, passedOn]
    constructor
    · rintro ⟨e', h2, h3⟩
      have := List.append_cancel_left (Outcome.ret.inj h2)
      cases this
      exact h3
    · exact fun h2 => ⟨e, rfl, h2⟩

/-- The premises hold for `Ping(ctx context.Context) error`, which has no request argument and fails with a plain error; the error is returned
as it is. -/
example : ¬ ∃ e', Outcome.ret [.obj 9] = .ret ([] ++ [e']) ∧ demoTypes.twirpError e' = true := by
  rw [C58_exact demoTypes g!"I" (.obj 0) ping (g!"_d", .nil) [.obj 1]
    [⟨.impl (.obj 0) g!"Ping" [.obj 1] 1, Except.ok ⟨[.obj 9], rfl⟩⟩] (.ret [.obj 9])
    (ping_callable _ _ (by decide)) rfl ⟨_, _, rfl, rfl, rfl⟩ (by simp [LibsReturn, libCalls]) (by simp [MetaLaw, callsOf, libCalls])
    [] (.obj 9) rfl rfl]
  rintro (h | h)
  · exact h rfl
  · cases h

end Gowrap.Props

import Verif.Props.Exact
/-!
# C47: exactly when retries are made as documented
-/

namespace Gowrap.Props

open Gowrap Spec Tmpl

/-- **C47** (exact): a call is retried as documented exactly if the interval is positive, no retries are wanted or the first attempt does not
fail. -/
theorem C47_exact (G : GoTypes) (d : Retry) (m : Method) (recv : Str × Val) (args : List Val)
    (tr : List Event) (o : Outcome) (h : Callable m recv [g!"time", g!"_ticker", g!"_i"] args) (hret : m.returnsError = true)
    (hr : (d.decorator.call G m recv args).Run tr o) (hl : TickerLaw tr) (res : Except Val (List Val)) (calls : List ImplCall)
    (hfirst : implCalls tr = ⟨d.base, m.name, args, res⟩ :: calls) :
    Retries m (fun res => ⟨d.base, m.name, args, res⟩) (contextOf m args) d.retryCount.toNat (retrySteps tr) o ↔
      d.retryInterval > 0 ∨ d.retryCount ≤ 0 ∨ ¬ Failed m res := by
  by_cases hpos : d.retryInterval > 0
  · exact iff_of_true (C47_retry_partial G d m recv args tr o h hret hpos hr hl).1 (Or.inl hpos)
  rw [retry_call G d h hret] at hr
  obtain ⟨x, tr, rfl, hr⟩ := hr
  cases x with
  | error v =>
    obtain ⟨rfl, rfl⟩ := hr
    cases hfirst
    exact iff_of_true (.last _ (.error v) (Or.inl (not_failed_panic v))) (Or.inr (Or.inr (not_failed_panic v)))
  | ok vs =>
    have hne := results_ne_nil h.ok hret vs.2
    change (if (vs.1.getLast?.getD .nil).isNil || d.retryCount < 1 then Tree.ret (.ret vs.1) else _ :
      Tree Outcome).Run tr o at hr
    split at hr
    · rename_i hc
      obtain ⟨rfl, rfl⟩ := hr
      cases hfirst
      have hcase : d.retryCount ≤ 0 ∨ ¬ Failed m (.ok vs.1) := by
        by_cases hf : Failed m (.ok vs.1)
        · rw [(failed_iff hret hne).1 hf] at hc
          simp only [Bool.false_or, decide_eq_true_eq] at hc
          exact Or.inl (by omega)
        · exact Or.inr hf
      refine iff_of_true (.last _ (.ok vs.1) ?_) (Or.inr hcase)
      rcases hcase with h1 | h1
      · exact Or.inr (by omega)
      · exact Or.inl h1
    · rename_i hc
      simp only [Bool.or_eq_true, decide_eq_true_eq, not_or] at hc
      obtain ⟨x, tr, rfl, hr⟩ := hr
      cases x with
      | error v =>
        obtain ⟨rfl, rfl⟩ := hr
        cases hfirst
        have hf : Failed m (.ok vs.1) := (failed_iff hret hne).2 (by simpa using hc.1)
        refine iff_of_false (fun hR => ?_) ?_
        · obtain ⟨init, r, h1, _, _, h2, _⟩ := C47_bounds hR
          cases r with
          | ok ws => cases h2
          | error w =>
            cases init with
            | nil => simp [retrySteps, attempts, plain] at h1
            | cons a l =>
              have := congrArg List.length h1
              simp [retrySteps, attempts] at this
        · rintro (h1 | h1 | h1)
          · exact hpos h1
          · omega
          · exact h1 hf
      | ok u =>
        obtain ⟨v, hv⟩ := (hl d.retryInterval (.ok u) (by simp)).2 (by omega)
        exact nomatch hv

/-- A failed attempt with an interval of zero and one retry wanted is not retried as documented. -/
example : ¬ Retries find (fun res => ⟨.obj 0, g!"Find", [.obj 1, .int 5], res⟩) (contextOf find [.obj 1, .int 5]) 1
    (retrySteps [⟨.impl (.obj 0) g!"Find" [.obj 1, .int 5] 2, Except.ok ⟨[.str [], .obj 9], rfl⟩⟩,
      ⟨.newTicker 0, Except.error (.str g!"non-positive interval for NewTicker")⟩])
    (.panic (.str g!"non-positive interval for NewTicker")) := by
  intro h
  have := (C47_exact demoTypes ⟨g!"Finder", .obj 0, 1, 0⟩ find (g!"_d", .nil) [.obj 1, .int 5]
    [⟨.impl (.obj 0) g!"Find" [.obj 1, .int 5] 2, Except.ok ⟨[.str [], .obj 9], rfl⟩⟩,
      ⟨.newTicker 0, Except.error (.str g!"non-positive interval for NewTicker")⟩]
    (.panic (.str g!"non-positive interval for NewTicker")) (find_callable _ _ _ (by decide)) rfl
    ⟨_, _, rfl, _, _, rfl, rfl, rfl⟩ (by
      intro i r hr
      simp only [List.mem_cons, List.not_mem_nil, or_false] at hr
      rcases hr with hr | hr
      · cases hr
      · cases hr
        exact iff_of_true ⟨_, rfl⟩ (Int.le_refl 0)) (.ok [.str [], .obj 9]) [] rfl).1 h
  rcases this with h1 | h1 | h1
  · exact absurd h1 (by decide)
  · exact absurd h1 (by decide)
  · exact h1 ((failed_iff (m := find) rfl (by simp)).2 rfl)

end Gowrap.Props

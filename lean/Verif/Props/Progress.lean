import Verif.Props.Breaker
import Verif.Props.RobinPool
import Verif.Props.SyncPool
import Verif.Props.RateLimit
import Verif.Proofs.Progress
/-!
# C85: calls through shared decorators come to an end
-/

namespace Gowrap.Props

open Gowrap Spec Tmpl Breaker

/-! ## circuitbreaker -/

/-- The number of operations that remain at most. -/
def breakerMeasure (d : Breaker) : BLoc → Nat
  | .over _ | .lost => 0
  | .unlocking _ | .unlockPanic _ | .makeErr _ => 1
  | .reset2 _ | .open2 _ _ | .reject _ => 2
  | .reset1 _ | .open1 _ => 3
  | .count3 _ => 4
  | .count2 _ _ => 5
  | .count1 _ => 6
  | .checking _ _ es => es.length + 7
  | .returned _ => d.ignore.length + 7
  | .calling _ _ => d.ignore.length + 8
  | .pass _ _ => d.ignore.length + 9
  | .clock _ _ _ => d.ignore.length + 10
  | .read2 _ _ => d.ignore.length + 11
  | .read1 _ _ => d.ignore.length + 12
  | .start _ _ => d.ignore.length + 13

theorem breakerMeasure_next (d : Breaker) (vs es : List Val) : breakerMeasure d (.next vs es) = es.length + 6 := by
  cases es with
  | nil => rfl
  | cons e es => show es.length + 7 = _; rw [List.length_cons]

/-- **C85** (circuitbreaker).  A call needs at most 13 operations and one for each ignored error; the lock is never waited for in vain. -/
theorem C85_circuitbreaker {G : GoTypes} {d : Breaker} {same : Val → Val → Bool} {time : Int} {L : List Label} {c : Conf BreakerState (Tree Outcome)}
    (h : BreakerExec G d same time L c) : Live (breakerHandler same) noBackground (d.ignore.length + 13) L c := by
  refine live_of (fun _ _ _ h => h.elim) ?_ ?_ h
  · intro L c h
    obtain ⟨ls, _, he⟩ := breaker_locs h
    refine bounded_of (breakerMeasure d) (fun _ _ _ h => h.elim) ?_ ?_ he
    · rintro l ⟨m, args, rfl⟩
      exact Nat.le_refl _
    · intro l e l' hs
      cases hs <;> first | (rw [breakerMeasure_next]; simp only [breakerMeasure]; omega) | (simp only [breakerMeasure]; omega)
  · intro L c h hne
    refine ⟨[], c, .now, nofun, ?_⟩
    have : ∃ i, i < c.threads.length ∧ ∀ o, ¬ Ended c i o := by
      false_or_by_contra
      rename_i hno
      refine hne fun i hi => ?_
      false_or_by_contra
      rename_i h'
      exact hno ⟨i, hi, fun o ho => h' ⟨o, ho⟩⟩
    obtain ⟨i, hi, hi'⟩ := this
    exact C62_no_deadlock h i hi hi'

/-- Non-vacuity: of the three calls of `demo_opened`, one has ended, one is inside of the implementation, and one has not begun. -/
example : ∃ L c, BreakerExec demoTypes demoBreaker (fun _ _ => false) 0 L c ∧ ¬ AllEnded c ∧ c.threads.length = 3 := by
  refine ⟨_, _, demo_exec demo_opened, fun h => ?_, rfl⟩
  obtain ⟨o, ho⟩ := h 2 (by decide)
  cases ho

/-! ## robinpool -/

theorem not_all {S : Type} {c : Conf S (Tree Outcome)} (hne : ¬ AllEnded c) : ∃ (i : Nat) (t : Tree Outcome), c.threads[i]? = some t ∧ ∀ o, t ≠ .ret o := by
  false_or_by_contra
  rename_i hno
  refine hne fun i hi => ?_
  false_or_by_contra
  rename_i h'
  exact hno ⟨i, _, List.getElem?_eq_getElem hi, fun o ho => h' ⟨o, by rw [Ended, List.getElem?_eq_getElem hi, ho]⟩⟩

/-- **C85** (robinpool).  A call needs at most two operations and never waits. -/
theorem C85_robinpool {G : GoTypes} {pool : List Val} {L : List Label} {c : Conf UInt32 (Tree Outcome)} (h : RobinExec G pool L c) :
    Live robinHandler noBackground 2 L c ∧ ∀ i, i < c.threads.length → (∃ o, Ended c i o) ∨ CanStep robinHandler c i := by
  have step : ∀ {L c}, RobinExec G pool L c → ∀ i t, c.threads[i]? = some t → (∀ o, t ≠ .ret o) → CanStep robinHandler c i := by
    intro L c h i t hi hne
    obtain ⟨ls, hls, he⟩ := robin_locs h
    have hi' := hi
    rw [hls, List.getElem?_map] at hi
    cases hl : ls[i]? with
    | none => rw [hl] at hi; cases hi
    | some l =>
      rw [hl] at hi
      have ht := Option.some.inj hi
      cases l with
      | start m args =>
        subst ht
        exact ⟨_, ⟨.addCounter, c.shared + 1⟩, _, _, hi', ⟨_, rfl, rfl⟩, rfl, rfl⟩
      | chosen k m args =>
        rw [RobinLoc.tree] at ht
        split at ht
        · exact absurd ht.symm (hne _)
        · split at ht
          · exact absurd ht.symm (hne _)
          · next impl _ =>
            subst ht
            exact ⟨_, ⟨.impl impl m.name args m.results.length, Except.error .nil⟩, _, _, hi', ⟨_, rfl, rfl⟩, rfl⟩
      | over o => exact absurd ht.symm (hne o)
  refine ⟨live_of (fun _ _ _ h => h.elim) ?_ ?_ h, ?_⟩
  · intro L c h
    obtain ⟨ls, _, he⟩ := robin_locs h
    refine bounded_of (fun | .start _ _ => 2 | .chosen _ _ _ => 1 | .over _ => 0) (fun _ _ _ h => h.elim) ?_ ?_ he
    · rintro l ⟨m, args, rfl⟩
      exact Nat.le_refl _
    · intro l e l' hs
      cases hs <;> exact Nat.le_refl _
  · intro L c h hne
    obtain ⟨i, t, hi, ht⟩ := not_all hne
    exact ⟨[], c, .now, nofun, i, step h i t hi ht⟩
  · intro i hi
    by_cases ht : ∃ o, c.threads[i] = .ret o
    · obtain ⟨o, ho⟩ := ht
      exact .inl ⟨o, by rw [Ended, List.getElem?_eq_getElem hi, ho]⟩
    · exact .inr (step h i _ (List.getElem?_eq_getElem hi) fun o ho => ht ⟨o, ho⟩)

/-! ## syncpool -/

/-- **C85** (syncpool).  A call needs at most three operations; an implementation that a call waits for is in use by another call, which can go on. -/
theorem C85_syncpool {G : GoTypes} {impls : List Val} {s0 : PoolState} {L : List Label} {c : Conf PoolState (Tree Outcome)}
    (hnew : PoolState.new impls = some s0) (h : SyncExec G s0 L c) : Live poolHandler noBackground 3 L c := by
  have hs0 : s0 = ⟨impls.length, impls⟩ ∧ 0 < impls.length := by
    rw [PoolState.new] at hnew
    split at hnew
    · cases hnew
    · exact ⟨(Option.some.inj hnew).symm, by omega⟩
  obtain ⟨rfl, hpos⟩ := hs0
  refine live_of (fun _ _ _ h => h.elim) ?_ ?_ h
  · intro L c h
    obtain ⟨ls, _, he⟩ := sync_locs h
    refine bounded_of (fun | .start _ _ => 3 | .inside _ _ _ => 2 | .after _ _ => 1 | .over _ => 0) (fun _ _ _ h => h.elim) ?_ ?_ he
    · rintro l ⟨m, args, rfl⟩
      exact Nat.le_refl _
    · intro l e l' hs
      cases hs <;> exact Nat.le_refl _
  · intro L c h hne
    obtain ⟨i, t, hi, ht⟩ := not_all hne
    refine ⟨[], c, .now, nofun, ?_⟩
    obtain ⟨ls, hls, he⟩ := sync_locs h
    obtain ⟨hcap, hperm⟩ := sync_inv he
    have hlen := hperm.length_eq
    rw [List.length_append] at hlen
    have hcap : c.shared.cap = impls.length := hcap
    have hlen : (ls.filterMap SyncLoc.held).length + c.shared.buffer.length = impls.length := hlen
    -- a goroutine that holds an implementation can go on
    have holder : ∀ (j : Nat) (l : SyncLoc), ls[j]? = some l → ∀ v, l.held = some v → CanStep poolHandler c j := by
      intro j l hj v hv
      have htj : c.threads[j]? = some l.tree := by rw [hls, List.getElem?_map, hj]; rfl
      cases l with
      | start m a => cases hv
      | inside w m a => exact ⟨_, ⟨.impl w m.name a m.results.length, Except.error .nil⟩, _, _, htj, ⟨_, rfl, rfl⟩, rfl⟩
      | after w o =>
        refine ⟨_, ⟨.putImpl w, ()⟩, _, _, htj, ⟨_, rfl, rfl⟩, ?_, rfl⟩
        have := List.length_pos_of_mem (List.mem_filterMap.2 ⟨_, List.mem_of_getElem? hj, hv⟩)
        omega
      | over o => cases hv
    have hi' := hi
    rw [hls, List.getElem?_map] at hi
    cases hl : ls[i]? with
    | none => rw [hl] at hi; cases hi
    | some l =>
      rw [hl] at hi
      have htl : l.tree = t := Option.some.inj hi
      cases l with
      | start m a =>
        cases hb : c.shared.buffer with
        | cons v rest =>
          subst htl
          exact ⟨i, _, ⟨.takeImpl, v⟩, _, _, hi', ⟨_, rfl, rfl⟩, rest, hb, rfl⟩
        | nil =>
          rw [hb, List.length_nil] at hlen
          have : 0 < (ls.filterMap SyncLoc.held).length := by omega
          obtain ⟨v, hv⟩ := List.exists_mem_of_length_pos this
          obtain ⟨l, hm, hv⟩ := List.mem_filterMap.1 hv
          obtain ⟨j, hj⟩ := List.getElem?_of_mem hm
          exact ⟨j, holder j l hj v hv⟩
      | inside w m a => exact ⟨i, holder i _ hl w rfl⟩
      | after w o => exact ⟨i, holder i _ hl w rfl⟩
      | over o => exact absurd htl.symm (ht o)

/-! ## ratelimit -/

/-- At a location that is not over something can be done if there is a token. -/
theorem limit_can {G : GoTypes} {base : Val} {c : Conf LimiterState (Tree Outcome)} {ls : List LimitLoc} (hls : c.threads = ls.map (LimitLoc.tree G base))
    {i : Nat} {t : Tree Outcome} (hi : c.threads[i]? = some t) (ht : ∀ o, t ≠ .ret o) (htok : 0 < c.shared.tokens ∨ c.shared.holding = true) :
    CanStep limiterHandler c i := by
  have htake : ∃ s', (c.shared.tokens > 0 ∧ s' = { c.shared with tokens := c.shared.tokens - 1 }) ∨
      (c.shared.tokens = 0 ∧ c.shared.holding = true ∧ s' = { c.shared with holding := false }) := by
    by_cases h0 : 0 < c.shared.tokens
    · exact ⟨_, .inl ⟨h0, rfl⟩⟩
    · exact ⟨_, .inr ⟨by omega, htok.resolve_left h0, rfl⟩⟩
  obtain ⟨s', hs'⟩ := htake
  have hi' := hi
  rw [hls, List.getElem?_map] at hi
  cases hl : ls[i]? with
  | none => rw [hl] at hi; cases hi
  | some l =>
    rw [hl] at hi
    have htl : l.tree G base = t := Option.some.inj hi
    cases l with
    | start m a =>
      rw [LimitLoc.tree, rateLimitT] at htl
      split at htl
      · subst htl
        exact ⟨_, ⟨.doneOrToken (a.headD .nil), .other⟩, _, s', hi', ⟨_, rfl, rfl⟩, hs'⟩
      · subst htl
        exact ⟨_, ⟨.takeToken, ()⟩, _, s', hi', ⟨_, rfl, rfl⟩, hs'⟩
    | rejecting m a =>
      subst htl
      exact ⟨_, ⟨.lib g!"ctx.Err" [a.headD .nil] 1, Except.error .nil⟩, _, _, hi', ⟨_, rfl, rfl⟩, rfl⟩
    | inside m a =>
      subst htl
      exact ⟨_, ⟨.impl base m.name a m.results.length, Except.error .nil⟩, _, _, hi', ⟨_, rfl, rfl⟩, rfl⟩
    | rejected o => exact absurd htl.symm (ht o)
    | over o => exact absurd htl.symm (ht o)

/-- A tick and a step of the goroutine that passes it on are enough for a token. -/
theorem limit_token (c : Conf LimiterState (Tree Outcome)) : ∃ L' c', Goes limiterHandler limiterBackground c L' c' ∧ c'.threads = c.threads ∧
    (∀ l ∈ L', Label.outside l = true) ∧ ticks L' ≤ 1 ∧ L'.length ≤ 2 ∧ (0 < c'.shared.tokens ∨ c'.shared.holding = true) := by
  cases hh : c.shared.holding with
  | true => exact ⟨[], c, .now, rfl, nofun, Nat.zero_le _, Nat.zero_le _, .inr hh⟩
  | false =>
    have g1 : Goes limiterHandler limiterBackground c ([] ++ [.tick]) ⟨{ c.shared with pending := true }, c.threads⟩ := .bg .now rfl
    have g2 := g1.bg (l := .background) (s' := { c.shared with pending := false, holding := true }) (.inl ⟨rfl, hh, rfl⟩)
    exact ⟨_, _, g2, rfl, by decide, by decide, by decide, .inr rfl⟩

/-- The tokens of the beginning are there until they are taken. -/
theorem limit_first {G : GoTypes} {base : Val} {s0 : LimiterState} {L : List Label} {c : Conf LimiterState (Tree Outcome)}
    (h : LimitExec G base s0 L c) : s0.tokens ≤ c.shared.tokens + starts L := by
  induction h with
  | start => exact Nat.le_add_right _ _
  | call h ht ih => exact ih
  | @step L c i t t' e s' h hi ht hs ih =>
    rw [starts_append]
    show _ ≤ s'.tokens + _
    have tok : ((c.shared.tokens > 0 ∧ s' = { c.shared with tokens := c.shared.tokens - 1 }) ∨
        (c.shared.tokens = 0 ∧ c.shared.holding = true ∧ s' = { c.shared with holding := false })) → c.shared.tokens ≤ s'.tokens + 1 := by
      rintro (⟨_, rfl⟩ | ⟨_, _, rfl⟩)
      · exact (by simp only; omega)
      · exact Nat.le_succ _
    obtain ⟨op, r⟩ := e
    cases op with
    | takeToken =>
      have := tok hs
      have e : starts [.op i ⟨.takeToken, r⟩] = 1 := rfl
      omega
    | doneOrToken x =>
      cases r with
      | other =>
        have := tok hs
        have e : starts [.op i ⟨.doneOrToken x, .other⟩] = 1 := rfl
        omega
      | done => cases (show s' = c.shared from hs); omega
    | impl => cases (show s' = c.shared from hs); omega
    | lib => cases (show s' = c.shared from hs); omega
    | _ => exact hs.elim
  | @bg L c l s' h hb ih =>
    rw [starts_append]
    show _ ≤ s'.tokens + _
    cases l with
    | op i e => exact hb.elim
    | tick => cases (show s' = { c.shared with pending := true } from hb); simp only; omega
    | background => rcases hb with ⟨_, _, rfl⟩ | ⟨_, _, rfl⟩ <;> (simp only; omega)

/-- **C85** (ratelimit).  A call needs at most two operations; a call that waits can go on after the next tick at the latest (unless another call
is faster); and no call waits as long as fewer than `burst` calls were let through. -/
theorem C85_ratelimit {G : GoTypes} {base : Val} {burst : Int} {s0 : LimiterState} {L : List Label} {c : Conf LimiterState (Tree Outcome)}
    (hnew : LimiterState.new burst = some s0) (h : LimitExec G base s0 L c) :
    Live limiterHandler limiterBackground 2 L c ∧
    (∀ i, i < c.threads.length → (∃ o, Ended c i o) ∨ ∃ L' c', Goes limiterHandler limiterBackground c L' c' ∧ (∀ l ∈ L', Label.outside l = true) ∧
      ticks L' ≤ 1 ∧ L'.length ≤ 2 ∧ CanStep limiterHandler c' i) ∧
    ((starts L : Int) < burst → ∀ i, i < c.threads.length → (∃ o, Ended c i o) ∨ CanStep limiterHandler c i) := by
  have later : ∀ {L c}, LimitExec G base s0 L c → ∀ i t, c.threads[i]? = some t → (∀ o, t ≠ .ret o) →
      ∃ L' c', Goes limiterHandler limiterBackground c L' c' ∧ (∀ l ∈ L', Label.outside l = true) ∧ ticks L' ≤ 1 ∧ L'.length ≤ 2 ∧
        CanStep limiterHandler c' i := by
    intro L c h i t hi ht
    obtain ⟨ls, hls, _⟩ := limit_locs h
    obtain ⟨L', c', hg, he, h1, h2, h3, h4⟩ := limit_token c
    exact ⟨L', c', hg, h1, h2, h3, limit_can (by rw [he]; exact hls) (by rw [he]; exact hi) ht h4⟩
  refine ⟨live_of limiterBackground_op ?_ ?_ h, ?_, ?_⟩
  · intro L c h
    obtain ⟨ls, _, he⟩ := limit_locs h
    refine bounded_of (fun | .start _ _ => 2 | .inside _ _ => 1 | .rejecting _ _ => 1 | .over _ => 0 | .rejected _ => 0) limiterBackground_op ?_ ?_ he
    · rintro l ⟨m, args, rfl⟩
      exact Nat.le_refl _
    · intro l e l' hs
      cases hs <;> exact Nat.le_refl _
  · intro L c h hne
    obtain ⟨i, t, hi, ht⟩ := not_all hne
    obtain ⟨L', c', hg, h1, _, _, h4⟩ := later h i t hi ht
    exact ⟨L', c', hg, h1, i, h4⟩
  · intro i hi
    by_cases ht : ∃ o, c.threads[i] = .ret o
    · obtain ⟨o, ho⟩ := ht
      exact .inl ⟨o, by rw [Ended, List.getElem?_eq_getElem hi, ho]⟩
    · exact .inr (later h i _ (List.getElem?_eq_getElem hi) fun o ho => ht ⟨o, ho⟩)
  · intro hlt i hi
    rw [LimiterState.new] at hnew
    split at hnew
    · cases hnew
    · cases hnew
      have := limit_first h
      simp only at this
      obtain ⟨ls, hls, _⟩ := limit_locs h
      by_cases ht : ∃ o, c.threads[i] = .ret o
      · obtain ⟨o, ho⟩ := ht
        exact .inl ⟨o, by rw [Ended, List.getElem?_eq_getElem hi, ho]⟩
      · exact .inr (limit_can hls (List.getElem?_eq_getElem hi) (fun o ho => ht ⟨o, ho⟩) (.inl (by omega)))

/-- Non-vacuity: after the three calls of `limit_three` a fourth one waits, for the next tick. -/
example : ∃ L c, LimitExec demoTypes .nil ⟨1, 1, false, false⟩ L c ∧ LimiterState.new 1 = some ⟨1, 1, false, false⟩ ∧ ¬ AllEnded c ∧ 1 < starts L := by
  obtain ⟨c, he⟩ := limit_three
  have hc : Callable find (g!"_d", .nil) [] [.nil, .nil] := find_callable _ _ _ (by decide)
  refine ⟨_, _, .call he ⟨find, _, _, hc, (rateLimit_call demoTypes .nil hc.ok hc.declared).symm⟩, rfl, fun h => ?_, by decide⟩
  obtain ⟨o, ho⟩ := h c.threads.length (by simp)
  rw [Ended] at ho
  simp only [List.getElem?_concat_length, Option.some.injEq] at ho
  rw [rateLimitT, if_pos (by rfl)] at ho
  cases ho

/-- Non-vacuity: two calls on a pool with one implementation. -/
example : ∃ L c, SyncExec demoTypes ⟨1, [.obj 0]⟩ L c ∧ PoolState.new [.obj 0] = some ⟨1, [.obj 0]⟩ ∧ ¬ AllEnded c := by
  have hc : Callable find (g!"_d", .nil) [g!"_impl"] [.nil, .nil] := find_callable _ _ _ (by decide)
  have hcall : SyncCall demoTypes (syncPoolT find [.nil, .nil]) := ⟨find, _, _, hc, (syncPool_call demoTypes hc).symm⟩
  refine ⟨_, _, Exec.step (i := 0) (e := ⟨.takeImpl, .obj 0⟩) (s' := ⟨1, []⟩) (.call (.call .start hcall) hcall) rfl ⟨_, rfl, rfl⟩ ⟨[], rfl, rfl⟩, rfl, fun h => ?_⟩
  obtain ⟨o, ho⟩ := h 1 (by decide)
  cases ho

end Gowrap.Props

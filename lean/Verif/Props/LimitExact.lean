import Verif.Props.RateLimit
/-!
# C50: the bounds of the rate limiter are the best ones
-/

namespace Gowrap.Props

open Gowrap Spec Tmpl

/-- The operation of a call that is let through. -/
def letThrough (i : Nat) : Label := .op i ⟨.doneOrToken .nil, .other⟩

/-- A call that arrives while a token can be had may take it. -/
theorem limit_take {G : GoTypes} {base : Val} {s0 s' : LimiterState} {L : List Label} {c : Conf LimiterState (Tree Outcome)}
    (h : LimitExec G base s0 L c) (hs : limiterHandler c.shared ⟨.doneOrToken .nil, .other⟩ s') :
    ∃ i c', LimitExec G base s0 (L ++ [letThrough i]) c' ∧ c'.shared = s' := by
  have hc : Callable find (g!"_d", .nil) [] [.nil, .nil] := find_callable _ _ _ (by decide)
  have hcall : LimitCall G base (rateLimitT G base find [.nil, .nil]) :=
    ⟨find, _, _, hc, (rateLimit_call G base hc.ok hc.declared).symm⟩
  have hstep : (rateLimitT G base find [.nil, .nil]).Step ⟨.doneOrToken .nil, .other⟩ (callT base find [.nil, .nil]) := by
    have : rateLimitT G base find [.nil, .nil] = .vis (.doneOrToken .nil) fun
        | .done => (LimitLoc.rejecting find [.nil, .nil]).tree G base
        | .other => callT base find [.nil, .nil] := by
      rw [rateLimitT, if_pos (by rfl)]
      refine Tree.vis_congr fun x => ?_
      cases x with
      | other => rfl
      | done => exact Tree.vis_congr fun x => by cases x <;> rfl
    exact ⟨_, this, rfl⟩
  exact ⟨c.threads.length, _, Exec.step (s' := s') (Exec.call h hcall) (by simp) hstep hs, rfl⟩

/-- All tokens in the channel can be taken. -/
theorem limit_drain {G : GoTypes} {base : Val} {s0 : LimiterState} (cap : Nat) (p q : Bool) : ∀ (k : Nat) {L : List Label} {c : Conf LimiterState (Tree Outcome)},
    LimitExec G base s0 L c → c.shared = ⟨cap, k, p, q⟩ →
    ∃ L2 c', LimitExec G base s0 (L ++ L2) c' ∧ c'.shared = ⟨cap, 0, p, q⟩ ∧ starts L2 = k ∧ ticks L2 = 0
  | 0, L, c, h, hs => ⟨[], c, by simpa using h, hs, rfl, rfl⟩
  | k + 1, L, c, h, hs => by
    obtain ⟨i, c1, h1, hs1⟩ := limit_take (s' := ⟨cap, k, p, q⟩) h (by rw [hs]; exact Or.inl ⟨Nat.succ_pos k, rfl⟩)
    obtain ⟨L2, c2, h2, hs2, hn, ht⟩ := limit_drain cap p q k h1 hs1
    refine ⟨letThrough i :: L2, c2, by simpa using h2, hs2, ?_, ?_⟩
    · simp only [letThrough, starts, hn]
    · simp only [letThrough, ticks, ht]

/-- **C50** (exact): the bounds of C50_bound_partial are the best ones.  From its creation on a rate limiter lets through at most `b` calls and one
for each tick exactly if `b` is at least the burst; within windows exactly if `b` is at least the burst and two. -/
theorem C50_exact (G : GoTypes) (base : Val) (burst : Int) (s0 : LimiterState) (hnew : LimiterState.new burst = some s0) (b : Int) :
    ((∀ L c, LimitExec G base s0 L c → (starts L : Int) ≤ b + ticks L) ↔ burst ≤ b) ∧
    ((∀ L c, LimitExec G base s0 L c → ∀ L1 L2, L = L1 ++ L2 → (starts L2 : Int) ≤ b + ticks L2) ↔ burst + 2 ≤ b) := by
  obtain ⟨n, hn, hs0⟩ : ∃ n : Nat, burst = n ∧ s0 = ⟨n, n, false, false⟩ := by
    rw [LimiterState.new] at hnew
    split at hnew
    · cases hnew
    · cases hnew
      exact ⟨burst.toNat, by omega, rfl⟩
  subst hs0
  constructor
  · constructor
    · intro h
      obtain ⟨L, c, he, _, h1, h2⟩ := limit_drain n false false n (G := G) (base := base) (s0 := ⟨n, n, false, false⟩) .start rfl
      have := h _ c he
      rw [List.nil_append, h1, h2] at this
      omega
    · intro hb L c he
      have := (C50_bound_partial G base burst _ L c hnew he).1
      omega
  · constructor
    · intro h
      -- one tick waits in the goroutine, one in the channel of the ticker
      have e1 : LimitExec G base ⟨n, n, false, false⟩ _ _ := Exec.bg (l := .tick) (s' := ⟨n, n, true, false⟩) .start (by rfl)
      have e2 : LimitExec G base ⟨n, n, false, false⟩ _ _ := Exec.bg (l := .background) (s' := ⟨n, n, false, true⟩) e1 (Or.inl ⟨rfl, rfl, rfl⟩)
      have e3 : LimitExec G base ⟨n, n, false, false⟩ _ _ := Exec.bg (l := .tick) (s' := ⟨n, n, true, true⟩) e2 (by rfl)
      obtain ⟨L2, c2, h2, hs2, hn2, ht2⟩ := limit_drain n true true n e3 rfl
      obtain ⟨i, c3, h3, hs3⟩ := limit_take (s' := ⟨n, 0, true, false⟩) h2 (by rw [hs2]; exact Or.inr ⟨rfl, rfl, rfl⟩)
      have e4 : LimitExec G base ⟨n, n, false, false⟩ _ _ := Exec.bg (l := .background) (s' := ⟨n, 0, false, true⟩) h3 (by
        rw [hs3]; exact Or.inl ⟨rfl, rfl, rfl⟩)
      obtain ⟨j, c5, h5, _⟩ := limit_take (s' := ⟨n, 0, false, false⟩) e4 (Or.inr ⟨rfl, rfl, rfl⟩)
      have := h _ c5 h5 ([.tick, .background, .tick]) (L2 ++ [letThrough i, .background, letThrough j]) (by simp)
      rw [starts_append, ticks_append, hn2, ht2] at this
      simp only [letThrough, starts, ticks] at this
      omega
    · intro hb L c he L1 L2 hL
      have := (C50_bound_partial G base burst _ L c hnew he).2 L1 L2 hL
      omega

/-- A limiter with the burst one: three calls in a window without a tick, and never four. -/
example : ¬ (∀ L c, LimitExec demoTypes .nil ⟨1, 1, false, false⟩ L c → ∀ L1 L2, L = L1 ++ L2 → (starts L2 : Int) ≤ 2 + ticks L2) ∧
    (∀ L c, LimitExec demoTypes .nil ⟨1, 1, false, false⟩ L c → ∀ L1 L2, L = L1 ++ L2 → (starts L2 : Int) ≤ 3 + ticks L2) := by
  constructor
  · intro h
    have := (C50_exact demoTypes .nil 1 ⟨1, 1, false, false⟩ rfl 2).2.1 h
    omega
  · exact (C50_exact demoTypes .nil 1 ⟨1, 1, false, false⟩ rfl 3).2.2 (by omega)

end Gowrap.Props

import Verif.Props.Control
import Verif.Proofs.Shared
import Verif.Spec.Pool
/-!
# C50: the rate limiter
-/

namespace Gowrap.Props

open Gowrap Spec Tmpl

/-- Calls on a rate limited implementation. -/
def LimitCall (G : GoTypes) (base : Val) (t : Tree Outcome) : Prop :=
  ∃ m recv args, Callable m recv [] args ∧ t = (rateLimitDecorator base).call G m recv args

/-- Executions of a rate limiter. -/
def LimitExec (G : GoTypes) (base : Val) (s0 : LimiterState) : List Label → Conf LimiterState (Tree Outcome) → Prop :=
  Exec Tree.Step limiterHandler limiterBackground (LimitCall G base) s0

theorem limiterBackground_op (s : LimiterState) (l : Label) (s' : LimiterState) (h : limiterBackground s l s') :
    ∀ i e, l ≠ .op i e := by
  rintro i e rfl
  exact h.elim

theorem starts_append (L L' : List Label) : starts (L ++ L') = starts L + starts L' := by
  induction L with
  | nil => simp [starts]
  | cons l L ih =>
    cases l with
    | op i e =>
      obtain ⟨op, r⟩ := e
      cases op with
      | doneOrToken c => cases r <;> simp only [List.cons_append, starts, ih] <;> omega
      | takeToken => simp only [List.cons_append, starts, ih]; omega
      | _ => simp only [List.cons_append, starts, ih]
    | tick => exact ih
    | background => exact ih

theorem ticks_append (L L' : List Label) : ticks (L ++ L') = ticks L + ticks L' := by
  induction L with
  | nil => simp [ticks]
  | cons l L ih =>
    cases l with
    | op i e => exact ih
    | tick => simp only [List.cons_append, ticks, ih]; omega
    | background => exact ih

/-- The tokens that can be had without another tick. -/
def available (s : LimiterState) : Nat := s.tokens + s.holding.toNat + s.pending.toNat

/-- One operation: a start uses up a token, nothing else changes the sum. -/
theorem limiter_op {s s' : LimiterState} {e : Event} (i : Nat) (h : limiterHandler s e s') :
    available s' + starts [.op i e] = available s ∧ ticks [.op i e] = 0 ∧ s'.cap = s.cap ∧ s'.tokens ≤ s.tokens := by
  have tok : ((s.tokens > 0 ∧ s' = { s with tokens := s.tokens - 1 }) ∨
      (s.tokens = 0 ∧ s.holding = true ∧ s' = { s with holding := false })) →
      available s' + 1 = available s ∧ s'.cap = s.cap ∧ s'.tokens ≤ s.tokens := by
    rintro (⟨h1, rfl⟩ | ⟨h1, h2, rfl⟩)
    · exact ⟨by simp only [available]; omega, rfl, by simp only []; omega⟩
    · exact ⟨by simp [available, h2]; omega, rfl, Nat.le_refl _⟩
  obtain ⟨op, r⟩ := e
  cases op with
  | takeToken => obtain ⟨a, b, d⟩ := tok h; exact ⟨a, rfl, b, d⟩
  | doneOrToken c =>
    cases r with
    | other => obtain ⟨a, b, d⟩ := tok h; exact ⟨a, rfl, b, d⟩
    | done => cases (show s' = s from h); exact ⟨rfl, rfl, rfl, Nat.le_refl _⟩
  | impl => cases (show s' = s from h); exact ⟨rfl, rfl, rfl, Nat.le_refl _⟩
  | lib => cases (show s' = s from h); exact ⟨rfl, rfl, rfl, Nat.le_refl _⟩
  | _ => exact h.elim

theorem limiter_bg {s s' : LimiterState} {l : Label} (h : limiterBackground s l s') :
    available s' + starts [l] ≤ available s + ticks [l] ∧ s'.cap = s.cap ∧ (s.tokens ≤ s.cap → s'.tokens ≤ s.cap) := by
  cases l with
  | op i e => exact h.elim
  | tick =>
    cases (show s' = { s with pending := true } from h)
    refine ⟨?_, rfl, id⟩
    simp only [available, starts, ticks, Bool.toNat_true]
    omega
  | background =>
    rcases h with ⟨h1, h2, rfl⟩ | ⟨h1, h2, rfl⟩
    · refine ⟨?_, rfl, id⟩
      simp [available, starts, ticks, h1, h2]
    · refine ⟨?_, rfl, fun _ => h2⟩
      simp [available, starts, ticks, h1]

theorem limiter_cap {G : GoTypes} {base : Val} {s0 : LimiterState} {L : List Label}
    {c : Conf LimiterState (Tree Outcome)} (h0 : s0.tokens ≤ s0.cap) (h : LimitExec G base s0 L c) :
    c.shared.cap = s0.cap ∧ c.shared.tokens ≤ s0.cap := by
  induction h with
  | start => exact ⟨rfl, h0⟩
  | call h ht ih => exact ih
  | @step L c i t t' e s' h hi ht hs ih =>
    obtain ⟨_, _, h1, h2⟩ := limiter_op i hs
    exact ⟨h1.trans ih.1, Nat.le_trans h2 ih.2⟩
  | bg h hb ih =>
    obtain ⟨_, h1, h2⟩ := limiter_bg hb
    refine ⟨h1.trans ih.1, ?_⟩
    have := h2 (by rw [ih.1]; exact ih.2)
    rw [ih.1] at this
    exact this

theorem limiter_total {G : GoTypes} {base : Val} {s0 : LimiterState} {L : List Label}
    {c : Conf LimiterState (Tree Outcome)} (h : LimitExec G base s0 L c) :
    starts L + available c.shared ≤ available s0 + ticks L := by
  induction h with
  | start => simp [starts, ticks]
  | call h ht ih => exact ih
  | @step L c i t t' e s' h hi ht hs ih =>
    obtain ⟨h1, h2, _⟩ := limiter_op i hs
    rw [starts_append, ticks_append]
    show _ + available s' ≤ _
    omega
  | @bg L c l s' h hb ih =>
    obtain ⟨h1, _⟩ := limiter_bg hb
    rw [starts_append, ticks_append]
    show _ + available s' ≤ _
    omega

theorem limiter_window {G : GoTypes} {base : Val} {s0 : LimiterState} {L : List Label}
    {c : Conf LimiterState (Tree Outcome)} (h0 : s0.tokens ≤ s0.cap) (h : LimitExec G base s0 L c) :
    ∀ L1 L2, L = L1 ++ L2 → starts L2 + available c.shared ≤ s0.cap + 2 + ticks L2 := by
  have hnil : ∀ s : LimiterState, s.tokens ≤ s0.cap → starts [] + available s ≤ s0.cap + 2 + ticks [] := by
    intro s hs
    have := Bool.toNat_le s.holding
    have := Bool.toNat_le s.pending
    simp only [available, starts, ticks]
    omega
  have hsplit : ∀ (L L1 L2 : List Label) (l : Label), L ++ [l] = L1 ++ L2 → L2 = [] ∨ ∃ L2', L = L1 ++ L2' ∧ L2 = L2' ++ [l] := by
    intro L L1 L2 l hL
    rcases List.eq_nil_or_concat L2 with rfl | ⟨L2', l', rfl⟩
    · exact Or.inl rfl
    · rw [List.concat_eq_append, ← List.append_assoc] at hL
      obtain ⟨h1, h2⟩ := List.append_inj' hL rfl
      cases h2
      exact Or.inr ⟨L2', h1, List.concat_eq_append⟩
  have hcap := limiter_cap h0 h
  induction h with
  | start =>
    intro L1 L2 hL
    obtain ⟨rfl, rfl⟩ := List.append_eq_nil_iff.1 hL.symm
    exact hnil _ h0
  | call h ht ih => exact ih hcap
  | @step L c i t t' e s' h hi ht hs ih =>
    intro L1 L2 hL
    rcases hsplit _ _ _ _ hL with rfl | ⟨L2', rfl, rfl⟩
    · exact hnil _ hcap.2
    · have := ih (limiter_cap h0 h) L1 L2' rfl
      obtain ⟨h1, h2, _⟩ := limiter_op i hs
      rw [starts_append, ticks_append]
      show _ + available s' ≤ _
      omega
  | @bg L c l s' h hb ih =>
    intro L1 L2 hL
    rcases hsplit _ _ _ _ hL with rfl | ⟨L2', rfl, rfl⟩
    · exact hnil _ hcap.2
    · have := ih (limiter_cap h0 h) L1 L2' rfl
      obtain ⟨h1, _⟩ := limiter_bg hb
      rw [starts_append, ticks_append]
      show _ + available s' ≤ _
      omega

/-! ## Tokens and calls -/

/-- Locations in a call. -/
inductive LimitLoc where
  | start (m : Method) (args : List Val)
  | rejecting (m : Method) (args : List Val)
  | inside (m : Method) (args : List Val)
  | rejected (o : Outcome)
  | over (o : Outcome)

/-- What remains to be done at a location. -/
def LimitLoc.tree (G : GoTypes) (base : Val) : LimitLoc → Tree Outcome
  | .start m args => rateLimitT G base m args
  | .rejecting m args => .vis (.lib g!"ctx.Err" [args.headD .nil] 1) fun
    | .ok vs => .ret (.ret ((m.zeros G).dropLast ++ [vs.1.headD .nil]))
    | .error v => .ret (.panic v)
  | .inside m args => callT base m args
  | .rejected o => .ret o
  | .over o => .ret o

/-- The call has been let through. -/
def LimitLoc.started : LimitLoc → Bool
  | .inside _ _ => true
  | .over _ => true
  | _ => false

/-- Steps between locations. -/
inductive LimitLoc.Step (base : Val) : LimitLoc → Event → LimitLoc → Prop
  | take (m : Method) (args : List Val) : Step base (.start m args) ⟨.takeToken, ()⟩ (.inside m args)
  | token (m : Method) (args : List Val) (c : Val) : Step base (.start m args) ⟨.doneOrToken c, .other⟩ (.inside m args)
  | done (m : Method) (args : List Val) (c : Val) : Step base (.start m args) ⟨.doneOrToken c, .done⟩ (.rejecting m args)
  | ctxErr (m : Method) (args : List Val) (name : Str) (a : List Val) (x : Except Val (Vals 1)) (o : Outcome) :
      Step base (.rejecting m args) ⟨.lib name a 1, x⟩ (.rejected o)
  | call (m : Method) (args : List Val) (x : Except Val (Vals m.results.length)) (o : Outcome) :
      Step base (.inside m args) ⟨.impl base m.name args m.results.length, x⟩ (.over o)

theorem limit_locs {G : GoTypes} {base : Val} {s0 : LimiterState} {L : List Label}
    {c : Conf LimiterState (Tree Outcome)} (h : LimitExec G base s0 L c) :
    ∃ ls, c.threads = ls.map (LimitLoc.tree G base) ∧
      Exec (LimitLoc.Step base) limiterHandler limiterBackground (fun l => ∃ m args, l = .start m args) s0 L
        ⟨c.shared, ls⟩ := by
  refine Exec.locs (LimitLoc.tree G base) (LimitLoc.Step base) (fun l => ∃ m args, l = .start m args) ?_ ?_ h
  · rintro t ⟨m, recv, args, hc, rfl⟩
    exact ⟨.start m args, (rateLimit_call G base hc.ok hc.declared).symm, m, args, rfl⟩
  · rintro l ⟨op, r⟩ t' ⟨k, hk, rfl⟩
    cases l with
    | start m args =>
      rw [LimitLoc.tree, rateLimitT] at hk
      split at hk
      · injection hk with h1 h2
        subst h1
        cases h2
        cases r with
        | other => exact ⟨.inside m args, rfl, .token m args _⟩
        | done => exact ⟨.rejecting m args, Tree.vis_congr (fun x => by cases x <;> rfl), .done m args _⟩
      · injection hk with h1 h2
        subst h1
        cases h2
        exact ⟨.inside m args, rfl, .take m args⟩
    | rejecting m args =>
      rw [LimitLoc.tree] at hk
      injection hk with h1 h2
      subst h1
      cases h2
      cases r with
      | ok vs => exact ⟨.rejected _, rfl, .ctxErr m args _ _ _ _⟩
      | error v => exact ⟨.rejected _, rfl, .ctxErr m args _ _ _ _⟩
    | inside m args =>
      rw [LimitLoc.tree, callT] at hk
      injection hk with h1 h2
      subst h1
      cases h2
      cases r with
      | ok vs => exact ⟨.over _, rfl, .call m args _ _⟩
      | error v => exact ⟨.over _, rfl, .call m args _ _⟩
    | rejected o => cases hk
    | over o => cases hk

theorem limit_started {base : Val} {s0 : LimiterState} {L : List Label} {c : Conf LimiterState LimitLoc}
    (h : Exec (LimitLoc.Step base) limiterHandler limiterBackground (fun l => ∃ m args, l = .start m args) s0 L c) :
    c.threads.countP LimitLoc.started = starts L := by
  induction h with
  | start => rfl
  | call h ht ih =>
    obtain ⟨m, args, rfl⟩ := ht
    rw [List.countP_append, ih]
    rfl
  | @step L c i t t' e s' h hi ht hs ih =>
    have := countP_set' LimitLoc.started (a' := t') hi
    rw [starts_append]
    show (c.threads.set i t').countP _ = _
    cases ht <;> simp [LimitLoc.started, starts] at this ⊢ <;> omega
  | @bg L c l s' h hb ih =>
    rw [starts_append]
    cases l with
    | op i e => exact hb.elim
    | tick => exact ih
    | background => exact ih

/-- The calls of the implementation made at a location. -/
def LimitLoc.Calls : LimitLoc → List Event → Prop
  | .over _, tr => ∃ call, implCalls tr = [call]
  | _, tr => implCalls tr = []

theorem limit_calls {base : Val} {s0 : LimiterState} {L : List Label} {c : Conf LimiterState LimitLoc}
    (h : Exec (LimitLoc.Step base) limiterHandler limiterBackground (fun l => ∃ m args, l = .start m args) s0 L c) :
    ∀ (i : Nat) (l : LimitLoc), c.threads[i]? = some l → l.Calls (mine i L) := by
  refine Exec.local LimitLoc.Calls limiterBackground_op ?_ ?_ h
  · rintro t ⟨m, args, rfl⟩; rfl
  · intro t e t' tr _ _ ht hs _
    cases hs <;> simp only [LimitLoc.Calls] at ht ⊢ <;> rw [implCalls_append, ht] <;> first | rfl | exact ⟨_, rfl⟩

theorem countP_range {α : Type} (q : α → Bool) (l : List α) :
    (List.range l.length).countP (fun i => (l[i]?).any q) = l.countP q := by
  induction l with
  | nil => rfl
  | cons a l ih =>
    rw [List.length_cons, List.range_succ_eq_map, List.countP_cons, List.countP_map, List.countP_cons, ← ih]
    simp [Function.comp_def]

/-- The calls let through are the calls that have entered the implementation: those inside of it and those
that have left it, each of them once. -/
theorem C50_entered (G : GoTypes) (base : Val) (s0 : LimiterState) (L : List Label)
    (c : Conf LimiterState (Tree Outcome)) (h : LimitExec G base s0 L c) :
    (List.range c.threads.length).countP (fun i => (target L c i).isSome) = starts L ∧
    ∀ i, (implCalls (mine i L)).length ≤ 1 := by
  obtain ⟨ls, hls, he⟩ := limit_locs h
  have hcalls := limit_calls he
  constructor
  · rw [← limit_started he]
    show _ = ls.countP _
    rw [← countP_range LimitLoc.started, hls, List.length_map]
    apply List.countP_congr
    intro i hi
    rw [List.mem_range] at hi
    have hl : ls[i]? = some ls[i] := List.getElem?_eq_getElem hi
    have ht : c.threads[i]? = some (LimitLoc.tree G base ls[i]) := by rw [hls, List.getElem?_map, hl]; rfl
    have hc := hcalls i _ hl
    rw [hl]
    simp only [Option.any_some]
    generalize ls[i] = l at ht hc
    cases l with
    | over o =>
      obtain ⟨call, hc⟩ := hc
      simp [target, hc, LimitLoc.started]
    | inside m args =>
      have hc : implCalls (mine i L) = [] := hc
      simp [target, hc, ht, LimitLoc.tree, callT, LimitLoc.started]
    | start m args =>
      have hc : implCalls (mine i L) = [] := hc
      rw [LimitLoc.tree, rateLimitT] at ht
      split at ht <;> simp [target, hc, ht, LimitLoc.started]
    | rejecting m args =>
      have hc : implCalls (mine i L) = [] := hc
      simp [target, hc, ht, LimitLoc.tree, LimitLoc.started]
    | rejected o =>
      have hc : implCalls (mine i L) = [] := hc
      simp [target, hc, ht, LimitLoc.tree, LimitLoc.started]
  · intro i
    by_cases hi : i < ls.length
    · have hc := hcalls i _ (List.getElem?_eq_getElem hi)
      have hc : (ls[i]).Calls (mine i L) := hc
      generalize ls[i] = l at hc
      cases l with
      | over o => obtain ⟨call, hc⟩ := hc; rw [hc]; exact Nat.le_refl _
      | _ => rw [show implCalls (mine i L) = [] from hc]; exact Nat.zero_le _
    · rw [mine_eq_nil fun e he' => absurd (he.thread_lt limiterBackground_op _ e he') hi]
      exact Nat.zero_le _

/-- The full claim of C50. -/
def C50_full : Prop := ∀ (G : GoTypes) (base : Val) (burst : Int) (s0 : LimiterState) (L : List Label)
  (c : Conf LimiterState (Tree Outcome)), LimiterState.new burst = some s0 → LimitExec G base s0 L c →
  (starts L : Int) ≤ burst + ticks L ∧
  ∀ L1 L2, L = L1 ++ L2 → (starts L2 : Int) ≤ burst + ticks L2

/-- **C50** (partial) From its creation on a rate limiter has let through at most `burst` calls and one for
each tick.  What is missing: within a window it is two more, because one tick may be waiting in the channel
of the ticker and one in the goroutine that passes the ticks on (see `C50_full_false`). -/
theorem C50_bound_partial (G : GoTypes) (base : Val) (burst : Int) (s0 : LimiterState) (L : List Label)
    (c : Conf LimiterState (Tree Outcome)) (hnew : LimiterState.new burst = some s0) (h : LimitExec G base s0 L c) :
    (starts L : Int) ≤ burst + ticks L ∧
    ∀ L1 L2, L = L1 ++ L2 → (starts L2 : Int) ≤ burst + 2 + ticks L2 := by
  rw [LimiterState.new] at hnew
  split at hnew
  · cases hnew
  · rename_i hb
    cases hnew
    constructor
    · have := limiter_total h
      simp only [available, Bool.toNat_false] at this
      omega
    · intro L1 L2 hL
      have := limiter_window (Nat.le_refl _) h L1 L2 hL
      simp only [] at this
      omega

/-- A limiter with a negative burst cannot be made. -/
theorem C50_negative (burst : Int) (h : burst < 0) : LimiterState.new burst = none := if_pos h

/-- Three calls are waiting at a limiter with the burst one while two ticks arrive; then all three are let
through without another tick. -/
theorem limit_three : ∃ c, LimitExec demoTypes .nil ⟨1, 1, false, false⟩
    ([.tick, .background, .tick] ++ [.op 0 ⟨.doneOrToken .nil, .other⟩, .op 1 ⟨.doneOrToken .nil, .other⟩,
      .background, .op 2 ⟨.doneOrToken .nil, .other⟩]) c := by
  have hc : Callable find (g!"_d", .nil) [] [.nil, .nil] := find_callable _ _ _ (by decide)
  have hcall : LimitCall demoTypes .nil (rateLimitT demoTypes .nil find [.nil, .nil]) :=
    ⟨find, _, _, hc, (rateLimit_call demoTypes .nil hc.ok hc.declared).symm⟩
  have hs : (rateLimitT demoTypes .nil find [.nil, .nil]).Step ⟨.doneOrToken .nil, .other⟩ (callT .nil find [.nil, .nil]) := by
    have : rateLimitT demoTypes .nil find [.nil, .nil] = .vis (.doneOrToken .nil) fun
        | .done => (LimitLoc.rejecting find [.nil, .nil]).tree demoTypes .nil
        | .other => callT .nil find [.nil, .nil] := by
      rw [rateLimitT, if_pos (by rfl)]
      refine Tree.vis_congr fun x => ?_
      cases x with
      | other => rfl
      | done => exact Tree.vis_congr fun x => by cases x <;> rfl
    exact ⟨_, this, rfl⟩
  have e1 : LimitExec demoTypes .nil ⟨1, 1, false, false⟩ [] _ := Exec.call (Exec.call (Exec.call .start hcall) hcall) hcall
  have e2 := Exec.bg (l := .tick) (s' := ⟨1, 1, true, false⟩) e1 (by rfl)
  have e3 := Exec.bg (l := .background) (s' := ⟨1, 1, false, true⟩) e2 (Or.inl ⟨rfl, rfl, rfl⟩)
  have e4 := Exec.bg (l := .tick) (s' := ⟨1, 1, true, true⟩) e3 (by rfl)
  have e5 := Exec.step (i := 0) (s' := ⟨1, 0, true, true⟩) e4 rfl hs (Or.inl ⟨by decide, rfl⟩)
  have e6 := Exec.step (i := 1) (s' := ⟨1, 0, true, false⟩) e5 rfl hs (Or.inr ⟨rfl, rfl, rfl⟩)
  have e7 := Exec.bg (l := .background) (s' := ⟨1, 0, false, true⟩) e6 (Or.inl ⟨rfl, rfl, rfl⟩)
  have e8 := Exec.step (i := 2) (s' := ⟨1, 0, false, false⟩) e7 rfl hs (Or.inr ⟨rfl, rfl, rfl⟩)
  exact ⟨_, e8⟩

/-- C50 does not hold for windows. -/
theorem C50_full_false : ¬ C50_full := by
  intro h
  obtain ⟨c, he⟩ := limit_three
  have := (h demoTypes .nil 1 ⟨1, 1, false, false⟩ _ c rfl he).2 _ _ rfl
  simp [starts, ticks] at this

/-- The bound of the window is reached. -/
example : ∃ c L1 L2, LimitExec demoTypes .nil ⟨1, 1, false, false⟩ (L1 ++ L2) c ∧ starts L2 = 1 + 2 + ticks L2 := by
  obtain ⟨c, he⟩ := limit_three
  exact ⟨c, _, _, he, rfl⟩

end Gowrap.Props

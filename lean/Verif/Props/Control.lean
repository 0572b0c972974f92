import Verif.Props.Validate
import Verif.Proofs.ControlTrees
import Verif.Spec.Control
/-!
# C47, C51, C59: retry, rate limiting, and passing calls through
-/

namespace Gowrap.Props

open Gowrap Spec Tmpl

theorem failed_iff {m : Method} (hret : m.returnsError = true) {vs : List Val} (hv : vs ≠ []) :
    Failed m (.ok vs) ↔ (vs.getLast?.getD .nil).isNil = false := by
  constructor
  · rintro ⟨_, ws, e, h1, h2, h3⟩
    cases h1
    simpa [h2] using h3
  · intro h
    refine ⟨hret, vs, vs.getLast hv, rfl, List.getLast?_eq_some_getLast hv, ?_⟩
    rwa [List.getLast?_eq_some_getLast hv] at h

theorem not_failed_panic {m : Method} (v : Val) : ¬ Failed m (.error v) := by
  rintro ⟨_, _, _, h, _⟩; cases h

theorem results_ne_nil {m : Method} (hok : MethodOk m) (hret : m.returnsError = true) {vs : List Val}
    (h : vs.length = m.results.length) : vs ≠ [] := by
  obtain ⟨init, last, hr, _⟩ := hok.err hret
  rintro rfl
  rw [hr] at h
  simp at h

/-! ## C47 -/

/-- The full claim of C47. -/
def C47_full : Prop := ∀ (G : GoTypes) (d : Retry) (m : Method) (recv : Str × Val) (args : List Val)
  (tr : List Event) (o : Outcome), Callable m recv [g!"time", g!"_ticker", g!"_i"] args → m.returnsError = true →
  (d.decorator.call G m recv args).Run tr o → TickerLaw tr →
  Retries m (fun res => ⟨d.base, m.name, args, res⟩) (contextOf m args) d.retryCount.toNat (retrySteps tr) o

/-- C47 does not hold: with an interval of zero the decorator panics after the first failed attempt. -/
theorem C47_full_false : ¬ C47_full := by
  intro h
  have := h demoTypes ⟨g!"Finder", .obj 0, 1, 0⟩ find (g!"_d", .nil) [.obj 1, .int 5]
    [⟨.impl (.obj 0) g!"Find" [.obj 1, .int 5] 2, Except.ok ⟨[.str [], .obj 9], rfl⟩⟩,
      ⟨.newTicker 0, Except.error (.str g!"non-positive interval for NewTicker")⟩]
    (.panic (.str g!"non-positive interval for NewTicker")) (find_callable _ _ _ (by decide)) rfl
    ⟨_, _, rfl, _, _, rfl, rfl, rfl⟩ (by
      intro i r hm
      simp only [List.mem_cons, List.not_mem_nil, or_false] at hm
      rcases hm with hm | hm
      · cases hm
      · cases hm; exact ⟨fun _ => by decide, fun _ => ⟨_, rfl⟩⟩)
  generalize hs : retrySteps _ = steps at this
  generalize ho : Outcome.panic _ = o at this
  cases this with
  | last n res h =>
    cases res with
    | ok vs => cases ho
    | error v => simp [retrySteps, plain] at hs
  | cancelled n res c h hc => simp [retrySteps] at hs
  | again n res steps o h rest => simp [retrySteps] at hs

theorem retry_loop_runs (d : Retry) {m : Method} (hok : MethodOk m) (hret : m.returnsError = true)
    {args : List Val} (hargs : args.length = m.params.length) : ∀ (n : Nat) (vs : List Val) (tr : List Event)
    (o : Outcome), vs.length = m.results.length → (d.loopT m args n vs).Run tr o →
    Retries m (fun res => ⟨d.base, m.name, args, res⟩) (contextOf m args) n
      (.attempt ⟨d.base, m.name, args, .ok vs⟩ :: retrySteps tr) o ∧ ∃ tr', tr = tr' ++ [⟨.stopTicker, ()⟩] := by
  intro n
  induction n with
  | zero =>
    rintro vs tr o hv ⟨_, _, rfl, rfl, rfl⟩
    exact ⟨.last 0 (.ok vs) (Or.inr rfl), [], rfl⟩
  | succ n ih =>
    intro vs tr o hv hr
    have hstop : ∀ {o' : Outcome} {tr}, (Retry.stopT o').Run tr o → o = o' ∧ tr = [⟨.stopTicker, ()⟩] := by
      rintro o' _ ⟨_, _, rfl, rfl, rfl⟩
      exact ⟨rfl, rfl⟩
    rw [Retry.loopT] at hr
    have hne := results_ne_nil hok hret hv
    by_cases hn : (vs.getLast?.getD .nil).isNil = true
    · rw [if_pos hn] at hr
      obtain ⟨rfl, rfl⟩ := hstop hr
      exact ⟨.last _ (.ok vs) (Or.inl fun hf => by rw [(failed_iff hret hne).1 hf] at hn; cases hn), [], rfl⟩
    · rw [if_neg hn] at hr
      have hfail : Failed m (.ok vs) := (failed_iff hret hne).2 (by simpa using hn)
      have hagain : ∀ {tr}, (Tree.vis (.impl d.base m.name args m.results.length) fun x => match x with
          | .ok ws => d.loopT m args n ws.1
          | .error v => Retry.stopT (.panic v)).Run tr o →
          Retries m (fun res => ⟨d.base, m.name, args, res⟩) (contextOf m args) n (retrySteps tr) o ∧
            ∃ tr', tr = tr' ++ [⟨.stopTicker, ()⟩] := by
        rintro tr ⟨x, tr', rfl, hr⟩
        cases x with
        | ok ws =>
          obtain ⟨h1, tr2, rfl⟩ := ih ws.1 tr' o ws.2 hr
          exact ⟨h1, _ :: tr2, rfl⟩
        | error v =>
          obtain ⟨rfl, rfl⟩ := hstop hr
          exact ⟨.last n (.error v) (Or.inl (not_failed_panic v)), [_], rfl⟩
      by_cases hc : m.acceptsContext = true
      · rw [if_pos hc] at hr
        obtain ⟨x, tr', rfl, hr⟩ := hr
        cases x with
        | done =>
          obtain ⟨rfl, rfl⟩ := hstop hr
          refine ⟨.cancelled n (.ok vs) _ hfail ?_, [_], rfl⟩
          obtain ⟨f, rest, hp, _⟩ := hok.ctx hc
          rw [contextOf, if_pos hc]
          cases args with
          | nil => rw [hp] at hargs; simp at hargs
          | cons c as => rfl
        | other =>
          obtain ⟨h1, tr2, rfl⟩ := hagain hr
          exact ⟨.again n (.ok vs) _ o hfail h1, _ :: tr2, rfl⟩
      · rw [if_neg hc] at hr
        obtain ⟨x, tr', rfl, hr⟩ := hr
        obtain ⟨h1, tr2, rfl⟩ := hagain hr
        exact ⟨.again n (.ok vs) _ o hfail h1, _ :: tr2, rfl⟩

/-- **C47** (partial) With a positive interval a call makes one attempt and then, while attempts fail, waits
for a tick and tries again, at most `retryCount` times; it stops when it sees that the context is done.
The outcome is that of the last attempt; a ticker is stopped at the end.  What is missing: with an
interval that is not positive `time.NewTicker` panics, see `C47_full_false`. -/
theorem C47_retry_partial (G : GoTypes) (d : Retry) (m : Method) (recv : Str × Val) (args : List Val)
    (tr : List Event) (o : Outcome) (h : Callable m recv [g!"time", g!"_ticker", g!"_i"] args)
    (hret : m.returnsError = true) (hpos : d.retryInterval > 0)
    (hr : (d.decorator.call G m recv args).Run tr o) (hl : TickerLaw tr) :
    Retries m (fun res => ⟨d.base, m.name, args, res⟩) (contextOf m args) d.retryCount.toNat (retrySteps tr) o ∧
    ∀ i r, (⟨.newTicker i, r⟩ : Event) ∈ tr → i = d.retryInterval ∧ ∃ tr', tr = tr' ++ [⟨.stopTicker, ()⟩] := by
  rw [retry_call G d h hret] at hr
  obtain ⟨x, tr, rfl, hr⟩ := hr
  cases x with
  | error v =>
    obtain ⟨rfl, rfl⟩ := hr
    refine ⟨.last _ (.error v) (Or.inl (not_failed_panic v)), ?_⟩
    intro i r hm
    simp at hm
  | ok vs =>
    have hne := results_ne_nil h.ok hret vs.2
    change (if (vs.1.getLast?.getD .nil).isNil || d.retryCount < 1 then Tree.ret (.ret vs.1) else _ :
      Tree Outcome).Run tr o at hr
    split at hr
    · rename_i hc
      obtain ⟨rfl, rfl⟩ := hr
      refine ⟨.last _ (.ok vs.1) ?_, ?_⟩
      · simp only [Bool.or_eq_true, decide_eq_true_eq] at hc
        rcases hc with hc | hc
        · exact Or.inl fun hf => by rw [(failed_iff hret hne).1 hf] at hc; cases hc
        · exact Or.inr (by omega)
      · intro i r hm
        simp at hm
    · obtain ⟨x, tr, rfl, hr⟩ := hr
      cases x with
      | error v =>
        have := (hl d.retryInterval (.error v) (by simp)).1 ⟨v, rfl⟩
        omega
      | ok u =>
        obtain ⟨h1, tr', rfl⟩ := retry_loop_runs d h.ok hret h.declared.2.2 _ _ _ _ vs.2 hr
        refine ⟨h1, ?_⟩
        have hno : ∀ (n : Nat) (vs : List Val) (tr : List Event) (o : Outcome),
            (d.loopT m args n vs).Run tr o → ∀ i r, (⟨.newTicker i, r⟩ : Event) ∉ tr := by
          intro n
          induction n with
          | zero => rintro vs tr o ⟨_, _, rfl, rfl, rfl⟩ i r hm; simp at hm
          | succ n ih =>
            intro vs tr o hr i r hm
            have hstop : ∀ {o' : Outcome} {tr}, (Retry.stopT o').Run tr o → tr = [⟨.stopTicker, ()⟩] := by
              rintro o' _ ⟨_, _, rfl, rfl, rfl⟩
              rfl
            have hagain : ∀ {tr}, (Tree.vis (.impl d.base m.name args m.results.length) fun x => match x with
                | .ok ws => d.loopT m args n ws.1
                | .error v => Retry.stopT (.panic v)).Run tr o → (⟨.newTicker i, r⟩ : Event) ∉ tr := by
              rintro tr ⟨x, tr', rfl, hr⟩ hm
              cases x with
              | ok ws => 
                rcases List.mem_cons.1 hm with hm | hm
                · cases hm
                · exact ih _ _ _ hr i r hm
              | error v => rw [hstop hr] at hm; simp at hm
            rw [Retry.loopT] at hr
            split at hr
            · rw [hstop hr] at hm; simp at hm
            · split at hr
              · obtain ⟨x, tr', rfl, hr⟩ := hr
                cases x with
                | done => rw [hstop hr] at hm; simp at hm
                | other =>
                  rcases List.mem_cons.1 hm with hm | hm
                  · cases hm
                  · exact hagain hr hm
              · obtain ⟨x, tr', rfl, hr⟩ := hr
                rcases List.mem_cons.1 hm with hm | hm
                · cases hm
                · exact hagain hr hm
        intro i r hm
        refine ⟨?_, ⟨_ :: _ :: tr', rfl⟩⟩
        rcases List.mem_cons.1 hm with hm | hm
        · cases hm
        · rcases List.mem_cons.1 hm with hm | hm
          · cases hm; rfl
          · exact absurd hm (hno _ _ _ _ hr i r)

/-- The attempts in a list of steps. -/
def attempts : List RetryStep → List ImplCall
  | [] => []
  | .attempt c :: s => c :: attempts s
  | _ :: s => attempts s

/-- **C47** In numbers: at most `1 + n` attempts, all of them but the last failed, none after the context
was seen to be done, and the outcome is that of the last one. -/
theorem C47_bounds {m : Method} {call : Except Val (List Val) → ImplCall} {ctx : Option Val} {n : Nat}
    {steps : List RetryStep} {o : Outcome} (h : Retries m call ctx n steps o) :
    ∃ (init : List (Except Val (List Val))) (res : Except Val (List Val)), attempts steps = init.map call ++ [call res] ∧ init.length ≤ n ∧ (∀ r ∈ init, Failed m r) ∧
      o = passedOn res ∧ ∀ c s1 s2, steps = s1 ++ .done c :: s2 → attempts s2 = [] := by
  induction h with
  | last n res h =>
    refine ⟨[], res, rfl, Nat.zero_le _, by simp, rfl, ?_⟩
    intro c s1 s2 h
    cases s1 with
    | nil => cases h
    | cons x s1 => cases s1 <;> simp at h
  | cancelled n res c h hc =>
    refine ⟨[], res, rfl, Nat.zero_le _, by simp, rfl, ?_⟩
    intro c s1 s2 h
    cases s1 with
    | nil => cases h
    | cons x s1 =>
      cases s1 with
      | nil => simp at h; rw [h.2.2]; rfl
      | cons y s1 => simp at h
  | again n res steps o h _ ih =>
    obtain ⟨init, res', h1, h2, h3, h4, h5⟩ := ih
    refine ⟨res :: init, res', by simp [attempts, h1], by simpa using h2, ?_, h4, ?_⟩
    · intro r hr
      rcases List.mem_cons.1 hr with rfl | hr
      · exact h
      · exact h3 r hr
    · intro c s1 s2 h
      cases s1 with
      | nil => cases h
      | cons x s1 =>
        cases s1 with
        | nil => simp at h
        | cons y s1 =>
          simp at h
          exact h5 c s1 s2 h.2.2

/-- `Find` fails, is tried again after a tick, and succeeds. -/
example : Retries find (fun res => ⟨.obj 0, g!"Find", [.obj 1, .int 5], res⟩) (some (.obj 1)) 3
    [.attempt ⟨.obj 0, g!"Find", [.obj 1, .int 5], .ok [.str [], .obj 9]⟩, .tick,
      .attempt ⟨.obj 0, g!"Find", [.obj 1, .int 5], .ok [.str g!"x", .nil]⟩] (.ret [.str g!"x", .nil]) :=
  (C47_retry_partial demoTypes ⟨g!"Finder", .obj 0, 3, 10⟩ find (g!"_d", .nil) [.obj 1, .int 5]
    [⟨.impl (.obj 0) g!"Find" [.obj 1, .int 5] 2, Except.ok ⟨[.str [], .obj 9], rfl⟩⟩,
      ⟨.newTicker 10, Except.ok ()⟩, ⟨.doneOrTick (.obj 1), Choice.other⟩,
      ⟨.impl (.obj 0) g!"Find" [.obj 1, .int 5] 2, Except.ok ⟨[.str g!"x", .nil], rfl⟩⟩,
      ⟨.stopTicker, ()⟩] (.ret [.str g!"x", .nil]) (find_callable _ _ _ (by decide)) rfl (by show (10 : Int) > 0; decide)
    ⟨_, _, rfl, _, _, rfl, _, _, rfl, _, _, rfl, _, _, rfl, rfl, rfl⟩ (by
      intro i r hm
      simp only [List.mem_cons, List.not_mem_nil, or_false] at hm
      rcases hm with hm | hm | hm | hm | hm <;> cases hm
      exact ⟨fun ⟨v, hv⟩ => (by cases hv), fun h => (by omega)⟩)).1

/-! ## C51 -/

/-- **C51** A method with a context and an error result either takes one token and then calls the
implementation once, with the arguments, and passes on what it returned, or it saw that the context was
done and returns the error of the context; then it neither takes a token nor calls the implementation. -/
theorem C51_limited (G : GoTypes) (base : Val) (m : Method) (recv : Str × Val) (args : List Val)
    (tr : List Event) (o : Outcome) (hok : MethodOk m) (hd : m.WellDeclared recv args)
    (hc : m.acceptsContext = true) (hret : m.returnsError = true)
    (hr : ((rateLimitDecorator base).call G m recv args).Run tr o) (hl : LibsReturn tr) :
    (∃ res, limitSteps tr = [.token, .call (.impl ⟨base, m.name, args, res⟩)] ∧ o = passedOn res) ∨
    ∃ ctx rest e, args = ctx :: rest ∧
      limitSteps tr = [.done ctx, .call (.lib ⟨g!"ctx.Err", [ctx], .ok [e]⟩)] ∧
      o = .ret ((m.zeros G).dropLast ++ [e]) := by
  rw [rateLimit_call G base hok hd, rateLimitT, if_pos (by simp [hc, hret])] at hr
  obtain ⟨c, a', rfl⟩ := Method.args_ctx ⟨hok, hd.2.2, m.zeros_length G⟩ hc
  obtain ⟨x, tr, rfl, hr⟩ := hr
  cases x with
  | other =>
    obtain ⟨x, tr, rfl, hr⟩ := hr
    cases x with
    | ok vs =>
      obtain ⟨rfl, rfl⟩ := hr
      exact Or.inl ⟨.ok vs.1, rfl, rfl⟩
    | error v =>
      obtain ⟨rfl, rfl⟩ := hr
      exact Or.inl ⟨.error v, rfl, rfl⟩
  | done =>
    obtain ⟨x, tr, rfl, hr⟩ := hr
    cases x with
    | ok vs =>
      obtain ⟨rfl, rfl⟩ := hr
      obtain ⟨vs, hv⟩ := vs
      cases vs with
      | nil => cases hv
      | cons e es =>
        cases es with
        | nil => exact Or.inr ⟨c, a', e, rfl, rfl, rfl⟩
        | cons _ _ => simp at hv
    | error v =>
      have := hl ⟨g!"ctx.Err", [c], .error v⟩ (by simp [libCalls, plain])
      obtain ⟨_, h⟩ := this
      cases h

/-- **C51** The other methods take one token and then call the implementation. -/
theorem C51_other (G : GoTypes) (base : Val) (m : Method) (recv : Str × Val) (args : List Val)
    (tr : List Event) (o : Outcome) (hok : MethodOk m) (hd : m.WellDeclared recv args)
    (hc : (m.acceptsContext && m.returnsError) = false)
    (hr : ((rateLimitDecorator base).call G m recv args).Run tr o) :
    ∃ res, limitSteps tr = [.token, .call (.impl ⟨base, m.name, args, res⟩)] ∧ o = passedOn res := by
  rw [rateLimit_call G base hok hd, rateLimitT, if_neg (by simp [hc])] at hr
  obtain ⟨x, tr, rfl, x, tr, rfl, hr⟩ := hr
  cases x with
  | ok vs =>
    obtain ⟨rfl, rfl⟩ := hr
    exact ⟨.ok vs.1, rfl, rfl⟩
  | error v =>
    obtain ⟨rfl, rfl⟩ := hr
    exact ⟨.error v, rfl, rfl⟩

/-- A cancelled call of `Find`. -/
example : ∃ ctx rest e, ([.obj 1, .int 5] : List Val) = ctx :: rest ∧
    limitSteps [⟨.doneOrToken (.obj 1), Choice.done⟩, ⟨.lib g!"ctx.Err" [.obj 1] 1, Except.ok ⟨[.obj 9], rfl⟩⟩] =
      [.done ctx, .call (.lib ⟨g!"ctx.Err", [ctx], .ok [e]⟩)] ∧
    Outcome.ret [.str [], .obj 9] = .ret ((find.zeros demoTypes).dropLast ++ [e]) :=
  (C51_limited demoTypes (.obj 0) find (g!"_d", .nil) [.obj 1, .int 5]
    [⟨.doneOrToken (.obj 1), Choice.done⟩, ⟨.lib g!"ctx.Err" [.obj 1] 1, Except.ok ⟨[.obj 9], rfl⟩⟩]
    (.ret [.str [], .obj 9]) (find_callable [] .nil .nil (by simp)).ok (by decide) rfl rfl
    ⟨_, _, rfl, _, _, rfl, rfl, rfl⟩ (by simp [LibsReturn, libCalls, plain])).resolve_left (by
      rintro ⟨res, h, _⟩
      simp [limitSteps] at h)

/-! ## C59 -/

/-- The decorators that control calls. -/
inductive Controller where
  | breaker (d : Breaker)
  | retry (d : Retry)
  | rateLimit (base : Val)
  | robinPool (pool : List Val)
  | syncPool

/-- The decorator. -/
def Controller.decorator : Controller → Decorator
  | .breaker d => d.decorator
  | .retry d => d.decorator
  | .rateLimit base => rateLimitDecorator base
  | .robinPool pool => robinPoolDecorator pool
  | .syncPool => syncPoolDecorator

/-- The identifiers which the methods of the template use. -/
def Controller.idents : Controller → List Str
  | .breaker _ => [g!"time", g!"errors"]
  | .retry _ => [g!"time", g!"_ticker", g!"_i"]
  | .rateLimit _ => []
  | .robinPool _ => [g!"atomic", g!"_counter"]
  | .syncPool => [g!"_impl"]

/-- The implementations that may be called in a run. -/
def Controller.Impl (tr : List Event) : Controller → Val → Prop
  | .breaker d => (· = d.base)
  | .retry d => (· = d.base)
  | .rateLimit base => (· = base)
  | .robinPool pool => (· ∈ pool)
  | .syncPool => fun v => ⟨.takeImpl, v⟩ ∈ tr

/-- A library that the decorator uses panics: `time.NewTicker` for retries. -/
def Controller.Panics : Controller → Prop
  | .retry d => d.retryInterval ≤ 0
  | _ => False

/-- The full claim of C59. -/
def C59_full : Prop := ∀ (G : GoTypes) (c : Controller) (m : Method) (recv : Str × Val) (args : List Val)
  (tr : List Event) (o : Outcome), MethodOk m → m.WellDeclared recv args → ¬ c.Panics →
  (c.decorator.call G m recv args).Run tr o → TickerLaw tr → ErrorsIsReturns tr →
  PassesThrough (c.Impl tr) m args tr o

/-- `Set(_i int) error`. -/
def setI : Method :=
  ⟨[], [], g!"Set", [⟨[], [], g!"_i", g!"int", false⟩], [⟨[], [], g!"err", g!"error", false⟩], true, false⟩

/-- C59 does not hold: with a parameter called `_i` the retries pass the loop counter instead. -/
theorem C59_full_false : ¬ C59_full := by
  intro h
  have := h demoTypes (.retry ⟨g!"I", .obj 0, 1, 10⟩) setI (g!"_d", .nil) [.int 5]
    [⟨.impl (.obj 0) g!"Set" [.int 5] 1, Except.ok ⟨[.obj 9], rfl⟩⟩, ⟨.newTicker 10, Except.ok ()⟩, ⟨.tick, ()⟩,
      ⟨.impl (.obj 0) g!"Set" [.int 0] 1, Except.ok ⟨[.nil], rfl⟩⟩, ⟨.stopTicker, ()⟩] (.ret [.nil])
    ⟨by decide, fun _ => ⟨[], _, rfl, rfl, rfl⟩, fun h => by cases h⟩ (by decide)
    (by simp [Controller.Panics])
    ⟨_, _, rfl, _, _, rfl, _, _, rfl, _, _, rfl, _, _, rfl, rfl, rfl⟩ (by
      intro i r hm
      simp only [List.mem_cons, List.not_mem_nil, or_false] at hm
      rcases hm with hm | hm | hm | hm | hm <;> cases hm
      exact ⟨fun ⟨v, hv⟩ => (by cases hv), fun h => (by omega)⟩) (by
      intro e t r hm
      simp only [List.mem_cons, List.not_mem_nil, or_false] at hm
      rcases hm with hm | hm | hm | hm | hm <;> cases hm)
  have := (this.1 ⟨.obj 0, g!"Set", [.int 0], .ok [.nil]⟩ (by simp [implCalls, plain])).2.2
  simp at this

theorem passesThrough_transparent {P : Val → Prop} {impl : Val} {m : Method} {args : List Val} {tr : List Event}
    {o : Outcome} (h : Transparent impl m args tr o) (hp : P impl) : PassesThrough P m args tr o := by
  obtain ⟨res, h1, h2⟩ := h
  constructor
  · intro c hc
    rw [h1] at hc
    simp at hc
    subst hc
    exact ⟨hp, rfl, rfl⟩
  · intro c hc
    rw [h1] at hc
    cases hc
    exact h2

theorem passesThrough_none {P : Val → Prop} {m : Method} {args : List Val} {tr : List Event}
    {o : Outcome} (h : implCalls tr = []) : PassesThrough P m args tr o := by
  constructor
  · intro c hc; rw [h] at hc; cases hc
  · intro c hc; rw [h] at hc; cases hc

theorem attempts_retrySteps (tr : List Event) : attempts (retrySteps tr) = implCalls tr := by
  induction tr with
  | nil => rfl
  | cons e tr ih =>
    obtain ⟨op, r⟩ := e
    cases op with
    | impl i f args n => simp [retrySteps, attempts, implCalls, ih]
    | doneOrTick c => cases r <;> simp [retrySteps, attempts, implCalls, ih]
    | _ => simp [retrySteps, attempts, implCalls, ih]

theorem promoted_transparent (G : GoTypes) (d : Decorator) {m : Method} {recv : Str × Val} {args : List Val}
    (hb : d.body m = none) (he : d.embeds = true) {tr : List Event} {o : Outcome}
    (hr : (d.call G m recv args).Run tr o) : Transparent d.base m args tr o := by
  simp only [Decorator.call, hb, he, if_true] at hr
  obtain ⟨x, tr, rfl, hr⟩ := hr
  cases x with
  | ok vs => obtain ⟨rfl, rfl⟩ := hr; exact ⟨.ok vs.1, rfl, rfl⟩
  | error v => obtain ⟨rfl, rfl⟩ := hr; exact ⟨.error v, rfl, rfl⟩

theorem callT_transparent {impl : Val} {m : Method} {args : List Val} {tr : List Event} {o : Outcome}
    (hr : (callT impl m args).Run tr o) : Transparent impl m args tr o := by
  obtain ⟨x, tr, rfl, hr⟩ := hr
  cases x with
  | ok vs => obtain ⟨rfl, rfl⟩ := hr; exact ⟨.ok vs.1, rfl, rfl⟩
  | error v => obtain ⟨rfl, rfl⟩ := hr; exact ⟨.error v, rfl, rfl⟩

/-- After the call the circuit breaker does not call again, and returns what was returned. -/
theorem breaker_after (d : Breaker) {vs : List Val} {tr : List Event} {o : Outcome}
    (hr : (d.afterT vs).Run tr o) (he : ErrorsIsReturns tr) : implCalls tr = [] ∧ o = .ret vs := by
  obtain ⟨_, tr, rfl, hr⟩ := hr
  have he : ErrorsIsReturns tr := fun e t r hm => he e t r (List.mem_cons_of_mem _ hm)
  show implCalls tr = [] ∧ _
  have hunlock : ∀ {o' : Outcome} {tr}, (Breaker.unlockT o').Run tr o → implCalls tr = [] ∧ o = o' := by
    rintro o' _ ⟨_, _, rfl, rfl, rfl⟩
    exact ⟨rfl, rfl⟩
  have hreset : ∀ {o' : Outcome} {tr}, (Breaker.resetT o').Run tr o → implCalls tr = [] ∧ o = o' := by
    rintro o' _ ⟨_, _, rfl, _, _, rfl, hr⟩
    have := hunlock hr
    exact this
  have hcount : ∀ {o' : Outcome} {tr}, (d.countT o').Run tr o → implCalls tr = [] ∧ o = o' := by
    rintro o' _ ⟨_, _, rfl, _, _, rfl, n, tr, rfl, hr⟩
    change (if (n : Int) ≥ d.maxErrors then _ else _ : Tree Outcome).Run tr o at hr
    show implCalls tr = [] ∧ _
    split at hr
    · obtain ⟨_, _, rfl, _, _, rfl, hr⟩ := hr
      have := hunlock hr
      exact this
    · exact hunlock hr
  have hign : ∀ (es : List Val) {e : Val} {tr : List Event}, (d.ignoredT e (.ret vs) es).Run tr o →
      ErrorsIsReturns tr → implCalls tr = [] ∧ o = .ret vs := by
    intro es
    induction es with
    | nil => intro e tr hr _; exact hcount hr
    | cons e' es ih =>
      rintro e tr ⟨x, tr, rfl, hr⟩ he
      show implCalls tr = [] ∧ _
      cases x with
      | error v =>
        obtain ⟨b, hb⟩ := he _ _ _ (List.mem_cons_self ..)
        cases hb
      | ok b =>
        cases b with
        | true => exact hreset hr
        | false => exact ih hr fun e t r hm => he e t r (List.mem_cons_of_mem _ hm)
  change (if (vs.getLast?.getD .nil).isNil then _ else _ : Tree Outcome).Run tr o at hr
  split at hr
  · exact hreset hr
  · exact hign _ hr he

theorem breaker_attempt_runs (d : Breaker) {m : Method} {args : List Val} {tr : List Event} {o : Outcome}
    (hr : (d.attemptT m args).Run tr o) (he : ErrorsIsReturns tr) : Transparent d.base m args tr o := by
  obtain ⟨x, tr, rfl, hr⟩ := hr
  cases x with
  | error v => obtain ⟨rfl, rfl⟩ := hr; exact ⟨.error v, rfl, rfl⟩
  | ok vs =>
    obtain ⟨h1, h2⟩ := breaker_after d hr fun e t r hm => he e t r (List.mem_cons_of_mem _ hm)
    exact ⟨.ok vs.1, congrArg (List.cons _) h1, h2⟩

/-- A call through the circuit breaker is rejected or passed on. -/
theorem breaker_runs (G : GoTypes) (d : Breaker) {m : Method} {args : List Val} {tr : List Event} {o : Outcome}
    (hr : (d.bodyT G m args).Run tr o) (he : ErrorsIsReturns tr) :
    implCalls tr = [] ∨ Transparent d.base m args tr o := by
  have ht : ∀ {tr}, (d.attemptT m args).Run tr o → ErrorsIsReturns tr → Transparent d.base m args tr o :=
    breaker_attempt_runs d
  obtain ⟨_, _, rfl, c, tr, rfl, hr⟩ := hr
  have he : ErrorsIsReturns tr := fun e t r hm => he e t r (List.mem_cons_of_mem _ (List.mem_cons_of_mem _ hm))
  show implCalls tr = [] ∨ Transparent d.base m args tr o
  change (if (c : Option Int).isNone then _ else _ : Tree Outcome).Run tr o at hr
  split at hr
  · obtain ⟨_, tr, rfl, hr⟩ := hr
    have := ht hr fun e t r hm => he e t r (List.mem_cons_of_mem _ hm)
    exact Or.inr this
  · obtain ⟨c, tr, rfl, hr⟩ := hr
    cases c with
    | none => obtain ⟨rfl, rfl⟩ := hr; exact Or.inl rfl
    | some t =>
      obtain ⟨now, tr, rfl, hr⟩ := hr
      change (if t > now then _ else _ : Tree Outcome).Run tr o at hr
      split at hr
      · obtain ⟨_, _, rfl, x, tr, rfl, hr⟩ := hr
        cases x with
        | ok vs => obtain ⟨rfl, rfl⟩ := hr; exact Or.inl rfl
        | error v => obtain ⟨rfl, rfl⟩ := hr; exact Or.inl rfl
      · obtain ⟨_, tr, rfl, hr⟩ := hr
        have := ht hr fun e t r hm => he e t r
          (List.mem_cons_of_mem _ (List.mem_cons_of_mem _ (List.mem_cons_of_mem _ hm)))
        exact Or.inr this

/-- **C59** (partial) All control decorators pass the arguments to the implementation in order and return
what the last call returned.  What is missing: methods with parameters or results whose names the
template uses itself (`Controller.idents`), see `C59_full_false`; panics of `errors.Is` and
`time.NewTicker`. -/
theorem C59_pass_through_partial (G : GoTypes) (c : Controller) (m : Method) (recv : Str × Val) (args : List Val)
    (tr : List Event) (o : Outcome) (h : Callable m recv c.idents args) (hp : ¬ c.Panics)
    (hr : (c.decorator.call G m recv args).Run tr o) (hl : TickerLaw tr) (he : ErrorsIsReturns tr) :
    PassesThrough (c.Impl tr) m args tr o := by
  cases c with
  | breaker d =>
    cases hret : m.returnsError with
    | false =>
      exact passesThrough_transparent (promoted_transparent G d.decorator (by simp [Breaker.decorator, hret]) rfl hr)
        rfl
    | true =>
      change (d.decorator.call G m recv args).Run tr o at hr
      rw [breaker_call G d h hret] at hr
      rcases breaker_runs G d hr he with h1 | h1
      · exact passesThrough_none h1
      · exact passesThrough_transparent h1 rfl
  | retry d =>
    cases hret : m.returnsError with
    | false =>
      exact passesThrough_transparent (promoted_transparent G d.decorator (by simp [Retry.decorator, hret]) rfl hr)
        rfl
    | true =>
      have := (C47_retry_partial G d m recv args tr o h hret (by
        simp only [Controller.Panics] at hp; omega) hr hl).1
      obtain ⟨init, res, h1, _, _, h4, _⟩ := C47_bounds this
      rw [attempts_retrySteps] at h1
      constructor
      · intro c hc
        rw [h1] at hc
        simp only [List.mem_append, List.mem_map, List.mem_singleton] at hc
        rcases hc with ⟨r, _, rfl⟩ | rfl <;> exact ⟨rfl, rfl, rfl⟩
      · intro c hc
        rw [h1] at hc
        simp at hc
        subst hc
        exact h4
  | rateLimit base =>
    change ((rateLimitDecorator base).call G m recv args).Run tr o at hr
    rw [rateLimit_call G base h.ok h.declared, rateLimitT] at hr
    split at hr
    · obtain ⟨x, tr, rfl, hr⟩ := hr
      cases x with
      | other =>
        have := callT_transparent hr
        exact passesThrough_transparent (impl := base) this rfl
      | done =>
        obtain ⟨x, tr, rfl, hr⟩ := hr
        cases x with
        | ok vs => obtain ⟨rfl, rfl⟩ := hr; exact passesThrough_none rfl
        | error v => obtain ⟨rfl, rfl⟩ := hr; exact passesThrough_none rfl
    · obtain ⟨x, tr, rfl, hr⟩ := hr
      have := callT_transparent hr
      exact passesThrough_transparent (impl := base) this rfl
  | robinPool pool =>
    change ((robinPoolDecorator pool).call G m recv args).Run tr o at hr
    rw [robinPool_call G pool h, robinPoolT] at hr
    obtain ⟨c, tr, rfl, hr⟩ := hr
    split at hr
    · obtain ⟨rfl, rfl⟩ := hr; exact passesThrough_none rfl
    · simp only [] at hr
      split at hr
      · obtain ⟨rfl, rfl⟩ := hr; exact passesThrough_none rfl
      · rename_i impl hi
        have := callT_transparent hr
        exact passesThrough_transparent (impl := impl) this (List.mem_of_getElem? hi)
  | syncPool =>
    change (syncPoolDecorator.call G m recv args).Run tr o at hr
    rw [syncPool_call G h, syncPoolT] at hr
    obtain ⟨impl, tr, rfl, x, tr, rfl, hr⟩ := hr
    have hin : (Controller.syncPool).Impl (⟨.takeImpl, impl⟩ ::
        ⟨.impl impl m.name args m.results.length, x⟩ :: tr) impl := List.mem_cons_self ..
    refine passesThrough_transparent ?_ hin
    cases x with
    | ok vs =>
      obtain ⟨_, _, rfl, rfl, rfl⟩ := hr
      exact ⟨.ok vs.1, rfl, rfl⟩
    | error v =>
      obtain ⟨_, _, rfl, rfl, rfl⟩ := hr
      exact ⟨.error v, rfl, rfl⟩

/-- `Find` through a pool of implementations; the implementation panics and is put back. -/
example : PassesThrough (Controller.syncPool.Impl [⟨.takeImpl, Val.obj 3⟩,
      ⟨.impl (.obj 3) g!"Find" [.obj 1, .int 5] 2, Except.error (.int 7)⟩, ⟨.putImpl (.obj 3), ()⟩])
    find [.obj 1, .int 5] [⟨.takeImpl, Val.obj 3⟩,
      ⟨.impl (.obj 3) g!"Find" [.obj 1, .int 5] 2, Except.error (.int 7)⟩, ⟨.putImpl (.obj 3), ()⟩] (.panic (.int 7)) :=
  C59_pass_through_partial demoTypes .syncPool find (g!"_d", .nil) [.obj 1, .int 5] _ _
    (find_callable _ _ _ (by decide)) (by simp [Controller.Panics]) ⟨_, _, rfl, _, _, rfl, _, _, rfl, rfl, rfl⟩
    (by intro i r hm; simp at hm) (by intro e t r hm; simp at hm)

end Gowrap.Props

import Verif.Proofs.Stack
import Verif.Props.Observe
import Verif.Props.Control
/-!
# C86: decorators around decorators
-/

namespace Gowrap.Props

open Gowrap Spec Tmpl

/-! ## The operations of the templates are calls of the method -/

theorem only_ifErr {m : Method} {t e : Stm} (ht : t.Only (Op.OfMethod m)) (he : e.Only (Op.OfMethod m)) :
    (ifErr m t e).Only (Op.OfMethod m) := by
  unfold ifErr
  split
  · exact Stm.only_get fun v => Stm.only_ite he ht
  · exact he

theorem only_tracing {m : Method} (d : Tracing) {onError fin : Val → Stm} {ctx span : Val} (h1 : ∀ v, (onError v).Only (Op.OfMethod m))
    (h2 : ∀ v, (fin v).Only (Op.OfMethod m)) : (Stm.seq (.declare g!"_span" span) (.seq (.assign g!"ctx" ctx)
      (.deferring (d.after m onError fin) (m.passTo d.base)))).Only (Op.OfMethod m) := by
  refine Stm.only_seq Stm.only_declare (Stm.only_seq Stm.only_assign (Stm.only_deferring ?_ only_passTo))
  unfold Tracing.after
  refine Stm.only_get fun v => Stm.only_seq (Stm.only_ifthen (only_ifErr (h1 v) Stm.only_skip) ?_) (h2 v)
  exact Stm.only_getAll fun _ _ => Stm.only_getAll fun _ _ => only_lib0

theorem observer_only (G : GoTypes) (obs : Observer) (m : Method) (recv : Str × Val) (args : List Val) (ha : args.length = m.params.length) :
    (obs.decorator.call G m recv args).Only (Op.OfMethod m) := by
  refine only_call ha fun b hb => ?_
  cases obs with
  | log d =>
    cases hb
    refine Stm.only_seq ?_ (Stm.only_deferring ?_ only_passTo)
    · unfold Log.before
      exact Stm.only_ifthen (Stm.only_getAll fun _ _ => Stm.only_seq Stm.only_declare only_lib0) only_lib0
    · unfold Log.after
      exact Stm.only_ifthen (Stm.only_getAll fun _ _ => Stm.only_block (only_ifErr only_lib0 only_lib0)) only_lib0
  | logrus d =>
    cases hb
    have line : ∀ l f msg, (d.line l f msg).Only (Op.OfMethod m) := fun _ _ _ => Stm.only_global (only_lib1 fun _ => only_lib0)
    refine Stm.only_seq ?_ (Stm.only_deferring ?_ only_passTo)
    · unfold Logrus.before
      exact Stm.only_ifthen (Stm.only_getAll fun _ _ => line _ _ _) only_lib0
    · unfold Logrus.after
      exact Stm.only_ifthen (Stm.only_getAll fun _ _ => only_ifErr (line _ _ _) (line _ _ _)) only_lib0
  | prometheus d =>
    cases hb
    refine Stm.only_global (Stm.only_op trivial fun _ => Stm.only_seq Stm.only_declare (Stm.only_deferring ?_ only_passTo))
    unfold Prometheus.after
    exact Stm.only_block (Stm.only_seq (only_ifErr Stm.only_assign Stm.only_skip) (Stm.only_global (Stm.only_get fun _ =>
      only_lib1 fun _ => Stm.only_global (Stm.only_get fun _ => only_lib1 fun _ => only_lib0))))
  | opentracing d =>
    simp only [Observer.decorator, Tracing.openTracingDecorator] at hb
    split at hb <;> cases hb
    exact Stm.only_global (Stm.only_get fun _ => only_lib2 fun _ _ => only_tracing d
      (fun v => Stm.only_global (Stm.only_seq only_lib0 (Stm.only_global (only_lib1 fun _ => Stm.only_get fun _ => only_lib1 fun _ =>
        only_lib1 fun _ => only_lib0)))) fun v => only_lib0)
  | opencensus d =>
    simp only [Observer.decorator, Tracing.openCensusDecorator] at hb
    split at hb <;> cases hb
    exact Stm.only_global (Stm.only_get fun _ => only_lib2 fun _ _ => only_tracing d
      (fun v => Stm.only_global (only_lib1 fun _ => only_lib1 fun _ => Stm.only_get fun _ => only_lib1 fun _ =>
        only_lib1 fun _ => only_lib0)) fun v => only_lib0)
  | opentelemetry d =>
    simp only [Observer.decorator, Tracing.openTelemetryDecorator] at hb
    split at hb <;> cases hb
    exact Stm.only_global (only_lib1 fun _ => Stm.only_get fun _ => only_lib2 fun _ _ => only_tracing d
      (fun v => Stm.only_get fun _ => Stm.only_seq only_lib0 (Stm.only_global (only_lib1 fun _ => Stm.only_seq only_lib0
        (Stm.only_global (only_lib1 fun _ => only_lib1 fun _ => only_lib1 fun _ => only_lib0))))) fun v => only_lib0)
  | elasticapm d =>
    simp only [Observer.decorator, Apm.decorator] at hb
    split at hb <;> cases hb
    refine Stm.only_get fun _ => only_lib2 fun _ _ => Stm.only_seq Stm.only_declare (Stm.only_seq Stm.only_assign
      (Stm.only_deferring ?_ (Stm.only_seq ?_ only_passTo)))
    · exact Stm.only_seq (only_ifErr (Stm.only_get fun _ => Stm.only_get fun _ => only_lib0) Stm.only_skip) (Stm.only_get fun _ => only_lib0)
    · have labels : ∀ ps, (d.labels ps).Only (Op.OfMethod m) := by
        intro ps
        induction ps with
        | nil => exact Stm.only_skip
        | cons p ps ih =>
          rw [Apm.labels]
          exact Stm.only_ifthen ih (Stm.only_seq (Stm.only_get fun _ => Stm.only_get fun _ => only_lib0) ih)
      exact labels _

theorem controller_only (G : GoTypes) (c : Controller) (m : Method) (recv : Str × Val) (args : List Val) (ha : args.length = m.params.length) :
    (c.decorator.call G m recv args).Only (Op.OfMethod m) := by
  refine only_call ha fun b hb => ?_
  cases c with
  | breaker d =>
    simp only [Controller.decorator, Breaker.decorator] at hb
    split at hb <;> cases hb
    have reset : breakerReset.Only (Op.OfMethod m) := Stm.only_op trivial fun _ => Stm.only_op trivial fun _ => Stm.only_ret
    have count : d.count.Only (Op.OfMethod m) := Stm.only_op trivial fun _ => Stm.only_op trivial fun _ => Stm.only_op trivial fun _ =>
      Stm.only_ifthen (Stm.only_global (Stm.only_op trivial fun _ => Stm.only_op trivial fun _ => Stm.only_ret)) Stm.only_ret
    have ignored : ∀ e es, (d.ignored e es).Only (Op.OfMethod m) := by
      intro e es
      induction es with
      | nil => exact count
      | cons x es ih => exact Stm.only_global (Stm.only_op trivial fun r => Stm.only_orPanic (fun _ => Stm.only_ite reset ih) r)
    have attempt : (d.attempt m).Only (Op.OfMethod m) := only_assignCall (Stm.only_op trivial fun _ => Stm.only_deferring
      (Stm.only_op trivial fun _ => Stm.only_skip) (Stm.only_get fun _ => Stm.only_ite reset (ignored _ _)))
    have reject : d.reject.Only (Op.OfMethod m) := Stm.only_op trivial fun _ => Stm.only_global (only_lib1 fun _ =>
      Stm.only_seq Stm.only_assign Stm.only_ret)
    refine Stm.only_op trivial fun _ => Stm.only_op trivial fun c => Stm.only_ifthen (Stm.only_op trivial fun _ => attempt)
      (Stm.only_op trivial fun c => ?_)
    cases c with
    | none => exact Stm.only_panic fun _ => .nil
    | some t => exact Stm.only_global (Stm.only_op trivial fun _ => Stm.only_ifthen reject (Stm.only_op trivial fun _ => attempt))
  | retry d =>
    simp only [Controller.decorator, Retry.decorator] at hb
    split at hb <;> cases hb
    have again : ∀ i : Nat, (Stm.block [g!"_i"] [.int i] (m.assignCall d.base .skip)).Only (Op.OfMethod m) := fun i =>
      Stm.only_block (only_assignCall Stm.only_skip)
    have loop : ∀ fuel i, (d.loop m fuel i).Only (Op.OfMethod m) := by
      intro fuel
      induction fuel with
      | zero => exact fun _ => Stm.only_ret
      | succ fuel ih =>
        intro i
        refine Stm.only_get fun _ => Stm.only_ifthen Stm.only_ret (Stm.only_ifthen (Stm.only_get fun _ => Stm.only_op trivial fun c => ?_)
          (Stm.only_op trivial fun _ => Stm.only_seq (again i) (ih _)))
        cases c with
        | done => exact Stm.only_ret
        | other => exact Stm.only_seq (again i) (ih _)
    exact only_assignCall (Stm.only_get fun _ => Stm.only_ifthen Stm.only_ret (Stm.only_ifthen Stm.only_stuck (Stm.only_global
      (Stm.only_op trivial fun r => Stm.only_orPanic (fun _ => Stm.only_seq Stm.only_declare (Stm.only_deferring
        (Stm.only_op trivial fun _ => Stm.only_skip) (loop _ _))) r))))
  | rateLimit base =>
    cases hb
    refine Stm.only_ifthen (Stm.only_get fun _ => Stm.only_op trivial fun c => ?_) (Stm.only_op trivial fun _ => only_passTo)
    cases c with
    | done => exact Stm.only_get fun _ => only_lib1 fun _ => Stm.only_seq Stm.only_assign Stm.only_ret
    | other => exact only_passTo
  | robinPool pool =>
    cases hb
    refine Stm.only_global (Stm.only_op trivial fun c => Stm.only_seq Stm.only_declare (Stm.only_ifthen (Stm.only_panic fun _ => .nil) ?_))
    split
    · exact Stm.only_panic fun _ => .nil
    · exact only_passTo
  | syncPool =>
    cases hb
    exact Stm.only_op trivial fun _ => Stm.only_seq Stm.only_declare (Stm.only_deferring (Stm.only_get fun _ => Stm.only_op trivial fun _ =>
      Stm.only_skip) (Stm.only_get fun _ => only_passTo))

/-! ## C86 -/

/-- The functions that start spans. -/
def starts : List Str :=
  [g!"opentracing.StartSpanFromContext", g!"trace.StartSpan", g!"trace.Start", g!"startSpan"]

/-- A stack of observability decorators, each with the value of its receiver. -/
abbrev Stack := List (Observer × Val)

/-- Its layers. -/
def Stack.layers (s : Stack) : List Layer := s.map fun x => (x.1.decorator, x.2)

/-- The stack has all methods of the interface, and none of their parameters and results is called like a name in one of the templates. -/
structure Stack.Fits (s : Stack) (recv : Str) (ms : List Method) : Prop where
  names : (ms.map (·.name)).Nodup
  has : ∀ x ∈ s, ∀ m ∈ ms, x.1.Has m
  ok : ∀ x ∈ s, ∀ m ∈ ms, MethodOk m ∧ (recv :: (m.pnames ++ m.rnames)).Nodup ∧ g!"_" ∉ m.pnames ++ m.rnames ∧
    ∀ y ∈ x.1.idents, y ∉ recv :: (m.pnames ++ m.rnames)

theorem find_method : ∀ {ms : List Method} {m : Method}, (ms.map (·.name)).Nodup → m ∈ ms →
    ms.find? (fun x => decide (x.name = m.name)) = some m
  | [], _, _, h => by cases h
  | x :: ms, m, hn, h => by
    rw [List.map_cons, List.nodup_cons] at hn
    rcases List.mem_cons.1 h with rfl | h
    · simp
    · have : x.name ≠ m.name := fun e => hn.1 (by rw [e]; exact List.mem_map_of_mem h)
      rw [List.find?_cons_of_neg (by simpa using this)]
      exact find_method hn.2 h

theorem sameArgs_of_forwards {obs : Observer} {m : Method} {tr : List Event} {a b : List Val} (h : obs.Forwards m tr a b) :
    SameArgs starts m tr a b := by
  rcases h with rfl | ⟨hc, start, ctx, rest, ctx', c, vs, hs, rfl, rfl, hm, hr, hv, ha⟩
  · exact Or.inl rfl
  · obtain ⟨hm, hfn⟩ := List.mem_filter.1 hm
    refine Or.inr ⟨hc, ctx, rest, ctx', rfl, rfl, .step .same hm ?_ ha hr hv⟩
    rw [of_decide_eq_true hfn]
    cases obs <;> cases hs <;> simp [starts]

theorem passedOn_inj {a b : Except Val (List Val)} (h : passedOn a = passedOn b) : a = b := by
  cases a <;> cases b <;> cases h <;> rfl

/-- A stack calls the implementation once. -/
theorem stack_run (G : GoTypes) (recv : Str) (impl : Val) (ms : List Method) : ∀ (s : Stack), s.Fits recv ms → ∀ m ∈ ms, ∀ (args : List Val),
    args.length = m.params.length → ∀ (tr : List Event) (o : Outcome), (stackCall G recv impl ms s.layers m.name args).Run tr o → LibsReturn tr →
    ∃ (args' : List Val) (r : Except Val (Vals m.results.length)), SameArgs starts m tr args args' ∧
      implCalls tr = [⟨impl, m.name, args', plain r⟩] ∧ o = passedOn (plain r)
  | [], hfit, m, hm, args, _, tr, o, hr, _ => by
    rw [Stack.layers, List.map_nil, stackCall, find_method hfit.names hm] at hr
    obtain ⟨r, tr', rfl, rfl, rfl⟩ := hr
    exact ⟨args, r, Or.inl rfl, rfl, rfl⟩
  | (obs, self) :: s, hfit, m, hm, args, ha, tr, o, hr, hl => by
    have hfit' : Stack.Fits s recv ms := ⟨hfit.names, fun x hx => hfit.has x (List.mem_cons_of_mem _ hx), fun x hx => hfit.ok x (List.mem_cons_of_mem _ hx)⟩
    have ih := stack_run G recv impl ms s hfit'
    rw [Stack.layers, List.map_cons, stackCall, find_method hfit.names hm] at hr
    obtain ⟨tr0, h0, hx⟩ := through_run (P := Op.OfMethod m) (by
      intro i g name a n hg hp seg o' hseg hl'
      obtain ⟨rfl, ha', rfl⟩ := hp
      unfold only at hg
      split at hg
      · cases hg
        obtain ⟨_, r, _, _, ho⟩ := ih m hm a ha' seg o' hseg hl'
        exact ⟨r, ho⟩
      · cases hg) (observer_only G obs m (recv, self) args ha) hr hl
    obtain ⟨hok, hnd, hus, hid⟩ := hfit.ok _ (List.mem_cons_self ..) m hm
    have hl0 : LibsReturn tr0 := fun c hc => hl c (hx.libs c hc)
    obtain ⟨a1, hfw, res, hc, ho⟩ := C56_transparent_partial G obs m (recv, self) args tr0 o ⟨hok, ⟨hnd, hus, ha⟩, hid⟩
      (hfit.has _ (List.mem_cons_self ..) m hm) h0 hl0
    have hs1 : SameArgs starts m tr args a1 := (sameArgs_of_forwards hfw).mono hx.libs
    have hbase : obs.decorator.base = obs.base := by cases obs <;> rfl
    have hcalls := hx.calls (Q := fun _ c' => ∃ (args' : List Val) (r : Except Val (Vals m.results.length)), SameArgs starts m tr args args' ∧
        c' = ⟨impl, m.name, args', plain r⟩ ∧ o = passedOn (plain r)) (by
      intro c hc'
      rw [hc, List.mem_singleton] at hc'
      subst hc'
      simp [only, hbase]) (by
      intro c g seg hc' hg hseg hlib
      rw [hc, List.mem_singleton] at hc'
      subst hc'
      simp only [only, hbase, if_true, Option.some.injEq] at hg
      subst hg
      obtain ⟨a2, r, h1, h2, h3⟩ := ih m hm a1 (by rw [hs1.length, ha]) seg _ hseg (fun c hc => hl c (hlib c hc))
      exact ⟨_, h2, a2, r, hs1.trans (h1.mono hlib), rfl, by rw [ho]; exact h3⟩)
    rw [hc] at hcalls
    generalize implCalls tr = cs at hcalls
    cases hcalls with
    | cons h hs =>
      cases hs
      obtain ⟨args', r, h1, rfl, h3⟩ := h
      exact ⟨args', r, h1, rfl, h3⟩

/-- **C86** A stack of observability decorators, however high, is transparent: the implementation inside is called exactly once, with the arguments of the
caller (a context may have been replaced by one made from it), and the caller gets what it returned, or its panic. -/
theorem C86_stack (G : GoTypes) (recv : Str) (impl : Val) (ms : List Method) (s : Stack) (hfit : s.Fits recv ms) (m : Method) (hm : m ∈ ms)
    (args : List Val) (ha : args.length = m.params.length) (tr : List Event) (o : Outcome)
    (hr : (stackCall G recv impl ms s.layers m.name args).Run tr o) (hl : LibsReturn tr) :
    ∃ args', SameArgs starts m tr args args' ∧ Transparent impl m args' tr o := by
  obtain ⟨args', r, h1, h2, h3⟩ := stack_run G recv impl ms s hfit m hm args ha tr o hr hl
  exact ⟨args', h1, plain r, h2, h3⟩

/-- The implementations of a controlling decorator that are stacks of observability decorators: the stack and what is inside. -/
abbrev Observed := Val → Stack × Val

/-- The programs that they are. -/
noncomputable def Observed.inner (G : GoTypes) (recv : Str) (ms : List Method) (obs : Observed) : Inner :=
  fun i => some (stackCall G recv (obs i).2 ms (obs i).1.layers)

/-- **C86** The circuit breaker, retry, the rate limiter and the pools cannot tell whether the implementations they call are observed: what they do with
implementations wrapped in stacks of observability decorators is what they do (`tr0`) with implementations that give the results of those inside, call by call. -/
theorem C86_control (G : GoTypes) (recv : Str) (ms : List Method) (obs : Observed) (hfit : ∀ i, (obs i).1.Fits recv ms) (c : Controller)
    (m : Method) (hm : m ∈ ms) (self : Val) (args : List Val) (ha : args.length = m.params.length) (tr : List Event) (o : Outcome)
    (hr : (through (obs.inner G recv ms) (c.decorator.call G m (recv, self) args)).Run tr o) (hl : LibsReturn tr) :
    ∃ tr0, (c.decorator.call G m (recv, self) args).Run tr0 o ∧
      (∀ e ∈ tr0, (∀ i name a n r, e ≠ ⟨.impl i name a n, r⟩) → e ∈ tr) ∧
      CallsInside (fun c0 c' => c'.impl = (obs c0.impl).2 ∧ c'.method = c0.method ∧ c'.result = c0.result ∧ SameArgs starts m tr c0.args c'.args)
        (implCalls tr0) (implCalls tr) := by
  have honly := controller_only G c m (recv, self) args ha
  obtain ⟨tr0, h0, hx⟩ := through_run (P := Op.OfMethod m) (by
    intro i g name a n hg hp seg o' hseg hl'
    obtain ⟨rfl, ha', rfl⟩ := hp
    cases hg
    obtain ⟨_, r, _, _, ho⟩ := stack_run G recv (obs i).2 ms (obs i).1 (hfit i) m hm a ha' seg o' hseg hl'
    exact ⟨r, ho⟩) honly hr hl
  have hshape : ∀ x ∈ implCalls tr0, x.method = m.name ∧ x.args.length = m.params.length := by
    clear hx hr
    generalize c.decorator.call G m (recv, self) args = t at honly h0
    induction t generalizing tr0 with
    | ret a => cases h0.1; intro x hx; cases hx
    | vis op k ih =>
      obtain ⟨r, tr', rfl, h'⟩ := h0
      have := ih r tr' (honly.2 r) h'
      cases op with
      | impl i name a n =>
        intro x hx
        rcases List.mem_cons.1 hx with rfl | hx
        · exact ⟨honly.1.1, honly.1.2.1⟩
        · exact this x hx
      | _ => exact this
  refine ⟨tr0, h0, fun e he hi => hx.mem he hi, hx.calls (fun x _ hn => by cases hn) ?_⟩
  intro x g seg hmem hg hseg hlib
  cases hg
  obtain ⟨hname, hlen⟩ := hshape x hmem
  rw [hname] at hseg
  obtain ⟨a2, r, h1, h2, h3⟩ := stack_run G recv (obs x.impl).2 ms (obs x.impl).1 (hfit _) m hm x.args hlen seg _ hseg
    (fun l hl' => hl l (hlib l hl'))
  exact ⟨_, h2, rfl, hname.symm, (passedOn_inj h3).symm, h1.mono hlib⟩

/-- **C86** So calls and results pass through the whole tower: every call of an implementation inside is one of the method with the arguments of the caller
(up to the context), and the caller gets what the last of them returned. -/
theorem C86_pass_through (G : GoTypes) (recv : Str) (ms : List Method) (obs : Observed) (hfit : ∀ i, (obs i).1.Fits recv ms) (c : Controller)
    (m : Method) (hm : m ∈ ms) (self : Val) (args : List Val) (hc : Callable m (recv, self) c.idents args) (hp : ¬ c.Panics) (tr : List Event) (o : Outcome)
    (hr : (through (obs.inner G recv ms) (c.decorator.call G m (recv, self) args)).Run tr o) (hl : LibsReturn tr) (ht : TickerLaw tr)
    (he : ErrorsIsReturns tr) :
    (∀ x ∈ implCalls tr, (∃ i, c.Impl tr i ∧ x.impl = (obs i).2) ∧ x.method = m.name ∧ SameArgs starts m tr args x.args) ∧
      ∀ x, (implCalls tr).getLast? = some x → o = passedOn x.result := by
  obtain ⟨tr0, h0, hmem, hcalls⟩ := C86_control G recv ms obs hfit c m hm self args hc.declared.2.2 tr o hr hl
  obtain ⟨h1, h2⟩ := C59_pass_through_partial G c m (recv, self) args tr0 o hc hp h0
    (fun i r h => ht i r (hmem _ h (by intro _ _ _ _ _ h'; cases h')))
    (fun e t r h => he e t r (hmem _ h (by intro _ _ _ _ _ h'; cases h')))
  have himpl : ∀ i, c.Impl tr0 i → c.Impl tr i := by
    intro i hi
    cases c with
    | syncPool => exact hmem _ hi (by intro _ _ _ _ _ h'; cases h')
    | _ => exact hi
  clear h0 hmem hr
  revert h1 h2
  generalize implCalls tr0 = cs0 at hcalls
  generalize implCalls tr = cs at hcalls
  intro h1 h2
  constructor
  · clear h2
    induction hcalls with
    | nil => intro x hx; cases hx
    | cons hq _ ih =>
      intro x hx
      rcases List.mem_cons.1 hx with rfl | hx
      · obtain ⟨p1, p2, p3⟩ := h1 _ (List.mem_cons_self ..)
        obtain ⟨q1, q2, _, q4⟩ := hq
        exact ⟨⟨_, himpl _ p1, q1⟩, q2.trans p2, p3 ▸ q4⟩
      · exact ih (fun x hx => h1 x (List.mem_cons_of_mem _ hx)) x hx
  · clear h1
    induction hcalls with
    | nil => intro x hx; cases hx
    | @cons c0 c' cs cs' hq hs ih =>
      intro x hx
      cases hs with
      | nil =>
        obtain rfl : c' = x := Option.some.inj hx
        rw [hq.2.2.1]
        exact h2 _ rfl
      | cons hq' hs' =>
        refine ih (fun x hx => h2 x ?_) x ?_
        · rw [List.getLast?_cons_cons]; exact hx
        · rwa [List.getLast?_cons_cons] at hx

theorem callsInside_length {P : ImplCall → ImplCall → Prop} {cs cs' : List ImplCall} (h : CallsInside P cs cs') : cs'.length = cs.length := by
  induction h with
  | nil => rfl
  | cons _ _ ih => simp [ih]

/-- **C86** For example, with retry around any stack of observability decorators the implementation inside is called at least once and at most 1+retryCount
times. -/
theorem C86_retry (G : GoTypes) (recv : Str) (ms : List Method) (obs : Observed) (hfit : ∀ i, (obs i).1.Fits recv ms) (d : Retry)
    (m : Method) (hm : m ∈ ms) (self : Val) (args : List Val) (hc : Callable m (recv, self) [g!"time", g!"_ticker", g!"_i"] args)
    (hret : m.returnsError = true) (hpos : d.retryInterval > 0) (tr : List Event) (o : Outcome)
    (hr : (through (obs.inner G recv ms) (d.decorator.call G m (recv, self) args)).Run tr o) (hl : LibsReturn tr) (ht : TickerLaw tr) :
    0 < (implCalls tr).length ∧ (implCalls tr).length ≤ 1 + d.retryCount.toNat := by
  obtain ⟨tr0, h0, hmem, hcalls⟩ := C86_control G recv ms obs hfit (.retry d) m hm self args hc.declared.2.2 tr o hr hl
  obtain ⟨init, res, h1, h2, _⟩ := C47_bounds (C47_retry_partial G d m (recv, self) args tr0 o hc hret hpos h0
    (fun i r h => ht i r (hmem _ h (by intro _ _ _ _ _ h'; cases h')))).1
  rw [attempts_retrySteps] at h1
  rw [callsInside_length hcalls, h1]
  simp
  omega

/-! ### An implementation that is traced and logged, behind a rate limiter -/

namespace StackDemo

/-- `NewFinderWithLog(NewFinderWithTracing(impl, "db"), …)`, where `impl` is `.obj 50`. -/
def stack : Stack := [(.log ⟨g!"FinderWithLog", .obj 1, .obj 2, .obj 3⟩, .obj 20), (.opentracing finderTracing, .obj 21)]

theorem fits : stack.Fits g!"_d" [find] := by
  refine ⟨by decide, ?_, ?_⟩
  · intro x hx m hm
    obtain rfl := List.mem_singleton.1 hm
    simp only [stack, List.mem_cons, List.not_mem_nil, or_false] at hx
    rcases hx with rfl | rfl
    · exact Or.inr (by intro h; cases h)
    · exact Or.inl rfl
  · intro x hx m hm
    obtain rfl := List.mem_singleton.1 hm
    simp only [stack, List.mem_cons, List.not_mem_nil, or_false] at hx
    rcases hx with rfl | rfl
    · have := find_callable (Observer.log ⟨g!"FinderWithLog", .obj 1, .obj 2, .obj 3⟩).idents (.obj 1) (.int 5) (by decide)
      exact ⟨this.ok, this.declared.1, this.declared.2.1, this.avoids⟩
    · have := find_callable (Observer.opentracing finderTracing).idents (.obj 1) (.int 5) (by decide)
      exact ⟨this.ok, this.declared.1, this.declared.2.1, this.avoids⟩

/-- What the tracing decorator does before and after the call. -/
def before : List Event :=
  [⟨.lib g!"opentracing.StartSpanFromContext" [.obj 1, .str g!"db.Finder.Find"] 2, Except.ok ⟨[.obj 7, .obj 8], rfl⟩⟩]

@[inherit_doc before]
def after : List Event :=
  [⟨.lib g!"ext.Error.Set" [.obj 7, .bool true] 0, Except.ok ⟨[], rfl⟩⟩,
    ⟨.lib g!"log.String" [.str g!"event", .str g!"error"] 1, Except.ok ⟨[.obj 10], rfl⟩⟩,
    ⟨.lib g!"Error" [.obj 9] 1, Except.ok ⟨[.str g!"not found"], rfl⟩⟩,
    ⟨.lib g!"log.String" [.str g!"message", .str g!"not found"] 1, Except.ok ⟨[.obj 11], rfl⟩⟩,
    ⟨.lib g!"opentracing.LogFields" [.obj 7, .obj 10, .obj 11] 0, Except.ok ⟨[], rfl⟩⟩,
    ⟨.lib g!"opentracing.Finish" [.obj 7] 0, Except.ok ⟨[], rfl⟩⟩]

/-- The call of an implementation: nothing is found. -/
def call (i ctx : Val) : Event := ⟨.impl i g!"Find" [ctx, .int 5] 2, Except.ok ⟨[.str [], .obj 9], rfl⟩⟩

/-- A line in the log. -/
def line (logger : Val) (msg : Str) (vs : List Val) : Event :=
  ⟨.lib g!"log.Println" (logger :: .str (g!"FinderWithLog: " ++ msg) :: vs) 0, Except.ok ⟨[], rfl⟩⟩

/-- All steps of the call through the stack. -/
def trace : List Event :=
  line (.obj 2) g!"calling Find with params:" [.obj 1, .int 5] ::
    (before ++ (call (.obj 50) (.obj 8) :: after)) ++ [line (.obj 3) g!"Find returned results:" [.str [], .obj 9]]

theorem traced : (stackCall demoTypes g!"_d" (.obj 50) [find] [(finderTracing.openTracingDecorator, .obj 21)] g!"Find" [.obj 1, .int 5]).Run
    (before ++ (call (.obj 50) (.obj 8) :: after)) (.ret [.str [], .obj 9]) := by
  refine run_through (t := finderTracing.openTracingDecorator.call demoTypes find (g!"_d", .obj 21) [.obj 1, .int 5])
    (tr0 := before ++ (call (.obj 0) (.obj 8) :: after))
    ⟨_, _, rfl, _, _, rfl, _, _, rfl, _, _, rfl, _, _, rfl, _, _, rfl, _, _, rfl, _, _, rfl, rfl, rfl⟩ ?_
  refine .same (by intro i _ _ _ _ h; cases h) (.call (seg := [call (.obj 50) (.obj 8)]) (if_pos rfl) ⟨_, _, rfl, rfl, rfl⟩ ?_)
  have : ∀ i name args n r, ∀ e ∈ after, e = ⟨.impl i name args n, r⟩ → only finderTracing.openTracingDecorator.base
      (stackCall demoTypes g!"_d" (.obj 50) [find] []) i = none := by
    intro i name args n r e he h
    subst h
    simp [after] at he
  have all : ∀ (f : Inner) (tr : List Event), (∀ e ∈ tr, ∀ i name args n r, e = ⟨.impl i name args n, r⟩ → f i = none) → Expands f tr tr := by
    intro f tr h
    induction tr with
    | nil => exact .nil
    | cons e tr ih => exact .same (h e (List.mem_cons_self ..)) (ih fun e he => h e (List.mem_cons_of_mem _ he))
  exact all _ _ fun e he i name args n r h => this i name args n r e he h

theorem logged : (stackCall demoTypes g!"_d" (.obj 50) [find] stack.layers g!"Find" [.obj 1, .int 5]).Run trace (.ret [.str [], .obj 9]) := by
  refine run_through (t := (Observer.log ⟨g!"FinderWithLog", .obj 1, .obj 2, .obj 3⟩).decorator.call demoTypes find (g!"_d", .obj 20) [.obj 1, .int 5])
    (tr0 := [line (.obj 2) g!"calling Find with params:" [.obj 1, .int 5], call (.obj 1) (.obj 1),
      line (.obj 3) g!"Find returned results:" [.str [], .obj 9]])
    ⟨_, _, rfl, _, _, rfl, _, _, rfl, rfl, rfl⟩ ?_
  exact .same (by intro i _ _ _ _ h; cases h) (.call (if_pos rfl) traced (.same (by intro i _ _ _ _ h; cases h) .nil))

theorem libs : LibsReturn trace := by
  intro c hc
  have : ∀ c ∈ libCalls trace, ∃ vs, c.result = .ok vs := by
    simp [libCalls, trace, before, after, call, line, plain]
  exact this c hc

/-- The implementation inside got the context of the span. -/
example : ∃ args', SameArgs starts find trace [.obj 1, .int 5] args' ∧ Transparent (.obj 50) find args' trace (.ret [.str [], .obj 9]) :=
  C86_stack demoTypes g!"_d" (.obj 50) [find] stack fits find (List.mem_singleton.2 rfl) [.obj 1, .int 5] rfl trace _ logged libs

/-- A rate limiter around the stack. -/
noncomputable def limited : Observed := fun _ => (stack, .obj 50)

theorem limited_run : (through (limited.inner demoTypes g!"_d" [find]) ((Controller.rateLimit (.obj 30)).decorator.call demoTypes find (g!"_d", .obj 31)
    [.obj 1, .int 5])).Run (⟨.doneOrToken (.obj 1), Choice.other⟩ :: (trace ++ [])) (.ret [.str [], .obj 9]) := by
  refine run_through (tr0 := [⟨.doneOrToken (.obj 1), Choice.other⟩, call (.obj 30) (.obj 1)]) ⟨_, _, rfl, _, _, rfl, rfl, rfl⟩ ?_
  exact .same (by intro i _ _ _ _ h; cases h) (.call rfl logged .nil)

theorem limited_libs : LibsReturn (⟨.doneOrToken (.obj 1), Choice.other⟩ :: (trace ++ [])) := by
  rw [List.append_nil]
  exact libs

example : ∃ tr0, ((Controller.rateLimit (.obj 30)).decorator.call demoTypes find (g!"_d", .obj 31) [.obj 1, .int 5]).Run tr0 (.ret [.str [], .obj 9]) ∧
    (implCalls tr0).length = 1 := by
  obtain ⟨tr0, h, _, hc⟩ := C86_control demoTypes g!"_d" [find] limited (fun _ => fits) (.rateLimit (.obj 30)) find (List.mem_singleton.2 rfl) (.obj 31) [.obj 1, .int 5] rfl _ _
    limited_run limited_libs
  have : implCalls (⟨.doneOrToken (.obj 1), Choice.other⟩ :: (trace ++ [])) = [⟨.obj 50, g!"Find", [.obj 8, .int 5], .ok [.str [], .obj 9]⟩] := rfl
  rw [this] at hc
  refine ⟨tr0, h, ?_⟩
  generalize implCalls tr0 = cs at hc
  cases hc with
  | cons _ hs => cases hs; rfl

example : ∀ x, (implCalls (⟨.doneOrToken (.obj 1), Choice.other⟩ :: (trace ++ []))).getLast? = some x →
    Outcome.ret [.str [], .obj 9] = passedOn x.result :=
  (C86_pass_through demoTypes g!"_d" [find] limited (fun _ => fits) (.rateLimit (.obj 30)) find (List.mem_singleton.2 rfl) (.obj 31) [.obj 1, .int 5]
    (by
      have := find_callable [] (.obj 1) (.int 5) (by decide)
      exact ⟨this.ok, this.declared, this.avoids⟩) (fun h => h) _ _ limited_run limited_libs
    (by intro i r h; simp [trace, before, after, call, line] at h) (by intro e t r h; simp [trace, before, after, call, line] at h)).2

/-- Retries, of which none is left, around the stack. -/
def retry : Retry := ⟨g!"Finder", .obj 30, 0, 10⟩

theorem retry_run : (through (limited.inner demoTypes g!"_d" [find]) (retry.decorator.call demoTypes find (g!"_d", .obj 31) [.obj 1, .int 5])).Run
    (trace ++ []) (.ret [.str [], .obj 9]) :=
  run_through (tr0 := [call (.obj 30) (.obj 1)]) ⟨_, _, rfl, rfl, rfl⟩ (.call rfl logged .nil)

example : 0 < (implCalls (trace ++ [])).length ∧ (implCalls (trace ++ [])).length ≤ 1 + 0 :=
  C86_retry demoTypes g!"_d" [find] limited (fun _ => fits) retry find (List.mem_singleton.2 rfl) (.obj 31) [.obj 1, .int 5]
    (by
      have := find_callable [g!"time", g!"_ticker", g!"_i"] (.obj 1) (.int 5) (by decide)
      exact ⟨this.ok, this.declared, this.avoids⟩) rfl (by decide) _ _ retry_run (by rw [List.append_nil]; exact libs)
    (by intro i r h; simp [trace, before, after, call, line] at h)

end StackDemo

end Gowrap.Props

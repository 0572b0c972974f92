import Verif.Props.Callable
import Verif.Proofs.Observe
/-!
# C56, C57: the observability decorators
-/

namespace Gowrap.Props

open Gowrap Spec Tmpl

/-! ## C56 -/

/-- A decorator generated by one of the observability templates. -/
inductive Observer where
  | log (d : Log)
  | logrus (d : Logrus)
  | prometheus (d : Prometheus)
  | opentracing (d : Tracing)
  | opencensus (d : Tracing)
  | opentelemetry (d : Tracing)
  | elasticapm (d : Apm)

/-- The generated type. -/
def Observer.decorator : Observer → Decorator
  | .log d => d.decorator
  | .logrus d => d.decorator
  | .prometheus d => d.decorator
  | .opentracing d => d.openTracingDecorator
  | .opencensus d => d.openCensusDecorator
  | .opentelemetry d => d.openTelemetryDecorator
  | .elasticapm d => d.decorator

/-- The wrapped implementation. -/
def Observer.base : Observer → Val
  | .log d => d.base
  | .logrus d => d.base
  | .prometheus d => d.base
  | .opentracing d => d.base
  | .opencensus d => d.base
  | .opentelemetry d => d.base
  | .elasticapm d => d.base

/-- The identifiers that the template uses in the body of a method. -/
def Observer.idents : Observer → List Str
  | .log _ => [g!"_params"]
  | .logrus _ => [g!"logrus"]
  | .prometheus d => [g!"time", g!"_since", d.vec]
  | .opentracing _ => [g!"opentracing", g!"_span", g!"_ext", g!"_log"]
  | .opencensus _ => [g!"trace", g!"_span"]
  | .opentelemetry _ => [g!"otel", g!"_span", g!"_codes", g!"attribute"]
  | .elasticapm _ => [g!"span"]

/-- The function that starts a span and returns the context for the implementation. -/
def Observer.start : Observer → Option Str
  | .opentracing _ => some g!"opentracing.StartSpanFromContext"
  | .opencensus _ => some g!"trace.StartSpan"
  | .opentelemetry _ => some g!"trace.Start"
  | .elasticapm _ => some g!"startSpan"
  | _ => none

/-- The arguments that the implementation may get: those of the caller, or with the context replaced by one
that the function starting the span returned. -/
def Observer.Forwards (obs : Observer) (m : Method) (tr : List Event) (args args' : List Val) : Prop :=
  args' = args ∨ m.acceptsContext = true ∧ ∃ start ctx rest ctx' c vs, obs.start = some start ∧
    args = ctx :: rest ∧ args' = ctx' :: rest ∧ c ∈ callsOf start tr ∧ c.result = .ok vs ∧ ctx' ∈ vs ∧
    ctx ∈ c.args

/-- The method exists on the decorator. -/
def Observer.Has (obs : Observer) (m : Method) : Prop :=
  obs.decorator.embeds = true ∨ obs.decorator.body m ≠ none

/-- The full claim of C56. -/
def C56_full : Prop := ∀ (G : GoTypes) (obs : Observer) (m : Method) (recv : Str × Val) (args : List Val)
  (tr : List Event) (o : Outcome), MethodOk m → m.WellDeclared recv args → obs.Has m →
  (obs.decorator.call G m recv args).Run tr o → LibsReturn tr →
  ∃ args', obs.Forwards m tr args args' ∧ Transparent obs.base m args' tr o

/-- `Find(ctx context.Context, span int) error`. -/
def findSpan : Method :=
  ⟨[], [], g!"Find", [⟨[], [], g!"ctx", g!"context.Context", false⟩, ⟨[], [], g!"span", g!"int", false⟩],
    [⟨[], [], g!"err", g!"error", false⟩], true, true⟩

/-- C56 does not hold: elasticapm declares a variable `span` beside the parameters, so a method with a
parameter of that name does not compile. -/
theorem C56_full_false : ¬ C56_full := by
  intro h
  let d : Apm := ⟨.obj 0, g!"C", g!"ext", Uni.ascii⟩
  obtain ⟨args', _, res, _, ho⟩ := h demoTypes (.elasticapm d) findSpan (g!"_d", .nil) [.nil, .int 1]
    [⟨.lib g!"startSpan" [.nil, .str (g!"C" ++ g!"." ++ g!"Find"), .str g!"ext"] 2,
      Except.ok ⟨[.obj 1, .obj 2], rfl⟩⟩] .stuck
    ⟨by decide, fun _ => ⟨[], _, rfl, rfl, rfl⟩, fun _ => ⟨_, _, rfl, rfl⟩⟩ (by decide) (Or.inr (by
      intro hc; cases hc)) ⟨_, [], rfl, rfl, rfl⟩ (by simp)
  cases res <;> cases ho

theorem implCalls_of_seen (tr : List Event) :
    implCalls tr = (seen tr).filterMap fun | .impl c => some c | .lib _ => none := by
  induction tr with
  | nil => rfl
  | cons e tr ih =>
    obtain ⟨op, r⟩ := e
    cases op <;> simp [implCalls, seen, ih]

theorem libCalls_of_seen (tr : List Event) :
    libCalls tr = (seen tr).filterMap fun | .impl _ => none | .lib c => some c := by
  induction tr with
  | nil => rfl
  | cons e tr ih =>
    obtain ⟨op, r⟩ := e
    cases op <;> simp [libCalls, seen, ih]

/-- Calls of library functions only. -/
def NoImpl (L : List Seen) : Prop := L.filterMap (fun | .impl c => some c | .lib _ => none) = []

theorem transparent_of_seen {impl : Val} {m : Method} {args : List Val} {tr : List Event} {o : Outcome}
    {res : Except Val (List Val)} {L1 L2 : List Seen} (h : seen tr = L1 ++ .impl ⟨impl, m.name, args, res⟩ :: L2)
    (h1 : NoImpl L1) (h2 : NoImpl L2) (ho : o = passedOn res) : Transparent impl m args tr o := by
  refine ⟨res, ?_, ho⟩
  unfold NoImpl at h1 h2
  rw [implCalls_of_seen, h, List.filterMap_append, h1]
  simp [h2]

theorem callsOf_of_seen {tr : List Event} {c : LibCall} (h : .lib c ∈ seen tr) : c ∈ callsOf c.fn tr := by
  simp only [callsOf, List.mem_filter, decide_true, and_true]
  rw [libCalls_of_seen, List.mem_filterMap]
  exact ⟨_, h, rfl⟩

theorem noImpl_mid {d : Tracing} {m : Method} {marks : Val → Val → List Seen → Prop} {span : Val}
    {a r : List Val} {L : List Seen} (hm : ∀ e L, marks span e L → NoImpl L) (h : d.Mid m marks span a r L) :
    NoImpl L := by
  unfold Tracing.Mid at h
  split at h
  · split at h
    · obtain ⟨e, _, h⟩ := h
      exact hm e L h
    · rw [h]; rfl
  · rw [h]; rfl

theorem noImpl_append {L L' : List Seen} (h : NoImpl L) (h' : NoImpl L') : NoImpl (L ++ L') := by
  unfold NoImpl at *
  rw [List.filterMap_append, h, h']; rfl

/-- **C56** (partial) Every method of a decorator of the seven observability templates calls the
implementation exactly once, with the caller's arguments in order (in the tracing templates the context
is the one returned with the span), and its results or its panic are what the caller gets.  What is
missing: methods that use an identifier of the template as the name of a parameter, see `C56_full_false`. -/
theorem C56_transparent_partial (G : GoTypes) (obs : Observer) (m : Method) (recv : Str × Val)
    (args : List Val) (tr : List Event) (o : Outcome) (h : Callable m recv obs.idents args) (hhas : obs.Has m)
    (hr : (obs.decorator.call G m recv args).Run tr o) (hl : LibsReturn tr) :
    ∃ args', obs.Forwards m tr args args' ∧ Transparent obs.base m args' tr o := by
  have tracing : ∀ {d : Tracing} {marks : Val → Val → List Seen → Prop} {start fin : Str} {c c' span : Val}
      {cargs cres a' : List Val} {res : Except Val (List Val)} {L0 L : List Seen}, obs.start = some start →
      obs.base = d.base → c ∈ cargs → c' ∈ cres → NoImpl L0 → (∀ e L, marks span e L → NoImpl L) →
      m.acceptsContext = true → args = c :: a' → o = passedOn res →
      seen tr = L0 ++ .lib ⟨start, cargs, .ok cres⟩ :: .impl ⟨d.base, m.name, c' :: a', res⟩ ::
        L ++ [.lib ⟨fin, [span], .ok []⟩] →
      d.Mid m marks span (c' :: a') (resultsAfter (m.zeros G) res) L →
      ∃ args', obs.Forwards m tr args args' ∧ Transparent obs.base m args' tr o := by
    intro d marks start fin c c' span cargs cres a' res L0 L hst hb hc1 hc2 hL0 hmarks hctx hargs ho hs hmid
    refine ⟨c' :: a', Or.inr ⟨hctx, start, c, a', c', ⟨start, cargs, .ok cres⟩, cres, hst, hargs, rfl, ?_, rfl, hc2, hc1⟩, ?_⟩
    · exact callsOf_of_seen (c := ⟨start, cargs, .ok cres⟩) (by rw [hs]; simp)
    · rw [hb]
      refine transparent_of_seen (L1 := L0 ++ [.lib ⟨start, cargs, .ok cres⟩])
        (L2 := L ++ [.lib ⟨fin, [span], .ok []⟩]) (by rw [hs]; simp) (noImpl_append hL0 (by rfl))
        (noImpl_append (noImpl_mid hmarks hmid) (by rfl)) ho
  have promoted : ∀ {d : Decorator}, d.body m = none → d.embeds = true → obs.decorator = d → obs.base = d.base →
      ∃ args', obs.Forwards m tr args args' ∧ Transparent obs.base m args' tr o := by
    intro d hb he hd hbase
    rw [hd] at hr
    obtain ⟨res, ho, hs⟩ := promoted_runs G d hb he tr o hr hl
    rw [hbase]
    exact ⟨args, Or.inl rfl, transparent_of_seen (L1 := []) (L2 := []) hs rfl rfl ho⟩
  cases obs with
  | log d =>
    obtain ⟨res, ho, hs⟩ := log_runs G d h tr o hr hl
    exact ⟨args, Or.inl rfl, transparent_of_seen (L1 := [_]) (L2 := [_]) hs rfl rfl ho⟩
  | logrus d =>
    obtain ⟨res, L1, L2, ho, hs, h1, h2⟩ := logrus_runs G d h tr o hr hl
    refine ⟨args, Or.inl rfl, transparent_of_seen hs ?_ ?_ ho⟩
    · unfold Logrus.Before at h1
      split at h1
      · obtain ⟨entry, rfl⟩ := h1; rfl
      · subst h1; rfl
    · unfold Logrus.After at h2
      split at h2
      · split at h2
        · obtain ⟨entry, rfl⟩ := h2; rfl
        · obtain ⟨entry, rfl⟩ := h2; rfl
      · subst h2; rfl
  | prometheus d =>
    obtain ⟨t, tr', res, L, ho, rfl, hs, ob, s, rfl⟩ := prometheus_runs G d h tr o hr hl
    exact ⟨args, Or.inl rfl, transparent_of_seen (L1 := []) hs rfl rfl ho⟩
  | opentracing d =>
    by_cases hc : m.acceptsContext = true
    · obtain ⟨c, a', span, c', res, L, ha, ho, hs, hm⟩ := openTracing_runs G d h hc tr o hr hl
      exact tracing (L0 := []) rfl rfl (by simp) (by simp) rfl (by rintro e L ⟨_, _, _, rfl⟩; rfl) hc ha ho hs hm
    · exact promoted (d := d.openTracingDecorator) (by simp [Tracing.openTracingDecorator, hc]) rfl rfl rfl
  | opencensus d =>
    by_cases hc : m.acceptsContext = true
    · obtain ⟨c, a', span, c', res, L, ha, ho, hs, hm⟩ := openCensus_runs G d h hc tr o hr hl
      exact tracing (L0 := []) rfl rfl (by simp) (by simp) rfl (by rintro e L ⟨_, _, _, _, rfl⟩; rfl) hc ha ho hs hm
    · exact promoted (d := d.openCensusDecorator) (by simp [Tracing.openCensusDecorator, hc]) rfl rfl rfl
  | opentelemetry d =>
    by_cases hc : m.acceptsContext = true
    · obtain ⟨c, a', tracer, span, c', res, L, ha, ho, hs, hm⟩ := openTelemetry_runs G d h hc tr o hr hl
      exact tracing (L0 := [.lib ⟨g!"otel.Tracer", [.str d.inst], .ok [tracer]⟩]) rfl rfl (by simp) (by simp) rfl
        (by rintro e L ⟨_, _, _, _, rfl⟩; rfl) hc ha ho hs hm
    · exact promoted (d := d.openTelemetryDecorator) (by simp [Tracing.openTelemetryDecorator, hc]) rfl rfl rfl
  | elasticapm d =>
    have hc : m.acceptsContext = true := by
      rcases hhas with hh | hh
      · cases hh
      · simpa [Observer.decorator, Apm.decorator] using hh
    obtain ⟨c, a', span, c', res, L, ha, ho, hs, hm⟩ := apm_runs G d h hc tr o hr hl
    refine ⟨c' :: a', Or.inr ⟨hc, g!"startSpan", c, a', c', ⟨g!"startSpan", _, .ok [span, c']⟩, _, rfl, ha, rfl,
      callsOf_of_seen (c := ⟨g!"startSpan", _, .ok [span, c']⟩) (by rw [hs]; exact List.mem_cons_self ..), rfl,
      by simp, by simp⟩, ?_⟩
    refine transparent_of_seen (L1 := _ :: _) hs ?_ ?_ ho
    · refine noImpl_append (L := [_]) rfl ?_
      simp [NoImpl, Apm.labelCalls, List.filterMap_map]
    · split at hm
      · obtain ⟨e, _, rfl⟩ := hm; rfl
      · rw [hm]; rfl

/-- A failing call of `Find` through opentracing. -/
def findTraced : List Event :=
  [⟨.lib g!"opentracing.StartSpanFromContext" [.obj 1, .str g!"db.Finder.Find"] 2, Except.ok ⟨[.obj 7, .obj 8], rfl⟩⟩,
    ⟨.impl (.obj 0) g!"Find" [.obj 8, .int 5] 2, Except.ok ⟨[.str [], .obj 9], rfl⟩⟩,
    ⟨.lib g!"ext.Error.Set" [.obj 7, .bool true] 0, Except.ok ⟨[], rfl⟩⟩,
    ⟨.lib g!"log.String" [.str g!"event", .str g!"error"] 1, Except.ok ⟨[.obj 10], rfl⟩⟩,
    ⟨.lib g!"Error" [.obj 9] 1, Except.ok ⟨[.str g!"not found"], rfl⟩⟩,
    ⟨.lib g!"log.String" [.str g!"message", .str g!"not found"] 1, Except.ok ⟨[.obj 11], rfl⟩⟩,
    ⟨.lib g!"opentracing.LogFields" [.obj 7, .obj 10, .obj 11] 0, Except.ok ⟨[], rfl⟩⟩,
    ⟨.lib g!"opentracing.Finish" [.obj 7] 0, Except.ok ⟨[], rfl⟩⟩]

/-- An opentracing decorator without a custom span decorator. -/
def finderTracing : Tracing := ⟨⟨g!"Finder", g!"Finder"⟩, .obj 0, g!"db", .nil, g!"Finder"⟩

theorem findTraced_run : (finderTracing.openTracingDecorator.call demoTypes find (g!"_d", .nil) [.obj 1, .int 5]).Run
    findTraced (.ret [.str [], .obj 9]) :=
  ⟨_, _, rfl, _, _, rfl, _, _, rfl, _, _, rfl, _, _, rfl, _, _, rfl, _, _, rfl, _, _, rfl, rfl, rfl⟩

theorem findTraced_libs : LibsReturn findTraced := by
  intro c hc
  have : ∀ c ∈ libCalls findTraced, ∃ vs, c.result = .ok vs := by
    simp [libCalls, findTraced, plain]
  exact this c hc

example : ∃ args', (Observer.opentracing finderTracing).Forwards find findTraced [.obj 1, .int 5] args' ∧
    Transparent (.obj 0) find args' findTraced (.ret [.str [], .obj 9]) :=
  C56_transparent_partial demoTypes (.opentracing finderTracing) find (g!"_d", .nil) [.obj 1, .int 5] findTraced _
    (find_callable _ _ _ (by decide)) (Or.inl rfl) findTraced_run findTraced_libs

/-- **C56** Whatever happens, also if a library function panics or the method clashes with the template:
the implementation is called at most once. -/
theorem C56_at_most_once (G : GoTypes) (obs : Observer) (m : Method) (recv : Str × Val) (args : List Val)
    (tr : List Event) (hr : (obs.decorator.call G m recv args).Reaches tr) : (implCalls tr).length ≤ 1 := by
  obtain ⟨tr', o, hrun, _⟩ := Tree.reaches_run hr
  suffices h : (obs.decorator.call G m recv args).Calls 1 by
    have := h _ _ hrun
    rw [implCalls_append, List.length_append] at this
    omega
  have promoted : ∀ d : Decorator, (∀ b, d.body m = some b → b.Calls 1) → (d.call G m recv args).Calls 1 := by
    intro d hd
    unfold Decorator.call
    cases hb : d.body m with
    | some b => exact Method.calls_exec (hd b hb)
    | none =>
      simp only
      split
      · refine Tree.calls_impl (n := 0) fun r => ?_
        cases r <;> exact Tree.calls_ret _ _
      · exact Tree.calls_ret _ _
  have ifErr0 : ∀ (t e : Stm), t.Calls 0 → e.Calls 0 → (ifErr m t e).Calls 0 := by
    intro t e ht he
    unfold ifErr
    split
    · exact Stm.calls_get fun v => Stm.calls_ite he ht
    · exact he
  have tail : ∀ (d : Tracing) (onError fin : Val → Stm) (ctx span : Val), (∀ v, (onError v).Calls 0) →
      (∀ v, (fin v).Calls 0) → (Stm.seq (.declare g!"_span" span) (.seq (.assign g!"ctx" ctx)
        (.deferring (d.after m onError fin) (m.passTo d.base)))).Calls 1 := by
    intro d onError fin ctx span h1 h2
    refine Stm.calls_seq (n := 0) (k := 1) Stm.calls_declare ?_
    refine Stm.calls_seq (n := 0) (k := 1) Stm.calls_assign ?_
    refine Stm.calls_deferring (n := 0) (k := 1) ?_ (Stm.calls_passTo m _)
    refine Stm.calls_get fun v => Stm.calls_seq (n := 0) (k := 0) ?_ (h2 v)
    split
    · exact ifErr0 _ _ (h1 v) Stm.calls_skip
    · exact Stm.calls_getAll fun _ => Stm.calls_getAll fun _ => Stm.calls_lib0
  cases obs with
  | log d =>
    refine promoted _ fun b hb => ?_
    cases hb
    refine Stm.calls_seq (n := 0) (k := 1) ?_ (Stm.calls_deferring (n := 0) (k := 1) ?_ (Stm.calls_passTo m _))
    · unfold Log.before
      split
      · exact Stm.calls_getAll fun vs => Stm.calls_seq (n := 0) (k := 0) Stm.calls_declare Stm.calls_lib0
      · exact Stm.calls_lib0
    · unfold Log.after
      split
      · exact Stm.calls_getAll fun vs => Stm.calls_block (ifErr0 _ _ Stm.calls_lib0 Stm.calls_lib0)
      · exact Stm.calls_lib0
  | logrus d =>
    refine promoted _ fun b hb => ?_
    cases hb
    have hline : ∀ l f s, (d.line l f s).Calls 0 := fun l f s =>
      Stm.calls_global (Stm.calls_lib1 fun _ => Stm.calls_lib0)
    refine Stm.calls_seq (n := 0) (k := 1) ?_ (Stm.calls_deferring (n := 0) (k := 1) ?_ (Stm.calls_passTo m _))
    · unfold Logrus.before
      split
      · exact Stm.calls_getAll fun vs => hline _ _ _
      · exact Stm.calls_lib0
    · unfold Logrus.after
      split
      · exact Stm.calls_getAll fun vs => ifErr0 _ _ (hline _ _ _) (hline _ _ _)
      · exact Stm.calls_lib0
  | prometheus d =>
    refine promoted _ fun b hb => ?_
    cases hb
    refine Stm.calls_global (Stm.calls_op rfl fun t => Stm.calls_seq (n := 0) (k := 1) Stm.calls_declare
      (Stm.calls_deferring (n := 0) (k := 1) ?_ (Stm.calls_passTo m _)))
    exact Stm.calls_block (Stm.calls_seq (n := 0) (k := 0) (ifErr0 _ _ Stm.calls_assign Stm.calls_skip)
      (Stm.calls_global (Stm.calls_get fun _ => Stm.calls_lib1 fun _ => Stm.calls_global
        (Stm.calls_get fun _ => Stm.calls_lib1 fun _ => Stm.calls_lib0))))
  | opentracing d =>
    refine promoted _ fun b hb => ?_
    simp only [Observer.decorator, Tracing.openTracingDecorator] at hb
    split at hb <;> cases hb
    exact Stm.calls_global (Stm.calls_get fun _ => Stm.calls_lib2 fun _ _ => tail _ _ _ _ _
      (fun v => Stm.calls_global (Stm.calls_seq (n := 0) (k := 0) Stm.calls_lib0 (Stm.calls_global
        (Stm.calls_lib1 fun _ => Stm.calls_get fun _ => Stm.calls_lib1 fun _ => Stm.calls_lib1 fun _ =>
          Stm.calls_lib0)))) (fun v => Stm.calls_lib0))
  | opencensus d =>
    refine promoted _ fun b hb => ?_
    simp only [Observer.decorator, Tracing.openCensusDecorator] at hb
    split at hb <;> cases hb
    exact Stm.calls_global (Stm.calls_get fun _ => Stm.calls_lib2 fun _ _ => tail _ _ _ _ _
      (fun v => Stm.calls_global (Stm.calls_lib1 fun _ => Stm.calls_lib1 fun _ => Stm.calls_get fun _ =>
        Stm.calls_lib1 fun _ => Stm.calls_lib1 fun _ => Stm.calls_lib0)) (fun v => Stm.calls_lib0))
  | opentelemetry d =>
    refine promoted _ fun b hb => ?_
    simp only [Observer.decorator, Tracing.openTelemetryDecorator] at hb
    split at hb <;> cases hb
    exact Stm.calls_global (Stm.calls_lib1 fun _ => Stm.calls_get fun _ => Stm.calls_lib2 fun _ _ =>
      tail _ _ _ _ _ (fun v => Stm.calls_get fun _ => Stm.calls_seq (n := 0) (k := 0) Stm.calls_lib0
        (Stm.calls_global (Stm.calls_lib1 fun _ => Stm.calls_seq (n := 0) (k := 0) Stm.calls_lib0
          (Stm.calls_global (Stm.calls_lib1 fun _ => Stm.calls_lib1 fun _ => Stm.calls_lib1 fun _ =>
            Stm.calls_lib0))))) (fun v => Stm.calls_lib0))
  | elasticapm d =>
    refine promoted _ fun b hb => ?_
    simp only [Observer.decorator, Apm.decorator] at hb
    split at hb <;> cases hb
    refine Stm.calls_get fun _ => Stm.calls_lib2 fun _ _ => Stm.calls_seq (n := 0) (k := 1) Stm.calls_declare
      (Stm.calls_seq (n := 0) (k := 1) Stm.calls_assign (Stm.calls_deferring (n := 0) (k := 1) ?_
        (Stm.calls_seq (n := 0) (k := 1) ?_ (Stm.calls_passTo m _))))
    · exact Stm.calls_seq (n := 0) (k := 0) (ifErr0 _ _ (Stm.calls_get fun _ => Stm.calls_get fun _ =>
        Stm.calls_lib0) Stm.calls_skip) (Stm.calls_get fun _ => Stm.calls_lib0)
    · have labels : ∀ ps, (d.labels ps).Calls 0 := by
        intro ps
        induction ps with
        | nil => exact Stm.calls_skip
        | cons p ps ih =>
          rw [Apm.labels]
          split
          · exact ih
          · exact Stm.calls_seq (n := 0) (k := 0) (Stm.calls_get fun _ => Stm.calls_get fun _ => Stm.calls_lib0) ih
      exact labels _

example : (implCalls findTraced).length ≤ 1 :=
  C56_at_most_once demoTypes (.opentracing finderTracing) find (g!"_d", .nil) [.obj 1, .int 5] findTraced
    (Tree.Run.reaches (tr' := []) findTraced_run)

/-! ## C57 -/

/-- The full claim of C57, the part about the end of spans: once the implementation was called the span is
finished exactly once, whatever happens afterwards. -/
def C57_full : Prop := ∀ (G : GoTypes) (d : Tracing) (m : Method) (recv : Str × Val) (args : List Val)
  (tr : List Event) (o : Outcome), Callable m recv (Observer.opentracing d).idents args →
  m.acceptsContext = true → (d.openTracingDecorator.call G m recv args).Run tr o → implCalls tr ≠ [] →
  (callsOf g!"opentracing.Finish" tr).length = 1

/-- C57 does not hold: if the custom span decorator panics the span is not finished, because both are in
the same deferred function. -/
theorem C57_full_false : ¬ C57_full := by
  intro h
  let d : Tracing := ⟨⟨g!"Finder", g!"Finder"⟩, .obj 0, g!"db", .obj 3, g!"Finder"⟩
  have := h demoTypes d find (g!"_d", .nil) [.obj 1, .int 5]
    [⟨.lib g!"opentracing.StartSpanFromContext" [.obj 1, .str g!"db.Finder.Find"] 2, Except.ok ⟨[.obj 7, .obj 8], rfl⟩⟩,
      ⟨.impl (.obj 0) g!"Find" [.obj 8, .int 5] 2, Except.ok ⟨[.str [], .nil], rfl⟩⟩,
      ⟨.lib g!"_spanDecorator" [.obj 3, .obj 7, .map [(g!"ctx", .obj 8), (g!"id", .int 5)],
        .map [(g!"s1", .str []), (g!"err", .nil)]] 0, Except.error (.str g!"oops")⟩]
    (.panic (.str g!"oops"))
    (find_callable _ _ _ (by decide)) rfl
    ⟨_, _, rfl, _, _, rfl, _, _, rfl, rfl, rfl⟩ (by simp [implCalls])
  simp [callsOf, libCalls] at this

/-- **C57** (partial), log: one line before and one after the call, the latter to the error log exactly if
the call failed.  What is missing, here and below: panics of library functions, see `C57_full_false`,
and methods that use an identifier of the template. -/
theorem C57_log_partial (G : GoTypes) (d : Log) (m : Method) (recv : Str × Val) (args : List Val)
    (tr : List Event) (o : Outcome) (h : Callable m recv (Observer.log d).idents args)
    (hr : (d.decorator.call G m recv args).Run tr o) (hl : LibsReturn tr) :
    ∃ res logger line, o = passedOn res ∧
      seen tr = [.lib ⟨g!"log.Println", d.lineBefore m args, .ok []⟩, .impl ⟨d.base, m.name, args, res⟩,
        .lib ⟨g!"log.Println", logger :: line, .ok []⟩] ∧
      (Failed m res → logger = d.errlog ∧ ∃ vs, res = .ok vs ∧
        line = .str (d.dec ++ g!": " ++ m.name ++ g!" returned results:") :: vs) ∧
      (¬ Failed m res → logger = d.stdlog) := by
  obtain ⟨res, ho, hs⟩ := log_runs G d h tr o hr hl
  have hiff := failedVals_after G h.ok res
  cases hh : m.hasResults with
  | false =>
    refine ⟨res, d.stdlog, [.str (d.dec ++ g!": " ++ m.name ++ g!" finished")], ho, ?_, ?_, fun _ => rfl⟩
    · rw [hs, Log.lineAfter, if_neg (by simp [hh])]
    · intro hf
      obtain ⟨init, last, hi, _⟩ := h.ok.err hf.1
      simp [Method.hasResults, hi] at hh
  | true =>
    refine ⟨res, if failedVals m (resultsAfter (m.zeros G) res) then d.errlog else d.stdlog,
      .str (d.dec ++ g!": " ++ m.name ++ g!" returned results:") :: resultsAfter (m.zeros G) res, ho, ?_, ?_, ?_⟩
    · rw [hs, Log.lineAfter, if_pos hh]
    · intro hf
      rw [if_pos (hiff.2 hf)]
      obtain ⟨_, vs, e, rfl, _⟩ := hf
      exact ⟨rfl, vs, rfl, rfl⟩
    · intro hf
      rw [if_neg (fun hc => hf (hiff.1 hc))]

/-- A failing call of `Find` through log. -/
example : ∃ tr, ((Log.mk g!"L" (.obj 0) (.obj 1) (.obj 2)).decorator.call demoTypes find (g!"_d", .nil)
      [.obj 3, .int 5]).Run tr (.ret [.str [], .obj 9]) ∧ LibsReturn tr ∧ seen tr =
    [.lib ⟨g!"log.Println", [.obj 1, .str g!"L: calling Find with params:", .obj 3, .int 5], .ok []⟩,
      .impl ⟨.obj 0, g!"Find", [.obj 3, .int 5], .ok [.str [], .obj 9]⟩,
      .lib ⟨g!"log.Println", [.obj 2, .str g!"L: Find returned results:", .str [], .obj 9], .ok []⟩] :=
  ⟨[⟨.lib g!"log.Println" [.obj 1, .str g!"L: calling Find with params:", .obj 3, .int 5] 0, Except.ok ⟨[], rfl⟩⟩,
      ⟨.impl (.obj 0) g!"Find" [.obj 3, .int 5] 2, Except.ok ⟨[.str [], .obj 9], rfl⟩⟩,
      ⟨.lib g!"log.Println" [.obj 2, .str g!"L: Find returned results:", .str [], .obj 9] 0, Except.ok ⟨[], rfl⟩⟩],
    ⟨_, _, rfl, _, _, rfl, _, _, rfl, rfl, rfl⟩, by simp [LibsReturn, libCalls, plain], rfl⟩

/-- **C57** (partial), logrus: one line before and one after the call, the latter at error level and with
the results exactly if the call failed. -/
theorem C57_logrus_partial (G : GoTypes) (d : Logrus) (m : Method) (recv : Str × Val) (args : List Val)
    (tr : List Event) (o : Outcome) (h : Callable m recv (Observer.logrus d).idents args)
    (hr : (d.decorator.call G m recv args).Run tr o) (hl : LibsReturn tr) :
    ∃ res L1 L2, o = passedOn res ∧ seen tr = L1 ++ .impl ⟨d.base, m.name, args, res⟩ :: L2 ∧
      d.Before m args L1 ∧
      (Failed m res → ∃ vs, res = .ok vs ∧ d.Line g!"logrus.Error" m.rnames vs
        (d.dec ++ g!": method " ++ m.name ++ g!" returned an error") L2) ∧
      (¬ Failed m res → m.results ≠ [] → d.Line g!"logrus.Debug" m.rnames (resultsAfter (m.zeros G) res)
        (d.dec ++ g!": method " ++ m.name ++ g!" finished") L2) ∧
      (m.results = [] →
        L2 = [.lib ⟨g!"logrus.Debug", [d.log, .str (d.dec ++ g!": " ++ m.name ++ g!" finished")], .ok []⟩]) := by
  obtain ⟨res, L1, L2, ho, hs, h1, h2⟩ := logrus_runs G d h tr o hr hl
  have hiff := failedVals_after G h.ok res
  refine ⟨res, L1, L2, ho, hs, h1, ?_, ?_, ?_⟩
  · intro hf
    obtain ⟨init, last, hi, _⟩ := h.ok.err hf.1
    rw [Logrus.After, if_pos (by simp [Method.hasResults, hi]), if_pos (hiff.2 hf)] at h2
    obtain ⟨_, vs, e, rfl, _⟩ := hf
    exact ⟨vs, rfl, h2⟩
  · intro hf hne
    rwa [Logrus.After, if_pos (by simp [Method.hasResults, List.length_pos_iff, hne]),
      if_neg (fun hc => hf (hiff.1 hc))] at h2
  · intro he
    rwa [Logrus.After, if_neg (by simp [Method.hasResults, he])] at h2

/-- A panicking call of `Find` through logrus. -/
example : ∃ tr, ((Logrus.mk g!"L" (.obj 0) (.obj 1)).decorator.call demoTypes find (g!"_d", .nil)
      [.obj 3, .int 5]).Run tr (.panic (.int 4)) ∧ LibsReturn tr :=
  ⟨[⟨.lib g!"logrus.WithFields" [.obj 1, .map [(g!"ctx", .obj 3), (g!"id", .int 5)]] 1, Except.ok ⟨[.obj 6], rfl⟩⟩,
      ⟨.lib g!"logrus.Debug" [.obj 6, .str g!"L: calling Find"] 0, Except.ok ⟨[], rfl⟩⟩,
      ⟨.impl (.obj 0) g!"Find" [.obj 3, .int 5] 2, Except.error (.int 4)⟩,
      ⟨.lib g!"logrus.WithFields" [.obj 1, .map [(g!"s1", .str []), (g!"err", .nil)]] 1, Except.ok ⟨[.obj 7], rfl⟩⟩,
      ⟨.lib g!"logrus.Debug" [.obj 7, .str g!"L: method Find finished"] 0, Except.ok ⟨[], rfl⟩⟩],
    ⟨_, _, rfl, _, _, rfl, _, _, rfl, _, _, rfl, _, _, rfl, rfl, rfl⟩, by simp [LibsReturn, libCalls, plain]⟩

/-- **C57** (partial), prometheus: one duration since the start of the call, labelled `error` exactly if the
call failed. -/
theorem C57_prometheus_partial (G : GoTypes) (d : Prometheus) (m : Method) (recv : Str × Val)
    (args : List Val) (tr : List Event) (o : Outcome) (h : Callable m recv (Observer.prometheus d).idents args)
    (hr : (d.decorator.call G m recv args).Run tr o) (hl : LibsReturn tr) :
    ∃ (t : Int) (tr' : List Event) (res : _) (label : Str) (observer seconds : Val), o = passedOn res ∧
      tr = ⟨.now, t⟩ :: tr' ∧
      seen tr' = [.impl ⟨d.base, m.name, args, res⟩,
        .lib ⟨g!"prometheus.WithLabelValues", [.str d.instanceName, .str m.name, .str label], .ok [observer]⟩,
        .lib ⟨g!"time.Since", [.int t], .ok [seconds]⟩,
        .lib ⟨g!"prometheus.Observe", [observer, seconds], .ok []⟩] ∧
      (Failed m res → label = g!"error") ∧ (¬ Failed m res → label = g!"ok") := by
  obtain ⟨t, tr', res, L, ho, rfl, hs, ob, sec, rfl⟩ := prometheus_runs G d h tr o hr hl
  have hiff := failedVals_after G h.ok res
  refine ⟨t, tr', res, _, ob, sec, ho, rfl, hs, ?_, ?_⟩
  · intro hf; rw [if_pos (hiff.2 hf)]
  · intro hf; rw [if_neg (fun hc => hf (hiff.1 hc))]

/-- A failing call of `Find` through prometheus. -/
example : ∃ tr, ((Prometheus.mk g!"Finder" (.obj 0) g!"db" Uni.ascii).decorator.call demoTypes find (g!"_d", .nil)
      [.obj 3, .int 5]).Run tr (.ret [.str [], .obj 9]) ∧ LibsReturn tr ∧
    ∃ c ∈ callsOf g!"prometheus.WithLabelValues" tr, c.args = [.str g!"db", .str g!"Find", .str g!"error"] :=
  ⟨[⟨.now, (100 : Int)⟩,
      ⟨.impl (.obj 0) g!"Find" [.obj 3, .int 5] 2, Except.ok ⟨[.str [], .obj 9], rfl⟩⟩,
      ⟨.lib g!"prometheus.WithLabelValues" [.str g!"db", .str g!"Find", .str g!"error"] 1, Except.ok ⟨[.obj 6], rfl⟩⟩,
      ⟨.lib g!"time.Since" [.int 100] 1, Except.ok ⟨[.int 7], rfl⟩⟩,
      ⟨.lib g!"prometheus.Observe" [.obj 6, .int 7] 0, Except.ok ⟨[], rfl⟩⟩],
    ⟨_, _, rfl, _, _, rfl, _, _, rfl, _, _, rfl, _, _, rfl, rfl, rfl⟩, by simp [LibsReturn, libCalls, plain],
    by simp [callsOf, libCalls]⟩

/-- What the tracing templates do between the call and the end of the span. -/
def Marked (d : Tracing) (m : Method) (marks : Val → Val → List Seen → Prop) (span : Val) (args : List Val)
    (zeros : List Val) (res : Except Val (List Val)) (L : List Seen) : Prop :=
  (d.spanDecorator.isNil = true → Failed m res → ∃ vs e, res = .ok vs ∧ vs.getLast? = some e ∧ marks span e L) ∧
  (d.spanDecorator.isNil = true → ¬ Failed m res → L = []) ∧
  (d.spanDecorator.isNil = false → L = [.lib ⟨g!"_spanDecorator", [d.spanDecorator, span,
    Method.mapOf m.pnames args, Method.mapOf m.rnames (resultsAfter zeros res)], .ok []⟩])

theorem marked_of_mid {G : GoTypes} {d : Tracing} {m : Method} {marks : Val → Val → List Seen → Prop} {span : Val}
    {args : List Val} {res : Except Val (List Val)} {L : List Seen} (hok : MethodOk m)
    (h : d.Mid m marks span args (resultsAfter (m.zeros G) res) L) :
    Marked d m marks span args (m.zeros G) res L := by
  have hiff := failedVals_after G hok res
  unfold Tracing.Mid at h
  refine ⟨?_, ?_, ?_⟩
  · intro hn hf
    rw [if_pos hn, if_pos (hiff.2 hf)] at h
    obtain ⟨_, vs, e, rfl, _⟩ := hf
    obtain ⟨e', he', hm⟩ := h
    exact ⟨vs, e', rfl, he', hm⟩
  · intro hn hf
    rwa [if_pos hn, if_neg (fun hc => hf (hiff.1 hc))] at h
  · intro hn
    rwa [if_neg (by simp [hn])] at h

/-- **C57** (partial), opentracing: one span is started and, as the last thing, finished, also if the
implementation panics; it is marked as failed exactly if the call failed and no span decorator is
installed. -/
theorem C57_opentracing_partial (G : GoTypes) (d : Tracing) (m : Method) (recv : Str × Val) (args : List Val)
    (tr : List Event) (o : Outcome) (h : Callable m recv (Observer.opentracing d).idents args)
    (hc : m.acceptsContext = true) (hr : (d.openTracingDecorator.call G m recv args).Run tr o)
    (hl : LibsReturn tr) :
    ∃ c rest span c' res L, args = c :: rest ∧ o = passedOn res ∧
      seen tr = .lib ⟨g!"opentracing.StartSpanFromContext",
          [c, .str (d.inst ++ g!"." ++ d.iface.type ++ g!"." ++ m.name)], .ok [span, c']⟩ ::
        .impl ⟨d.base, m.name, c' :: rest, res⟩ :: L ++ [.lib ⟨g!"opentracing.Finish", [span], .ok []⟩] ∧
      Marked d m openTracingMarks span (c' :: rest) (m.zeros G) res L := by
  obtain ⟨c, a', span, c', res, L, ha, ho, hs, hm⟩ := openTracing_runs G d h hc tr o hr hl
  exact ⟨c, a', span, c', res, L, ha, ho, hs, marked_of_mid h.ok hm⟩

example : ∃ c rest span c' res L, [Val.obj 1, .int 5] = c :: rest ∧ Outcome.ret [.str [], .obj 9] = passedOn res ∧
    seen findTraced = .lib ⟨g!"opentracing.StartSpanFromContext",
        [c, .str (finderTracing.inst ++ g!"." ++ finderTracing.iface.type ++ g!"." ++ find.name)], .ok [span, c']⟩ ::
      .impl ⟨.obj 0, find.name, c' :: rest, res⟩ :: L ++ [.lib ⟨g!"opentracing.Finish", [span], .ok []⟩] ∧
    Marked finderTracing find openTracingMarks span (c' :: rest) (find.zeros demoTypes) res L :=
  C57_opentracing_partial demoTypes finderTracing find (g!"_d", .nil) [.obj 1, .int 5] findTraced _
    (find_callable _ _ _ (by decide)) rfl findTraced_run findTraced_libs

/-- **C57** (partial), opencensus. -/
theorem C57_opencensus_partial (G : GoTypes) (d : Tracing) (m : Method) (recv : Str × Val) (args : List Val)
    (tr : List Event) (o : Outcome) (h : Callable m recv (Observer.opencensus d).idents args)
    (hc : m.acceptsContext = true) (hr : (d.openCensusDecorator.call G m recv args).Run tr o)
    (hl : LibsReturn tr) :
    ∃ c rest span c' res L, args = c :: rest ∧ o = passedOn res ∧
      seen tr = .lib ⟨g!"trace.StartSpan",
          [c, .str (d.inst ++ g!"." ++ d.iface.type ++ g!"." ++ m.name)], .ok [c', span]⟩ ::
        .impl ⟨d.base, m.name, c' :: rest, res⟩ :: L ++ [.lib ⟨g!"trace.End", [span], .ok []⟩] ∧
      Marked d m openCensusMarks span (c' :: rest) (m.zeros G) res L := by
  obtain ⟨c, a', span, c', res, L, ha, ho, hs, hm⟩ := openCensus_runs G d h hc tr o hr hl
  exact ⟨c, a', span, c', res, L, ha, ho, hs, marked_of_mid h.ok hm⟩

/-- A successful call of `Find` through opencensus. -/
example : ∃ tr, (finderTracing.openCensusDecorator.call demoTypes find (g!"_d", .nil)
      [.obj 3, .int 5]).Run tr (.ret [.str g!"x", .nil]) ∧ LibsReturn tr :=
  ⟨[⟨.lib g!"trace.StartSpan" [.obj 3, .str g!"db.Finder.Find"] 2, Except.ok ⟨[.obj 8, .obj 7], rfl⟩⟩,
      ⟨.impl (.obj 0) g!"Find" [.obj 8, .int 5] 2, Except.ok ⟨[.str g!"x", .nil], rfl⟩⟩,
      ⟨.lib g!"trace.End" [.obj 7] 0, Except.ok ⟨[], rfl⟩⟩],
    ⟨_, _, rfl, _, _, rfl, _, _, rfl, rfl, rfl⟩, by simp [LibsReturn, libCalls, plain]⟩

/-- **C57** (partial), opentelemetry. -/
theorem C57_opentelemetry_partial (G : GoTypes) (d : Tracing) (m : Method) (recv : Str × Val) (args : List Val)
    (tr : List Event) (o : Outcome) (h : Callable m recv (Observer.opentelemetry d).idents args)
    (hc : m.acceptsContext = true) (hr : (d.openTelemetryDecorator.call G m recv args).Run tr o)
    (hl : LibsReturn tr) :
    ∃ c rest tracer span c' res L, args = c :: rest ∧ o = passedOn res ∧
      seen tr = .lib ⟨g!"otel.Tracer", [.str d.inst], .ok [tracer]⟩ ::
        .lib ⟨g!"trace.Start", [tracer, c, .str (d.spanNameType ++ g!"." ++ m.name)], .ok [c', span]⟩ ::
        .impl ⟨d.base, m.name, c' :: rest, res⟩ :: L ++ [.lib ⟨g!"trace.End", [span], .ok []⟩] ∧
      Marked d m openTelemetryMarks span (c' :: rest) (m.zeros G) res L := by
  obtain ⟨c, a', tracer, span, c', res, L, ha, ho, hs, hm⟩ := openTelemetry_runs G d h hc tr o hr hl
  exact ⟨c, a', tracer, span, c', res, L, ha, ho, hs, marked_of_mid h.ok hm⟩

/-- A call of `Find` that panics, through opentelemetry: the span is ended. -/
example : ∃ tr, (finderTracing.openTelemetryDecorator.call demoTypes find (g!"_d", .nil)
      [.obj 3, .int 5]).Run tr (.panic (.int 4)) ∧ LibsReturn tr ∧
      (callsOf g!"trace.End" tr).map (·.args) = [[.obj 7]] :=
  ⟨[⟨.lib g!"otel.Tracer" [.str g!"db"] 1, Except.ok ⟨[.obj 6], rfl⟩⟩,
      ⟨.lib g!"trace.Start" [.obj 6, .obj 3, .str g!"Finder.Find"] 2, Except.ok ⟨[.obj 8, .obj 7], rfl⟩⟩,
      ⟨.impl (.obj 0) g!"Find" [.obj 8, .int 5] 2, Except.error (.int 4)⟩,
      ⟨.lib g!"trace.End" [.obj 7] 0, Except.ok ⟨[], rfl⟩⟩],
    ⟨_, _, rfl, _, _, rfl, _, _, rfl, _, _, rfl, rfl, rfl⟩, by simp [LibsReturn, libCalls, plain], rfl⟩

/-- **C57** (partial), elasticapm: one span is started, labelled with every parameter but the context, and
ended as the last thing; the error is captured exactly if the call failed. -/
theorem C57_elasticapm_partial (G : GoTypes) (d : Apm) (m : Method) (recv : Str × Val) (args : List Val)
    (tr : List Event) (o : Outcome) (h : Callable m recv (Observer.elasticapm d).idents args)
    (hc : m.acceptsContext = true) (hr : (d.decorator.call G m recv args).Run tr o) (hl : LibsReturn tr) :
    ∃ c rest span c' res L, args = c :: rest ∧ o = passedOn res ∧
      seen tr = .lib ⟨g!"startSpan", [c, .str (d.component ++ g!"." ++ m.name), .str d.spanType],
          .ok [span, c']⟩ :: (d.labelCalls span m.pnames (c' :: rest) ++
        .impl ⟨d.base, m.name, c' :: rest, res⟩ :: L ++ [.lib ⟨g!"endSpan", [span], .ok []⟩]) ∧
      (Failed m res → ∃ vs e, res = .ok vs ∧ vs.getLast? = some e ∧
        L = [.lib ⟨g!"captureError", [c', e], .ok []⟩]) ∧
      (¬ Failed m res → L = []) := by
  obtain ⟨c, a', span, c', res, L, ha, ho, hs, hm⟩ := apm_runs G d h hc tr o hr hl
  have hiff := failedVals_after G h.ok res
  by_cases hf : Failed m res
  · rw [if_pos (hiff.2 hf)] at hm
    obtain ⟨e, he, rfl⟩ := hm
    obtain ⟨_, vs, e', rfl, _⟩ := id hf
    exact ⟨c, a', span, c', .ok vs, [.lib ⟨g!"captureError", [c', e], .ok []⟩], ha, ho, by rw [hs]; simp,
      fun _ => ⟨vs, e, rfl, he, rfl⟩, fun hn => absurd hf hn⟩
  · rw [if_neg (fun hc => hf (hiff.1 hc))] at hm
    subst hm
    exact ⟨c, a', span, c', res, [], ha, ho, by rw [hs]; simp, fun h => absurd h hf, fun _ => rfl⟩

/-- A failing call of `Find` through elasticapm. -/
example : ∃ tr, ((Apm.mk (.obj 0) g!"db" g!"ext" Uni.ascii).decorator.call demoTypes find (g!"_d", .nil)
      [.obj 3, .int 5]).Run tr (.ret [.str [], .obj 9]) ∧ LibsReturn tr :=
  ⟨[⟨.lib g!"startSpan" [.obj 3, .str g!"db.Find", .str g!"ext"] 2, Except.ok ⟨[.obj 7, .obj 8], rfl⟩⟩,
      ⟨.lib g!"setLabel" [.obj 7, .str g!"id", .int 5] 0, Except.ok ⟨[], rfl⟩⟩,
      ⟨.impl (.obj 0) g!"Find" [.obj 8, .int 5] 2, Except.ok ⟨[.str [], .obj 9], rfl⟩⟩,
      ⟨.lib g!"captureError" [.obj 8, .obj 9] 0, Except.ok ⟨[], rfl⟩⟩,
      ⟨.lib g!"endSpan" [.obj 7] 0, Except.ok ⟨[], rfl⟩⟩],
    ⟨_, _, rfl, _, _, rfl, _, _, rfl, _, _, rfl, _, _, rfl, rfl, rfl⟩, by simp [LibsReturn, libCalls, plain]⟩

end Gowrap.Props

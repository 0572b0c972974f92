import Verif.Proofs.ExecEnv
import Verif.Spec.Observe
/-! # Runs of the observability decorators -/

namespace Gowrap

open Spec Tmpl

variable {m : Method} {loc : Env} {a r : List Val}

theorem does_ifErr {P : List Seen → Prop} (h : m.Fits a r) {env : Env}
    (henv : env g!"err" = m.env loc a r g!"err") {t e : Stm} {x : Env × Flow}
    (h1 : failedVals m r = true → (t env).Does P x) (h2 : failedVals m r = false → (e env).Does P x) :
    (ifErr m t e env).Does P x := by
  unfold ifErr
  unfold failedVals at h1 h2
  cases hm : m.returnsError with
  | false => simp [hm] at h2; simpa using h2
  | true =>
    obtain ⟨r', v, rfl⟩ := Method.results_err h hm
    rw [if_pos rfl, Stm.get_apply (v := v) (by rw [henv, Method.env_err h hm])]
    cases hv : v.isNil <;> simp [hv, hm] at h1 h2 ⊢ <;> assumption

theorem returnsError_of_failed (h : failedVals m r = true) : m.returnsError = true := by
  simp only [failedVals, Bool.and_eq_true] at h
  exact h.1

/-- The error is a variable if the call failed. -/
theorem env_err_failed (h : m.Fits a r) (hf : failedVals m r = true) :
    ∃ e, r.getLast? = some e ∧ ∀ loc : Env, m.env loc a r g!"err" = some e := by
  obtain ⟨r', v, rfl⟩ := Method.results_err h (returnsError_of_failed hf)
  exact ⟨v, by simp, fun loc => Method.env_err h (returnsError_of_failed hf)⟩

/-! ## log -/

theorem does_log_after (d : Log) (h : m.Fits a r) :
    (d.after m (m.env loc a r)).Does (· = [.lib ⟨g!"log.Println", d.lineAfter m r, .ok []⟩])
      (m.env loc a r, .next) := by
  unfold Log.after Log.lineAfter
  split
  · rw [Stm.getAll_apply (Method.env_all_results h)]
    refine Stm.does_block1 ?_
    refine does_ifErr h (loc := loc) (by rw [Env.set_other _ _ (by decide)]) ?_ ?_
    · intro hf; rw [if_pos hf]; exact Stm.does_lib0 rfl
    · intro hf; rw [if_neg (by simp [hf])]; exact Stm.does_lib0 rfl
  · exact Stm.does_lib0 rfl

theorem does_log_before (d : Log) (h : m.Fits a r) (hf : g!"_params" ∉ m.pnames ++ m.rnames)
    (hl : loc g!"_params" = none) :
    ∃ loc', (d.before m (m.env loc a r)).Does (· = [.lib ⟨g!"log.Println", d.lineBefore m a, .ok []⟩])
      (m.env loc' a r, .next) := by
  unfold Log.before Log.lineBefore
  split
  · refine ⟨loc.set g!"_params" (.slice (.str (d.dec ++ g!": calling " ++ m.name ++ g!" with params:") :: a)), ?_⟩
    rw [Stm.getAll_apply (Method.env_all_params h)]
    rw [Stm.seq_declare (by rw [Method.env_other hf, hl]), Method.env_set_other h hf]
    exact Stm.does_lib0 rfl
  · exact ⟨loc, Stm.does_lib0 rfl⟩

/-- A method body that ends with a deferred function and `Pass`, seen from its last part. -/
theorem runs_deferred {after : Stm} {base : Val} {P : List Val → List Seen → Prop} (h : m.Fits a r)
    (hafter : ∀ r', m.Fits a r' → ∃ loc', (after (m.env loc a r')).Does (P r') (m.env loc' a r', .next))
    (pre : List Event) :
    (Stm.deferring after (m.passTo base) (m.env loc a r)).AllG fun tr x =>
      (m.finish x).AllG fun tr' o => ∃ res L, o = passedOn res ∧ P (resultsAfter r res) L ∧
        seen (pre ++ (tr ++ tr')) = seen pre ++ .impl ⟨base, m.name, a, res⟩ :: L := by
  have := allG_deferred_pass (m := m) (loc := loc) (base := base) (after := after) h hafter
    (Q := fun tr' o => ∃ res L, o = passedOn res ∧ P (resultsAfter r res) L ∧
      seen (pre ++ tr') = seen pre ++ .impl ⟨base, m.name, a, res⟩ :: L)
    (by
      intro res tr' L hp hs
      exact ⟨res, L, rfl, hp, by rw [seen_append, hs]⟩)
  rwa [Tree.allG_bind] at this

theorem log_runs (G : GoTypes) (d : Log) {recv : Str × Val} {args : List Val}
    (h : Callable m recv [g!"_params"] args) :
    (d.decorator.call G m recv args).AllG fun tr o => ∃ res, o = passedOn res ∧
      seen tr = [.lib ⟨g!"log.Println", d.lineBefore m args, .ok []⟩, .impl ⟨d.base, m.name, args, res⟩,
        .lib ⟨g!"log.Println", d.lineAfter m (resultsAfter (m.zeros G) res), .ok []⟩] := by
  have hf := h.fits G
  obtain ⟨hl, hn⟩ := h.fresh (x := g!"_params") (by simp)
  show (m.exec G recv (d.body m) args).AllG _
  rw [Method.exec_apply G h.declared, Log.body, Tree.allG_bind, Stm.allG_seq]
  obtain ⟨loc', hb⟩ := does_log_before d hf hn hl
  refine hb.allG fun tr htr => ?_
  refine (runs_deferred hf (fun r' hr' => ⟨loc', does_log_after d hr'⟩) tr).mono fun tr' x hx =>
    hx.mono fun tr'' o ho => ?_
  obtain ⟨res, L, ho, rfl, hs⟩ := ho
  exact ⟨res, ho, by rw [List.append_assoc, hs, htr]; rfl⟩

/-! ## logrus -/

theorem does_logrus_line (d : Logrus) (level : Str) (names : List Str) (vs : List Val) (msg : Str) {env : Env}
    (h : env g!"logrus" = none) :
    (d.line level (Method.mapOf names vs) msg env).Does (d.Line level names vs msg) (env, .next) := by
  rw [Logrus.line, Stm.global_apply h]
  exact Stm.does_lib1 fun entry => Stm.does_lib0 ⟨entry, rfl⟩

theorem does_logrus_after (d : Logrus) (h : m.Fits a r) (hn : g!"logrus" ∉ m.pnames ++ m.rnames)
    (hl : loc g!"logrus" = none) :
    (d.after m (m.env loc a r)).Does (d.After m r) (m.env loc a r, .next) := by
  have hg : m.env loc a r g!"logrus" = none := by rw [Method.env_other hn, hl]
  unfold Logrus.after
  split
  · rename_i hr
    rw [Stm.getAll_apply (Method.env_all_results h)]
    refine does_ifErr h (loc := loc) rfl ?_ ?_
    · intro hf
      exact (does_logrus_line d _ _ _ _ hg).mono fun L hL => by rw [Logrus.After, if_pos hr, if_pos hf]; exact hL
    · intro hf
      exact (does_logrus_line d _ _ _ _ hg).mono fun L hL => by
        rw [Logrus.After, if_pos hr, if_neg (by simp [hf])]; exact hL
  · rename_i hr
    exact Stm.does_lib0 (by rw [Logrus.After, if_neg hr])

theorem does_logrus_before (d : Logrus) (h : m.Fits a r) (hn : g!"logrus" ∉ m.pnames ++ m.rnames)
    (hl : loc g!"logrus" = none) :
    (d.before m (m.env loc a r)).Does (d.Before m a) (m.env loc a r, .next) := by
  have hg : m.env loc a r g!"logrus" = none := by rw [Method.env_other hn, hl]
  unfold Logrus.before
  split
  · rename_i hr
    rw [Stm.getAll_apply (Method.env_all_params h)]
    exact (does_logrus_line d _ _ _ _ hg).mono fun L hL => by rw [Logrus.Before, if_pos hr]; exact hL
  · rename_i hr
    exact Stm.does_lib0 (by rw [Logrus.Before, if_neg hr])

theorem logrus_runs (G : GoTypes) (d : Logrus) {recv : Str × Val} {args : List Val}
    (h : Callable m recv [g!"logrus"] args) :
    (d.decorator.call G m recv args).AllG fun tr o => ∃ res L1 L2, o = passedOn res ∧
      seen tr = L1 ++ .impl ⟨d.base, m.name, args, res⟩ :: L2 ∧ d.Before m args L1 ∧
      d.After m (resultsAfter (m.zeros G) res) L2 := by
  have hf := h.fits G
  obtain ⟨hl, hn⟩ := h.fresh (x := g!"logrus") (by simp)
  show (m.exec G recv (d.body m) args).AllG _
  rw [Method.exec_apply G h.declared, Logrus.body, Tree.allG_bind, Stm.allG_seq]
  refine (does_logrus_before d hf hn hl).allG fun tr htr => ?_
  refine (runs_deferred hf (fun r' hr' => ⟨_, does_logrus_after d hr' hn hl⟩) tr).mono fun tr' x hx =>
    hx.mono fun tr'' o ho => ?_
  obtain ⟨res, L, ho, hp, hs⟩ := ho
  exact ⟨res, _, L, ho, by rw [List.append_assoc, hs], htr, hp⟩

/-! ## prometheus -/

theorem Tmpl.Prometheus.vec_ne (d : Prometheus) : d.vec ≠ g!"result" ∧ d.vec ≠ g!"_since" := by
  constructor <;> intro h
  · have := congrArg List.getLast? h
    simp [Prometheus.vec] at this
  · have := congrArg List.getLast? h
    simp [Prometheus.vec] at this

theorem Env.leave_set_set (env : Env) (x : Str) (v w : Val) : ((env.set x v).set x w).leave env [x] = env := by
  funext y
  simp only [Env.leave, Env.set, List.mem_singleton]
  split <;> simp_all

theorem does_prometheus_after (d : Prometheus) (h : m.Fits a r) {t : Val}
    (hn : ∀ x ∈ [g!"time", g!"_since", d.vec], x ∉ m.pnames ++ m.rnames)
    (hl : loc g!"time" = none ∧ loc d.vec = none) (ht : loc g!"_since" = some t) :
    (d.after m (m.env loc a r)).Does (d.After m t r) (m.env loc a r, .next) := by
  have tail : ∀ (result : Val) (env : Env), env g!"result" = some result → env d.vec = none →
      env g!"time" = none → env g!"_since" = some t →
      (Stm.global d.vec (.get g!"result" fun result =>
        .lib1 g!"prometheus.WithLabelValues" [.str d.instanceName, .str m.name, result] fun observer =>
        .global g!"time" (.get g!"_since" fun since =>
        .lib1 g!"time.Since" [since] fun seconds =>
        .lib0 g!"prometheus.Observe" [observer, seconds])) env).Does (fun L => ∃ observer seconds, L =
          [.lib ⟨g!"prometheus.WithLabelValues",
            [.str d.instanceName, .str m.name, result], .ok [observer]⟩,
          .lib ⟨g!"time.Since", [t], .ok [seconds]⟩,
          .lib ⟨g!"prometheus.Observe", [observer, seconds], .ok []⟩]) (env, .next) := by
    intro result env h1 h2 h3 h4
    rw [Stm.global_apply h2, Stm.get_apply h1]
    refine Stm.does_lib1 fun observer => ?_
    rw [Stm.global_apply h3, Stm.get_apply h4]
    exact Stm.does_lib1 fun seconds => Stm.does_lib0 ⟨observer, seconds, rfl⟩
  have e1 := Method.env_other (loc := loc) (a := a) (r := r) (hn g!"time" (by simp))
  have e2 := Method.env_other (loc := loc) (a := a) (r := r) (hn g!"_since" (by simp))
  have e3 := Method.env_other (loc := loc) (a := a) (r := r) (hn d.vec (by simp))
  have hd := d.vec_ne
  rw [Prometheus.after]
  cases hfv : failedVals m r with
  | true =>
    refine Stm.does_block (env' := ((m.env loc a r).set g!"result" (.str g!"ok")).set g!"result" (.str g!"error"))
      ?_ (Env.leave_set_set _ _ _ _)
    simp only [Env.setAll]
    refine Stm.does_seq (P := (· = [])) (env' := ((m.env loc a r).set g!"result" (.str g!"ok")).set g!"result"
      (.str g!"error")) ?_ ?_
    · refine does_ifErr h (loc := loc) (by rw [Env.set_other _ _ (by decide)]) ?_ ?_
      · intro _
        rw [Stm.assign_apply (Env.set_same _ _ _)]
        exact Tree.Does.ret _ rfl
      · intro hc; rw [hfv] at hc; cases hc
    · rintro _ rfl
      refine (tail (.str g!"error") _ (Env.set_same _ _ _) ?_ ?_ ?_).mono fun L hL => ?_
      · rw [Env.set_other _ _ hd.1, Env.set_other _ _ hd.1, e3, hl.2]
      · rw [Env.set_other _ _ (by decide), Env.set_other _ _ (by decide), e1, hl.1]
      · rw [Env.set_other _ _ (by decide), Env.set_other _ _ (by decide), e2, ht]
      · rw [Prometheus.After, hfv]; exact hL
  | false =>
    refine Stm.does_block1 ?_
    refine Stm.does_seq (P := (· = [])) (env' := (m.env loc a r).set g!"result" (.str g!"ok")) ?_ ?_
    · refine does_ifErr h (loc := loc) (by rw [Env.set_other _ _ (by decide)]) ?_ ?_
      · intro hc; rw [hfv] at hc; cases hc
      · intro _; exact Stm.does_skip rfl
    · rintro _ rfl
      refine (tail (.str g!"ok") _ (Env.set_same _ _ _) ?_ ?_ ?_).mono fun L hL => ?_
      · rw [Env.set_other _ _ hd.1, e3, hl.2]
      · rw [Env.set_other _ _ (by decide), e1, hl.1]
      · rw [Env.set_other _ _ (by decide), e2, ht]
      · rw [Prometheus.After, hfv]; exact hL

theorem prometheus_runs (G : GoTypes) (d : Prometheus) {recv : Str × Val} {args : List Val}
    (h : Callable m recv [g!"time", g!"_since", d.vec] args) :
    (d.decorator.call G m recv args).AllG fun tr o => ∃ (t : Int) (tr' : List Event) (res : _) (L : List Seen),
      o = passedOn res ∧ tr = ⟨.now, t⟩ :: tr' ∧
      seen tr' = .impl ⟨d.base, m.name, args, res⟩ :: L ∧ d.After m (.int t) (resultsAfter (m.zeros G) res) L := by
  have hf := h.fits G
  have f1 := h.fresh (x := g!"time") (by simp)
  have f2 := h.fresh (x := g!"_since") (by simp)
  have f3 := h.fresh (x := d.vec) (by simp)
  show (m.exec G recv (d.body m) args).AllG _
  rw [Method.exec_apply G h.declared, Prometheus.body, Tree.allG_bind,
    Stm.global_apply (by rw [Method.env_other f1.2, f1.1]), Stm.op_apply, Tree.allG_now]
  intro t
  rw [Stm.seq_declare (by rw [Method.env_other f2.2, f2.1]), Method.env_set_other hf f2.2]
  refine (runs_deferred hf (fun r' hr' => ⟨_, does_prometheus_after d hr' (t := .int t) ?_ ?_ ?_⟩)
    [⟨.now, t⟩]).mono fun tr' x hx => hx.mono fun tr'' o ho => ?_
  · intro x hx
    exact (h.fresh hx).2
  · exact ⟨by rw [Env.set_other _ _ (by decide), f1.1], by rw [Env.set_other _ _ d.vec_ne.2, f3.1]⟩
  · exact Env.set_same _ _ _
  · obtain ⟨res, L, ho, hp, hs⟩ := ho
    exact ⟨t, _, res, L, ho, rfl, hs, hp⟩

/-! ## Tracing -/

theorem does_tracing_after (d : Tracing) {onError finish : Val → Stm} {marks : Val → Val → List Seen → Prop}
    {fin : Str} {span : Val} (h : m.Fits a r) (hn : g!"_span" ∉ m.pnames ++ m.rnames)
    (hs : loc g!"_span" = some span)
    (herr : ∀ e, m.env loc a r g!"err" = some e →
      (onError span (m.env loc a r)).Does (marks span e) (m.env loc a r, .next))
    (hfin : finish span = .lib0 fin [span]) :
    (d.after m onError finish (m.env loc a r)).Does
      (fun L => ∃ L', L = L' ++ [.lib ⟨fin, [span], .ok []⟩] ∧ d.Mid m marks span a r L')
      (m.env loc a r, .next) := by
  rw [Tracing.after, Stm.get_apply (v := span) (by rw [Method.env_other hn, hs])]
  refine Stm.does_seq (P := d.Mid m marks span a r) (env' := m.env loc a r) ?_ ?_
  · unfold Tracing.Mid
    split
    · refine does_ifErr h (loc := loc) rfl ?_ ?_
      · intro hf
        obtain ⟨e, he⟩ := env_err_failed h hf
        refine (herr e (he.2 loc)).mono fun L hL => ?_
        rw [if_pos hf]
        exact ⟨e, he.1, hL⟩
      · intro hf
        exact Stm.does_skip (by simp [hf])
    · rw [Stm.getAll_apply (Method.env_all_params h), Stm.getAll_apply (Method.env_all_results h)]
      exact Stm.does_lib0 rfl
  · intro L hL
    rw [hfin]
    exact Stm.does_lib0 ⟨L, rfl, hL⟩

/-- The part of a tracing method after the span was started. -/
theorem tracing_runs (d : Tracing) {onError finish : Val → Stm} {marks : Val → Val → List Seen → Prop}
    {fin : Str} {span c c' : Val} {a' : List Val} (h : m.Fits (c :: a') r) (hc : m.acceptsContext = true)
    (hn : g!"_span" ∉ m.pnames ++ m.rnames) (hl : loc g!"_span" = none)
    (herr : ∀ r' e, m.Fits (c' :: a') r' → m.env (loc.set g!"_span" span) (c' :: a') r' g!"err" = some e →
      (onError span (m.env (loc.set g!"_span" span) (c' :: a') r')).Does (marks span e)
        (m.env (loc.set g!"_span" span) (c' :: a') r', .next))
    (hfin : finish span = .lib0 fin [span]) (pre : List Event) :
    (Stm.seq (.declare g!"_span" span) (.seq (.assign g!"ctx" c')
      (.deferring (d.after m onError finish) (m.passTo d.base))) (m.env loc (c :: a') r)).AllG fun tr x =>
        (m.finish x).AllG fun tr' o => ∃ res L, o = passedOn res ∧
          d.Mid m marks span (c' :: a') (resultsAfter r res) L ∧
          seen (pre ++ (tr ++ tr')) = seen pre ++ .impl ⟨d.base, m.name, c' :: a', res⟩ :: L ++
            [.lib ⟨fin, [span], .ok []⟩] := by
  rw [Stm.seq_declare (by rw [Method.env_other hn, hl]), Method.env_set_other h hn,
    Stm.seq_assign (Method.env_ctx h hc), Method.env_set_ctx h hc]
  refine (runs_deferred h.ctx (fun r' hr' => ⟨_, does_tracing_after (marks := marks) d hr' hn (Env.set_same _ _ _)
    (fun e he => herr r' e hr' he) hfin⟩) pre).mono fun tr x hx => hx.mono fun tr' o ho => ?_
  obtain ⟨res, L, ho, ⟨L', rfl, hL⟩, hs⟩ := ho
  exact ⟨res, L', ho, hL, by rw [hs]; simp⟩

theorem does_openTracingError {env : Env} {span e : Val} (h1 : env g!"_ext" = none) (h2 : env g!"_log" = none)
    (he : env g!"err" = some e) :
    (openTracingError span env).Does (openTracingMarks span e) (env, .next) := by
  rw [openTracingError, Stm.global_apply h1]
  refine Stm.does_seq (P := (· = [.lib ⟨g!"ext.Error.Set", [span, .bool true], .ok []⟩])) (env' := env)
    (Stm.does_lib0 rfl) ?_
  rintro _ rfl
  rw [Stm.global_apply h2]
  refine Stm.does_lib1 fun f1 => ?_
  rw [Stm.get_apply he]
  exact Stm.does_lib1 fun msg => Stm.does_lib1 fun f2 => Stm.does_lib0 ⟨f1, msg, f2, rfl⟩

theorem does_openCensusError {env : Env} {span e : Val} (h1 : env g!"trace" = none)
    (he : env g!"err" = some e) :
    (openCensusError span env).Does (openCensusMarks span e) (env, .next) := by
  rw [openCensusError, Stm.global_apply h1]
  refine Stm.does_lib1 fun a1 => Stm.does_lib1 fun a2 => ?_
  rw [Stm.get_apply he]
  exact Stm.does_lib1 fun msg => Stm.does_lib1 fun a3 => Stm.does_lib0 ⟨a1, a2, msg, a3, rfl⟩

theorem does_openTelemetryError {env : Env} {span e : Val} (h1 : env g!"_codes" = none)
    (h2 : env g!"attribute" = none) (he : env g!"err" = some e) :
    (openTelemetryError span env).Does (openTelemetryMarks span e) (env, .next) := by
  rw [openTelemetryError, Stm.get_apply he]
  refine Stm.does_seq (P := (· = [.lib ⟨g!"trace.RecordError", [span, e], .ok []⟩])) (env' := env)
    (Stm.does_lib0 rfl) ?_
  rintro _ rfl
  rw [Stm.global_apply h1]
  refine Stm.does_lib1 fun msg => ?_
  refine Stm.does_seq (P := (· = [.lib ⟨g!"trace.SetStatus", [span, .str g!"Error", msg], .ok []⟩])) (env' := env)
    (Stm.does_lib0 rfl) ?_
  rintro _ rfl
  rw [Stm.global_apply h2]
  exact Stm.does_lib1 fun a1 => Stm.does_lib1 fun msg' => Stm.does_lib1 fun a2 =>
    Stm.does_lib0 ⟨msg, a1, msg', a2, rfl⟩

theorem openTracing_runs (G : GoTypes) (d : Tracing) {recv : Str × Val} {args : List Val}
    (h : Callable m recv [g!"opentracing", g!"_span", g!"_ext", g!"_log"] args)
    (hc : m.acceptsContext = true) :
    (d.openTracingDecorator.call G m recv args).AllG fun tr o => ∃ c a' span c' res L, args = c :: a' ∧
      o = passedOn res ∧
      seen tr = .lib ⟨g!"opentracing.StartSpanFromContext",
          [c, .str (d.inst ++ g!"." ++ d.iface.type ++ g!"." ++ m.name)], .ok [span, c']⟩ ::
        .impl ⟨d.base, m.name, c' :: a', res⟩ :: L ++ [.lib ⟨g!"opentracing.Finish", [span], .ok []⟩] ∧
      d.Mid m openTracingMarks span (c' :: a') (resultsAfter (m.zeros G) res) L := by
  have hf := h.fits G
  obtain ⟨c, a', rfl⟩ := Method.args_ctx hf hc
  have f1 := h.fresh (x := g!"opentracing") (by simp)
  have f2 := h.fresh (x := g!"_span") (by simp)
  have f3 := h.fresh (x := g!"_ext") (by simp)
  have f4 := h.fresh (x := g!"_log") (by simp)
  have hcall : d.openTracingDecorator.call G m recv (c :: a') = m.exec G recv (d.openTracing m) (c :: a') := by
    simp [Decorator.call, Tracing.openTracingDecorator, hc]
  rw [hcall, Method.exec_apply G h.declared, Tracing.openTracing, Tree.allG_bind,
    Stm.global_apply (by rw [Method.env_other f1.2, f1.1]), Stm.get_apply (Method.env_ctx hf hc), Stm.allG_lib2]
  intro span c'
  refine (tracing_runs (marks := openTracingMarks) d hf hc f2.2 f2.1 ?_ rfl []).mono
    fun tr x hx => hx.mono fun tr' o ho => ?_
  · intro r' e hr' he
    refine does_openTracingError ?_ ?_ he
    · rw [Method.env_other f3.2, Env.set_other _ _ (by decide), f3.1]
    · rw [Method.env_other f4.2, Env.set_other _ _ (by decide), f4.1]
  · obtain ⟨res, L, ho, hm, hs⟩ := ho
    exact ⟨c, a', span, c', res, L, rfl, ho, congrArg (List.cons _) hs, hm⟩

theorem openCensus_runs (G : GoTypes) (d : Tracing) {recv : Str × Val} {args : List Val}
    (h : Callable m recv [g!"trace", g!"_span"] args) (hc : m.acceptsContext = true) :
    (d.openCensusDecorator.call G m recv args).AllG fun tr o => ∃ c a' span c' res L, args = c :: a' ∧
      o = passedOn res ∧
      seen tr = .lib ⟨g!"trace.StartSpan",
          [c, .str (d.inst ++ g!"." ++ d.iface.type ++ g!"." ++ m.name)], .ok [c', span]⟩ ::
        .impl ⟨d.base, m.name, c' :: a', res⟩ :: L ++ [.lib ⟨g!"trace.End", [span], .ok []⟩] ∧
      d.Mid m openCensusMarks span (c' :: a') (resultsAfter (m.zeros G) res) L := by
  have hf := h.fits G
  obtain ⟨c, a', rfl⟩ := Method.args_ctx hf hc
  have f1 := h.fresh (x := g!"trace") (by simp)
  have f2 := h.fresh (x := g!"_span") (by simp)
  have hcall : d.openCensusDecorator.call G m recv (c :: a') = m.exec G recv (d.openCensus m) (c :: a') := by
    simp [Decorator.call, Tracing.openCensusDecorator, hc]
  rw [hcall, Method.exec_apply G h.declared, Tracing.openCensus, Tree.allG_bind,
    Stm.global_apply (by rw [Method.env_other f1.2, f1.1]), Stm.get_apply (Method.env_ctx hf hc), Stm.allG_lib2]
  intro c' span
  refine (tracing_runs (marks := openCensusMarks) d hf hc f2.2 f2.1 ?_ rfl []).mono
    fun tr x hx => hx.mono fun tr' o ho => ?_
  · intro r' e hr' he
    refine does_openCensusError ?_ he
    rw [Method.env_other f1.2, Env.set_other _ _ (by decide), f1.1]
  · obtain ⟨res, L, ho, hm, hs⟩ := ho
    exact ⟨c, a', span, c', res, L, rfl, ho, congrArg (List.cons _) hs, hm⟩

theorem openTelemetry_runs (G : GoTypes) (d : Tracing) {recv : Str × Val} {args : List Val}
    (h : Callable m recv [g!"otel", g!"_span", g!"_codes", g!"attribute"] args) (hc : m.acceptsContext = true) :
    (d.openTelemetryDecorator.call G m recv args).AllG fun tr o => ∃ c a' tracer span c' res L, args = c :: a' ∧
      o = passedOn res ∧
      seen tr = .lib ⟨g!"otel.Tracer", [.str d.inst], .ok [tracer]⟩ ::
        .lib ⟨g!"trace.Start", [tracer, c, .str (d.spanNameType ++ g!"." ++ m.name)], .ok [c', span]⟩ ::
        .impl ⟨d.base, m.name, c' :: a', res⟩ :: L ++ [.lib ⟨g!"trace.End", [span], .ok []⟩] ∧
      d.Mid m openTelemetryMarks span (c' :: a') (resultsAfter (m.zeros G) res) L := by
  have hf := h.fits G
  obtain ⟨c, a', rfl⟩ := Method.args_ctx hf hc
  have f1 := h.fresh (x := g!"otel") (by simp)
  have f2 := h.fresh (x := g!"_span") (by simp)
  have f3 := h.fresh (x := g!"_codes") (by simp)
  have f4 := h.fresh (x := g!"attribute") (by simp)
  have hcall : d.openTelemetryDecorator.call G m recv (c :: a') = m.exec G recv (d.openTelemetry m) (c :: a') := by
    simp [Decorator.call, Tracing.openTelemetryDecorator, hc]
  rw [hcall, Method.exec_apply G h.declared, Tracing.openTelemetry, Tree.allG_bind,
    Stm.global_apply (by rw [Method.env_other f1.2, f1.1]), Stm.allG_lib1]
  intro tracer
  rw [Stm.get_apply (Method.env_ctx hf hc), Stm.allG_lib2]
  intro c' span
  refine (tracing_runs (marks := openTelemetryMarks) d hf hc f2.2 f2.1 ?_ rfl []).mono
    fun tr x hx => hx.mono fun tr' o ho => ?_
  · intro r' e hr' he
    refine does_openTelemetryError ?_ ?_ he
    · rw [Method.env_other f3.2, Env.set_other _ _ (by decide), f3.1]
    · rw [Method.env_other f4.2, Env.set_other _ _ (by decide), f4.1]
  · obtain ⟨res, L, ho, hm, hs⟩ := ho
    exact ⟨c, a', tracer, span, c', res, L, rfl, ho, congrArg (fun x => _ :: _ :: x) hs, hm⟩

/-- A method that is not declared by a decorator that embeds the interface is the method of the base. -/
theorem promoted_runs (G : GoTypes) (d : Decorator) {recv : Str × Val} {args : List Val}
    (hb : d.body m = none) (he : d.embeds = true) :
    (d.call G m recv args).AllG fun tr o => ∃ res, o = passedOn res ∧
      seen tr = [.impl ⟨d.base, m.name, args, res⟩] := by
  simp only [Decorator.call, hb, he, if_true]
  rw [Tree.allG_impl]
  constructor
  · intro vs
    rw [Tree.allG_ret]
    exact ⟨.ok vs.1, rfl, rfl⟩
  · intro v
    rw [Tree.allG_ret]
    exact ⟨.error v, rfl, rfl⟩

/-! ## elasticapm -/

/-- Statements before the call, after the deferred function was registered. -/
theorem Stm.allG_deferring_seq {d p q : Stm} {env env' : Env} {P : List Seen → Prop}
    {Q : List Event → Env × Flow → Prop} (h : (p env).Does P (env', .next))
    (hQ : ∀ tr, P (seen tr) → (Stm.deferring d q env').AllG fun tr' x => Q (tr ++ tr') x) :
    (Stm.deferring d (.seq p q) env).AllG Q := by
  rw [Stm.allG_deferring, Stm.allG_seq]
  refine h.allG fun tr hp => ?_
  refine (Stm.allG_deferring.1 (hQ tr hp)).mono fun tr' x hx => ?_
  obtain ⟨e, fl⟩ := x
  cases fl with
  | stuck => exact hx
  | next => exact hx.mono fun tr'' y hy => by simpa only [List.append_assoc] using hy
  | ret => exact hx.mono fun tr'' y hy => by simpa only [List.append_assoc] using hy
  | panic v => exact hx.mono fun tr'' y hy => by simpa only [List.append_assoc] using hy

theorem does_apm_labels (d : Apm) {env : Env} {span : Val} (hs : env g!"span" = some span) :
    ∀ {names : List Str} {vals : List Val}, env.all names = some vals →
      (d.labels names env).Does (· = d.labelCalls span names vals) (env, .next) := by
  intro names
  induction names with
  | nil =>
    intro vals _
    exact Stm.does_skip (by simp [Apm.labelCalls])
  | cons p ps ih =>
    intro vals h
    simp only [Env.all] at h
    cases hp : env p with
    | none => simp [hp] at h
    | some v =>
      cases hq : env.all ps with
      | none => simp [hp, hq] at h
      | some vs =>
        simp only [hp, hq, Option.some.injEq] at h
        subst h
        rw [Apm.labels]
        by_cases hc : p = g!"ctx"
        · rw [if_pos hc]
          refine (ih hq).mono fun L hL => ?_
          rw [hL]
          simp [Apm.labelCalls, hc]
        · rw [if_neg hc]
          refine Stm.does_seq (env' := env)
            (P := (· = [.lib ⟨g!"setLabel", [span, .str (d.uni.snake p), v], .ok []⟩])) ?_ ?_
          · rw [Stm.get_apply hs, Stm.get_apply hp]
            exact Stm.does_lib0 rfl
          · rintro _ rfl
            refine (ih hq).mono fun L hL => ?_
            rw [hL]
            simp [Apm.labelCalls, hc]

theorem does_apm_after {c span : Val} {a' : List Val} (h : m.Fits (c :: a') r) (hc : m.acceptsContext = true)
    (hn : g!"span" ∉ m.pnames ++ m.rnames) (hs : loc g!"span" = some span) :
    (Apm.after m (m.env loc (c :: a') r)).Does (fun L =>
      if failedVals m r then ∃ e, r.getLast? = some e ∧
        L = [.lib ⟨g!"captureError", [c, e], .ok []⟩, .lib ⟨g!"endSpan", [span], .ok []⟩]
      else L = [.lib ⟨g!"endSpan", [span], .ok []⟩]) (m.env loc (c :: a') r, .next) := by
  rw [Apm.after]
  refine Stm.does_seq (env' := m.env loc (c :: a') r) (P := fun L =>
    if failedVals m r then ∃ e, r.getLast? = some e ∧ L = [.lib ⟨g!"captureError", [c, e], .ok []⟩]
      else L = []) ?_ ?_
  · refine does_ifErr h (loc := loc) rfl ?_ ?_
    · intro hf
      obtain ⟨e, h1, h2⟩ := env_err_failed h hf
      rw [Stm.get_apply (Method.env_ctx h hc), Stm.get_apply (h2 loc)]
      exact Stm.does_lib0 (by rw [if_pos hf]; exact ⟨e, h1, rfl⟩)
    · intro hf
      exact Stm.does_skip (by simp [hf])
  · intro L hL
    rw [Stm.get_apply (v := span) (by rw [Method.env_other hn, hs])]
    refine Stm.does_lib0 ?_
    split at hL
    · rename_i hf
      obtain ⟨e, h1, rfl⟩ := hL
      rw [if_pos hf]
      exact ⟨e, h1, rfl⟩
    · rename_i hf
      rw [if_neg hf, hL]; rfl

theorem apm_runs (G : GoTypes) (d : Apm) {recv : Str × Val} {args : List Val}
    (h : Callable m recv [g!"span"] args) (hc : m.acceptsContext = true) :
    (d.decorator.call G m recv args).AllG fun tr o => ∃ c a' span c' res L, args = c :: a' ∧
      o = passedOn res ∧
      seen tr = .lib ⟨g!"startSpan", [c, .str (d.component ++ g!"." ++ m.name), .str d.spanType],
          .ok [span, c']⟩ :: (d.labelCalls span m.pnames (c' :: a') ++
        .impl ⟨d.base, m.name, c' :: a', res⟩ :: L) ∧
      if failedVals m (resultsAfter (m.zeros G) res) then
        ∃ e, (resultsAfter (m.zeros G) res).getLast? = some e ∧
          L = [.lib ⟨g!"captureError", [c', e], .ok []⟩, .lib ⟨g!"endSpan", [span], .ok []⟩]
      else L = [.lib ⟨g!"endSpan", [span], .ok []⟩] := by
  have hf := h.fits G
  obtain ⟨c, a', rfl⟩ := Method.args_ctx hf hc
  have f1 := h.fresh (x := g!"span") (by simp)
  have hcall : d.decorator.call G m recv (c :: a') = m.exec G recv (d.body m) (c :: a') := by
    simp [Decorator.call, Apm.decorator, hc]
  rw [hcall, Method.exec_apply G h.declared, Apm.body, Tree.allG_bind, Stm.get_apply (Method.env_ctx hf hc),
    Stm.allG_lib2]
  intro span c'
  rw [Stm.seq_declare (by rw [Method.env_other f1.2, f1.1]), Method.env_set_other hf f1.2,
    Stm.seq_assign (Method.env_ctx hf hc), Method.env_set_ctx hf hc]
  have hf' : m.Fits (c' :: a') (m.zeros G) := hf.ctx
  refine Stm.allG_deferring_seq (does_apm_labels d (span := span) (by rw [Method.env_other f1.2, Env.set_same])
    (Method.env_all_params hf')) ?_
  intro tr htr
  refine (runs_deferred hf' (fun r' hr' => ⟨_, does_apm_after hr' hc f1.2 (Env.set_same _ _ _)⟩) tr).mono
    fun tr' x hx => hx.mono fun tr'' o ho => ?_
  obtain ⟨res, L, ho, hL, hs⟩ := ho
  refine ⟨c, a', span, c', res, L, rfl, ho, congrArg (List.cons _) ?_, hL⟩
  rw [← htr, ← hs]
  exact congrArg seen (List.append_assoc _ _ _)

end Gowrap

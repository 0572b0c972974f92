import Verif.Proofs.GrammarTm
import Verif.Proofs.TmplDecls
/-!
# The generated files are grammatical
-/

namespace Gowrap.Tmpl

open Gowrap Go Spec

macro "gramd" "[" l:Lean.Parser.Tactic.simpLemma,* "]" : tactic =>
  `(tactic| gram [DeclsOk, Decl.Ok, FieldsOk, FieldDecl.Ok, Ty.Embeddable, $l,*])

theorem ctx_params {u : Uni} {d : Inputs} (h : GoInputs u d) : ∀ e ∈ d.methods, e.2.acceptsContext = true → e.2.params ≠ [] := by
  intro e he hc
  obtain ⟨p, ps, hp, _⟩ := (h.methods e he).2.ctx hc
  rw [hp]
  exact nofun

theorem new_ok {s : Str} (h : GoName s) : GoName (g!"New" ++ s) := goName_prefix h g!"New" (by decide) ⟨'N', by decide, by decide⟩

theorem vec_ok {u : Uni} {d : Inputs} (h : GoInputs u d) : GoName (u.lower d.name ++ g!"DurationSummaryVec") := by
  obtain ⟨⟨c, r, e, hc⟩, ha⟩ := lower_word h.lower h.name
  refine ⟨⟨c, r ++ g!"DurationSummaryVec", by rw [e]; rfl, hc⟩, ?_, ?_⟩
  · intro y hy
    rcases List.mem_append.mp hy with hy | hy
    · exact ha y hy
    · exact (by decide : ∀ y ∈ g!"DurationSummaryVec", (Go.letter y || Go.digit y) = true) y hy
  · intro hm
    have : ∀ k ∈ Go.keywords, 'D' ∉ k := by decide
    exact this _ hm (List.mem_append_right _ (by decide))

/-- The fields of timeout's configuration. -/
theorem tmTimeout_config (u : Uni) (d : Inputs) (m : Method) (h : m.acceptsContext = true → m.params ≠ []) :
    tmTimeout.configFields u d m = bif m.acceptsContext then [.named [m.name ++ g!"Timeout"] (.qual g!"time" g!"Duration")] else [] := by
  obtain ⟨doc, cm, nm, ps, rs, re, ac⟩ := m
  cases ac
  · krfl
  · cases ps with
    | nil => exact absurd rfl (h rfl)
    | cons p ps => krfl

theorem fieldsOk_append {S : Sources} : ∀ a b : List FieldDecl, FieldsOk S (a ++ b) ↔ FieldsOk S a ∧ FieldsOk S b
  | [], b => by simp [FieldsOk]
  | s :: a, b => by simp [FieldsOk, fieldsOk_append a b, and_assoc]

theorem tmTimeout_fields {S : Sources} {u : Uni} {d : Inputs} (h : GoInputs u d) : FieldsOk S (d.sorted.flatMap (tmTimeout.configFields u d)) := by
  have : ∀ ms : List Method, (∀ m ∈ ms, m ∈ d.sorted) → FieldsOk S (ms.flatMap (tmTimeout.configFields u d)) := by
    intro ms
    induction ms with
    | nil => intro _; simp [FieldsOk]
    | cons m ms ih =>
      intro hm
      rw [List.flatMap_cons, fieldsOk_append]
      refine ⟨?_, ih fun x hx => hm x (List.mem_cons_of_mem _ hx)⟩
      have hc : (tmTimeout.configFields u d m = bif m.acceptsContext then [.named [m.name ++ g!"Timeout"] (.qual g!"time" g!"Duration")] else []) ∧
          GoName m.name := by
        obtain ⟨e, he, rfl⟩ := mem_sorted.mp (hm m (by simp))
        exact ⟨tmTimeout_config u d _ (ctx_params h e he), (okMethod_of h he).name⟩
      rw [hc.1]
      have := goName_suffix hc.2 g!"Timeout" (by decide) ⟨'T', by decide, by decide⟩
      cases m.acceptsContext <;> gramd [this]
  exact this _ fun _ h => h

theorem tmLog_grammatical {u : Uni} {d : Inputs} (h : GoInputs u d) : Grammatical (sourceTypes d) (tmLog.decls u d) := by
  have hn : GoodNames (tmLog.names u d) := (goodNames_dec h g!"WithLog" (by decide) ⟨'W', by decide, by decide⟩)
  have hdec : GoName (tmLog.names u d).dec := goName_of hn.dec
  have hnew := new_ok hdec
  have hty := okType_of h
  have hname := h.name
  refine grammatical_of h (ty := (.name (decoratorName d g!"WithLog"))) rfl (w := fun _ => true) (stmts := logStmts (tmLog.names u d))
    (tmLog_file u d) (fun e he => tmLog_method u d e.2) hdec ?_ ?_ ?_ ?_ (fun e he hw hm => log_ok hm _)
  · unfold beforeLog fieldsLog
    generalize (tmLog.names u d) = n at *
    gramd [hdec, hnew, hty, hname]
  · unfold afterLog
    gramd []
  · simp [beforeLog, flatDecls, Decl.flat, Decl.IsImport]
  · simp [afterLog, flatDecls]

theorem tmLogrus_grammatical {u : Uni} {d : Inputs} (h : GoInputs u d) : Grammatical (sourceTypes d) (tmLogrus.decls u d) := by
  have hn : GoodNames (tmLogrus.names u d) := (goodNames_dec h g!"WithLogrus" (by decide) ⟨'W', by decide, by decide⟩)
  have hdec : GoName (tmLogrus.names u d).dec := goName_of hn.dec
  have hnew := new_ok hdec
  have hty := okType_of h
  have hname := h.name
  refine grammatical_of h (ty := (.name (decoratorName d g!"WithLogrus"))) rfl (w := fun _ => true) (stmts := logrusStmts (tmLogrus.names u d))
    (tmLogrus_file u d) (fun e he => tmLogrus_method u d e.2) hdec ?_ ?_ ?_ ?_ (fun e he hw hm => logrus_ok hm _)
  · unfold beforeLogrus fieldsLogrus
    generalize (tmLogrus.names u d) = n at *
    gramd [hdec, hnew, hty, hname]
  · unfold afterLogrus
    gramd []
  · simp [beforeLogrus, flatDecls, Decl.flat, Decl.IsImport]
  · simp [afterLogrus, flatDecls]

theorem tmPrometheus_grammatical {u : Uni} {d : Inputs} (h : GoInputs u d) : Grammatical (sourceTypes d) (tmPrometheus.decls u d) := by
  have hn : GoodNames (tmPrometheus.names u d) := (goodNames_metric h)
  have hdec : GoName (tmPrometheus.names u d).dec := goName_of hn.dec
  have hnew := new_ok hdec
  have hty := okType_of h
  have hname := h.name
  have hv : GoName (u.lower d.name ++ g!"DurationSummaryVec") := vec_ok h
  refine grammatical_of h (ty := (.name (decoratorName d g!"WithPrometheus"))) rfl (w := fun _ => true) (stmts := prometheusStmts (u.lower d.name ++ g!"DurationSummaryVec"))
    (tmPrometheus_file u d) (fun e he => tmPrometheus_method u d e.2) hdec ?_ ?_ ?_ ?_ (fun e he hw hm => prometheus_ok hm hv)
  · unfold beforePrometheus fieldsPrometheus
    generalize (tmPrometheus.names u d) = n at *
    gramd [hdec, hnew, hty, hv, hname]
  · unfold afterPrometheus
    gramd []
  · simp [beforePrometheus, flatDecls, Decl.flat, Decl.IsImport]
  · simp [afterPrometheus, flatDecls]

theorem tmOpentracing_grammatical {u : Uni} {d : Inputs} (h : GoInputs u d) : Grammatical (sourceTypes d) (tmOpentracing.decls u d) := by
  have hn : GoodNames (tmOpentracing.names u d) := (goodNames_dec h g!"WithTracing" (by decide) ⟨'W', by decide, by decide⟩)
  have hdec : GoName (tmOpentracing.names u d).dec := goName_of hn.dec
  have hnew := new_ok hdec
  have hty := okType_of h
  have hname := h.name
  refine grammatical_of h (ty := (.name (decoratorName d g!"WithTracing"))) rfl (w := fun m => m.acceptsContext) (stmts := openTracingStmts d.name d.type)
    (tmOpentracing_file u d) (fun e he => tmOpentracing_method u d e.2 (ctx_params h e he)) hdec ?_ ?_ ?_ ?_ (fun e he hw hm => openTracing_ok hm h.name)
  · unfold beforeOpentracing fieldsOpentracing
    generalize (tmOpentracing.names u d) = n at *
    gramd [hdec, hnew, hty, hname]
  · unfold afterOpentracing
    gramd []
  · simp [beforeOpentracing, flatDecls, Decl.flat, Decl.IsImport]
  · simp [afterOpentracing, flatDecls]

theorem tmOpencensus_grammatical {u : Uni} {d : Inputs} (h : GoInputs u d) : Grammatical (sourceTypes d) (tmOpencensus.decls u d) := by
  have hn : GoodNames (tmOpencensus.names u d) := (goodNames_dec h g!"WithTracing" (by decide) ⟨'W', by decide, by decide⟩)
  have hdec : GoName (tmOpencensus.names u d).dec := goName_of hn.dec
  have hnew := new_ok hdec
  have hty := okType_of h
  have hname := h.name
  refine grammatical_of h (ty := (.name (decoratorName d g!"WithTracing"))) rfl (w := fun m => m.acceptsContext) (stmts := openCensusStmts d.name d.type)
    (tmOpencensus_file u d) (fun e he => tmOpencensus_method u d e.2 (ctx_params h e he)) hdec ?_ ?_ ?_ ?_ (fun e he hw hm => openCensus_ok hm h.name)
  · unfold beforeOpencensus fieldsOpencensus
    generalize (tmOpencensus.names u d) = n at *
    gramd [hdec, hnew, hty, hname]
  · unfold afterOpencensus
    gramd []
  · simp [beforeOpencensus, flatDecls, Decl.flat, Decl.IsImport]
  · simp [afterOpencensus, flatDecls]

theorem tmOpentelemetry_grammatical {u : Uni} {d : Inputs} (h : GoInputs u d) : Grammatical (sourceTypes d) (tmOpentelemetry.decls u d) := by
  have hn : GoodNames (tmOpentelemetry.names u d) := (goodNames_span h)
  have hdec : GoName (tmOpentelemetry.names u d).dec := goName_of hn.dec
  have hnew := new_ok hdec
  have hty := okType_of h
  have hname := h.name
  refine grammatical_of h (ty := (.name (decoratorName d g!"WithTracing"))) rfl (w := fun m => m.acceptsContext) (stmts := openTelemetryStmts d.name (tmOpentelemetry.names u d).span)
    (tmOpentelemetry_file u d) (fun e he => tmOpentelemetry_method u d e.2 (ctx_params h e he)) hdec ?_ ?_ ?_ ?_ (fun e he hw hm => openTelemetry_ok hm h.name)
  · unfold beforeOpentelemetry fieldsOpentelemetry
    generalize (tmOpentelemetry.names u d) = n at *
    gramd [hdec, hnew, hty, hname]
  · unfold afterOpentelemetry
    gramd []
  · simp [beforeOpentelemetry, flatDecls, Decl.flat, Decl.IsImport]
  · simp [afterOpentelemetry, flatDecls]

theorem tmElasticapm_grammatical {u : Uni} {d : Inputs} (h : GoInputs u d) : Grammatical (sourceTypes d) (tmElasticapm.decls u d) := by
  have hn : GoodNames (tmElasticapm.names u d) := (goodNames_apm h)
  have hdec : GoName (tmElasticapm.names u d).dec := goName_of hn.dec
  have hnew := new_ok hdec
  have hty := okType_of h
  have hname := h.name
  have hopt : GoName (tmElasticapm.names u d).option := goName_of hn.option
  have hl : GoName ((tmElasticapm.names u d).dec ++ g!"WithUsingSetLabel") := goName_suffix hdec _ (by decide) ⟨'W', by decide, by decide⟩
  have hs : GoName ((tmElasticapm.names u d).dec ++ g!"WithSpanType") := goName_suffix hdec _ (by decide) ⟨'W', by decide, by decide⟩
  have ho : GoName ((tmElasticapm.names u d).dec ++ g!"Option") := goName_suffix hdec _ (by decide) ⟨'O', by decide, by decide⟩
  refine grammatical_of h (ty := (.name (decoratorName d g!"APMTracing"))) rfl (w := fun m => m.acceptsContext) (stmts := apmStmts u (tmElasticapm.names u d).component)
    (tmElasticapm_file u d) (fun e he => tmElasticapm_method u d e.2 (ctx_params h e he)) hdec ?_ ?_ ?_ ?_ (fun e he hw hm => apm_ok hm u _)
  · unfold beforeElasticapm fieldsElasticapm
    generalize (tmElasticapm.names u d) = n at *
    gramd [hdec, hnew, hty, hopt, hl, hs, ho, hname]
  · unfold afterElasticapm
    gramd []
  · simp [beforeElasticapm, flatDecls, Decl.flat, Decl.IsImport]
  · simp [afterElasticapm, flatDecls]

theorem tmValidate_grammatical {u : Uni} {d : Inputs} (h : GoInputs u d) : Grammatical (sourceTypes d) (tmValidate.decls u d) := by
  have hn : GoodNames (tmValidate.names u d) := (goodNames_dec h g!"WithValidation" (by decide) ⟨'W', by decide, by decide⟩)
  have hdec : GoName (tmValidate.names u d).dec := goName_of hn.dec
  have hnew := new_ok hdec
  have hty := okType_of h
  have hname := h.name
  refine grammatical_of h (ty := (.name (decoratorName d g!"WithValidation"))) rfl (w := fun _ => true) (stmts := validateStmts [.ret []] d.name)
    (tmValidate_file u d) (fun e he => tmValidate_method u d e.2) hdec ?_ ?_ ?_ ?_ (fun e he hw hm => validate_ok hm (by gram []) h.name)
  · unfold beforeValidate fieldsValidate
    generalize (tmValidate.names u d) = n at *
    gramd [hdec, hnew, hty, hname]
  · unfold afterValidate
    gramd []
  · simp [beforeValidate, flatDecls, Decl.flat, Decl.IsImport]
  · simp [afterValidate, flatDecls]

theorem tmTwirpValidate_grammatical {u : Uni} {d : Inputs} (h : GoInputs u d) : Grammatical (sourceTypes d) (tmTwirpValidate.decls u d) := by
  have hn : GoodNames (tmTwirpValidate.names u d) := (goodNames_dec h g!"WithTwirpValidation" (by decide) ⟨'W', by decide, by decide⟩)
  have hdec : GoName (tmTwirpValidate.names u d).dec := goName_of hn.dec
  have hnew := new_ok hdec
  have hty := okType_of h
  have hname := h.name
  refine grammatical_of h (ty := (.name (decoratorName d g!"WithTwirpValidation"))) rfl (w := fun _ => true) (stmts := validateStmts twirpInvalidStmts d.name)
    (tmTwirpValidate_file u d) (fun e he => tmTwirpValidate_method u d e.2) hdec ?_ ?_ ?_ ?_ (fun e he hw hm => validate_ok hm twirpInvalid_ok h.name)
  · unfold beforeTwirpValidate fieldsTwirpValidate
    generalize (tmTwirpValidate.names u d) = n at *
    gramd [hdec, hnew, hty, hname]
  · unfold afterTwirpValidate
    gramd []
  · simp [beforeTwirpValidate, flatDecls, Decl.flat, Decl.IsImport]
  · simp [afterTwirpValidate, flatDecls]

theorem tmGrpcValidate_grammatical {u : Uni} {d : Inputs} (h : GoInputs u d) : Grammatical (sourceTypes d) (tmGrpcValidate.decls u d) := by
  have hn : GoodNames (tmGrpcValidate.names u d) := (goodNames_dec h g!"WithGRPCValidation" (by decide) ⟨'W', by decide, by decide⟩)
  have hdec : GoName (tmGrpcValidate.names u d).dec := goName_of hn.dec
  have hnew := new_ok hdec
  have hty := okType_of h
  have hname := h.name
  refine grammatical_of h (ty := (.name (decoratorName d g!"WithGRPCValidation"))) rfl (w := fun m => m.returnsError) (stmts := validateStmts grpcInvalidStmts d.name)
    (tmGrpcValidate_file u d) (fun e he => tmGrpcValidate_method u d e.2) hdec ?_ ?_ ?_ ?_ (fun e he hw hm => validate_ok hm grpcInvalid_ok h.name)
  · unfold beforeGrpcValidate fieldsGrpcValidate
    generalize (tmGrpcValidate.names u d) = n at *
    gramd [hdec, hnew, hty, hname]
  · unfold afterGrpcValidate
    gramd []
  · simp [beforeGrpcValidate, flatDecls, Decl.flat, Decl.IsImport]
  · simp [afterGrpcValidate, flatDecls]

theorem tmTwirpError_grammatical {u : Uni} {d : Inputs} (h : GoInputs u d) : Grammatical (sourceTypes d) (tmTwirpError.decls u d) := by
  have hn : GoodNames (tmTwirpError.names u d) := (goodNames_dec h g!"WithTwirpError" (by decide) ⟨'W', by decide, by decide⟩)
  have hdec : GoName (tmTwirpError.names u d).dec := goName_of hn.dec
  have hnew := new_ok hdec
  have hty := okType_of h
  have hname := h.name
  refine grammatical_of h (ty := (.name (decoratorName d g!"WithTwirpError"))) rfl (w := fun _ => true) (stmts := twirpErrorStmts d.name)
    (tmTwirpError_file u d) (fun e he => tmTwirpError_method u d e.2) hdec ?_ ?_ ?_ ?_ (fun e he hw hm => twirpError_ok hm h.name)
  · unfold beforeTwirpError fieldsTwirpError
    generalize (tmTwirpError.names u d) = n at *
    gramd [hdec, hnew, hty, hname]
  · unfold afterTwirpError
    gramd []
  · simp [beforeTwirpError, flatDecls, Decl.flat, Decl.IsImport]
  · simp [afterTwirpError, flatDecls, Decl.flat, Decl.IsImport]

theorem tmTimeout_grammatical {u : Uni} {d : Inputs} (h : GoInputs u d) : Grammatical (sourceTypes d) (tmTimeout.decls u d) := by
  have hn : GoodNames (tmTimeout.names u d) := (goodNames_dec h g!"WithTimeout" (by decide) ⟨'W', by decide, by decide⟩)
  have hdec : GoName (tmTimeout.names u d).dec := goName_of hn.dec
  have hnew := new_ok hdec
  have hty := okType_of h
  have hname := h.name
  have hc : GoName ((tmTimeout.names u d).dec ++ g!"Config") := goName_suffix hdec _ (by decide) ⟨'C', by decide, by decide⟩
  have hf : FieldsOk (sourceTypes d) (d.sorted.flatMap (tmTimeout.configFields u d)) := tmTimeout_fields h
  refine grammatical_of h (ty := (.name (decoratorName d g!"WithTimeout"))) rfl (w := fun m => m.acceptsContext) (stmts := timeoutStmts d.name)
    (tmTimeout_file u d) (fun e he => tmTimeout_method u d e.2 (ctx_params h e he)) hdec ?_ ?_ ?_ ?_ (fun e he hw hm => timeout_ok hm h.name (goName_suffix hm.name g!"Timeout" (by decide) ⟨'T', by decide, by decide⟩))
  · unfold beforeTimeout fieldsTimeout
    generalize (tmTimeout.names u d) = n at *
    gramd [hdec, hnew, hty, hc, hf, hname]
  · unfold afterTimeout
    gramd []
  · simp [beforeTimeout, flatDecls, Decl.flat, Decl.IsImport]
  · simp [afterTimeout, flatDecls]

theorem tmCircuitbreaker_grammatical {u : Uni} {d : Inputs} (h : GoInputs u d) : Grammatical (sourceTypes d) (tmCircuitbreaker.decls u d) := by
  have hn : GoodNames (tmCircuitbreaker.names u d) := (goodNames_dec h g!"WithCircuitBreaker" (by decide) ⟨'W', by decide, by decide⟩)
  have hdec : GoName (tmCircuitbreaker.names u d).dec := goName_of hn.dec
  have hnew := new_ok hdec
  have hty := okType_of h
  have hname := h.name
  refine grammatical_of h (ty := (.ptr (.name (decoratorName d g!"WithCircuitBreaker")))) rfl (w := fun m => m.returnsError) (stmts := breakerStmts (tmCircuitbreaker.names u d).dec d.name)
    (tmCircuitbreaker_file u d) (fun e he => tmCircuitbreaker_method u d e.2 (h.methods e he).2.err) hdec ?_ ?_ ?_ ?_ (fun e he hw hm => breaker_ok hm h.name ((h.methods e he).2.err hw))
  · unfold beforeCircuitbreaker fieldsCircuitbreaker
    generalize (tmCircuitbreaker.names u d) = n at *
    gramd [hdec, hnew, hty, hname]
  · unfold afterCircuitbreaker
    gramd []
  · simp [beforeCircuitbreaker, flatDecls, Decl.flat, Decl.IsImport]
  · simp [afterCircuitbreaker, flatDecls]

theorem tmRetry_grammatical {u : Uni} {d : Inputs} (h : GoInputs u d) : Grammatical (sourceTypes d) (tmRetry.decls u d) := by
  have hn : GoodNames (tmRetry.names u d) := (goodNames_dec h g!"WithRetry" (by decide) ⟨'W', by decide, by decide⟩)
  have hdec : GoName (tmRetry.names u d).dec := goName_of hn.dec
  have hnew := new_ok hdec
  have hty := okType_of h
  have hname := h.name
  refine grammatical_of h (ty := (.name (decoratorName d g!"WithRetry"))) rfl (w := fun m => m.returnsError) (stmts := retryStmts d.name)
    (tmRetry_file u d) (fun e he => tmRetry_method u d e.2 (h.methods e he).2.err) hdec ?_ ?_ ?_ ?_ (fun e he hw hm => retry_ok hm h.name ((h.methods e he).2.err hw))
  · unfold beforeRetry fieldsRetry
    generalize (tmRetry.names u d) = n at *
    gramd [hdec, hnew, hty, hname]
  · unfold afterRetry
    gramd []
  · simp [beforeRetry, flatDecls, Decl.flat, Decl.IsImport]
  · simp [afterRetry, flatDecls]

theorem tmRatelimit_grammatical {u : Uni} {d : Inputs} (h : GoInputs u d) : Grammatical (sourceTypes d) (tmRatelimit.decls u d) := by
  have hn : GoodNames (tmRatelimit.names u d) := (goodNames_dec h g!"WithRateLimit" (by decide) ⟨'W', by decide, by decide⟩)
  have hdec : GoName (tmRatelimit.names u d).dec := goName_of hn.dec
  have hnew := new_ok hdec
  have hty := okType_of h
  have hname := h.name
  refine grammatical_of h (ty := (.ptr (.name (decoratorName d g!"WithRateLimit")))) rfl (w := fun _ => true) (stmts := rateLimitStmts)
    (tmRatelimit_file u d) (fun e he => tmRatelimit_method u d e.2) hdec ?_ ?_ ?_ ?_ (fun e he hw hm => rateLimit_ok hm)
  · unfold beforeRatelimit fieldsRatelimit
    generalize (tmRatelimit.names u d) = n at *
    gramd [hdec, hnew, hty, hname]
  · unfold afterRatelimit
    gramd []
  · simp [beforeRatelimit, flatDecls, Decl.flat, Decl.IsImport]
  · simp [afterRatelimit, flatDecls]

theorem tmRobinpool_grammatical {u : Uni} {d : Inputs} (h : GoInputs u d) : Grammatical (sourceTypes d) (tmRobinpool.decls u d) := by
  have hn : GoodNames (tmRobinpool.names u d) := (goodNames_dec h g!"RoundRobinPool" (by decide) ⟨'R', by decide, by decide⟩)
  have hdec : GoName (tmRobinpool.names u d).dec := goName_of hn.dec
  have hnew := new_ok hdec
  have hty := okType_of h
  have hname := h.name
  have hc : GoName (g!"MustNew" ++ (tmRobinpool.names u d).dec) := goName_prefix hdec g!"MustNew" (by decide) ⟨'M', by decide, by decide⟩
  refine grammatical_of h (ty := (.ptr (.name (decoratorName d g!"RoundRobinPool")))) rfl (w := fun _ => true) (stmts := robinPoolStmts)
    (tmRobinpool_file u d) (fun e he => tmRobinpool_method u d e.2) hdec ?_ ?_ ?_ ?_ (fun e he hw hm => robinPool_ok hm)
  · unfold beforeRobinpool fieldsRobinpool
    generalize (tmRobinpool.names u d) = n at *
    gramd [hdec, hnew, hty, hc, hname]
  · unfold afterRobinpool
    gramd []
  · simp [beforeRobinpool, flatDecls, Decl.flat, Decl.IsImport]
  · simp [afterRobinpool, flatDecls]

theorem tmSyncpool_grammatical {u : Uni} {d : Inputs} (h : GoInputs u d) : Grammatical (sourceTypes d) (tmSyncpool.decls u d) := by
  have hn : GoodNames (tmSyncpool.names u d) := (goodNames_dec h g!"Pool" (by decide) ⟨'P', by decide, by decide⟩)
  have hdec : GoName (tmSyncpool.names u d).dec := goName_of hn.dec
  have hnew := new_ok hdec
  have hty := okType_of h
  have hname := h.name
  refine grammatical_of h (ty := (.name (decoratorName d g!"Pool"))) rfl (w := fun _ => true) (stmts := syncPoolStmts)
    (tmSyncpool_file u d) (fun e he => tmSyncpool_method u d e.2) hdec ?_ ?_ ?_ ?_ (fun e he hw hm => syncPool_ok hm)
  · unfold beforeSyncpool fieldsSyncpool
    generalize (tmSyncpool.names u d) = n at *
    gramd [hdec, hnew, hty, hname]
  · unfold afterSyncpool
    gramd []
  · simp [beforeSyncpool, flatDecls, Decl.flat, Decl.IsImport]
  · simp [afterSyncpool, flatDecls]

theorem tmFallback_grammatical {u : Uni} {d : Inputs} (h : GoInputs u d) : Grammatical (sourceTypes d) (tmFallback.decls u d) := by
  have hn : GoodNames (tmFallback.names u d) := (goodNames_dec h g!"WithFallback" (by decide) ⟨'W', by decide, by decide⟩)
  have hdec : GoName (tmFallback.names u d).dec := goName_of hn.dec
  have hnew := new_ok hdec
  have hty := okType_of h
  have hname := h.name
  refine grammatical_of h (ty := (.name (decoratorName d g!"WithFallback"))) rfl (w := fun _ => true) (stmts := fallbackStmts d.type)
    (tmFallback_file u d) (fun e he => tmFallback_method u d e.2 (h.methods e he).2.err (ctx_params h e he)) hdec ?_ ?_ ?_ ?_ (fun e he hw hm => fallback_ok hm hty)
  · unfold beforeFallback fieldsFallback
    generalize (tmFallback.names u d) = n at *
    gramd [hdec, hnew, hty, hname]
  · unfold afterFallback
    gramd []
  · simp [beforeFallback, flatDecls, Decl.flat, Decl.IsImport]
  · simp [afterFallback, flatDecls]

end Gowrap.Tmpl

import Verif.Proofs.GrammarDecls
/-!
# The declarations of the generated files
-/

namespace Gowrap.Tmpl

open Gowrap Go Spec

theorem flat_which (ty : Ty) (stmts : Method → List Stmt) (w : Method → Bool) (ms : List Method) :
    flatDecls (ms.flatMap fun m => bif w m then [methodOn ty stmts m] else []) = (ms.filter w).map (methodOn ty stmts) := by
  induction ms with
  | nil => rfl
  | cons m ms ih =>
    rw [List.flatMap_cons, flatDecls_append, ih]
    cases h : w m
    · simp [flatDecls, h]
    · simp [flatDecls, Decl.flat, methodOn, h]

theorem flat_of {T : Template} {u : Uni} {d : Inputs} {ty : Ty} {w : Method → Bool} {stmts : Method → List Stmt}
    {pre post : List Go.Decl}
    (hfile : T.decls u d = pre ++ .many (d.sorted.flatMap (T.methodDecls u d)) :: post)
    (hm : ∀ e ∈ d.methods, T.methodDecls u d e.2 = bif w e.2 then [methodOn ty stmts e.2] else []) :
    flatDecls (T.decls u d) = flatDecls pre ++ ((d.sorted.filter w).map (methodOn ty stmts) ++ flatDecls post) := by
  have hflat : d.sorted.flatMap (T.methodDecls u d) = d.sorted.flatMap (fun m => bif w m then [methodOn ty stmts m] else []) := by
    rw [List.flatMap_def, List.flatMap_def]
    refine congrArg List.flatten (List.map_congr_left fun m hm' => ?_)
    obtain ⟨e, he, rfl⟩ := mem_sorted.mp hm'
    exact hm e he
  rw [hfile, hflat, ← List.singleton_append, flatDecls_append, flatDecls_append, ← flat_which]
  simp [flatDecls, Decl.flat]

/-- The template generates the declarations. -/
def Gives (u : Uni) (d : Inputs) (text : Str) (ds : List Go.Decl) : Prop := ∃ s, render u text d = some s ∧ Consists d s ds

/-- What a template generates: constructors and types, then the methods, then other functions. -/
structure FileShape (u : Uni) (d : Inputs) (text : Str) (ds : List Go.Decl) (pre : List Go.Decl) (ty : Ty) (w : Method → Bool)
    (stmts : Method → List Stmt) (post : List Go.Decl) : Prop where
  gives : Gives u d text ds
  flat : flatDecls ds = flatDecls pre ++ ((d.sorted.filter w).map (methodOn ty stmts) ++ flatDecls post)

theorem flat_log {u : Uni} {d : Inputs} (h : GoInputs u d) :
    flatDecls (tmLog.decls u d) = flatDecls (beforeLog u d (tmLog.names u d) []) ++
      ((d.sorted.filter (fun _ => true)).map (methodOn ((.name (decoratorName d g!"WithLog"))) (logStmts (tmLog.names u d))) ++ flatDecls afterLog) :=
  have _ := h
  flat_of (tmLog_file u d) (fun e he => tmLog_method u d e.2)

theorem shape_log {u : Uni} {d : Inputs} (h : GoInputs u d) :
    FileShape u d Text.log (tmLog.decls u d) (beforeLog u d (tmLog.names u d) []) ((.name (decoratorName d g!"WithLog")))
      (fun _ => true) (logStmts (tmLog.names u d)) afterLog := by
  obtain ⟨⟨h1, h2⟩, _⟩ := generates_of tmLog_sound h (goodNames_dec h g!"WithLog" (by decide) ⟨'W', by decide, by decide⟩)
    (ty := (.name (decoratorName d g!"WithLog"))) rfl (w := fun _ => true) (stmts := logStmts (tmLog.names u d))
    (tmLog_file u d) (tmLog_around u d (tmLog.names u d) _) (fun e he => tmLog_method u d e.2)
  exact ⟨⟨_, h1, ⟨h2, tmLog_grammatical h⟩⟩, flat_log h⟩

theorem flat_logrus {u : Uni} {d : Inputs} (h : GoInputs u d) :
    flatDecls (tmLogrus.decls u d) = flatDecls (beforeLogrus u d (tmLogrus.names u d) []) ++
      ((d.sorted.filter (fun _ => true)).map (methodOn ((.name (decoratorName d g!"WithLogrus"))) (logrusStmts (tmLogrus.names u d))) ++ flatDecls afterLogrus) :=
  have _ := h
  flat_of (tmLogrus_file u d) (fun e he => tmLogrus_method u d e.2)

theorem shape_logrus {u : Uni} {d : Inputs} (h : GoInputs u d) :
    FileShape u d Text.logrus (tmLogrus.decls u d) (beforeLogrus u d (tmLogrus.names u d) []) ((.name (decoratorName d g!"WithLogrus")))
      (fun _ => true) (logrusStmts (tmLogrus.names u d)) afterLogrus := by
  obtain ⟨⟨h1, h2⟩, _⟩ := generates_of tmLogrus_sound h (goodNames_dec h g!"WithLogrus" (by decide) ⟨'W', by decide, by decide⟩)
    (ty := (.name (decoratorName d g!"WithLogrus"))) rfl (w := fun _ => true) (stmts := logrusStmts (tmLogrus.names u d))
    (tmLogrus_file u d) (tmLogrus_around u d (tmLogrus.names u d) _) (fun e he => tmLogrus_method u d e.2)
  exact ⟨⟨_, h1, ⟨h2, tmLogrus_grammatical h⟩⟩, flat_logrus h⟩

theorem flat_prometheus {u : Uni} {d : Inputs} (h : GoInputs u d) :
    flatDecls (tmPrometheus.decls u d) = flatDecls (beforePrometheus u d (tmPrometheus.names u d) []) ++
      ((d.sorted.filter (fun _ => true)).map (methodOn ((.name (decoratorName d g!"WithPrometheus"))) (prometheusStmts (u.lower d.name ++ g!"DurationSummaryVec"))) ++ flatDecls afterPrometheus) :=
  have _ := h
  flat_of (tmPrometheus_file u d) (fun e he => tmPrometheus_method u d e.2)

theorem shape_prometheus {u : Uni} {d : Inputs} (h : GoInputs u d) :
    FileShape u d Text.prometheus (tmPrometheus.decls u d) (beforePrometheus u d (tmPrometheus.names u d) []) ((.name (decoratorName d g!"WithPrometheus")))
      (fun _ => true) (prometheusStmts (u.lower d.name ++ g!"DurationSummaryVec")) afterPrometheus := by
  obtain ⟨⟨h1, h2⟩, _⟩ := generates_of tmPrometheus_sound h (goodNames_metric h)
    (ty := (.name (decoratorName d g!"WithPrometheus"))) rfl (w := fun _ => true) (stmts := prometheusStmts (u.lower d.name ++ g!"DurationSummaryVec"))
    (tmPrometheus_file u d) (tmPrometheus_around u d (tmPrometheus.names u d) _) (fun e he => tmPrometheus_method u d e.2)
  exact ⟨⟨_, h1, ⟨h2, tmPrometheus_grammatical h⟩⟩, flat_prometheus h⟩

theorem flat_opentracing {u : Uni} {d : Inputs} (h : GoInputs u d) :
    flatDecls (tmOpentracing.decls u d) = flatDecls (beforeOpentracing u d (tmOpentracing.names u d) []) ++
      ((d.sorted.filter (fun m => m.acceptsContext)).map (methodOn ((.name (decoratorName d g!"WithTracing"))) (openTracingStmts d.name d.type)) ++ flatDecls afterOpentracing) :=
  have _ := h
  flat_of (tmOpentracing_file u d) (fun e he => tmOpentracing_method u d e.2 (ctx_params h e he))

theorem shape_opentracing {u : Uni} {d : Inputs} (h : GoInputs u d) :
    FileShape u d Text.opentracing (tmOpentracing.decls u d) (beforeOpentracing u d (tmOpentracing.names u d) []) ((.name (decoratorName d g!"WithTracing")))
      (fun m => m.acceptsContext) (openTracingStmts d.name d.type) afterOpentracing := by
  obtain ⟨⟨h1, h2⟩, _⟩ := generates_of tmOpentracing_sound h (goodNames_dec h g!"WithTracing" (by decide) ⟨'W', by decide, by decide⟩)
    (ty := (.name (decoratorName d g!"WithTracing"))) rfl (w := fun m => m.acceptsContext) (stmts := openTracingStmts d.name d.type)
    (tmOpentracing_file u d) (tmOpentracing_around u d (tmOpentracing.names u d) _) (fun e he => tmOpentracing_method u d e.2 (ctx_params h e he))
  exact ⟨⟨_, h1, ⟨h2, tmOpentracing_grammatical h⟩⟩, flat_opentracing h⟩

theorem flat_opencensus {u : Uni} {d : Inputs} (h : GoInputs u d) :
    flatDecls (tmOpencensus.decls u d) = flatDecls (beforeOpencensus u d (tmOpencensus.names u d) []) ++
      ((d.sorted.filter (fun m => m.acceptsContext)).map (methodOn ((.name (decoratorName d g!"WithTracing"))) (openCensusStmts d.name d.type)) ++ flatDecls afterOpencensus) :=
  have _ := h
  flat_of (tmOpencensus_file u d) (fun e he => tmOpencensus_method u d e.2 (ctx_params h e he))

theorem shape_opencensus {u : Uni} {d : Inputs} (h : GoInputs u d) :
    FileShape u d Text.opencensus (tmOpencensus.decls u d) (beforeOpencensus u d (tmOpencensus.names u d) []) ((.name (decoratorName d g!"WithTracing")))
      (fun m => m.acceptsContext) (openCensusStmts d.name d.type) afterOpencensus := by
  obtain ⟨⟨h1, h2⟩, _⟩ := generates_of tmOpencensus_sound h (goodNames_dec h g!"WithTracing" (by decide) ⟨'W', by decide, by decide⟩)
    (ty := (.name (decoratorName d g!"WithTracing"))) rfl (w := fun m => m.acceptsContext) (stmts := openCensusStmts d.name d.type)
    (tmOpencensus_file u d) (tmOpencensus_around u d (tmOpencensus.names u d) _) (fun e he => tmOpencensus_method u d e.2 (ctx_params h e he))
  exact ⟨⟨_, h1, ⟨h2, tmOpencensus_grammatical h⟩⟩, flat_opencensus h⟩

theorem flat_opentelemetry {u : Uni} {d : Inputs} (h : GoInputs u d) :
    flatDecls (tmOpentelemetry.decls u d) = flatDecls (beforeOpentelemetry u d (tmOpentelemetry.names u d) []) ++
      ((d.sorted.filter (fun m => m.acceptsContext)).map (methodOn ((.name (decoratorName d g!"WithTracing"))) (openTelemetryStmts d.name (tmOpentelemetry.names u d).span)) ++ flatDecls afterOpentelemetry) :=
  have _ := h
  flat_of (tmOpentelemetry_file u d) (fun e he => tmOpentelemetry_method u d e.2 (ctx_params h e he))

theorem shape_opentelemetry {u : Uni} {d : Inputs} (h : GoInputs u d) :
    FileShape u d Text.opentelemetry (tmOpentelemetry.decls u d) (beforeOpentelemetry u d (tmOpentelemetry.names u d) []) ((.name (decoratorName d g!"WithTracing")))
      (fun m => m.acceptsContext) (openTelemetryStmts d.name (tmOpentelemetry.names u d).span) afterOpentelemetry := by
  obtain ⟨⟨h1, h2⟩, _⟩ := generates_of tmOpentelemetry_sound h (goodNames_span h)
    (ty := (.name (decoratorName d g!"WithTracing"))) rfl (w := fun m => m.acceptsContext) (stmts := openTelemetryStmts d.name (tmOpentelemetry.names u d).span)
    (tmOpentelemetry_file u d) (tmOpentelemetry_around u d (tmOpentelemetry.names u d) _) (fun e he => tmOpentelemetry_method u d e.2 (ctx_params h e he))
  exact ⟨⟨_, h1, ⟨h2, tmOpentelemetry_grammatical h⟩⟩, flat_opentelemetry h⟩

theorem flat_elasticapm {u : Uni} {d : Inputs} (h : GoInputs u d) :
    flatDecls (tmElasticapm.decls u d) = flatDecls (beforeElasticapm u d (tmElasticapm.names u d) []) ++
      ((d.sorted.filter (fun m => m.acceptsContext)).map (methodOn ((.name (decoratorName d g!"APMTracing"))) (apmStmts u (tmElasticapm.names u d).component)) ++ flatDecls afterElasticapm) :=
  have _ := h
  flat_of (tmElasticapm_file u d) (fun e he => tmElasticapm_method u d e.2 (ctx_params h e he))

theorem shape_elasticapm {u : Uni} {d : Inputs} (h : GoInputs u d) :
    FileShape u d Text.elasticapm (tmElasticapm.decls u d) (beforeElasticapm u d (tmElasticapm.names u d) []) ((.name (decoratorName d g!"APMTracing")))
      (fun m => m.acceptsContext) (apmStmts u (tmElasticapm.names u d).component) afterElasticapm := by
  obtain ⟨⟨h1, h2⟩, _⟩ := generates_of tmElasticapm_sound h (goodNames_apm h)
    (ty := (.name (decoratorName d g!"APMTracing"))) rfl (w := fun m => m.acceptsContext) (stmts := apmStmts u (tmElasticapm.names u d).component)
    (tmElasticapm_file u d) (tmElasticapm_around u d (tmElasticapm.names u d) _) (fun e he => tmElasticapm_method u d e.2 (ctx_params h e he))
  exact ⟨⟨_, h1, ⟨h2, tmElasticapm_grammatical h⟩⟩, flat_elasticapm h⟩

theorem flat_validate {u : Uni} {d : Inputs} (h : GoInputs u d) :
    flatDecls (tmValidate.decls u d) = flatDecls (beforeValidate u d (tmValidate.names u d) []) ++
      ((d.sorted.filter (fun _ => true)).map (methodOn ((.name (decoratorName d g!"WithValidation"))) (validateStmts [.ret []] d.name)) ++ flatDecls afterValidate) :=
  have _ := h
  flat_of (tmValidate_file u d) (fun e he => tmValidate_method u d e.2)

theorem shape_validate {u : Uni} {d : Inputs} (h : GoInputs u d) :
    FileShape u d Text.validate (tmValidate.decls u d) (beforeValidate u d (tmValidate.names u d) []) ((.name (decoratorName d g!"WithValidation")))
      (fun _ => true) (validateStmts [.ret []] d.name) afterValidate := by
  obtain ⟨⟨h1, h2⟩, _⟩ := generates_of tmValidate_sound h (goodNames_dec h g!"WithValidation" (by decide) ⟨'W', by decide, by decide⟩)
    (ty := (.name (decoratorName d g!"WithValidation"))) rfl (w := fun _ => true) (stmts := validateStmts [.ret []] d.name)
    (tmValidate_file u d) (tmValidate_around u d (tmValidate.names u d) _) (fun e he => tmValidate_method u d e.2)
  exact ⟨⟨_, h1, ⟨h2, tmValidate_grammatical h⟩⟩, flat_validate h⟩

theorem flat_twirp_validate {u : Uni} {d : Inputs} (h : GoInputs u d) :
    flatDecls (tmTwirpValidate.decls u d) = flatDecls (beforeTwirpValidate u d (tmTwirpValidate.names u d) []) ++
      ((d.sorted.filter (fun _ => true)).map (methodOn ((.name (decoratorName d g!"WithTwirpValidation"))) (validateStmts twirpInvalidStmts d.name)) ++ flatDecls afterTwirpValidate) :=
  have _ := h
  flat_of (tmTwirpValidate_file u d) (fun e he => tmTwirpValidate_method u d e.2)

theorem shape_twirp_validate {u : Uni} {d : Inputs} (h : GoInputs u d) :
    FileShape u d Text.twirpValidate (tmTwirpValidate.decls u d) (beforeTwirpValidate u d (tmTwirpValidate.names u d) []) ((.name (decoratorName d g!"WithTwirpValidation")))
      (fun _ => true) (validateStmts twirpInvalidStmts d.name) afterTwirpValidate := by
  obtain ⟨⟨h1, h2⟩, _⟩ := generates_of tmTwirpValidate_sound h (goodNames_dec h g!"WithTwirpValidation" (by decide) ⟨'W', by decide, by decide⟩)
    (ty := (.name (decoratorName d g!"WithTwirpValidation"))) rfl (w := fun _ => true) (stmts := validateStmts twirpInvalidStmts d.name)
    (tmTwirpValidate_file u d) (tmTwirpValidate_around u d (tmTwirpValidate.names u d) _) (fun e he => tmTwirpValidate_method u d e.2)
  exact ⟨⟨_, h1, ⟨h2, tmTwirpValidate_grammatical h⟩⟩, flat_twirp_validate h⟩

theorem flat_grpc_validate {u : Uni} {d : Inputs} (h : GoInputs u d) :
    flatDecls (tmGrpcValidate.decls u d) = flatDecls (beforeGrpcValidate u d (tmGrpcValidate.names u d) []) ++
      ((d.sorted.filter (fun m => m.returnsError)).map (methodOn ((.name (decoratorName d g!"WithGRPCValidation"))) (validateStmts grpcInvalidStmts d.name)) ++ flatDecls afterGrpcValidate) :=
  have _ := h
  flat_of (tmGrpcValidate_file u d) (fun e he => tmGrpcValidate_method u d e.2)

theorem shape_grpc_validate {u : Uni} {d : Inputs} (h : GoInputs u d) :
    FileShape u d Text.grpcValidate (tmGrpcValidate.decls u d) (beforeGrpcValidate u d (tmGrpcValidate.names u d) []) ((.name (decoratorName d g!"WithGRPCValidation")))
      (fun m => m.returnsError) (validateStmts grpcInvalidStmts d.name) afterGrpcValidate := by
  obtain ⟨⟨h1, h2⟩, _⟩ := generates_of tmGrpcValidate_sound h (goodNames_dec h g!"WithGRPCValidation" (by decide) ⟨'W', by decide, by decide⟩)
    (ty := (.name (decoratorName d g!"WithGRPCValidation"))) rfl (w := fun m => m.returnsError) (stmts := validateStmts grpcInvalidStmts d.name)
    (tmGrpcValidate_file u d) (tmGrpcValidate_around u d (tmGrpcValidate.names u d) _) (fun e he => tmGrpcValidate_method u d e.2)
  exact ⟨⟨_, h1, ⟨h2, tmGrpcValidate_grammatical h⟩⟩, flat_grpc_validate h⟩

theorem flat_twirp_error {u : Uni} {d : Inputs} (h : GoInputs u d) :
    flatDecls (tmTwirpError.decls u d) = flatDecls (beforeTwirpError u d (tmTwirpError.names u d) []) ++
      ((d.sorted.filter (fun _ => true)).map (methodOn ((.name (decoratorName d g!"WithTwirpError"))) (twirpErrorStmts d.name)) ++ flatDecls afterTwirpError) :=
  have _ := h
  flat_of (tmTwirpError_file u d) (fun e he => tmTwirpError_method u d e.2)

theorem shape_twirp_error {u : Uni} {d : Inputs} (h : GoInputs u d) :
    FileShape u d Text.twirpError (tmTwirpError.decls u d) (beforeTwirpError u d (tmTwirpError.names u d) []) ((.name (decoratorName d g!"WithTwirpError")))
      (fun _ => true) (twirpErrorStmts d.name) afterTwirpError := by
  obtain ⟨⟨h1, h2⟩, _⟩ := generates_of tmTwirpError_sound h (goodNames_dec h g!"WithTwirpError" (by decide) ⟨'W', by decide, by decide⟩)
    (ty := (.name (decoratorName d g!"WithTwirpError"))) rfl (w := fun _ => true) (stmts := twirpErrorStmts d.name)
    (tmTwirpError_file u d) (tmTwirpError_around u d (tmTwirpError.names u d) _) (fun e he => tmTwirpError_method u d e.2)
  exact ⟨⟨_, h1, ⟨h2, tmTwirpError_grammatical h⟩⟩, flat_twirp_error h⟩

theorem flat_timeout {u : Uni} {d : Inputs} (h : GoInputs u d) :
    flatDecls (tmTimeout.decls u d) = flatDecls (beforeTimeout u d (tmTimeout.names u d) (d.sorted.flatMap (tmTimeout.configFields u d))) ++
      ((d.sorted.filter (fun m => m.acceptsContext)).map (methodOn ((.name (decoratorName d g!"WithTimeout"))) (timeoutStmts d.name)) ++ flatDecls afterTimeout) :=
  have _ := h
  flat_of (tmTimeout_file u d) (fun e he => tmTimeout_method u d e.2 (ctx_params h e he))

theorem shape_timeout {u : Uni} {d : Inputs} (h : GoInputs u d) :
    FileShape u d Text.timeout (tmTimeout.decls u d) (beforeTimeout u d (tmTimeout.names u d) (d.sorted.flatMap (tmTimeout.configFields u d))) ((.name (decoratorName d g!"WithTimeout")))
      (fun m => m.acceptsContext) (timeoutStmts d.name) afterTimeout := by
  obtain ⟨⟨h1, h2⟩, _⟩ := generates_of tmTimeout_sound h (goodNames_dec h g!"WithTimeout" (by decide) ⟨'W', by decide, by decide⟩)
    (ty := (.name (decoratorName d g!"WithTimeout"))) rfl (w := fun m => m.acceptsContext) (stmts := timeoutStmts d.name)
    (tmTimeout_file u d) (tmTimeout_around u d (tmTimeout.names u d) _) (fun e he => tmTimeout_method u d e.2 (ctx_params h e he))
  exact ⟨⟨_, h1, ⟨h2, tmTimeout_grammatical h⟩⟩, flat_timeout h⟩

theorem flat_circuitbreaker {u : Uni} {d : Inputs} (h : GoInputs u d) :
    flatDecls (tmCircuitbreaker.decls u d) = flatDecls (beforeCircuitbreaker u d (tmCircuitbreaker.names u d) []) ++
      ((d.sorted.filter (fun m => m.returnsError)).map (methodOn ((.ptr (.name (decoratorName d g!"WithCircuitBreaker")))) (breakerStmts (tmCircuitbreaker.names u d).dec d.name)) ++ flatDecls afterCircuitbreaker) :=
  have _ := h
  flat_of (tmCircuitbreaker_file u d) (fun e he => tmCircuitbreaker_method u d e.2 (h.methods e he).2.err)

theorem shape_circuitbreaker {u : Uni} {d : Inputs} (h : GoInputs u d) :
    FileShape u d Text.circuitbreaker (tmCircuitbreaker.decls u d) (beforeCircuitbreaker u d (tmCircuitbreaker.names u d) []) ((.ptr (.name (decoratorName d g!"WithCircuitBreaker"))))
      (fun m => m.returnsError) (breakerStmts (tmCircuitbreaker.names u d).dec d.name) afterCircuitbreaker := by
  obtain ⟨⟨h1, h2⟩, _⟩ := generates_of tmCircuitbreaker_sound h (goodNames_dec h g!"WithCircuitBreaker" (by decide) ⟨'W', by decide, by decide⟩)
    (ty := (.ptr (.name (decoratorName d g!"WithCircuitBreaker")))) rfl (w := fun m => m.returnsError) (stmts := breakerStmts (tmCircuitbreaker.names u d).dec d.name)
    (tmCircuitbreaker_file u d) (tmCircuitbreaker_around u d (tmCircuitbreaker.names u d) _) (fun e he => tmCircuitbreaker_method u d e.2 (h.methods e he).2.err)
  exact ⟨⟨_, h1, ⟨h2, tmCircuitbreaker_grammatical h⟩⟩, flat_circuitbreaker h⟩

theorem flat_retry {u : Uni} {d : Inputs} (h : GoInputs u d) :
    flatDecls (tmRetry.decls u d) = flatDecls (beforeRetry u d (tmRetry.names u d) []) ++
      ((d.sorted.filter (fun m => m.returnsError)).map (methodOn ((.name (decoratorName d g!"WithRetry"))) (retryStmts d.name)) ++ flatDecls afterRetry) :=
  have _ := h
  flat_of (tmRetry_file u d) (fun e he => tmRetry_method u d e.2 (h.methods e he).2.err)

theorem shape_retry {u : Uni} {d : Inputs} (h : GoInputs u d) :
    FileShape u d Text.retry (tmRetry.decls u d) (beforeRetry u d (tmRetry.names u d) []) ((.name (decoratorName d g!"WithRetry")))
      (fun m => m.returnsError) (retryStmts d.name) afterRetry := by
  obtain ⟨⟨h1, h2⟩, _⟩ := generates_of tmRetry_sound h (goodNames_dec h g!"WithRetry" (by decide) ⟨'W', by decide, by decide⟩)
    (ty := (.name (decoratorName d g!"WithRetry"))) rfl (w := fun m => m.returnsError) (stmts := retryStmts d.name)
    (tmRetry_file u d) (tmRetry_around u d (tmRetry.names u d) _) (fun e he => tmRetry_method u d e.2 (h.methods e he).2.err)
  exact ⟨⟨_, h1, ⟨h2, tmRetry_grammatical h⟩⟩, flat_retry h⟩

theorem flat_ratelimit {u : Uni} {d : Inputs} (h : GoInputs u d) :
    flatDecls (tmRatelimit.decls u d) = flatDecls (beforeRatelimit u d (tmRatelimit.names u d) []) ++
      ((d.sorted.filter (fun _ => true)).map (methodOn ((.ptr (.name (decoratorName d g!"WithRateLimit")))) (rateLimitStmts)) ++ flatDecls afterRatelimit) :=
  have _ := h
  flat_of (tmRatelimit_file u d) (fun e he => tmRatelimit_method u d e.2)

theorem shape_ratelimit {u : Uni} {d : Inputs} (h : GoInputs u d) :
    FileShape u d Text.ratelimit (tmRatelimit.decls u d) (beforeRatelimit u d (tmRatelimit.names u d) []) ((.ptr (.name (decoratorName d g!"WithRateLimit"))))
      (fun _ => true) (rateLimitStmts) afterRatelimit := by
  obtain ⟨⟨h1, h2⟩, _⟩ := generates_of tmRatelimit_sound h (goodNames_dec h g!"WithRateLimit" (by decide) ⟨'W', by decide, by decide⟩)
    (ty := (.ptr (.name (decoratorName d g!"WithRateLimit")))) rfl (w := fun _ => true) (stmts := rateLimitStmts)
    (tmRatelimit_file u d) (tmRatelimit_around u d (tmRatelimit.names u d) _) (fun e he => tmRatelimit_method u d e.2)
  exact ⟨⟨_, h1, ⟨h2, tmRatelimit_grammatical h⟩⟩, flat_ratelimit h⟩

theorem flat_robinpool {u : Uni} {d : Inputs} (h : GoInputs u d) :
    flatDecls (tmRobinpool.decls u d) = flatDecls (beforeRobinpool u d (tmRobinpool.names u d) []) ++
      ((d.sorted.filter (fun _ => true)).map (methodOn ((.ptr (.name (decoratorName d g!"RoundRobinPool")))) (robinPoolStmts)) ++ flatDecls afterRobinpool) :=
  have _ := h
  flat_of (tmRobinpool_file u d) (fun e he => tmRobinpool_method u d e.2)

theorem shape_robinpool {u : Uni} {d : Inputs} (h : GoInputs u d) :
    FileShape u d Text.robinpool (tmRobinpool.decls u d) (beforeRobinpool u d (tmRobinpool.names u d) []) ((.ptr (.name (decoratorName d g!"RoundRobinPool"))))
      (fun _ => true) (robinPoolStmts) afterRobinpool := by
  obtain ⟨⟨h1, h2⟩, _⟩ := generates_of tmRobinpool_sound h (goodNames_dec h g!"RoundRobinPool" (by decide) ⟨'R', by decide, by decide⟩)
    (ty := (.ptr (.name (decoratorName d g!"RoundRobinPool")))) rfl (w := fun _ => true) (stmts := robinPoolStmts)
    (tmRobinpool_file u d) (tmRobinpool_around u d (tmRobinpool.names u d) _) (fun e he => tmRobinpool_method u d e.2)
  exact ⟨⟨_, h1, ⟨h2, tmRobinpool_grammatical h⟩⟩, flat_robinpool h⟩

theorem flat_syncpool {u : Uni} {d : Inputs} (h : GoInputs u d) :
    flatDecls (tmSyncpool.decls u d) = flatDecls (beforeSyncpool u d (tmSyncpool.names u d) []) ++
      ((d.sorted.filter (fun _ => true)).map (methodOn ((.name (decoratorName d g!"Pool"))) (syncPoolStmts)) ++ flatDecls afterSyncpool) :=
  have _ := h
  flat_of (tmSyncpool_file u d) (fun e he => tmSyncpool_method u d e.2)

theorem shape_syncpool {u : Uni} {d : Inputs} (h : GoInputs u d) :
    FileShape u d Text.syncpool (tmSyncpool.decls u d) (beforeSyncpool u d (tmSyncpool.names u d) []) ((.name (decoratorName d g!"Pool")))
      (fun _ => true) (syncPoolStmts) afterSyncpool := by
  obtain ⟨⟨h1, h2⟩, _⟩ := generates_of tmSyncpool_sound h (goodNames_dec h g!"Pool" (by decide) ⟨'P', by decide, by decide⟩)
    (ty := (.name (decoratorName d g!"Pool"))) rfl (w := fun _ => true) (stmts := syncPoolStmts)
    (tmSyncpool_file u d) (tmSyncpool_around u d (tmSyncpool.names u d) _) (fun e he => tmSyncpool_method u d e.2)
  exact ⟨⟨_, h1, ⟨h2, tmSyncpool_grammatical h⟩⟩, flat_syncpool h⟩

theorem flat_fallback {u : Uni} {d : Inputs} (h : GoInputs u d) :
    flatDecls (tmFallback.decls u d) = flatDecls (beforeFallback u d (tmFallback.names u d) []) ++
      ((d.sorted.filter (fun _ => true)).map (methodOn ((.name (decoratorName d g!"WithFallback"))) (fallbackStmts d.type)) ++ flatDecls afterFallback) :=
  have _ := h
  flat_of (tmFallback_file u d) (fun e he => tmFallback_method u d e.2 (h.methods e he).2.err (ctx_params h e he))

theorem shape_fallback {u : Uni} {d : Inputs} (h : GoInputs u d) :
    FileShape u d Text.fallback (tmFallback.decls u d) (beforeFallback u d (tmFallback.names u d) []) ((.name (decoratorName d g!"WithFallback")))
      (fun _ => true) (fallbackStmts d.type) afterFallback := by
  obtain ⟨⟨h1, h2⟩, _⟩ := generates_of tmFallback_sound h (goodNames_dec h g!"WithFallback" (by decide) ⟨'W', by decide, by decide⟩)
    (ty := (.name (decoratorName d g!"WithFallback"))) rfl (w := fun _ => true) (stmts := fallbackStmts d.type)
    (tmFallback_file u d) (tmFallback_around u d (tmFallback.names u d) _)
    (fun e he => tmFallback_method u d e.2 (h.methods e he).2.err (ctx_params h e he))
  exact ⟨⟨_, h1, ⟨h2, tmFallback_grammatical h⟩⟩, flat_fallback h⟩

/-- The declarations that the built-in templates generate, in the order of `builtins`. -/
def trees (u : Uni) (d : Inputs) : List (List Go.Decl) :=
  [tmLog.decls u d, tmLogrus.decls u d, tmPrometheus.decls u d, tmOpentracing.decls u d, tmOpencensus.decls u d, tmOpentelemetry.decls u d,
    tmElasticapm.decls u d, tmValidate.decls u d, tmTwirpValidate.decls u d, tmGrpcValidate.decls u d, tmTwirpError.decls u d, tmTimeout.decls u d,
    tmCircuitbreaker.decls u d, tmRetry.decls u d, tmRatelimit.decls u d, tmRobinpool.decls u d, tmSyncpool.decls u d, tmFallback.decls u d]

theorem exists_zip {α β : Type _} : ∀ {l : List α} {k : List β}, l.length ≤ k.length → ∀ {a : α}, a ∈ l → ∃ b, (a, b) ∈ l.zip k
  | [], _, _, _, ha => nomatch ha
  | _ :: _, [], h, _, _ => nomatch h
  | x :: l, y :: k, h, a, ha => by
    rcases List.mem_cons.mp ha with rfl | ha
    · exact ⟨y, .head _⟩
    · obtain ⟨b, hb⟩ := exists_zip (Nat.le_of_succ_le_succ h) ha
      exact ⟨b, .tail _ hb⟩

theorem zip_zip {α β γ : Type _} : ∀ {l : List α} {k : List β} {m : List γ} {x : (α × β) × γ}, x ∈ (l.zip k).zip m → (x.1.1, x.2) ∈ l.zip m
  | [], _, _, _, h => nomatch h
  | _ :: _, [], _, _, h => nomatch h
  | _ :: _, _ :: _, [], _, h => nomatch h
  | _ :: l, _ :: k, _ :: m, x, h => by
    rcases List.mem_cons.mp h with rfl | h
    · exact .head _
    · exact .tail _ (zip_zip h)

end Gowrap.Tmpl

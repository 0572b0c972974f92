import Verif.Spec.New
import Verif.Proofs.GoNewRun
import Verif.Proofs.Krfl
import Verif.Props.Generated
/-!
# C68: the constructors

For every built-in template, every interface and every command line, the constructor in the generated file returns a struct whose
fields are what the methods read: together with C66, the methods of what `New…` returns do what the decorator program does with
the arguments of `New…`.
-/

namespace Gowrap.Props

open Gowrap Tmpl Go Spec

set_option maxRecDepth 100000

/-- Reading fields. -/
local macro "holds" "[" l:Lean.Parser.Tactic.simpLemma,* "]" : tactic =>
  `(tactic| (intro p f hp
             simp only [$l,*, table] at hp
             repeat' (split at hp)
             all_goals first
               | (cases hp; done)
               | (rename_i he; exact absurd (List.cons.inj he).1 (by decide))
               | (rename_i he
                  have he := (List.cons.inj he).2
                  subst he
                  have hp := Option.some.inj hp
                  subst hp
                  first
                    | (refine .inr ?_; simp [fieldAt, Val.field, getKey, $l,*]; done)
                    | (refine .inr ?_; simp [fieldAt, Val.field, getKey, $l,*]; rfl)
                    | (refine .inl ?_; simp; done))))

/-- templates/log:15-21: two loggers are made, the first for `stdout`. -/
theorem C68_log (u : Uni) (d : Inputs) (h : GoInputs u d) :
    ∃ s ds, render u Text.log d = some s ∧ Consists d s ds ∧
      ∀ (base stdout stderr : Val),
        ∃ v : Val → Val → Val,
          callFunc 0 ds (g!"New" ++ decoratorName d g!"WithLog") [base, stdout, stderr] =
            callLib g!"log.New" [stdout, .str [], .str g!"LstdFlags"] (fun a =>
              callLib g!"log.New" [stderr, .str [], .str g!"LstdFlags"] fun b => .ret (.ret [v a b])) ∧
          ∀ (G : GoTypes) (D : Log), D.dec = decoratorName d g!"WithLog" → D.base = base →
            (∀ m, Stores (D.link m) (v D.stdlog D.errlog) []) ∧ Generates G ds (decoratorName d g!"WithLog") d D.link D.decorator := by
  refine ⟨_, _, (gen_log u d h).1.1, (gen_log u d h).1.2, ?_⟩
  intro base stdout stderr
  refine ⟨fun a b => .map [(g!"_base", base), (g!"_stdlog", a), (g!"_errlog", b)], ?_, ?_⟩
  · refine (call_of (flat_log h) (newLog_of u d (tmLog.names u d) []) 0 _).trans ?_
    unfold callLib
    refine congrArg (Tree.vis _) (funext fun r => ?_)
    match r with
    | .error _ => rfl
    | .ok ⟨[a], _⟩ =>
      refine congrArg (Tree.vis _) (funext fun r => ?_)
      match r with
      | .error _ => rfl
      | .ok ⟨[b], _⟩ => rfl
  · intro G D hD hb
    subst hb
    refine ⟨fun m => ?_, (gen_log u d h).2 G D hD⟩
    holds [Log.link]

example := C68_log Uni.ascii storeInputs store_good

/-- templates/logrus:15-20. -/
theorem C68_logrus (u : Uni) (d : Inputs) (h : GoInputs u d) :
    ∃ s ds, render u Text.logrus d = some s ∧ Consists d s ds ∧
      ∀ (G : GoTypes) (D : Logrus), D.dec = decoratorName d g!"WithLogrus" → 
        ∃ v, callFunc 0 ds (g!"New" ++ decoratorName d g!"WithLogrus") [D.base, D.log] = .ret (.ret [v]) ∧
          (∀ m, Stores (D.link m) v []) ∧
          Generates G ds (decoratorName d g!"WithLogrus") d D.link D.decorator := by
  refine ⟨_, _, (gen_logrus u d h).1.1, (gen_logrus u d h).1.2, ?_⟩
  intro G D h1
  refine ⟨.map [(g!"_base", D.base), (g!"_log", D.log)], ?_, ?_, (gen_logrus u d h).2 G D h1⟩
  · refine (call_of (flat_logrus h) (newLogrus_of u d (tmLogrus.names u d) []) 0 _).trans ?_
    rfl
  · intro m
    holds [Logrus.link]

example := C68_logrus Uni.ascii storeInputs store_good

/-- templates/prometheus:28-33. -/
theorem C68_prometheus (u : Uni) (d : Inputs) (h : GoInputs u d) :
    ∃ s ds, render u Text.prometheus d = some s ∧ Consists d s ds ∧
      ∀ (G : GoTypes) (D : Prometheus), D.iface = d.name → D.uni = u → 
        ∃ v, callFunc 0 ds (g!"New" ++ decoratorName d g!"WithPrometheus") [D.base, .str D.instanceName] = .ret (.ret [v]) ∧
          (∀ m, Stores (D.link m) v []) ∧
          Generates G ds (decoratorName d g!"WithPrometheus") d D.link D.decorator := by
  refine ⟨_, _, (gen_prometheus u d h).1.1, (gen_prometheus u d h).1.2, ?_⟩
  intro G D h1 h2
  refine ⟨.map [(g!"base", D.base), (g!"instanceName", .str D.instanceName)], ?_, ?_, (gen_prometheus u d h).2 G D h1 h2⟩
  · refine (call_of (flat_prometheus h) (newPrometheus_of u d (tmPrometheus.names u d) []) 0 _).trans ?_
    rfl
  · intro m
    holds [Prometheus.link]

example := C68_prometheus Uni.ascii storeInputs store_good

/-- templates/opentracing:17-28: the first optional function is the span decorator. -/
theorem C68_opentracing (u : Uni) (d : Inputs) (h : GoInputs u d) (hi : d.name ∉ [g!"_instance", g!"_spanDecorator"]) :
    ∃ s ds, render u Text.opentracing d = some s ∧ Consists d s ds ∧
      ∀ (G : GoTypes) (D : Tracing), D.iface = ⟨d.name, d.type⟩ → ∀ vs, D.spanDecorator = firstOf vs →
        ∃ v, callFunc 0 ds (g!"New" ++ decoratorName d g!"WithTracing") [D.base, .str D.inst, .slice vs] = .ret (.ret [v]) ∧
          (∀ m, Stores (D.openTracingLink m) v []) ∧
          Generates G ds (decoratorName d g!"WithTracing") d D.openTracingLink D.openTracingDecorator := by
  refine ⟨_, _, (gen_opentracing u d h hi).1.1, (gen_opentracing u d h hi).1.2, ?_⟩
  intro G D h1 vs hvs
  have hi1 : ¬ d.name = g!"_instance" := fun hc => hi (by simp [hc])
  have hi2 : ¬ d.name = g!"_spanDecorator" := fun hc => hi (by simp [hc])
  have hn : D.iface.name = d.name := by rw [h1]
  refine ⟨spanFields d.name D.base (.str D.inst) vs, ?_, ?_, (gen_opentracing u d h hi).2 G D h1⟩
  · exact (call_of (flat_opentracing h) (newOpentracing_of u d (tmOpentracing.names u d) []) 0 _).trans (run_span rfl _ _ d.name D.base (.str D.inst) vs)
  · intro m
    unfold spanFields
    cases hv : (firstOf vs).isNil
    · holds [Tracing.openTracingLink, Tracing.fields, setKey, hi1, hi2, Ne.symm hi1, Ne.symm hi2, hvs, hn]
    · have hv : firstOf vs = .nil := by
        revert hv
        cases firstOf vs <;> simp [Val.isNil]
      rw [hv] at hvs
      holds [Tracing.openTracingLink, Tracing.fields, hi1, hi2, Ne.symm hi1, Ne.symm hi2, hvs, hn]

example := C68_opentracing Uni.ascii storeInputs store_good (by decide)

/-- templates/opencensus:15-26: the first optional function is the span decorator. -/
theorem C68_opencensus (u : Uni) (d : Inputs) (h : GoInputs u d) (hi : d.name ∉ [g!"_instance", g!"_spanDecorator"]) :
    ∃ s ds, render u Text.opencensus d = some s ∧ Consists d s ds ∧
      ∀ (G : GoTypes) (D : Tracing), D.iface = ⟨d.name, d.type⟩ → ∀ vs, D.spanDecorator = firstOf vs →
        ∃ v, callFunc 0 ds (g!"New" ++ decoratorName d g!"WithTracing") [D.base, .str D.inst, .slice vs] = .ret (.ret [v]) ∧
          (∀ m, Stores (D.openCensusLink m) v []) ∧
          Generates G ds (decoratorName d g!"WithTracing") d D.openCensusLink D.openCensusDecorator := by
  refine ⟨_, _, (gen_opencensus u d h hi).1.1, (gen_opencensus u d h hi).1.2, ?_⟩
  intro G D h1 vs hvs
  have hi1 : ¬ d.name = g!"_instance" := fun hc => hi (by simp [hc])
  have hi2 : ¬ d.name = g!"_spanDecorator" := fun hc => hi (by simp [hc])
  have hn : D.iface.name = d.name := by rw [h1]
  refine ⟨spanFields d.name D.base (.str D.inst) vs, ?_, ?_, (gen_opencensus u d h hi).2 G D h1⟩
  · exact (call_of (flat_opencensus h) (newOpencensus_of u d (tmOpencensus.names u d) []) 0 _).trans (run_span rfl _ _ d.name D.base (.str D.inst) vs)
  · intro m
    unfold spanFields
    cases hv : (firstOf vs).isNil
    · holds [Tracing.openCensusLink, Tracing.fields, setKey, hi1, hi2, Ne.symm hi1, Ne.symm hi2, hvs, hn]
    · have hv : firstOf vs = .nil := by
        revert hv
        cases firstOf vs <;> simp [Val.isNil]
      rw [hv] at hvs
      holds [Tracing.openCensusLink, Tracing.fields, hi1, hi2, Ne.symm hi1, Ne.symm hi2, hvs, hn]

example := C68_opencensus Uni.ascii storeInputs store_good (by decide)

/-- templates/opentelemetry:21-32: the first optional function is the span decorator. -/
theorem C68_opentelemetry (u : Uni) (d : Inputs) (h : GoInputs u d) (hi : d.name ∉ [g!"_instance", g!"_spanDecorator"]) :
    ∃ s ds, render u Text.opentelemetry d = some s ∧ Consists d s ds ∧
      ∀ (G : GoTypes) (D : Tracing), D.iface = ⟨d.name, d.type⟩ → D.spanNameType = cliVar d g!"SpanNamePrefix" d.name → ∀ vs, D.spanDecorator = firstOf vs →
        ∃ v, callFunc 0 ds (g!"New" ++ decoratorName d g!"WithTracing") [D.base, .str D.inst, .slice vs] = .ret (.ret [v]) ∧
          (∀ m, Stores (D.openTelemetryLink m) v []) ∧
          Generates G ds (decoratorName d g!"WithTracing") d D.openTelemetryLink D.openTelemetryDecorator := by
  refine ⟨_, _, (gen_opentelemetry u d h hi).1.1, (gen_opentelemetry u d h hi).1.2, ?_⟩
  intro G D h1 h2 vs hvs
  have hi1 : ¬ d.name = g!"_instance" := fun hc => hi (by simp [hc])
  have hi2 : ¬ d.name = g!"_spanDecorator" := fun hc => hi (by simp [hc])
  have hn : D.iface.name = d.name := by rw [h1]
  refine ⟨spanFields d.name D.base (.str D.inst) vs, ?_, ?_, (gen_opentelemetry u d h hi).2 G D h1 h2⟩
  · exact (call_of (flat_opentelemetry h) (newOpentelemetry_of u d (tmOpentelemetry.names u d) []) 0 _).trans (run_span rfl _ _ d.name D.base (.str D.inst) vs)
  · intro m
    unfold spanFields
    cases hv : (firstOf vs).isNil
    · holds [Tracing.openTelemetryLink, Tracing.fields, setKey, hi1, hi2, Ne.symm hi1, Ne.symm hi2, hvs, hn]
    · have hv : firstOf vs = .nil := by
        revert hv
        cases firstOf vs <;> simp [Val.isNil]
      rw [hv] at hvs
      holds [Tracing.openTelemetryLink, Tracing.fields, hi1, hi2, Ne.symm hi1, Ne.symm hi2, hvs, hn]

example := C68_opentelemetry Uni.ascii storeInputs store_good (by decide)

/-- templates/elasticapm:38-57, without options: the span type is the name of the component. -/
theorem C68_elasticapm (u : Uni) (d : Inputs) (h : GoInputs u d) :
    ∃ s ds, render u Text.elasticapm d = some s ∧ Consists d s ds ∧
      ∀ (G : GoTypes) (D : Apm), D.uni = u → D.component = cliVar d g!"ComponentName" (u.lower d.name) → D.spanType = D.component →
        ∃ v, callFunc 0 ds (g!"New" ++ decoratorName d g!"APMTracing") [D.base, .slice []] = .ret (.ret [v]) ∧
          (∀ m, Stores (D.link m) v []) ∧
          Generates G ds (decoratorName d g!"APMTracing") d D.link D.decorator := by
  refine ⟨_, _, (gen_elasticapm u d h).1.1, (gen_elasticapm u d h).1.2, ?_⟩
  intro G D h1 h2 h3
  refine ⟨.map [(g!"base", D.base), (g!"startSpan", .str g!"apm.StartSpan"), (g!"endSpan", .str g!"endSpan"), (g!"setLabel", .str g!"setLabel"),
    (g!"captureError", .str g!"captureError"), (g!"spanType", .str D.component)], ?_, ?_, (gen_elasticapm u d h).2 G D h1 h2⟩
  · refine (call_of (flat_elasticapm h) (newElasticapm_of u d (tmElasticapm.names u d) []) 0 _).trans ?_
    rw [h2, ← variable_lower]
    rfl
  · intro m
    holds [Apm.link, h3]

example := C68_elasticapm Uni.ascii storeInputs store_good

/-- templates/validate:9-13. -/
theorem C68_validate (u : Uni) (d : Inputs) (h : GoInputs u d) :
    ∃ s ds, render u Text.validate d = some s ∧ Consists d s ds ∧
      ∀ (G : GoTypes) (base : Val), 
        ∃ v, callFunc 0 ds (g!"New" ++ decoratorName d g!"WithValidation") [base] = .ret (.ret [v]) ∧
          (∀ m, Stores ((validateLink G d.name base) m) v []) ∧
          Generates G ds (decoratorName d g!"WithValidation") d (validateLink G d.name base) (validateDecorator G d.name base) := by
  refine ⟨_, _, (gen_validate u d h).1.1, (gen_validate u d h).1.2, ?_⟩
  intro G base
  refine ⟨.map [(d.name, base)], ?_, ?_, (gen_validate u d h).2 G base⟩
  · refine (call_of (flat_validate h) (newValidate_of u d (tmValidate.names u d) []) 0 _).trans ?_
    rfl
  · intro m
    holds [validateLink]

example := C68_validate Uni.ascii storeInputs store_good

/-- templates/twirp_validate:13-17. -/
theorem C68_twirp_validate (u : Uni) (d : Inputs) (h : GoInputs u d) :
    ∃ s ds, render u Text.twirpValidate d = some s ∧ Consists d s ds ∧
      ∀ (G : GoTypes) (base : Val), 
        ∃ v, callFunc 0 ds (g!"New" ++ decoratorName d g!"WithTwirpValidation") [base] = .ret (.ret [v]) ∧
          (∀ m, Stores ((twirpValidateLink G d.name base) m) v []) ∧
          Generates G ds (decoratorName d g!"WithTwirpValidation") d (twirpValidateLink G d.name base) (twirpValidateDecorator G d.name base) := by
  refine ⟨_, _, (gen_twirp_validate u d h).1.1, (gen_twirp_validate u d h).1.2, ?_⟩
  intro G base
  refine ⟨.map [(d.name, base)], ?_, ?_, (gen_twirp_validate u d h).2 G base⟩
  · refine (call_of (flat_twirp_validate h) (newTwirpValidate_of u d (tmTwirpValidate.names u d) []) 0 _).trans ?_
    rfl
  · intro m
    holds [twirpValidateLink]

example := C68_twirp_validate Uni.ascii storeInputs store_good

/-- templates/grpc_validate:14-18. -/
theorem C68_grpc_validate (u : Uni) (d : Inputs) (h : GoInputs u d) :
    ∃ s ds, render u Text.grpcValidate d = some s ∧ Consists d s ds ∧
      ∀ (G : GoTypes) (base : Val), 
        ∃ v, callFunc 0 ds (g!"New" ++ decoratorName d g!"WithGRPCValidation") [base] = .ret (.ret [v]) ∧
          (∀ m, Stores ((grpcValidateLink G d.name base) m) v []) ∧
          Generates G ds (decoratorName d g!"WithGRPCValidation") d (grpcValidateLink G d.name base) (grpcValidateDecorator G d.name base) := by
  refine ⟨_, _, (gen_grpc_validate u d h).1.1, (gen_grpc_validate u d h).1.2, ?_⟩
  intro G base
  refine ⟨.map [(d.name, base)], ?_, ?_, (gen_grpc_validate u d h).2 G base⟩
  · refine (call_of (flat_grpc_validate h) (newGrpcValidate_of u d (tmGrpcValidate.names u d) []) 0 _).trans ?_
    rfl
  · intro m
    holds [grpcValidateLink]

example := C68_grpc_validate Uni.ascii storeInputs store_good

/-- templates/twirp_error:13-17. -/
theorem C68_twirp_error (u : Uni) (d : Inputs) (h : GoInputs u d) :
    ∃ s ds, render u Text.twirpError d = some s ∧ Consists d s ds ∧
      ∀ (G : GoTypes) (base : Val), 
        ∃ v, callFunc 0 ds (g!"New" ++ decoratorName d g!"WithTwirpError") [base] = .ret (.ret [v]) ∧
          (∀ m, Stores ((twirpErrorLink G d.name base (funcBody g!"injectRequestDataToError" ds)) m) v []) ∧
          Generates G ds (decoratorName d g!"WithTwirpError") d (twirpErrorLink G d.name base (funcBody g!"injectRequestDataToError" ds)) (twirpErrorDecorator G d.name base) := by
  refine ⟨_, _, (gen_twirp_error u d h).1.1, (gen_twirp_error u d h).1.2, ?_⟩
  intro G base
  refine ⟨.map [(d.name, base)], ?_, ?_, (gen_twirp_error u d h).2 G base⟩
  · refine (call_of (flat_twirp_error h) (newTwirpError_of u d (tmTwirpError.names u d) []) 0 _).trans ?_
    rfl
  · intro m
    holds [twirpErrorLink]

example := C68_twirp_error Uni.ascii storeInputs store_good

/-- templates/timeout:21-26; `c` is the struct with the timeouts. -/
theorem C68_timeout (u : Uni) (d : Inputs) (h : GoInputs u d) (hf : d.name ≠ g!"config") :
    ∃ s ds, render u Text.timeout d = some s ∧ Consists d s ds ∧
      ∀ (G : GoTypes) (base : Val) (config : Str → Int), ∀ c : Val, (∀ m : Method, c.field (m.name ++ g!"Timeout") = .int (config m.name)) →
        ∃ v, callFunc 0 ds (g!"New" ++ decoratorName d g!"WithTimeout") [base, c] = .ret (.ret [v]) ∧
          (∀ m, Stores ((fun m => timeoutLink d.name base (config m.name) m) m) v []) ∧
          Generates G ds (decoratorName d g!"WithTimeout") d (fun m => timeoutLink d.name base (config m.name) m) (timeoutDecorator d.name base config) := by
  refine ⟨_, _, (gen_timeout u d h).1.1, (gen_timeout u d h).1.2, ?_⟩
  intro G base config c hc
  refine ⟨.map [(d.name, base), (g!"config", c)], ?_, ?_, (gen_timeout u d h).2 G base config⟩
  · refine (call_of (flat_timeout h) (newTimeout_of u d (tmTimeout.names u d) (d.sorted.flatMap (tmTimeout.configFields u d))) 0 _).trans ?_
    rfl
  · intro m p f hp
    simp only [timeoutLink, table] at hp
    split at hp
    · rename_i he
      have he := (List.cons.inj he).2
      subst he
      have hp := Option.some.inj hp
      subst hp
      refine .inr ?_
      have : fieldAt (.map [(d.name, base), (g!"config", c)]) [g!"config", m.name ++ g!"Timeout"] = c.field (m.name ++ g!"Timeout") := by
        simp [fieldAt, Val.field, getKey, Ne.symm hf]
      rw [this, hc m]
      rfl
    · split at hp
      · rename_i he
        have he := (List.cons.inj he).2
        subst he
        have hp := Option.some.inj hp
        subst hp
        refine .inr ?_
        simp [fieldAt, Val.field, getKey]
        rfl
      · exact nomatch hp

example := C68_timeout Uni.ascii storeInputs store_good (by decide)

/-- templates/circuitbreaker:23-30: the number of errors and the time are the zero values. -/
theorem C68_circuitbreaker (u : Uni) (d : Inputs) (h : GoInputs u d) (hi : d.name ∉ [g!"_lock", g!"_maxConsecutiveErrors", g!"_consecutiveErrors", g!"_openInterval", g!"_closesAt", g!"_ignoreErrors"]) :
    ∃ s ds, render u Text.circuitbreaker d = some s ∧ Consists d s ds ∧
      ∀ (G : GoTypes) (D : Breaker), D.iface = d.name → D.dec = decoratorName d g!"WithCircuitBreaker" → 
        ∃ v, callFunc 0 ds (g!"New" ++ decoratorName d g!"WithCircuitBreaker") [D.base, .int D.maxErrors, .int D.openInterval, .slice D.ignore] = .ret (.ret [v]) ∧
          (∀ m, Stores (D.link m) v [g!"_consecutiveErrors", g!"_closesAt"]) ∧
          (∀ x ∈ [g!"_consecutiveErrors", g!"_closesAt"], fieldAt v [x] = .nil) ∧
          Generates G ds (decoratorName d g!"WithCircuitBreaker") d D.link D.decorator := by
  refine ⟨_, _, (gen_circuitbreaker u d h hi).1.1, (gen_circuitbreaker u d h hi).1.2, ?_⟩
  intro G D h1 h2
  refine ⟨.map [(d.name, D.base), (g!"_maxConsecutiveErrors", .int D.maxErrors), (g!"_openInterval", .int D.openInterval), (g!"_ignoreErrors", .slice D.ignore)], ?_, ?_, ?_, (gen_circuitbreaker u d h hi).2 G D h1 h2⟩
  · refine (call_of (flat_circuitbreaker h) (newCircuitbreaker_of u d (tmCircuitbreaker.names u d) []) 0 _).trans ?_
    rfl
  · intro m
    have hf0 : ¬ d.name = g!"_lock" := fun hc => hi (by simp [hc])
    have hf1 : ¬ d.name = g!"_maxConsecutiveErrors" := fun hc => hi (by simp [hc])
    have hf2 : ¬ d.name = g!"_consecutiveErrors" := fun hc => hi (by simp [hc])
    have hf3 : ¬ d.name = g!"_openInterval" := fun hc => hi (by simp [hc])
    have hf4 : ¬ d.name = g!"_closesAt" := fun hc => hi (by simp [hc])
    have hf5 : ¬ d.name = g!"_ignoreErrors" := fun hc => hi (by simp [hc])
    holds [Breaker.link, h1, hf0, Ne.symm hf0, hf1, Ne.symm hf1, hf2, Ne.symm hf2, hf3, Ne.symm hf3, hf4, Ne.symm hf4, hf5, Ne.symm hf5]
  · have hf2 : ¬ g!"_consecutiveErrors" = d.name := fun hc => hi (by simp [← hc])
    have hf4 : ¬ g!"_closesAt" = d.name := fun hc => hi (by simp [← hc])
    simp [fieldAt, Val.field, getKey, hf2, hf4]

example := C68_circuitbreaker Uni.ascii storeInputs store_good (by decide)

/-- templates/retry:15-21. -/
theorem C68_retry (u : Uni) (d : Inputs) (h : GoInputs u d) (hi : d.name ∉ [g!"_retryCount", g!"_retryInterval"]) (hx : ∀ e ∈ d.methods, e.2.returnsError = true → g!"_i" ∉ e.2.rnames) :
    ∃ s ds, render u Text.retry d = some s ∧ Consists d s ds ∧
      ∀ (G : GoTypes) (D : Retry), D.iface = d.name → 
        ∃ v, callFunc 0 ds (g!"New" ++ decoratorName d g!"WithRetry") [D.base, .int D.retryCount, .int D.retryInterval] = .ret (.ret [v]) ∧
          (∀ m, Stores (D.link m) v []) ∧
          Generates G ds (decoratorName d g!"WithRetry") d D.link D.decorator := by
  refine ⟨_, _, (gen_retry u d h hi hx).1.1, (gen_retry u d h hi hx).1.2, ?_⟩
  intro G D h1
  refine ⟨.map [(d.name, D.base), (g!"_retryCount", .int D.retryCount), (g!"_retryInterval", .int D.retryInterval)], ?_, ?_, (gen_retry u d h hi hx).2 G D h1⟩
  · refine (call_of (flat_retry h) (newRetry_of u d (tmRetry.names u d) []) 0 _).trans ?_
    rfl
  · intro m
    have hf0 : ¬ d.name = g!"_retryCount" := fun hc => hi (by simp [hc])
    have hf1 : ¬ d.name = g!"_retryInterval" := fun hc => hi (by simp [hc])
    holds [Retry.link, h1, hf0, Ne.symm hf0, hf1, Ne.symm hf1]

example := C68_retry Uni.ascii storeInputs store_good (by decide) (by decide)

/-- templates/fallback:18-20. -/
theorem C68_fallback (u : Uni) (d : Inputs) (h : GoInputs u d)
    (hs : ∀ e ∈ d.methods, e.2.returnsError = true → e.2.acceptsContext = true)
    (hx : ∀ e ∈ d.methods, ∀ x ∈ e.2.pnames ++ e.2.rnames, x ∉ [g!"_", g!"_res", g!"_impl", g!"len", g!"make", g!"append", g!"string"]) :
    ∃ s ds, render u Text.fallback d = some s ∧ Consists d s ds ∧
      ∀ (G : GoTypes) (D : Fallback), 
        ∃ v, callFunc 0 ds (g!"New" ++ decoratorName d g!"WithFallback") [.int D.interval, .slice D.impls] = .ret (.ret [v]) ∧
          (∀ m, Stores (D.link m) v []) ∧
          Generates G ds (decoratorName d g!"WithFallback") d D.link D.decorator ∧
            Starts ds (decoratorName d g!"WithFallback") d D.link D.goTree [.launcher, .impl] := by
  refine ⟨_, _, (gen_fallback u d h hs hx).1.1, (gen_fallback u d h hs hx).1.2, ?_⟩
  intro G D
  refine ⟨.map [(g!"implementations", .slice D.impls), (g!"interval", .int D.interval)], ?_, ?_, (gen_fallback u d h hs hx).2 G D⟩
  · refine (call_of (flat_fallback h) (newFallback_of u d (tmFallback.names u d) []) 0 _).trans ?_
    rfl
  · intro m p f hp
    match p with
    | [] => exact nomatch hp
    | [x] =>
      have hp : (if x = g!"implementations" then some (value (.slice D.impls)) else if x = g!"interval" then some (value (.int D.interval)) else none) = some f := hp
      split at hp
      · rename_i he
        subst he
        have hp := Option.some.inj hp
        subst hp
        exact .inr rfl
      · split at hp
        · rename_i he
          subst he
          have hp := Option.some.inj hp
          subst hp
          exact .inr rfl
        · exact nomatch hp
    | _ :: _ :: _ => exact nomatch hp

example := C68_fallback Uni.ascii storeInputs store_good (by decide) (by decide)

/-- templates/ratelimit:14-34: `burst` values are put into the channel `_ticks`, which holds so many; then a goroutine is started that
puts in further ones with the given delay.  A negative `burst` panics. -/
theorem C68_ratelimit (u : Uni) (d : Inputs) (h : GoInputs u d) :
    ∃ s ds, render u Text.ratelimit d = some s ∧ Consists d s ds ∧
      ∀ (G : GoTypes) (base : Val),
        (∀ (burst : Nat) (rps : Val), ∃ (v : Int → Val) (env : Int → Val → Env),
          callFunc (burst + 1) ds (g!"New" ++ decoratorName d g!"WithRateLimit") [base, .int burst, rps] =
            .vis .now (fun (now : Int) => callLib g!"float64" [.int 1000000000] fun second => callLib g!"/" [second, rps] fun q =>
              callLib g!"time.Duration" [q] fun delay => .vis (.go .ticker (env now delay)) fun _ => .ret (.ret [v now])) ∧
          ∀ now, (∀ delay, env now delay g!"delay" = some delay ∧ env now delay g!"d" = some (v now)) ∧
            fieldAt (v now) [g!"_ticks"] = chanVal burst (List.replicate burst (.int now)) ∧ ∀ m, Stores (rateLimitLink base m) (v now) []) ∧
        (∀ (burst : Int) (rps : Val) (fuel : Nat), burst < 0 →
          callFunc fuel ds (g!"New" ++ decoratorName d g!"WithRateLimit") [base, .int burst, rps] = .ret (.panic .nil)) ∧
        Generates G ds (decoratorName d g!"WithRateLimit") d (rateLimitLink base) (rateLimitDecorator base) := by
  refine ⟨_, _, (gen_ratelimit u d h).1.1, (gen_ratelimit u d h).1.2, ?_⟩
  intro G base
  refine ⟨fun burst rps => ?_, fun burst rps fuel hb => ?_, (gen_ratelimit u d h).2 G base⟩
  · obtain ⟨E, hE, hr⟩ := run_limiter (ps := (newRatelimit d (tmRatelimit.names u d)).1) rfl (.ptr (.name (tmRatelimit.names u d).dec))
      (tmRatelimit.names u d).dec base rps burst
    refine ⟨fun now => limiter base burst (List.replicate burst (.int now)), E, ?_, fun now => ⟨hE now, ?_, fun m => ?_⟩⟩
    · exact (call_of (flat_ratelimit h) (newRatelimit_of u d (tmRatelimit.names u d) []) _ _).trans hr
    · simp [fieldAt, limiter, Val.field, getKey]
    · holds [rateLimitLink, limiter]
  · exact (call_of (flat_ratelimit h) (newRatelimit_of u d (tmRatelimit.names u d) []) _ _).trans
      (run_limiter_negative (ps := (newRatelimit d (tmRatelimit.names u d)).1) rfl _ _ base rps fuel hb)

example := C68_ratelimit Uni.ascii storeInputs store_good

/-- templates/robinpool:17-33: without implementations `New…` returns an error and `MustNew…` panics. -/
theorem C68_robinpool (u : Uni) (d : Inputs) (h : GoInputs u d) :
    ∃ s ds, render u Text.robinpool d = some s ∧ Consists d s ds ∧
      ∀ (G : GoTypes) (pool : List Val),
        (pool ≠ [] → ∃ v, callFunc 0 ds (g!"New" ++ decoratorName d g!"RoundRobinPool") [.slice pool] = .ret (.ret [v, .nil]) ∧
          callFunc 0 ds (g!"MustNew" ++ decoratorName d g!"RoundRobinPool") [.slice pool] = .ret (.ret [v]) ∧
          ∀ m, Stores (robinPoolLink pool m) v []) ∧
        callFunc 0 ds (g!"New" ++ decoratorName d g!"RoundRobinPool") [.slice []] =
          callLib g!"errors.New" [.str g!"empty pool"] (fun e => .ret (.ret [.nil, e])) ∧
        callFunc 0 ds (g!"MustNew" ++ decoratorName d g!"RoundRobinPool") [.slice []] = .ret (.panic (.str g!"empty pool")) ∧
        Generates G ds (decoratorName d g!"RoundRobinPool") d (robinPoolLink pool) (robinPoolDecorator pool) := by
  refine ⟨_, _, (gen_robinpool u d h).1.1, (gen_robinpool u d h).1.2, ?_⟩
  intro G pool
  have hnew := call_of (flat_robinpool h) (newRobinpool_of u d (tmRobinpool.names u d) []) 0
  have hmust := call_of (flat_robinpool h) (mustNewRobinpool_of u d (tmRobinpool.names u d) []) 0
  refine ⟨fun hp => ?_, ?_, ?_, (gen_robinpool u d h).2 G pool⟩
  · rcases pool with _ | ⟨p, pool⟩
    · exact absurd rfl hp
    refine ⟨.map [(g!"pool", .slice (p :: pool)), (g!"poolSize", .int (((p :: pool).length : Nat) % 4294967296))], ?_, ?_, fun m => ?_⟩
    · exact (hnew _).trans (by krfl)
    · exact (hmust _).trans (by krfl)
    · holds [robinPoolLink]
  · refine (hnew _).trans ?_
    refine Tree.vis_congr fun r => ?_
    match r with
    | .error _ => rfl
    | .ok ⟨[e], _⟩ => rfl
  · exact (hmust _).trans (by krfl)

example := C68_robinpool Uni.ascii storeInputs store_good

/-- templates/syncpool:10-21: the channel `pool` holds all the implementations; without implementations `New…` panics. -/
theorem C68_syncpool (u : Uni) (d : Inputs) (h : GoInputs u d) :
    ∃ s ds, render u Text.syncpool d = some s ∧ Consists d s ds ∧
      ∀ (G : GoTypes),
        (∀ impls : List Val, impls ≠ [] → ∃ v,
          callFunc 0 ds (g!"New" ++ decoratorName d g!"Pool") [.slice impls] = .ret (.ret [v]) ∧
          fieldAt v [g!"pool"] = chanVal impls.length impls ∧ ∀ m, Stores (syncPoolLink m) v []) ∧
        callFunc 0 ds (g!"New" ++ decoratorName d g!"Pool") [.slice []] = .ret (.panic (.str g!"empty pool")) ∧
        Generates G ds (decoratorName d g!"Pool") d syncPoolLink syncPoolDecorator := by
  refine ⟨_, _, (gen_syncpool u d h).1.1, (gen_syncpool u d h).1.2, ?_⟩
  intro G
  have hnew := call_of (flat_syncpool h) (newSyncpool_of u d (tmSyncpool.names u d) []) 0
  refine ⟨fun impls hp => ?_, ?_, (gen_syncpool u d h).2 G⟩
  · rcases impls with _ | ⟨i, impls⟩
    · exact absurd rfl hp
    refine ⟨_, (hnew _).trans (run_sync (ps := (newSyncpool d (tmSyncpool.names u d)).1) rfl _ _ _ i impls), ?_, fun m => ?_⟩
    · simp [fieldAt, Val.field, getKey]
    · intro p f hp
      exact nomatch hp
  · exact (hnew _).trans (run_sync_empty (ps := (newSyncpool d (tmSyncpool.names u d)).1) rfl _ _)

example := C68_syncpool Uni.ascii storeInputs store_good

end Gowrap.Props

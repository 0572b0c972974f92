import Verif.Props.Promises
import Verif.Props.Compiles
import Verif.Props.Generated
/-!
# C80: decorators generated for an interface do what their templates promise
-/

namespace Gowrap.Spec

open Gowrap Props Tmpl Go

variable {w : World} {s : Sched} {fuel : Nat} {o : Options} {g : Generator} {vars : Str → Option VarValue} {bl : Builtin × Locals}

theorem Ready.inputs (h : Ready w s fuel o g vars bl) : GoInputs w.uni (g.inputs o vars) := (C69_inputs h.fair h.source h.options h.found h.given).1

/-- The methods have the shape that the properties of the decorators demand. -/
theorem Ready.methodOk (h : Ready w s fuel o g vars bl) {e : Str × Method} (he : e ∈ g.methods) : MethodOk e.2 := by
  have hok := found_ok h.fair h.source h.options h.found e he
  refine ⟨hok.distinct, fun hr => ?_, fun hc => ?_⟩
  · obtain ⟨init, last, e1, e2⟩ := hok.err hr
    exact ⟨init, last, e1, e2, h.error e he hr last (by rw [e1]; simp) e2⟩
  · exact hok.method.ctx hc

/-- No name is a blank. -/
theorem Ready.declared (h : Ready w s fuel o g vars bl) {e : Str × Method} (he : e ∈ g.methods)
    (hd : ∀ p ∈ e.2.params ++ e.2.results, p.name ≠ g!"_d") {self : Val} {args : List Val} (ha : args.length = e.2.params.length) :
    e.2.WellDeclared (g!"_d", self) args := by
  have hmem : ∀ x, x ∈ e.2.pnames ++ e.2.rnames → ∃ p ∈ e.2.params ++ e.2.results, p.name = x := by
    intro x hx
    rw [Method.pnames, Method.rnames, ← List.map_append] at hx
    obtain ⟨p, hp, rfl⟩ := List.mem_map.1 hx
    exact ⟨p, hp, rfl⟩
  refine ⟨?_, ?_, ha⟩
  · rw [List.nodup_cons]
    refine ⟨fun hx => ?_, (h.methodOk he).nodup⟩
    obtain ⟨p, hp, e⟩ := hmem _ hx
    exact hd p hp e
  · intro hx
    obtain ⟨p, hp, e'⟩ := hmem _ hx
    exact h.names.blank e he p hp e'

/-- Calls of the methods that the template declares. -/
theorem Ready.callable_of (h : Ready w s fuel o g vars bl) {e : Str × Method} (he : e ∈ g.methods) (hw : bl.1.which.holds e.2) {self : Val} {args : List Val}
    (ha : args.length = e.2.params.length) {idents : List Str} (hi : ∀ x ∈ idents, x ≠ g!"_d" ∧ (x ∈ bl.2.names ∨ x ∈ bl.2.inner ∨
      ∀ p ∈ e.2.params ++ e.2.results, p.name ≠ x)) :
    Callable e.2 (g!"_d", self) idents args := by
  have hf := h.names.fresh e he hw
  have hd : ∀ p ∈ e.2.params ++ e.2.results, p.name ≠ g!"_d" := fun p hp hx => hf.names p hp (hx ▸ List.mem_cons_self)
  refine ⟨h.methodOk he, h.declared he hd ha, ?_⟩
  intro x hx hm
  obtain ⟨h0, hx⟩ := hi x hx
  rcases List.mem_cons.mp hm with hm | hm
  · exact h0 hm
  · rw [Method.pnames, Method.rnames, ← List.map_append] at hm
    obtain ⟨p, hp, rfl⟩ := List.mem_map.1 hm
    rcases hx with hx | hx | hx
    · exact hf.names p hp (List.mem_cons_of_mem _ hx)
    · rcases List.mem_append.mp hp with hp | hp
      · exact h.names.inner e he hw p hp hx
      · exact hf.results p hp hx
    · exact hx p hp rfl

theorem Ready.callable (h : Ready w s fuel o g vars bl) {e : Str × Method} (he : e ∈ g.methods) (hw : bl.1.which.holds e.2) {self : Val} {args : List Val}
    (ha : args.length = e.2.params.length) {idents : List Str} (hi : ∀ x ∈ idents, x ≠ g!"_d" ∧ (x ∈ bl.2.names ∨ x ∈ bl.2.inner)) :
    Callable e.2 (g!"_d", self) idents args :=
  h.callable_of he hw ha fun x hx => ⟨(hi x hx).1, (hi x hx).2.imp_right .inl⟩

end Gowrap.Spec

namespace Gowrap.Props

open Gowrap Spec Tmpl Go

variable {w : World} {s : Sched} {fuel : Nat} {o : Options} {g : Generator} {vars : Str → Option VarValue} {bl : Builtin × Locals}

/-- The declarations of a template compile. -/
theorem makes {ds : List Go.Decl} (h : Ready w s fuel o g vars bl) (hx : (bl, ds) ∈ (builtins.zip locals).zip (trees w.uni (g.inputs o vars)))
    {P : List Go.Decl → Prop} (hp : P ds) : Makes w o g vars bl P := by
  obtain ⟨t, h1, h2, h3⟩ := compiles_tree h.fair h.source h.options h.found h.given hx h.names h.suits
  exact ⟨t, ds, h1, h2, h3, hp⟩


/-- A method that is not declared is the one of the embedded implementation. -/
theorem promoted {G : GoTypes} {D : Decorator} {m : Method} {recv : Str × Val} {args : List Val} (he : D.embeds = true) (hb : D.body m = none)
    {tr : List Event} {out : Outcome} (hr : (D.call G m recv args).Run tr out) : Transparent D.base m args tr out := by
  unfold Decorator.call at hr
  rw [hb] at hr
  simp only [he, if_true] at hr
  obtain ⟨x, tr, rfl, hr⟩ := hr
  cases x with
  | ok vs => obtain ⟨rfl, rfl⟩ := hr; exact ⟨.ok vs.1, rfl, rfl⟩
  | error v => obtain ⟨rfl, rfl⟩ := hr; exact ⟨.error v, rfl, rfl⟩

/-- A call of a method of the generated type is a call of the decorator. -/
theorem run_of {G : GoTypes} {ds : List Go.Decl} {d : Inputs} {b : Builtin} {type : Str} {link : Method → Go.Link} {D : Decorator}
    (hg : Generates G ds type d link D) (ht : decoratorName d b.suffix = type) {e : Str × Method} (he : e ∈ d.methods) {self : Val} {args : List Val}
    {tr : List Event} {out : Outcome} (hr : ((decoratorIn d b ds D.base link).call G e.2 self args).Run tr out) :
    (D.call G e.2 (g!"_d", self) args).Run tr out := by
  subst ht
  have := hg.2.2 e he self args
  rw [← this]
  exact hr

theorem call_of {G : GoTypes} {ds : List Go.Decl} {d : Inputs} {b : Builtin} {type : Str} {link : Method → Go.Link} {D : Decorator}
    (hg : Generates G ds type d link D) (ht : decoratorName d b.suffix = type) {e : Str × Method} (he : e ∈ d.methods) (self : Val) (args : List Val) :
    (decoratorIn d b ds D.base link).call G e.2 self args = D.call G e.2 (g!"_d", self) args := by
  subst ht
  exact hg.2.2 e he self args

/-- Fewer calls have fewer executions. -/
theorem _root_.Gowrap.Exec.mono {S T : Type} {step : T → Event → T → Prop} {H : Handler S} {bg : S → Label → S → Prop} {calls calls' : T → Prop} {init : S}
    (hc : ∀ t, calls t → calls' t) {L : List Label} {c : Conf S T} (h : Exec step H bg calls init L c) : Exec step H bg calls' init L c := by
  induction h with
  | start => exact .start
  | call _ ht ih => exact .call ih (hc _ ht)
  | step _ hi ht hs ih => exact .step ih hi ht hs
  | bg _ hb ih => exact .bg ih hb

set_option maxRecDepth 100000 in
theorem tree_log (u : Uni) (d : Inputs) : (Spec.logT, tmLog.decls u d) ∈ (builtins.zip locals).zip (trees u d) :=
  List.mem_of_getElem? (i := 0) (by krfl)

set_option maxRecDepth 100000 in
theorem tree_logrus (u : Uni) (d : Inputs) : (Spec.logrusT, tmLogrus.decls u d) ∈ (builtins.zip locals).zip (trees u d) :=
  List.mem_of_getElem? (i := 1) (by krfl)

set_option maxRecDepth 100000 in
theorem tree_prometheus (u : Uni) (d : Inputs) : (Spec.prometheusT, tmPrometheus.decls u d) ∈ (builtins.zip locals).zip (trees u d) :=
  List.mem_of_getElem? (i := 2) (by krfl)

set_option maxRecDepth 100000 in
theorem tree_opentracing (u : Uni) (d : Inputs) : (Spec.opentracingT, tmOpentracing.decls u d) ∈ (builtins.zip locals).zip (trees u d) :=
  List.mem_of_getElem? (i := 3) (by krfl)

set_option maxRecDepth 100000 in
theorem tree_opencensus (u : Uni) (d : Inputs) : (Spec.opencensusT, tmOpencensus.decls u d) ∈ (builtins.zip locals).zip (trees u d) :=
  List.mem_of_getElem? (i := 4) (by krfl)

set_option maxRecDepth 100000 in
theorem tree_opentelemetry (u : Uni) (d : Inputs) : (Spec.opentelemetryT, tmOpentelemetry.decls u d) ∈ (builtins.zip locals).zip (trees u d) :=
  List.mem_of_getElem? (i := 5) (by krfl)

set_option maxRecDepth 100000 in
theorem tree_elasticapm (u : Uni) (d : Inputs) : (Spec.elasticapmT, tmElasticapm.decls u d) ∈ (builtins.zip locals).zip (trees u d) :=
  List.mem_of_getElem? (i := 6) (by krfl)

set_option maxRecDepth 100000 in
theorem tree_validate (u : Uni) (d : Inputs) : (Spec.validateT, tmValidate.decls u d) ∈ (builtins.zip locals).zip (trees u d) :=
  List.mem_of_getElem? (i := 7) (by krfl)

set_option maxRecDepth 100000 in
theorem tree_twirpValidate (u : Uni) (d : Inputs) : (Spec.twirpValidateT, tmTwirpValidate.decls u d) ∈ (builtins.zip locals).zip (trees u d) :=
  List.mem_of_getElem? (i := 8) (by krfl)

set_option maxRecDepth 100000 in
theorem tree_grpcValidate (u : Uni) (d : Inputs) : (Spec.grpcValidateT, tmGrpcValidate.decls u d) ∈ (builtins.zip locals).zip (trees u d) :=
  List.mem_of_getElem? (i := 9) (by krfl)

set_option maxRecDepth 100000 in
theorem tree_twirpError (u : Uni) (d : Inputs) : (Spec.twirpErrorT, tmTwirpError.decls u d) ∈ (builtins.zip locals).zip (trees u d) :=
  List.mem_of_getElem? (i := 10) (by krfl)

set_option maxRecDepth 100000 in
theorem tree_timeout (u : Uni) (d : Inputs) : (Spec.timeoutT, tmTimeout.decls u d) ∈ (builtins.zip locals).zip (trees u d) :=
  List.mem_of_getElem? (i := 11) (by krfl)

set_option maxRecDepth 100000 in
theorem tree_circuitbreaker (u : Uni) (d : Inputs) : (Spec.circuitbreakerT, tmCircuitbreaker.decls u d) ∈ (builtins.zip locals).zip (trees u d) :=
  List.mem_of_getElem? (i := 12) (by krfl)

set_option maxRecDepth 100000 in
theorem tree_retry (u : Uni) (d : Inputs) : (Spec.retryT, tmRetry.decls u d) ∈ (builtins.zip locals).zip (trees u d) :=
  List.mem_of_getElem? (i := 13) (by krfl)

set_option maxRecDepth 100000 in
theorem tree_ratelimit (u : Uni) (d : Inputs) : (Spec.ratelimitT, tmRatelimit.decls u d) ∈ (builtins.zip locals).zip (trees u d) :=
  List.mem_of_getElem? (i := 14) (by krfl)

set_option maxRecDepth 100000 in
theorem tree_robinpool (u : Uni) (d : Inputs) : (Spec.robinpoolT, tmRobinpool.decls u d) ∈ (builtins.zip locals).zip (trees u d) :=
  List.mem_of_getElem? (i := 15) (by krfl)

set_option maxRecDepth 100000 in
theorem tree_syncpool (u : Uni) (d : Inputs) : (Spec.syncpoolT, tmSyncpool.decls u d) ∈ (builtins.zip locals).zip (trees u d) :=
  List.mem_of_getElem? (i := 16) (by krfl)

set_option maxRecDepth 100000 in
theorem tree_fallback (u : Uni) (d : Inputs) : (Spec.fallbackT, tmFallback.decls u d) ∈ (builtins.zip locals).zip (trees u d) :=
  List.mem_of_getElem? (i := 17) (by krfl)

theorem C80_log_partial (h : Ready w s fuel o g vars Spec.logT) : Makes w o g vars Spec.logT (logPromise o g vars) := by
  have hgen := (gen_log w.uni _ h.inputs).2
  refine makes h (tree_log _ _) ?_
  generalize tmLog.decls w.uni (g.inputs o vars) = ds at hgen
  intro G D hD e he self args ha tr out hr hl
  replace hr := run_of (hgen G D hD) rfl he hr
  exact C57_log_partial G D e.2 _ args tr out (h.callable (idents := [g!"_params"]) he trivial ha (by decide +kernel)) hr hl

theorem C80_logrus_partial (h : Ready w s fuel o g vars Spec.logrusT) : Makes w o g vars Spec.logrusT (logrusPromise o g vars) := by
  have hgen := (gen_logrus w.uni _ h.inputs).2
  refine makes h (tree_logrus _ _) ?_
  generalize tmLogrus.decls w.uni (g.inputs o vars) = ds at hgen
  intro G D hD e he self args ha tr out hr hl
  replace hr := run_of (hgen G D hD) rfl he hr
  exact C57_logrus_partial G D e.2 _ args tr out (h.callable (idents := [g!"logrus"]) he trivial ha (by decide +kernel)) hr hl

theorem C80_prometheus_partial (h : Ready w s fuel o g vars Spec.prometheusT) : Makes w o g vars Spec.prometheusT (prometheusPromise o g vars w) := by
  have hgen := (gen_prometheus w.uni _ h.inputs).2
  refine makes h (tree_prometheus _ _) ?_
  generalize tmPrometheus.decls w.uni (g.inputs o vars) = ds at hgen
  intro G D hD hu e he self args ha tr out hr hl
  replace hr := run_of (hgen G D hD hu) rfl he hr
  refine C57_prometheus_partial G D e.2 _ args tr out (h.callable_of he trivial ha fun x hx => ?_) hr hl
  have hv : D.vec = w.uni.lower (g.inputs o vars).name ++ g!"DurationSummaryVec" := by
    unfold Prometheus.vec; rw [hu, hD]; rfl
  rw [Observer.idents, hv] at hx
  rcases List.mem_cons.mp hx with rfl | hx
  · exact ⟨by decide, .inl (by decide +kernel)⟩
  rcases List.mem_cons.mp hx with rfl | hx
  · exact ⟨by decide, .inl (by decide +kernel)⟩
  cases List.mem_singleton.mp hx
  refine ⟨fun hx => ?_, .inr (.inr fun p hp => h.names.name.hidden rfl e he p hp)⟩
  have := congrArg List.length hx
  simp at this

theorem C80_opentracing_partial (h : Ready w s fuel o g vars Spec.opentracingT) : Makes w o g vars Spec.opentracingT (opentracingPromise o g vars) := by
  have hgen := (gen_opentracing w.uni _ h.inputs (h.names.field rfl)).2
  refine makes h (tree_opentracing _ _) ?_
  generalize tmOpentracing.decls w.uni (g.inputs o vars) = ds at hgen
  intro G D hD e he self args ha tr out hr hl
  replace hr := run_of (hgen G D hD ) rfl he hr
  refine ⟨fun hc => ?_, fun hc => ?_⟩
  · exact C57_opentracing_partial G D e.2 _ args tr out (h.callable (idents := [g!"opentracing", g!"_span", g!"_ext", g!"_log"]) he hc ha (by decide +kernel)) hc hr hl
  · exact promoted (D := D.openTracingDecorator) rfl (by simp only [Tracing.openTracingDecorator, hc, Bool.false_eq_true, if_false]) hr

theorem C80_opencensus_partial (h : Ready w s fuel o g vars Spec.opencensusT) : Makes w o g vars Spec.opencensusT (opencensusPromise o g vars) := by
  have hgen := (gen_opencensus w.uni _ h.inputs (h.names.field rfl)).2
  refine makes h (tree_opencensus _ _) ?_
  generalize tmOpencensus.decls w.uni (g.inputs o vars) = ds at hgen
  intro G D hD e he self args ha tr out hr hl
  replace hr := run_of (hgen G D hD ) rfl he hr
  refine ⟨fun hc => ?_, fun hc => ?_⟩
  · exact C57_opencensus_partial G D e.2 _ args tr out (h.callable (idents := [g!"trace", g!"_span"]) he hc ha (by decide +kernel)) hc hr hl
  · exact promoted (D := D.openCensusDecorator) rfl (by simp only [Tracing.openCensusDecorator, hc, Bool.false_eq_true, if_false]) hr

theorem C80_opentelemetry_partial (h : Ready w s fuel o g vars Spec.opentelemetryT) : Makes w o g vars Spec.opentelemetryT (opentelemetryPromise o g vars) := by
  have hgen := (gen_opentelemetry w.uni _ h.inputs (h.names.field rfl)).2
  refine makes h (tree_opentelemetry _ _) ?_
  generalize tmOpentelemetry.decls w.uni (g.inputs o vars) = ds at hgen
  intro G D hD hn e he self args ha tr out hr hl
  replace hr := run_of (hgen G D hD hn ) rfl he hr
  refine ⟨fun hc => ?_, fun hc => ?_⟩
  · exact C57_opentelemetry_partial G D e.2 _ args tr out (h.callable (idents := [g!"otel", g!"_span", g!"_codes", g!"attribute"]) he hc ha (by decide +kernel)) hc hr hl
  · exact promoted (D := D.openTelemetryDecorator) rfl (by simp only [Tracing.openTelemetryDecorator, hc, Bool.false_eq_true, if_false]) hr

theorem C80_elasticapm_partial (h : Ready w s fuel o g vars Spec.elasticapmT) : Makes w o g vars Spec.elasticapmT (elasticapmPromise o g vars w) := by
  have hgen := (gen_elasticapm w.uni _ h.inputs).2
  refine makes h (tree_elasticapm _ _) ?_
  generalize tmElasticapm.decls w.uni (g.inputs o vars) = ds at hgen
  intro G D hu hc e he self args ha tr out hr hl
  replace hr := run_of (hgen G D hu hc) rfl he hr
  have hw := h.suits.apm rfl e he
  exact C57_elasticapm_partial G D e.2 _ args tr out (h.callable (idents := [g!"span"]) he hw ha (by decide +kernel)) hw hr hl

theorem C80_validate_partial (h : Ready w s fuel o g vars Spec.validateT) : Makes w o g vars Spec.validateT (validatePromise o g vars) := by
  have hgen := (gen_validate w.uni _ h.inputs).2
  refine makes h (tree_validate _ _) ?_
  generalize tmValidate.decls w.uni (g.inputs o vars) = ds at hgen
  intro G base e he self args ha tr out hr hl
  replace hr := run_of (hgen G base) rfl he hr
  have hc := h.callable (self := self) (idents := []) he trivial ha nofun
  exact ⟨fun hret => C55_validate G _ base e.2 _ args tr out hc.ok hc.declared hret hr hl,
    fun hret => C55_validate_other G _ base e.2 _ args tr out hc.ok hc.declared hret hr hl⟩

theorem C80_twirpValidate_partial (h : Ready w s fuel o g vars Spec.twirpValidateT) : Makes w o g vars Spec.twirpValidateT (twirpValidatePromise o g vars) := by
  have hgen := (gen_twirp_validate w.uni _ h.inputs).2
  refine makes h (tree_twirpValidate _ _) ?_
  generalize tmTwirpValidate.decls w.uni (g.inputs o vars) = ds at hgen
  intro G base e he self args ha tr out hr hl
  replace hr := run_of (hgen G base) rfl he hr
  exact C55_twirp_partial G _ base e.2 _ args tr out (h.callable (idents := [g!"twirp"]) he trivial ha (by decide +kernel)) hr hl

theorem C80_grpcValidate_partial (h : Ready w s fuel o g vars Spec.grpcValidateT) : Makes w o g vars Spec.grpcValidateT (grpcValidatePromise o g vars) := by
  have hgen := (gen_grpc_validate w.uni _ h.inputs).2
  refine makes h (tree_grpcValidate _ _) ?_
  generalize tmGrpcValidate.decls w.uni (g.inputs o vars) = ds at hgen
  intro G base e he self args ha tr out hr hl
  replace hr := run_of (hgen G base) rfl he hr
  refine ⟨fun hc => ?_, fun hc => ?_⟩
  · exact (C55_grpc_partial G _ base e.2 _ args tr out
      (h.callable (idents := [g!"grpc_status", g!"grpc_codes"]) he hc ha (by decide +kernel)) hr hl).1 hc
  · exact promoted (D := grpcValidateDecorator G _ base) rfl (by simp only [grpcValidateDecorator, hc, Bool.false_eq_true, if_false]) hr

theorem C80_twirpError_partial (h : Ready w s fuel o g vars Spec.twirpErrorT) : Makes w o g vars Spec.twirpErrorT (twirpErrorPromise o g vars) := by
  have hgen := (gen_twirp_error w.uni _ h.inputs).2
  refine makes h (tree_twirpError _ _) ?_
  generalize tmTwirpError.decls w.uni (g.inputs o vars) = ds at hgen
  intro G base e he self args ha tr out hr hl hm hret q qs hq
  replace hr := run_of (hgen G base) rfl he hr
  exact C58_twirp_error_partial G _ base e.2 _ args tr out q qs
    (h.callable (idents := [g!"injectRequestDataToError"]) he trivial ha (by decide +kernel)) hret hq hr hl hm

theorem C80_timeout_partial (h : Ready w s fuel o g vars Spec.timeoutT) : Makes w o g vars Spec.timeoutT (timeoutPromise o g vars) := by
  have hgen := (gen_timeout w.uni _ h.inputs).2
  refine makes h (tree_timeout _ _) ?_
  generalize tmTimeout.decls w.uni (g.inputs o vars) = ds at hgen
  intro G base config deadline now e he self args ha tr out hr hl
  replace hr := run_of (hgen G base config) rfl he hr
  refine ⟨fun hc ht => ?_, fun hc => ?_⟩
  · exact C54_timeout_partial G _ base config e.2 _ args tr out deadline now
      (h.callable (idents := [g!"cancelFunc", g!"context"]) he hc ha (by decide +kernel)) hc hr hl ht
  · exact C54_other G _ base config e.2 _ args tr out hc hr hl

theorem C80_retry_partial (h : Ready w s fuel o g vars Spec.retryT) : Makes w o g vars Spec.retryT (retryPromise o g vars) := by
  have hgen := (gen_retry w.uni _ h.inputs (h.names.field rfl) (fun e he hr hm => by
    obtain ⟨p, hp, hx⟩ := List.mem_map.mp hm
    exact (h.names.fresh e he hr).results p hp (by rw [hx]; decide))).2
  refine makes h (tree_retry _ _) ?_
  generalize tmRetry.decls w.uni (g.inputs o vars) = ds at hgen
  intro G D hD hpos e he self args ha tr out hr hl
  replace hr := run_of (hgen G D hD) rfl he hr
  refine ⟨fun hre => ?_, fun hre => ?_⟩
  · exact (C47_retry_partial G D e.2 _ args tr out (h.callable he hre ha (by decide +kernel)) hre hpos hr hl).1
  · exact promoted rfl (if_neg (by simp [hre])) hr

theorem C80_circuitbreaker_partial (h : Ready w s fuel o g vars Spec.circuitbreakerT) : Makes w o g vars Spec.circuitbreakerT (circuitbreakerPromise o g vars) := by
  have hgen := (gen_circuitbreaker w.uni _ h.inputs (h.names.field rfl)).2
  refine makes h (tree_circuitbreaker _ _) ?_
  generalize tmCircuitbreaker.decls w.uni (g.inputs o vars) = ds at hgen
  intro G D hD hd
  have hg := hgen G D hD hd
  refine ⟨fun e he self args ha tr out hr hl hx => ?_, fun same time L c hx => ?_⟩
  · replace hr := run_of hg rfl he hr
    refine ⟨fun hc => ?_, fun hc => ?_⟩
    · exact C59_pass_through_partial G (.breaker D) e.2 _ args tr out (h.callable (idents := [g!"time", g!"errors"]) he hc ha (by decide +kernel)) (by exact id) hr hl hx
    · exact promoted (D := D.decorator) rfl (by simp only [Breaker.decorator, hc, Bool.false_eq_true, if_false]) hr
  · have hb : BreakerExec G D same time L c := by
      refine Exec.mono ?_ hx
      rintro t ⟨m, self, args, ⟨hc, name, hm⟩, ha, rfl⟩
      exact ⟨m, (g!"_d", self), args, h.callable hm hc ha (by decide +kernel), hc, call_of hg rfl hm self args⟩
    exact ⟨C85_circuitbreaker hb, C62_no_race hb, (C46_decision hb).1, (C46_decision hb).2, fun h1 h2 i hi => C45_sequential G D same time L c hb h1 h2 i hi⟩

theorem C80_ratelimit_partial (h : Ready w s fuel o g vars Spec.ratelimitT) : Makes w o g vars Spec.ratelimitT (ratelimitPromise o g vars) := by
  have hgen := (gen_ratelimit w.uni _ h.inputs).2
  refine makes h (tree_ratelimit _ _) ?_
  generalize tmRatelimit.decls w.uni (g.inputs o vars) = ds at hgen
  intro G base
  have hg := hgen G base
  refine ⟨fun e he self args ha tr out hr hl => ?_, fun burst s0 L c hnew hx => ?_⟩
  · replace hr := run_of hg rfl he hr
    have hc := h.callable (self := self) (idents := []) he trivial ha nofun
    by_cases hx : (e.2.acceptsContext && e.2.returnsError) = true
    · rw [Bool.and_eq_true] at hx
      rcases C51_limited G base e.2 _ args tr out hc.ok hc.declared hx.1 hx.2 hr hl with h1 | h1
      · exact .inl h1
      · exact .inr ⟨hx.1, hx.2, h1⟩
    · exact .inl (C51_other G base e.2 _ args tr out hc.ok hc.declared (by simpa using hx) hr)
  · have hs : LimitExec G base s0 L c := by
      refine Exec.mono ?_ hx
      rintro t ⟨m, self, args, ⟨name, hm⟩, ha, rfl⟩
      exact ⟨m, (g!"_d", self), args, h.callable hm trivial ha nofun, call_of hg rfl hm self args⟩
    exact ⟨(C85_ratelimit hnew hs).1, C50_bound_partial G base burst s0 L c hnew hs⟩

theorem C80_robinpool_partial (h : Ready w s fuel o g vars Spec.robinpoolT) : Makes w o g vars Spec.robinpoolT (robinpoolPromise o g vars) := by
  have hgen := (gen_robinpool w.uni _ h.inputs).2
  refine makes h (tree_robinpool _ _) ?_
  generalize tmRobinpool.decls w.uni (g.inputs o vars) = ds at hgen
  intro G pool
  have hg := hgen G pool
  refine ⟨fun e he self args ha tr out hr hl hx => ?_, fun L c hnew hlen hnd hx => ?_⟩
  · replace hr := run_of hg rfl he hr
    exact C59_pass_through_partial G (.robinPool pool) e.2 _ args tr out (h.callable (idents := [g!"atomic", g!"_counter"]) he trivial ha (by decide +kernel)) (by exact id) hr hl hx
  · have hs : RobinExec G pool L c := by
      refine Exec.mono ?_ hx
      rintro t ⟨m, self, args, ⟨name, hm⟩, ha, rfl⟩
      exact ⟨m, (g!"_d", self), args, h.callable hm trivial ha (by decide +kernel), call_of hg rfl hm self args⟩
    exact ⟨(C85_robinpool hs).1, C48_even_partial G pool L c hnew hlen hnd hs⟩

theorem C80_syncpool_partial (h : Ready w s fuel o g vars Spec.syncpoolT) : Makes w o g vars Spec.syncpoolT (syncpoolPromise o g vars) := by
  have hgen := (gen_syncpool w.uni _ h.inputs).2
  refine makes h (tree_syncpool _ _) ?_
  generalize tmSyncpool.decls w.uni (g.inputs o vars) = ds at hgen
  intro G
  have hg := hgen G
  refine ⟨fun e he self args ha tr out hr hl hx => ?_, fun impls s0 L c hnew hx => ?_⟩
  · replace hr := run_of hg rfl he hr
    exact C59_pass_through_partial G .syncPool e.2 _ args tr out (h.callable (idents := [g!"_impl"]) he trivial ha (by decide +kernel)) (by exact id) hr hl hx
  · have hs : SyncExec G s0 L c := by
      refine Exec.mono ?_ hx
      rintro t ⟨m, self, args, ⟨name, hm⟩, ha, rfl⟩
      exact ⟨m, (g!"_d", self), args, h.callable hm trivial ha (by decide +kernel), call_of hg rfl hm self args⟩
    obtain ⟨h1, h2, h3, h4, _, _, h7, h8⟩ := C49_pool G impls s0 L c hnew hs
    exact ⟨C85_syncpool hnew hs, h1, h2, h3, h4, h7, h8⟩

theorem C80_fallback_partial (h : Ready w s fuel o g vars Spec.fallbackT) : Makes w o g vars Spec.fallbackT (fallbackPromise o g vars) := by
  have hgen := (gen_fallback w.uni _ h.inputs (h.suits.fallback rfl) (fun e he x hx hm => by
    rw [Method.pnames, Method.rnames, ← List.map_append] at hx
    obtain ⟨p, hp, rfl⟩ := List.mem_map.1 hx
    rcases List.mem_cons.mp hm with hm | hm
    · exact h.names.blank e he p hp hm
    · have hf := h.names.fresh e he trivial
      by_cases hi : p.name = g!"_impl"
      · rcases List.mem_append.mp hp with hp | hp
        · exact h.names.inner e he trivial p hp (hi ▸ (by decide +kernel))
        · exact hf.results p hp (hi ▸ (by decide +kernel))
      · refine hf.names p hp (List.mem_cons_of_mem _ ?_)
        simp only [List.mem_cons, List.not_mem_nil, or_false, hi, false_or] at hm
        rcases hm with hm | hm | hm | hm | hm <;> rw [hm] <;> decide +kernel)).2
  refine makes h (tree_fallback _ _) ?_
  generalize tmFallback.decls w.uni (g.inputs o vars) = ds at hgen
  intro G D e he self args ha L c S hS hx
  obtain ⟨hg, hs, hs'⟩ := hgen G D
  have hcl := call_of (b := Spec.fallbackT.1) hg rfl he self args
  replace hcl : (decoratorIn (g.inputs o vars) Spec.fallbackT.1 ds .nil D.link).call G e.2 self args = _ := hcl
  rw [hcl] at hx
  have hsh := h.suits.fallback rfl e he
  have hcall : Callable e.2 (g!"_d", self) fallbackIdents args := h.callable_of he trivial ha fun x hx => by
    by_cases hi : x = g!"_i"
    · subst hi
      exact ⟨by decide, .inr (.inr fun p hp => h.names.counter rfl e he p hp)⟩
    · have := (by decide +kernel : ∀ x ∈ fallbackIdents, x = g!"_i" ∨ x ≠ g!"_d" ∧ (x ∈ Spec.fallbackT.2.names ∨ x ∈ Spec.fallbackT.2.inner)) x hx
      rcases this with h0 | ⟨h0, h1⟩
      · exact absurd h0 hi
      · exact ⟨h0, h1.imp_right .inl⟩
  have starting : ∀ k ∈ [Goroutine.launcher, .impl], ∀ env t,
      Starting (decoratorIn (g.inputs o vars) Spec.fallbackT.1 ds .nil D.link) e.2 k env t ↔ t = D.goTree e.2 env k := by
    intro k hk env t
    constructor
    · rintro ⟨x, hx, hn, f, hf, hsp, rfl⟩
      obtain ⟨k', hk', ht⟩ := hs e he x hx hn f hf
      cases hsp.symm.trans hk'
      exact ht env
    · rintro rfl
      obtain ⟨x, hx, hn, f, hf, hsp⟩ := hs' e he k hk
      obtain ⟨k', hk', ht⟩ := hs e he x hx hn f hf
      cases hsp.symm.trans hk'
      exact ⟨x, hx, hn, f, hf, hsp, (ht env).symm⟩
  have hsys : S = D.sys e.2 := by
    rw [hS]
    unfold goroutinesOf Fallback.sys
    congr 1
    · funext env t
      exact propext (starting _ (by decide) env t)
    · funext env t
      exact propext (starting _ (by decide) env t)
  clear hS
  subst hsys
  have hexec : D.Exec G e.2 (g!"_d", self) args L c := hx
  refine ⟨fun out ho => C52_outcome D G e.2 _ args L c out hcall hsh hexec ho, (C52_calls D G e.2 _ args L c hcall hsh hexec).2.2,
    (C52_starts D G e.2 _ args L c hcall hsh hexec).1, C52_returns D G e.2 _ args L c hcall hsh hexec,
    C53_bounded D G e.2 _ args L c hcall hsh hexec, fun hal hq => ⟨?_, ?_, ?_⟩⟩
  · rintro hc ⟨i, a, vs, h1, h2⟩
    exact C53_answers_partial D G e.2 _ args L c hcall hc hexec hal hq i a vs h1 h2
  · exact fun hc hn hret => C53_all_returned_partial D G e.2 _ args L c hcall hc hn hexec hal hq hret
  · exact fun hend => C53_children_end_partial D G e.2 _ args L c hcall hsh hexec hal hq hend

/-- **C80**, for all templates: the file that gowrap generates for an accepted interface declares a decorator that compiles and does what its
template promises.  Missing: interfaces with names that also occur in the template (`Unambiguous`), methods that templates/elasticapm and
templates/fallback do not support (`Suits`), see `C80_full_false`. -/
theorem C80_works_partial (p : (Builtin × Locals) × (List Go.Decl → Prop)) (hp : p ∈ promises w o g vars) (h : Ready w s fuel o g vars p.1) :
    Makes w o g vars p.1 p.2 := by
  simp only [promises, List.mem_cons, List.not_mem_nil, or_false] at hp
  rcases hp with rfl | rfl | rfl | rfl | rfl | rfl | rfl | rfl | rfl | rfl | rfl | rfl | rfl | rfl | rfl | rfl | rfl | rfl
  · exact C80_log_partial h
  · exact C80_logrus_partial h
  · exact C80_prometheus_partial h
  · exact C80_opentracing_partial h
  · exact C80_opencensus_partial h
  · exact C80_opentelemetry_partial h
  · exact C80_elasticapm_partial h
  · exact C80_validate_partial h
  · exact C80_twirpValidate_partial h
  · exact C80_grpcValidate_partial h
  · exact C80_twirpError_partial h
  · exact C80_timeout_partial h
  · exact C80_circuitbreaker_partial h
  · exact C80_retry_partial h
  · exact C80_ratelimit_partial h
  · exact C80_robinpool_partial h
  · exact C80_syncpool_partial h
  · exact C80_fallback_partial h

end Gowrap.Props

import Verif.Proofs.Source
import Verif.Proofs.GrammarDecls
import Verif.Props.GeneratedDemo
import Verif.Proofs.DenApm
import Verif.Proofs.DenBreaker
import Verif.Proofs.DenFallback
import Verif.Proofs.DenLog
import Verif.Proofs.DenLogrus
import Verif.Proofs.DenPools
import Verif.Proofs.DenPrometheus
import Verif.Proofs.DenRateLimit
import Verif.Proofs.DenRetry
import Verif.Proofs.DenTimeout
import Verif.Proofs.DenTracing
import Verif.Proofs.DenTwirpError
import Verif.Proofs.DenValidate
/-!
# C66: the generated files are the decorators

For every built-in template, every interface and every command line: the template executes, its output consists of Go
declarations, and a call of any method of the interface on the generated type does what the decorator program does that
the properties of the template (C20 to C62) are about.
-/

namespace Gowrap.Props

open Gowrap Tmpl Go Spec

theorem names_plain {u : Uni} {d : Inputs} (h : GoInputs u d) : ∀ e ∈ d.methods, Plain e.2.pnames ∧ Plain e.2.rnames := by
  intro e he
  have hp := (h.methods e he).2.plain
  have hx : ∀ p ∈ e.2.params ++ e.2.results, p.name ≠ g!"nil" ∧ p.name ≠ g!"true" ∧ p.name ≠ g!"false" := by
    intro p hm
    have := hp p hm
    simpa only [List.mem_cons, List.not_mem_nil, or_false, not_or] using this
  constructor
  · intro x hm
    obtain ⟨p, hp, rfl⟩ := List.mem_map.mp hm
    exact hx p (List.mem_append_left _ hp)
  · intro x hm
    obtain ⟨p, hp, rfl⟩ := List.mem_map.mp hm
    exact hx p (List.mem_append_right _ hp)

theorem variable_lower (u : Uni) (d : Inputs) : varOr (d.vars g!"ComponentName") (u.lower d.name ++ []) =
    cliVar d g!"ComponentName" (u.lower d.name) := by
  rw [List.append_nil]
  rfl

theorem onCopy_same {L : Link} {locks : List Str} (hl : locks = []) (hr : ∀ p, p.take 2 = [g!"&", g!"_d"] → L.read p = none)
    (hw : ∀ p, p.take 1 = [g!"_d"] → L.write p = none) : L.onCopy g!"_d" locks = L := by
  subst hl
  have h1 : (fun p => if p.take 2 = [g!"&", g!"_d"] then none else L.read p) = L.read := by
    funext p
    by_cases h : p.take 2 = [g!"&", g!"_d"]
    · rw [if_pos h, hr p h]
    · rw [if_neg h]
  have h2 : (fun p => if p.take 1 = [g!"_d"] then none else L.write p) = L.write := by
    funext p
    by_cases h : p.take 1 = [g!"_d"]
    · rw [if_pos h, hw p h]
    · rw [if_neg h]
  unfold Link.onCopy
  rw [h1, h2]
  simp

theorem table_none {α : Type} {l : List (List Str × α)} {q : List Str} (h : ∀ e ∈ l, e.1.take 2 ≠ q) {p : List Str} (hp : p.take 2 = q) :
    table l p = none := by
  induction l with
  | nil => rfl
  | cons e l ih =>
    have hne : p ≠ e.1 := fun he => h e (List.mem_cons_self ..) (he ▸ hp)
    rw [table, if_neg hne]
    exact ih fun e he => h e (List.mem_cons_of_mem _ he)

/-- Closes the goal that the names in the methods mean the same if the receiver is copied. -/
local macro "copied" : tactic => `(tactic| first
  | (intro hp; exact Bool.noConfusion hp)
  | (intro _ e _
     refine onCopy_same rfl (fun p hp => ?_) (fun _ _ => rfl)
     first | rfl | exact table_none (by simp [Tracing.fields]) hp))

theorem gen_log (u : Uni) (d : Inputs) (h : GoInputs u d) :
    (render u Text.log d = some (tmLog.out u d) ∧ Consists d (tmLog.out u d) (tmLog.decls u d)) ∧
      ∀ (G : GoTypes) (D : Log), D.dec = decoratorName d g!"WithLog" → Generates G (tmLog.decls u d) (decoratorName d g!"WithLog") d D.link D.decorator := by
  have hpl := names_plain h
  obtain ⟨⟨h1, h2⟩, _, _, h3⟩ := generates_of tmLog_sound h (goodNames_dec h g!"WithLog" (by decide) ⟨'W', by decide, by decide⟩)
    (ty := (.name (decoratorName d g!"WithLog"))) rfl (w := fun _ => true) (stmts := logStmts (tmLog.names u d))
    (tmLog_file u d) (tmLog_around u d (tmLog.names u d) _) (fun e he => tmLog_method u d e.2)
  refine ⟨⟨h1, ⟨h2, tmLog_grammatical h⟩⟩, fun G D hD => h3 G _ _ ?_ ?_ ?_ ?_ ?_⟩
  · simp [fieldsLog, FieldDecl.names, Log.decorator]
  · simp [fieldsLog, FieldDecl.embeds, Ty.put, Log.decorator]
  · copied
  · exact fun _ _ hw => nomatch hw
  · intro e he _
    refine ⟨_, rfl, fun self args => ?_⟩
    · rw [tmLog_den D _ hD.symm e.2 (hpl e he).1 (hpl e he).2]

/-- templates/log. -/
theorem C66_log (u : Uni) (d : Inputs) (h : GoInputs u d) :
    ∃ s ds, render u Text.log d = some s ∧ Consists d s ds ∧
      ∀ (G : GoTypes) (D : Log), D.dec = decoratorName d g!"WithLog" → Generates G ds (decoratorName d g!"WithLog") d D.link D.decorator :=
  ⟨_, _, (gen_log u d h).1.1, (gen_log u d h).1.2, (gen_log u d h).2⟩

example := C66_log Uni.ascii storeInputs store_good

theorem gen_logrus (u : Uni) (d : Inputs) (h : GoInputs u d) :
    (render u Text.logrus d = some (tmLogrus.out u d) ∧ Consists d (tmLogrus.out u d) (tmLogrus.decls u d)) ∧
      ∀ (G : GoTypes) (D : Logrus), D.dec = decoratorName d g!"WithLogrus" → Generates G (tmLogrus.decls u d) (decoratorName d g!"WithLogrus") d D.link D.decorator := by
  have hpl := names_plain h
  obtain ⟨⟨h1, h2⟩, _, _, h3⟩ := generates_of tmLogrus_sound h (goodNames_dec h g!"WithLogrus" (by decide) ⟨'W', by decide, by decide⟩)
    (ty := (.name (decoratorName d g!"WithLogrus"))) rfl (w := fun _ => true) (stmts := logrusStmts (tmLogrus.names u d))
    (tmLogrus_file u d) (tmLogrus_around u d (tmLogrus.names u d) _) (fun e he => tmLogrus_method u d e.2)
  refine ⟨⟨h1, ⟨h2, tmLogrus_grammatical h⟩⟩, fun G D hD => h3 G _ _ ?_ ?_ ?_ ?_ ?_⟩
  · simp [fieldsLogrus, FieldDecl.names, Logrus.decorator]
  · simp [fieldsLogrus, FieldDecl.embeds, Ty.put, Logrus.decorator]
  · copied
  · exact fun _ _ hw => nomatch hw
  · intro e he _
    refine ⟨_, rfl, fun self args => ?_⟩
    · rw [tmLogrus_den D _ hD.symm e.2 (hpl e he).1 (hpl e he).2]

/-- templates/logrus. -/
theorem C66_logrus (u : Uni) (d : Inputs) (h : GoInputs u d) :
    ∃ s ds, render u Text.logrus d = some s ∧ Consists d s ds ∧
      ∀ (G : GoTypes) (D : Logrus), D.dec = decoratorName d g!"WithLogrus" → Generates G ds (decoratorName d g!"WithLogrus") d D.link D.decorator :=
  ⟨_, _, (gen_logrus u d h).1.1, (gen_logrus u d h).1.2, (gen_logrus u d h).2⟩

example := C66_logrus Uni.ascii storeInputs store_good

theorem gen_prometheus (u : Uni) (d : Inputs) (h : GoInputs u d) :
    (render u Text.prometheus d = some (tmPrometheus.out u d) ∧ Consists d (tmPrometheus.out u d) (tmPrometheus.decls u d)) ∧
      ∀ (G : GoTypes) (D : Prometheus), D.iface = d.name → D.uni = u → Generates G (tmPrometheus.decls u d) (decoratorName d g!"WithPrometheus") d D.link D.decorator := by
  have hpl := names_plain h
  obtain ⟨⟨h1, h2⟩, _, _, h3⟩ := generates_of tmPrometheus_sound h (goodNames_metric h)
    (ty := (.name (decoratorName d g!"WithPrometheus"))) rfl (w := fun _ => true) (stmts := prometheusStmts (u.lower d.name ++ g!"DurationSummaryVec"))
    (tmPrometheus_file u d) (tmPrometheus_around u d (tmPrometheus.names u d) _) (fun e he => tmPrometheus_method u d e.2)
  refine ⟨⟨h1, ⟨h2, tmPrometheus_grammatical h⟩⟩, fun G D hD hD2 => h3 G _ _ ?_ ?_ ?_ ?_ ?_⟩
  · simp [fieldsPrometheus, FieldDecl.names, Prometheus.decorator]
  · simp [fieldsPrometheus, FieldDecl.embeds, Ty.put, Prometheus.decorator]
  · copied
  · exact fun _ _ hw => nomatch hw
  · intro e he _
    refine ⟨_, rfl, fun self args => ?_⟩
    · have hv : u.lower d.name ++ g!"DurationSummaryVec" = D.vec := by rw [Prometheus.vec, hD, hD2]
      rw [hv, tmPrometheus_den D e.2 (hpl e he).1]

/-- templates/prometheus. -/
theorem C66_prometheus (u : Uni) (d : Inputs) (h : GoInputs u d) :
    ∃ s ds, render u Text.prometheus d = some s ∧ Consists d s ds ∧
      ∀ (G : GoTypes) (D : Prometheus), D.iface = d.name → D.uni = u → Generates G ds (decoratorName d g!"WithPrometheus") d D.link D.decorator :=
  ⟨_, _, (gen_prometheus u d h).1.1, (gen_prometheus u d h).1.2, (gen_prometheus u d h).2⟩

example := C66_prometheus Uni.ascii storeInputs store_good

theorem gen_opentracing (u : Uni) (d : Inputs) (h : GoInputs u d) (hi : d.name ∉ [g!"_instance", g!"_spanDecorator"]) :
    (render u Text.opentracing d = some (tmOpentracing.out u d) ∧ Consists d (tmOpentracing.out u d) (tmOpentracing.decls u d)) ∧
      ∀ (G : GoTypes) (D : Tracing), D.iface = ⟨d.name, d.type⟩ → Generates G (tmOpentracing.decls u d) (decoratorName d g!"WithTracing") d D.openTracingLink D.openTracingDecorator := by
  have hpl := names_plain h
  obtain ⟨⟨h1, h2⟩, _, _, h3⟩ := generates_of tmOpentracing_sound h (goodNames_dec h g!"WithTracing" (by decide) ⟨'W', by decide, by decide⟩)
    (ty := (.name (decoratorName d g!"WithTracing"))) rfl (w := fun m => m.acceptsContext) (stmts := openTracingStmts d.name d.type)
    (tmOpentracing_file u d) (tmOpentracing_around u d (tmOpentracing.names u d) _) (fun e he => tmOpentracing_method u d e.2 (ctx_params h e he))
  refine ⟨⟨h1, ⟨h2, tmOpentracing_grammatical h⟩⟩, fun G D hD => h3 G _ _ ?_ ?_ ?_ ?_ ?_⟩
  · simp [fieldsOpentracing, FieldDecl.names, Tracing.openTracingDecorator, hD]
  · simp [fieldsOpentracing, FieldDecl.embeds, Ty.put, Tracing.openTracingDecorator, hD]
  · copied
  · intro e _ hw
    exact if_neg (by simp [hw])
  · intro e he hw
    refine ⟨_, if_pos hw, fun self args => ?_⟩
    · have := tmOpentracing_den D e.2 (hpl e he).1 (hpl e he).2 (by rw [hD]; exact hi)
      rw [hD] at this
      rw [this]

/-- templates/opentracing. -/
theorem C66_opentracing (u : Uni) (d : Inputs) (h : GoInputs u d) (hi : d.name ∉ [g!"_instance", g!"_spanDecorator"]) :
    ∃ s ds, render u Text.opentracing d = some s ∧ Consists d s ds ∧
      ∀ (G : GoTypes) (D : Tracing), D.iface = ⟨d.name, d.type⟩ → Generates G ds (decoratorName d g!"WithTracing") d D.openTracingLink D.openTracingDecorator :=
  ⟨_, _, (gen_opentracing u d h hi).1.1, (gen_opentracing u d h hi).1.2, (gen_opentracing u d h hi).2⟩

example := C66_opentracing Uni.ascii storeInputs store_good (by decide)

theorem gen_opencensus (u : Uni) (d : Inputs) (h : GoInputs u d) (hi : d.name ∉ [g!"_instance", g!"_spanDecorator"]) :
    (render u Text.opencensus d = some (tmOpencensus.out u d) ∧ Consists d (tmOpencensus.out u d) (tmOpencensus.decls u d)) ∧
      ∀ (G : GoTypes) (D : Tracing), D.iface = ⟨d.name, d.type⟩ → Generates G (tmOpencensus.decls u d) (decoratorName d g!"WithTracing") d D.openCensusLink D.openCensusDecorator := by
  have hpl := names_plain h
  obtain ⟨⟨h1, h2⟩, _, _, h3⟩ := generates_of tmOpencensus_sound h (goodNames_dec h g!"WithTracing" (by decide) ⟨'W', by decide, by decide⟩)
    (ty := (.name (decoratorName d g!"WithTracing"))) rfl (w := fun m => m.acceptsContext) (stmts := openCensusStmts d.name d.type)
    (tmOpencensus_file u d) (tmOpencensus_around u d (tmOpencensus.names u d) _) (fun e he => tmOpencensus_method u d e.2 (ctx_params h e he))
  refine ⟨⟨h1, ⟨h2, tmOpencensus_grammatical h⟩⟩, fun G D hD => h3 G _ _ ?_ ?_ ?_ ?_ ?_⟩
  · simp [fieldsOpencensus, FieldDecl.names, Tracing.openCensusDecorator, hD]
  · simp [fieldsOpencensus, FieldDecl.embeds, Ty.put, Tracing.openCensusDecorator, hD]
  · copied
  · intro e _ hw
    exact if_neg (by simp [hw])
  · intro e he hw
    refine ⟨_, if_pos hw, fun self args => ?_⟩
    · have := tmOpencensus_den D e.2 (hpl e he).1 (hpl e he).2 (by rw [hD]; exact hi)
      rw [hD] at this
      rw [this]

/-- templates/opencensus. -/
theorem C66_opencensus (u : Uni) (d : Inputs) (h : GoInputs u d) (hi : d.name ∉ [g!"_instance", g!"_spanDecorator"]) :
    ∃ s ds, render u Text.opencensus d = some s ∧ Consists d s ds ∧
      ∀ (G : GoTypes) (D : Tracing), D.iface = ⟨d.name, d.type⟩ → Generates G ds (decoratorName d g!"WithTracing") d D.openCensusLink D.openCensusDecorator :=
  ⟨_, _, (gen_opencensus u d h hi).1.1, (gen_opencensus u d h hi).1.2, (gen_opencensus u d h hi).2⟩

example := C66_opencensus Uni.ascii storeInputs store_good (by decide)

theorem gen_opentelemetry (u : Uni) (d : Inputs) (h : GoInputs u d) (hi : d.name ∉ [g!"_instance", g!"_spanDecorator"]) :
    (render u Text.opentelemetry d = some (tmOpentelemetry.out u d) ∧ Consists d (tmOpentelemetry.out u d) (tmOpentelemetry.decls u d)) ∧
      ∀ (G : GoTypes) (D : Tracing), D.iface = ⟨d.name, d.type⟩ → D.spanNameType = cliVar d g!"SpanNamePrefix" d.name → Generates G (tmOpentelemetry.decls u d) (decoratorName d g!"WithTracing") d D.openTelemetryLink D.openTelemetryDecorator := by
  have hpl := names_plain h
  obtain ⟨⟨h1, h2⟩, _, _, h3⟩ := generates_of tmOpentelemetry_sound h (goodNames_span h)
    (ty := (.name (decoratorName d g!"WithTracing"))) rfl (w := fun m => m.acceptsContext) (stmts := openTelemetryStmts d.name (tmOpentelemetry.names u d).span)
    (tmOpentelemetry_file u d) (tmOpentelemetry_around u d (tmOpentelemetry.names u d) _) (fun e he => tmOpentelemetry_method u d e.2 (ctx_params h e he))
  refine ⟨⟨h1, ⟨h2, tmOpentelemetry_grammatical h⟩⟩, fun G D hD hD2 => h3 G _ _ ?_ ?_ ?_ ?_ ?_⟩
  · simp [fieldsOpentelemetry, FieldDecl.names, Tracing.openTelemetryDecorator, hD]
  · simp [fieldsOpentelemetry, FieldDecl.embeds, Ty.put, Tracing.openTelemetryDecorator, hD]
  · copied
  · intro e _ hw
    exact if_neg (by simp [hw])
  · intro e he hw
    refine ⟨_, if_pos hw, fun self args => ?_⟩
    · have := tmOpentelemetry_den D e.2 (hpl e he).1 (hpl e he).2 (by rw [hD]; exact hi)
      rw [hD, hD2] at this
      rw [← this]; rfl

/-- templates/opentelemetry. -/
theorem C66_opentelemetry (u : Uni) (d : Inputs) (h : GoInputs u d) (hi : d.name ∉ [g!"_instance", g!"_spanDecorator"]) :
    ∃ s ds, render u Text.opentelemetry d = some s ∧ Consists d s ds ∧
      ∀ (G : GoTypes) (D : Tracing), D.iface = ⟨d.name, d.type⟩ → D.spanNameType = cliVar d g!"SpanNamePrefix" d.name → Generates G ds (decoratorName d g!"WithTracing") d D.openTelemetryLink D.openTelemetryDecorator :=
  ⟨_, _, (gen_opentelemetry u d h hi).1.1, (gen_opentelemetry u d h hi).1.2, (gen_opentelemetry u d h hi).2⟩

example := C66_opentelemetry Uni.ascii storeInputs store_good (by decide)

theorem gen_elasticapm (u : Uni) (d : Inputs) (h : GoInputs u d) :
    (render u Text.elasticapm d = some (tmElasticapm.out u d) ∧ Consists d (tmElasticapm.out u d) (tmElasticapm.decls u d)) ∧
      ∀ (G : GoTypes) (D : Apm), D.uni = u → D.component = cliVar d g!"ComponentName" (u.lower d.name) → Generates G (tmElasticapm.decls u d) (decoratorName d g!"APMTracing") d D.link D.decorator := by
  have hpl := names_plain h
  obtain ⟨⟨h1, h2⟩, _, _, h3⟩ := generates_of tmElasticapm_sound h (goodNames_apm h)
    (ty := (.name (decoratorName d g!"APMTracing"))) rfl (w := fun m => m.acceptsContext) (stmts := apmStmts u (tmElasticapm.names u d).component)
    (tmElasticapm_file u d) (tmElasticapm_around u d (tmElasticapm.names u d) _) (fun e he => tmElasticapm_method u d e.2 (ctx_params h e he))
  refine ⟨⟨h1, ⟨h2, tmElasticapm_grammatical h⟩⟩, fun G D hD hD2 => h3 G _ _ ?_ ?_ ?_ ?_ ?_⟩
  · simp [fieldsElasticapm, FieldDecl.names, Apm.decorator]
  · simp [fieldsElasticapm, FieldDecl.embeds, Ty.put, Apm.decorator]
  · copied
  · intro e _ hw
    exact if_neg (by simp [hw])
  · intro e he hw
    refine ⟨_, if_pos hw, fun self args => ?_⟩
    · have := tmElasticapm_den D e.2 (hpl e he).1
      rw [hD, hD2] at this
      rw [← this, ← variable_lower]; rfl

/-- templates/elasticapm. -/
theorem C66_elasticapm (u : Uni) (d : Inputs) (h : GoInputs u d) :
    ∃ s ds, render u Text.elasticapm d = some s ∧ Consists d s ds ∧
      ∀ (G : GoTypes) (D : Apm), D.uni = u → D.component = cliVar d g!"ComponentName" (u.lower d.name) → Generates G ds (decoratorName d g!"APMTracing") d D.link D.decorator :=
  ⟨_, _, (gen_elasticapm u d h).1.1, (gen_elasticapm u d h).1.2, (gen_elasticapm u d h).2⟩

example := C66_elasticapm Uni.ascii storeInputs store_good

theorem gen_validate (u : Uni) (d : Inputs) (h : GoInputs u d) :
    (render u Text.validate d = some (tmValidate.out u d) ∧ Consists d (tmValidate.out u d) (tmValidate.decls u d)) ∧
      ∀ (G : GoTypes) (base : Val), Generates G (tmValidate.decls u d) (decoratorName d g!"WithValidation") d (validateLink G d.name base) (validateDecorator G d.name base) := by
  have hpl := names_plain h
  obtain ⟨⟨h1, h2⟩, _, _, h3⟩ := generates_of tmValidate_sound h (goodNames_dec h g!"WithValidation" (by decide) ⟨'W', by decide, by decide⟩)
    (ty := (.name (decoratorName d g!"WithValidation"))) rfl (w := fun _ => true) (stmts := validateStmts [.ret []] d.name)
    (tmValidate_file u d) (tmValidate_around u d (tmValidate.names u d) _) (fun e he => tmValidate_method u d e.2)
  refine ⟨⟨h1, ⟨h2, tmValidate_grammatical h⟩⟩, fun G base => h3 G _ _ ?_ ?_ ?_ ?_ ?_⟩
  · simp [fieldsValidate, FieldDecl.names, validateDecorator]
  · simp [fieldsValidate, FieldDecl.embeds, Ty.put, validateDecorator]
  · copied
  · exact fun _ _ hw => nomatch hw
  · intro e he _
    refine ⟨_, rfl, fun self args => ?_⟩
    · rw [tmValidate_den G d.name base e.2 (hpl e he).1]

/-- templates/validate. -/
theorem C66_validate (u : Uni) (d : Inputs) (h : GoInputs u d) :
    ∃ s ds, render u Text.validate d = some s ∧ Consists d s ds ∧
      ∀ (G : GoTypes) (base : Val), Generates G ds (decoratorName d g!"WithValidation") d (validateLink G d.name base) (validateDecorator G d.name base) :=
  ⟨_, _, (gen_validate u d h).1.1, (gen_validate u d h).1.2, (gen_validate u d h).2⟩

example := C66_validate Uni.ascii storeInputs store_good

theorem gen_twirp_validate (u : Uni) (d : Inputs) (h : GoInputs u d) :
    (render u Text.twirpValidate d = some (tmTwirpValidate.out u d) ∧ Consists d (tmTwirpValidate.out u d) (tmTwirpValidate.decls u d)) ∧
      ∀ (G : GoTypes) (base : Val), Generates G (tmTwirpValidate.decls u d) (decoratorName d g!"WithTwirpValidation") d (twirpValidateLink G d.name base) (twirpValidateDecorator G d.name base) := by
  have hpl := names_plain h
  obtain ⟨⟨h1, h2⟩, _, _, h3⟩ := generates_of tmTwirpValidate_sound h (goodNames_dec h g!"WithTwirpValidation" (by decide) ⟨'W', by decide, by decide⟩)
    (ty := (.name (decoratorName d g!"WithTwirpValidation"))) rfl (w := fun _ => true) (stmts := validateStmts twirpInvalidStmts d.name)
    (tmTwirpValidate_file u d) (tmTwirpValidate_around u d (tmTwirpValidate.names u d) _) (fun e he => tmTwirpValidate_method u d e.2)
  refine ⟨⟨h1, ⟨h2, tmTwirpValidate_grammatical h⟩⟩, fun G base => h3 G _ _ ?_ ?_ ?_ ?_ ?_⟩
  · simp [fieldsTwirpValidate, FieldDecl.names, twirpValidateDecorator]
  · simp [fieldsTwirpValidate, FieldDecl.embeds, Ty.put, twirpValidateDecorator]
  · copied
  · exact fun _ _ hw => nomatch hw
  · intro e he _
    refine ⟨_, rfl, fun self args => ?_⟩
    · rw [tmTwirpValidate_den G d.name base e.2 (hpl e he).1]

/-- templates/twirpValidate. -/
theorem C66_twirp_validate (u : Uni) (d : Inputs) (h : GoInputs u d) :
    ∃ s ds, render u Text.twirpValidate d = some s ∧ Consists d s ds ∧
      ∀ (G : GoTypes) (base : Val), Generates G ds (decoratorName d g!"WithTwirpValidation") d (twirpValidateLink G d.name base) (twirpValidateDecorator G d.name base) :=
  ⟨_, _, (gen_twirp_validate u d h).1.1, (gen_twirp_validate u d h).1.2, (gen_twirp_validate u d h).2⟩

example := C66_twirp_validate Uni.ascii storeInputs store_good

theorem gen_grpc_validate (u : Uni) (d : Inputs) (h : GoInputs u d) :
    (render u Text.grpcValidate d = some (tmGrpcValidate.out u d) ∧ Consists d (tmGrpcValidate.out u d) (tmGrpcValidate.decls u d)) ∧
      ∀ (G : GoTypes) (base : Val), Generates G (tmGrpcValidate.decls u d) (decoratorName d g!"WithGRPCValidation") d (grpcValidateLink G d.name base) (grpcValidateDecorator G d.name base) := by
  have hpl := names_plain h
  obtain ⟨⟨h1, h2⟩, _, _, h3⟩ := generates_of tmGrpcValidate_sound h (goodNames_dec h g!"WithGRPCValidation" (by decide) ⟨'W', by decide, by decide⟩)
    (ty := (.name (decoratorName d g!"WithGRPCValidation"))) rfl (w := fun m => m.returnsError) (stmts := validateStmts grpcInvalidStmts d.name)
    (tmGrpcValidate_file u d) (tmGrpcValidate_around u d (tmGrpcValidate.names u d) _) (fun e he => tmGrpcValidate_method u d e.2)
  refine ⟨⟨h1, ⟨h2, tmGrpcValidate_grammatical h⟩⟩, fun G base => h3 G _ _ ?_ ?_ ?_ ?_ ?_⟩
  · simp [fieldsGrpcValidate, FieldDecl.names, grpcValidateDecorator]
  · simp [fieldsGrpcValidate, FieldDecl.embeds, Ty.put, grpcValidateDecorator]
  · copied
  · intro e _ hw
    exact if_neg (by simp [hw])
  · intro e he hw
    refine ⟨_, if_pos hw, fun self args => ?_⟩
    · rw [tmGrpcValidate_den G d.name base e.2 (hpl e he).1 hw]

/-- templates/grpcValidate. -/
theorem C66_grpc_validate (u : Uni) (d : Inputs) (h : GoInputs u d) :
    ∃ s ds, render u Text.grpcValidate d = some s ∧ Consists d s ds ∧
      ∀ (G : GoTypes) (base : Val), Generates G ds (decoratorName d g!"WithGRPCValidation") d (grpcValidateLink G d.name base) (grpcValidateDecorator G d.name base) :=
  ⟨_, _, (gen_grpc_validate u d h).1.1, (gen_grpc_validate u d h).1.2, (gen_grpc_validate u d h).2⟩

example := C66_grpc_validate Uni.ascii storeInputs store_good

theorem gen_twirp_error (u : Uni) (d : Inputs) (h : GoInputs u d) :
    (render u Text.twirpError d = some (tmTwirpError.out u d) ∧ Consists d (tmTwirpError.out u d) (tmTwirpError.decls u d)) ∧
      ∀ (G : GoTypes) (base : Val), Generates G (tmTwirpError.decls u d) (decoratorName d g!"WithTwirpError") d (twirpErrorLink G d.name base (funcBody g!"injectRequestDataToError" (tmTwirpError.decls u d))) (twirpErrorDecorator G d.name base) := by
  have hpl := names_plain h
  obtain ⟨⟨h1, h2⟩, _, _, h3⟩ := generates_of tmTwirpError_sound h (goodNames_dec h g!"WithTwirpError" (by decide) ⟨'W', by decide, by decide⟩)
    (ty := (.name (decoratorName d g!"WithTwirpError"))) rfl (w := fun _ => true) (stmts := twirpErrorStmts d.name)
    (tmTwirpError_file u d) (tmTwirpError_around u d (tmTwirpError.names u d) _) (fun e he => tmTwirpError_method u d e.2)
  refine ⟨⟨h1, ⟨h2, tmTwirpError_grammatical h⟩⟩, fun G base => h3 G _ _ ?_ ?_ ?_ ?_ ?_⟩
  · simp [fieldsTwirpError, FieldDecl.names, twirpErrorDecorator]
  · simp [fieldsTwirpError, FieldDecl.embeds, Ty.put, twirpErrorDecorator]
  · copied
  · exact fun _ _ hw => nomatch hw
  · intro e he _
    refine ⟨_, rfl, fun self args => ?_⟩
    · have hb : funcBody g!"injectRequestDataToError" (tmTwirpError.decls u d) = injectStmts := by
        refine funcBody_around (tmTwirpError_file u d) (w := fun _ => true) (ty := .name (decoratorName d g!"WithTwirpError"))
          (stmts := twirpErrorStmts d.name) (fun e _ => tmTwirpError_method u d e.2)
          (f := ([.mk [g!"req"] (.iface []), .mk [g!"perr"] (.ptr (.name g!"error"))], .none, injectStmts)) ?_
        simp [beforeTwirpError, afterTwirpError, flatDecls, Decl.flat, Decl.funcOf, injectStmts]
      rw [hb, tmTwirpError_den G d.name base e.2 (hpl e he).1]

/-- templates/twirp_error. -/
theorem C66_twirp_error (u : Uni) (d : Inputs) (h : GoInputs u d) :
    ∃ s ds, render u Text.twirpError d = some s ∧ Consists d s ds ∧
      ∀ (G : GoTypes) (base : Val), Generates G ds (decoratorName d g!"WithTwirpError") d (twirpErrorLink G d.name base (funcBody g!"injectRequestDataToError" ds)) (twirpErrorDecorator G d.name base) :=
  ⟨_, _, (gen_twirp_error u d h).1.1, (gen_twirp_error u d h).1.2, (gen_twirp_error u d h).2⟩

example := C66_twirp_error Uni.ascii storeInputs store_good

theorem gen_timeout (u : Uni) (d : Inputs) (h : GoInputs u d) :
    (render u Text.timeout d = some (tmTimeout.out u d) ∧ Consists d (tmTimeout.out u d) (tmTimeout.decls u d)) ∧
      ∀ (G : GoTypes) (base : Val) (config : Str → Int), Generates G (tmTimeout.decls u d) (decoratorName d g!"WithTimeout") d (fun m => timeoutLink d.name base (config m.name) m) (timeoutDecorator d.name base config) := by
  have hpl := names_plain h
  obtain ⟨⟨h1, h2⟩, _, _, h3⟩ := generates_of tmTimeout_sound h (goodNames_dec h g!"WithTimeout" (by decide) ⟨'W', by decide, by decide⟩)
    (ty := (.name (decoratorName d g!"WithTimeout"))) rfl (w := fun m => m.acceptsContext) (stmts := timeoutStmts d.name)
    (tmTimeout_file u d) (tmTimeout_around u d (tmTimeout.names u d) _) (fun e he => tmTimeout_method u d e.2 (ctx_params h e he))
  refine ⟨⟨h1, ⟨h2, tmTimeout_grammatical h⟩⟩, fun G base config => h3 G _ _ ?_ ?_ ?_ ?_ ?_⟩
  · simp [fieldsTimeout, FieldDecl.names, timeoutDecorator]
  · simp [fieldsTimeout, FieldDecl.embeds, Ty.put, timeoutDecorator]
  · copied
  · intro e _ hw
    exact if_neg (by simp [hw])
  · intro e he hw
    refine ⟨_, if_pos hw, fun self args => ?_⟩
    · rw [tmTimeout_den d.name base (config e.2.name) e.2 (hpl e he).1]

/-- templates/timeout. -/
theorem C66_timeout (u : Uni) (d : Inputs) (h : GoInputs u d) :
    ∃ s ds, render u Text.timeout d = some s ∧ Consists d s ds ∧
      ∀ (G : GoTypes) (base : Val) (config : Str → Int), Generates G ds (decoratorName d g!"WithTimeout") d (fun m => timeoutLink d.name base (config m.name) m) (timeoutDecorator d.name base config) :=
  ⟨_, _, (gen_timeout u d h).1.1, (gen_timeout u d h).1.2, (gen_timeout u d h).2⟩

example := C66_timeout Uni.ascii storeInputs store_good

theorem gen_circuitbreaker (u : Uni) (d : Inputs) (h : GoInputs u d) (hi : d.name ∉ [g!"_lock", g!"_maxConsecutiveErrors", g!"_consecutiveErrors", g!"_openInterval", g!"_closesAt", g!"_ignoreErrors"]) :
    (render u Text.circuitbreaker d = some (tmCircuitbreaker.out u d) ∧ Consists d (tmCircuitbreaker.out u d) (tmCircuitbreaker.decls u d)) ∧
      ∀ (G : GoTypes) (D : Breaker), D.iface = d.name → D.dec = decoratorName d g!"WithCircuitBreaker" → Generates G (tmCircuitbreaker.decls u d) (decoratorName d g!"WithCircuitBreaker") d D.link D.decorator := by
  have hpl := names_plain h
  obtain ⟨⟨h1, h2⟩, _, _, h3⟩ := generates_of tmCircuitbreaker_sound h (goodNames_dec h g!"WithCircuitBreaker" (by decide) ⟨'W', by decide, by decide⟩)
    (ty := (.ptr (.name (decoratorName d g!"WithCircuitBreaker")))) rfl (w := fun m => m.returnsError) (stmts := breakerStmts (tmCircuitbreaker.names u d).dec d.name)
    (tmCircuitbreaker_file u d) (tmCircuitbreaker_around u d (tmCircuitbreaker.names u d) _) (fun e he => tmCircuitbreaker_method u d e.2 (h.methods e he).2.err)
  refine ⟨⟨h1, ⟨h2, tmCircuitbreaker_grammatical h⟩⟩, fun G D hD hD2 => h3 G _ _ ?_ ?_ ?_ ?_ ?_⟩
  · simp [fieldsCircuitbreaker, FieldDecl.names, Breaker.decorator, hD]
  · simp [fieldsCircuitbreaker, FieldDecl.embeds, Ty.put, Breaker.decorator, hD]
  · copied
  · intro e _ hw
    exact if_neg (by simp [hw])
  · intro e he hw
    refine ⟨_, if_pos hw, fun self args => ?_⟩
    · have := tmCircuitbreaker_den (d := D) e.2 (by rw [Breaker.Fields, hD]; exact hi) (hpl e he).1
      rw [hD, hD2] at this
      rw [← this]; rfl

/-- templates/circuitbreaker. -/
theorem C66_circuitbreaker (u : Uni) (d : Inputs) (h : GoInputs u d) (hi : d.name ∉ [g!"_lock", g!"_maxConsecutiveErrors", g!"_consecutiveErrors", g!"_openInterval", g!"_closesAt", g!"_ignoreErrors"]) :
    ∃ s ds, render u Text.circuitbreaker d = some s ∧ Consists d s ds ∧
      ∀ (G : GoTypes) (D : Breaker), D.iface = d.name → D.dec = decoratorName d g!"WithCircuitBreaker" → Generates G ds (decoratorName d g!"WithCircuitBreaker") d D.link D.decorator :=
  ⟨_, _, (gen_circuitbreaker u d h hi).1.1, (gen_circuitbreaker u d h hi).1.2, (gen_circuitbreaker u d h hi).2⟩

example := C66_circuitbreaker Uni.ascii storeInputs store_good (by decide)

theorem gen_retry (u : Uni) (d : Inputs) (h : GoInputs u d) (hi : d.name ∉ [g!"_retryCount", g!"_retryInterval"]) (hx : ∀ e ∈ d.methods, e.2.returnsError = true → g!"_i" ∉ e.2.rnames) :
    (render u Text.retry d = some (tmRetry.out u d) ∧ Consists d (tmRetry.out u d) (tmRetry.decls u d)) ∧
      ∀ (G : GoTypes) (D : Retry), D.iface = d.name → Generates G (tmRetry.decls u d) (decoratorName d g!"WithRetry") d D.link D.decorator := by
  have hpl := names_plain h
  obtain ⟨⟨h1, h2⟩, _, _, h3⟩ := generates_of tmRetry_sound h (goodNames_dec h g!"WithRetry" (by decide) ⟨'W', by decide, by decide⟩)
    (ty := (.name (decoratorName d g!"WithRetry"))) rfl (w := fun m => m.returnsError) (stmts := retryStmts d.name)
    (tmRetry_file u d) (tmRetry_around u d (tmRetry.names u d) _) (fun e he => tmRetry_method u d e.2 (h.methods e he).2.err)
  refine ⟨⟨h1, ⟨h2, tmRetry_grammatical h⟩⟩, fun G D hD => h3 G _ _ ?_ ?_ ?_ ?_ ?_⟩
  · simp [fieldsRetry, FieldDecl.names, Retry.decorator, hD]
  · simp [fieldsRetry, FieldDecl.embeds, Ty.put, Retry.decorator, hD]
  · copied
  · intro e _ hw
    exact if_neg (by simp [hw])
  · intro e he hw
    refine ⟨_, if_pos hw, fun self args => ?_⟩
    · have := tmRetry_den (d := D) (m := e.2) (by rw [Retry.Fields, hD]; exact hi) (hpl e he).1 (hx e he hw)
      rw [hD] at this
      rw [this]

/-- templates/retry. -/
theorem C66_retry (u : Uni) (d : Inputs) (h : GoInputs u d) (hi : d.name ∉ [g!"_retryCount", g!"_retryInterval"]) (hx : ∀ e ∈ d.methods, e.2.returnsError = true → g!"_i" ∉ e.2.rnames) :
    ∃ s ds, render u Text.retry d = some s ∧ Consists d s ds ∧
      ∀ (G : GoTypes) (D : Retry), D.iface = d.name → Generates G ds (decoratorName d g!"WithRetry") d D.link D.decorator :=
  ⟨_, _, (gen_retry u d h hi hx).1.1, (gen_retry u d h hi hx).1.2, (gen_retry u d h hi hx).2⟩

example := C66_retry Uni.ascii storeInputs store_good (by decide) (by decide)

theorem gen_ratelimit (u : Uni) (d : Inputs) (h : GoInputs u d) :
    (render u Text.ratelimit d = some (tmRatelimit.out u d) ∧ Consists d (tmRatelimit.out u d) (tmRatelimit.decls u d)) ∧
      ∀ (G : GoTypes) (base : Val), Generates G (tmRatelimit.decls u d) (decoratorName d g!"WithRateLimit") d (rateLimitLink base) (rateLimitDecorator base) := by
  have hpl := names_plain h
  obtain ⟨⟨h1, h2⟩, _, _, h3⟩ := generates_of tmRatelimit_sound h (goodNames_dec h g!"WithRateLimit" (by decide) ⟨'W', by decide, by decide⟩)
    (ty := (.ptr (.name (decoratorName d g!"WithRateLimit")))) rfl (w := fun _ => true) (stmts := rateLimitStmts)
    (tmRatelimit_file u d) (tmRatelimit_around u d (tmRatelimit.names u d) _) (fun e he => tmRatelimit_method u d e.2)
  refine ⟨⟨h1, ⟨h2, tmRatelimit_grammatical h⟩⟩, fun G base => h3 G _ _ ?_ ?_ ?_ ?_ ?_⟩
  · simp [fieldsRatelimit, FieldDecl.names, rateLimitDecorator]
  · simp [fieldsRatelimit, FieldDecl.embeds, Ty.put, rateLimitDecorator]
  · copied
  · exact fun _ _ hw => nomatch hw
  · intro e he _
    refine ⟨_, rfl, fun self args => ?_⟩
    · rw [tmRatelimit_den base e.2 (hpl e he).1]

/-- templates/ratelimit. -/
theorem C66_ratelimit (u : Uni) (d : Inputs) (h : GoInputs u d) :
    ∃ s ds, render u Text.ratelimit d = some s ∧ Consists d s ds ∧
      ∀ (G : GoTypes) (base : Val), Generates G ds (decoratorName d g!"WithRateLimit") d (rateLimitLink base) (rateLimitDecorator base) :=
  ⟨_, _, (gen_ratelimit u d h).1.1, (gen_ratelimit u d h).1.2, (gen_ratelimit u d h).2⟩

example := C66_ratelimit Uni.ascii storeInputs store_good

theorem gen_robinpool (u : Uni) (d : Inputs) (h : GoInputs u d) :
    (render u Text.robinpool d = some (tmRobinpool.out u d) ∧ Consists d (tmRobinpool.out u d) (tmRobinpool.decls u d)) ∧
      ∀ (G : GoTypes) (pool : List Val), Generates G (tmRobinpool.decls u d) (decoratorName d g!"RoundRobinPool") d (robinPoolLink pool) (robinPoolDecorator pool) := by
  have hpl := names_plain h
  obtain ⟨⟨h1, h2⟩, _, _, h3⟩ := generates_of tmRobinpool_sound h (goodNames_dec h g!"RoundRobinPool" (by decide) ⟨'R', by decide, by decide⟩)
    (ty := (.ptr (.name (decoratorName d g!"RoundRobinPool")))) rfl (w := fun _ => true) (stmts := robinPoolStmts)
    (tmRobinpool_file u d) (tmRobinpool_around u d (tmRobinpool.names u d) _) (fun e he => tmRobinpool_method u d e.2)
  refine ⟨⟨h1, ⟨h2, tmRobinpool_grammatical h⟩⟩, fun G pool => h3 G _ _ ?_ ?_ ?_ ?_ ?_⟩
  · simp [fieldsRobinpool, FieldDecl.names, robinPoolDecorator]
  · simp [fieldsRobinpool, FieldDecl.embeds, Ty.put, robinPoolDecorator]
  · copied
  · exact fun _ _ hw => nomatch hw
  · intro e he _
    refine ⟨_, rfl, fun self args => ?_⟩
    · rw [tmRobinpool_den pool e.2 (hpl e he).1]

/-- templates/robinpool. -/
theorem C66_robinpool (u : Uni) (d : Inputs) (h : GoInputs u d) :
    ∃ s ds, render u Text.robinpool d = some s ∧ Consists d s ds ∧
      ∀ (G : GoTypes) (pool : List Val), Generates G ds (decoratorName d g!"RoundRobinPool") d (robinPoolLink pool) (robinPoolDecorator pool) :=
  ⟨_, _, (gen_robinpool u d h).1.1, (gen_robinpool u d h).1.2, (gen_robinpool u d h).2⟩

example := C66_robinpool Uni.ascii storeInputs store_good

theorem gen_syncpool (u : Uni) (d : Inputs) (h : GoInputs u d) :
    (render u Text.syncpool d = some (tmSyncpool.out u d) ∧ Consists d (tmSyncpool.out u d) (tmSyncpool.decls u d)) ∧
      ∀ (G : GoTypes), Generates G (tmSyncpool.decls u d) (decoratorName d g!"Pool") d syncPoolLink syncPoolDecorator := by
  have hpl := names_plain h
  obtain ⟨⟨h1, h2⟩, _, _, h3⟩ := generates_of tmSyncpool_sound h (goodNames_dec h g!"Pool" (by decide) ⟨'P', by decide, by decide⟩)
    (ty := (.name (decoratorName d g!"Pool"))) rfl (w := fun _ => true) (stmts := syncPoolStmts)
    (tmSyncpool_file u d) (tmSyncpool_around u d (tmSyncpool.names u d) _) (fun e he => tmSyncpool_method u d e.2)
  refine ⟨⟨h1, ⟨h2, tmSyncpool_grammatical h⟩⟩, fun G => h3 G _ _ ?_ ?_ ?_ ?_ ?_⟩
  · simp [fieldsSyncpool, FieldDecl.names, syncPoolDecorator]
  · simp [fieldsSyncpool, FieldDecl.embeds, Ty.put, syncPoolDecorator]
  · copied
  · exact fun _ _ hw => nomatch hw
  · intro e he _
    refine ⟨_, rfl, fun self args => ?_⟩
    · rw [tmSyncpool_den e.2 (hpl e he).1]

/-- templates/syncpool. -/
theorem C66_syncpool (u : Uni) (d : Inputs) (h : GoInputs u d) :
    ∃ s ds, render u Text.syncpool d = some s ∧ Consists d s ds ∧
      ∀ (G : GoTypes), Generates G ds (decoratorName d g!"Pool") d syncPoolLink syncPoolDecorator :=
  ⟨_, _, (gen_syncpool u d h).1.1, (gen_syncpool u d h).1.2, (gen_syncpool u d h).2⟩

example := C66_syncpool Uni.ascii storeInputs store_good

theorem name_inj {ms : List Method} (hn : (ms.map (·.name)).Nodup) {a b : Method} (ha : a ∈ ms) (hb : b ∈ ms) (h : a.name = b.name) :
    a = b := by
  induction ms with
  | nil => exact nomatch ha
  | cons x ms ih =>
    rw [List.map_cons, List.nodup_cons] at hn
    rcases List.mem_cons.mp ha with h1 | h1
    · rcases List.mem_cons.mp hb with h2 | h2
      · rw [h1, h2]
      · exact absurd (h1 ▸ h ▸ List.mem_map_of_mem (f := (·.name)) h2) hn.1
    · rcases List.mem_cons.mp hb with h2 | h2
      · exact absurd (h2 ▸ h ▸ List.mem_map_of_mem (f := (·.name)) h1) hn.1
      · exact ih hn.2 h1 h2

theorem goFns_fallback (type : Str) (m : Method) :
    goFns (fallbackStmts type m) = [([], launcherStmts type m), ([g!"_impl"], childStmts m)] := by
  unfold fallbackStmts awaitStmts launcherStmts launchBody childStmts implStmts wrapStmts sendStmt gotStmts doneStmts recvS
  cases m.returnsError <;> cases m.acceptsContext <;> cases m.hasResults <;> rfl

theorem exec_global {G : GoTypes} {m : Method} {self : Val} {x : Str} (h0 : x ≠ g!"_d") (h : x ∉ m.pnames ++ m.rnames) (s : Stm)
    (args : List Val) : m.exec G (g!"_d", self) (.global x s) args = m.exec G (g!"_d", self) s args := by
  unfold Method.exec
  split
  · rename_i hw
    have : m.start G (g!"_d", self) args x = none := by
      unfold Method.start
      rw [Env.setAll_not_mem _ fun hm => h (List.mem_append_right _ hm), Env.setAll_not_mem _ fun hm => h (List.mem_append_left _ hm)]
      simp [Env.set, h0]
    unfold Stm.global
    rw [this]
  · rfl

theorem gen_fallback (u : Uni) (d : Inputs) (h : GoInputs u d)
    (hs : ∀ e ∈ d.methods, e.2.returnsError = true → e.2.acceptsContext = true)
    (hx : ∀ e ∈ d.methods, ∀ x ∈ e.2.pnames ++ e.2.rnames, x ∉ [g!"_", g!"_res", g!"_impl", g!"len", g!"make", g!"append", g!"string"]) :
    (render u Text.fallback d = some (tmFallback.out u d) ∧ Consists d (tmFallback.out u d) (tmFallback.decls u d)) ∧
      ∀ (G : GoTypes) (D : Fallback), Generates G (tmFallback.decls u d) (decoratorName d g!"WithFallback") d D.link D.decorator ∧
        Starts (tmFallback.decls u d) (decoratorName d g!"WithFallback") d D.link D.goTree [.launcher, .impl] := by
  have hpl := names_plain h
  obtain ⟨⟨h1, h2⟩, h4, _, h3⟩ := generates_of tmFallback_sound h (goodNames_dec h g!"WithFallback" (by decide) ⟨'W', by decide, by decide⟩)
    (ty := (.name (decoratorName d g!"WithFallback"))) rfl (w := fun _ => true) (stmts := fallbackStmts d.type)
    (tmFallback_file u d) (tmFallback_around u d (tmFallback.names u d) _)
    (fun e he => tmFallback_method u d e.2 (h.methods e he).2.err (ctx_params h e he))
  refine ⟨⟨h1, ⟨h2, tmFallback_grammatical h⟩⟩, fun G D => ⟨h3 G _ _ ?_ ?_ ?_ ?_ ?_, ?_, ?_⟩⟩
  · simp [fieldsFallback, FieldDecl.names, Fallback.decorator]
  · simp [fieldsFallback, FieldDecl.embeds, Fallback.decorator]
  · intro _ e _
    refine onCopy_same rfl (fun p hp => ?_) (fun _ _ => rfl)
    match p, hp with
    | [r, x], hp =>
      cases hp
      rfl
    | _ :: _ :: _ :: _, _ => rfl
  · exact fun _ _ hw => nomatch hw
  · intro e he _
    refine ⟨_, rfl, fun self args => ?_⟩
    have hr : ∀ y ∈ e.2.pnames ++ e.2.rnames, y ≠ g!"_res" := fun y hy hc => hx e he y hy (by rw [hc]; decide)
    by_cases hw : e.2.WellDeclared (g!"_d", self) args
    · have hn : e.2.rnames.Nodup := (List.nodup_append.mp (List.nodup_cons.mp hw.1).2).2.1
      have hre : e.2.returnsError = true → e.2.hasResults = true := by
        intro hc
        have := (h.methods e he).2.err hc
        unfold Method.hasResults
        simpa [List.length_pos_iff] using this
      have hd : D.decorator.body e.2 = some (D.body e.2) := rfl
      rw [← tmFallback_den d.type hn (fun hm => hr _ (List.mem_append_right _ hm) rfl) hre (hs e he),
        exec_global (by decide) fun hm => hr _ hm rfl]
    · unfold Method.exec
      rw [if_neg hw, if_neg hw]
  · intro e he x hm hn f hf
    rw [h4] at hm
    obtain ⟨m, hms, rfl⟩ := List.mem_map.mp hm
    have hme : m = e.2 := by
      exact name_inj (sorted_nodup h) (List.mem_filter.mp hms).1 (mem_sorted.mpr ⟨e, he, rfl⟩) hn
    subst hme
    simp only [goFns_fallback, List.mem_cons, List.not_mem_nil, or_false] at hf
    have he' : Go.goEnd = Fallback.goEnd := rfl
    rcases hf with rfl | rfl
    · exact ⟨.launcher, rfl, fun env => he' ▸ fallback_launcher d.type env⟩
    · refine ⟨.impl, rfl, fun env => he' ▸ fallback_child (hpl e he).1 (hpl e he).2 ?_ ?_ env⟩
      · exact fun hc => hx e he _ (List.mem_append_right _ hc) (by decide)
      · exact fun hc => hx e he _ (List.mem_append_right _ hc) (by decide)
  · intro e he g hg
    rw [h4]
    refine ⟨_, List.mem_map.mpr ⟨e.2, List.mem_filter.mpr ⟨mem_sorted.mpr ⟨e, he, rfl⟩, rfl⟩, rfl⟩, rfl, ?_⟩
    simp only [goFns_fallback]
    simp only [List.mem_cons, List.not_mem_nil, or_false] at hg
    rcases hg with rfl | rfl
    · exact ⟨_, List.mem_cons_self, rfl⟩
    · exact ⟨_, List.mem_cons_of_mem _ List.mem_cons_self, rfl⟩

/-- templates/fallback: methods that return an error accept a context (C31), and no parameter or result hides a name that the
method uses. -/
theorem C66_fallback (u : Uni) (d : Inputs) (h : GoInputs u d)
    (hs : ∀ e ∈ d.methods, e.2.returnsError = true → e.2.acceptsContext = true)
    (hx : ∀ e ∈ d.methods, ∀ x ∈ e.2.pnames ++ e.2.rnames, x ∉ [g!"_", g!"_res", g!"_impl", g!"len", g!"make", g!"append", g!"string"]) :
    ∃ s ds, render u Text.fallback d = some s ∧ Consists d s ds ∧
      ∀ (G : GoTypes) (D : Fallback), Generates G ds (decoratorName d g!"WithFallback") d D.link D.decorator ∧
        Starts ds (decoratorName d g!"WithFallback") d D.link D.goTree [.launcher, .impl] :=
  ⟨_, _, (gen_fallback u d h hs hx).1.1, (gen_fallback u d h hs hx).1.2, (gen_fallback u d h hs hx).2⟩

example := C66_fallback Uni.ascii storeInputs store_good (by decide) (by decide)

end Gowrap.Props
